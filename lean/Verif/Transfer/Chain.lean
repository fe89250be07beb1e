import Verif.Transfer.Spectral
import Verif.Corrf.Lemmas
/-
Chains of linear maps attached to the vertices along a line: composition, shift of the starting point, reversal. Transfer operators of strips of any width are such chains.
-/
namespace Verif.Transfer
open Tensor Ctm Ctm.Spec Spec

section
variable {α : Type} [DecidableEq α]

/-- `n` maps with matrix elements `ker c j i` (from `j` in `S c` to `i`), starting at `c`. -/
def chain (S : Coord → Finset α) (ker : Coord → α → α → ℂ) (nx : Coord → Coord) : Nat → Coord → (α → ℂ) → α → ℂ
  | 0, _, E => E
  | n + 1, c, E => chain S ker nx n (nx c) (fun i => ∑ j ∈ S c, E j * ker c j i)

variable {S : Coord → Finset α} {ker : Coord → α → α → ℂ} {nx : Coord → Coord}

theorem chain_expand : ∀ (n : Nat) (c : Coord) (E : α → ℂ) (i : α), i ∈ S (nx^[n] c) →
    chain S ker nx n c E i = ∑ j ∈ S c, E j * chain S ker nx n c (Pi.single j 1) i
  | 0, c, E, i, hi => by
    simp only [chain, Function.iterate_zero, id] at hi ⊢
    rw [Finset.sum_eq_single_of_mem i hi (fun j _ hne => by rw [Pi.single_eq_of_ne (Ne.symm hne), mul_zero]), Pi.single_eq_same, mul_one]
  | n + 1, c, E, i, hi => by
    simp only [chain]
    rw [chain_expand n (nx c) _ i hi]
    have : ∀ j ∈ S c, E j * chain S ker nx n (nx c) (fun i => ∑ k ∈ S c, (Pi.single j 1 : α → ℂ) k * ker c k i) i =
        ∑ k ∈ S (nx c), E j * ker c j k * chain S ker nx n (nx c) (Pi.single k 1) i := by
      intro j hj
      rw [chain_expand n (nx c) _ i hi, Finset.mul_sum]
      refine Finset.sum_congr rfl (fun k _ => ?_)
      rw [Finset.sum_eq_single_of_mem j hj (fun l _ hne => by rw [Pi.single_eq_of_ne hne, zero_mul]), Pi.single_eq_same, one_mul, mul_assoc]
    rw [Finset.sum_congr rfl this, Finset.sum_comm]
    refine Finset.sum_congr rfl (fun k _ => ?_)
    rw [Finset.sum_mul]

omit [DecidableEq α] in
theorem chain_add (m n : Nat) (c : Coord) (E : α → ℂ) : chain S ker nx (m + n) c E = chain S ker nx n (nx^[m] c) (chain S ker nx m c E) := by
  induction m generalizing c E with
  | zero => simp [chain]
  | succ m ih => rw [Nat.succ_add]; simp only [chain]; rw [ih]; rfl

/-- The chain as a matrix from `B` to `A`. -/
def cmat (S : Coord → Finset α) (ker : Coord → α → α → ℂ) (nx : Coord → Coord) (n : Nat) (c : Coord) (A B : Finset α) : Matrix A B ℂ := fun i j =>
  chain S ker nx n c (Pi.single j.1 1) i.1

theorem cmat_mul (m n : Nat) (c : Coord) {A B C : Finset α} (hC : S (nx^[m] c) = C) (hA : S (nx^[m + n] c) = A) :
    cmat S ker nx (m + n) c A B = cmat S ker nx n (nx^[m] c) A C * cmat S ker nx m c C B := by
  ext i j
  rw [Matrix.mul_apply]
  simp only [cmat]
  rw [chain_add, chain_expand n (nx^[m] c) _ i.1 (by rw [← Function.iterate_add_apply, Nat.add_comm n m, hA]; exact i.2), hC, ← Finset.sum_coe_sort C]
  exact Finset.sum_congr rfl (fun k _ => mul_comm _ _)

theorem cmat_one (c : Coord) (A B : Finset α) (i : A) (j : B) (hj : j.1 ∈ S c) : cmat S ker nx 1 c A B i j = ker c j i := by
  simp only [cmat, chain]
  rw [Finset.sum_eq_single_of_mem j.1 hj (fun l _ hne => by rw [Pi.single_eq_of_ne hne, zero_mul]), Pi.single_eq_same, one_mul]

/-- Starting one vertex further does not change the nonzero eigenvalues of a period. -/
theorem cmat_shift {p : Nat} (hp : 0 < p) (hS : ∀ c, S (nx^[p] c) = S c) (hk : ∀ c, ker (nx^[p] c) = ker c) (c : Coord) :
    SameNonzero (cmat S ker nx p c (S c) (S c)) (cmat S ker nx p (nx c) (S (nx c)) (S (nx c))) := by
  obtain ⟨q, rfl⟩ : ∃ q, p = q + 1 := ⟨p - 1, by omega⟩
  have e1 : cmat S ker nx (q + 1) c (S c) (S c) = cmat S ker nx q (nx c) (S c) (S (nx c)) * cmat S ker nx 1 c (S (nx c)) (S c) := by
    rw [Nat.add_comm q 1]
    exact cmat_mul 1 q c rfl (by rw [Nat.add_comm 1 q]; exact hS c)
  have e2 : cmat S ker nx (q + 1) (nx c) (S (nx c)) (S (nx c)) = cmat S ker nx 1 (nx^[q + 1] c) (S (nx c)) (S c) * cmat S ker nx q (nx c) (S c) (S (nx c)) :=
    cmat_mul q 1 (nx c) (hS c) (hS (nx c))
  have e3 : cmat S ker nx 1 (nx^[q + 1] c) (S (nx c)) (S c) = cmat S ker nx 1 c (S (nx c)) (S c) := by
    ext i j
    rw [cmat_one _ _ _ _ _ (by rw [hS]; exact j.2), cmat_one _ _ _ _ _ j.2, hk]
  rw [e1, e2, e3]
  exact sameNonzero_mul_comm _ _

theorem cmat_shift_iter {p : Nat} (hp : 0 < p) (hS : ∀ c, S (nx^[p] c) = S c) (hk : ∀ c, ker (nx^[p] c) = ker c) (c : Coord) (m : Nat) :
    SameNonzero (cmat S ker nx p c (S c) (S c)) (cmat S ker nx p (nx^[m] c) (S (nx^[m] c)) (S (nx^[m] c))) := by
  induction m with
  | zero => exact Eq.refl _
  | succ m ih =>
    rw [Function.iterate_succ_apply']
    exact ih.trans (cmat_shift hp hS hk _)

/-- The chain run backwards is the transpose. -/
theorem cmat_reverse {S' : Coord → Finset α} {ker' : Coord → α → α → ℂ} {nx' : Coord → Coord} (hS : ∀ c, S' c = S (nx c)) (hk : ∀ c i j, ker' c i j = ker c j i)
    (hn : ∀ c, nx' (nx c) = c) (hn' : ∀ c, nx (nx' c) = c) : ∀ (n : Nat) (c : Coord) (A : Finset α), S (nx^[n + 1] c) = A →
    cmat S' ker' nx' (n + 1) (nx^[n] c) (S c) A = (cmat S ker nx (n + 1) c A (S c)).transpose
  | 0, c, A, hA => by
    ext i j
    rw [Matrix.transpose_apply, cmat_one _ _ _ _ _ (by rw [hS]; exact hA ▸ j.2), cmat_one _ _ _ _ _ i.2]
    exact hk _ _ _
  | n + 1, c, A, hA => by
    have it : nx'^[n + 1] (nx^[n + 1] c) = c := (Function.LeftInverse.iterate (f := nx) (g := nx') hn (n + 1)) c
    have it2 : nx'^[n + 1 + 1] (nx^[n + 1] c) = nx' c := by rw [Function.iterate_succ_apply', it]
    have e1 : cmat S' ker' nx' (n + 1 + 1) (nx^[n + 1] c) (S c) A =
        cmat S' ker' nx' 1 c (S c) (S (nx c)) * cmat S' ker' nx' (n + 1) (nx^[n] (nx c)) (S (nx c)) A := by
      have := cmat_mul (S := S') (ker := ker') (nx := nx') (n + 1) 1 (nx^[n + 1] c) (A := S c) (B := A) (C := S (nx c)) (by rw [it, hS])
        (by rw [it2, hS, hn'])
      rw [it] at this
      exact this
    have e2 : cmat S ker nx (n + 1 + 1) c A (S c) = cmat S ker nx (n + 1) (nx c) A (S (nx c)) * cmat S ker nx 1 c (S (nx c)) (S c) := by
      have := cmat_mul (S := S) (ker := ker) (nx := nx) 1 (n + 1) c (A := A) (B := S c) (C := S (nx c)) rfl (by rw [Nat.add_comm 1 (n + 1)]; exact hA)
      rw [Nat.add_comm 1 (n + 1)] at this
      exact this
    rw [e1, e2, Matrix.transpose_mul, cmat_reverse hS hk hn hn' n (nx c) A hA]
    congr 1
    ext i j
    rw [Matrix.transpose_apply, cmat_one _ _ _ _ _ (by rw [hS]; exact j.2), cmat_one _ _ _ _ _ i.2]
    exact hk _ _ _

end

/-- A function that multiplies flattened vectors by a matrix indexed by `A`. -/
theorem multiplies_of {α : Type} [DecidableEq α] {A : Finset α} {n : Nat} (φ : α → Nat) (hφ : Set.BijOn φ A (Set.Iio n)) (f : Tensor ℂ → Option (Tensor ℂ)) (M : Matrix A A ℂ)
    (hf : ∀ v : Tensor ℂ, v.shape = [n] → ∃ w, f v = some w ∧ w.shape = [n] ∧ ∀ k : A, w.val [φ k] = ∑ j : A, M k j * v.val [φ j]) :
    ∃ e : A ≃ Fin n, (∀ k, (e k).1 = φ k) ∧ Multiplies f (Matrix.reindex e e M) := by
  let g : A → Fin n := fun k => ⟨φ k, hφ.mapsTo k.2⟩
  have hg : Function.Bijective g := by
    constructor
    · intro a b h
      exact Subtype.ext (hφ.injOn a.2 b.2 (congrArg Fin.val h))
    · intro i
      obtain ⟨a, ha, e⟩ := hφ.surjOn i.2
      exact ⟨⟨a, ha⟩, Fin.ext e⟩
  refine ⟨Equiv.ofBijective g hg, fun k => rfl, ?_⟩
  intro v hv
  obtain ⟨w, e, s, h⟩ := hf v hv
  refine ⟨w, e, s, fun i => ?_⟩
  obtain ⟨k, rfl⟩ := hg.2 i
  show w.val [φ k] = _
  rw [h k, ← (Equiv.ofBijective g hg).sum_comp]
  refine Finset.sum_congr rfl (fun j _ => ?_)
  rw [Matrix.reindex_apply, Matrix.submatrix_apply]
  have : ∀ k, (Equiv.ofBijective g hg).symm (g k) = k := fun k => (Equiv.ofBijective g hg).symm_apply_apply k
  rw [this, Equiv.symm_apply_apply]
  rfl

end Verif.Transfer
