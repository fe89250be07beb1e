import Verif.Linalg.ArnoldiModel
import Mathlib.LinearAlgebra.Matrix.Rank
import Mathlib.Tactic.FinCases
import Mathlib.Tactic.Linarith
/-
Property C153: partial decompositions through scipy.
-/
namespace Verif.Arnoldi
open Matrix
variable {K : Type} [RCLike K]

namespace Spec
/-- `U` holds orthonormal eigenvectors of `M` for the eigenvalues `D`, and none of larger magnitude is left out: on the complement of their
span `M` does not stretch more than the least magnitude returned. This is the documented behaviour of `eigsh(M, k)`. -/
structure Largest {n k : Nat} (M : Matrix (Fin n) (Fin n) K) (D : Fin k → ℝ) (U : Matrix (Fin n) (Fin k) K) : Prop where
  eigen : M * U = U * diagonal (fun i => ((D i : ℝ) : K))
  orth : Uᴴ * U = 1
  rest : ∀ x, Uᴴ *ᵥ x = 0 → ∀ i, ∑ j, ‖(M *ᵥ x) j‖ ^ 2 ≤ D i ^ 2 * ∑ j, ‖x j‖ ^ 2

/-- The documented behaviour of `torch.sort(..., descending=True)`: a permutation that sorts. -/
def Sorts {k : Nat} (a : Fin k → ℝ) (p : Fin k → Fin k) : Prop := Function.Bijective p ∧ Antitone (fun i => a (p i))

/-- Singular triples of `M`, sorted, and no larger singular value is left out. Orthonormality of the right vectors is stated apart. -/
structure Triples {n k : Nat} (M : Matrix (Fin n) (Fin n) K) (U : Matrix (Fin n) (Fin k) K) (S : Fin k → ℝ) (V : Matrix (Fin n) (Fin k) K) : Prop where
  right : M * V = U * diagonal (fun i => ((S i : ℝ) : K))
  left : Uᴴ * M = diagonal (fun i => ((S i : ℝ) : K)) * Vᴴ
  orth : Uᴴ * U = 1
  nonneg : ∀ i, 0 ≤ S i
  sorted : Antitone S
  rest : ∀ x, Uᴴ *ᵥ x = 0 → ∀ i, ∑ j, ‖(M *ᵥ x) j‖ ^ 2 ≤ S i ^ 2 * ∑ j, ‖x j‖ ^ 2

/-- As many left vectors as values and right vectors, each a singular triple of `M`. -/
structure IsFac {m n : Nat} (M : Matrix (Fin m) (Fin n) K) (f : Fac K m n) : Prop where
  us : f.u = f.s
  vs : f.v = f.s
  right : ∀ i < f.s, M *ᵥ f.V i = fun x => ((f.S i : ℝ) : K) * f.U i x
  left : ∀ i < f.s, Mᴴ *ᵥ f.U i = fun x => ((f.S i : ℝ) : K) * f.V i x
  orthU : ∀ i < f.s, ∀ j < f.s, star (f.U i) ⬝ᵥ f.U j = if i = j then 1 else 0
  orthV : ∀ i < f.s, ∀ j < f.s, star (f.V i) ⬝ᵥ f.V j = if i = j then 1 else 0
  nonneg : ∀ i < f.s, 0 ≤ f.S i

/-- Values descend. -/
def Descending {m n : Nat} (f : Fac K m n) : Prop := ∀ i j, i ≤ j → j < f.s → f.S j ≤ f.S i

/-- The documented behaviour of `scipy.linalg.svd`: square factors, triples in descending order. -/
structure IsFull {m n : Nat} (M : Matrix (Fin m) (Fin n) K) (f : Fac K m n) : Prop where
  u : f.u = m
  s : f.s = min m n
  v : f.v = n
  fac : IsFac M { f with u := f.s, v := f.s }
  desc : Descending f
end Spec
open Spec

theorem sub_diag {n k : Nat} (M : Matrix (Fin n) (Fin n) K) (D : Fin k → ℝ) (U : Matrix (Fin n) (Fin k) K) (p : Fin k → Fin k)
    (h : M * U = U * diagonal (fun i => ((D i : ℝ) : K))) : M * U.submatrix id p = U.submatrix id p * diagonal (fun i => ((D (p i) : ℝ) : K)) := by
  ext x i
  have := congrFun (congrFun h x) (p i)
  rw [Matrix.mul_diagonal] at this ⊢
  exact this

theorem sub_orth {n k : Nat} (U : Matrix (Fin n) (Fin k) K) (p : Fin k → Fin k) (hp : Function.Injective p) (h : Uᴴ * U = 1) :
    (U.submatrix id p)ᴴ * U.submatrix id p = 1 := by
  ext i j
  have := congrFun (congrFun h (p i)) (p j)
  rw [Matrix.one_apply] at this ⊢
  simp only [hp.eq_iff] at this
  exact this

theorem sub_ker {n k : Nat} (U : Matrix (Fin n) (Fin k) K) (p : Fin k → Fin k) (hp : Function.Surjective p) (x : Fin n → K)
    (h : (U.submatrix id p)ᴴ *ᵥ x = 0) : Uᴴ *ᵥ x = 0 := by
  funext i
  obtain ⟨j, rfl⟩ := hp i
  exact congrFun h j

/-- **C153.** `SYMARNOLDI` returns the eigenpairs of largest magnitude, in order of descending magnitude. -/
theorem C153_eig {n k : Nat} (M : Matrix (Fin n) (Fin n) K) (D : Fin k → ℝ) (U : Matrix (Fin n) (Fin k) K) (p : Fin k → Fin k)
    (he : Largest M D U) (hp : Sorts (fun i => |D i|) p) :
    Largest M (symEig D U p).1 (symEig D U p).2 ∧ Antitone (fun i => |(symEig D U p).1 i|) :=
  ⟨⟨sub_diag M D U p he.eigen, sub_orth U p hp.1.1 he.orth, fun x hx i => he.rest x (sub_ker U p hp.1.2 x hx) (p i)⟩, hp.2⟩

theorem sign_mul_self' (x : ℝ) : x * Real.sign x = |x| := by
  rcases lt_trichotomy x 0 with h | h | h
  · rw [Real.sign_of_neg h, abs_of_neg h]; ring
  · simp [h]
  · rw [Real.sign_of_pos h, abs_of_pos h, mul_one]

theorem abs_mul_sign' (x : ℝ) : |x| * Real.sign x = x := by
  rcases lt_trichotomy x 0 with h | h | h
  · rw [Real.sign_of_neg h, abs_of_neg h]; ring
  · simp [h]
  · rw [Real.sign_of_pos h, abs_of_pos h, mul_one]

/-- **C153.** `SVDSYMARNOLDI` of a Hermitian matrix returns its leading singular triples, in descending order. -/
theorem C153_sym_partial {n k : Nat} (M : Matrix (Fin n) (Fin n) K) (hM : Mᴴ = M) (D : Fin k → ℝ) (U : Matrix (Fin n) (Fin k) K) (p : Fin k → Fin k)
    (he : Largest M D U) (hp : Sorts (fun i => |D i|) p) : Triples M (symSvd D U p).1 (symSvd D U p).2.1 (symSvd D U p).2.2 := by
  have h1 := sub_diag M D U p he.eigen
  refine ⟨?_, ?_, sub_orth U p hp.1.1 he.orth, fun i => abs_nonneg _, hp.2, ?_⟩
  · simp only [symSvd]
    rw [← Matrix.mul_assoc, h1, Matrix.mul_assoc, diagonal_mul_diagonal]
    congr 2
    funext i
    rw [← RCLike.ofReal_mul, sign_mul_self']
  · simp only [symSvd]
    have h2 := congrArg conjTranspose h1
    rw [conjTranspose_mul, hM, conjTranspose_mul, diagonal_conjTranspose] at h2
    rw [h2, conjTranspose_mul, diagonal_conjTranspose, ← Matrix.mul_assoc, diagonal_mul_diagonal]
    congr 2
    funext i
    simp only [Pi.star_apply, RCLike.star_def, RCLike.conj_ofReal]
    rw [← RCLike.ofReal_mul, abs_mul_sign']
  · intro x hx i
    have := he.rest x (sub_ker U p hp.1.2 x hx) (p i)
    simp only [symSvd, sq_abs]
    exact this

/-- **C153.** The right vectors are orthonormal exactly if no eigenvalue returned is zero. -/
theorem C153_sym_orth {n k : Nat} (M : Matrix (Fin n) (Fin n) K) (D : Fin k → ℝ) (U : Matrix (Fin n) (Fin k) K) (p : Fin k → Fin k)
    (he : Largest M D U) (hp : Sorts (fun i => |D i|) p) : (symSvd D U p).2.2ᴴ * (symSvd D U p).2.2 = 1 ↔ ∀ i, D i ≠ 0 := by
  have h1 := sub_orth U p hp.1.1 he.orth
  have h2 : (symSvd D U p).2.2ᴴ * (symSvd D U p).2.2 = diagonal (fun i => ((Real.sign (D (p i)) * Real.sign (D (p i)) : ℝ) : K)) := by
    simp only [symSvd]
    rw [conjTranspose_mul, Matrix.mul_assoc, ← Matrix.mul_assoc (U.submatrix id p)ᴴ, h1, Matrix.one_mul, diagonal_conjTranspose, diagonal_mul_diagonal]
    congr 1
    funext i
    simp
  rw [h2, ← diagonal_one]
  constructor
  · intro h i hi
    obtain ⟨j, rfl⟩ := hp.1.2 i
    have := congrFun (congrFun h j) j
    simp [hi] at this
  · intro h
    congr 1
    funext i
    rcases lt_or_gt_of_ne (h (p i)) with hh | hh
    · rw [Real.sign_of_neg hh]; simp
    · rw [Real.sign_of_pos hh]; simp

/-- **C153, violated.** Whenever more triples are asked for than the rank of the matrix, the right vectors are not orthonormal. -/
theorem C153_sym_violated {n k : Nat} (M : Matrix (Fin n) (Fin n) K) (D : Fin k → ℝ) (U : Matrix (Fin n) (Fin k) K) (p : Fin k → Fin k)
    (he : Largest M D U) (hp : Sorts (fun i => |D i|) p) (hr : M.rank < k) : (symSvd D U p).2.2ᴴ * (symSvd D U p).2.2 ≠ 1 := by
  intro h
  have hD := (C153_sym_orth M D U p he hp).1 h
  have h1 : Uᴴ * (M * U) = diagonal (fun i => ((D i : ℝ) : K)) := by rw [he.eigen, ← Matrix.mul_assoc, he.orth, Matrix.one_mul]
  have h2 : (diagonal (fun i => ((D i : ℝ) : K))).rank = k := by
    rw [Matrix.rank_diagonal, Fintype.card_of_subtype Finset.univ]
    · simp
    · intro i; simp [hD i]
  have h3 := (Matrix.rank_mul_le_right Uᴴ (M * U)).trans (Matrix.rank_mul_le_left M U)
  rw [h1, h2] at h3
  omega

/-- The hypotheses of `C153_sym_violated` are met: the zero matrix, one triple. -/
example : ∃ (M : Matrix (Fin 2) (Fin 2) ℝ) (D : Fin 1 → ℝ) (U : Matrix (Fin 2) (Fin 1) ℝ), Largest M D U ∧ Sorts (fun i => |D i|) id ∧ M.rank < 1 := by
  refine ⟨0, fun _ => 0, !![1; 0], ⟨?_, ?_, ?_⟩, ⟨Function.bijective_id, fun _ _ _ => le_rfl⟩, by simp⟩
  · ext i j; simp
  · ext i j; fin_cases i; fin_cases j; simp [Matrix.mul_apply]
  · intro x _ i; simp

/-- The hypotheses of `C153_sym_partial` are met: eigenvalues 1 and -2, returned in ascending order, sorted by magnitude. -/
example : ∃ (M : Matrix (Fin 2) (Fin 2) ℝ) (D : Fin 2 → ℝ) (U : Matrix (Fin 2) (Fin 2) ℝ), Mᴴ = M ∧ Largest M D U ∧ Sorts (fun i => |D i|) id ∧
    D 0 = -2 ∧ D 1 = 1 := by
  refine ⟨!![-2, 0; 0, 1], ![-2, 1], 1, ?_, ⟨?_, by simp, ?_⟩, ⟨Function.bijective_id, ?_⟩, rfl, rfl⟩
  · ext i j; fin_cases i <;> fin_cases j <;> simp
  · ext i j; fin_cases i <;> fin_cases j <;> simp
  · intro x hx i
    have : x = 0 := by simpa using hx
    simp [this]
  · intro i j h
    fin_cases i <;> fin_cases j <;> simp_all

/-- **C153.** `SVDARNOLDI`: in both branches the factors are singular triples of the matrix, `k` of them, if `k` does not exceed its dimensions;
when the full decomposition is used they are descending and no value left out is larger. -/
theorem C153_arnoldi_partial {m n : Nat} (M : Matrix (Fin m) (Fin n) K) (full part : Fac K m n) (k : Nat) (thresh : ℝ) (hf : IsFull M full)
    (hp : IsFac M part) (hk : part.s = k) (hkm : k ≤ min m n) :
    IsFac M (svdArnoldi full part k thresh) ∧ (svdArnoldi full part k thresh).s = k ∧
      ((m : ℝ) * thresh ≤ k ∨ (n : ℝ) * thresh ≤ k → Descending (svdArnoldi full part k thresh) ∧
        ∀ i < k, ∀ j, k ≤ j → j < min m n → full.S j ≤ (svdArnoldi full part k thresh).S i) := by
  unfold svdArnoldi
  have hu := hf.u
  have hs := hf.s
  have hv := hf.v
  split
  · rename_i hc
    have hlt : ∀ i, i < min k full.s → i < full.s := fun i h => by omega
    refine ⟨⟨?_, ?_, fun i hi => hf.fac.right i (hlt i hi), fun i hi => hf.fac.left i (hlt i hi),
      fun i hi j hj => hf.fac.orthU i (hlt i hi) j (hlt j hj), fun i hi j hj => hf.fac.orthV i (hlt i hi) j (hlt j hj), fun i hi => hf.fac.nonneg i (hlt i hi)⟩, ?_, fun _ => ⟨?_, ?_⟩⟩
    · simp only; omega
    · simp only; omega
    · simp only; omega
    · exact fun i j hij hj => hf.desc i j hij (hlt j hj)
    · intro i hi j hj hjm
      exact hf.desc i j (by omega) (by omega)
  · rename_i hc
    exact ⟨hp, hk, fun h => absurd h hc⟩

/-- **C153, violated.** For a rectangular matrix with `k` above the smaller dimension, the full branch returns different numbers of vectors and values. -/
theorem C153_ragged_violated {m n : Nat} (M : Matrix (Fin m) (Fin n) K) (full part : Fac K m n) (k : Nat) (thresh : ℝ) (hf : IsFull M full)
    (hmn : m ≠ n) (hk : min m n < k) (hc : (m : ℝ) * thresh ≤ k ∨ (n : ℝ) * thresh ≤ k) : ¬ IsFac M (svdArnoldi full part k thresh) := by
  intro h
  have h1 := h.us
  have h2 := h.vs
  have hu := hf.u
  have hs := hf.s
  have hv := hf.v
  simp only [svdArnoldi, hc, if_true] at h1 h2
  omega

/-- The two leading triples of the matrix diag(2, 1, 0), in the ascending order `svds` uses. -/
def exPart : Fac ℝ 3 3 := ⟨2, 2, 2, fun i => if i = 0 then ![0, 1, 0] else ![1, 0, 0], fun i => if i = 0 then 1 else 2, fun i => if i = 0 then ![0, 1, 0] else ![1, 0, 0]⟩

theorem exPart_fac : IsFac !![(2 : ℝ), 0, 0; 0, 1, 0; 0, 0, 0] exPart := by
  refine ⟨rfl, rfl, ?_, ?_, ?_, ?_, ?_⟩ <;> intro i hi <;> (change i < 2 at hi)
  · have : i = 0 ∨ i = 1 := by omega
    rcases this with rfl | rfl <;> funext x <;> fin_cases x <;> simp [exPart, Matrix.mulVec, dotProduct, Fin.sum_univ_three]
  · have : i = 0 ∨ i = 1 := by omega
    rcases this with rfl | rfl <;> funext x <;> fin_cases x <;> simp [exPart, Matrix.mulVec, dotProduct, Fin.sum_univ_three]
  · intro j hj
    change j < 2 at hj
    have h1 : i = 0 ∨ i = 1 := by omega
    have h2 : j = 0 ∨ j = 1 := by omega
    rcases h1 with rfl | rfl <;> rcases h2 with rfl | rfl <;> simp [exPart, dotProduct, Fin.sum_univ_three]
  · intro j hj
    change j < 2 at hj
    have h1 : i = 0 ∨ i = 1 := by omega
    have h2 : j = 0 ∨ j = 1 := by omega
    rcases h1 with rfl | rfl <;> rcases h2 with rfl | rfl <;> simp [exPart, dotProduct, Fin.sum_univ_three]
  · have : i = 0 ∨ i = 1 := by omega
    rcases this with rfl | rfl <;> simp [exPart]

/-- **C153, violated.** The partial branch passes on the order of `svds`, which is not descending: with two values of `diag(2, 1, 0)` asked for
and threshold one the smaller comes first. Any result of `svds` that is not descending is passed on. -/
theorem C153_order_violated :
    (∀ {m n : Nat} (full part : Fac K m n) (k : Nat) (thresh : ℝ), (k : ℝ) < m * thresh → (k : ℝ) < n * thresh → ¬ Descending part →
      ¬ Descending (svdArnoldi full part k thresh)) ∧
    ∃ (M : Matrix (Fin 3) (Fin 3) ℝ) (part : Fac ℝ 3 3), IsFac M part ∧ part.s = 2 ∧
      ∀ full, ¬ Descending (svdArnoldi full part 2 1) ∧ (svdArnoldi full part 2 1).S 0 = 1 ∧ (svdArnoldi full part 2 1).S 1 = 2 := by
  refine ⟨fun full part k thresh h1 h2 h => ?_, _, exPart, exPart_fac, rfl, fun full => ?_⟩
  · unfold svdArnoldi
    rw [if_neg (by rintro (h' | h') <;> linarith)]
    exact h
  · have h : svdArnoldi full exPart 2 1 = exPart := by
      unfold svdArnoldi
      rw [if_neg]
      norm_num
    rw [h]
    refine ⟨fun hd => ?_, rfl, rfl⟩
    have := hd 0 1 (by omega) (by change 1 < 2; omega)
    norm_num [exPart] at this

/-- **C153.** `SVD_PROPACK` returns the triples of `svds` in descending order, if `svds` returns them in ascending order. -/
theorem C153_propack {m n : Nat} (M : Matrix (Fin m) (Fin n) K) (part : Fac K m n) (hp : IsFac M part) (ha : ∀ i j, i ≤ j → j < part.s → part.S i ≤ part.S j) :
    IsFac M (svdPropack part) ∧ (svdPropack part).s = part.s ∧ Descending (svdPropack part) ∧
      ∀ i < part.s, ∃ j < part.s, (svdPropack part).U j = part.U i ∧ (svdPropack part).S j = part.S i ∧ (svdPropack part).V j = part.V i := by
  have hu := hp.us
  have hv := hp.vs
  have hlt : ∀ i, i < part.s → part.s - 1 - i < part.s := fun i h => by omega
  refine ⟨⟨hu, hv, ?_, ?_, ?_, ?_, fun i hi => hp.nonneg _ (hlt i hi)⟩, rfl, ?_, ?_⟩
  · intro i hi
    simp only [svdPropack, hu, hv]
    exact hp.right _ (hlt i hi)
  · intro i hi
    simp only [svdPropack, hu, hv]
    exact hp.left _ (hlt i hi)
  · intro i hi j hj
    simp only [svdPropack, hu] at hi hj ⊢
    rw [hp.orthU _ (hlt i hi) _ (hlt j hj)]
    congr 1
    exact propext ⟨fun h => by omega, fun h => by omega⟩
  · intro i hi j hj
    simp only [svdPropack, hv] at hi hj ⊢
    rw [hp.orthV _ (hlt i hi) _ (hlt j hj)]
    congr 1
    exact propext ⟨fun h => by omega, fun h => by omega⟩
  · intro i j hij hj
    simp only [svdPropack] at hj ⊢
    exact ha _ _ (by omega) (by omega)
  · intro i hi
    refine ⟨part.s - 1 - i, hlt i hi, ?_, ?_, ?_⟩ <;> simp only [svdPropack, hu, hv] <;> congr 1 <;> omega

/-- Non-vacuity of `C153_propack`. -/
example : Descending (svdPropack exPart) ∧ (svdPropack exPart).S 0 = 2 := by
  refine ⟨(C153_propack _ exPart exPart_fac ?_).2.2.1, rfl⟩
  intro i j hij hj
  change j < 2 at hj
  have h1 : i = 0 ∨ i = 1 := by omega
  have h2 : j = 0 ∨ j = 1 := by omega
  rcases h1 with rfl | rfl <;> rcases h2 with rfl | rfl <;> first | (exfalso; omega) | norm_num [exPart]

/-- The full decomposition of a column with entries 3 and 0. -/
def exFull : Fac ℝ 2 1 := ⟨2, 1, 1, fun i => if i = 0 then ![1, 0] else ![0, 1], fun _ => 3, fun _ => ![1]⟩

theorem exFull_full : IsFull !![(3 : ℝ); 0] exFull := by
  refine ⟨rfl, rfl, rfl, ⟨rfl, rfl, ?_, ?_, ?_, ?_, ?_⟩, fun _ _ _ _ => le_rfl⟩ <;> intro i hi <;> (change i < 1 at hi) <;> obtain rfl : i = 0 := by omega
  · funext x; fin_cases x <;> simp [exFull, Matrix.mulVec, dotProduct]
  · funext x; fin_cases x; simp [exFull, Matrix.mulVec, dotProduct]
  · intro j hj
    change j < 1 at hj
    obtain rfl : j = 0 := by omega
    simp [exFull, dotProduct]
  · intro j hj
    change j < 1 at hj
    obtain rfl : j = 0 := by omega
    simp [exFull, dotProduct]
  · simp [exFull]

/-- Non-vacuity of `C153_arnoldi_partial` (one triple) and `C153_ragged_violated` (two triples), with the default threshold. -/
example : IsFac !![(3 : ℝ); 0] (svdArnoldi exFull { exFull with u := 1 } 1 (1 / 10)) ∧ ¬ IsFac !![(3 : ℝ); 0] (svdArnoldi exFull exFull 2 (1 / 10)) :=
  ⟨(C153_arnoldi_partial _ exFull _ 1 (1 / 10) exFull_full exFull_full.fac rfl (by decide)).1,
    C153_ragged_violated _ exFull exFull 2 (1 / 10) exFull_full (by decide) (by decide) (Or.inl (by norm_num))⟩

end Verif.Arnoldi
