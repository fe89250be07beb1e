import Verif.Linalg.RsvdModel
import Mathlib.LinearAlgebra.Matrix.Rank
/-
Property C152: what the randomised truncated SVD returns, for every sample.
-/
namespace Verif.Rsvd
open Matrix
variable {K : Type} [RCLike K]

namespace Spec
/-- Documented behaviour of the two routines of torch: reduced QR; reduced SVD with non-negative singular values in descending order. -/
structure Contract (be : Backend K) : Prop where
  qr : ∀ {a b : Nat} (A : Matrix (Fin a) (Fin b) K), (be.qr A).1 * (be.qr A).2 = A ∧ (be.qr A).1ᴴ * (be.qr A).1 = 1
  svd : ∀ {a b : Nat} (A : Matrix (Fin a) (Fin b) K),
    (be.svd A).1 * diagonal (fun i => (((be.svd A).2.1 i : ℝ) : K)) * (be.svd A).2.2ᴴ = A ∧
    (be.svd A).1ᴴ * (be.svd A).1 = 1 ∧ (be.svd A).2.2ᴴ * (be.svd A).2.2 = 1 ∧ Antitone (be.svd A).2.1 ∧ ∀ i, 0 ≤ (be.svd A).2.1 i

/-- `U`, `S`, `V` are a singular value decomposition of `M`: orthonormal columns, descending non-negative values, product `M`. -/
structure IsSvd {m n w : Nat} (M : Matrix (Fin m) (Fin n) K) (U : Matrix (Fin m) (Fin w) K) (S : Fin w → ℝ) (V : Matrix (Fin n) (Fin w) K) : Prop where
  orthU : Uᴴ * U = 1
  orthV : Vᴴ * V = 1
  sorted : Antitone S
  nonneg : ∀ i, 0 ≤ S i
  eq : U * diagonal (fun i => ((S i : ℝ) : K)) * Vᴴ = M

/-- `o` consists of the first `k` singular triples of `M` (all of them, if there are fewer). -/
def Leading {m n : Nat} (M : Matrix (Fin m) (Fin n) K) (k : Nat) (o : Out K m n) : Prop :=
  ∃ (w : Nat) (U : Matrix (Fin m) (Fin w) K) (S : Fin w → ℝ) (V : Matrix (Fin n) (Fin w) K), IsSvd M U S V ∧ o.r = min k w ∧
    ∀ (i : Fin o.r) (j : Fin w), i.1 = j.1 → (∀ x, o.U x i = U x j) ∧ o.S i = S j ∧ ∀ x, o.V x i = V x j

/-- `Q` projects orthogonally. -/
def Projector {m : Nat} (P : Matrix (Fin m) (Fin m) K) : Prop := Pᴴ = P ∧ P * P = P
end Spec
open Spec

open scoped ComplexOrder in
/-- The normal equations can be solved. -/
theorem normal_eq {m n : Nat} (M : Matrix (Fin m) (Fin n) K) : ∃ G, Mᴴ * M * G = Mᴴ := by
  have hle : LinearMap.range (Mᴴ * M).mulVecLin ≤ LinearMap.range Mᴴ.mulVecLin := by
    rintro _ ⟨x, rfl⟩
    exact ⟨M.mulVec x, by simp [Matrix.mulVec_mulVec]⟩
  have he := Submodule.eq_of_le_of_finrank_eq hle (by
    have h1 := Matrix.rank_conjTranspose_mul_self M
    have h2 := Matrix.rank_conjTranspose M
    exact h1.trans h2.symm)
  have hx : ∀ j : Fin m, ∃ x, (Mᴴ * M).mulVec x = Mᴴ.mulVec (Pi.single j 1) := by
    intro j
    have : Mᴴ.mulVecLin (Pi.single j 1) ∈ LinearMap.range (Mᴴ * M).mulVecLin := by rw [he]; exact ⟨_, rfl⟩
    obtain ⟨x, hx⟩ := this
    exact ⟨x, hx⟩
  choose g hg using hx
  refine ⟨Matrix.of fun i j => g j i, ?_⟩
  ext i j
  have h := congrFun (hg j) i
  rw [Matrix.mulVec_single_one] at h
  rw [Matrix.mul_apply]
  exact h

theorem orth_span {be : Backend K} (hb : Contract be) {m n : Nat} (M : Matrix (Fin m) (Fin n) K) (Y : Cols K m) (h : ∃ X, Y.A * X = M) :
    ∃ X, (orth be Y).A * X = M := by
  obtain ⟨X, hX⟩ := h
  refine ⟨(be.qr Y.A).2 * X, ?_⟩
  have h1 : (be.qr Y.A).1 * ((be.qr Y.A).2 * X) = M := by rw [← Matrix.mul_assoc, (hb.qr Y.A).1, hX]
  exact h1

theorem pick_span {be : Backend K} (hb : Contract be) {m n : Nat} (M : Matrix (Fin m) (Fin n) K) (s t : Int) (Y : Cols K m) (h : ∃ X, Y.A * X = M) :
    ∃ X, (pick be s t Y).A * X = M := by
  by_cases ht : t % s = 0
  · have : pick be s t Y = orth be Y := if_pos ht
    rw [this]; exact orth_span hb M Y h
  · have : pick be s t Y = Y := if_neg ht
    rw [this]; exact h

theorem mul_span {m n c : Nat} (M : Matrix (Fin m) (Fin n) K) (Y : Matrix (Fin m) (Fin c) K) (h : ∃ X, Y * X = M) : ∃ X, Mᴴ * Y * X = Mᴴ := by
  obtain ⟨X, hX⟩ := h
  obtain ⟨G, hG⟩ := normal_eq M
  refine ⟨X * G, ?_⟩
  rw [← Matrix.mul_assoc, Matrix.mul_assoc Mᴴ, hX, hG]

theorem passes_span {be : Backend K} (hb : Contract be) {m n : Nat} (M : Matrix (Fin m) (Fin n) K) (s : Int) (Y : Cols K m) (h : ∃ X, Y.A * X = M) (i : Nat) :
    ∃ X, (passes be M s Y i).A * X = M := by
  induction i with
  | zero => exact h
  | succ i ih =>
    have h1 := pick_span hb M s (2 * ((i + 1 : Nat) : Int) - 2) _ ih
    have h2 := mul_span M _ h1
    have h3 := pick_span hb Mᴴ s (2 * ((i + 1 : Nat) : Int) - 1) ⟨_, _⟩ h2
    have h4 := mul_span Mᴴ _ h3
    rw [conjTranspose_conjTranspose] at h4
    exact h4

theorem orth_c {be : Backend K} {m l n : Nat} (Y : Cols K m) (h : min l (min m n) ≤ Y.c) : min l (min m n) ≤ (orth be Y).c := by
  change _ ≤ min m Y.c
  omega

theorem pick_c {be : Backend K} {m n l : Nat} (s t : Int) (Y : Cols K m) (h : min l (min m n) ≤ Y.c) : min l (min m n) ≤ (pick be s t Y).c := by
  unfold pick
  split
  · exact orth_c Y h
  · exact h

theorem passes_c {be : Backend K} {m n l : Nat} (M : Matrix (Fin m) (Fin n) K) (s : Int) (Y : Cols K m) (h : min l (min m n) ≤ Y.c) (i : Nat) :
    min l (min m n) ≤ (passes be M s Y i).c := by
  induction i with
  | zero => exact h
  | succ i ih =>
    have h1 := pick_c (be := be) s (2 * ((i + 1 : Nat) : Int) - 2) _ ih
    have h2 := pick_c (be := be) (m := n) (n := m) (l := l) s (2 * ((i + 1 : Nat) : Int) - 1) ⟨_, Mᴴ * (pick be s (2 * ((i + 1 : Nat) : Int) - 2) (passes be M s Y i)).A⟩
      (by rw [min_comm n m]; exact h1)
    rw [min_comm n m] at h2
    exact h2

theorem finish_svd {be : Backend K} (hb : Contract be) {m n : Nat} (M : Matrix (Fin m) (Fin n) K) (k : Nat) (Q : Cols K m) (hQ : Q.Aᴴ * Q.A = 1) :
    Leading (Q.A * Q.Aᴴ * M) k (finish be M k Q) := by
  obtain ⟨hq1, hq2⟩ := hb.qr (Mᴴ * Q.A)
  obtain ⟨hs1, hs2, hs3, hs4, hs5⟩ := hb.svd (be.qr (Mᴴ * Q.A)).2
  refine ⟨min (min n Q.c) Q.c, Q.A * (be.svd (be.qr (Mᴴ * Q.A)).2).2.2, (be.svd (be.qr (Mᴴ * Q.A)).2).2.1,
    (be.qr (Mᴴ * Q.A)).1 * (be.svd (be.qr (Mᴴ * Q.A)).2).1, ⟨?_, ?_, hs4, hs5, ?_⟩, rfl, ?_⟩
  · rw [conjTranspose_mul, Matrix.mul_assoc, ← Matrix.mul_assoc Q.Aᴴ, hQ, Matrix.one_mul, hs3]
  · rw [conjTranspose_mul, Matrix.mul_assoc, ← Matrix.mul_assoc _ _ (be.svd (be.qr (Mᴴ * Q.A)).2).1, hq2, Matrix.one_mul, hs2]
  · have hh := congrArg conjTranspose hq1
    rw [← hs1] at hh
    simp only [conjTranspose_mul, conjTranspose_conjTranspose, diagonal_conjTranspose] at hh
    have hst : star (fun i => (((be.svd (be.qr (Mᴴ * Q.A)).2).2.1 i : ℝ) : K)) = fun i => (((be.svd (be.qr (Mᴴ * Q.A)).2).2.1 i : ℝ) : K) := by
      funext i; simp
    rw [hst] at hh
    rw [Matrix.mul_assoc Q.A Q.Aᴴ M, ← hh, conjTranspose_mul]
    simp only [Matrix.mul_assoc]
  · intro i j hij
    have : j = Fin.castLE (Nat.min_le_right k (min (min n Q.c) Q.c)) i := Fin.ext hij.symm
    subst this
    exact ⟨fun _ => rfl, rfl, fun _ => rfl⟩

theorem proj_of {m n c : Nat} (Q : Matrix (Fin m) (Fin c) K) (M : Matrix (Fin m) (Fin n) K) (X : Matrix (Fin c) (Fin n) K) (hQ : Qᴴ * Q = 1) (hX : Q * X = M) :
    Q * Qᴴ * M = M := by
  rw [← hX, Matrix.mul_assoc, ← Matrix.mul_assoc _ _ X, hQ, Matrix.one_mul]

/-- When the call returns factors: `vnum` asks for them and no division by zero occurs. -/
theorem rsvd_eq {be : Backend K} {m n : Nat} {M : Matrix (Fin m) (Fin n) K} {k p q : Nat} {s vnum : Int} {RN : Matrix (Fin n) (Fin (k + p)) K} {o : Out K m n}
    (hv : vnum = 1 ∨ vnum > 2) (h : rsvd be M k p q s vnum RN = some o) : o = finish be M k (orth be (passes be M s ⟨k + p, M * RN⟩ (q - 1))) := by
  simp only [rsvd, hv, if_true] at h
  split at h
  · cases h
  · exact (Option.some.inj h).symm

theorem pick_has {be : Backend K} (hb : Contract be) {m t : Nat} (s j : Int) (Y : Cols K m) (B : Matrix (Fin m) (Fin t) K) (h : ∃ X, Y.A * X = B) :
    ∃ X, (pick be s j Y).A * X = B := pick_span hb B s j Y h

theorem passes_has {be : Backend K} (hb : Contract be) {m n t : Nat} (M : Matrix (Fin m) (Fin n) K) (s : Int) (Y : Cols K m) (B : Matrix (Fin m) (Fin t) K)
    (h : ∃ X, Y.A * X = B) (i : Nat) : ∃ X, (passes be M s Y i).A * X = (M * Mᴴ) ^ i * B := by
  induction i with
  | zero =>
    obtain ⟨X, hX⟩ := h
    exact ⟨X, by rw [pow_zero, Matrix.one_mul]; exact hX⟩
  | succ i ih =>
    obtain ⟨X1, h1⟩ := pick_has hb s (2 * ((i + 1 : Nat) : Int) - 2) _ _ ih
    obtain ⟨X2, h2⟩ := pick_has hb s (2 * ((i + 1 : Nat) : Int) - 1) ⟨_, Mᴴ * (pick be s (2 * ((i + 1 : Nat) : Int) - 2) (passes be M s Y i)).A⟩ (Mᴴ * ((M * Mᴴ) ^ i * B))
      ⟨X1, by rw [Matrix.mul_assoc, h1]⟩
    have h3 : M * (pick be s (2 * ((i + 1 : Nat) : Int) - 1) ⟨_, Mᴴ * (pick be s (2 * ((i + 1 : Nat) : Int) - 2) (passes be M s Y i)).A⟩).A * X2 = (M * Mᴴ) ^ (i + 1) * B := by
      rw [Matrix.mul_assoc, h2, pow_succ']
      simp only [Matrix.mul_assoc]
    exact ⟨X2, h3⟩

theorem pick_le {be : Backend K} {m : Nat} (s j : Int) (Y : Cols K m) : (pick be s j Y).c ≤ Y.c := by
  unfold pick
  split
  · exact Nat.min_le_right _ _
  · exact le_rfl

theorem passes_le {be : Backend K} {m n : Nat} (M : Matrix (Fin m) (Fin n) K) (s : Int) (Y : Cols K m) (i : Nat) : (passes be M s Y i).c ≤ Y.c := by
  induction i with
  | zero => exact le_rfl
  | succ i ih =>
    have h1 := pick_le (be := be) s (2 * ((i + 1 : Nat) : Int) - 2) (passes be M s Y i)
    have h2 := pick_le (be := be) s (2 * ((i + 1 : Nat) : Int) - 1) ⟨_, Mᴴ * (pick be s (2 * ((i + 1 : Nat) : Int) - 2) (passes be M s Y i)).A⟩
    exact h2.trans (h1.trans ih)

/-- **C152.** Whatever was sampled, however many rounds are made and however often the factors are re-orthogonalised, the result consists of the
first `k` singular triples of the orthogonal projection of the matrix onto a subspace of at most `k+p` dimensions, which contains the sampled vectors
after `q-1` applications of `M Mᴴ`. -/
theorem C152_projection {be : Backend K} (hb : Contract be) {m n : Nat} (M : Matrix (Fin m) (Fin n) K) (k p q : Nat) (s vnum : Int)
    (RN : Matrix (Fin n) (Fin (k + p)) K) (o : Out K m n) (hv : vnum = 1 ∨ vnum > 2) (h : rsvd be M k p q s vnum RN = some o) :
    ∃ P, Projector P ∧ P.rank ≤ k + p ∧ P * ((M * Mᴴ) ^ (q - 1) * (M * RN)) = (M * Mᴴ) ^ (q - 1) * (M * RN) ∧ Leading (P * M) k o := by
  rw [rsvd_eq hv h]
  have hQ := (hb.qr (passes be M s ⟨k + p, M * RN⟩ (q - 1)).A).2
  have hle : (orth be (passes be M s ⟨k + p, M * RN⟩ (q - 1))).c ≤ k + p := (Nat.min_le_right _ _).trans (passes_le (be := be) M s ⟨k + p, M * RN⟩ (q - 1))
  obtain ⟨X, hX⟩ := orth_span hb _ _ (passes_has hb M s ⟨k + p, M * RN⟩ (M * RN) ⟨1, Matrix.mul_one _⟩ (q - 1))
  refine ⟨_, ⟨?_, ?_⟩, ?_, proj_of (orth be (passes be M s ⟨k + p, M * RN⟩ (q - 1))).A _ X hQ hX, finish_svd hb M k (orth be _) hQ⟩
  · rw [conjTranspose_mul, conjTranspose_conjTranspose]
  · rw [Matrix.mul_assoc, ← Matrix.mul_assoc _ (orth be _).A]
    have hQ' : (orth be (passes be M s ⟨k + p, M * RN⟩ (q - 1))).Aᴴ * (orth be (passes be M s ⟨k + p, M * RN⟩ (q - 1))).A = 1 := hQ
    rw [hQ', Matrix.one_mul]
  · exact (Matrix.rank_mul_le_left _ _).trans ((Matrix.rank_le_width _).trans hle)

/-- **C152.** If the sampled vectors span the range of the matrix, the result is exact: the first `k` singular triples of the matrix. -/
theorem C152_exact {be : Backend K} (hb : Contract be) {m n : Nat} (M : Matrix (Fin m) (Fin n) K) (k p q : Nat) (s vnum : Int)
    (RN : Matrix (Fin n) (Fin (k + p)) K) (o : Out K m n) (hv : vnum = 1 ∨ vnum > 2) (h : rsvd be M k p q s vnum RN = some o)
    (hspan : ∃ X, M * RN * X = M) : Leading M k o := by
  rw [rsvd_eq hv h]
  have hQ := (hb.qr (passes be M s ⟨k + p, M * RN⟩ (q - 1)).A).2
  obtain ⟨X, hX⟩ := orth_span hb M _ (passes_span hb M s ⟨k + p, M * RN⟩ hspan (q - 1))
  have hf := finish_svd hb M k (orth be (passes be M s ⟨k + p, M * RN⟩ (q - 1))) hQ
  have hP := proj_of (orth be (passes be M s ⟨k + p, M * RN⟩ (q - 1))).A M X hQ hX
  rwa [hP] at hf

/-- **C152.** The number of triples is `k`, or the smaller dimension of the matrix if that is less. -/
theorem C152_count {be : Backend K} {m n : Nat} (M : Matrix (Fin m) (Fin n) K) (k p q : Nat) (s vnum : Int)
    (RN : Matrix (Fin n) (Fin (k + p)) K) (o : Out K m n) (hv : vnum = 1 ∨ vnum > 2) (h : rsvd be M k p q s vnum RN = some o) : o.r = min k (min m n) := by
  rw [rsvd_eq hv h]
  have h1 := orth_c (be := be) (n := n) _ (passes_c (be := be) (l := k + p) M s ⟨k + p, M * RN⟩ (Nat.min_le_left _ _) (q - 1))
  have h2 : (orth be (passes be M s ⟨k + p, M * RN⟩ (q - 1))).c ≤ m := Nat.min_le_left _ _
  change min k (min (min n (orth be (passes be M s ⟨k + p, M * RN⟩ (q - 1))).c) (orth be (passes be M s ⟨k + p, M * RN⟩ (q - 1))).c) = _
  omega

/-- **C152.** The call fails only for a re-orthogonalisation period of zero with at least one round. -/
theorem C152_raises (be : Backend K) {m n : Nat} (M : Matrix (Fin m) (Fin n) K) (k p q : Nat) (s vnum : Int) (RN : Matrix (Fin n) (Fin (k + p)) K) :
    rsvd be M k p q s vnum RN = none ↔ s = 0 ∧ 2 ≤ q := by
  unfold rsvd
  by_cases h : s = 0 ∧ 1 < q
  · simp only [h, and_self, if_true, true_iff]; exact ⟨trivial, h.2⟩
  · simp only [h, if_false]
    constructor
    · intro h'; split at h' <;> cases h'
    · intro h'; exact absurd h' h

/-- **C152.** For any other `vnum` the result is zero, whatever the matrix: the method announced in the comment (eigendecomposition) is absent. -/
theorem C152_vnum_zero (be : Backend K) {m n : Nat} (M : Matrix (Fin m) (Fin n) K) (k p q : Nat) (s vnum : Int) (RN : Matrix (Fin n) (Fin (k + p)) K)
    (hs : s ≠ 0) (hv : vnum = 2 ∨ vnum ≤ 0) (hk : 0 < k + p) : ∃ o, rsvd be M k p q s vnum RN = some o ∧ (∀ i, o.S i = 0) ∧ o.U = 0 ∧ o.V = 0 ∧
      o.Uᴴ * o.U ≠ 1 := by
  refine ⟨⟨k + p, 0, fun _ => 0, 0⟩, ?_, fun _ => rfl, rfl, rfl, ?_⟩
  · have : ¬ (vnum = 1 ∨ vnum > 2) := by omega
    simp [rsvd, hs, this]
  · intro h
    have := congrFun (congrFun h ⟨0, hk⟩) ⟨0, hk⟩
    simp at this

end Verif.Rsvd
