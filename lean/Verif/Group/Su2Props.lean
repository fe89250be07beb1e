import Verif.Group.Su2Model
import Mathlib.LinearAlgebra.Matrix.Kronecker
import Mathlib.LinearAlgebra.Matrix.Hermitian
import Mathlib.Tactic.Ring
import Mathlib.Tactic.Linarith
import Mathlib.Tactic.LinearCombination
import Mathlib.Tactic.NoncommRing
import Mathlib.Tactic.Module
/-
Properties C10 - C13: spin algebra, exchange operators, sublattice rotation.
-/
namespace Verif.Su2
open Complex Matrix
open scoped Kronecker

/-! ### entries -/

theorem szEntry_eq (m i : Nat) : szEntry m i = ((m : ℝ) - 1) / 2 - i := by unfold szEntry; ring

theorem sp_sq (m i : Nat) (hi : i < m) : spEntry m i * spEntry m i = ((i : ℝ) + 1) * ((m : ℝ) - 1 - i) := by
  have h : (1/2) * ((m : ℝ) - 1) * ((1/2) * ((m : ℝ) - 1) + 1) -
    (-(1/2) * ((m : ℝ) - 1) + i) * (-(1/2) * ((m : ℝ) - 1) + i + 1) = ((i : ℝ) + 1) * ((m : ℝ) - 1 - i) := by ring
  have h1 : (i : ℝ) + 1 ≤ m := by exact_mod_cast hi
  unfold spEntry
  rw [h, Real.mul_self_sqrt]
  exact mul_nonneg (by positivity) (by linarith)

theorem sm_eq_sp (m i : Nat) : smEntry m (i + 1) = spEntry m i := by
  unfold smEntry spEntry
  congr 1
  push_cast
  ring

theorem sp_reflect (m i : Nat) (hi : i + 1 < m) : spEntry m (m - 1 - (i + 1)) = spEntry m i := by
  unfold spEntry
  congr 1
  rw [Nat.cast_sub (by omega), Nat.cast_sub (by omega)]
  push_cast
  ring

theorem SP_apply (m : Nat) (i j : Fin m) :
    SP m i j = if j.val = i.val + 1 then (spEntry m i : ℂ) else 0 := by
  unfold SP
  simp only [Matrix.of_apply]
  by_cases h : j.val = i.val + 1
  · have : i.val < m - 1 := by have := j.isLt; omega
    simp [h, this]
  · simp [h]

theorem SM_apply (m : Nat) (i j : Fin m) :
    SM m i j = if i.val = j.val + 1 then (spEntry m j : ℂ) else 0 := by
  unfold SM
  simp only [Matrix.of_apply]
  by_cases h : i.val = j.val + 1
  · have : 1 ≤ i.val ∧ j.val = i.val - 1 := by omega
    rw [if_pos this, if_pos h, h, sm_eq_sp]
  · rw [if_neg h, if_neg]; omega

theorem SM_eq_transpose (m : Nat) : SM m = (SP m)ᵀ := by
  ext i j; rw [SM_apply, Matrix.transpose_apply, SP_apply]

theorem SP_conj (m : Nat) : (SP m)ᴴ = SM m := by
  ext i j
  rw [Matrix.conjTranspose_apply, SP_apply, SM_apply]
  split <;> simp

theorem SM_conj (m : Nat) : (SM m)ᴴ = SP m := by rw [← SP_conj, Matrix.conjTranspose_conjTranspose]

theorem SZ_eq_diag (m : Nat) : SZ m = Matrix.diagonal (fun i : Fin m => (szEntry m i : ℂ)) := by
  ext i j
  simp only [SZ, Matrix.of_apply, Matrix.diagonal_apply]

theorem SZ_conj (m : Nat) : (SZ m)ᴴ = SZ m := by
  rw [SZ_eq_diag, Matrix.diagonal_conjTranspose]
  congr 1
  ext i
  simp

theorem SP_mul_SM (m : Nat) : SP m * SM m =
    Matrix.diagonal (fun i : Fin m => ((i.val : ℂ) + 1) * ((m : ℂ) - 1 - i.val)) := by
  ext i j
  rw [Matrix.mul_apply, Matrix.diagonal_apply]
  by_cases hi : i.val + 1 < m
  · rw [Finset.sum_eq_single (⟨i.val + 1, hi⟩ : Fin m)]
    · rw [SP_apply, SM_apply]
      by_cases h : i = j
      · subst h
        have := sp_sq m i.val i.isLt
        simp only [if_true]
        rw [← Complex.ofReal_mul, this]
        push_cast; ring
      · have h' : ¬ (i.val + 1 = j.val + 1) := by
          intro e; apply h; apply Fin.ext; omega
        simp only [h, h', if_true, if_false, mul_zero]
    · intro k _ hk
      rw [SP_apply, if_neg, zero_mul]
      intro e; apply hk; apply Fin.ext; exact e
    · intro h; exact absurd (Finset.mem_univ _) h
  · have h0 : i.val = m - 1 := by have := i.isLt; omega
    have hm : (m : ℂ) = (i.val : ℂ) + 1 := by
      have : m = i.val + 1 := by have := i.isLt; omega
      exact_mod_cast this
    rw [Finset.sum_eq_zero]
    · split
      · rw [hm]; ring
      · rfl
    · intro k _
      rw [SP_apply, if_neg, zero_mul]
      have := k.isLt; omega

theorem SM_mul_SP (m : Nat) : SM m * SP m =
    Matrix.diagonal (fun i : Fin m => (i.val : ℂ) * ((m : ℂ) - i.val)) := by
  ext i j
  rw [Matrix.mul_apply, Matrix.diagonal_apply]
  by_cases hi : 1 ≤ i.val
  · rw [Finset.sum_eq_single (⟨i.val - 1, by have := i.isLt; omega⟩ : Fin m)]
    · rw [SP_apply, SM_apply]
      have e1 : i.val = i.val - 1 + 1 := by omega
      by_cases h : i = j
      · subst h
        have := sp_sq m (i.val - 1) (by have := i.isLt; omega)
        simp only [← e1, if_true]
        rw [← Complex.ofReal_mul, this, Nat.cast_sub hi]
        push_cast; ring
      · have h' : ¬ (j.val = i.val - 1 + 1) := by
          intro e; apply h; apply Fin.ext; omega
        simp [h, h']
    · intro k _ hk
      rw [SM_apply, if_neg, zero_mul]
      intro e; apply hk; apply Fin.ext; simp only []; omega
    · intro h; exact absurd (Finset.mem_univ _) h
  · have h0 : i.val = 0 := by omega
    rw [Finset.sum_eq_zero]
    · split
      · simp [h0]
      · rfl
    · intro k _
      rw [SM_apply, if_neg, zero_mul]
      omega

theorem SZ_SP (m : Nat) : SZ m * SP m = SP m * SZ m + SP m := by
  ext i j
  rw [SZ_eq_diag, Matrix.add_apply, Matrix.diagonal_mul, Matrix.mul_diagonal, SP_apply]
  split
  · rename_i h
    rw [szEntry_eq, szEntry_eq, h]
    push_cast; ring
  · simp

theorem SZ_SM (m : Nat) : SZ m * SM m = SM m * SZ m - SM m := by
  ext i j
  rw [SZ_eq_diag, Matrix.sub_apply, Matrix.diagonal_mul, Matrix.mul_diagonal, SM_apply]
  split
  · rename_i h
    rw [szEntry_eq, szEntry_eq, h]
    push_cast; ring
  · simp

theorem SP_SM (m : Nat) : SP m * SM m = SM m * SP m + (2 : ℂ) • SZ m := by
  rw [SP_mul_SM, SM_mul_SP, SZ_eq_diag]
  ext i j
  simp only [Matrix.add_apply, Matrix.smul_apply, Matrix.diagonal_apply]
  split
  · rw [szEntry_eq]; push_cast; simp only [smul_eq_mul]; ring
  · simp

/-- C10. The matrices returned for "sz", "sp", "sm" satisfy the spin algebra in every dimension. -/
theorem C10_spin_algebra (m : Nat) : ∃ Z P M : Matrix (Fin m) (Fin m) ℂ,
    getOp "sz" m = some Z ∧ getOp "sp" m = some P ∧ getOp "sm" m = some M ∧
    Z * P - P * Z = P ∧ Z * M - M * Z = -M ∧ P * M - M * P = (2 : ℂ) • Z ∧
    Zᴴ = Z ∧ M = Pᴴ ∧
    Z * Z + (1/2 : ℂ) • (P * M + M * P) =
      (((m : ℂ) - 1) / 2 * (((m : ℂ) - 1) / 2 + 1)) • (1 : Matrix (Fin m) (Fin m) ℂ) := by
  refine ⟨SZ m, SP m, SM m, rfl, rfl, rfl, ?_, ?_, ?_, SZ_conj m, (SP_conj m).symm, ?_⟩
  · rw [SZ_SP]; abel
  · rw [SZ_SM]; abel
  · rw [SP_SM]; abel
  · rw [SP_mul_SM, SM_mul_SP, SZ_eq_diag, Matrix.diagonal_mul_diagonal]
    ext i j
    simp only [Matrix.add_apply, Matrix.smul_apply, Matrix.diagonal_apply, Matrix.one_apply]
    split
    · rw [szEntry_eq]; push_cast; simp only [smul_eq_mul]; ring
    · simp

/-- C10. The z-component is diagonal with the values S, S-1, ..., -S. -/
theorem C10_sz_spectrum (m : Nat) : ∃ Z, getOp "sz" m = some Z ∧
    Z = Matrix.diagonal (fun i : Fin m => ((m : ℂ) - 1) / 2 - i.val) := by
  refine ⟨SZ m, rfl, ?_⟩
  rw [SZ_eq_diag]
  congr 1
  ext i
  rw [szEntry_eq]; push_cast; ring

/-- C10. The Cartesian components: the y-operator equals the third component of the spin vector, and
the three components are Hermitian and satisfy `[Sz,Sx] = i Sy` and its cyclic images. -/
theorem C10_cartesian (m : Nat) : SY m = Svec m 2 ∧ (∀ a, (Svec m a)ᴴ = Svec m a) ∧
    ∀ a b c, (a, b, c) = ((0 : Fin 3), (1 : Fin 3), (2 : Fin 3)) ∨ (a, b, c) = (1, 2, 0) ∨ (a, b, c) = (2, 0, 1) →
      Svec m a * Svec m b - Svec m b * Svec m a = I • Svec m c := by
  have h0 : Svec m 0 = SZ m := rfl
  have h1 : Svec m 1 = (1/2 : ℂ) • (SP m + SM m) := by
    ext i j; simp [Svec]
  have h2 : Svec m 2 = (-(1/2) * I : ℂ) • (SP m - SM m) := by
    ext i j; simp [Svec]
  have a1 := SZ_SP m
  have a2 := SZ_SM m
  have a3 := SP_SM m
  have cP := SP_conj m
  have cM : (SM m)ᴴ = SP m := by rw [← cP, Matrix.conjTranspose_conjTranspose]
  refine ⟨rfl, ?_, ?_⟩
  · intro a
    fin_cases a
    · exact SZ_conj m
    · show (Svec m 1)ᴴ = Svec m 1
      rw [h1, Matrix.conjTranspose_smul, Matrix.conjTranspose_add, cP, cM, add_comm (SM m)]
      congr 1
      simp
    · show (Svec m 2)ᴴ = Svec m 2
      rw [h2, Matrix.conjTranspose_smul, Matrix.conjTranspose_sub, cP, cM, ← neg_sub (SP m), smul_neg, ← neg_smul]
      congr 1
      simp
  · rintro a b c (h | h | h) <;> (simp only [Prod.mk.injEq] at h; obtain ⟨rfl, rfl, rfl⟩ := h)
    · rw [h0, h1, h2, Matrix.mul_smul, Matrix.smul_mul, Matrix.mul_add, Matrix.add_mul, a1, a2]
      ext i j
      simp only [Matrix.sub_apply, Matrix.smul_apply, Matrix.add_apply, smul_eq_mul]
      linear_combination ((1/2) * (SP m i j - SM m i j)) * I_mul_I
    · rw [h0, h1, h2, Matrix.mul_smul, Matrix.smul_mul, Matrix.mul_smul, Matrix.smul_mul, Matrix.mul_sub,
        Matrix.sub_mul, Matrix.add_mul, Matrix.add_mul, Matrix.mul_add, Matrix.mul_add, a3]
      ext i j
      simp only [Matrix.sub_apply, Matrix.smul_apply, Matrix.add_apply, smul_eq_mul]
      ring
    · rw [h0, h1, h2, Matrix.mul_smul, Matrix.smul_mul, Matrix.mul_sub, Matrix.sub_mul, a1, a2]
      ext i j
      simp only [Matrix.sub_apply, Matrix.smul_apply, Matrix.add_apply, smul_eq_mul]
      ring

/-- C10. Other names are rejected. -/
theorem C10_unknown (m : Nat) (op : String) (h : op ≠ "I" ∧ op ≠ "sz" ∧ op ≠ "sp" ∧ op ≠ "sm") :
    getOp op m = none := by
  unfold getOp
  split <;> simp_all

/-- Non-vacuity: for spin one half the matrices are not zero. -/
example : SP 2 0 1 = 1 := by
  rw [SP_apply]; simp [spEntry]; norm_num

/-! ### C11, C12 -/

/-- The exchange tensor as a matrix on the two-site space: rows (s0,s1), columns (s0',s1'). -/
noncomputable def Spec.asMatrix {m : Nat} (T : Fin m → Fin m → Fin m → Fin m → ℂ) :
    Matrix (Fin m × Fin m) (Fin m × Fin m) ℂ := Matrix.of fun p q => T p.1 p.2 q.1 q.2

open Spec

/-- Sx and Sy from the ladder operators, as in the class documentation. -/
noncomputable def Spec.Sx (m : Nat) : Matrix (Fin m) (Fin m) ℂ := (1/2 : ℂ) • (SP m + SM m)
noncomputable def Spec.Sy (m : Nat) : Matrix (Fin m) (Fin m) ℂ := (-(I / 2)) • (SP m - SM m)

/-- The documented anisotropic exchange. -/
noncomputable def Spec.exchange (m : Nat) (Jz Jx Jy : ℂ) : Matrix (Fin m × Fin m) (Fin m × Fin m) ℂ :=
  Jz • (SZ m ⊗ₖ SZ m) + Jx • (Sx m ⊗ₖ Sx m) + Jy • (Sy m ⊗ₖ Sy m)

theorem asMatrix_SS (m : Nat) (x y z : ℂ) : asMatrix (SS m (x, y, z)) =
    x • (SZ m ⊗ₖ SZ m) + (1/2 * y) • (SP m ⊗ₖ SM m) + (1/2 * z) • (SM m ⊗ₖ SP m) := by
  ext ⟨i, a⟩ ⟨j, b⟩
  simp only [asMatrix, SS, Matrix.of_apply, Matrix.add_apply, Matrix.smul_apply,
    Matrix.kroneckerMap_apply, smul_eq_mul]

/-- The total spin component on two sites. -/
noncomputable def Spec.total {m : Nat} (A : Matrix (Fin m) (Fin m) ℂ) :
    Matrix (Fin m × Fin m) (Fin m × Fin m) ℂ := A ⊗ₖ 1 + 1 ⊗ₖ A

/-- C11. With all couplings one, the operator is SzSz + SxSx + SySy. -/
theorem C11_is_dot_product (m : Nat) : asMatrix (SS m (1, 1, 1)) = exchange m 1 1 1 := by
  rw [asMatrix_SS, exchange]
  ext ⟨i, a⟩ ⟨j, b⟩
  simp only [Sx, Sy, Matrix.add_apply, Matrix.smul_apply, Matrix.sub_apply,
    Matrix.kroneckerMap_apply, smul_eq_mul]
  linear_combination (-(1/4 : ℂ)) * (SP m i j - SM m i j) * (SP m a b - SM m a b) * I_mul_I

/-- C11. It is Hermitian. -/
theorem C11_hermitian (m : Nat) : (asMatrix (SS m (1, 1, 1))).IsHermitian := by
  unfold Matrix.IsHermitian
  rw [asMatrix_SS]
  simp only [Matrix.conjTranspose_add, Matrix.conjTranspose_smul, Matrix.conjTranspose_kronecker,
    SZ_conj, SP_conj, SM_conj]
  simp
  abel

theorem kron_comm_total {m : Nat} (A B S : Matrix (Fin m) (Fin m) ℂ) :
    (A ⊗ₖ B) * total S - total S * (A ⊗ₖ B) = (A * S - S * A) ⊗ₖ B + A ⊗ₖ (B * S - S * B) := by
  unfold total
  rw [mul_add, add_mul, ← Matrix.mul_kronecker_mul, ← Matrix.mul_kronecker_mul,
    ← Matrix.mul_kronecker_mul, ← Matrix.mul_kronecker_mul]
  simp only [mul_one, one_mul]
  ext ⟨i, a⟩ ⟨j, b⟩
  simp only [Matrix.add_apply, Matrix.sub_apply, Matrix.kroneckerMap_apply]
  ring

/-- C11. It commutes with every component of the total spin. -/
theorem C11_su2_invariant (m : Nat) (S : Matrix (Fin m) (Fin m) ℂ)
    (hS : S = SZ m ∨ S = Sx m ∨ S = Sy m) :
    asMatrix (SS m (1, 1, 1)) * total S = total S * asMatrix (SS m (1, 1, 1)) := by
  have key : ∀ S, S = SZ m ∨ S = SP m ∨ S = SM m →
      asMatrix (SS m (1, 1, 1)) * total S - total S * asMatrix (SS m (1, 1, 1)) = 0 := by
    intro S hS
    have expand : asMatrix (SS m (1, 1, 1)) * total S - total S * asMatrix (SS m (1, 1, 1)) =
        ((SZ m ⊗ₖ SZ m) * total S - total S * (SZ m ⊗ₖ SZ m)) +
        (1/2 : ℂ) • ((SP m ⊗ₖ SM m) * total S - total S * (SP m ⊗ₖ SM m)) +
        (1/2 : ℂ) • ((SM m ⊗ₖ SP m) * total S - total S * (SM m ⊗ₖ SP m)) := by
      rw [asMatrix_SS]
      simp only [add_mul, mul_add, smul_mul_assoc, mul_smul_comm, smul_sub, mul_one, one_smul]
      abel
    rw [expand, kron_comm_total, kron_comm_total, kron_comm_total]
    have a1 : SZ m * SP m - SP m * SZ m = SP m := by rw [SZ_SP]; abel
    have a2 : SZ m * SM m - SM m * SZ m = -SM m := by rw [SZ_SM]; abel
    have a3 : SP m * SM m - SM m * SP m = (2 : ℂ) • SZ m := by rw [SP_SM]; abel
    have b1 : SP m * SZ m - SZ m * SP m = -SP m := by rw [← neg_sub, a1]
    have b2 : SM m * SZ m - SZ m * SM m = SM m := by rw [← neg_sub, a2]; simp
    have b3 : SM m * SP m - SP m * SM m = -((2 : ℂ) • SZ m) := by rw [← neg_sub, a3]
    rcases hS with rfl | rfl | rfl
    · rw [b1, b2, sub_self]
      ext ⟨i, a⟩ ⟨j, b⟩
      simp only [Matrix.add_apply, Matrix.smul_apply, Matrix.kroneckerMap_apply, Matrix.neg_apply,
        Matrix.zero_apply, smul_eq_mul]
      ring
    · rw [a1, b3, sub_self]
      ext ⟨i, a⟩ ⟨j, b⟩
      simp only [Matrix.add_apply, Matrix.smul_apply, Matrix.kroneckerMap_apply, Matrix.neg_apply,
        Matrix.zero_apply, smul_eq_mul]
      ring
    · rw [a2, a3, sub_self]
      ext ⟨i, a⟩ ⟨j, b⟩
      simp only [Matrix.add_apply, Matrix.smul_apply, Matrix.kroneckerMap_apply, Matrix.neg_apply,
        Matrix.zero_apply, smul_eq_mul]
      ring
  have hadd : ∀ A B : Matrix (Fin m) (Fin m) ℂ, ∀ c : ℂ, total (c • (A + B)) = c • (total A + total B) := by
    intro A B c
    unfold total
    ext ⟨i, a⟩ ⟨j, b⟩
    simp only [Matrix.add_apply, Matrix.smul_apply, Matrix.kroneckerMap_apply, smul_eq_mul]
    ring
  have hsub : ∀ A B : Matrix (Fin m) (Fin m) ℂ, ∀ c : ℂ, total (c • (A - B)) = c • (total A - total B) := by
    intro A B c
    unfold total
    ext ⟨i, a⟩ ⟨j, b⟩
    simp only [Matrix.add_apply, Matrix.sub_apply, Matrix.smul_apply, Matrix.kroneckerMap_apply, smul_eq_mul]
    ring
  have kz := sub_eq_zero.1 (key _ (Or.inl rfl))
  have kp := sub_eq_zero.1 (key _ (Or.inr (Or.inl rfl)))
  have km := sub_eq_zero.1 (key _ (Or.inr (Or.inr rfl)))
  rcases hS with rfl | rfl | rfl
  · exact kz
  · simp only [Sx, hadd, mul_smul_comm, smul_mul_assoc, mul_add, add_mul, kp, km]
  · simp only [Sy, hsub, mul_smul_comm, smul_mul_assoc, mul_sub, sub_mul, kp, km]

/-- C12 (partial: equal x and y couplings). The operator is the documented one and, for real
couplings, Hermitian. Missing: different x and y couplings, where it is false, see
`C12_hermitian_iff` and `C12_violated`. -/
theorem C12_equal_xy_partial (m : Nat) (Jz J : ℂ) : asMatrix (SS m (Jz, J, J)) = exchange m Jz J J := by
  rw [asMatrix_SS, exchange]
  ext ⟨i, a⟩ ⟨j, b⟩
  simp only [Sx, Sy, Matrix.add_apply, Matrix.smul_apply, Matrix.sub_apply,
    Matrix.kroneckerMap_apply, smul_eq_mul]
  linear_combination (-(1/4 : ℂ)) * J * (SP m i j - SM m i j) * (SP m a b - SM m a b) * I_mul_I

theorem sp0_sq (m : Nat) (h : 2 ≤ m) : (spEntry m 0 : ℂ) * (spEntry m 0 : ℂ) = (m : ℂ) - 1 := by
  rw [← Complex.ofReal_mul, sp_sq m 0 (by omega)]
  push_cast; ring

/-- C12. For real couplings and spin at least one half the returned operator is Hermitian exactly
when the x and y couplings agree. -/
theorem C12_hermitian_iff (m : Nat) (hm : 2 ≤ m) (Jz Jx Jy : ℝ) :
    (asMatrix (SS m (Jz, Jx, Jy))).IsHermitian ↔ Jx = Jy := by
  constructor
  · intro h
    have h1 : (asMatrix (SS m (Jz, Jx, Jy)))ᴴ ((⟨0, by omega⟩, ⟨1, by omega⟩) : Fin m × Fin m)
        ((⟨1, by omega⟩, ⟨0, by omega⟩) : Fin m × Fin m) =
        asMatrix (SS m (Jz, Jx, Jy)) (⟨0, by omega⟩, ⟨1, by omega⟩) (⟨1, by omega⟩, ⟨0, by omega⟩) := by
      rw [h]
    rw [Matrix.conjTranspose_apply] at h1
    simp only [asMatrix, Matrix.of_apply, SS, SP_apply, SM_apply, SZ, Fin.mk.injEq, zero_add,
      one_ne_zero, zero_ne_one, if_true, if_false, mul_zero, zero_mul, add_zero, Nat.reduceEqDiff] at h1
    have hs := sp0_sq m hm
    have hm0 : ((m : ℂ) - 1) ≠ 0 := by
      intro e
      have : (m : ℂ) = ((1 : ℕ) : ℂ) := by push_cast; linear_combination e
      have : m = 1 := by exact_mod_cast this
      omega
    simp only [star_mul', Complex.star_def, Complex.conj_ofReal, map_div₀, map_one, map_ofNat] at h1
    norm_num at h1
    rcases h1 with e | e
    · exact e.symm
    · rw [e] at hs
      exact absurd (by simpa using hs.symm) hm0
  · rintro rfl
    unfold Matrix.IsHermitian
    rw [asMatrix_SS]
    simp only [Matrix.conjTranspose_add, Matrix.conjTranspose_smul, Matrix.conjTranspose_kronecker,
      SZ_conj, SP_conj, SM_conj]
    simp
    abel

/-- C12 (violated). With Jz = 0, Jx = 1, Jy = 0 the result is not the documented operator, for any
spin at least one half. -/
theorem C12_violated (m : Nat) (hm : 2 ≤ m) : asMatrix (SS m (0, 1, 0)) ≠ exchange m 0 1 0 := by
  intro h
  have hh : (exchange m 0 1 0).IsHermitian := by
    unfold Matrix.IsHermitian exchange
    simp only [Sx, Matrix.conjTranspose_add, Matrix.conjTranspose_smul, Matrix.conjTranspose_kronecker,
      SP_conj, SM_conj]
    simp [add_comm]
  rw [← h] at hh
  have := (C12_hermitian_iff m hm 0 1 0).1 (by simpa using hh)
  norm_num at this

/-! ### C13 -/

theorem rot_apply (m : Nat) (i j : Fin m) :
    rotOp m i j = if j = Fin.rev i then (-1) ^ i.val else 0 := by
  unfold rotOp
  simp only [Matrix.of_apply, Fin.ext_iff, Fin.val_rev]
  have : m - 1 - i.val = m - (i.val + 1) := by omega
  rw [this]

/-- C13. The rotation is orthogonal and reverses the spin: Sz changes sign, the ladder operators are
exchanged with a sign. -/
theorem conj_apply (m : Nat) (A : Matrix (Fin m) (Fin m) ℂ) (i j : Fin m) :
    ((rotOp m)ᵀ * A * rotOp m) i j = (-1) ^ (i.rev.val + j.rev.val) * A i.rev j.rev := by
  rw [Matrix.mul_apply, Finset.sum_eq_single j.rev]
  · rw [Matrix.mul_apply, Finset.sum_eq_single i.rev]
    · rw [Matrix.transpose_apply, rot_apply, rot_apply, Fin.rev_rev, Fin.rev_rev, if_pos rfl, if_pos rfl,
        pow_add]
      ring
    · intro k _ hk
      rw [Matrix.transpose_apply, rot_apply, if_neg, zero_mul]
      rintro rfl; exact hk (Fin.rev_rev k).symm
    · intro h; exact absurd (Finset.mem_univ _) h
  · intro k _ hk
    rw [rot_apply, if_neg, mul_zero]
    rintro rfl; exact hk (Fin.rev_rev k).symm
  · intro h; exact absurd (Finset.mem_univ _) h

theorem C13_rotation (m : Nat) :
    (rotOp m)ᵀ * rotOp m = 1 ∧ rotOp m * (rotOp m)ᵀ = 1 ∧ (rotOp m).map star = rotOp m ∧
    (rotOp m)ᵀ * SZ m * rotOp m = -SZ m ∧
    (rotOp m)ᵀ * SP m * rotOp m = -SM m ∧
    (rotOp m)ᵀ * SM m * rotOp m = -SP m := by
  have hsz : (rotOp m)ᵀ * SZ m * rotOp m = -SZ m := by
    ext i j
    rw [conj_apply, Matrix.neg_apply]
    simp only [SZ, Matrix.of_apply, Fin.rev_inj]
    by_cases h : i = j
    · subst h
      simp only [if_true, ← two_mul, pow_mul]
      rw [szEntry_eq, szEntry_eq, Fin.val_rev, Nat.cast_sub (by omega)]
      push_cast; norm_num; ring
    · simp [h]
  have hsp : (rotOp m)ᵀ * SP m * rotOp m = -SM m := by
    ext i j
    rw [conj_apply, Matrix.neg_apply, SP_apply, SM_apply]
    by_cases h : i.val = j.val + 1
    · have h' : j.rev.val = i.rev.val + 1 := by
        simp only [Fin.val_rev]; have := i.isLt; omega
      rw [if_pos h, if_pos h', h']
      have hs : spEntry m i.rev.val = spEntry m j.val := by
        have := sp_reflect m j.val (by have := i.isLt; omega)
        rw [← this]
        congr 1
        simp only [Fin.val_rev]; omega
      rw [hs, ← add_assoc, ← two_mul, pow_succ, pow_mul]
      simp
    · have h' : ¬ j.rev.val = i.rev.val + 1 := by
        simp only [Fin.val_rev]; have := i.isLt; have := j.isLt; omega
      rw [if_neg h, if_neg h']; simp
  have hsm : (rotOp m)ᵀ * SM m * rotOp m = -SP m := by
    have := congrArg Matrix.transpose hsp
    rw [Matrix.transpose_mul, Matrix.transpose_mul, Matrix.transpose_transpose, ← SM_eq_transpose,
      Matrix.transpose_neg, SM_eq_transpose, Matrix.transpose_transpose] at this
    rw [SM_eq_transpose, Matrix.mul_assoc]
    exact this
  have ho : (rotOp m)ᵀ * rotOp m = 1 := by
    have := conj_apply m 1
    ext i j
    have h := this i j
    rw [Matrix.mul_one] at h
    rw [h, Matrix.one_apply, Matrix.one_apply]
    by_cases e : i = j
    · subst e; simp [← two_mul, pow_mul]
    · simp [e]
  refine ⟨ho, mul_eq_one_comm.1 ho, ?_, hsz, hsp, hsm⟩
  ext i j
  rw [Matrix.map_apply, rot_apply]
  split <;> simp

/-- C13. The operators handed to correlation functions on the rotated sublattice are the rotated
ones (even distance index) and the plain ones otherwise. -/
theorem C13_conjugate_op {m : Nat} (op : Matrix (Fin m) (Fin m) ℂ) (r : Int) :
    conjugateOp op r = if r % 2 = 0 then (rotOp m)ᵀ * op * rotOp m else op := by
  unfold conjugateOp
  split
  · ext i j
    rw [Matrix.of_apply, Matrix.mul_apply, Finset.sum_comm]
    apply Finset.sum_congr rfl
    intro l _
    rw [Matrix.mul_apply, Finset.sum_mul]
    rfl
  · rfl

/-- C13. Rotating the first site of the exchange operator conjugates it by R on that site; the
anisotropic exchange becomes - Jz SzSz - J (S-S- + S+S+)/2, i.e. the staggered operator in the rotated
frame. -/
theorem C13_rotated_exchange (m : Nat) (Jz J : ℂ) :
    asMatrix (rotFirst (SS m (Jz, J, J))) =
      ((rotOp m)ᵀ ⊗ₖ 1) * asMatrix (SS m (Jz, J, J)) * (rotOp m ⊗ₖ 1) ∧
    asMatrix (rotFirst (SS m (Jz, J, J))) =
      -(Jz • (SZ m ⊗ₖ SZ m) + (J / 2) • (SM m ⊗ₖ SM m + SP m ⊗ₖ SP m)) := by
  have h1 : asMatrix (rotFirst (SS m (Jz, J, J))) =
      ((rotOp m)ᵀ ⊗ₖ 1) * asMatrix (SS m (Jz, J, J)) * (rotOp m ⊗ₖ 1) := by
    ext ⟨i, j⟩ ⟨a, b⟩
    simp only [asMatrix, rotFirst, Matrix.of_apply, Matrix.mul_apply, Fintype.sum_prod_type,
      Matrix.kroneckerMap_apply, Matrix.transpose_apply, Matrix.one_apply]
    rw [Finset.sum_comm]
    apply Finset.sum_congr rfl
    intro c _
    simp [Finset.sum_mul]
  refine ⟨h1, ?_⟩
  rw [h1, asMatrix_SS]
  obtain ⟨_, _, _, hz, hp, hm⟩ := C13_rotation m
  simp only [mul_add, add_mul, mul_smul_comm, smul_mul_assoc, ← Matrix.mul_kronecker_mul, mul_one,
    one_mul, hz, hp, hm]
  ext ⟨i, j⟩ ⟨a, b⟩
  simp only [Matrix.add_apply, Matrix.smul_apply, Matrix.neg_apply, Matrix.kroneckerMap_apply, smul_eq_mul]
  ring

/-- Non-vacuity: the rotation of spin one half. -/
example : rotOp 2 0 1 = 1 ∧ rotOp 2 1 0 = -1 := by
  constructor <;> simp [rotOp]

end Verif.Su2
