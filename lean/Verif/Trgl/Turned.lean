import Mathlib.Analysis.SpecialFunctions.Exponential
import Verif.Trgl.Spins
/-
Rotations of spins.
-/
namespace Verif.Trgl
open Tensor Ctm Spec
variable {n p : Nat}

/-- Intertwiners pass through exponentials. -/
theorem exp_intertwine {A X Y : Su2.Op p} (h : X * A = A * Y) : NormedSpace.exp X * A = A * NormedSpace.exp Y := by
  let : NormedRing (Su2.Op p) := Matrix.linftyOpNormedRing
  let : NormedAlgebra ℂ (Su2.Op p) := Matrix.linftyOpNormedAlgebra
  let : NormedAlgebra ℚ (Su2.Op p) := NormedAlgebra.restrictScalars ℚ ℂ _
  have hn : ∀ n : ℕ, X ^ n * A = A * Y ^ n := by
    intro n
    induction n with
    | zero => simp
    | succ n ih => rw [pow_succ, mul_assoc, h, ← mul_assoc, ih, mul_assoc, ← pow_succ]
  have h1 := (NormedSpace.exp_series_hasSum_exp' (𝕂 := ℂ) X).mul_right A
  have h2 := (NormedSpace.exp_series_hasSum_exp' (𝕂 := ℂ) Y).mul_left A
  have he : (fun n : ℕ => ((n.factorial : ℂ)⁻¹ • X ^ n) * A) = fun n : ℕ => A * ((n.factorial : ℂ)⁻¹ • Y ^ n) := by
    funext n
    rw [smul_mul_assoc, hn, mul_smul_comm]
  rw [he] at h1
  exact h1.unique h2

theorem exp_scalar (z : ℂ) : NormedSpace.exp (z • (1 : Su2.Op p)) = Complex.exp z • (1 : Su2.Op p) := by
  have : z • (1 : Su2.Op p) = Matrix.diagonal fun _ => z := by
    ext i j; simp [Matrix.one_apply, Matrix.diagonal_apply]
  rw [this, Matrix.exp_diagonal]
  ext i j
  simp [Matrix.one_apply, Matrix.diagonal_apply, Complex.exp_eq_exp_ℂ]

/-- A ladder operator of `S^y` gets a phase. -/
theorem turn_ladder {A : Su2.Op p} {z : ℂ} (h : Su2.Spec.Sy p * A = A * Su2.Spec.Sy p + z • A) (φ : ℝ) :
    turn p (-φ) * A * turn p φ = Complex.exp (φ * Complex.I * z) • A := by
  have h1 : turn p (-φ) * A = A * (turn p (-φ) * (Complex.exp (φ * Complex.I * z) • 1)) := by
    unfold turn
    rw [exp_intertwine (Y := (-((-φ : ℝ) : ℂ) * Complex.I) • Su2.Spec.Sy p + (φ * Complex.I * z) • 1)]
    · rw [Matrix.exp_add_of_commute _ _ ((Commute.one_right _).smul_right _), exp_scalar]
    · rw [smul_mul_assoc, h, mul_add, mul_smul_comm, mul_smul_comm, mul_one, smul_add, smul_smul]
      congr 2
      push_cast; ring
  rw [h1, mul_assoc, mul_smul_comm, mul_one, smul_mul_assoc, ← turn_add, neg_add_cancel, turn_zero, mul_smul_comm, mul_one]

/-- The components of a turned spin. -/
theorem turn_spin (φ : ℝ) : turn p (-φ) * spin p 0 * turn p φ = (Real.cos φ : ℂ) • spin p 0 + (Real.sin φ : ℂ) • spin p 2 ∧
    turn p (-φ) * spin p 1 * turn p φ = spin p 1 ∧ turn p (-φ) * spin p 2 * turn p φ = (Real.cos φ : ℂ) • spin p 2 - (Real.sin φ : ℂ) • spin p 0 := by
  obtain ⟨h0, h1, h2⟩ := sy_comm p
  rw [sub_eq_iff_eq_add] at h0 h1 h2
  have hp := turn_ladder (A := spin p 2 + Complex.I • spin p 0) (z := 1) (by
    rw [mul_add, mul_smul_comm, h0, h2, add_mul, smul_mul_assoc]
    match_scalars <;> simp) φ
  have hm := turn_ladder (A := spin p 2 - Complex.I • spin p 0) (z := -1) (by
    rw [mul_sub, mul_smul_comm, h0, h2, sub_mul, smul_mul_assoc]
    match_scalars <;> simp) φ
  have hy := turn_ladder (A := spin p 1) (z := 0) (by rw [h1]; simp) φ
  simp only [mul_add, add_mul, mul_sub, sub_mul, mul_smul_comm, smul_mul_assoc, mul_one, mul_neg] at hp hm
  have ep : Complex.exp (φ * Complex.I) = Real.cos φ + Real.sin φ * Complex.I := by rw [Complex.exp_mul_I]; simp
  have em : Complex.exp (-(φ * Complex.I)) = Real.cos φ - Real.sin φ * Complex.I := by rw [← neg_mul, Complex.exp_mul_I]; simp [sub_eq_add_neg]
  rw [ep] at hp
  rw [em] at hm
  refine ⟨?_, by simpa using hy, ?_⟩
  · have : turn p (-φ) * spin p 0 * turn p φ = (-(Complex.I / 2)) • ((turn p (-φ) * spin p 2 * turn p φ + Complex.I • (turn p (-φ) * spin p 0 * turn p φ)) -
        (turn p (-φ) * spin p 2 * turn p φ - Complex.I • (turn p (-φ) * spin p 0 * turn p φ))) := by
      match_scalars
      · linear_combination (1 : ℂ) * Complex.I_mul_I
      · ring
    rw [this, hp, hm]
    match_scalars
    · push_cast; linear_combination (-(Complex.sin φ : ℂ)) * Complex.I_mul_I
    · push_cast; linear_combination (-(Complex.cos φ : ℂ)) * Complex.I_mul_I
  · have : turn p (-φ) * spin p 2 * turn p φ = (1 / 2 : ℂ) • ((turn p (-φ) * spin p 2 * turn p φ + Complex.I • (turn p (-φ) * spin p 0 * turn p φ)) +
        (turn p (-φ) * spin p 2 * turn p φ - Complex.I • (turn p (-φ) * spin p 0 * turn p φ))) := by
      match_scalars <;> ring
    rw [this, hp, hm]
    match_scalars
    · ring
    · push_cast; linear_combination (Complex.sin φ : ℂ) * Complex.I_mul_I

namespace Spec
/-- The component y of `S_x × S_y`. -/
noncomputable def crossY (n p : Nat) (x y : Fin n) : OpN n p := on x (spin p 2) * on y (spin p 0) - on x (spin p 0) * on y (spin p 2)
end Spec

theorem turned_on (A B : Su2.Op p) (φ : ℝ) : (prod ![1, turn p φ]).transpose * (on 0 A * on 1 B) * prod ![1, turn p φ] = on 0 A * on 1 (turn p (-φ) * B * turn p φ) := by
  unfold on
  rw [prod_transpose, prod_mul, prod_mul, prod_mul, prod_mul]
  congr 1
  funext i
  fin_cases i
  · simp
  · simp [turn_transpose, Matrix.mul_assoc]

/-- `S . S` of two spins, the second one being turned by opposite angles. -/
theorem turned_dot (φ : ℝ) : (prod ![1, turn p (-φ)]).transpose * dot 2 p 0 1 * prod ![1, turn p (-φ)] =
    (prod ![1, turn p φ]).transpose * dot 2 p 0 1 * prod ![1, turn p φ] + ((2 * Real.sin φ : ℝ) : ℂ) • crossY 2 p 0 1 := by
  unfold dot crossY
  rw [Fin.sum_univ_three]
  simp only [Matrix.add_mul, turned_on, (turn_spin (p := p) φ).1, (turn_spin (p := p) φ).2.1, (turn_spin (p := p) φ).2.2,
    (turn_spin (p := p) (-φ)).1, (turn_spin (p := p) (-φ)).2.1, (turn_spin (p := p) (-φ)).2.2, Real.cos_neg, Real.sin_neg, on_add, on_sub, on_smul, mul_add, mul_sub, mul_smul_comm,
    Complex.ofReal_neg]
  push_cast
  match_scalars <;> ring

end Verif.Trgl
