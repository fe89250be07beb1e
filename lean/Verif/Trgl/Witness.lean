import Verif.Trgl.Energy
import Verif.Trgl.Product
import Verif.Trgl.ObsProps
import Mathlib.LinearAlgebra.Complex.Module
import Mathlib.Analysis.SpecialFunctions.Exponential
import Mathlib.Analysis.SpecialFunctions.Trigonometric.Basic
import Mathlib.Topology.Algebra.Module.FiniteDimension
/-
Examples for C123 and C124 and the refutation of the documented pitch vector.
-/
namespace Verif.Trgl
open Tensor Ctm Rdm Models Spec Corrf
variable {n p : Nat}

theorem trace_prod (A : Fin n → Su2.Op p) : Matrix.trace (prod A) = ∏ x, Matrix.trace (A x) := by
  simp only [Matrix.trace, Matrix.diag_apply, prod, Matrix.of_apply]
  rw [Finset.prod_univ_sum, Fintype.piFinset_univ]

/-- `S . S` in a product of two density matrices. -/
theorem trace_dot (A B : Su2.Op p) : Matrix.trace (prod ![A, B] * dot 2 p 0 1) = ∑ a, Matrix.trace (A * Trgl.Spec.spin p a) * Matrix.trace (B * Trgl.Spec.spin p a) := by
  unfold Trgl.Spec.dot
  rw [Finset.mul_sum, Matrix.trace_sum]
  refine Finset.sum_congr rfl fun a _ => ?_
  unfold Trgl.Spec.on
  rw [prod_mul, prod_mul, trace_prod, Fin.prod_univ_two]
  simp

/-- `S . S` of two spins of a spiral over a product state. -/
theorem expect_product (q : ℝ × ℝ) (x y : Coord) {R : Tensor ℂ} {A B : Su2.Op p} (h : dens 2 p R = prod ![A, B]) :
    expect q ![x, y] R (dot 2 p 0 1) = ∑ a, Matrix.trace (turn p (2 * Real.pi * (q.1 * x.1 + q.2 * x.2)) * A * (turn p (2 * Real.pi * (q.1 * x.1 + q.2 * x.2))).conjTranspose * Trgl.Spec.spin p a) *
      Matrix.trace (turn p (2 * Real.pi * (q.1 * y.1 + q.2 * y.2)) * B * (turn p (2 * Real.pi * (q.1 * y.1 + q.2 * y.2))).conjTranspose * Trgl.Spec.spin p a) := by
  unfold expect spiral
  rw [h, prod_conj, prod_mul, prod_mul, ← trace_dot]
  congr 3
  funext i
  fin_cases i <;> rfl

theorem sp_half : Su2.SP 2 = !![0, 1; 0, 0] := by
  ext i j
  fin_cases i <;> fin_cases j <;> simp [Su2.SP, Su2.spEntry]
  norm_num

theorem sm_half : Su2.SM 2 = !![0, 0; 1, 0] := by
  ext i j
  fin_cases i <;> fin_cases j <;> simp [Su2.SM, Su2.smEntry]
  norm_num

theorem sz_half : Su2.SZ 2 = !![1 / 2, 0; 0, -(1 / 2)] := by
  ext i j
  fin_cases i <;> fin_cases j <;> simp [Su2.SZ, Su2.szEntry]
  all_goals norm_num

theorem sy_half : Su2.Spec.Sy 2 = -(Complex.I / 2) • !![0, 1; -1, 0] := by
  unfold Su2.Spec.Sy
  rw [sp_half, sm_half]
  congr 1
  ext i j
  fin_cases i <;> fin_cases j <;> simp

theorem sx_half : Su2.Spec.Sx 2 = (1 / 2 : ℂ) • !![0, 1; 1, 0] := by
  unfold Su2.Spec.Sx
  rw [sp_half, sm_half]
  ext i j
  fin_cases i <;> fin_cases j <;> simp

/-- The rotation of a spin one half. -/
theorem turn_half (φ : ℝ) : turn 2 φ = !![(Real.cos (φ / 2) : ℂ), -(Real.sin (φ / 2) : ℂ); (Real.sin (φ / 2) : ℂ), (Real.cos (φ / 2) : ℂ)] := by
  let : NormedRing (Su2.Op 2) := Matrix.linftyOpNormedRing
  let : NormedAlgebra ℂ (Su2.Op 2) := Matrix.linftyOpNormedAlgebra
  let : NormedAlgebra ℝ (Su2.Op 2) := NormedAlgebra.restrictScalars ℝ ℂ _
  let : NormedAlgebra ℚ (Su2.Op 2) := NormedAlgebra.restrictScalars ℚ ℂ _
  have hJ : (!![0, -1; 1, 0] : Su2.Op 2) * !![0, -1; 1, 0] = -1 := by
    ext i j; fin_cases i <;> fin_cases j <;> simp
  let F : ℂ →ₐ[ℝ] Su2.Op 2 := Complex.liftAux _ hJ
  have hc : Continuous F := F.toLinearMap.continuous_of_finiteDimensional
  have hm := NormedSpace.map_exp F hc ((φ / 2 : ℝ) * Complex.I)
  have h1 : (-(φ : ℂ) * Complex.I) • Su2.Spec.Sy 2 = F ((φ / 2 : ℝ) * Complex.I) := by
    rw [Complex.liftAux_apply, sy_half, smul_smul]
    ext i j
    fin_cases i <;> fin_cases j <;> simp [Matrix.algebraMap_matrix_apply]
    all_goals ring_nf
    all_goals simp
    all_goals ring
  refine (congrArg NormedSpace.exp h1).trans (hm.symm.trans ?_)
  rw [← Complex.exp_eq_exp_ℂ, Complex.liftAux_apply, Complex.exp_ofReal_mul_I_re, Complex.exp_ofReal_mul_I_im]
  ext i j
  fin_cases i <;> fin_cases j <;> simp [Matrix.algebraMap_matrix_apply]

/-! ### The ferromagnet -/

/-- Spin up. -/
def upV (a : Nat) : ℂ := if a = 0 then 1 else 0

theorem upV_unit : Unit 2 upV := by simp [Unit, Finset.sum_range_succ, upV]

theorem up_ketbra : ketbra 2 upV = !![1, 0; 0, 0] := by
  ext i j
  fin_cases i <;> fin_cases j <;> simp [ketbra, upV]

/-- One site with all spins up. -/
def upOne : State ℂ := gState 2 [(0, 0)] (fun _ => (0, 0)) (fun _ => upV)

/-- Two spins of the spiral over the ferromagnet enclose the angle of their rotations. -/
theorem up_bond (q : ℝ × ℝ) (x y : Coord) {R : Tensor ℂ} (h : dens 2 2 R = prod ![ketbra 2 upV, ketbra 2 upV]) :
    expect q ![x, y] R (dot 2 2 0 1) = ((Real.cos (2 * Real.pi * (q.1 * (x.1 - y.1) + q.2 * (x.2 - y.2))) / 4 : ℝ) : ℂ) := by
  have key : ∀ φ : ℝ, (Matrix.trace (turn 2 φ * ketbra 2 upV * (turn 2 φ).conjTranspose * Trgl.Spec.spin 2 0) = ((Real.sin φ / 2 : ℝ) : ℂ)) ∧
      (Matrix.trace (turn 2 φ * ketbra 2 upV * (turn 2 φ).conjTranspose * Trgl.Spec.spin 2 1) = 0) ∧
      (Matrix.trace (turn 2 φ * ketbra 2 upV * (turn 2 φ).conjTranspose * Trgl.Spec.spin 2 2) = ((Real.cos φ / 2 : ℝ) : ℂ)) := by
    intro φ
    have h2 : φ = 2 * (φ / 2) := by ring
    rw [turn_conj, turn_half, turn_half, up_ketbra]
    simp only [Trgl.Spec.spin, sx_half, sy_half, sz_half]
    rw [show Real.sin φ = 2 * Real.sin (φ / 2) * Real.cos (φ / 2) by rw [← Real.sin_two_mul]; congr 1]
    rw [show Real.cos φ = 2 * Real.cos (φ / 2) ^ 2 - 1 by rw [← Real.cos_two_mul]; congr 1]
    have hc := Complex.ofReal_inj.2 (Real.sin_sq_add_cos_sq (φ / 2))
    push_cast at hc
    refine ⟨?_, ?_, ?_⟩ <;> simp [Matrix.trace, Fin.sum_univ_two, neg_div, Matrix.mul_apply] <;> first | done | ring1 | linear_combination (-1 / 2 : ℂ) * hc
  rw [expect_product q x y h, Fin.sum_univ_three, (key _).1, (key _).2.1, (key _).2.2, (key _).1, (key _).2.1, (key _).2.2]
  rw [show 2 * Real.pi * (q.1 * ((x.1 : ℝ) - y.1) + q.2 * (x.2 - y.2)) = 2 * Real.pi * (q.1 * x.1 + q.2 * x.2) - 2 * Real.pi * (q.1 * y.1 + q.2 * y.2) by ring, Real.cos_sub]
  push_cast
  ring

/-- The Heisenberg model on the triangular lattice. -/
def heis : Couplings := ⟨2, 1, 0, 1⟩

/-- The energy of the spiral over the ferromagnet. -/
theorem upEnergy (eigh : Tensor ℂ → List ℝ × Tensor ℂ) (q : ℝ × ℝ) : FitsState (gDims 2) upOne ∧ FitsEnv (gDims 2) upOne pEnv ∧ ∃ h v d,
    rdm2x1 eigh true false upOne pEnv (0, 0) = .ok h ∧ rdm1x2 eigh true false upOne pEnv (0, 0) = .ok v ∧ rdm2x2 eigh false upOne pEnv (0, 0) [1, 2] = .ok d ∧
    energyNN eigh heis q upOne pEnv = .ok ((2 * Real.cos (2 * Real.pi * q.1) + Real.cos (4 * Real.pi * q.1)) / 4) ∧
    ∀ q', threeBonds 2 q' 1 h v d (0, 0) = (((Real.cos (2 * Real.pi * q'.1) + Real.cos (2 * Real.pi * q'.2) + Real.cos (2 * Real.pi * (q'.1 - q'.2))) / 4 : ℝ) : ℂ) := by
  have hv : ∀ c : Coord, Unit 2 ((fun _ => upV) c) := fun _ => upV_unit
  obtain ⟨h, eh, dh⟩ := gRow [(0, 0)] (fun _ => (0, 0)) (fun _ => upV) eigh (by norm_num) hv (0, 0)
  obtain ⟨v, ev, dv⟩ := gColumn [(0, 0)] (fun _ => (0, 0)) (fun _ => upV) eigh (by norm_num) hv (0, 0)
  obtain ⟨d, ed, dd⟩ := gDiagonal [(0, 0)] (fun _ => (0, 0)) (fun _ => upV) eigh (by norm_num) hv (0, 0)
  have hs : FitsState (gDims 2) upOne := gFitsState _ _ _ (by norm_num)
  have he : FitsEnv (gDims 2) upOne pEnv := gFitsEnv _ _ _
  have hb : ∀ q', threeBonds 2 q' 1 h v d (0, 0) = (((Real.cos (2 * Real.pi * q'.1) + Real.cos (2 * Real.pi * q'.2) + Real.cos (2 * Real.pi * (q'.1 - q'.2))) / 4 : ℝ) : ℂ) := by
    intro q'
    unfold threeBonds
    rw [up_bond _ _ _ dh, up_bond _ _ _ dv, up_bond _ _ _ dd, ← Real.cos_neg (2 * Real.pi * q'.1), ← Real.cos_neg (2 * Real.pi * q'.2)]
    have e1 : 2 * Real.pi * (q'.1 * (((0 : ℤ) : ℝ) - ((0 + 1 : ℤ) : ℝ)) + q'.2 * (((0 : ℤ) : ℝ) - ((0 : ℤ) : ℝ))) = -(2 * Real.pi * q'.1) := by push_cast; ring
    have e2 : 2 * Real.pi * (q'.1 * (((0 : ℤ) : ℝ) - ((0 : ℤ) : ℝ)) + q'.2 * (((0 : ℤ) : ℝ) - ((0 + 1 : ℤ) : ℝ))) = -(2 * Real.pi * q'.2) := by push_cast; ring
    have e3 : 2 * Real.pi * (q'.1 * (((0 + 1 : ℤ) : ℝ) - ((0 : ℤ) : ℝ)) + q'.2 * (((0 : ℤ) : ℝ) - ((0 + 1 : ℤ) : ℝ))) = 2 * Real.pi * (q'.1 - q'.2) := by push_cast; ring
    simp only [e1, e2, e3]
    push_cast
    ring
  refine ⟨hs, he, h, v, d, eh, ev, ed, ?_, hb⟩
  rw [C123_energy_partial eigh (m := heis) hs he (fun _ => rfl) (by simp [upOne, gState]) q rfl (fun _ => h) (fun _ => v) (fun _ => d)
    (fun c hc => by obtain rfl := List.mem_singleton.1 hc; exact eh) (fun c hc => by obtain rfl := List.mem_singleton.1 hc; exact ev)
    (fun c hc => by obtain rfl := List.mem_singleton.1 hc; exact ed)]
  have hk : upOne.keys = [(0, 0)] := rfl
  rw [hk]
  simp only [List.map_cons, List.map_nil, List.sum_cons, List.sum_nil, List.length_singleton]
  have := hb (pitch q)
  show Except.ok ((((1 : ℝ) : ℂ) * threeBonds 2 (pitch q) 1 h v d (0, 0) + 0) / ((1 : ℕ) : ℂ)).re = _
  rw [this]
  simp only [pitch, Complex.ofReal_one, one_mul, add_zero, Nat.cast_one, div_one, Complex.ofReal_re]
  congr 1
  rw [show 2 * Real.pi * -q.1 = -(2 * Real.pi * q.1) by ring, show 2 * Real.pi * (-q.1 - q.1) = -(4 * Real.pi * q.1) by ring, Real.cos_neg, Real.cos_neg]
  ring

/-- For the pitch vector `(0, 1/2)` rows are aligned and neighbouring rows are opposite, the energy per site is `-1/4`; the energy returned is that of the ferromagnet. -/
theorem C123_violated (eigh : Tensor ℂ → List ℝ × Tensor ℂ) : FitsState (gDims 2) upOne ∧ FitsEnv (gDims 2) upOne pEnv ∧ ∃ h v d, rdm2x1 eigh true false upOne pEnv (0, 0) = .ok h ∧
    rdm1x2 eigh true false upOne pEnv (0, 0) = .ok v ∧ rdm2x2 eigh false upOne pEnv (0, 0) [1, 2] = .ok d ∧
    energyNN eigh heis (0, 1 / 2) upOne pEnv = .ok (3 / 4) ∧ (threeBonds 2 (0, 1 / 2) 1 h v d (0, 0)) = -(1 / 4) := by
  obtain ⟨hs, he, h, v, d, eh, ev, ed, e, hb⟩ := upEnergy eigh (0, 1 / 2)
  refine ⟨hs, he, h, v, d, eh, ev, ed, ?_, ?_⟩
  · rw [e]
    simp
    norm_num
  · rw [hb]
    have h1 : 2 * Real.pi * 2⁻¹ = Real.pi := by ring
    simp [h1]
    norm_num

/-- The spins enclose angles of 120 degrees for `q = 1/3`. -/
example (eigh : Tensor ℂ → List ℝ × Tensor ℂ) : energyNN eigh heis (1 / 3, 0) upOne pEnv = .ok (-(3 / 8)) := by
  obtain ⟨-, -, h, v, d, -, -, -, e, -⟩ := upEnergy eigh (1 / 3, 0)
  rw [e]
  have h3 : Real.cos (2 * Real.pi * (1 / 3)) = -(1 / 2) := by
    rw [show 2 * Real.pi * (1 / 3) = Real.pi - Real.pi / 3 by ring, Real.cos_pi_sub, Real.cos_pi_div_three]
  have h4 : Real.cos (4 * Real.pi * (1 / 3)) = -(1 / 2) := by
    rw [show 4 * Real.pi * (1 / 3) = Real.pi / 3 + Real.pi by ring, Real.cos_add_pi, Real.cos_pi_div_three]
  simp only [h3, h4]
  congr 1
  norm_num

theorem up_tiling : Tiling upOne where
  shift := fun _ _ => rfl
  mem := fun _ => by simp [upOne, gState]
  fix := fun c hc => (List.mem_singleton.1 hc).symm
  nodup := by simp [upOne, gState]

/-- The hypotheses of C124 are met: the moment of the ferromagnet is one half. -/
theorem up_obs (eigh : Tensor ℂ → List ℝ × Tensor ℂ) (q : ℝ × ℝ) : ∃ rho h v d : Tensor ℂ, evalObs eigh 2 q upOne pEnv =
    .ok ((labels [(0, 0)]).map fun l => (l, observable 2 q [(0, 0)] (fun _ => rho) (fun _ => h) (fun _ => v) (fun _ => d) l)) ∧ Trgl.Spec.length 2 rho = 1 / 2 := by
  have hv : ∀ c : Coord, Unit 2 ((fun _ => upV) c) := fun _ => upV_unit
  obtain ⟨rho, e0, v0⟩ := gOne [(0, 0)] (fun _ => (0, 0)) (fun _ => upV) eigh (by norm_num) hv up_tiling (0, 0)
  obtain ⟨h, eh, dh⟩ := gRow [(0, 0)] (fun _ => (0, 0)) (fun _ => upV) eigh (by norm_num) hv (0, 0)
  obtain ⟨v, ev, dv⟩ := gColumn [(0, 0)] (fun _ => (0, 0)) (fun _ => upV) eigh (by norm_num) hv (0, 0)
  obtain ⟨d, ed, dd⟩ := gAnti [(0, 0)] (fun _ => (0, 0)) (fun _ => upV) eigh (by norm_num) hv up_tiling (0, 0)
  refine ⟨rho, h, v, d, ?_, ?_⟩
  · exact C124_eval_obs eigh (st := upOne) (D := gDims 2) up_tiling (gFitsState _ _ _ (by norm_num)) (gFitsEnv _ _ _) (fun _ => rfl) q (by simp [upOne, gState]) (fun _ => rho) (fun _ => h)
      (fun _ => v) (fun _ => d) (fun c hc => by obtain rfl := List.mem_singleton.1 hc; exact e0) (fun c hc => by obtain rfl := List.mem_singleton.1 hc; exact eh)
      (fun c hc => by obtain rfl := List.mem_singleton.1 hc; exact ev) (fun c hc => by obtain rfl := List.mem_singleton.1 hc; exact ed)
  · have h00 := v0 0 0 (by norm_num) (by norm_num)
    have h01 := v0 0 1 (by norm_num) (by norm_num)
    have h10 := v0 1 0 (by norm_num) (by norm_num)
    have h11 := v0 1 1 (by norm_num) (by norm_num)
    simp only [upV] at h00 h01 h10 h11
    unfold Trgl.Spec.length moment
    simp only [Fin.sum_univ_two, Fin.val_zero, Fin.val_one, h00, h01, h10, h11, Trgl.Spec.spin, sx_half, sy_half, sz_half]
    simp

/-- The hypotheses with chirality are met. -/
example (eigh : Tensor ℂ → List ℝ × Tensor ℂ) (q : ℝ × ℝ) : ∃ E, energyNN eigh ⟨2, 1, 1, 1⟩ q upOne pEnv = .ok E := by
  have hv : ∀ c : Coord, Unit 2 ((fun _ => upV) c) := fun _ => upV_unit
  obtain ⟨r, er, -⟩ := gLower [(0, 0)] (fun _ => (0, 0)) (fun _ => upV) eigh (by norm_num) hv (0, 0)
  obtain ⟨s, es, -⟩ := gUpper [(0, 0)] (fun _ => (0, 0)) (fun _ => upV) eigh (by norm_num) hv (0, 0)
  have := C124_chirality eigh (st := upOne) (D := gDims 2) (p := 2) (gFitsState _ _ _ (by norm_num)) (gFitsEnv _ _ _) (fun _ => rfl) q (0, 0) er es
  exact ⟨_, C123_chiral_energy_partial eigh (m := ⟨2, 1, 1, 1⟩) (gFitsState _ _ _ (by norm_num)) (gFitsEnv _ _ _) (fun _ => rfl) (by simp [gState]) q one_ne_zero (fun _ => r)
    (fun _ => s) (fun c hc => by obtain rfl := List.mem_singleton.1 hc; exact er) (fun c hc => by obtain rfl := List.mem_singleton.1 hc; exact es)⟩

end Verif.Trgl
