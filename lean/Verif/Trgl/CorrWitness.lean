import Verif.Trgl.CorrCanon
import Verif.Trgl.Witness
import Verif.Energy.Examples
/-
C125: examples and refutations on product states with one site per cell.
-/
namespace Verif.Trgl
open Tensor Ctm Rdm Models Spec Corrf

/-- The product state with the vector `w` on every site. -/
def oneState (w : Nat → ℂ) : State ℂ := gState 2 [(0, 0)] (fun _ => (0, 0)) (fun _ => w)
def oneTensors (w : Nat → ℂ) : Corrf.Spec.Tensors ℂ := gTensors 2 (fun _ => (0, 0)) (fun _ => w)

theorem one_tiling (w : Nat → ℂ) : Tiling (oneState w) :=
  ⟨fun _ _ => rfl, fun _ => by simp [oneState, gState], fun c hc => by simp [oneState, gState] at hc ⊢; exact hc.symm, by simp [oneState, gState]⟩
theorem one_fits (w : Nat → ℂ) : FitsState (gDims 2) (oneState w) := gFitsState _ _ _ (by decide)
theorem one_env (w : Nat → ℂ) : FitsEnv (gDims 2) (oneState w) pEnv := gFitsEnv _ _ _
theorem one_reads (w : Nat → ℂ) : Corrf.Spec.Reads (oneState w) pEnv (oneTensors w) := gReads _ _ _
theorem one_norm {w : Nat → ℂ} (hw : gExpect 2 w Corrf.Spec.one = 1) (d : Dir) (c : Coord) (n : Nat) : Corrf.Spec.norm (oneTensors w) (gDims 2) d c n = 1 := gNorm _ _ (fun _ => hw) d c n

/-- Neighbours in the product state. -/
theorem one_corr {w : Nat → ℂ} (hw : gExpect 2 w Corrf.Spec.one = 1) (d : Dir) (c : Coord) (A B : Su2.Op 2) :
    correlation (oneTensors w) (gDims 2) d c A B 0 = gExpect 2 w (elements A) * gExpect 2 w (elements B) := by
  unfold correlation
  rw [one_norm hw, div_one, Corrf.Spec.twoPoint]
  refine (gNetwork _ _ _ _ _).trans ?_
  simp [gAlong]

theorem expect2 (w : Nat → ℂ) (A : Su2.Op 2) : gExpect 2 w (elements A) = star (w 0) * A 0 0 * w 0 + star (w 0) * A 0 1 * w 1 + (star (w 1) * A 1 0 * w 0 + star (w 1) * A 1 1 * w 1) := by
  simp [gExpect, Finset.sum_range_succ, elements]

theorem one_size (w : Nat → ℂ) (c : Coord) : ((oneTensors w).a c).size 0 = 2 := rfl

/-! ### Spins in the plane of y and z -/

theorem y_norm : gExpect 2 Energy.yVec Corrf.Spec.one = 1 := by
  simp [gExpect, Energy.yVec, Corrf.Spec.one, Finset.sum_range_succ, map_ofNat]
  linear_combination (-16 / 25 : ℂ) * Complex.I_mul_I
theorem y_unit : Unit 2 Energy.yVec := by
  simp [Unit, Energy.yVec, Finset.sum_range_succ, map_ofNat]
  linear_combination (-16 / 25 : ℂ) * Complex.I_mul_I

theorem y_spins : gExpect 2 Energy.yVec (elements (Trgl.Spec.spin 2 0)) = 0 ∧ gExpect 2 Energy.yVec (elements (Trgl.Spec.spin 2 1)) = 12 / 25 ∧
    gExpect 2 Energy.yVec (elements (Trgl.Spec.spin 2 2)) = -(7 / 50) := by
  refine ⟨?_, ?_, ?_⟩
  · rw [expect2, show Trgl.Spec.spin 2 0 = (1 / 2 : ℂ) • !![0, 1; 1, 0] from sx_half]
    simp [Energy.yVec, map_ofNat]
    ring
  · rw [expect2, show Trgl.Spec.spin 2 1 = -(Complex.I / 2) • !![0, 1; -1, 0] from sy_half]
    simp [Energy.yVec, map_ofNat]
    linear_combination (-12 / 25 : ℂ) * Complex.I_mul_I
  · rw [expect2, show Trgl.Spec.spin 2 2 = !![1 / 2, 0; 0, -(1 / 2)] from sz_half]
    simp [Energy.yVec, map_ofNat]
    linear_combination (8 / 25 : ℂ) * Complex.I_mul_I

/-- The magnetisation is the expectation value. -/
theorem moment_product {w : Nat → ℂ} {R : Tensor ℂ} (h : ∀ s t : Nat, s < 2 → t < 2 → R.val [s, t] = w s * star (w t)) (a : Fin 3) :
    moment 2 R a = (gExpect 2 w (elements (Trgl.Spec.spin 2 a))).re := by
  unfold moment
  congr 1
  rw [expect2]
  simp only [Fin.sum_univ_two, Fin.val_zero, Fin.val_one]
  rw [h 0 0 (by decide) (by decide), h 0 1 (by decide) (by decide), h 1 0 (by decide) (by decide), h 1 1 (by decide) (by decide)]
  ring

theorem y_moment {R : Tensor ℂ} (h : ∀ s t : Nat, s < 2 → t < 2 → R.val [s, t] = Energy.yVec s * star (Energy.yVec t)) :
    moment 2 R 0 = 0 ∧ moment 2 R 1 = 12 / 25 ∧ moment 2 R 2 = -(7 / 50) ∧ length 2 R = 1 / 2 := by
  obtain ⟨h0, h1, h2⟩ := y_spins
  have m0 : moment 2 R 0 = 0 := by rw [moment_product h, h0]; rfl
  have m1 : moment 2 R 1 = 12 / 25 := by rw [moment_product h, h1]; norm_num
  have m2 : moment 2 R 2 = -(7 / 50) := by rw [moment_product h, h2]; norm_num
  refine ⟨m0, m1, m2, ?_⟩
  unfold length
  rw [m0, m1, m2, show (0 : ℝ) ^ 2 + (12 / 25) ^ 2 + (-(7 / 50)) ^ 2 = (1 / 2) ^ 2 by norm_num]
  exact Real.sqrt_sq (by norm_num)

theorem y_total (d : Dir) (c : Coord) : ∑ a, correlation (oneTensors Energy.yVec) (gDims 2) d c (Trgl.Spec.spin 2 a) (Trgl.Spec.spin 2 a) 0 = 1 / 4 := by
  obtain ⟨h0, h1, h2⟩ := y_spins
  simp only [Fin.sum_univ_three, one_corr y_norm, h0, h1, h2]
  norm_num

/-- A product state of spins in the plane of y and z, no pitch: the entry `ss` at distance one is `1/4`, with `canonical=True` it is another number, and the entry `szsz` is not the
correlation `1/4` of the components along the magnetisation. -/
theorem C125_canonical_violated (eigh : Tensor ℂ → List ℝ × Tensor ℂ) : ∃ (st : State ℂ) (env : Env ℂ) (N : Corrf.Spec.Tensors ℂ) (D : Dims) (rho : Tensor ℂ) (R R' : Corr), Tiling st ∧ FitsState D st ∧
    FitsEnv D st env ∧ (∀ c, D.p c = 2) ∧ Corrf.Spec.Reads st env N ∧ (∀ n, Corrf.Spec.norm N D .right (0, 0) n = 1) ∧ rdm1x1 eigh true false st env (0, 0) none = .ok rho ∧ length 2 rho = 1 / 2 ∧
    evalCorrfSS eigh 2 (0, 0) false true st env .right (0, 0) 0 = .ok R' ∧ R'.ss[0]? = some (1 / 4) ∧
    evalCorrfSS eigh 2 (0, 0) true true st env .right (0, 0) 0 = .ok R ∧ R.ss[0]? ≠ R'.ss[0]? ∧
    ∃ m : Su2.Op 2, m = ∑ a, ((moment 2 rho a / length 2 rho : ℝ) : ℂ) • Trgl.Spec.spin 2 a ∧ (correlation N D .right (0, 0) m m 0).re = 1 / 4 ∧ R.szsz[0]? ≠ some (1 / 4) := by
  obtain ⟨rho, hr, hv⟩ := gOne [(0, 0)] (fun _ => (0, 0)) (fun _ => Energy.yVec) eigh (by decide) (fun _ => y_unit) (one_tiling Energy.yVec) (0, 0)
  obtain ⟨m0, m1, m2, ml⟩ := y_moment hv
  have hn : ∀ r ≤ 0, Corrf.Spec.norm (oneTensors Energy.yVec) (gDims 2) .right (0, 0) (r + 2) ≠ 0 := fun r _ => by rw [one_norm y_norm]; exact one_ne_zero
  obtain ⟨R, e, -, h⟩ := canonical_ok eigh (one_tiling Energy.yVec) (one_fits _) (one_env _) (fun _ => rfl) (one_reads _) .right (0, 0) 0 hn (0, 0) hr
  obtain ⟨⟨R', e', -, h'⟩, -⟩ := C125_values eigh (one_tiling Energy.yVec) (one_fits _) (one_env _) (fun _ => rfl) (one_reads _) .right (0, 0) 0 hn (0, 0)
  obtain ⟨k1, -, -, k4⟩ := h 0 le_rfl
  have k5 := h' (0, 0) 0 le_rfl
  obtain ⟨h0, h1, h2⟩ := y_spins
  have hz : ∀ A B : Su2.Op 2, correlation (spiralState 2 (-((0 : ℝ), (0 : ℝ)).1, ((0 : ℝ), (0 : ℝ)).1) (0, 0) (oneTensors Energy.yVec)) (gDims 2) .right (0, 0) A B 0 =
      gExpect 2 Energy.yVec (elements A) * gExpect 2 Energy.yVec (elements B) := by
    intro A B
    rw [show (-((0 : ℝ), (0 : ℝ)).1, ((0 : ℝ), (0 : ℝ)).1) = ((0 : ℝ), (0 : ℝ)) by simp, spiral_zero (one_size _), one_corr y_norm]
  have ha : gExpect 2 Energy.yVec (elements (along rho)) = 49 / 1250 := by
    have : along rho = (-(7 / 25) : ℂ) • Trgl.Spec.spin 2 2 := by
      unfold along
      rw [m0, m2, ml]
      norm_num
    rw [this, expect2]
    rw [expect2] at h2
    simp only [Matrix.smul_apply, smul_eq_mul]
    linear_combination (-(7 / 25) : ℂ) * h2
  have hb : gExpect 2 Energy.yVec (elements (across rho)) = 0 := by
    have : across rho = (-(7 / 25) : ℂ) • Trgl.Spec.spin 2 0 := by
      unfold Trgl.Spec.across
      rw [m0, m2, ml]
      norm_num
    rw [this, expect2]
    rw [expect2] at h0
    simp only [Matrix.smul_apply, smul_eq_mul]
    linear_combination (-(7 / 25) : ℂ) * h0
  have s5 : R'.ss[0]? = some (1 / 4) := by
    rw [k5]
    simp only [hz, Fin.sum_univ_three, h0, h1, h2]
    norm_num
  refine ⟨oneState Energy.yVec, pEnv, oneTensors Energy.yVec, gDims 2, rho, R, R', one_tiling _, one_fits _, one_env _, fun _ => rfl, one_reads _, fun n => one_norm y_norm _ _ _, hr, ml, e', s5, e, ?_, _, rfl, ?_, ?_⟩
  · rw [k4, s5, hz, hz, hz, ha, hb, h1]
    norm_num
  · rw [one_corr y_norm]
    have : gExpect 2 Energy.yVec (elements (∑ a, ((moment 2 rho a / length 2 rho : ℝ) : ℂ) • Trgl.Spec.spin 2 a)) = 1 / 2 := by
      rw [Fin.sum_univ_three, m0, m1, m2, ml, expect2]
      rw [expect2] at h1 h2
      simp only [Matrix.add_apply, Matrix.smul_apply, smul_eq_mul]
      push_cast
      linear_combination (24 / 25 : ℂ) * h1 - (7 / 25 : ℂ) * h2
    rw [this]
    norm_num
  · rw [k1, hz, ha]
    norm_num

/-! ### The one-point functions -/

theorem up_norm : gExpect 2 upV Corrf.Spec.one = 1 := by
  simp [gExpect, upV, Corrf.Spec.one, Finset.sum_range_succ]

theorem up_turned (q : ℝ × ℝ) (d : Dir) (c : Coord) : correlation (spiralState 2 q (0, 0) (oneTensors upV)) (gDims 2) d c (Trgl.Spec.spin 2 0) 1 0 =
    (Real.sin (2 * Real.pi * (q.1 * c.1 + q.2 * c.2)) / 2 : ℝ) := by
  rw [spiral_correlation (one_size _), Matrix.mul_one, turn_unitary, one_corr up_norm, expect2, expect2]
  have hs := Real.sin_two_mul (2 * Real.pi * (q.1 * c.1 + q.2 * c.2) / 2)
  rw [show 2 * (2 * Real.pi * (q.1 * c.1 + q.2 * c.2) / 2) = 2 * Real.pi * (q.1 * c.1 + q.2 * c.2) by ring] at hs
  simp only [Int.cast_zero, sub_zero, turn_half, show Trgl.Spec.spin 2 0 = (1 / 2 : ℂ) • !![0, 1; 1, 0] from sx_half]
  rw [hs]
  generalize 2 * Real.pi * (q.1 * c.1 + q.2 * c.2) / 2 = φ
  simp only [Complex.ofReal_mul, Complex.ofReal_div]
  generalize hc : ((Real.cos φ : ℝ) : ℂ) = x
  generalize hd : ((Real.sin φ : ℝ) : ℂ) = y
  have hx : star x = x := by rw [← hc]; exact Complex.conj_ofReal _
  have hy : star y = y := by rw [← hd]; exact Complex.conj_ofReal _
  simp [-RCLike.star_def, -Complex.star_def, hx, hy, upV, Matrix.mul_apply, Fin.sum_univ_two, Matrix.conjTranspose_apply]
  ring

/-- All spins up, pitch `1/4`: at the site `(0,1)` `eval_corrf_SId` returns `<S^x> = -1/2`; in the spiral of `eval_corrf_SS` and of the energies it is `1/2`. -/
theorem C125_one_point_violated : ∃ (st : State ℂ) (env : Env ℂ) (N : Corrf.Spec.Tensors ℂ) (D : Dims) (q : ℝ × ℝ) (c : Coord) (R : OnePoint), Tiling st ∧ FitsState D st ∧ FitsEnv D st env ∧
    (∀ c, D.p c = 2) ∧ Corrf.Spec.Reads st env N ∧ (∀ n, Corrf.Spec.norm N D .right c n = 1) ∧ evalCorrfSId 2 q true st env .right c 0 = .ok R ∧ R.sx[0]? = some (-(1 / 2) : ℝ) ∧
    (correlation (spiralState 2 (-q.1, q.1) (0, 0) N) D .right c (Trgl.Spec.spin 2 0) 1 0).re = 1 / 2 := by
  obtain ⟨R, e, -, -, -, h⟩ := C125_one_point_partial (one_tiling upV) (one_fits _) (one_env _) (fun _ => rfl) (one_reads _) .right (0, 1) 0
    (fun r _ => by rw [one_norm up_norm]; exact one_ne_zero) (1 / 4, 1 / 4) true
  have k := (h 0 le_rfl).2.1
  simp only [if_true] at k
  refine ⟨oneState upV, pEnv, oneTensors upV, gDims 2, (1 / 4, 1 / 4), (0, 1), R, one_tiling _, one_fits _, one_env _, fun _ => rfl, one_reads _, fun n => one_norm up_norm _ _ _, e, ?_, ?_⟩
  · rw [k, up_turned, Complex.ofReal_re]
    rw [show 2 * Real.pi * (-(1 / 4, (1 / 4 : ℝ)).1 * (((0, 1) : Coord).1 : ℝ) + -(1 / 4, (1 / 4 : ℝ)).1 * (((0, 1) : Coord).2 : ℝ)) = -(Real.pi / 2) by push_cast; ring, Real.sin_neg, Real.sin_pi_div_two]
    norm_num
  · rw [up_turned, Complex.ofReal_re]
    rw [show 2 * Real.pi * (-(1 / 4, (1 / 4 : ℝ)).1 * (((0, 1) : Coord).1 : ℝ) + (1 / 4, (1 / 4 : ℝ)).1 * (((0, 1) : Coord).2 : ℝ)) = Real.pi / 2 by push_cast; ring, Real.sin_pi_div_two]

/-! ### Examples -/

/-- Spins that are not in a plane with the axis of rotation, any pitch. -/
example (eigh : Tensor ℂ → List ℝ × Tensor ℂ) (q : ℝ × ℝ) (d : Dir) (c : Coord) (dist : Nat) : ∃ R, evalCorrfSS eigh 2 q false true (oneState Energy.yVec) pEnv d c dist = .ok R ∧
    Spec.Holds 2 (spiralState 2 (-q.1, q.1) c (oneTensors Energy.yVec)) (gDims 2) d c dist R := by
  obtain ⟨⟨R, e, h, -⟩, -⟩ := C125_values eigh (one_tiling Energy.yVec) (one_fits _) (one_env _) (fun _ => rfl) (one_reads _) d c dist (fun r _ => by rw [one_norm y_norm]; exact one_ne_zero) q
  exact ⟨R, e, h⟩

/-- All spins up: the magnetisation lies in the plane. -/
example (eigh : Tensor ℂ → List ℝ × Tensor ℂ) (q : ℝ × ℝ) (d : Dir) (c : Coord) (dist : Nat) : ∃ rho, rdm1x1 eigh true false (oneState upV) pEnv c none = .ok rho ∧ length 2 rho ≠ 0 ∧ moment 2 rho 1 = 0 ∧
    ∃ R, evalCorrfSS eigh 2 q true true (oneState upV) pEnv d c dist = .ok R ∧ ∀ c0, ∀ r ≤ dist,
      R.ss[r]? = some (∑ a, correlation (spiralState 2 (-q.1, q.1) c0 (oneTensors upV)) (gDims 2) d c (Trgl.Spec.spin 2 a) (Trgl.Spec.spin 2 a) r).re := by
  obtain ⟨rho, hr, hv⟩ := gOne [(0, 0)] (fun _ => (0, 0)) (fun _ => upV) eigh (by decide) (fun _ => upV_unit) (one_tiling upV) c
  have m0 : moment 2 rho 0 = 0 := by
    rw [moment_product hv, expect2, show Trgl.Spec.spin 2 0 = (1 / 2 : ℂ) • !![0, 1; 1, 0] from sx_half]
    simp [upV]
  have m1 : moment 2 rho 1 = 0 := by
    rw [moment_product hv, expect2, show Trgl.Spec.spin 2 1 = -(Complex.I / 2) • !![0, 1; -1, 0] from sy_half]
    simp [upV]
  have m2 : moment 2 rho 2 = 1 / 2 := by
    rw [moment_product hv, expect2, show Trgl.Spec.spin 2 2 = !![1 / 2, 0; 0, -(1 / 2)] from sz_half]
    simp [upV]
  have ml : length 2 rho ≠ 0 := by
    unfold length
    rw [m0, m1, m2]
    exact (Real.sqrt_pos.2 (by norm_num)).ne'
  obtain ⟨R, e, h⟩ := C125_canonical_partial eigh (one_tiling upV) (one_fits _) (one_env _) (fun _ => rfl) (one_reads _) d c dist (fun r _ => by rw [one_norm up_norm]; exact one_ne_zero) q hr ml m1
  exact ⟨rho, hr, ml, m1, R, e, fun c0 r hr => (h r hr).2.2.2 c0⟩

example (d : Dir) (c : Coord) (dist : Nat) : ∃ R, evalCorrfSS0 2 (0, 0) (oneState Energy.yVec) pEnv d c dist = .ok R ∧ R.ss[0]? = some (1 / 4) := by
  obtain ⟨R, e, -, -, -, -, h⟩ := (C125_plain (one_tiling Energy.yVec) (one_fits _) (one_env _) (fun _ => rfl) (one_reads _) d c dist (fun r _ => by rw [one_norm y_norm]; exact one_ne_zero) (0, 0)).2 rfl
  exact ⟨R, e, by rw [(h 0 (Nat.zero_le _)).2.2.2, y_total]⟩

end Verif.Trgl
