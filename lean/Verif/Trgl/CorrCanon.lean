import Verif.Trgl.CorrProps
import Verif.Trgl.ObsProps
import Verif.Energy.CorrProps
/-
C125: correlations along and across the magnetisation, one-point functions, correlations without a pitch.
-/
namespace Verif.Trgl
open Tensor Ctm Rdm Models Spec

variable {p : Nat} {D : Dims} {st : State ℂ} {env : Env ℂ} {N : Corrf.Spec.Tensors ℂ}

theorem szxiy_spin (p : Nat) : szxiy p 0 = Trgl.Spec.spin p 2 ∧ szxiy p 1 = Trgl.Spec.spin p 0 ∧ szxiy p 2 = Complex.I • Trgl.Spec.spin p 1 := by
  refine ⟨rfl, ?_, ?_⟩
  · show (1 / 2 : ℂ) • (Su2.SP p + Su2.SM p) = Su2.Spec.Sx p
    simp [Su2.Spec.Sx]
  · show (1 / 2 : ℂ) • (Su2.SP p - Su2.SM p) = Complex.I • Su2.Spec.Sy p
    unfold Su2.Spec.Sy
    rw [smul_smul]
    congr 1
    linear_combination (1 / 2 : ℂ) * Complex.I_mul_I

/-- The vector of magnetisation, normalised; the last component is `i` times that of the y-axis. -/
theorem direction_ok (eigh : Tensor ℂ → List ℝ × Tensor ℂ) (ht : Tiling st) (hs : FitsState D st) (he : FitsEnv D st env) (hp : ∀ c, D.p c = p) {c : Coord} {rho : Tensor ℂ}
    (hr : rdm1x1 eigh true false st env c none = .ok rho) :
    direction eigh p st env c = .ok ![((moment p rho 2 / length p rho : ℝ) : ℂ), ((moment p rho 0 / length p rho : ℝ) : ℂ), Complex.I * ((moment p rho 1 / length p rho : ℝ) : ℂ)] := by
  obtain ⟨sh, hh⟩ := site_herm eigh ht hs he hp hr
  obtain ⟨s0, s1, s2⟩ := szxiy_spin p
  have hz : Energy.traceMul rho (opP p (szxiy p 0)) = some ((moment p rho 2 : ℝ) : ℂ) := by
    rw [traceMul_op sh, ← moment_real hh, s0]
  have hx : Energy.traceMul rho (opP p (szxiy p 1)) = some ((moment p rho 0 : ℝ) : ℂ) := by
    rw [traceMul_op sh, ← moment_real hh, s1]
  have hy : Energy.traceMul rho (opP p (szxiy p 2)) = some (Complex.I * (moment p rho 1 : ℝ)) := by
    rw [traceMul_op sh, ← moment_real hh, s2]
    simp only [Finset.mul_sum]
    congr 1
    refine Finset.sum_congr rfl fun s _ => Finset.sum_congr rfl fun t _ => ?_
    simp only [Matrix.smul_apply, smul_eq_mul]
    ring
  have hn : Real.sqrt (‖((moment p rho 2 : ℝ) : ℂ)‖ ^ 2 + ‖((moment p rho 0 : ℝ) : ℂ)‖ ^ 2 + ‖Complex.I * ((moment p rho 1 : ℝ) : ℂ)‖ ^ 2) = length p rho := by
    unfold length
    simp only [norm_mul, Complex.norm_I, one_mul, Complex.norm_real, Real.norm_eq_abs, sq_abs]
    congr 1
    ring
  unfold direction
  rw [hr]
  simp only [bind, Except.bind, hz, hx, hy, lift, hn, pure, Except.pure]
  refine congrArg Except.ok (funext fun i => ?_)
  fin_cases i
  · simp
  · simp
  · simp [mul_div_assoc]

theorem SR_half (e : Fin 3 → ℂ) : (∑ b, SR 2 e 0 b • szxiy 2 b = e 0 • szxiy 2 0 + e 1 • szxiy 2 1) ∧ (∑ b, SR 2 e 1 b • szxiy 2 b = e 0 • szxiy 2 1 - e 1 • szxiy 2 0) ∧
    (∑ b, SR 2 e 2 b • szxiy 2 b = szxiy 2 2) := by
  have hsp : Su2.SP 2 = !![0, 1; 0, 0] := by
    ext i j
    fin_cases i <;> fin_cases j <;> simp [Su2.SP, Su2.spEntry]
    norm_num
  have hsm : Su2.SM 2 = !![0, 0; 1, 0] := by
    ext i j
    fin_cases i <;> fin_cases j <;> simp [Su2.SM, Su2.smEntry]
    norm_num
  have h2 : szxiy 2 2 = !![0, 1 / 2; -(1 / 2), 0] := by
    show (1 / 2 : ℂ) • (Su2.SP 2 - Su2.SM 2) = _
    rw [hsp, hsm]
    ext i j
    fin_cases i <;> fin_cases j <;> simp
  have o00 : (opP 2 1).val [0, 0] = 1 := by simpa using opP_val (1 : Su2.Op 2) 0 0
  have o11 : (opP 2 1).val [1, 1] = 1 := by simpa using opP_val (1 : Su2.Op 2) 1 1
  have s00 : (opP 2 (szxiy 2 2)).val [0, 0] = 0 := by simpa [h2] using opP_val (szxiy 2 2) 0 0
  have s11 : (opP 2 (szxiy 2 2)).val [1, 1] = 0 := by simpa [h2] using opP_val (szxiy 2 2) 1 1
  have e00 : SR 2 e 0 0 = e 0 := by simp [SR, o00, s00]
  have e01 : SR 2 e 0 1 = e 1 := by simp [SR, opP, h2]
  have e02 : SR 2 e 0 2 = 0 := by simp [SR]
  have e10 : SR 2 e 1 0 = -e 1 := by simp [SR, opP, h2]
  have e11 : SR 2 e 1 1 = e 0 := by simp [SR, o11, s11]
  have e12 : SR 2 e 1 2 = 0 := by simp [SR]
  have e20 : SR 2 e 2 0 = 0 := by simp [SR]
  have e21 : SR 2 e 2 1 = 0 := by simp [SR]
  have e22 : SR 2 e 2 2 = 1 := by simp [SR]
  simp only [Fin.sum_univ_three, e00, e01, e02, e10, e11, e12, e20, e21, e22]
  refine ⟨by simp, ?_, by simp⟩
  rw [zero_smul, add_zero, neg_smul, add_comm, sub_eq_add_neg]

/-- The components of the spin along and across the projection of the magnetisation onto the x-z plane, divided by the length of the magnetisation. -/
noncomputable def Spec.along (rho : Tensor ℂ) : Su2.Op 2 := ((moment 2 rho 2 / length 2 rho : ℝ) : ℂ) • Trgl.Spec.spin 2 2 + ((moment 2 rho 0 / length 2 rho : ℝ) : ℂ) • Trgl.Spec.spin 2 0
noncomputable def Spec.across (rho : Tensor ℂ) : Su2.Op 2 := ((moment 2 rho 2 / length 2 rho : ℝ) : ℂ) • Trgl.Spec.spin 2 0 - ((moment 2 rho 0 / length 2 rho : ℝ) : ℂ) • Trgl.Spec.spin 2 2

theorem canonical_ok (eigh : Tensor ℂ → List ℝ × Tensor ℂ) (ht : Tiling st) (hs : FitsState D st) (he : FitsEnv D st env) (hp : ∀ c, D.p c = 2) (hN : Corrf.Spec.Reads st env N) (d : Dir) (c : Coord)
    (dist : Nat) (hn : ∀ r ≤ dist, Corrf.Spec.norm N D d c (r + 2) ≠ 0) (q : ℝ × ℝ) {rho : Tensor ℂ} (hr : rdm1x1 eigh true false st env c none = .ok rho) :
    ∃ R, evalCorrfSS eigh 2 q true true st env d c dist = .ok R ∧ R.ss.length = dist + 1 ∧ ∀ r ≤ dist,
      R.szsz[r]? = some (correlation (spiralState 2 (-q.1, q.1) c N) D d c (along rho) (along rho) r).re ∧
      R.sxsx[r]? = some (correlation (spiralState 2 (-q.1, q.1) c N) D d c (across rho) (across rho) r).re ∧
      R.sysy[r]? = some (correlation (spiralState 2 (-q.1, q.1) c N) D d c (Trgl.Spec.spin 2 1) (Trgl.Spec.spin 2 1) r).re ∧
      R.ss[r]? = some (correlation (spiralState 2 (-q.1, q.1) c N) D d c (along rho) (along rho) r + correlation (spiralState 2 (-q.1, q.1) c N) D d c (across rho) (across rho) r +
        correlation (spiralState 2 (-q.1, q.1) c N) D d c (Trgl.Spec.spin 2 1) (Trgl.Spec.spin 2 1) r).re := by
  obtain ⟨t0, t1, t2⟩ := szxiy_transpose 2
  obtain ⟨w0, w1, w2⟩ := SR_half ![((moment 2 rho 2 / length 2 rho : ℝ) : ℂ), ((moment 2 rho 0 / length 2 rho : ℝ) : ℂ), Complex.I * ((moment 2 rho 1 / length 2 rho : ℝ) : ℂ)]
  have hd := direction_ok eigh ht hs he hp hr
  have ho : operators eigh 2 true st env c = .ok (fun a => ∑ b, SR 2 ![((moment 2 rho 2 / length 2 rho : ℝ) : ℂ), ((moment 2 rho 0 / length 2 rho : ℝ) : ℂ),
      Complex.I * ((moment 2 rho 1 / length 2 rho : ℝ) : ℂ)] a b • szxiy 2 b) := by
    unfold operators
    simp only [if_true]
    rw [hd]
    rfl
  have u0 : ((∑ b, SR 2 ![((moment 2 rho 2 / length 2 rho : ℝ) : ℂ), ((moment 2 rho 0 / length 2 rho : ℝ) : ℂ), Complex.I * ((moment 2 rho 1 / length 2 rho : ℝ) : ℂ)] 0 b • szxiy 2 b)).transpose = along rho := by
    rw [w0, Matrix.transpose_add, Matrix.transpose_smul, Matrix.transpose_smul, t0, t1]; rfl
  have u1 : ((∑ b, SR 2 ![((moment 2 rho 2 / length 2 rho : ℝ) : ℂ), ((moment 2 rho 0 / length 2 rho : ℝ) : ℂ), Complex.I * ((moment 2 rho 1 / length 2 rho : ℝ) : ℂ)] 1 b • szxiy 2 b)).transpose = across rho := by
    rw [w1, Matrix.transpose_sub, Matrix.transpose_smul, Matrix.transpose_smul, t0, t1]; rfl
  have u2 : ((∑ b, SR 2 ![((moment 2 rho 2 / length 2 rho : ℝ) : ℂ), ((moment 2 rho 0 / length 2 rho : ℝ) : ℂ), Complex.I * ((moment 2 rho 1 / length 2 rho : ℝ) : ℂ)] 2 b • szxiy 2 b)).transpose =
      (-Complex.I) • Trgl.Spec.spin 2 1 := by rw [w2, t2]
  generalize ![((moment 2 rho 2 / length 2 rho : ℝ) : ℂ), ((moment 2 rho 0 / length 2 rho : ℝ) : ℂ), Complex.I * ((moment 2 rho 1 / length 2 rho : ℝ) : ℂ)] = e at ho u0 u1 u2
  obtain ⟨z, ez, lz, vz⟩ := call_ok ht hs he hp hN d c dist hn q true (∑ b, SR 2 e 0 b • szxiy 2 b)
  obtain ⟨x, ex, lx, vx⟩ := call_ok ht hs he hp hN d c dist hn q true (∑ b, SR 2 e 1 b • szxiy 2 b)
  obtain ⟨y, ey, ly, vy⟩ := call_ok ht hs he hp hN d c dist hn q true (∑ b, SR 2 e 2 b • szxiy 2 b)
  rw [u0] at vz
  rw [u1] at vx
  rw [u2] at vy
  simp only [show seen true q = (-q.1, q.1) from rfl] at vx vy vz
  have hy : ∀ r, correlation (spiralState 2 (-q.1, q.1) c N) D d c ((-Complex.I) • Trgl.Spec.spin 2 1) ((-Complex.I) • Trgl.Spec.spin 2 1) r =
      -correlation (spiralState 2 (-q.1, q.1) c N) D d c (Trgl.Spec.spin 2 1) (Trgl.Spec.spin 2 1) r := by
    intro r
    rw [correlation_smul]
    linear_combination (correlation (spiralState 2 (-q.1, q.1) c N) D d c (Trgl.Spec.spin 2 1) (Trgl.Spec.spin 2 1) r) * Complex.I_mul_I
  refine ⟨corrOf (realParts z) (realParts x) (realParts y), ?_, by simp [corrOf, realParts, lz, lx, ly], fun r hr => ⟨?_, ?_, ?_, ?_⟩⟩
  · unfold evalCorrfSS
    rw [ho]
    show (Corrf.corrf11 st env d c (opP 2 (∑ b, SR 2 e 0 b • szxiy 2 b)) (genOp 2 q true d (∑ b, SR 2 e 0 b • szxiy 2 b)) dist >>= _) = _
    rw [ez]
    show (Corrf.corrf11 st env d c (opP 2 (∑ b, SR 2 e 1 b • szxiy 2 b)) (genOp 2 q true d (∑ b, SR 2 e 1 b • szxiy 2 b)) dist >>= _) = _
    rw [ex]
    show (Corrf.corrf11 st env d c (opP 2 (∑ b, SR 2 e 2 b • szxiy 2 b)) (genOp 2 q true d (∑ b, SR 2 e 2 b • szxiy 2 b)) dist >>= _) = _
    rw [ey]
    rfl
  · simp [corrOf, realParts, vz r hr]
  · simp [corrOf, realParts, vx r hr]
  · simp only [corrOf, realParts, List.getElem?_map, vy r hr, hy, Option.map_some, Complex.neg_re, neg_neg]
  · simp only [corrOf, realParts, List.getElem?_zipWith, List.getElem?_map, vz r hr, vx r hr, vy r hr, hy, Option.map_some, Complex.add_re, Complex.neg_re]
    congr 1
    ring

/-- `canonical=True` for spins one half whose magnetisation lies in the x-z plane: the correlations of the components along the magnetisation, across it in the plane, and along the
y-axis; their sum is the correlation of the spins. Missing: other directions of the magnetisation, see `C125_canonical_violated`. -/
theorem C125_canonical_partial (eigh : Tensor ℂ → List ℝ × Tensor ℂ) (ht : Tiling st) (hs : FitsState D st) (he : FitsEnv D st env) (hp : ∀ c, D.p c = 2) (hN : Corrf.Spec.Reads st env N)
    (d : Dir) (c : Coord) (dist : Nat) (hn : ∀ r ≤ dist, Corrf.Spec.norm N D d c (r + 2) ≠ 0) (q : ℝ × ℝ) {rho : Tensor ℂ} (hr : rdm1x1 eigh true false st env c none = .ok rho)
    (hm : length 2 rho ≠ 0) (hy : moment 2 rho 1 = 0) :
    ∃ R, evalCorrfSS eigh 2 q true true st env d c dist = .ok R ∧ ∀ r ≤ dist,
      R.szsz[r]? = some (correlation (spiralState 2 (-q.1, q.1) c N) D d c (along rho) (along rho) r).re ∧
      R.sxsx[r]? = some (correlation (spiralState 2 (-q.1, q.1) c N) D d c (across rho) (across rho) r).re ∧
      R.sysy[r]? = some (correlation (spiralState 2 (-q.1, q.1) c N) D d c (Trgl.Spec.spin 2 1) (Trgl.Spec.spin 2 1) r).re ∧
      ∀ c0, R.ss[r]? = some (∑ a, correlation (spiralState 2 (-q.1, q.1) c0 N) D d c (Trgl.Spec.spin 2 a) (Trgl.Spec.spin 2 a) r).re := by
  obtain ⟨R, e, -, h⟩ := canonical_ok eigh ht hs he hp hN d c dist hn q hr
  refine ⟨R, e, fun r hr' => ?_⟩
  obtain ⟨h1, h2, h3, h4⟩ := h r hr'
  refine ⟨h1, h2, h3, fun c0 => ?_⟩
  rw [spiral_total (size_p hs hp hN) _ c0 c, h4]
  have hl : length 2 rho ^ 2 = moment 2 rho 0 ^ 2 + moment 2 rho 2 ^ 2 := by
    unfold length
    rw [hy, Real.sq_sqrt (by positivity)]
    ring
  have hq : ((moment 2 rho 2 / length 2 rho : ℝ) : ℂ) ^ 2 + ((moment 2 rho 0 / length 2 rho : ℝ) : ℂ) ^ 2 = 1 := by
    rw [← Complex.ofReal_pow, ← Complex.ofReal_pow, ← Complex.ofReal_add, div_pow, div_pow, ← add_div, hl, add_comm, div_self]
    · simp
    · rw [← hl]; exact pow_ne_zero 2 hm
  have hk := correlation_spins (N := spiralState 2 (-q.1, q.1) c N) (D := D) ![across rho, Trgl.Spec.spin 2 1, along rho] ![across rho, Trgl.Spec.spin 2 1, along rho] (Trgl.Spec.spin 2) (Trgl.Spec.spin 2) 1 (by
    intro i j k l
    rw [Fin.sum_univ_three, Fin.sum_univ_three]
    show across rho i j * across rho k l + Trgl.Spec.spin 2 1 i j * Trgl.Spec.spin 2 1 k l + along rho i j * along rho k l = _
    simp only [along, across, Matrix.add_apply, Matrix.sub_apply, Matrix.smul_apply, smul_eq_mul]
    linear_combination (Trgl.Spec.spin 2 0 i j * Trgl.Spec.spin 2 0 k l + Trgl.Spec.spin 2 2 i j * Trgl.Spec.spin 2 2 k l) * hq) d c r
  simp only [Matrix.conjTranspose_one, Matrix.one_mul, Matrix.mul_one] at hk
  rw [← hk, Fin.sum_univ_three]
  refine congrArg (fun z : ℂ => some z.re) ?_
  show _ = correlation (spiralState 2 (-q.1, q.1) c N) D d c (across rho) (across rho) r + correlation (spiralState 2 (-q.1, q.1) c N) D d c (Trgl.Spec.spin 2 1) (Trgl.Spec.spin 2 1) r +
    correlation (spiralState 2 (-q.1, q.1) c N) D d c (along rho) (along rho) r
  ring

/-- For spins other than one half `canonical=True` raises. -/
theorem C125_canonical_raises (eigh : Tensor ℂ → List ℝ × Tensor ℂ) (hp : p ≠ 2) (d : Dir) (c : Coord) (dist : Nat) (q : ℝ × ℝ) (conj : Bool) (R : Corr) :
    evalCorrfSS eigh p q true conj st env d c dist ≠ .ok R := by
  have : ∃ e, operators eigh p true st env c = .error e := by
    unfold operators
    simp only [if_true]
    rcases direction eigh p st env c with e | v
    · exact ⟨e, rfl⟩
    · exact ⟨.raise, by simp [bind, Except.bind, hp]⟩
  obtain ⟨e, he⟩ := this
  unfold evalCorrfSS
  rw [he]
  exact fun h => by cases h

theorem idCall_ok (ht : Tiling st) (hs : FitsState D st) (he : FitsEnv D st env) (hp : ∀ c, D.p c = p) (hN : Corrf.Spec.Reads st env N) (d : Dir) (c : Coord)
    (dist : Nat) (hn : ∀ r ≤ dist, Corrf.Spec.norm N D d c (r + 2) ≠ 0) (q : ℝ × ℝ) (conj : Bool) (a : Fin 3) : ∃ l, Corrf.corrf11 st env d c (opP p (turnedOps p q conj c a)) (fun _ => opP p 1) dist = .ok l ∧ l.length = dist + 1 ∧
      ∀ r ≤ dist, l[r]? = some (correlation (if conj then spiralState p (-q.1, -q.1) (0, 0) N else N) D d c (szxiy p a).transpose 1 r) := by
  have hsz := size_p hs hp hN
  obtain ⟨l, e, hl, v⟩ := Corrf.C38_values_partial ht hs he hN d c (opP p (turnedOps p q conj c a)) (fun _ => opP p 1) dist (by rw [hp]; rfl) (fun r _ => by rw [hp]; rfl) hn
  refine ⟨l, e, hl, fun r hr => ?_⟩
  rw [v r hr]
  have h1 : ∀ O : Su2.Op p, Corrf.Spec.twoPoint N D d c (Corrf.Spec.transposed (opP p O)) (Corrf.Spec.transposed (opP p (1 : Su2.Op p))) r / Corrf.Spec.norm N D d c (r + 2) =
      correlation N D d c O.transpose 1 r := by
    intro O
    unfold correlation
    congr 1
    refine twoPoint_same (f := N.a) (fun _ => rfl) (layer_transposed (hsz c) (opP_val O)) ?_
    rw [layer_transposed (hsz _) (opP_val 1), Matrix.transpose_one]
  rw [h1]
  cases conj with
  | false => simp [turnedOps]
  | true =>
    simp only [if_true, turnedOps]
    rw [spiral_correlation hsz, Matrix.mul_one, turn_unitary]
    refine congrArg some (correlation_congr ?_ rfl _ _ _)
    have hx : -(2 * Real.pi * (c.1 * q.1 + c.2 * q.1)) = 2 * Real.pi * (-q.1 * (c.1 - ((0, 0) : Coord).1) + -q.1 * (c.2 - ((0, 0) : Coord).2)) := by
      push_cast
      ring
    rw [rotation_turn, hx, Matrix.transpose_mul, Matrix.transpose_mul, Matrix.transpose_transpose, turn_transpose, turn_conj]

/-- `eval_corrf_SId` returns one-point functions of the spins in the spiral of pitch `(-q_x, -q_x)` or, without `conj_s`, in the state; `isy` is the imaginary part of that of `S^y`. -/
theorem C125_one_point_partial (ht : Tiling st) (hs : FitsState D st) (he : FitsEnv D st env) (hp : ∀ c, D.p c = p) (hN : Corrf.Spec.Reads st env N) (d : Dir) (c : Coord)
    (dist : Nat) (hn : ∀ r ≤ dist, Corrf.Spec.norm N D d c (r + 2) ≠ 0) (q : ℝ × ℝ) (conj : Bool) :
    ∃ R, evalCorrfSId p q conj st env d c dist = .ok R ∧ R.sz.length = dist + 1 ∧ R.sx.length = dist + 1 ∧ R.isy.length = dist + 1 ∧
      let M := if conj then spiralState p (-q.1, -q.1) (0, 0) N else N
      ∀ r ≤ dist, R.sz[r]? = some (correlation M D d c (Trgl.Spec.spin p 2) 1 r).re ∧ R.sx[r]? = some (correlation M D d c (Trgl.Spec.spin p 0) 1 r).re ∧
        R.isy[r]? = some (correlation M D d c (Trgl.Spec.spin p 1) 1 r).im := by
  obtain ⟨t0, t1, t2⟩ := szxiy_transpose p
  have key := idCall_ok ht hs he hp hN d c dist hn q conj
  obtain ⟨z, ez, lz, vz⟩ := key 0
  obtain ⟨x, ex, lx, vx⟩ := key 1
  obtain ⟨y, ey, ly, vy⟩ := key 2
  rw [t0] at vz
  rw [t1] at vx
  rw [t2] at vy
  refine ⟨⟨realParts z, realParts x, realParts y⟩, ?_, by simp [realParts, lz], by simp [realParts, lx], by simp [realParts, ly], ?_⟩
  · unfold evalCorrfSId
    rw [ez]
    show (Corrf.corrf11 st env d c (opP p (turnedOps p q conj c 1)) (fun _ => opP p 1) dist >>= _) = _
    rw [ex]
    show (Corrf.corrf11 st env d c (opP p (turnedOps p q conj c 2)) (fun _ => opP p 1) dist >>= _) = _
    rw [ey]
    rfl
  · intro M r hr
    refine ⟨by simp [realParts, vz r hr, M], by simp [realParts, vx r hr, M], ?_⟩
    have := correlation_smul (N := M) (D := D) (-Complex.I) 1 (Trgl.Spec.spin p 1) 1 d c r
    rw [one_smul, mul_one] at this
    simp only [realParts, List.getElem?_map, vy r hr, Option.map_some]
    rw [this]
    simp

/-- At the sites with `y = 0` this is the spiral of the energies and of `eval_corrf_SS`. -/
theorem C125_one_point_row (hN : ∀ c, (N.a c).size 0 = p) (q : ℝ × ℝ) (d : Dir) (x : Int) (A : Su2.Op p) (r : Nat) :
    correlation (spiralState p (-q.1, -q.1) (0, 0) N) D d (x, 0) A 1 r = correlation (spiralState p (-q.1, q.1) (0, 0) N) D d (x, 0) A 1 r := by
  rw [spiral_correlation hN, spiral_correlation hN, Matrix.mul_one, Matrix.mul_one, turn_unitary, turn_unitary]
  simp

/-- `J1J2J4.eval_corrf_SS` returns the correlations of the spins in the state, and raises for other pitch vectors than zero. -/
theorem C125_plain (ht : Tiling st) (hs : FitsState D st) (he : FitsEnv D st env) (hp : ∀ c, D.p c = p) (hN : Corrf.Spec.Reads st env N) (d : Dir) (c : Coord)
    (dist : Nat) (hn : ∀ r ≤ dist, Corrf.Spec.norm N D d c (r + 2) ≠ 0) (q : ℝ × ℝ) :
    (q ≠ (0, 0) → ∃ e, evalCorrfSS0 p q st env d c dist = .error e) ∧
    (q = (0, 0) → ∃ R, evalCorrfSS0 p q st env d c dist = .ok R ∧ R.ss.length = dist + 1 ∧ R.szsz.length = dist + 1 ∧ R.sxsx.length = dist + 1 ∧ R.sysy.length = dist + 1 ∧
      ∀ r ≤ dist, R.szsz[r]? = some (correlation N D d c (Trgl.Spec.spin p 2) (Trgl.Spec.spin p 2) r) ∧ R.sxsx[r]? = some (correlation N D d c (Trgl.Spec.spin p 0) (Trgl.Spec.spin p 0) r) ∧
        R.sysy[r]? = some (correlation N D d c (Trgl.Spec.spin p 1) (Trgl.Spec.spin p 1) r) ∧
        R.ss[r]? = some (∑ a, correlation N D d c (Trgl.Spec.spin p a) (Trgl.Spec.spin p a) r)) := by
  constructor
  · intro h
    refine ⟨.raise, ?_⟩
    unfold evalCorrfSS0
    rw [if_pos fun h' => h (Prod.ext h'.1 h'.2)]
  · rintro rfl
    have hsz := size_p hs hp hN
    obtain ⟨t0, t1, t2⟩ := szxiy_transpose p
    have key : ∀ O : Su2.Op p, ∃ l, Corrf.corrf11 st env d c (opP p O) (fun _ => opP p O) dist = .ok l ∧ l.length = dist + 1 ∧
        ∀ r ≤ dist, l[r]? = some (correlation N D d c O.transpose O.transpose r) := by
      intro O
      obtain ⟨l, e, hl, v⟩ := Corrf.C38_values_partial ht hs he hN d c (opP p O) (fun _ => opP p O) dist (by rw [hp]; rfl) (fun r _ => by rw [hp]; rfl) hn
      refine ⟨l, e, hl, fun r hr => ?_⟩
      rw [v r hr]
      unfold correlation
      congr 2
      exact twoPoint_same (f := N.a) (fun _ => rfl) (layer_transposed (hsz c) (opP_val O)) (layer_transposed (hsz _) (opP_val O))
    obtain ⟨z, ez, lz, vz⟩ := key (szxiy p 0)
    obtain ⟨x, ex, lx, vx⟩ := key (szxiy p 1)
    have hneg : ((-(1 / 2) : ℂ) • (Su2.SP p - Su2.SM p)) = -(szxiy p 2) := by
      show _ = -((1 / 2 : ℂ) • (Su2.SP p - Su2.SM p))
      rw [neg_smul]
    obtain ⟨y, ey, ly, vy⟩ := key ((-(1 / 2) : ℂ) • (Su2.SP p - Su2.SM p))
    rw [t0] at vz
    rw [t1] at vx
    rw [hneg, Matrix.transpose_neg, t2, ← neg_smul, neg_neg] at vy
    have hy : ∀ r, correlation N D d c (Complex.I • Trgl.Spec.spin p 1) (Complex.I • Trgl.Spec.spin p 1) r = -correlation N D d c (Trgl.Spec.spin p 1) (Trgl.Spec.spin p 1) r := by
      intro r
      rw [correlation_smul, Complex.I_mul_I]
      ring
    refine ⟨Energy.spinCorr z x y, ?_, ?_, lz, lx, ?_, fun r hr => ⟨vz r hr, vx r hr, ?_, ?_⟩⟩
    · unfold evalCorrfSS0
      rw [if_neg (by simp)]
      show (Corrf.corrf11 st env d c (opP p (szxiy p 0)) (fun _ => opP p (szxiy p 0)) dist >>= _) = _
      rw [ez]
      show (Corrf.corrf11 st env d c (opP p (szxiy p 1)) (fun _ => opP p (szxiy p 1)) dist >>= _) = _
      rw [ex]
      show (Corrf.corrf11 st env d c _ _ dist >>= _) = _
      rw [ey]
      rfl
    · simp [Energy.spinCorr, Energy.subL, Energy.addL, lz, lx, ly]
    · simp [Energy.spinCorr, Energy.negL, ly]
    · simp only [Energy.spinCorr, Energy.negL, List.getElem?_map, vy r hr, hy, Option.map_some, neg_neg]
    · simp only [Energy.spinCorr, Energy.subL, Energy.addL, List.getElem?_zipWith, vz r hr, vx r hr, vy r hr, hy, Fin.sum_univ_three]
      congr 1
      ring

end Verif.Trgl
