import Verif.Energy.CorrProps
import Verif.Energy.C4vProps
/-
Properties C100 (one-site states), C102 (longitudinal and transverse correlations).
-/
namespace Verif.Energy
open Tensor Ctm Ctm.Spec

namespace Spec

/-- `Tr(rho o)` of a site. -/
noncomputable def expect1 (r : Tensor ℂ) (o : Corrf.Spec.Op ℂ) : ℂ := ∑ i ∈ Finset.range 2, ∑ j ∈ Finset.range 2, r.val [i, j] * o j i

/-- The component of the spin along `z cos + x sin`. -/
noncomputable def inPlane (u w : ℂ) : Corrf.Spec.Op ℂ := fun i j => u * sz i j + w * sx i j

end Spec

section
variable {chi D : Nat} {a : Tensor ℂ} {env : C4v.Env ℂ}

theorem tensors_two (hf : C4v.Spec.Fits chi D 2 a env) (c : Coord) : ((C4v.tensors a env).a c).size 0 = 2 := by
  show a.size 0 = 2
  simp [Tensor.size, hf.site]

theorem spinCallC4v_ok (hchi : 0 < chi) (hD : 0 < D) (hf : C4v.Spec.Fits chi D 2 a env) (hC : C4v.Spec.CSymm chi env) (hr : C4v.Spec.Rotated D 2 a) (d : Dir) (c : Coord) (dist : Nat)
    (hn : ∀ r ≤ dist, Corrf.Spec.norm (C4v.tensors a env) (C4v.Spec.dims chi D 2) d c (r + 2) ≠ 0) {o : Tensor ℂ} (ho : o.shape = [2, 2]) :
    ∃ l, spinCallC4v a env o dist = .ok l ∧ l.length = dist + 1 ∧
      ∀ r ≤ dist, l[r]? = some (Spec.corr (Spec.stagger c (C4v.tensors a env)) (C4v.Spec.dims chi D 2) d c (Corrf.Spec.transposed o) (Corrf.Spec.transposed o) r) := by
  obtain ⟨f, ef, sf, vf⟩ := alternate_corr (N := C4v.tensors a env) (D := C4v.Spec.dims chi D 2) (tensors_two hf) ho
  obtain ⟨l, e, hl, v⟩ := C4v.C75_transposed hchi hD two_pos hf hC hr d c o f dist ho (fun r _ => sf r) hn
  refine ⟨l, by simp [spinCallC4v, ef, C4v.lift_some, e], hl, fun r hr => ?_⟩
  rw [v r hr, vf]

/-- For every one-site state the correlations are those of the state whose other sublattice is rotated, along every direction. -/
theorem C100_c4v (eigh : Tensor ℂ → List ℝ × Tensor ℂ) (hchi : 0 < chi) (hD : 0 < D) (hf : C4v.Spec.Fits chi D 2 a env) (hC : C4v.Spec.CSymm chi env) (hr : C4v.Spec.Rotated D 2 a) (d : Dir) (c : Coord)
    (dist : Nat) (hn : ∀ r ≤ dist, Corrf.Spec.norm (C4v.tensors a env) (C4v.Spec.dims chi D 2) d c (r + 2) ≠ 0) :
    ∃ R, evalCorrfSSC4v eigh a env dist false = .ok R ∧ Spec.SpinCorrOf (Spec.stagger c (C4v.tensors a env)) (C4v.Spec.dims chi D 2) d c dist R := by
  obtain ⟨z, ez, lz, vz⟩ := spinCallC4v_ok hchi hD hf hC hr d c dist hn (o := opT (Su2.SZ 2)) rfl
  obtain ⟨x, ex, lx, vx⟩ := spinCallC4v_ok hchi hD hf hC hr d c dist hn (o := opSx) rfl
  obtain ⟨y, ey, ly, vy⟩ := spinCallC4v_ok hchi hD hf hC hr d c dist hn (o := opIsy) rfl
  refine ⟨spinCorr z x y, ?_, spinCorr_of (seen_two (tensors_two hf) true c) lz lx ly vz vx vy⟩
  rw [evalCorrfSSC4v, frameOps, if_neg (by decide), bindOk]
  simp only [sops]
  rw [ez, bindOk, ex, bindOk, ey, bindOk]
  rfl

theorem SpinCorrOf_unique {N : Corrf.Spec.Tensors ℂ} {D : Dims} {d : Dir} {c : Coord} {dist : Nat} {R R' : SpinCorr} (h : Spec.SpinCorrOf N D d c dist R) (h' : Spec.SpinCorrOf N D d c dist R') : R = R' := by
  have key : ∀ {x y : List ℂ} {g : Nat → ℂ}, x.length = dist + 1 → y.length = dist + 1 → (∀ r ≤ dist, x[r]? = some (g r)) → (∀ r ≤ dist, y[r]? = some (g r)) → x = y := by
    intro x y g hx hy h1 h2
    refine List.ext_getElem? fun r => ?_
    by_cases hr : r ≤ dist
    · rw [h1 r hr, h2 r hr]
    · rw [List.getElem?_eq_none (by omega), List.getElem?_eq_none (by omega)]
  obtain ⟨⟨l1, l2, l3, l4⟩, z, x, y, s⟩ := h
  obtain ⟨⟨l1', l2', l3', l4'⟩, z', x', y', s'⟩ := h'
  cases R; cases R'
  simp only [SpinCorr.mk.injEq]
  exact ⟨key l1 l1' s s', key l2 l2' z z', key l3 l3' x x', key l4 l4' y y'⟩

theorem stagger_checker (a : Tensor ℂ) (N : Corrf.Spec.Tensors ℂ) (hN : ∀ c, N.a c = a) : Spec.stagger (0, 0) N = checkTensors a N := by
  simp only [Spec.stagger, checkTensors, Spec.other, hN]
  congr 1
  funext c
  rcases Int.emod_two_eq_zero_or_one (c.1 + c.2) with h | h <;> simp [h]

theorem single_cell (a : Tensor ℂ) : Spec.single a = C4v.Spec.cell a := rfl

/-- The same dictionary is returned for the cell with the two tensors `A` and `R A`, without conjugation of the operators, along every direction. -/
theorem C100_checker (eigh : Tensor ℂ → List ℝ × Tensor ℂ) (hchi : 0 < chi) (hD : 0 < D) (hf : C4v.Spec.Fits chi D 2 a env) (hC : C4v.Spec.CSymm chi env) (hr : C4v.Spec.Rotated D 2 a) (d : Dir)
    (dist : Nat) (hn : ∀ r ≤ dist, Corrf.Spec.norm (C4v.tensors a env) (C4v.Spec.dims chi D 2) d (0, 0) (r + 2) ≠ 0) :
    ∃ R, evalCorrfSSC4v eigh a env dist false = .ok R ∧ evalCorrfSS (Spec.checker a) (Spec.both (C4v.Spec.unfold env)) d (0, 0) dist false = .ok R ∧
      evalCorrfSS (Spec.single a) (C4v.Spec.unfold env) d (0, 0) dist true = .ok R := by
  obtain ⟨R, e, h⟩ := C100_c4v eigh hchi hD hf hC hr d (0, 0) dist hn
  have hs : FitsState (C4v.Spec.dims chi D 2) (Spec.single a) := C4v.fitsState hD two_pos hf
  have he : FitsEnv (C4v.Spec.dims chi D 2) (Spec.single a) (C4v.Spec.unfold env) := C4v.fitsEnv hchi hf
  obtain ⟨R1, e1, h1⟩ := C100_values (checker_tiling a) (checker_state hs) (checker_env he) (fun _ => rfl) (checker_reads (C4v.reads a env)) d (0, 0) dist
    (fun r hr => by rw [check_norm (a := a) (N := C4v.tensors a env) (fun _ => rfl) (tensors_two hf (0, 0))]; exact hn r hr) false
  obtain ⟨R2, e2, h2⟩ := C100_values (C4v.tiling a) hs he (fun _ => rfl) (C4v.reads a env) d (0, 0) dist hn true
  have h1' : Spec.SpinCorrOf (Spec.stagger (0, 0) (C4v.tensors a env)) (C4v.Spec.dims chi D 2) d (0, 0) dist R1 := by
    rw [stagger_checker a _ fun _ => rfl]
    exact h1
  obtain rfl := SpinCorrOf_unique h h1'
  obtain rfl := SpinCorrOf_unique h h2
  exact ⟨R, e, e1, e2⟩

/-! ### The frame of the magnetisation -/

theorem traceMul_val {r o : Tensor ℂ} (hr : r.shape = [2, 2]) (ho : o.shape = [2, 2]) : traceMul r o = some (Spec.expect1 r fun i j => o.val [i, j]) := by
  obtain ⟨R, e, s, v⟩ := einsum_ok (fun _ => 2) [(r, [0, 1]), (o, [1, 0])] [] (by simp [hr, ho]) (by decide) (by simp)
  have hv := v (fun _ => 0) (by simp)
  have hL : ((List.flatMap Prod.snd [(r, [0, 1]), (o, [1, 0])]).dedup.filter (fun l => l ∉ ([] : List Nat))) = [1, 0] := by
    simp only [List.flatMap_cons, List.flatMap_nil]
    decide
  rw [hL] at hv
  simp only [traceMul, e]
  refine congrArg some ((show R.val [] = _ from hv).trans ?_)
  simp only [sumOver, sum_range2, termOf, List.map_cons, List.map_nil, List.prod_cons, List.prod_nil, mul_one, Function.update, Spec.expect1]
  simp
  ring

/-- The vector that is normalised. -/
theorem magnetisation_val {eigh : Tensor ℂ → List ℝ × Tensor ℂ} {rho : Tensor ℂ} (h : C4v.rdm1x1 eigh false false a env = .ok rho) (hs : rho.shape = [2, 2]) :
    magnetisation eigh a env = .ok ![Spec.expect1 rho Spec.sz, Spec.expect1 rho Spec.sx, Complex.I * Spec.expect1 rho Spec.sy] := by
  rw [magnetisation, h, bindOk, traceMul_val hs rfl, C4v.lift_some, traceMul_val hs rfl, C4v.lift_some, traceMul_val hs rfl, C4v.lift_some]
  have hz : Spec.expect1 rho (fun i j => (opT (Su2.SZ 2)).val [i, j]) = Spec.expect1 rho Spec.sz := by
    simp only [Spec.expect1, sum_range2]
    show _ * Su2.SZ 2 (Fin.ofNat 2 0) (Fin.ofNat 2 0) + _ * Su2.SZ 2 (Fin.ofNat 2 1) (Fin.ofNat 2 0) + (_ * Su2.SZ 2 (Fin.ofNat 2 0) (Fin.ofNat 2 1) + _ * Su2.SZ 2 (Fin.ofNat 2 1) (Fin.ofNat 2 1)) = _
    rw [sz_val (by decide) (by decide), sz_val (by decide) (by decide), sz_val (by decide) (by decide), sz_val (by decide) (by decide)]
  have hp : Spec.expect1 rho (fun i j => (opT (Su2.SP 2)).val [i, j]) = Spec.expect1 rho Spec.sp := by
    simp only [Spec.expect1, sum_range2]
    show _ * Su2.SP 2 (Fin.ofNat 2 0) (Fin.ofNat 2 0) + _ * Su2.SP 2 (Fin.ofNat 2 1) (Fin.ofNat 2 0) + (_ * Su2.SP 2 (Fin.ofNat 2 0) (Fin.ofNat 2 1) + _ * Su2.SP 2 (Fin.ofNat 2 1) (Fin.ofNat 2 1)) = _
    rw [sp_val (by decide) (by decide), sp_val (by decide) (by decide), sp_val (by decide) (by decide), sp_val (by decide) (by decide)]
  have hm : Spec.expect1 rho (fun i j => (opT (Su2.SM 2)).val [i, j]) = Spec.expect1 rho Spec.sm := by
    simp only [Spec.expect1, sum_range2]
    show _ * Su2.SM 2 (Fin.ofNat 2 0) (Fin.ofNat 2 0) + _ * Su2.SM 2 (Fin.ofNat 2 1) (Fin.ofNat 2 0) + (_ * Su2.SM 2 (Fin.ofNat 2 0) (Fin.ofNat 2 1) + _ * Su2.SM 2 (Fin.ofNat 2 1) (Fin.ofNat 2 1)) = _
    rw [sm_val (by decide) (by decide), sm_val (by decide) (by decide), sm_val (by decide) (by decide), sm_val (by decide) (by decide)]
  rw [hz, hp, hm]
  have hx : 1 / 2 * (Spec.expect1 rho Spec.sp + Spec.expect1 rho Spec.sm) = Spec.expect1 rho Spec.sx := by
    simp [Spec.expect1, sum_range2, Spec.sp, Spec.sm, Spec.sx]
    ring
  have hy : 1 / 2 * (Spec.expect1 rho Spec.sp - Spec.expect1 rho Spec.sm) = Complex.I * Spec.expect1 rho Spec.sy := by
    simp [Spec.expect1, sum_range2, Spec.sp, Spec.sm, Spec.sy]
    linear_combination (1 / 2 : ℂ) * (rho.val [1, 0] - rho.val [0, 1]) * Complex.I_mul_I
  rw [hx, hy]
  rfl

theorem corr_inPlane {N : Corrf.Spec.Tensors ℂ} {D : Dims} (d : Dir) (c : Coord) (u w : ℂ) (r : Nat) :
    Spec.corr N D d c (Spec.inPlane u w) (Spec.inPlane u w) r =
      u ^ 2 * Spec.corr N D d c Spec.sz Spec.sz r + u * w * (Spec.corr N D d c Spec.sz Spec.sx r + Spec.corr N D d c Spec.sx Spec.sz r) + w ^ 2 * Spec.corr N D d c Spec.sx Spec.sx r := by
  obtain ⟨W, hW⟩ : ∃ W : Fin 2 → ℂ, W = ![u, w] := ⟨_, rfl⟩
  obtain ⟨O, hO⟩ : ∃ O : Fin 2 → Corrf.Spec.Op ℂ, O = ![Spec.sz, Spec.sx] := ⟨_, rfl⟩
  have h : Spec.inPlane u w = fun i j => ∑ k, W k * O k i j := by
    funext i j
    simp [hW, hO, Fin.sum_univ_two, Spec.inPlane]
  rw [h, Spec.corr, twoPoint_left]
  simp only [twoPoint_right]
  simp only [Fin.sum_univ_two, hW, hO, Matrix.cons_val_zero, Matrix.cons_val_one, Spec.corr]
  ring

/-- The correlations in the frame of a vector `s`, whatever it is. -/
theorem frame_values (hchi : 0 < chi) (hD : 0 < D) (hf : C4v.Spec.Fits chi D 2 a env) (hC : C4v.Spec.CSymm chi env) (hr : C4v.Spec.Rotated D 2 a) (d : Dir) (c : Coord) (dist : Nat)
    (hn : ∀ r ≤ dist, Corrf.Spec.norm (C4v.tensors a env) (C4v.Spec.dims chi D 2) d c (r + 2) ≠ 0) {eigh : Tensor ℂ → List ℝ × Tensor ℂ} {s : Fin 3 → ℂ}
    (hs : frameOps eigh true a env = .ok (rotOps (rotMatrix s) sops)) :
    ∃ R, evalCorrfSSC4v eigh a env dist true = .ok R ∧ ∀ r ≤ dist,
      R.szsz[r]? = some (Spec.corr (Spec.stagger c (C4v.tensors a env)) (C4v.Spec.dims chi D 2) d c (Spec.inPlane (s 0) (s 1)) (Spec.inPlane (s 0) (s 1)) r) ∧
      R.sxsx[r]? = some (Spec.corr (Spec.stagger c (C4v.tensors a env)) (C4v.Spec.dims chi D 2) d c (Spec.inPlane (-s 1) (s 0)) (Spec.inPlane (-s 1) (s 0)) r) ∧
      R.sysy[r]? = some (Spec.corr (Spec.stagger c (C4v.tensors a env)) (C4v.Spec.dims chi D 2) d c Spec.sy Spec.sy r) ∧
      R.ss[r]? = some (((s 0) ^ 2 + (s 1) ^ 2) * (Spec.corr (Spec.stagger c (C4v.tensors a env)) (C4v.Spec.dims chi D 2) d c Spec.sz Spec.sz r +
        Spec.corr (Spec.stagger c (C4v.tensors a env)) (C4v.Spec.dims chi D 2) d c Spec.sx Spec.sx r) +
        Spec.corr (Spec.stagger c (C4v.tensors a env)) (C4v.Spec.dims chi D 2) d c Spec.sy Spec.sy r) := by
  have hN : ∀ c', ((Spec.stagger c (C4v.tensors a env)).a c').size 0 = 2 := seen_two (tensors_two hf) true c
  obtain ⟨z, ez, lz, vz⟩ := spinCallC4v_ok hchi hD hf hC hr d c dist hn (o := rotOps (rotMatrix s) sops 0) rfl
  obtain ⟨x, ex, lx, vx⟩ := spinCallC4v_ok hchi hD hf hC hr d c dist hn (o := rotOps (rotMatrix s) sops 1) rfl
  obtain ⟨y, ey, ly, vy⟩ := spinCallC4v_ok hchi hD hf hC hr d c dist hn (o := rotOps (rotMatrix s) sops 2) rfl
  have h0 : Agree (Corrf.Spec.transposed (rotOps (rotMatrix s) sops 0)) (Spec.inPlane (s 0) (s 1)) := by
    intro i hi j hj
    have h1 := szT i hi j hj
    have h2 := sxT i hi j hj
    simp only [Corrf.Spec.transposed] at h1 h2
    simp only [Corrf.Spec.transposed, rotOps, Fin.sum_univ_three, rotMatrix, sops, h1, h2, Spec.inPlane]
    simp
  have h1 : Agree (Corrf.Spec.transposed (rotOps (rotMatrix s) sops 1)) (Spec.inPlane (-s 1) (s 0)) := by
    intro i hi j hj
    have h1 := szT i hi j hj
    have h2 := sxT i hi j hj
    simp only [Corrf.Spec.transposed] at h1 h2
    simp only [Corrf.Spec.transposed, rotOps, Fin.sum_univ_three, rotMatrix, sops, h1, h2, Spec.inPlane]
    simp
  have h2 : Agree (Corrf.Spec.transposed (rotOps (rotMatrix s) sops 2)) (fun i j => Complex.I * Spec.sy i j) := by
    intro i hi j hj
    have h1 := isyT i hi j hj
    simp only [Corrf.Spec.transposed] at h1
    simp only [Corrf.Spec.transposed, rotOps, Fin.sum_univ_three, rotMatrix, sops, h1]
    simp
  have hy : ∀ r, Spec.corr (Spec.stagger c (C4v.tensors a env)) (C4v.Spec.dims chi D 2) d c (Corrf.Spec.transposed (rotOps (rotMatrix s) sops 2)) (Corrf.Spec.transposed (rotOps (rotMatrix s) sops 2)) r =
      -Spec.corr (Spec.stagger c (C4v.tensors a env)) (C4v.Spec.dims chi D 2) d c Spec.sy Spec.sy r := by
    intro r
    rw [corr_agree hN d c h2 h2, Spec.corr, twoPoint_smul, Spec.corr, Complex.I_mul_I]
    ring
  have vz' := fun r hr => (vz r hr).trans (congrArg _ (corr_agree hN d c h0 h0 r))
  have vx' := fun r hr => (vx r hr).trans (congrArg _ (corr_agree hN d c h1 h1 r))
  refine ⟨spinCorr z x y, ?_, fun r hr => ⟨vz' r hr, vx' r hr, ?_, ?_⟩⟩
  · rw [evalCorrfSSC4v, hs, bindOk, ez, bindOk, ex, bindOk, ey, bindOk]
    rfl
  · simp [spinCorr, negL, vy r hr, hy]
  · simp only [spinCorr, subL, addL, List.getElem?_zipWith, vz' r hr, vx' r hr, vy r hr, hy, corr_inPlane]
    refine congrArg some ?_
    ring

/-- The density matrix of a site is Hermitian. -/
theorem site_hermitian (eigh : Tensor ℂ → List ℝ × Tensor ℂ) (hf : C4v.Spec.Fits chi D 2 a env) {rho : Tensor ℂ}
    (h : C4v.rdm1x1 eigh false false a env = .ok rho) : rho.shape = [2, 2] ∧ ∀ i < 2, ∀ j < 2, rho.val [i, j] = star (rho.val [j, i]) := by
  obtain ⟨x, ex, q⟩ := C4v.raw1Dl_net hf (0, 0) rfl
  have hx : x.shape = [2] ++ [2] := q.shape
  simp only [C4v.rdm1x1, ex, C4v.lift_some, if_neg (show ¬(false = true) by decide)] at h
  obtain ⟨h0, ht⟩ := Rdm.symRdm_ok eigh hx h
  obtain ⟨R, e, s, v⟩ := Rdm.symRdm_entries eigh hx h0 ht
  obtain rfl : R = rho := by rw [e] at h; injection h
  refine ⟨s, fun i hi j hj => ?_⟩
  have h1 := v [i] [j] (.cons hi .nil) (.cons hj .nil)
  have h2 := v [j] [i] (.cons hj .nil) (.cons hi .nil)
  simp only [List.cons_append, List.nil_append] at h1 h2
  rw [h1, h2]
  simp
  left
  ring

/-- The components of the magnetisation are real. -/
theorem C102_real (eigh : Tensor ℂ → List ℝ × Tensor ℂ) (hf : C4v.Spec.Fits chi D 2 a env) {rho : Tensor ℂ} (h : C4v.rdm1x1 eigh false false a env = .ok rho) :
    ∃ mx my mz : ℝ, Spec.expect1 rho Spec.sx = mx ∧ Spec.expect1 rho Spec.sy = my ∧ Spec.expect1 rho Spec.sz = mz := by
  obtain ⟨-, hh⟩ := site_hermitian eigh hf h
  have h00 := hh 0 two_pos 0 two_pos
  have h11 := hh 1 one_lt_two 1 one_lt_two
  have h01 := hh 0 two_pos 1 one_lt_two
  have real : ∀ z : ℂ, z = star z → z = z.re := fun z hz => (Complex.conj_eq_iff_re.mp hz.symm).symm
  refine ⟨_, _, _, real _ ?_, real _ ?_, real _ ?_⟩
  · simp [Spec.expect1, sum_range2, Spec.sx, h01]
    ring
  · simp [Spec.expect1, sum_range2, Spec.sy, h01]
    ring
  · simp only [Spec.expect1, sum_range2, Spec.sz, star_add, star_mul']
    simp only [← h00, ← h11]
    simp

/-- With a magnetisation `(mx, my, mz)` of length `m`: the sum of the correlations is not the correlation `<S.S>` but has the factor `(mz^2 + mx^2) / m^2` at the in-plane part. -/
theorem C102_value (eigh : Tensor ℂ → List ℝ × Tensor ℂ) (hchi : 0 < chi) (hD : 0 < D) (hf : C4v.Spec.Fits chi D 2 a env) (hC : C4v.Spec.CSymm chi env) (hr : C4v.Spec.Rotated D 2 a) (d : Dir) (c : Coord)
    (dist : Nat) (hn : ∀ r ≤ dist, Corrf.Spec.norm (C4v.tensors a env) (C4v.Spec.dims chi D 2) d c (r + 2) ≠ 0) {rho : Tensor ℂ} (h : C4v.rdm1x1 eigh false false a env = .ok rho) {mx my mz m : ℝ}
    (hx : Spec.expect1 rho Spec.sx = mx) (hy : Spec.expect1 rho Spec.sy = my) (hz : Spec.expect1 rho Spec.sz = mz) (hm : 0 < m) (hm2 : m ^ 2 = mx ^ 2 + my ^ 2 + mz ^ 2) :
    ∃ R, evalCorrfSSC4v eigh a env dist true = .ok R ∧ ∀ r ≤ dist,
      R.szsz[r]? = some (Spec.corr (Spec.stagger c (C4v.tensors a env)) (C4v.Spec.dims chi D 2) d c (Spec.inPlane (mz / m) (mx / m)) (Spec.inPlane (mz / m) (mx / m)) r) ∧
      R.sxsx[r]? = some (Spec.corr (Spec.stagger c (C4v.tensors a env)) (C4v.Spec.dims chi D 2) d c (Spec.inPlane (-(mx / m)) (mz / m)) (Spec.inPlane (-(mx / m)) (mz / m)) r) ∧
      R.sysy[r]? = some (Spec.corr (Spec.stagger c (C4v.tensors a env)) (C4v.Spec.dims chi D 2) d c Spec.sy Spec.sy r) ∧
      R.ss[r]? = some ((((mz ^ 2 + mx ^ 2) / m ^ 2 : ℝ) : ℂ) * (Spec.corr (Spec.stagger c (C4v.tensors a env)) (C4v.Spec.dims chi D 2) d c Spec.sz Spec.sz r +
        Spec.corr (Spec.stagger c (C4v.tensors a env)) (C4v.Spec.dims chi D 2) d c Spec.sx Spec.sx r) +
        Spec.corr (Spec.stagger c (C4v.tensors a env)) (C4v.Spec.dims chi D 2) d c Spec.sy Spec.sy r) := by
  obtain ⟨hs, -⟩ := site_hermitian eigh hf h
  have hnorm : Real.sqrt (∑ i, ‖(![Spec.expect1 rho Spec.sz, Spec.expect1 rho Spec.sx, Complex.I * Spec.expect1 rho Spec.sy] : Fin 3 → ℂ) i‖ ^ 2) = m := by
    rw [Fin.sum_univ_three]
    simp only [Matrix.cons_val_zero, Matrix.cons_val_one, Matrix.cons_val_two, Matrix.tail_cons, Matrix.head_cons, hx, hy, hz, norm_mul, Complex.norm_I, one_mul, Complex.norm_real, Real.norm_eq_abs, sq_abs]
    rw [show mz ^ 2 + mx ^ 2 + my ^ 2 = m ^ 2 by rw [hm2]; ring, Real.sqrt_sq hm.le]
  have hF : frameOps eigh true a env = .ok (rotOps (rotMatrix fun i => (![Spec.expect1 rho Spec.sz, Spec.expect1 rho Spec.sx, Complex.I * Spec.expect1 rho Spec.sy] : Fin 3 → ℂ) i / (m : ℂ)) sops) := by
    rw [frameOps, if_pos rfl, magnetisation_val h hs, bindOk, unitVec, hnorm, if_neg hm.ne', bindOk]
    rfl
  obtain ⟨R, e, v⟩ := frame_values hchi hD hf hC hr d c dist hn hF
  refine ⟨R, e, fun r hr' => ?_⟩
  obtain ⟨v1, v2, v3, v4⟩ := v r hr'
  simp only [Matrix.cons_val_zero, Matrix.cons_val_one, hx, hz] at v1 v2 v4
  refine ⟨v1, v2, v3, v4.trans (congrArg some ?_)⟩
  push_cast
  ring

/-- No component along y: the sum is `<S.S>`, `szsz` is the longitudinal correlation and `sxsx` the transverse one. -/
theorem C102_frame_partial (eigh : Tensor ℂ → List ℝ × Tensor ℂ) (hchi : 0 < chi) (hD : 0 < D) (hf : C4v.Spec.Fits chi D 2 a env) (hC : C4v.Spec.CSymm chi env) (hr : C4v.Spec.Rotated D 2 a) (d : Dir) (c : Coord)
    (dist : Nat) (hn : ∀ r ≤ dist, Corrf.Spec.norm (C4v.tensors a env) (C4v.Spec.dims chi D 2) d c (r + 2) ≠ 0) {rho : Tensor ℂ} (h : C4v.rdm1x1 eigh false false a env = .ok rho) {mx mz m : ℝ}
    (hx : Spec.expect1 rho Spec.sx = mx) (hy : Spec.expect1 rho Spec.sy = 0) (hz : Spec.expect1 rho Spec.sz = mz) (hm : 0 < m) (hm2 : m ^ 2 = mx ^ 2 + mz ^ 2) :
    ∃ R Q, evalCorrfSSC4v eigh a env dist true = .ok R ∧ evalCorrfSSC4v eigh a env dist false = .ok Q ∧ ∀ r ≤ dist, R.ss[r]? = Q.ss[r]? ∧
      R.szsz[r]? = some (Spec.corr (Spec.stagger c (C4v.tensors a env)) (C4v.Spec.dims chi D 2) d c (Spec.inPlane (mz / m) (mx / m)) (Spec.inPlane (mz / m) (mx / m)) r) ∧
      R.sxsx[r]? = some (Spec.corr (Spec.stagger c (C4v.tensors a env)) (C4v.Spec.dims chi D 2) d c (Spec.inPlane (-(mx / m)) (mz / m)) (Spec.inPlane (-(mx / m)) (mz / m)) r) ∧
      R.sysy[r]? = some (Spec.corr (Spec.stagger c (C4v.tensors a env)) (C4v.Spec.dims chi D 2) d c Spec.sy Spec.sy r) := by
  obtain ⟨R, e, v⟩ := C102_value eigh hchi hD hf hC hr d c dist hn h hx (my := 0) (by rw [hy]; simp) hz hm (by rw [hm2]; ring)
  obtain ⟨Q, eQ, hQ⟩ := C100_c4v eigh hchi hD hf hC hr d c dist hn
  refine ⟨R, Q, e, eQ, fun r hr' => ?_⟩
  obtain ⟨v1, v2, v3, v4⟩ := v r hr'
  refine ⟨?_, v1, v2, v3⟩
  rw [v4, hQ.ss r hr', show mz ^ 2 + mx ^ 2 = m ^ 2 by rw [hm2]; ring, div_self (by positivity)]
  simp

/-- No magnetisation: the result is not finite. -/
theorem C102_not_finite (eigh : Tensor ℂ → List ℝ × Tensor ℂ) (hf : C4v.Spec.Fits chi D 2 a env) (dist : Nat) {rho : Tensor ℂ}
    (h : C4v.rdm1x1 eigh false false a env = .ok rho) (hx : Spec.expect1 rho Spec.sx = 0) (hy : Spec.expect1 rho Spec.sy = 0) (hz : Spec.expect1 rho Spec.sz = 0) :
    evalCorrfSSC4v eigh a env dist true = .error .nan := by
  obtain ⟨hs, -⟩ := site_hermitian eigh hf h
  have : frameOps eigh true a env = .error .nan := by
    rw [frameOps, if_pos rfl, magnetisation_val h hs, bindOk, unitVec, if_pos (by simp [hx, hy, hz, Fin.sum_univ_three])]
    rfl
  rw [evalCorrfSSC4v, this]
  rfl

end
end Verif.Energy
