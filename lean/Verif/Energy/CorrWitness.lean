import Verif.Energy.CorrC4v
/-
C100, C101, C102: states that meet the hypotheses, states for which the English claims fail.
-/
namespace Verif.Energy
open Tensor Ctm Ctm.Spec Corrf

/-! ### A column of spins along x, a column of spins along y -/

noncomputable def xVec : Nat → ℂ := fun s => if s = 0 then 3 / 5 else 4 / 5
noncomputable def xyVec (c : Coord) : Nat → ℂ := if c.1 = 0 then xVec else yVec
noncomputable def xyVts (c : Coord) : Coord := (c.1 % 2, 0)
noncomputable def xyState : State ℂ := prodState [(0, 0), (1, 0)] xyVts xyVec

theorem xNorm : pExpect xVec Corrf.Spec.one = 1 := by
  simp [pExpect, xVec, Corrf.Spec.one, Finset.sum_range_succ, map_ofNat]
  norm_num
theorem xyNorm (c : Coord) : pExpect (xyVec c) Corrf.Spec.one = 1 := by
  unfold xyVec
  split_ifs
  · exact xNorm
  · exact yNorm
theorem xyTiling : Tiling xyState := by
  refine ⟨fun c v => ?_, fun c => ?_, fun c hc => ?_, by simp [xyState, prodState]⟩
  · simp [xyState, prodState, xyVts]
  · simp [xyState, prodState, xyVts]; omega
  · simp [xyState, prodState] at hc
    rcases hc with rfl | rfl <;> simp [xyState, prodState, xyVts]

/-- The correlations of neighbours in a product state. -/
theorem prodCorr (vts : Coord → Coord) (v : Coord → Nat → ℂ) (hv : ∀ c, pExpect (v c) Corrf.Spec.one = 1) (d : Dir) (c : Coord) (o o' : Corrf.Spec.Op ℂ) :
    Spec.corr (prodTensors vts v) pDims d c o o' 0 = pExpect (v (vts c)) o * pExpect (v (vts (Corrf.Spec.ahead d c 1))) o' := by
  rw [Spec.corr, prodNorm vts v hv, div_one, Corrf.Spec.twoPoint, prodNetwork]
  simp [along]

/-- Correlations of `S+` and `S-` in both states, at three distances. -/
example (conjugate : Bool) : ∃ R, evalCorrfSS xyState pEnv .right (0, 0) 2 conjugate = .ok R ∧ Spec.SpinCorrOf (Spec.seen conjugate (0, 0) (prodTensors xyVts xyVec)) pDims .right (0, 0) 2 R :=
  C100_values xyTiling (prodFitsState _ _ _) (prodFitsEnv _ _ _) (fun _ => rfl) (prodReads _ _ _) .right (0, 0) 2 (fun r _ => by rw [prodNorm _ _ xyNorm]; exact one_ne_zero) conjugate

example (eigh : Tensor ℂ → List ℝ × Tensor ℂ) (d : Dir) (c : Coord) (dist : Nat) : ∃ R, evalCorrfSSC4v eigh (pSite yVec) C4v.oneEnv dist false = .ok R ∧
    Spec.SpinCorrOf (Spec.stagger c (C4v.tensors (pSite yVec) C4v.oneEnv)) (C4v.Spec.dims 1 1 2) d c dist R :=
  C100_c4v eigh one_pos one_pos (C4v.oneEnv_fits yVec) C4v.oneEnv_c (C4v.oneEnv_rotated yVec) d c dist
    (fun r _ => by rw [C4v.oneEnv_tensors, show C4v.Spec.dims 1 1 2 = pDims from rfl, pNorm, yNorm]; simp)

example (eigh : Tensor ℂ → List ℝ × Tensor ℂ) (d : Dir) (dist : Nat) : ∃ R, evalCorrfSSC4v eigh (pSite yVec) C4v.oneEnv dist false = .ok R ∧
    evalCorrfSS (Spec.checker (pSite yVec)) (Spec.both (C4v.Spec.unfold C4v.oneEnv)) d (0, 0) dist false = .ok R ∧
      evalCorrfSS (Spec.single (pSite yVec)) (C4v.Spec.unfold C4v.oneEnv) d (0, 0) dist true = .ok R :=
  C100_checker eigh one_pos one_pos (C4v.oneEnv_fits yVec) C4v.oneEnv_c (C4v.oneEnv_rotated yVec) d dist
    (fun r _ => by rw [C4v.oneEnv_tensors, show C4v.Spec.dims 1 1 2 = pDims from rfl, pNorm, yNorm]; simp)

/-! ### C101 -/

theorem xP : pExpect xVec Spec.sp = 12 / 25 := by
  simp [pExpect, xVec, Spec.sp, Finset.sum_range_succ, map_ofNat]; norm_num
theorem xM : pExpect xVec Spec.sm = 12 / 25 := by
  simp [pExpect, xVec, Spec.sm, Finset.sum_range_succ, map_ofNat]; norm_num
theorem yP : pExpect yVec Spec.sp = 12 / 25 * Complex.I := by
  simp [pExpect, yVec, Spec.sp, Finset.sum_range_succ, map_ofNat]; ring
theorem yM : pExpect yVec Spec.sm = -(12 / 25 * Complex.I) := by
  simp [pExpect, yVec, Spec.sm, Finset.sum_range_succ, map_ofNat]; ring

/-- On the product of columns along x and y the entry `spsm` is `144i/625` and `<S+(0) S-(1)>` is `-144i/625`. -/
theorem C101_violated : ∃ (st : State ℂ) (env : Env ℂ) (N : Corrf.Spec.Tensors ℂ) (D : Dims) (x y : List ℂ), Tiling st ∧ FitsState D st ∧ FitsEnv D st env ∧ (∀ c, D.p c = 2) ∧ Corrf.Spec.Reads st env N ∧
    (∀ n, Corrf.Spec.norm N D .right (0, 0) n = 1) ∧ evalCorrfSpSm st env .right (0, 0) 0 false = .ok (x, y) ∧ x[0]? = some (144 / 625 * Complex.I) ∧
    Spec.corr N D .right (0, 0) Spec.sp Spec.sm 0 = -(144 / 625 * Complex.I) ∧ x[0]? ≠ some (Spec.corr N D .right (0, 0) Spec.sp Spec.sm 0) := by
  obtain ⟨x, y, e, lx, ly, v⟩ := C101_swapped xyTiling (prodFitsState [(0, 0), (1, 0)] xyVts xyVec) (prodFitsEnv _ _ _) (fun _ => rfl) (prodReads _ _ _) .right (0, 0) 0
    (fun r _ => by rw [prodNorm _ _ xyNorm]; exact one_ne_zero) false
  have h0 : xyVec (xyVts (0, 0)) = xVec := by simp [xyVts, xyVec]
  have h1 : xyVec (xyVts (Corrf.Spec.ahead .right (0, 0) 1)) = yVec := by simp [xyVts, xyVec, Corrf.Spec.ahead, Dir.vec]
  have hs : Spec.seen false (0, 0) (prodTensors xyVts xyVec) = prodTensors xyVts xyVec := rfl
  have hx := (v 0 le_rfl).1
  rw [hs, prodCorr _ _ xyNorm, h0, h1, xM, yP] at hx
  have hc : Spec.corr (prodTensors xyVts xyVec) pDims .right (0, 0) Spec.sp Spec.sm 0 = -(144 / 625 * Complex.I) := by
    rw [prodCorr _ _ xyNorm, h0, h1, xP, yM]; ring
  have hx' : x[0]? = some (144 / 625 * Complex.I) := hx.trans (congrArg some (by ring))
  refine ⟨xyState, pEnv, prodTensors xyVts xyVec, pDims, x, y, xyTiling, prodFitsState _ _ _, prodFitsEnv _ _ _, fun _ => rfl, prodReads _ _ _, fun n => prodNorm _ _ xyNorm _ _ _, e, hx', hc, ?_⟩
  rw [hx', hc]
  intro h
  have := congrArg Complex.im (Option.some.inj h)
  norm_num at this

example (conjugate : Bool) : ∃ x y, evalCorrfSpSm xyState pEnv .right (0, 0) 2 conjugate = .ok (x, y) ∧ x.length = 3 ∧ y.length = 3 ∧
    ∀ r ≤ 2, x[r]? = some (Spec.corr (Spec.seen conjugate (0, 0) (prodTensors xyVts xyVec)) pDims .right (0, 0) Spec.sm Spec.sp r) ∧
      y[r]? = some (Spec.corr (Spec.seen conjugate (0, 0) (prodTensors xyVts xyVec)) pDims .right (0, 0) Spec.sp Spec.sm r) :=
  C101_swapped xyTiling (prodFitsState _ _ _) (prodFitsEnv _ _ _) (fun _ => rfl) (prodReads _ _ _) .right (0, 0) 2 (fun r _ => by rw [prodNorm _ _ xyNorm]; exact one_ne_zero) conjugate

noncomputable def xState : State ℂ := prodState [(0, 0)] (fun _ => (0, 0)) (fun _ => xVec)
theorem xTiling : Tiling xState := ⟨fun _ _ => rfl, fun _ => by simp [xState, prodState], fun c hc => by simp [xState, prodState] at hc ⊢; exact hc.symm, by simp [xState, prodState]⟩

/-- Spins in the plane x, z: the entries are right. -/
example (dist : Nat) : ∃ x y, evalCorrfSpSm xState pEnv .right (0, 0) dist false = .ok (x, y) ∧
    x[0]? = some (Spec.corr (prodTensors (fun _ => (0, 0)) fun _ => xVec) pDims .right (0, 0) Spec.sp Spec.sm 0) := by
  obtain ⟨x, y, e, -, -, v⟩ := C101_values_partial xTiling (prodFitsState _ _ _) (prodFitsEnv _ _ _) (fun _ => rfl) (prodReads _ _ _) .right (0, 0) dist
    (fun r _ => by rw [prodNorm _ _ fun _ => xNorm]; exact one_ne_zero) false
  have hs : Spec.seen false (0, 0) (prodTensors (fun _ => (0, 0)) fun _ => xVec) = prodTensors (fun _ => (0, 0)) fun _ => xVec := rfl
  have h := (v 0 (Nat.zero_le _)).2
  rw [hs] at h
  exact ⟨x, y, e, (h (by rw [prodCorr _ _ fun _ => xNorm, prodCorr _ _ fun _ => xNorm, xP, xM])).1⟩

/-! ### C102 -/

theorem pRho (eigh : Tensor ℂ → List ℝ × Tensor ℂ) {v : Nat → ℂ} (hv : pExpect v Corrf.Spec.one = 1) :
    ∃ rho, C4v.rdm1x1 eigh false false (pSite v) C4v.oneEnv = .ok rho ∧ ∀ o, Spec.expect1 rho o = pExpect v o := by
  obtain ⟨x, ex, q⟩ := C4v.raw1Dl_net (C4v.oneEnv_fits v) (0, 0) rfl
  have hx : x.shape = [2] ++ [2] := q.shape
  have hval : ∀ i < 2, ∀ j < 2, x.val [i, j] = v i * star (v j) := by
    intro i hi j hj
    have := q.val (fun l => if l = 4 then i else j) (by
      intro l hl
      fin_cases hl
      · exact hi
      · exact hj)
    simp only [List.map_cons, List.map_nil, gidx_single, if_pos, show ¬((7 : Nat) = 4) by decide, if_false] at this
    refine this.trans ?_
    rw [sumOver_trivial _ _ [4, 7]]
    · simp [C4v.oneEnv, pSite]
    · intro l hl
      fin_cases hl <;> rfl
    · intro σ τ h
      have h4 := h 4 (by decide)
      have h7 := h 7 (by decide)
      simp [C4v.oneEnv, pSite, h4, h7]
    · decide
  have ht : Matrix.trace (Rdm.Spec.op [2] x) = 1 := by
    rw [Rdm.trace_op]
    simp only [sumIdx, sum_range2, List.cons_append, List.nil_append]
    rw [hval 0 two_pos 0 two_pos, hval 1 one_lt_two 1 one_lt_two, ← hv]
    simp [pExpect, Finset.sum_range_succ, Corrf.Spec.one]
    ring
  obtain ⟨R, e, s, w⟩ := Rdm.symRdm_entries eigh hx (by decide) (by rw [ht]; simp)
  refine ⟨R, by simp [C4v.rdm1x1, ex, C4v.lift_some, e], fun o => ?_⟩
  have key : ∀ i < 2, ∀ j < 2, R.val [i, j] = v i * star (v j) := by
    intro i hi j hj
    have := w [i] [j] (.cons hi .nil) (.cons hj .nil)
    simp only [List.cons_append, List.nil_append] at this
    rw [this, hval i hi j hj, hval j hj i hi, ht]
    simp
    ring
  simp only [Spec.expect1, sum_range2, key 0 two_pos 0 two_pos, key 0 two_pos 1 one_lt_two, key 1 one_lt_two 0 two_pos, key 1 one_lt_two 1 one_lt_two, pExpect]
  ring

theorem vNorm {v : Nat → ℂ} (hv : pExpect v Corrf.Spec.one = 1) (d : Dir) (c : Coord) (n : Nat) : Corrf.Spec.norm (C4v.tensors (pSite v) C4v.oneEnv) (C4v.Spec.dims 1 1 2) d c n = 1 := by
  rw [C4v.oneEnv_tensors, show C4v.Spec.dims 1 1 2 = pDims from rfl, pNorm, hv, one_pow]

theorem xX : pExpect xVec Spec.sx = ((12 / 25 : ℝ) : ℂ) := by
  simp [pExpect, xVec, Spec.sx, Finset.sum_range_succ, map_ofNat]; norm_num
theorem xY : pExpect xVec Spec.sy = 0 := by
  simp [pExpect, xVec, Spec.sy, Finset.sum_range_succ, map_ofNat]; ring
theorem xZ : pExpect xVec Spec.sz = ((-(7 / 50) : ℝ) : ℂ) := by
  simp [pExpect, xVec, Spec.sz, Finset.sum_range_succ, map_ofNat]; norm_num
theorem yX : pExpect yVec Spec.sx = ((0 : ℝ) : ℂ) := by
  simp [pExpect, yVec, Spec.sx, Finset.sum_range_succ, map_ofNat]; ring
theorem yY : pExpect yVec Spec.sy = ((12 / 25 : ℝ) : ℂ) := by
  simp [pExpect, yVec, Spec.sy, Finset.sum_range_succ, map_ofNat]
  linear_combination (-12 / 25 : ℂ) * Complex.I_mul_I
theorem yZ : pExpect yVec Spec.sz = ((-(7 / 50) : ℝ) : ℂ) := by
  simp [pExpect, yVec, Spec.sz, Finset.sum_range_succ, map_ofNat]
  linear_combination (8 / 25 : ℂ) * Complex.I_mul_I

/-- A spin in the plane. -/
example (eigh : Tensor ℂ → List ℝ × Tensor ℂ) (d : Dir) (c : Coord) (dist : Nat) : ∃ R Q, evalCorrfSSC4v eigh (pSite xVec) C4v.oneEnv dist true = .ok R ∧
    evalCorrfSSC4v eigh (pSite xVec) C4v.oneEnv dist false = .ok Q ∧ ∀ r ≤ dist, R.ss[r]? = Q.ss[r]? := by
  obtain ⟨rho, h, v⟩ := pRho eigh xNorm
  obtain ⟨R, Q, h1, h2, h3⟩ := C102_frame_partial eigh one_pos one_pos (C4v.oneEnv_fits xVec) C4v.oneEnv_c (C4v.oneEnv_rotated xVec) d c dist (fun r _ => by rw [vNorm xNorm]; exact one_ne_zero) h
    ((v _).trans xX) ((v _).trans xY) ((v _).trans xZ) (m := 1 / 2) (by norm_num) (by norm_num)
  exact ⟨R, Q, h1, h2, fun r hr => (h3 r hr).1⟩

/-- Correlations of neighbours in the staggered product state. -/
theorem staggerCorr {v : Nat → ℂ} (hv : pExpect v Corrf.Spec.one = 1) (d : Dir) (c : Coord) (o o' : Corrf.Spec.Op ℂ) :
    Spec.corr (Spec.stagger c (C4v.tensors (pSite v) C4v.oneEnv)) (C4v.Spec.dims 1 1 2) d c o o' 0 = pExpect v o * pExpect v (conjO true o') := by
  have hN := tensors_two (C4v.oneEnv_fits v)
  rw [Spec.corr, norm_stagger hN, vNorm hv, div_one, twoPoint_stagger hN]
  show Corrf.Spec.network (pTensors v) pDims d c [o, conjO true o'] = _
  rw [pNetwork]
  simp

/-- A spin with components along y and z: `ss` for nearest neighbours is not the one without `canonical`. -/
theorem C102_violated (eigh : Tensor ℂ → List ℝ × Tensor ℂ) : ∃ (a : Tensor ℂ) (env : C4v.Env ℂ) (R Q : SpinCorr), C4v.Spec.Fits 1 1 2 a env ∧ C4v.Spec.CSymm 1 env ∧ C4v.Spec.Rotated 1 2 a ∧
    (∀ d c n, Corrf.Spec.norm (C4v.tensors a env) (C4v.Spec.dims 1 1 2) d c n = 1) ∧ evalCorrfSSC4v eigh a env 0 true = .ok R ∧ evalCorrfSSC4v eigh a env 0 false = .ok Q ∧ R.ss[0]? ≠ Q.ss[0]? := by
  obtain ⟨rho, h, v⟩ := pRho eigh yNorm
  have hf := C4v.oneEnv_fits yVec
  obtain ⟨R, e, w⟩ := C102_value eigh one_pos one_pos hf C4v.oneEnv_c (C4v.oneEnv_rotated yVec) .right (0, 0) 0 (fun r _ => by rw [vNorm yNorm]; exact one_ne_zero) h
    ((v _).trans yX) ((v _).trans yY) ((v _).trans yZ) (m := 1 / 2) (by norm_num) (by norm_num)
  obtain ⟨Q, eQ, hQ⟩ := C100_c4v eigh one_pos one_pos hf C4v.oneEnv_c (C4v.oneEnv_rotated yVec) .right (0, 0) 0 (fun r _ => by rw [vNorm yNorm]; exact one_ne_zero)
  refine ⟨_, _, R, Q, hf, C4v.oneEnv_c, C4v.oneEnv_rotated yVec, fun d c n => vNorm yNorm d c n, e, eQ, ?_⟩
  have conj : ∀ (o : Corrf.Spec.Op ℂ) (k : ℂ), Agree (conjO true o) (fun i j => k * o i j) → pExpect yVec (conjO true o) = k * pExpect yVec o := by
    intro o k hk
    simp only [pExpect, sum_range2, hk 0 two_pos 0 two_pos, hk 0 two_pos 1 one_lt_two, hk 1 one_lt_two 0 two_pos, hk 1 one_lt_two 1 one_lt_two]
    ring
  have cz : pExpect yVec (conjO true Spec.sz) = -1 * pExpect yVec Spec.sz := conj _ _ fun i hi j hj => by
    rcases lt2 hi with rfl | rfl <;> rcases lt2 hj with rfl | rfl <;> simp [conjO, se, fb, Spec.sz] <;> norm_num
  have cx : pExpect yVec (conjO true Spec.sx) = -1 * pExpect yVec Spec.sx := conj _ _ fun i hi j hj => by
    rcases lt2 hi with rfl | rfl <;> rcases lt2 hj with rfl | rfl <;> simp [conjO, se, fb, Spec.sx]
  rw [(w 0 le_rfl).2.2.2, hQ.ss 0 le_rfl, staggerCorr yNorm, staggerCorr yNorm, staggerCorr yNorm, cz, cx, yX, yZ]
  intro h
  have h := add_right_cancel (Option.some.inj h)
  have := congrArg Complex.re h
  norm_num at this

/-! ### A site without magnetisation -/

/-- All indices are equal. -/
def ghz : Tensor ℂ := ⟨[2, 2, 2, 2, 2], fun i => if i.getD 1 0 = i.getD 0 0 ∧ i.getD 2 0 = i.getD 0 0 ∧ i.getD 3 0 = i.getD 0 0 ∧ i.getD 4 0 = i.getD 0 0 then 1 else 0⟩
/-- The ket and the bra index of the half-row tensor are equal. -/
def ghzEnv : C4v.Env ℂ := ⟨1, ⟨[1, 1], fun _ => 1⟩, ⟨[1, 1, 4], fun i => if i.getD 2 0 = 0 ∨ i.getD 2 0 = 3 then 1 else 0⟩⟩

theorem ghz_fits : C4v.Spec.Fits 1 2 2 ghz ghzEnv := ⟨rfl, rfl, rfl, rfl⟩

/-- The value of the network for one assignment of the labels. -/
def ghzNat (σ : Nat → Nat) : Nat :=
  let t := fun x y => if σ x * 2 + σ y = 0 ∨ σ x * 2 + σ y = 3 then 1 else 0
  let s := fun i u l d r => if σ u = σ i ∧ σ l = σ i ∧ σ d = σ i ∧ σ r = σ i then 1 else 0
  t 3 6 * t 15 16 * t 2 5 * t 10 11 * (s 4 2 3 15 10 * s 7 5 6 16 11)

theorem sumOver_cast (dim : Nat → Nat) (ls : List Nat) (F : (Nat → Nat) → Nat) (σ : Nat → Nat) : sumOver dim ls (fun σ => ((F σ : Nat) : ℂ)) σ = ((sumOver dim ls F σ : Nat) : ℂ) := by
  induction ls generalizing σ with
  | nil => rfl
  | cons l ls ih => simp only [sumOver, ih, Nat.cast_sum]

theorem ghzRaw : ∃ x, C4v.raw1Dl ghz ghzEnv.C ghzEnv.T = some x ∧ x.shape = [2] ++ [2] ∧ ∀ i < 2, ∀ j < 2, x.val [i, j] = if i = j then 1 else 0 := by
  obtain ⟨x, ex, q⟩ := C4v.raw1Dl_net ghz_fits (0, 0) rfl
  refine ⟨x, ex, q.shape, fun i hi j hj => ?_⟩
  have := q.val (fun l => if l = 4 then i else j) (by
    intro l hl
    fin_cases hl
    · exact hi
    · exact hj)
  simp only [List.map_cons, List.map_nil, gidx_single, if_pos, show ¬((7 : Nat) = 4) by decide, if_false] at this
  refine this.trans ?_
  have key : ∀ σ : Nat → Nat, ghzEnv.C.val [σ 0, σ 1] * ghzEnv.T.val [σ 0, σ 14, Corner.Spec.fused (Rdm.Spec.dims1 (C4v.Spec.dims 1 2 2) (0, 0)) σ 3 6] * ghzEnv.C.val [σ 14, σ 12] *
      ghzEnv.T.val [σ 12, σ 13, Corner.Spec.fused (Rdm.Spec.dims1 (C4v.Spec.dims 1 2 2) (0, 0)) σ 15 16] * ghzEnv.T.val [σ 9, σ 1, Corner.Spec.fused (Rdm.Spec.dims1 (C4v.Spec.dims 1 2 2) (0, 0)) σ 2 5] *
      ghzEnv.C.val [σ 17, σ 13] * ghzEnv.T.val [σ 17, σ 8, Corner.Spec.fused (Rdm.Spec.dims1 (C4v.Spec.dims 1 2 2) (0, 0)) σ 10 11] * ghzEnv.C.val [σ 8, σ 9] *
      (ghz.val [σ 4, σ 2, σ 3, σ 15, σ 10] * star (ghz.val [σ 7, σ 5, σ 6, σ 16, σ 11])) = ((ghzNat σ : Nat) : ℂ) := by
    intro σ
    have h6 : Rdm.Spec.dims1 (C4v.Spec.dims 1 2 2) (0, 0) 6 = 2 := rfl
    have h16 : Rdm.Spec.dims1 (C4v.Spec.dims 1 2 2) (0, 0) 16 = 2 := rfl
    have h5 : Rdm.Spec.dims1 (C4v.Spec.dims 1 2 2) (0, 0) 5 = 2 := rfl
    have h11 : Rdm.Spec.dims1 (C4v.Spec.dims 1 2 2) (0, 0) 11 = 2 := rfl
    simp only [ghzEnv, ghz, Corner.Spec.fused, h6, h16, h5, h11, List.getD_cons_zero, List.getD_cons_succ, ghzNat, Nat.cast_mul, Nat.cast_ite, Nat.cast_one, Nat.cast_zero, one_mul, mul_one, apply_ite star, star_one, star_zero]
  simp only [key]
  rw [sumOver_cast]
  have : ∀ i < 2, ∀ j < 2, sumOver (Rdm.Spec.dims1 (C4v.Spec.dims 1 2 2) (0, 0)) Rdm.Spec.inner1 ghzNat (fun l => if l = 4 then i else j) = if i = j then 1 else 0 := by
    decide +kernel
  rw [this i hi j hj]
  split_ifs <;> simp

/-- Without magnetisation the frame is not defined. -/
example (eigh : Tensor ℂ → List ℝ × Tensor ℂ) (dist : Nat) : evalCorrfSSC4v eigh ghz ghzEnv dist true = .error .nan := by
  obtain ⟨x, ex, hx, v⟩ := ghzRaw
  have ht : Matrix.trace (Rdm.Spec.op [2] x) = 2 := by
    rw [Rdm.trace_op]
    simp only [sumIdx, sum_range2, List.cons_append, List.nil_append]
    rw [v 0 two_pos 0 two_pos, v 1 one_lt_two 1 one_lt_two]
    norm_num
  obtain ⟨R, e, s, w⟩ := Rdm.symRdm_entries eigh hx (by decide) (by rw [ht]; simp)
  have key : ∀ i < 2, ∀ j < 2, R.val [i, j] = if i = j then 1 / 2 else 0 := by
    intro i hi j hj
    have := w [i] [j] (.cons hi .nil) (.cons hj .nil)
    simp only [List.cons_append, List.nil_append] at this
    rw [this, v i hi j hj, v j hj i hi, ht]
    by_cases h : i = j
    · subst h; simp; norm_num
    · simp [h, Ne.symm h]
  have h : C4v.rdm1x1 eigh false false ghz ghzEnv = .ok R := by simp [C4v.rdm1x1, ex, C4v.lift_some, e]
  refine C102_not_finite eigh ghz_fits dist h ?_ ?_ ?_ <;>
    simp only [Spec.expect1, sum_range2, key 0 two_pos 0 two_pos, key 0 two_pos 1 one_lt_two, key 1 one_lt_two 0 two_pos, key 1 one_lt_two 1 one_lt_two] <;> simp [Spec.sx, Spec.sy, Spec.sz] <;> norm_num

end Verif.Energy
