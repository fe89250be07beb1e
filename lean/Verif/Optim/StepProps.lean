import Verif.Optim.LbfgsProps
/-
Properties C44 (history on resume), C56 (iterations per step), C57 (a step lowers the loss).
-/
namespace Verif.Lbfgs
open Spec

variable {V W : Type} [NormedAddCommGroup V] [InnerProductSpace ℝ V]

/-! ### Property C56 -/

/-- With a positive `tolerance_change` a pass of the loop never asks for another one. -/
theorem pass_stops (cfg : Cfg) (maxAbs sumAbs : V → ℝ) (c : Closures V W) (fuel nIter evals : Nat) (loss : ℝ) (g : V)
    (nl : Option ℝ) (ng : Option V) (P : Prop) (st : St V) (xw : V × W) (htol : 0 < cfg.tolChange) :
    ∀ st' nl' ng' e xw', pass cfg maxAbs sumAbs c fuel nIter evals loss g nl ng P st xw ≠ some (.next st' nl' ng' e, xw') := by
  intro st' nl' ng' e xw' h
  unfold pass at h
  simp only at h
  have hf : ∀ d st1 t a b k opt, finish cfg maxAbs loss d st1 nIter evals t a b k opt ≠ .next st' nl' ng' e := by
    intro d st1 t a b k opt hh
    have hz : |loss - loss| < cfg.tolChange := by rw [sub_self, abs_zero]; exact htol
    unfold finish at hh
    simp only [hz, if_true, ite_self] at hh
    exact absurd hh (by simp)
  repeat' (split at h)
  all_goals
    simp only [Option.some.injEq, Prod.mk.injEq, reduceCtorEq, false_and] at h
    try exact hf _ _ _ _ _ _ _ h.1

/-- The property would be that `max_iter` bounds the number of quasi-Newton iterations of a step, each at the gradient of the
current point. In fact, for every positive `tolerance_change`, any `max_iter >= 1` performs one pass only. -/
theorem C56_violated (cfg : Cfg) (maxAbs sumAbs : V → ℝ) (c : Closures V W) (fuel : Nat) (loss : ℝ) (g : V) (k evals : Nat)
    (nl : Option ℝ) (ng : Option V) (st : St V) (xw : V × W) (htol : 0 < cfg.tolChange) :
    passes cfg maxAbs sumAbs c fuel loss g (k + 1) 0 evals nl ng st xw =
      pass cfg maxAbs sumAbs c fuel 1 evals loss g nl ng (maxAbs g ≤ cfg.tolGrad) st xw := by
  unfold passes
  split
  · rename_i st' nl' ng' e xw' h
    exact absurd h (pass_stops cfg maxAbs sumAbs c fuel _ _ _ _ _ _ _ _ _ htol _ _ _ _ _)
  · rfl

/-! ### Property C57 -/

/-- The starting step length of the line search. -/
noncomputable def Spec.firstStep (cfg : Cfg) (sumAbs : V → ℝ) (st : St V) (g : V) : ℝ :=
  if st.nIter = 0 then min 1 (1 / sumAbs g) * cfg.lr else cfg.lr

theorem direction_nIter {hs : Nat} {st st' : St V} {g : V} {loss : ℝ} (hpos : 0 < hs) (hr : Reach hs st)
    (h : direction hs st g loss = some st') : (st'.nIter = 1 ↔ st.nIter = 0) := by
  obtain ⟨hv, hsome⟩ := reach_valid hpos hr
  unfold direction at h
  simp only at h
  by_cases h1 : st.nIter + 1 = 1
  · rw [if_pos h1, Option.some_inj] at h
    rw [← h]; simp
  · rw [if_neg h1] at h
    obtain ⟨n1, n2, n3⟩ := hsome (by omega)
    obtain ⟨pg, hpg⟩ := Option.ne_none_iff_exists'.1 n1
    obtain ⟨d, hd⟩ := Option.ne_none_iff_exists'.1 n2
    obtain ⟨t, ht⟩ := Option.ne_none_iff_exists'.1 n3
    have hv' : Valid hs { st with nIter := st.nIter + 1 } := ⟨hv.stps, hv.ros, hv.size, hv.curv, hv.rho, hv.scale, hv.buf⟩
    obtain ⟨st1, hu, hv1, hn, -, -, -⟩ := updateMemory_spec hpos hv' (g - pg) (t • d)
    obtain ⟨al', htl, hal⟩ := twoLoop_spec hv1 g
    simp only [hpg, hd, ht] at hu
    simp only [hpg, hd, ht, Option.bind_eq_bind, Option.bind_some, hu, htl, Option.some_inj] at h
    rw [← h]
    simp only [hn]
    omega

/-- One step with backtracking from a reachable optimizer state, when no trial raises and the starting step exceeds the
smallest step: either the step reports failure and the parameters are unchanged, or it returns and the parameters are
unchanged or moved along a descent direction `d` by a positive `t`; in the latter case the returned loss is the loss evaluated
at the new parameters and lies below the old loss by the Armijo amount. The optimizer state stays reachable, so this applies
to every later step. -/
theorem C57_step_decreases_partial (cfg : Cfg) (maxAbs sumAbs : V → ℝ) (c : Closures V W) (fuel : Nat) (st : St V) (x : V) (w : W)
    (hr : Reach cfg.histSize st) (hpos : 0 < cfg.histSize) (hb : cfg.backtracking = true) (htol : 0 < cfg.tolChange)
    (heps : 0 ≤ cfg.lsEps) (l : ℝ) (g : V) (w1 : W) (hmain : c.main x w = (some (l, g), w1))
    (hstep : cfg.lsEps < firstStep cfg sumAbs st g) (hls : ∀ y w, (c.ls y w).1 ≠ none)
    (out : StepOut V) (x' : V) (w' : W) (h : step2c cfg maxAbs sumAbs c fuel none none st (x, w) = some (out, (x', w'))) :
    (out = .raised "minimize_scalar failed" ∧ x' = x) ∨
    (∃ st' nl ng, out = .done st' l nl ng ∧ Reach cfg.histSize st' ∧
      (x' = x ∨ ∃ t d v w2, 0 < t ∧ inner ℝ g d < 0 ∧ x' = x + t • d ∧ nl = some v ∧ c.ls x' w2 = (some v, w') ∧
        v ≤ l + 1 / 10 ^ 4 * t * inner ℝ g d ∧ v < l)) := by
  classical
  unfold step2c at h
  simp only [hmain] at h
  unfold afterEval at h
  split at h
  · simp only [Option.some.injEq, Prod.mk.injEq] at h
    obtain ⟨rfl, rfl, rfl⟩ := h
    exact Or.inr ⟨st, none, none, rfl, hr, Or.inl rfl⟩
  cases hmi : cfg.maxIter with
  | zero =>
    rw [hmi] at h
    simp only [passes, Option.some.injEq, Prod.mk.injEq] at h
    obtain ⟨rfl, rfl, rfl⟩ := h
    exact Or.inr ⟨st, none, none, rfl, hr, Or.inl rfl⟩
  | succ k =>
    rw [hmi, C56_violated cfg maxAbs sumAbs c fuel l g k _ _ _ _ _ htol] at h
    obtain ⟨-, st', d, hd1, hd2, -, -, -⟩ := C41_descent cfg.histSize hpos st hr g l
    have hreach : ∀ t : ℝ, Reach cfg.histSize { st' with d := some d, t := some t } := by
      intro t
      have := Reach.step g l t hr hd1
      rw [hd2] at this
      exact this
    unfold pass at h
    simp only [hd1, hd2] at h
    have hT : initStep cfg sumAbs st' g = firstStep cfg sumAbs st g := by
      unfold firstStep initStep
      simp only [direction_nIter hpos hr hd1]
    rw [hT] at h
    by_cases hgt : inner ℝ g d > -cfg.tolChange
    · rw [if_pos hgt] at h
      simp only [Option.some.injEq, Prod.mk.injEq] at h
      obtain ⟨rfl, rfl, rfl⟩ := h
      exact Or.inr ⟨_, none, none, rfl, hreach _, Or.inl rfl⟩
    · rw [if_neg hgt] at h
      have hgd : inner ℝ g d < 0 := by push Not at hgt; linarith
      rw [hb] at h
      simp only [if_true] at h
      cases hl : lsLoop c x d l (inner ℝ g d) cfg.lsEps fuel fuel (firstStep cfg sumAbs st g) none (x, w1) with
      | none => rw [hl] at h; exact absurd h (by simp)
      | some r =>
        obtain ⟨lo, p, w2⟩ := r
        obtain ⟨k1, k2⟩ := C40_search_partial c x d l (inner ℝ g d) cfg.lsEps _ fuel fuel none w1 lo p w2 hgd heps hstep hls hl
        subst k1
        rw [hl] at h
        cases lo with
        | failed =>
          simp only [Option.some.injEq, Prod.mk.injEq] at h
          obtain ⟨rfl, rfl, rfl⟩ := h
          exact Or.inl ⟨rfl, rfl⟩
        | step t nl =>
          obtain ⟨q1, v, w3, rfl, q2, q3, q4⟩ := k2 t nl rfl
          have e : out = .done { st' with d := some d, t := some t } l (some v) none ∧ x' = p + t • d ∧ w' = w2 := by
            simp only [finish, sub_self, abs_zero, htol, if_true, ite_self] at h
            simp only [Option.some.injEq, Prod.mk.injEq] at h
            rw [hd2] at h
            exact ⟨h.1.symm, h.2.1.symm, h.2.2.symm⟩
          obtain ⟨rfl, rfl, rfl⟩ := e
          exact Or.inr ⟨_, _, _, rfl, hreach t, Or.inr ⟨t, d, v, w3, q1, hgd, rfl, rfl, q2, q3, q4⟩⟩

/-- The hypotheses are met: minimising `(x-1)^2` from `x = 0` with a fresh optimizer. The step succeeds. -/
example : ∃ out x' w', step2c (V := ℝ) (W := Unit) ⟨1, 1, 10, 1 / 10 ^ 5, 1 / 10 ^ 9, 10, true, 1 / 10 ^ 8⟩ (fun x => |x|) (fun x => |x|)
      ⟨fun x w => (some ((x - 1) ^ 2, 2 * (x - 1)), w), fun x w => (some ((x - 1) ^ 2), w)⟩ 40 none none St.init (0, ()) =
      some (out, (x', w')) ∧ x' = 1 := by
  refine ⟨.done { (St.init : St ℝ) with nIter := 1, d := some 2, t := some (1 / 2), prevGrad := some (-2), prevLoss := some 1 } 1 (some 0) none, 1, (), ?_, rfl⟩
  norm_num [step2c, afterEval, passes, pass, finish, initStep, direction, St.init, lsLoop, Armijo.search, dirEval, inner]

/-- Without the assumption on the starting step the property fails: with gradient `10^5`, `lr = 1` and smallest step `1e-4`
no trial is made and the loss rises from 10 to 100. -/
theorem C57_violated : ∃ (c : Closures ℝ Unit) (st' : St ℝ),
    step2c ⟨1, 1, 10, 1 / 10 ^ 5, 1 / 10 ^ 9, 10, true, 1 / 10 ^ 4⟩ (fun x => |x|) (fun x => |x|) c 40 none none St.init (0, ()) =
      some (.done st' 10 none none, (-1, ())) ∧ (c.ls (-1) ()).1 = some 100 ∧ (c.main 0 ()).1 = some (10, 10 ^ 5) := by
  refine ⟨⟨fun x w => (some (10, 10 ^ 5), w), fun x w => (some 100, w)⟩,
    { (St.init : St ℝ) with nIter := 1, d := some (-10 ^ 5), t := some (1 / 10 ^ 5), prevGrad := some (10 ^ 5), prevLoss := some 10 }, ?_, rfl, rfl⟩
  norm_num [step2c, afterEval, passes, pass, finish, initStep, direction, St.init, lsLoop, inner]

/-! ### Property C44 -/

theorem lastN_length {α : Type} (n : Nat) (l : List α) (hn : 0 < n) (h : n ≤ l.length) : (lastN n l).length = n := by
  unfold lastN
  rw [if_neg (by omega), List.length_drop]
  omega

theorem lastN_eq {α : Type} (n : Nat) (l : List α) (hn : 0 < n) : lastN n l = l.drop (l.length - n) := by
  unfold lastN
  rw [if_neg (by omega)]

theorem filterNone_length (l : List (Option ℝ)) : (filterNone l).length ≤ l.length := by
  unfold filterNone; exact List.length_filter_le _ _

/-- Resuming (`optim/ad_optim_lbfgs_mod.py`) a state that was consistent for the stored history size with any new history size
`hs >= 1` keeps exactly the last `hs` pairs and gives a state that is consistent for `hs`. The buffer must be present, which it
is from the second step on. -/
theorem C44_resume (cpHs hs : Nat) (hpos : 0 < hs) (st : St V) (hv : Valid cpHs st) (hal : st.al ≠ none) :
    ∃ st', resumeMod cpHs hs st = some st' ∧ Valid hs st' ∧
      st'.oldDirs = st.oldDirs.drop (st.oldDirs.length - hs) ∧ st'.oldStps = st.oldStps.drop (st.oldStps.length - hs) ∧
      st'.ro = st.ro.drop (st.ro.length - hs) ∧ st'.d = st.d ∧ st'.t = st.t ∧ st'.prevGrad = st.prevGrad ∧
      st'.hdiag = st.hdiag ∧ st'.nIter = st.nIter := by
  obtain ⟨al, ha⟩ := Option.ne_none_iff_exists'.1 hal
  have hbuf : ∀ f : List (Option ℝ), (if hs < f.length then lastN hs f else f ++ List.replicate (hs - f.length) none).length = hs := by
    intro f
    split
    · exact lastN_length hs f hpos (by omega)
    · simp; omega
  unfold resumeMod
  by_cases hc : hs < cpHs ∧ hs < st.oldDirs.length
  · rw [if_pos hc, if_pos ⟨hv.stps.symm, by rw [hv.stps, hv.ros]⟩]
    simp only [Option.bind_eq_bind, Option.bind_some, ha]
    refine ⟨_, rfl, ?_, lastN_eq _ _ hpos, lastN_eq _ _ hpos, lastN_eq _ _ hpos, rfl, rfl, rfl, rfl, rfl⟩
    have e1 : lastN hs st.oldDirs = st.oldDirs.drop (st.oldDirs.length - hs) := lastN_eq _ _ hpos
    have e2 : lastN hs st.oldStps = st.oldStps.drop (st.oldDirs.length - hs) := by rw [lastN_eq _ _ hpos, hv.stps]
    have e3 : lastN hs st.ro = st.ro.drop (st.oldDirs.length - hs) := by rw [lastN_eq _ _ hpos, hv.ros]
    refine ⟨?_, ?_, ?_, ?_, ?_, hv.scale, ?_⟩
    · simp only [e1, e2, List.length_drop, hv.stps]
    · simp only [e1, e3, List.length_drop, hv.ros]
    · simp only [lastN_length hs st.oldDirs hpos (by omega), le_refl]
    · intro i y s h1 h2
      simp only [e1, e2, List.getElem?_drop] at h1 h2
      exact hv.curv _ _ _ h1 h2
    · intro i y s r h1 h2 h3
      simp only [e1, e2, e3, List.getElem?_drop] at h1 h2 h3
      exact hv.rho _ _ _ _ h1 h2 h3
    · intro l hl
      simp only [Option.some.injEq] at hl
      rw [← hl]; exact hbuf _
  · have hle : st.oldDirs.length ≤ hs := by have := hv.size; omega
    rw [if_neg hc]
    simp only [Option.bind_eq_bind, Option.bind_some, ha]
    refine ⟨_, rfl, ?_, ?_, ?_, ?_, rfl, rfl, rfl, rfl, rfl⟩
    · refine ⟨hv.stps, hv.ros, hle, hv.curv, hv.rho, hv.scale, ?_⟩
      intro l hl
      simp only [Option.some.injEq] at hl
      rw [← hl]; exact hbuf _
    · rw [show st.oldDirs.length - hs = 0 by omega, List.drop_zero]
    · rw [hv.stps, show st.oldDirs.length - hs = 0 by omega, List.drop_zero]
    · rw [hv.ros, show st.oldDirs.length - hs = 0 by omega, List.drop_zero]

/-- A history of three pairs resumed with size two. -/
example : Valid 5 (⟨4, some 1, some 1, [1, 2, 3], [1, 1, 1], [1, 1 / 2, 1 / 3], 1, some 1, some 1, some [some 1, some 1, some 1, none, none]⟩ : St ℝ) := by
  refine ⟨rfl, rfl, by simp, ?_, ?_, by simp, by simp⟩
  · intro i y s h1 h2
    match i with
    | 0 => simp at h1 h2; subst h1; subst h2; simp
    | 1 => simp at h1 h2; subst h1; subst h2; simp
    | 2 => simp at h1 h2; subst h1; subst h2; simp
    | i + 3 => simp at h1
  · intro i y s r h1 h2 h3
    match i with
    | 0 => simp at h1 h2 h3; subst h1; subst h2; subst h3; simp
    | 1 => simp at h1 h2 h3; subst h1; subst h2; subst h3; simp
    | 2 => simp at h1 h2 h3; subst h1; subst h2; subst h3; simp
    | i + 3 => simp at h1

/-- The checkpoint written after the first step (one iteration per epoch) cannot be resumed with overridden parameters: the
buffer is missing, for every gradient and every history size (KeyError in the code). -/
theorem C44_first_checkpoint_raises (cpHs hs : Nat) (g : V) (loss t : ℝ) :
    ∃ st' : St V, direction cpHs St.init g loss = some st' ∧ resumeMod cpHs hs { st' with t := some t } = none := by
  refine ⟨{ (St.init : St V) with nIter := 1, d := some (-g), prevGrad := some g, prevLoss := some loss }, by simp [direction, St.init], ?_⟩
  simp [resumeMod, St.init]

/-- In `optim/ad_optim.py` the resumed list `ro` is padded to the history size, so it is not aligned with the pairs: for every
consistent history of `n < hs` pairs the lists have different lengths and the entry used for the next stored pair is `None`. -/
theorem C44_ad_optim_violated (cpHs hs : Nat) (st : St V) (hv : Valid cpHs st) (al : List (Option ℝ)) (ha : st.al = some al)
    (hn : st.oldDirs.length < hs) :
    ∃ ds ss ro al', resumeAd cpHs hs st = some (ds, ss, ro, al') ∧ ds = st.oldDirs ∧ ro.length = hs ∧ ds.length < ro.length ∧
      ro[ds.length]? = some none := by
  have hro : filterNone (st.ro.map some) = st.ro.map some := by
    unfold filterNone
    rw [List.filter_eq_self]
    intro x hx
    obtain ⟨r, hr, rfl⟩ := List.mem_map.1 hx
    obtain ⟨i, hi⟩ := List.mem_iff_getElem?.1 hr
    have hlt : i < st.ro.length := by
      by_contra hh; rw [List.getElem?_eq_none (by omega)] at hi; exact absurd hi (by simp)
    have h1 : st.oldDirs[i]? = some (st.oldDirs[i]'(by rw [← hv.ros]; exact hlt)) := List.getElem?_eq_getElem _
    have h2 : st.oldStps[i]? = some (st.oldStps[i]'(by rw [hv.stps, ← hv.ros]; exact hlt)) := List.getElem?_eq_getElem _
    have h3 := hv.curv i _ _ h1 h2
    have h4 := hv.rho i _ _ r h1 h2 hi
    simp only [decide_eq_true_eq]
    rw [h4]
    positivity
  have hlen : (st.ro.map some).length = st.oldDirs.length := by rw [List.length_map, hv.ros]
  unfold resumeAd
  rw [if_neg (by omega)]
  simp only [ha, Option.bind_eq_bind, Option.bind_some, hro]
  rw [if_neg (by omega)]
  refine ⟨_, _, _, _, rfl, rfl, ?_, ?_, ?_⟩
  · simp only [List.length_append, List.length_replicate, hlen]; omega
  · simp only [List.length_append, List.length_replicate, hlen]; omega
  · rw [List.getElem?_append_right (by omega), hlen, Nat.sub_self, List.getElem?_replicate, if_pos (by omega)]

end Verif.Lbfgs
