import Verif.Optim.LoopProps
/-
Properties C43 (loss stored in a checkpoint), C58 (resuming continues the run), C59 (resuming keeps the best state).
-/
namespace Verif.Loop
open Lbfgs

variable {V E : Type} [NormedAddCommGroup V] [InnerProductSpace ℝ V]

/-! ### Property C43 -/

/-- The checkpoint written before the second epoch holds the parameters `-1`, whose loss is `-1`, with the loss `0`. -/
theorem C43_violated : ∃ r f, optimize cfgPlain (fun x => |x|) (fun x => |x|) linear 0 2 (Run.init 0 () none) = some (r, f) ∧
    ∃ c ∈ r.ckpts, ((linear.grad c.x ()).1.map Prod.fst) ≠ some c.loss := by
  refine ⟨_, _, linear_run, ⟨1, -1, 0, stA⟩, by simp, ?_⟩
  norm_num [linear]

/-- `c` was written when the last gradient evaluation of the run was that of `y` with loss `c.loss`. -/
def Spec.LossOf (c : Ckpt V) (w : World V E) (y : V) : Prop := (false, y, c.loss) ∈ w.log

theorem log_closure (P : Problem V E) (x : V) (w : World V E) (l : ℝ) (g : V) (w' : World V E)
    (h : closure P x w = (some (l, g), w')) :
    w'.loss = w.loss ++ [l] ∧ w'.log = w.log ++ [(false, x, l)] ∧ (P.grad x w.env).1 = some (l, g) := by
  unfold closure at h
  split at h
  · exact absurd h (by simp)
  · rename_i l' g' e he
    simp only [Prod.mk.injEq, Option.some.injEq] at h
    obtain ⟨⟨rfl, rfl⟩, rfl⟩ := h
    refine ⟨?_, ?_, by rw [he]⟩ <;> split <;> rfl

theorem log_mono_closure (P : Problem V E) (e : Bool × V × ℝ) (x : V) (w : World V E) (h : e ∈ w.log) : e ∈ (closure P x w).2.log := by
  unfold closure
  split
  · exact h
  · simp only
    split <;> exact List.mem_append_left _ h

theorem log_mono_closureLs (P : Problem V E) (e : Bool × V × ℝ) (x : V) (w : World V E) (h : e ∈ w.log) : e ∈ (closureLs P x w).2.log := by
  unfold closureLs
  split
  · exact h
  · simp only
    split
    · split <;> exact List.mem_append_left _ h
    · exact List.mem_append_left _ h

theorem loss_closureLs (P : Problem V E) (x : V) (w : World V E) : (closureLs P x w).2.loss = w.loss := by
  unfold closureLs
  split
  · rfl
  · simp only
    split
    · split <;> rfl
    · rfl

/-- What the last recorded loss is after an epoch: the loss of a state from which the stored step leads to the parameters. -/
def Paired (x : V) (st : St V) (w : World V E) : Prop :=
  ∃ y l, w.loss.getLast? = some l ∧ (false, y, l) ∈ w.log ∧
    (x = y ∨ ∃ d t, st.d = some d ∧ st.t = some t ∧ x = y + t • d)

/-- How a pass that does not raise ends, when `tolerance_change` is positive. -/
theorem pass_stop {W : Type} (cfg : Cfg) (maxAbs sumAbs : V → ℝ) (c : Closures V W) (fuel nIter evals : Nat) (l : ℝ) (g : V)
    (nl : Option ℝ) (ng : Option V) (Q : Prop) (st : St V) (x : V) (w : W) (htol : 0 < cfg.tolChange)
    (st' : St V) (nl' : Option ℝ) (ng' : Option V) (x' : V) (w' : W)
    (h : pass cfg maxAbs sumAbs c fuel nIter evals l g nl ng Q st (x, w) = some (.stop st' nl' ng', (x', w'))) :
    ∃ st1 d, direction cfg.histSize st g l = some st1 ∧ st1.d = some d ∧
      ((inner ℝ g d > -cfg.tolChange ∧ x' = x ∧ w' = w ∧ nl' = nl ∧ ng' = ng ∧ st' = { st1 with t := some (initStep cfg sumAbs st1 g) }) ∨
       (inner ℝ g d ≤ -cfg.tolChange ∧ cfg.backtracking = true ∧ ∃ t p, lsLoop c x d l (inner ℝ g d) cfg.lsEps fuel fuel (initStep cfg sumAbs st1 g) none (x, w) =
          some (.step t nl', (p, w')) ∧ x' = p + t • d ∧ ng' = none ∧ st' = { st1 with t := some t }) ∨
       (cfg.backtracking = false ∧ nIter = cfg.maxIter ∧ x' = x + initStep cfg sumAbs st1 g • d ∧ w' = w ∧ nl' = none ∧ ng' = none ∧
          st' = { st1 with t := some (initStep cfg sumAbs st1 g) }) ∨
       (cfg.backtracking = false ∧ nIter ≠ cfg.maxIter ∧ x' = x + initStep cfg sumAbs st1 g • d ∧
          (∃ l' g', c.main x' w = (some (l', g'), w') ∧ nl' = some l' ∧ ng' = some g') ∧
          st' = { st1 with t := some (initStep cfg sumAbs st1 g) })) := by
  have hz : |l - l| < cfg.tolChange := by rw [sub_self, abs_zero]; exact htol
  unfold pass at h
  rcases hd : direction cfg.histSize st g l with _ | st1
  · rw [hd] at h; exact absurd h (by simp)
  · rw [hd] at h
    simp only at h
    rcases hd1 : st1.d with _ | d
    · simp only [hd1] at h; exact absurd h (by simp)
    · refine ⟨st1, d, rfl, hd1, ?_⟩
      simp only [hd1] at h
      simp only [finish, hz, if_true, ite_self] at h
      by_cases h1 : inner ℝ g d > -cfg.tolChange
      · rw [if_pos h1] at h
        simp only [Option.some.injEq, Prod.mk.injEq, Pass.stop.injEq] at h
        obtain ⟨⟨rfl, rfl, rfl⟩, rfl, rfl⟩ := h
        exact Or.inl ⟨h1, rfl, rfl, rfl, rfl, by rw [hd1]⟩
      · rw [if_neg h1] at h
        push Not at h1
        cases hb : cfg.backtracking with
        | true =>
          simp only [hb, if_true] at h
          rcases hl : lsLoop c x d l (inner ℝ g d) cfg.lsEps fuel fuel (initStep cfg sumAbs st1 g) none (x, w) with
            _ | ⟨⟨t, nl1⟩ | _, p, w2⟩
          · rw [hl] at h; exact absurd h (by simp)
          · rw [hl] at h
            simp only [Option.some.injEq, Prod.mk.injEq, Pass.stop.injEq] at h
            obtain ⟨⟨rfl, rfl, rfl⟩, rfl, rfl⟩ := h
            exact Or.inr (Or.inl ⟨h1, rfl, t, p, rfl, rfl, rfl, by rw [hd1]⟩)
          · rw [hl] at h; exact absurd h (by simp)
        | false =>
          simp only [hb, Bool.false_eq_true, if_false] at h
          by_cases hm : nIter = cfg.maxIter
          · rw [if_pos hm] at h
            simp only [Option.some.injEq, Prod.mk.injEq, Pass.stop.injEq] at h
            obtain ⟨⟨rfl, rfl, rfl⟩, rfl, rfl⟩ := h
            exact Or.inr (Or.inr (Or.inl ⟨rfl, hm, rfl, rfl, rfl, rfl, by rw [hd1]⟩))
          · rw [if_neg hm] at h
            rcases hc : c.main (x + initStep cfg sumAbs st1 g • d) w with ⟨_ | ⟨l', g'⟩, w2⟩
            · rw [hc] at h; exact absurd h (by simp)
            · rw [hc] at h
              simp only [Option.some.injEq, Prod.mk.injEq, Pass.stop.injEq] at h
              obtain ⟨⟨rfl, rfl, rfl⟩, rfl, rfl⟩ := h
              exact Or.inr (Or.inr (Or.inr ⟨rfl, hm, rfl, ⟨l', g', hc, rfl, rfl⟩, by rw [hd1]⟩))

/-- How a step that does not raise ends. -/
theorem afterEval_done {W : Type} (cfg : Cfg) (maxAbs sumAbs : V → ℝ) (c : Closures V W) (fuel e : Nat) (l : ℝ) (g : V)
    (nl : Option ℝ) (ng : Option V) (st : St V) (x : V) (w : W) (htol : 0 < cfg.tolChange)
    (st' : St V) (l0 : ℝ) (nl' : Option ℝ) (ng' : Option V) (x' : V) (w' : W)
    (h : afterEval cfg maxAbs sumAbs c fuel nl ng st l g e (x, w) = some (.done st' l0 nl' ng', (x', w'))) :
    l0 = l ∧ ((x' = x ∧ w' = w ∧ ((nl' = none ∧ ng' = none) ∨ (nl' = nl ∧ ng' = ng))) ∨
      ((0 < cfg.maxIter) ∧ pass cfg maxAbs sumAbs c fuel 1 e l g nl ng (maxAbs g ≤ cfg.tolGrad) st (x, w) = some (.stop st' nl' ng', (x', w')))) := by
  unfold afterEval at h
  split at h
  · simp only [Option.some.injEq, Prod.mk.injEq, StepOut.done.injEq] at h
    obtain ⟨⟨rfl, rfl, rfl, rfl⟩, rfl, rfl⟩ := h
    exact ⟨rfl, Or.inl ⟨rfl, rfl, Or.inl ⟨rfl, rfl⟩⟩⟩
  · cases hk : cfg.maxIter with
    | zero =>
      rw [hk] at h
      simp only [passes, Option.some.injEq, Prod.mk.injEq, StepOut.done.injEq] at h
      obtain ⟨⟨rfl, rfl, rfl, rfl⟩, rfl, rfl⟩ := h
      exact ⟨rfl, Or.inl ⟨rfl, rfl, Or.inr ⟨rfl, rfl⟩⟩⟩
    | succ k =>
      rw [hk, C56_violated cfg maxAbs sumAbs c fuel l g k _ _ _ _ _ htol] at h
      split at h
      · exact absurd h (by simp)
      · rename_i hp
        simp only [Option.some.injEq, Prod.mk.injEq, StepOut.done.injEq] at h
        obtain ⟨⟨rfl, rfl, rfl, rfl⟩, rfl⟩ := h
        exact ⟨rfl, Or.inr ⟨by omega, hp⟩⟩
      · rename_i hp
        exact absurd hp (pass_stops cfg maxAbs sumAbs c fuel _ _ _ _ _ _ _ _ _ htol _ _ _ _ _)
      · exact absurd h (by simp)

/-- One step in a run where the gradient is evaluated at every step. -/
theorem step_paired (cfg : Cfg) (maxAbs sumAbs : V → ℝ) (P : Problem V E) (fuel : Nat) (nl : Option ℝ) (st : St V) (x : V)
    (w : World V E) (htol : 0 < cfg.tolChange) (hcfg : cfg.backtracking = true ∨ cfg.maxIter ≤ 1)
    (hls : cfg.backtracking = true → ∀ x e, (P.ls x e).1 ≠ none)
    (heps : cfg.backtracking = true → 0 ≤ cfg.lsEps)
    (st' : St V) (l : ℝ) (nl' : Option ℝ) (ng' : Option V) (x' : V) (w' : World V E)
    (h : step2c cfg maxAbs sumAbs (closures P) fuel nl none st (x, w) = some (.done st' l nl' ng', (x', w'))) :
    ng' = none ∧ Paired x' st' w' := by
  have h' : ∃ l1 g w1, closure P x w = (some (l1, g), w1) ∧
      afterEval cfg maxAbs sumAbs (closures P) fuel nl none st l1 g 1 (x, w1) = some (.done st' l nl' ng', (x', w')) := by
    unfold step2c at h
    rcases hc : closure P x w with ⟨_ | ⟨l0, g⟩, w1⟩
    · have hc' : (closures P).main x w = (none, w1) := hc
      rcases nl with _ | v <;> simp only [hc'] at h <;> exact absurd h (by simp)
    · have hc' : (closures P).main x w = (some (l0, g), w1) := hc
      refine ⟨l0, g, w1, rfl, ?_⟩
      rcases nl with _ | v <;> simp only [hc'] at h <;> exact h
  obtain ⟨l1, g, w1, hc, ha⟩ := h'
  obtain ⟨c1, c2, -⟩ := log_closure P x w l1 g w1 hc
  obtain ⟨rfl, ⟨rfl, rfl, hn⟩ | ⟨hpos, hp⟩⟩ := afterEval_done cfg maxAbs sumAbs (closures P) fuel 1 l1 g nl none st x w1 htol _ _ _ _ _ _ ha
  · exact ⟨by rcases hn with ⟨-, h⟩ | ⟨-, h⟩ <;> exact h, x', l, by rw [c1]; simp, by rw [c2]; simp, Or.inl rfl⟩
  · obtain ⟨st1, d, -, hd, h1 | h1 | h1 | h1⟩ := pass_stop cfg maxAbs sumAbs (closures P) fuel 1 1 l g nl none _ st x w1 htol _ _ _ _ _ hp
    · obtain ⟨-, rfl, rfl, -, rfl, -⟩ := h1
      exact ⟨rfl, x', l, by rw [c1]; simp, by rw [c2]; simp, Or.inl rfl⟩
    · obtain ⟨hg, hb, t, p, hl, rfl, rfl, rfl⟩ := h1
      refine ⟨rfl, x, l, ?_, ?_, Or.inr ⟨d, t, hd, rfl, ?_⟩⟩
      · have := lsLoop_world (closures P) (fun w => w.loss.getLast? = some l)
          (fun y w hw => by show (closureLs P y w).2.loss.getLast? = some l; rw [loss_closureLs]; exact hw)
          _ _ _ _ _ _ _ _ _ _ _ _ (by show w1.loss.getLast? = some l; rw [c1]; simp) hl
        exact this
      · have := lsLoop_world (closures P) (fun w => (false, x, l) ∈ w.log) (fun y w hw => log_mono_closureLs P _ y w hw)
          _ _ _ _ _ _ _ _ _ _ _ _ (by show (false, x, l) ∈ w1.log; rw [c2]; simp) hl
        exact this
      · by_cases hst : cfg.lsEps < initStep cfg sumAbs st1 g
        · have := (C40_search_partial (closures P) x d l (inner ℝ g d) cfg.lsEps (initStep cfg sumAbs st1 g) fuel fuel none w1
            _ p w' (by linarith) (heps hb) hst (by
              intro y w hy
              have hy' : (closureLs P y w).1 = none := hy
              unfold closureLs at hy'
              split at hy'
              · rename_i e he
                exact hls hb y w.env (by rw [he])
              · exact absurd hy' (by simp)) hl).1
          rw [this]
        · have hp : p = x := by
            cases fuel with
            | zero => simp only [lsLoop, gt_iff_lt, if_neg hst, Option.some.injEq, Prod.mk.injEq] at hl; exact hl.2.1.symm
            | succ f => simp only [lsLoop, gt_iff_lt, if_neg hst, Option.some.injEq, Prod.mk.injEq] at hl; exact hl.2.1.symm
          rw [hp]
    · obtain ⟨-, -, rfl, rfl, -, rfl, rfl⟩ := h1
      exact ⟨rfl, x, l, by rw [c1]; simp, by rw [c2]; simp, Or.inr ⟨d, _, hd, rfl, rfl⟩⟩
    · obtain ⟨hb, hm, -⟩ := h1
      rcases hcfg with hcfg | hcfg
      · rw [hb] at hcfg; exact absurd hcfg (by simp)
      · omega

/-- A step raises `NoFixedPointError` only if the gradient closure does. -/
theorem step_raised {W : Type} (cfg : Cfg) (maxAbs sumAbs : V → ℝ) (c : Closures V W) (fuel : Nat) (nl : Option ℝ) (ng : Option V)
    (st : St V) (xw xw' : V × W) (why : String) (hc : ∀ x w, (c.main x w).1 ≠ none)
    (h : step2c cfg maxAbs sumAbs c fuel nl ng st xw = some (.raised why, xw')) : why ≠ "NoFixedPointError" := by
  have hpass : ∀ nIter evals l g nl ng st xw xw' Q, pass cfg maxAbs sumAbs c fuel nIter evals l g nl ng Q st xw = some (.raised why, xw') →
      why ≠ "NoFixedPointError" := by
    intro nIter evals l g nl ng st xw xw' Q h
    have hf : ∀ d st1 t a b k opt, finish cfg maxAbs l d st1 nIter evals t a b k opt ≠ .raised why := by
      intro d st1 t a b k opt
      unfold finish
      simp only
      repeat' split
      all_goals simp
    unfold pass at h
    simp only at h
    repeat' (split at h)
    all_goals
      simp only [Option.some.injEq, Prod.mk.injEq, Pass.raised.injEq, reduceCtorEq, false_and] at h
    all_goals
      first
      | exact absurd h.1 (hf _ _ _ _ _ _ _)
      | (rw [← h.1]; decide)
      | skip
    rename_i hm
    exact absurd (congrArg Prod.fst hm) (hc _ _)
  have hpasses : ∀ k nIter evals l g nl ng st xw xw', passes cfg maxAbs sumAbs c fuel l g k nIter evals nl ng st xw = some (.raised why, xw') →
      why ≠ "NoFixedPointError" := by
    intro k
    induction k with
    | zero => intro nIter evals l g nl ng st xw xw' h; exact absurd h (by simp [passes])
    | succ k ih =>
      intro nIter evals l g nl ng st xw xw' h
      unfold passes at h
      split at h
      · exact ih _ _ _ _ _ _ _ _ _ h
      · exact hpass _ _ _ _ _ _ _ _ _ _ h
  have hae : ∀ l g e xw, afterEval cfg maxAbs sumAbs c fuel nl ng st l g e xw = some (.raised why, xw') → why ≠ "NoFixedPointError" := by
    intro l g e xw h
    unfold afterEval at h
    split at h
    · exact absurd h (by simp)
    · split at h
      · exact absurd h (by simp)
      · exact absurd h (by simp)
      · exact absurd h (by simp)
      · rename_i hp
        simp only [Option.some.injEq, Prod.mk.injEq, StepOut.raised.injEq] at h
        rw [h.1] at hp
        exact hpasses _ _ _ _ _ _ _ _ _ _ hp
  unfold step2c at h
  split at h
  · exact hae _ _ _ _ h
  · split at h
    · rename_i hm
      exact absurd (congrArg Prod.fst hm) (hc _ _)
    · exact hae _ _ _ _ h

theorem log_step (cfg : Cfg) (maxAbs sumAbs : V → ℝ) (P : Problem V E) (fuel : Nat) (nl : Option ℝ) (ng : Option V) (st : St V)
    (x : V) (w : World V E) (o : StepOut V) (x' : V) (w' : World V E)
    (h : step2c cfg maxAbs sumAbs (closures P) fuel nl ng st (x, w) = some (o, (x', w'))) : ∀ e ∈ w.log, e ∈ w'.log := by
  intro e he
  exact step2c_world cfg maxAbs sumAbs (closures P) (fun w => e ∈ w.log) (fun y w hw => log_mono_closure P e y w hw)
    (fun _ y w hw => log_mono_closureLs P e y w hw) fuel nl ng st (x, w) o (x', w') he h

/-- Induction over the epochs of a run whose gradient closure never raises: `J` holds of the local variables after every
completed step, and then `G` of every checkpoint. -/
theorem epochs_ckpt (cfg : Cfg) (maxAbs sumAbs : V → ℝ) (P : Problem V E) (fuel : Nat)
    (hgr : ∀ x e, (P.grad x e).1 ≠ none)
    (J : Option ℝ → Option V → V → St V → World V E → Prop) (G : Ckpt V → List (Bool × V × ℝ) → Prop)
    (hmono : ∀ c l l', (∀ e ∈ l, e ∈ l') → G c l → G c l')
    (hstep : ∀ nl ng x st w st' l nl' ng' x' w', ((nl = none ∧ ng = none) ∨ J nl ng x st w) →
      step2c cfg maxAbs sumAbs (closures P) fuel nl ng st (x, w) = some (.done st' l nl' ng', (x', w')) →
      J nl' ng' x' st' { w' with lossLs := [], minLossLs := 10 ^ 16 })
    (hG : ∀ nl ng x st w k l, J nl ng x st w → w.loss.getLast? = some l → G ⟨k, x, l, st⟩ w.log) :
    ∀ (n k : Nat) (r r' : Run V E) (f : Flow), (∀ c ∈ r.ckpts, G c r.w.log) →
      ((k = 0 ∧ r.nl = none ∧ r.ng = none) ∨ J r.nl r.ng r.x r.st r.w) →
      epochs cfg maxAbs sumAbs P fuel n k r = some (r', f) →
      (∀ c ∈ r'.ckpts, G c r'.w.log) ∧ ((n = 0 ∧ r' = r) ∨ (∃ why, f = .raised why) ∨ J r'.nl r'.ng r'.x r'.st r'.w) := by
  intro n
  induction n with
  | zero =>
    intro k r r' f hc hj h
    simp only [epochs, Option.some.injEq, Prod.mk.injEq] at h
    obtain ⟨rfl, rfl⟩ := h
    exact ⟨hc, Or.inl ⟨rfl, rfl⟩⟩
  | succ n ih =>
    intro k r r' f hc hj h
    have key : ∀ r1 f1, epoch cfg maxAbs sumAbs P fuel k r = some (r1, f1) →
        (∀ c ∈ r1.ckpts, G c r1.w.log) ∧ ((∃ why, f1 = .raised why) ∨ J r1.nl r1.ng r1.x r1.st r1.w) := by
      intro r1 f1 h1
      unfold epoch at h1
      simp only at h1
      have h0 : (∀ c ∈ (if k > 0 then store k r else r).ckpts, G c (if k > 0 then store k r else r).w.log) ∧
          (((if k > 0 then store k r else r).nl = none ∧ (if k > 0 then store k r else r).ng = none) ∨
            J (if k > 0 then store k r else r).nl (if k > 0 then store k r else r).ng (if k > 0 then store k r else r).x
              (if k > 0 then store k r else r).st (if k > 0 then store k r else r).w) := by
        by_cases hk : k > 0
        · rw [if_pos hk]
          obtain ⟨s1, s2, s3, s4, s5⟩ := store_w k r
          rw [s1, s2, s3, s4, s5]
          have hj' : J r.nl r.ng r.x r.st r.w := by
            rcases hj with ⟨h, -, -⟩ | hj
            · omega
            · exact hj
          refine ⟨?_, Or.inr hj'⟩
          intro c hcm
          unfold store at hcm
          split at hcm
          · exact hc c hcm
          · rename_i l hl
            simp only [List.mem_append, List.mem_singleton] at hcm
            rcases hcm with hcm | rfl
            · exact hc c hcm
            · exact hG _ _ _ _ _ _ _ hj' hl
        · rw [if_neg hk]
          refine ⟨hc, ?_⟩
          rcases hj with ⟨-, h1, h2⟩ | hj
          · exact Or.inl ⟨h1, h2⟩
          · exact Or.inr hj
      generalize (if k > 0 then store k r else r) = r0 at h1 h0
      obtain ⟨hc0, hj0⟩ := h0
      split at h1
      · exact absurd h1 (by simp)
      · rename_i why x w hs
        have hne := step_raised cfg maxAbs sumAbs (closures P) fuel _ _ _ _ _ why (by
          intro y w hy
          have hy' : (closure P y w).1 = none := hy
          unfold closure at hy'
          split at hy'
          · rename_i e he
            exact hgr y w.env (by rw [he])
          · exact absurd hy' (by simp)) hs
        rw [if_neg hne] at h1
        simp only [Option.some.injEq, Prod.mk.injEq] at h1
        obtain ⟨rfl, rfl⟩ := h1
        exact ⟨fun c hcm => hmono c _ _ (log_step cfg maxAbs sumAbs P fuel _ _ _ _ _ _ _ _ hs) (hc0 c hcm), Or.inl ⟨why, rfl⟩⟩
      · rename_i st' l nl' ng' x' w' hs
        simp only [Option.some.injEq, Prod.mk.injEq] at h1
        obtain ⟨rfl, rfl⟩ := h1
        exact ⟨fun c hcm => hmono c _ w'.log (log_step cfg maxAbs sumAbs P fuel _ _ _ _ _ _ _ w' hs) (hc0 c hcm),
          Or.inr (hstep _ _ _ _ _ _ _ _ _ _ _ hj0 hs)⟩
    unfold epochs at h
    split at h
    · exact absurd h (by simp)
    · rename_i r1 he
      obtain ⟨k1, k2⟩ := key _ _ he
      have hj1 : J r1.nl r1.ng r1.x r1.st r1.w := by
        rcases k2 with ⟨w, hw⟩ | hj
        · exact absurd hw (by simp)
        · exact hj
      obtain ⟨m1, m2⟩ := ih (k + 1) r1 r' f k1 (Or.inr hj1) h
      refine ⟨m1, ?_⟩
      rcases m2 with ⟨-, rfl⟩ | m2 | m2
      · exact Or.inr (Or.inr hj1)
      · exact Or.inr (Or.inl m2)
      · exact Or.inr (Or.inr m2)
    · rename_i r1 f1 _ he
      simp only [Option.some.injEq, Prod.mk.injEq] at h
      obtain ⟨rfl, rfl⟩ := h
      obtain ⟨k1, k2⟩ := key _ _ he
      exact ⟨k1, Or.inr k2⟩

theorem optimize_ckpt (cfg : Cfg) (maxAbs sumAbs : V → ℝ) (P : Problem V E) (fuel : Nat)
    (hgr : ∀ x e, (P.grad x e).1 ≠ none)
    (J : Option ℝ → Option V → V → St V → World V E → Prop) (G : Ckpt V → List (Bool × V × ℝ) → Prop)
    (hmono : ∀ c l l', (∀ e ∈ l, e ∈ l') → G c l → G c l')
    (hstep : ∀ nl ng x st w st' l nl' ng' x' w', ((nl = none ∧ ng = none) ∨ J nl ng x st w) →
      step2c cfg maxAbs sumAbs (closures P) fuel nl ng st (x, w) = some (.done st' l nl' ng', (x', w')) →
      J nl' ng' x' st' { w' with lossLs := [], minLossLs := 10 ^ 16 })
    (hG : ∀ nl ng x st w k l, J nl ng x st w → w.loss.getLast? = some l → G ⟨k, x, l, st⟩ w.log)
    (n : Nat) (x : V) (st : St V) (env : E) (file : Option V) (r : Run V E) (f : Flow)
    (h : optimize cfg maxAbs sumAbs P fuel n ⟨x, st, none, none, World.init env file, []⟩ = some (r, f)) :
    ∀ c ∈ r.ckpts, G c r.w.log := by
  have key := epochs_ckpt cfg maxAbs sumAbs P fuel hgr J G hmono hstep hG n 0 ⟨x, st, none, none, World.init env file, []⟩
  unfold optimize at h
  split at h
  · exact absurd h (by simp)
  · rename_i he
    simp only [Option.some.injEq, Prod.mk.injEq] at h
    obtain ⟨rfl, rfl⟩ := h
    exact (key _ _ (by simp) (Or.inl ⟨rfl, rfl, rfl⟩) he).1
  · rename_i r1 f1 hnr he
    simp only [Option.some.injEq, Prod.mk.injEq] at h
    obtain ⟨rfl, rfl⟩ := h
    obtain ⟨k1, k2⟩ := key _ _ (by simp) (Or.inl ⟨rfl, rfl, rfl⟩) he
    rw [(store_w n r1).1]
    intro c hcm
    unfold store at hcm
    split at hcm
    · exact k1 c hcm
    · rename_i l hl
      simp only [List.mem_append, List.mem_singleton] at hcm
      rcases hcm with hcm | rfl
      · exact k1 c hcm
      · rcases k2 with ⟨-, rfl⟩ | ⟨why, hw⟩ | hj
        · simp [World.init] at hl
        · exact absurd hw (hnr why)
        · exact hG _ _ _ _ _ _ _ hj hl

/-- Line search or a single iteration per epoch (the default), fresh or resumed run, no exception of the loss functions: the
loss stored in a checkpoint is not that of the stored parameters in general (`C43_violated`) but that of the parameters before
the last step: subtracting the stored step `t * d` from the stored parameters gives a state whose loss was evaluated as the
stored loss (or the stored parameters are that state). -/
theorem C43_stored_step_partial (cfg : Cfg) (maxAbs sumAbs : V → ℝ) (P : Problem V E) (fuel n : Nat) (x : V) (st : St V) (env : E)
    (file : Option V) (r : Run V E) (f : Flow) (htol : 0 < cfg.tolChange) (hcfg : cfg.backtracking = true ∨ cfg.maxIter ≤ 1)
    (hgr : ∀ x e, (P.grad x e).1 ≠ none) (hls : cfg.backtracking = true → ∀ x e, (P.ls x e).1 ≠ none)
    (heps : cfg.backtracking = true → 0 ≤ cfg.lsEps)
    (h : optimize cfg maxAbs sumAbs P fuel n ⟨x, st, none, none, World.init env file, []⟩ = some (r, f)) :
    ∀ c ∈ r.ckpts, ∃ y, (false, y, c.loss) ∈ r.w.log ∧
      (c.x = y ∨ ∃ d t, c.st.d = some d ∧ c.st.t = some t ∧ c.x - t • d = y) := by
  refine optimize_ckpt cfg maxAbs sumAbs P fuel hgr (fun _ ng x st w => ng = none ∧ Paired x st w)
    (fun c log => ∃ y, (false, y, c.loss) ∈ log ∧ (c.x = y ∨ ∃ d t, c.st.d = some d ∧ c.st.t = some t ∧ c.x - t • d = y))
    ?_ ?_ ?_ n x st env file r f h
  · rintro c l l' hsub ⟨y, h1, h2⟩
    exact ⟨y, hsub _ h1, h2⟩
  · intro nl ng x st w st' l nl' ng' x' w' hj hs
    have hng : ng = none := by
      rcases hj with ⟨-, h⟩ | ⟨h, -⟩ <;> exact h
    subst hng
    exact step_paired cfg maxAbs sumAbs P fuel nl st x w htol hcfg hls heps st' l nl' ng' x' w' hs
  · rintro nl ng x st w k l ⟨-, y, l', h1, h2, h3⟩ hl
    rw [h1, Option.some.injEq] at hl
    subst hl
    refine ⟨y, h2, ?_⟩
    rcases h3 with h3 | ⟨d, t, h3, h4, h5⟩
    · exact Or.inl h3
    · exact Or.inr ⟨d, t, h3, h4, by rw [h5]; simp⟩

/-- The hypotheses are met by the run `linear_run`, whose checkpoints are not empty. -/
example : 0 < cfgPlain.tolChange ∧ cfgPlain.maxIter ≤ 1 ∧ (∀ x e, (linear.grad x e).1 ≠ none) ∧
    ∃ r f, optimize cfgPlain (fun x => |x|) (fun x => |x|) linear 0 2 ⟨0, St.init, none, none, World.init () none, []⟩ = some (r, f) ∧ r.ckpts.length = 2 :=
  ⟨by norm_num [cfgPlain], by simp [cfgPlain], by simp [linear], _, _, linear_run, rfl⟩

/-- Without line search and with at least two iterations per epoch, when the loss function does not raise, every checkpoint
pairs the parameters with their own loss. -/
theorem C43_fixed_step_partial (cfg : Cfg) (maxAbs sumAbs : V → ℝ) (P : Problem V E) (fuel n : Nat) (x : V) (st : St V) (env : E)
    (file : Option V) (r : Run V E) (f : Flow) (htol : 0 < cfg.tolChange) (hb : cfg.backtracking = false) (hmi : cfg.maxIter ≠ 1)
    (hgr : ∀ x e, (P.grad x e).1 ≠ none)
    (h : optimize cfg maxAbs sumAbs P fuel n ⟨x, st, none, none, World.init env file, []⟩ = some (r, f)) :
    ∀ c ∈ r.ckpts, (false, c.x, c.loss) ∈ r.w.log := by
  refine optimize_ckpt cfg maxAbs sumAbs P fuel hgr (fun _ _ x _ w => ∃ l, w.loss.getLast? = some l ∧ (false, x, l) ∈ w.log)
    (fun c log => (false, c.x, c.loss) ∈ log) ?_ ?_ ?_ n x st env file r f h
  · intro c l l' hsub h1
    exact hsub _ h1
  · intro nl ng x st w st' l nl' ng' x' w' hj hs
    have hafter : ∀ w1 l1 g e, (∃ l, w1.loss.getLast? = some l ∧ (false, x, l) ∈ w1.log) →
        afterEval cfg maxAbs sumAbs (closures P) fuel nl ng st l1 g e (x, w1) = some (.done st' l nl' ng', (x', w')) →
        ∃ l, w'.loss.getLast? = some l ∧ (false, x', l) ∈ w'.log := by
      intro w1 l1 g e hw ha
      obtain ⟨rfl, ⟨rfl, rfl, -⟩ | ⟨hpos, hp⟩⟩ := afterEval_done cfg maxAbs sumAbs (closures P) fuel e l1 g nl ng st x w1 htol _ _ _ _ _ _ ha
      · exact hw
      · obtain ⟨st1, d, -, hd, h1 | h1 | h1 | h1⟩ := pass_stop cfg maxAbs sumAbs (closures P) fuel 1 e l g nl ng _ st x w1 htol _ _ _ _ _ hp
        · obtain ⟨-, rfl, rfl, -⟩ := h1
          exact hw
        · rw [hb] at h1; exact absurd h1.2.1 (by simp)
        · exact absurd h1.2.1.symm hmi
        · obtain ⟨-, -, -, ⟨l', g', hm, -⟩, -⟩ := h1
          obtain ⟨c1, c2, -⟩ := log_closure P x' w1 l' g' w' hm
          exact ⟨l', by rw [c1]; simp, by rw [c2]; simp⟩
    have hfresh : ∀ l1 g w1, closure P x w = (some (l1, g), w1) →
        afterEval cfg maxAbs sumAbs (closures P) fuel nl ng st l1 g 1 (x, w1) = some (.done st' l nl' ng', (x', w')) →
        ∃ l, w'.loss.getLast? = some l ∧ (false, x', l) ∈ w'.log := by
      intro l1 g w1 hc hm
      obtain ⟨c1, c2, -⟩ := log_closure P x w l1 g w1 hc
      exact hafter w1 l1 g 1 ⟨l1, by rw [c1]; simp, by rw [c2]; simp⟩ hm
    unfold step2c at hs
    rcases nl with _ | v
    · rcases hc : closure P x w with ⟨_ | ⟨l1, g⟩, w1⟩
      · have hc' : (closures P).main x w = (none, w1) := hc
        simp only [hc'] at hs; exact absurd hs (by simp)
      · have hc' : (closures P).main x w = (some (l1, g), w1) := hc
        simp only [hc'] at hs
        exact hfresh _ _ _ hc hs
    · rcases ng with _ | g
      · rcases hc : closure P x w with ⟨_ | ⟨l1, g⟩, w1⟩
        · have hc' : (closures P).main x w = (none, w1) := hc
          simp only [hc'] at hs; exact absurd hs (by simp)
        · have hc' : (closures P).main x w = (some (l1, g), w1) := hc
          simp only [hc'] at hs
          exact hfresh _ _ _ hc hs
      · have hw : ∃ l, w.loss.getLast? = some l ∧ (false, x, l) ∈ w.log := by
          rcases hj with ⟨h, -⟩ | hj
          · exact absurd h (by simp)
          · exact hj
        exact hafter w _ _ 0 hw hs
  · rintro nl ng x st w k l ⟨l', h1, h2⟩ hl
    rw [h1, Option.some.injEq] at hl
    subst hl
    exact h2

end Verif.Loop
