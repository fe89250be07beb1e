import Verif.Ctm.RunModel
/-
Property C25.
-/
namespace Verif.Ctm
variable {E H : Type}

namespace Spec
/-- The moves of one iteration: every direction in the configured order, horizontal ones `lX` times, vertical ones `lY` times. -/
def sweep (lX lY : Nat) : List Dir → List Dir
  | [] => []
  | .up :: ds => List.replicate lY .up ++ sweep lX lY ds
  | .down :: ds => List.replicate lY .down ++ sweep lX lY ds
  | .left :: ds => List.replicate lX .left ++ sweep lX lY ds
  | .right :: ds => List.replicate lX .right ++ sweep lX lY ds

/-- `env'` results from `env` by the moves `ds`, one after the other, none of which fails. -/
inductive Moves (mv : Dir → E → Except Err E) : List Dir → E → E → Prop
  | nil (env : E) : Moves mv [] env env
  | cons {d : Dir} {ds : List Dir} {env env1 env2 : E} : mv d env = .ok env1 → Moves mv ds env1 env2 → Moves mv (d :: ds) env env2

/-- `n` times the moves `ds`. -/
inductive Times (mv : Dir → E → Except Err E) (ds : List Dir) : Nat → E → E → Prop
  | zero (env : E) : Times mv ds 0 env env
  | succ {n : Nat} {env env1 env2 : E} : Moves mv ds env env1 → Times mv ds n env1 env2 → Times mv ds (n + 1) env env2

/-- A run of the main loop: environments `e 0, …, e n` and histories `h 0, …, h n`, iteration `k` performing the moves `ds` and then one
convergence check; no check before the last says "converged". -/
structure Loop (mv : Dir → E → Except Err E) (ds : List Dir) (f : E → Option H → Bool × H) (env : E) (n : Nat) (e : Nat → E) (h : Nat → Option H) : Prop where
  e0 : e 0 = env
  h0 : h 0 = none
  step : ∀ k < n, Moves mv ds (e k) (e (k + 1))
  check : ∀ k < n, h (k + 1) = some (f (e (k + 1)) (h k)).2
  go_on : ∀ k, k + 1 < n → (f (e (k + 1)) (h k)).1 = false
end Spec
open Spec

theorem moves_iff (mv : Dir → E → Except Err E) (ds : List Dir) (env env' : E) :
    ds.foldlM (fun env d => mv d env) env = .ok env' ↔ Moves mv ds env env' := by
  induction ds generalizing env with
  | nil =>
    constructor
    · intro h; simp [pure, Except.pure] at h; subst h; exact .nil _
    · intro h; cases h; rfl
  | cons d ds ih =>
    rw [List.foldlM_cons]
    constructor
    · intro h
      cases hd : mv d env with
      | error e => rw [hd] at h; cases h
      | ok env1 => rw [hd] at h; exact .cons hd ((ih env1).1 h)
    · intro h
      cases h with
      | cons h1 h2 => rw [h1]; exact (ih _).2 h2

theorem foldlM_replicate (mv : Dir → E → Except Err E) (d : Dir) (n : Nat) (env : E) :
    (List.range n).foldlM (fun env _ => mv d env) env = (List.replicate n d).foldlM (fun env d => mv d env) env := by
  have : ∀ l : List Nat, l.foldlM (fun env _ => mv d env) env = (List.replicate l.length d).foldlM (fun env d => mv d env) env := by
    intro l
    induction l generalizing env with
    | nil => rfl
    | cons a l ih =>
      rw [List.length_cons, List.replicate_succ, List.foldlM_cons, List.foldlM_cons]
      cases mv d env with
      | error e => rfl
      | ok e => exact ih e
  simpa using this (List.range n)

theorem ctmrgIter_eq (mv : Dir → E → Except Err E) (lX lY : Nat) (seq : List Dir) (env : E) :
    ctmrgIter mv lX lY seq env = (sweep lX lY seq).foldlM (fun env d => mv d env) env := by
  unfold ctmrgIter
  simp only [foldlM_replicate]
  induction seq generalizing env with
  | nil => rfl
  | cons d ds ih =>
    rw [List.foldlM_cons]
    cases d <;> simp only [sweep, List.foldlM_append] <;> simp only [reduceCtorEq, or_self, or_true, true_or, if_true, if_false] <;>
      congr 1 <;> funext e <;> exact ih e

theorem warmup_iff (mv : Dir → E → Except Err E) (lX lY : Nat) (seq : List Dir) (n : Nat) (env env' : E) :
    warmup (ctmrgIter mv lX lY seq) n env = .ok env' ↔ Times mv (sweep lX lY seq) n env env' := by
  have : ∀ l : List Nat, l.foldlM (fun env _ => ctmrgIter mv lX lY seq env) env = .ok env' ↔ Times mv (sweep lX lY seq) l.length env env' := by
    intro l
    induction l generalizing env with
    | nil =>
      constructor
      · intro h; simp [pure, Except.pure] at h; subst h; exact .zero _
      · intro h; cases h; rfl
    | cons a l ih =>
      rw [List.foldlM_cons]
      constructor
      · intro h
        cases hd : ctmrgIter mv lX lY seq env with
        | error e => rw [hd] at h; cases h
        | ok env1 =>
          rw [hd] at h
          rw [ctmrgIter_eq] at hd
          exact .succ ((moves_iff _ _ _ _).1 hd) ((ih env1).1 h)
      · intro h
        cases h with
        | succ h1 h2 => rw [ctmrgIter_eq, (moves_iff _ _ _ _).2 h1]; exact (ih _).2 h2
  simpa [warmup] using this (List.range n)

theorem mainLoop_conv {it : E → Except Err E} {mv : Dir → E → Except Err E} {ds : List Dir} (hit : ∀ e, it e = ds.foldlM (fun env d => mv d env) e)
    (f : E → Option H → Bool × H) (m : Nat) (env env' : E) (h0 h' : Option H) (hr : mainLoop it (some f) m env h0 = .ok (env', h')) :
    ∃ n ≤ m, ∃ (e : Nat → E) (h : Nat → Option H), e 0 = env ∧ h 0 = h0 ∧ (∀ k < n, Moves mv ds (e k) (e (k + 1))) ∧
      (∀ k < n, h (k + 1) = some (f (e (k + 1)) (h k)).2) ∧ (∀ k, k + 1 < n → (f (e (k + 1)) (h k)).1 = false) ∧
      e n = env' ∧ h n = h' ∧ (n < m → 0 < n ∧ (f (e n) (h (n - 1))).1 = true) := by
  induction m generalizing env h0 with
  | zero =>
    simp [mainLoop] at hr
    exact ⟨0, le_refl _, fun _ => env, fun _ => h0, rfl, rfl, by simp, by simp, by simp, hr.1, hr.2, by simp⟩
  | succ m ih =>
    unfold mainLoop at hr
    cases hi : it env with
    | error e => simp [hi, bind, Except.bind] at hr
    | ok env1 =>
      simp only [hi, bind, Except.bind] at hr
      have hm1 : Moves mv ds env env1 := (moves_iff _ _ _ _).1 (hit env ▸ hi)
      by_cases hc : (f env1 h0).1 = true
      · simp only [hc, if_true, pure, Except.pure, Except.ok.injEq, Prod.mk.injEq] at hr
        refine ⟨1, by omega, fun k => if k = 0 then env else env1, fun k => if k = 0 then h0 else some (f env1 h0).2, rfl, rfl, ?_, ?_, ?_, hr.1, hr.2, ?_⟩
        · intro k hk; obtain rfl : k = 0 := by omega
          simpa using hm1
        · intro k hk; obtain rfl : k = 0 := by omega
          simp
        · intro k hk; omega
        · intro _; simpa using hc
      · simp only [hc, Bool.false_eq_true, if_false] at hr
        obtain ⟨n, hn, e, h, e0, h0', s, c, g, en, hn', last⟩ := ih env1 _ hr
        refine ⟨n + 1, by omega, fun k => if k = 0 then env else e (k - 1), fun k => if k = 0 then h0 else h (k - 1), rfl, rfl, ?_, ?_, ?_, by simpa using en, by simpa using hn', ?_⟩
        · intro k hk
          rcases Nat.eq_zero_or_pos k with rfl | hk0
          · simpa [e0] using hm1
          · have := s (k - 1) (by omega)
            rw [Nat.sub_add_cancel hk0] at this
            simpa [hk0.ne'] using this
        · intro k hk
          rcases Nat.eq_zero_or_pos k with rfl | hk0
          · simp [e0, h0']
          · have := c (k - 1) (by omega)
            rw [Nat.sub_add_cancel hk0] at this
            simpa [hk0.ne'] using this
        · intro k hk
          rcases Nat.eq_zero_or_pos k with rfl | hk0
          · simpa [e0] using hc
          · have := g (k - 1) (by omega)
            rw [Nat.sub_add_cancel hk0] at this
            simpa [hk0.ne'] using this
        · intro hlt
          obtain ⟨hn0, hl⟩ := last (by omega)
          exact ⟨by omega, by simpa [hn0.ne'] using hl⟩

theorem mainLoop_none {it : E → Except Err E} {mv : Dir → E → Except Err E} {ds : List Dir} (hit : ∀ e, it e = ds.foldlM (fun env d => mv d env) e)
    (m : Nat) (env env' : E) (h0 h' : Option H) (hr : mainLoop it none m env h0 = .ok (env', h')) : Times mv ds m env env' ∧ h' = h0 := by
  induction m generalizing env with
  | zero => simp [mainLoop] at hr; obtain ⟨rfl, rfl⟩ := hr; exact ⟨.zero _, rfl⟩
  | succ m ih =>
    unfold mainLoop at hr
    cases hi : it env with
    | error e => simp [hi, bind, Except.bind] at hr
    | ok env1 =>
      simp only [hi, bind, Except.bind] at hr
      obtain ⟨h1, h2⟩ := ih env1 hr
      exact ⟨.succ ((moves_iff _ _ _ _).1 (hit env ▸ hi)) h1, h2⟩

/-- **C25**, with a convergence function. A completed `run` performed the warm-up (if configured) and then `n ≤ ctm_max_iter` iterations,
each consisting of exactly the moves of `sweep` followed by one convergence check; it stopped at the first check that said so, or after
`ctm_max_iter` iterations. -/
theorem C25_run (mv mvW : Dir → E → Except Err E) (a : RunArgs) (lX lY chi maxD : Nat) (f : E → Option H → Bool × H) (env env' : E) (h' : Option H)
    (hr : run mv mvW a lX lY chi maxD (some f) env = .ok (env', h')) :
    ∃ env0, Times mvW (sweep lX lY a.seq) (if 0 ≤ a.warm then warmIters a.warm chi maxD else 0) env env0 ∧
      ∃ n ≤ a.maxIter, ∃ e h, Loop mv (sweep lX lY a.seq) f env0 n e h ∧ e n = env' ∧ h n = h' ∧
        (n < a.maxIter → 0 < n ∧ (f (e n) (h (n - 1))).1 = true) := by
  unfold run at hr
  split at hr
  · rename_i hw
    cases hwu : warmup (ctmrgIter mvW lX lY a.seq) (warmIters a.warm chi maxD) env with
    | error e => simp [hwu, bind, Except.bind] at hr
    | ok env0 =>
      simp only [hwu, bind, Except.bind] at hr
      obtain ⟨n, hn, e, h, e0, h0', s, c, g, en, hn', last⟩ := mainLoop_conv (ctmrgIter_eq mv lX lY a.seq) f _ _ _ _ _ hr
      exact ⟨env0, by rw [if_pos hw]; exact (warmup_iff _ _ _ _ _ _ _).1 hwu, n, hn, e, h, ⟨e0, h0', s, c, g⟩, en, hn', last⟩
  · rename_i hw
    obtain ⟨n, hn, e, h, e0, h0', s, c, g, en, hn', last⟩ := mainLoop_conv (ctmrgIter_eq mv lX lY a.seq) f _ _ _ _ _ hr
    exact ⟨env, by rw [if_neg hw]; exact .zero _, n, hn, e, h, ⟨e0, h0', s, c, g⟩, en, hn', last⟩

/-- **C25**, without a convergence function: exactly `ctm_max_iter` iterations, no history. -/
theorem C25_run_no_check (mv mvW : Dir → E → Except Err E) (a : RunArgs) (lX lY chi maxD : Nat) (env env' : E) (h' : Option H)
    (hr : run mv mvW a lX lY chi maxD none env = .ok (env', h')) :
    ∃ env0, Times mvW (sweep lX lY a.seq) (if 0 ≤ a.warm then warmIters a.warm chi maxD else 0) env env0 ∧
      Times mv (sweep lX lY a.seq) a.maxIter env0 env' ∧ h' = none := by
  unfold run at hr
  split at hr
  · rename_i hw
    cases hwu : warmup (ctmrgIter mvW lX lY a.seq) (warmIters a.warm chi maxD) env with
    | error e => simp [hwu, bind, Except.bind] at hr
    | ok env0 =>
      simp only [hwu, bind, Except.bind] at hr
      obtain ⟨h1, h2⟩ := mainLoop_none (ctmrgIter_eq mv lX lY a.seq) _ _ _ _ _ hr
      exact ⟨env0, by rw [if_pos hw]; exact (warmup_iff _ _ _ _ _ _ _).1 hwu, h1, h2⟩
  · rename_i hw
    obtain ⟨h1, h2⟩ := mainLoop_none (ctmrgIter_eq mv lX lY a.seq) _ _ _ _ _ hr
    exact ⟨env, by rw [if_neg hw]; exact .zero _, h1, h2⟩

/-- **C25**: the number of warm-up iterations is at least `ctm_warmup_iter`, and enough for `chi ≤ iterations * maxD²`; it is one of the two. -/
theorem C25_warmup (w : Int) (hw : 0 ≤ w) (chi maxD : Nat) (hD : 0 < maxD) :
    w ≤ warmIters w chi maxD ∧ chi ≤ warmIters w chi maxD * maxD ^ 2 ∧
    (∀ n : Nat, w ≤ n → chi ≤ n * maxD ^ 2 → warmIters w chi maxD ≤ n) := by
  have h2 : 0 < maxD ^ 2 := by positivity
  refine ⟨?_, ?_, fun n h1 h3 => ?_⟩
  · unfold warmIters; omega
  · have : chi ≤ (chi + maxD ^ 2 - 1) / maxD ^ 2 * maxD ^ 2 := by
      have := Nat.div_add_mod (chi + maxD ^ 2 - 1) (maxD ^ 2)
      have hm := Nat.mod_lt (chi + maxD ^ 2 - 1) h2
      rw [mul_comm] at this
      omega
    exact this.trans (Nat.mul_le_mul_right _ (le_max_right _ _))
  · unfold warmIters
    refine max_le (by omega) ?_
    have : (chi + maxD ^ 2 - 1) / maxD ^ 2 < n + 1 := by
      rw [Nat.div_lt_iff_lt_mul h2, Nat.succ_mul]
      omega
    omega

/-- **C25**: `run_overlap` performs one move per entry of the sequence, not `lX` or `lY`. -/
theorem C25_run_overlap (mv : Dir → E → Except Err E) (a : RunArgs) (f : E → Option H → Bool × H) (env env' : E) (h' : Option H)
    (hr : runOverlap mv a (some f) env = .ok (env', h')) :
    ∃ n ≤ a.maxIter, ∃ e h, Loop mv a.seq f env n e h ∧ e n = env' ∧ h n = h' ∧ (n < a.maxIter → 0 < n ∧ (f (e n) (h (n - 1))).1 = true) := by
  obtain ⟨n, hn, e, h, e0, h0', s, c, g, en, hn', last⟩ := mainLoop_conv (fun _ => rfl) f _ _ _ _ _ hr
  exact ⟨n, hn, e, h, ⟨e0, h0', s, c, g⟩, en, hn', last⟩

/-- **C25**: a failing move ends the run with that failure: nothing is skipped silently. -/
theorem C25_error (mv mvW : Dir → E → Except Err E) (a : RunArgs) (lX lY chi maxD : Nat) (f : Option (E → Option H → Bool × H)) (env : E)
    (hw : a.warm < 0) (hm : 0 < a.maxIter) (h : ¬ ∃ env1, Moves mv (sweep lX lY a.seq) env env1) :
    ¬ ∃ r, run mv mvW a lX lY chi maxD f env = .ok r := by
  rintro ⟨⟨r, hh⟩, hr⟩
  apply h
  obtain ⟨m, hm'⟩ : ∃ m, a.maxIter = m + 1 := ⟨a.maxIter - 1, by omega⟩
  simp only [run, not_le.2 hw, if_false, hm', mainLoop, bind, Except.bind] at hr
  cases hi : ctmrgIter mv lX lY a.seq env with
  | error e => simp [hi] at hr
  | ok env1 => rw [ctmrgIter_eq] at hi; exact ⟨env1, (moves_iff _ _ _ _).1 hi⟩

/-- A concrete run: environments are lists of moves, 2 x 1 cell, convergence when the history reaches 3. -/
example : run (fun d (e : List Dir) => .ok (e ++ [d])) (fun d e => .ok (e ++ [d])) ⟨[.up, .left], 10, -1⟩ 2 1 4 2
    (some (fun _ h => (decide (2 ≤ h.getD 0), h.getD 0 + 1))) [] =
    .ok ([.up, .left, .left, .up, .left, .left, .up, .left, .left], some 3) := by rfl

end Verif.Ctm
