import Verif.Optim.LoopLemmas
import Verif.Optim.StepProps
/-
Property C42 (best state file).
-/
namespace Verif.Loop
open Lbfgs

variable {V E : Type}

/-! ### Property C42 -/

/-- The file holds a state evaluated in this run whose loss is not above any of the losses `ls` selects. -/
def Spec.FileBest (w : World V E) (sel : Bool × V × ℝ → Prop) : Prop :=
  ∃ b y f, w.file = some y ∧ (b, y, f) ∈ w.log ∧ ∀ e ∈ w.log, sel e → f ≤ e.2.2

/-- Invariant of the world. -/
structure Inv (w : World V E) : Prop where
  top : w.minLoss ≤ 10 ^ 16
  low : ∀ x l, (false, x, l) ∈ w.log → w.minLoss ≤ l
  file : w.minLoss < 10 ^ 16 → ∃ b y f, w.file = some y ∧ (b, y, f) ∈ w.log ∧ f ≤ w.minLoss
  lossLog : ∀ l ∈ w.loss, ∃ x, (false, x, l) ∈ w.log

theorem inv_init (env : E) (file : Option V) : Inv (World.init env file : World V E) :=
  ⟨le_refl _, by simp [World.init], by simp [World.init], by simp [World.init]⟩

theorem inv_closure (P : Problem V E) (x : V) (w : World V E) (h : Inv w) : Inv (closure P x w).2 := by
  unfold closure
  split
  · exact ⟨h.top, h.low, h.file, h.lossLog⟩
  · rename_i l g e _
    simp only
    split
    · rename_i hl
      refine ⟨?_, ?_, ?_, ?_⟩
      · simp only; linarith [h.top]
      · intro y m hm
        simp only [List.mem_append, List.mem_singleton, Prod.mk.injEq, true_and] at hm
        rcases hm with hm | ⟨-, rfl⟩
        · simp only; linarith [h.low _ _ hm]
        · simp only; exact le_refl _
      · intro _
        exact ⟨false, x, l, rfl, by simp, le_refl _⟩
      · intro m hm
        simp only [List.mem_append, List.mem_singleton] at hm ⊢
        rcases hm with hm | rfl
        · obtain ⟨y, hy⟩ := h.lossLog _ hm
          exact ⟨y, Or.inl hy⟩
        · exact ⟨x, Or.inr rfl⟩
    · rename_i hl
      refine ⟨h.top, ?_, ?_, ?_⟩
      · intro y m hm
        simp only [List.mem_append, List.mem_singleton, Prod.mk.injEq, true_and] at hm
        rcases hm with hm | ⟨-, rfl⟩
        · exact h.low _ _ hm
        · simp only; linarith
      · intro hh
        obtain ⟨b, y, f, h1, h2, h3⟩ := h.file hh
        exact ⟨b, y, f, h1, List.mem_append_left _ h2, h3⟩
      · intro m hm
        simp only [List.mem_append, List.mem_singleton] at hm ⊢
        rcases hm with hm | rfl
        · obtain ⟨y, hy⟩ := h.lossLog _ hm
          exact ⟨y, Or.inl hy⟩
        · exact ⟨x, Or.inr rfl⟩

theorem inv_closureLs (P : Problem V E) (x : V) (w : World V E) (h : Inv w) : Inv (closureLs P x w).2 := by
  unfold closureLs
  split
  · exact ⟨h.top, h.low, h.file, h.lossLog⟩
  · rename_i l e _
    have hlow : ∀ (y : V) (m : ℝ), (false, y, m) ∈ w.log ++ [(true, x, l)] → w.minLoss ≤ m := by
      intro y m hm
      simp only [List.mem_append, List.mem_singleton, Prod.mk.injEq, Bool.false_eq_true, false_and, or_false] at hm
      exact h.low _ _ hm
    have hll : ∀ m ∈ w.loss, ∃ y : V, (false, y, m) ∈ w.log ++ [(true, x, l)] := by
      intro m hm
      obtain ⟨y, hy⟩ := h.lossLog _ hm
      exact ⟨y, List.mem_append_left _ hy⟩
    have hfile : w.minLoss < 10 ^ 16 → ∃ (b : Bool) (y : V) (f : ℝ), w.file = some y ∧ (b, y, f) ∈ w.log ++ [(true, x, l)] ∧ f ≤ w.minLoss := by
      intro hh
      obtain ⟨b, y, f, h1, h2, h3⟩ := h.file hh
      exact ⟨b, y, f, h1, List.mem_append_left _ h2, h3⟩
    simp only
    split
    · split
      · rename_i hl
        exact ⟨h.top, hlow, fun _ => ⟨true, x, l, rfl, by simp, le_of_lt hl⟩, hll⟩
      · exact ⟨h.top, hlow, hfile, hll⟩
    · exact ⟨h.top, hlow, hfile, hll⟩

variable [NormedAddCommGroup V] [InnerProductSpace ℝ V]

theorem store_w (k : Nat) (r : Run V E) : (store k r).w = r.w ∧ (store k r).x = r.x ∧ (store k r).st = r.st ∧
    (store k r).nl = r.nl ∧ (store k r).ng = r.ng := by
  unfold store
  split <;> exact ⟨rfl, rfl, rfl, rfl, rfl⟩

/-- An invariant of the world kept by the closures and by the resetting of the line-search history holds after a run. -/
theorem epochs_world (cfg : Cfg) (maxAbs sumAbs : V → ℝ) (P : Problem V E) (fuel : Nat) (I : World V E → Prop)
    (hm : ∀ x w, I w → I (closure P x w).2) (hl : cfg.backtracking = true → ∀ x w, I w → I (closureLs P x w).2)
    (hr : ∀ w : World V E, I w → I { w with lossLs := [], minLossLs := 10 ^ 16 }) :
    ∀ (n k : Nat) (r r' : Run V E) (f : Flow), I r.w → epochs cfg maxAbs sumAbs P fuel n k r = some (r', f) → I r'.w := by
  intro n
  induction n with
  | zero =>
    intro k r r' f hi h
    simp only [epochs, Option.some.injEq, Prod.mk.injEq] at h
    rw [← h.1]; exact hi
  | succ n ih =>
    intro k r r' f hi h
    have key : ∀ r1 f1, epoch cfg maxAbs sumAbs P fuel k r = some (r1, f1) → I r1.w := by
      intro r1 f1 h1
      unfold epoch at h1
      simp only at h1
      have hi' : I (if k > 0 then store k r else r).w := by
        split
        · rw [(store_w k r).1]; exact hi
        · exact hi
      generalize (if k > 0 then store k r else r) = r0 at h1 hi'
      have hw := fun o xw' => step2c_world cfg maxAbs sumAbs (closures P) I hm hl fuel r0.nl r0.ng r0.st (r0.x, r0.w) o xw' hi'
      split at h1
      · exact absurd h1 (by simp)
      · rename_i hs
        have := hw _ _ hs
        split at h1
        all_goals
          simp only [Option.some.injEq, Prod.mk.injEq] at h1
          rw [← h1.1]; exact this
      · rename_i hs
        have := hw _ _ hs
        simp only [Option.some.injEq, Prod.mk.injEq] at h1
        rw [← h1.1]; exact hr _ this
    unfold epochs at h
    split at h
    · exact absurd h (by simp)
    · rename_i r1 he
      exact ih _ _ _ _ (key _ _ he) h
    · rename_i r1 f1 _ he
      simp only [Option.some.injEq, Prod.mk.injEq] at h
      rw [← h.1]; exact key _ _ he

theorem optimize_world (cfg : Cfg) (maxAbs sumAbs : V → ℝ) (P : Problem V E) (fuel : Nat) (I : World V E → Prop)
    (hm : ∀ x w, I w → I (closure P x w).2) (hl : cfg.backtracking = true → ∀ x w, I w → I (closureLs P x w).2)
    (hr : ∀ w : World V E, I w → I { w with lossLs := [], minLossLs := 10 ^ 16 })
    (n : Nat) (r r' : Run V E) (f : Flow) (hi : I r.w) (h : optimize cfg maxAbs sumAbs P fuel n r = some (r', f)) : I r'.w := by
  unfold optimize at h
  split at h
  · exact absurd h (by simp)
  · rename_i he
    simp only [Option.some.injEq, Prod.mk.injEq] at h
    rw [← h.1]; exact epochs_world cfg maxAbs sumAbs P fuel I hm hl hr _ _ _ _ _ hi he
  · rename_i he
    simp only [Option.some.injEq, Prod.mk.injEq] at h
    rw [← h.1, (store_w _ _).1]; exact epochs_world cfg maxAbs sumAbs P fuel I hm hl hr _ _ _ _ _ hi he

theorem inv_run (cfg : Cfg) (maxAbs sumAbs : V → ℝ) (P : Problem V E) (fuel n : Nat) (x : V) (st : St V) (env : E)
    (file : Option V) (r : Run V E) (f : Flow)
    (h : optimize cfg maxAbs sumAbs P fuel n ⟨x, st, none, none, World.init env file, []⟩ = some (r, f)) : Inv r.w :=
  optimize_world cfg maxAbs sumAbs P fuel Inv (inv_closure P) (fun _ => inv_closureLs P)
    (fun _ h => ⟨h.top, h.low, h.file, h.lossLog⟩) n _ r f (inv_init env file) h

/-- Every run, with or without line search, ended normally or by an exception: if the gradient closure was evaluated with a
loss below `1e16`, the file holds a state evaluated in this run whose loss is at most the loss of every evaluation of the
gradient closure. Line-search evaluations are not covered: see `C42_violated`. -/
theorem C42_best_partial (cfg : Cfg) (maxAbs sumAbs : V → ℝ) (P : Problem V E) (fuel n : Nat) (x : V) (st : St V) (env : E)
    (file : Option V) (r : Run V E) (f : Flow)
    (h : optimize cfg maxAbs sumAbs P fuel n ⟨x, st, none, none, World.init env file, []⟩ = some (r, f))
    (hev : ∃ y l, (false, y, l) ∈ r.w.log ∧ l < 10 ^ 16) :
    Spec.FileBest r.w (fun e => e.1 = false) := by
  have hi := inv_run cfg maxAbs sumAbs P fuel n x st env file r f h
  obtain ⟨y, l, hy, hl⟩ := hev
  obtain ⟨b, z, v, h1, h2, h3⟩ := hi.file (lt_of_le_of_lt (hi.low _ _ hy) hl)
  refine ⟨b, z, v, h1, h2, ?_⟩
  rintro ⟨b', y', l'⟩ he hb
  simp only at hb; subst hb
  exact le_trans h3 (hi.low _ _ he)

/-- Without line search the file holds the best state of all evaluations. -/
theorem C42_best_no_line_search (cfg : Cfg) (maxAbs sumAbs : V → ℝ) (P : Problem V E) (fuel n : Nat) (x : V) (st : St V) (env : E)
    (file : Option V) (r : Run V E) (f : Flow) (hb : cfg.backtracking = false)
    (h : optimize cfg maxAbs sumAbs P fuel n ⟨x, st, none, none, World.init env file, []⟩ = some (r, f))
    (hev : ∃ e ∈ r.w.log, e.2.2 < 10 ^ 16) :
    Spec.FileBest r.w (fun _ => True) := by
  have hall : ∀ e ∈ r.w.log, e.1 = false := by
    refine optimize_world cfg maxAbs sumAbs P fuel (fun w => ∀ e ∈ w.log, e.1 = false) ?_ (by simp [hb]) (fun _ h => h) n _ r f (by simp [World.init]) h
    intro y w hw
    unfold closure
    split
    · exact hw
    · have hw' : ∀ (l : ℝ), ∀ e ∈ w.log ++ [(false, y, l)], e.1 = false := by
        intro l e he
        simp only [List.mem_append, List.mem_singleton] at he
        rcases he with he | rfl
        · exact hw _ he
        · rfl
      simp only
      split <;> exact hw' _
  obtain ⟨⟨b, y, l⟩, he, hl⟩ := hev
  have := hall _ he
  simp only at this; subst this
  obtain ⟨b, z, v, h1, h2, h3⟩ := C42_best_partial cfg maxAbs sumAbs P fuel n x st env file r f h ⟨y, l, he, hl⟩
  exact ⟨b, z, v, h1, h2, fun e he _ => h3 e he (hall e he)⟩

/-! Concrete runs in one dimension. -/

/-- `L(x) = x` with a given gradient; the environment is trivial. -/
noncomputable def linear : Problem ℝ Unit := ⟨fun x e => (some (x, 1), e), fun x e => (some x, e), fun _ x => x⟩

/-- Plain gradient steps of length one. -/
noncomputable def cfgPlain : Cfg := ⟨1, 1, 10, 1 / 10 ^ 5, 1 / 10 ^ 9, 10, false, 1 / 10 ^ 8⟩

theorem not_stop_one {cfg : Cfg} {r : Run ℝ Unit} (a : ℝ) (h1 : r.w.loss = [a]) (h2 : r.ng = none)
    (h3 : ∃ d t, r.st.d = some d ∧ r.st.t = some t ∧ ¬ |t • d| ≤ cfg.tolChange) : stopFlow cfg (fun x : ℝ => |x|) r = .cont := by
  refine if_neg ?_
  rintro (⟨pre, b, c, h, -⟩ | ⟨g, h, -⟩ | ⟨d, t, h, h', h''⟩)
  · rw [h1] at h
    have := congrArg List.length h
    simp at this
  · rw [h2] at h; exact absurd h (by simp)
  · obtain ⟨d', t', k1, k2, k3⟩ := h3
    rw [k1] at h; rw [k2] at h'
    simp only [Option.some.injEq] at h h'
    subst h; subst h'
    exact k3 h''

theorem not_stop_two {cfg : Cfg} {r : Run ℝ Unit} (a b : ℝ) (h1 : r.w.loss = [a, b]) (hab : ¬ |b - a| < cfg.tolChange) (h2 : r.ng = none)
    (h3 : ∃ d t, r.st.d = some d ∧ r.st.t = some t ∧ ¬ |t • d| ≤ cfg.tolChange) : stopFlow cfg (fun x : ℝ => |x|) r = .cont := by
  refine if_neg ?_
  rintro (⟨pre, b', c, h, hh⟩ | ⟨g, h, -⟩ | ⟨d, t, h, h', h''⟩)
  · rw [h1] at h
    have hl := congrArg List.length h
    simp at hl
    subst hl
    simp at h
    rw [← h.1, ← h.2] at hh
    exact hab hh
  · rw [h2] at h; exact absurd h (by simp)
  · obtain ⟨d', t', k1, k2, k3⟩ := h3
    rw [k1] at h; rw [k2] at h'
    simp only [Option.some.injEq] at h h'
    subst h; subst h'
    exact k3 h''

/-- State of the optimizer after the first and the second step on `linear`. -/
noncomputable def stA : St ℝ := ⟨1, some (-1), some 1, [], [], [], 1, some 1, some 0, none⟩
noncomputable def stB (l : ℝ) : St ℝ := ⟨2, some (-1), some 1, [], [], [], 1, some 1, some l, some (List.replicate 10 none)⟩

theorem linear_step1 (x : ℝ) (w : World ℝ Unit) :
    step2c cfgPlain (fun x => |x|) (fun x => |x|) (closures linear) 0 none none St.init (x, w) =
      some (.done ⟨1, some (-1), some 1, [], [], [], 1, some 1, some x, none⟩ x none none, (x - 1, (closure linear x w).2)) := by
  norm_num [step2c, afterEval, closures, linear, closure, cfgPlain, passes, pass, finish, initStep, direction, St.init, inner]
  ring_nf

theorem linear_step2 (x l : ℝ) (w : World ℝ Unit) :
    step2c cfgPlain (fun x => |x|) (fun x => |x|) (closures linear) 0 none none ⟨1, some (-1), some 1, [], [], [], 1, some 1, some l, none⟩ (x, w) =
      some (.done (stB x) x none none, (x - 1, (closure linear x w).2)) := by
  norm_num [step2c, afterEval, closures, linear, closure, cfgPlain, passes, pass, finish, initStep, direction, updateMemory, twoLoop, inner, stB]
  ring_nf

/-- Two epochs on `linear`. -/
theorem linear_run : optimize cfgPlain (fun x => |x|) (fun x => |x|) linear 0 2 (Run.init 0 () none) =
    some (⟨-2, stB (-1), none, none, ⟨(), [0, -1], -1, [], 10 ^ 16, some (-1), [(false, 0, 0), (false, -1, -1)]⟩,
      [⟨1, -1, 0, stA⟩, ⟨2, -2, -1, stB (-1)⟩]⟩, .cont) := by
  have e0 : epoch cfgPlain (fun x => |x|) (fun x => |x|) linear 0 0 (Run.init 0 () none) =
      some (⟨-1, stA, none, none, ⟨(), [0], 0, [], 10 ^ 16, some 0, [(false, 0, 0)]⟩, []⟩, .cont) := by
    unfold epoch
    simp only [gt_iff_lt, lt_self_iff_false, if_false, Run.init, linear_step1]
    rw [(not_stop_one 0 (by norm_num [closure, linear, World.init]) rfl ⟨-1, 1, rfl, rfl, by norm_num [cfgPlain]⟩)]
    norm_num [closure, linear, World.init, stA]
  have e1 : epoch cfgPlain (fun x => |x|) (fun x => |x|) linear 0 1 ⟨-1, stA, none, none, ⟨(), [0], 0, [], 10 ^ 16, some 0, [(false, 0, 0)]⟩, []⟩ =
      some (⟨-2, stB (-1), none, none, ⟨(), [0, -1], -1, [], 10 ^ 16, some (-1), [(false, 0, 0), (false, -1, -1)]⟩,
        [⟨1, -1, 0, stA⟩]⟩, .cont) := by
    unfold epoch
    simp only [gt_iff_lt, zero_lt_one, if_true, store, List.getLast?_singleton, List.nil_append, stA, linear_step2]
    rw [(not_stop_two 0 (-1) (by norm_num [closure, linear]) (by norm_num [cfgPlain]) rfl ⟨-1, 1, rfl, rfl, by norm_num [cfgPlain]⟩)]
    norm_num [closure, linear, stB]
  unfold optimize epochs
  rw [e0]
  simp only
  unfold epochs
  rw [e1]
  simp only [epochs, store]
  norm_num

/-- The run meets the hypotheses of `C42_best_no_line_search`. -/
example : ∃ r f, optimize cfgPlain (fun x => |x|) (fun x => |x|) linear 0 2 (Run.init 0 () none) = some (r, f) ∧
    ∃ e ∈ r.w.log, e.2.2 < 10 ^ 16 := ⟨_, _, linear_run, (false, 0, 0), by simp, by norm_num⟩

/-- A loss with values 10 at 0, 5 at -1 and 6 elsewhere; the gradient closure and the line search see the same loss. -/
noncomputable def lossX (x : ℝ) : ℝ := open Classical in if x = 0 then 10 else if x = -1 then 5 else 6

noncomputable def bumpy : Problem ℝ Unit :=
  ⟨fun x e => (some (lossX x, open Classical in if x = 0 then 60000 else 0), e), fun x e => (some (lossX x), e), fun _ x => x⟩

noncomputable def cfgLs : Cfg := ⟨1, 1, 10, 1 / 10 ^ 5, 1 / 10 ^ 9, 10, true, 1 / 10 ^ 8⟩

/-- With the line search the file may hold a state that is not the best one evaluated: here the trial `-1` with loss 5 was
evaluated and written, and then overwritten by a state with loss 6. -/
theorem C42_violated : ∃ r f, optimize cfgLs (fun x => |x|) (fun x => |x|) bumpy 40 2 (Run.init 0 () none) = some (r, f) ∧
    (true, -1, 5) ∈ r.w.log ∧ r.w.file = some (-(6000 / 11999)) ∧ lossX (-(6000 / 11999)) = 6 ∧
    ¬ Spec.FileBest r.w (fun _ => True) := by
  have l0 : lossX 0 = 10 := by simp [lossX]
  have l1 : lossX (-1) = 5 := by norm_num [lossX]
  have l2 : lossX (-(6000 / 11999)) = 6 := by norm_num [lossX]
  have e0 : step2c cfgLs (fun x => |x|) (fun x => |x|) (closures bumpy) 40 none none St.init (0, World.init () none) =
      some (.done ⟨1, some (-60000), some (1 / 119990), [], [], [], 1, some 60000, some 10, none⟩ 10 (some 6) none,
        (-(6000 / 11999), ⟨(), [10], 10, [5, 6], 5, some (-1), [(false, 0, 10), (true, -1, 5), (true, -(6000 / 11999), 6)]⟩)) := by
    norm_num [step2c, afterEval, closures, bumpy, closure, closureLs, cfgLs, passes, pass, finish, initStep, direction, St.init, inner,
      World.init, lsLoop, Armijo.search, dirEval, l0, l1, l2]
  have f0 : stopFlow cfgLs (fun x : ℝ => |x|) (⟨-(6000 / 11999), ⟨1, some (-60000), some (1 / 119990), [], [], [], 1, some 60000, some 10, none⟩, some 6, none,
      ⟨(), [10], 10, [], 10 ^ 16, some (-1), [(false, 0, 10), (true, -1, 5), (true, -(6000 / 11999), 6)]⟩, []⟩ : Run ℝ Unit) = .cont :=
    not_stop_one 10 rfl rfl ⟨_, _, rfl, rfl, by norm_num [cfgLs]⟩
  have e1 : ∀ (st : St ℝ) (w : World ℝ Unit), step2c cfgLs (fun x => |x|) (fun x => |x|) (closures bumpy) 40 (some 6) none st (-(6000 / 11999), w) =
      some (.done st 6 none none, (-(6000 / 11999), (closure bumpy (-(6000 / 11999)) w).2)) := by
    intro st w
    norm_num [step2c, afterEval, closures, bumpy, closure, cfgLs, l2]
  have run : ∃ f, optimize cfgLs (fun x => |x|) (fun x => |x|) bumpy 40 2 (Run.init 0 () none) =
      some (⟨-(6000 / 11999), ⟨1, some (-60000), some (1 / 119990), [], [], [], 1, some 60000, some 10, none⟩, none, none,
        ⟨(), [10, 6], 6, [], 10 ^ 16, some (-(6000 / 11999)), [(false, 0, 10), (true, -1, 5), (true, -(6000 / 11999), 6), (false, -(6000 / 11999), 6)]⟩,
        [⟨1, -(6000 / 11999), 10, ⟨1, some (-60000), some (1 / 119990), [], [], [], 1, some 60000, some 10, none⟩⟩,
         ⟨2, -(6000 / 11999), 6, ⟨1, some (-60000), some (1 / 119990), [], [], [], 1, some 60000, some 10, none⟩⟩]⟩, f) := by
    have hc : ∀ w : World ℝ Unit, (closure bumpy (-(6000 / 11999)) w).2 =
        (let w := { w with env := (), loss := w.loss ++ [6], log := w.log ++ [(false, -(6000 / 11999), 6)] }
         if w.minLoss > 6 then { w with minLoss := 6, file := some (-(6000 / 11999)) } else w) := by
      intro w; norm_num [closure, bumpy, l2]
    unfold optimize epochs epoch
    simp only [gt_iff_lt, lt_self_iff_false, if_false, Run.init, e0, f0]
    unfold epochs epoch
    simp only [Nat.zero_add, gt_iff_lt, zero_lt_one, if_true, store, List.getLast?_singleton, List.nil_append, e1, hc]
    norm_num
    have hfl : ∀ r : Run ℝ Unit, stopFlow cfgLs (fun x : ℝ => |x|) r = .brk ∨ stopFlow cfgLs (fun x : ℝ => |x|) r = .cont := by
      intro r; unfold stopFlow; split <;> simp
    generalize hg : stopFlow cfgLs (fun x : ℝ => |x|) _ = fl
    rcases (hg ▸ hfl _ : fl = .brk ∨ fl = .cont) with rfl | rfl <;> simp [epochs]
  obtain ⟨f, hf⟩ := run
  refine ⟨_, f, hf, by simp, rfl, l2, ?_⟩
  rintro ⟨b, y, v, h1, h2, h3⟩
  simp only [Option.some.injEq] at h1
  subst h1
  have h4 := h3 (true, -1, 5) (by simp) trivial
  simp only [List.mem_cons, Prod.mk.injEq, List.not_mem_nil, or_false] at h2
  simp only at h4
  rcases h2 with ⟨-, h, -⟩ | ⟨-, h, -⟩ | ⟨-, -, h⟩ | ⟨-, -, h⟩
  · norm_num at h
  · norm_num at h
  · linarith
  · linarith

end Verif.Loop
