import Verif.Optim.CkptProps
/-
Properties C58 (resuming continues the run), C59 (resuming keeps the best state).
-/
namespace Verif.Loop
open Lbfgs

variable {V E : Type} [NormedAddCommGroup V] [InnerProductSpace ℝ V]

/-- A run of one epoch with two iterations per epoch, for `C43_fixed_step_partial`. -/
example : ∃ (cfg : Cfg) (r : Run ℝ Unit) (f : Flow), 0 < cfg.tolChange ∧ cfg.backtracking = false ∧ cfg.maxIter ≠ 1 ∧
    (∀ x e, (linear.grad x e).1 ≠ none) ∧
    optimize cfg (fun x => |x|) (fun x => |x|) linear 0 1 ⟨0, St.init, none, none, World.init () none, []⟩ = some (r, f) ∧
    ∃ c ∈ r.ckpts, c.x = -1 ∧ c.loss = -1 := by
  have e0 : step2c ⟨1, 2, 10, 1 / 10 ^ 5, 1 / 10 ^ 9, 10, false, 1 / 10 ^ 8⟩ (fun x => |x|) (fun x => |x|) (closures linear) 0 none none St.init (0, World.init () none) =
      some (.done ⟨1, some (-1), some 1, [], [], [], 1, some 1, some 0, none⟩ 0 (some (-1)) (some 1),
        (-1, ⟨(), [0, -1], -1, [], 10 ^ 16, some (-1), [(false, 0, 0), (false, -1, -1)]⟩)) := by
    norm_num [step2c, afterEval, closures, linear, closure, passes, pass, finish, initStep, direction, St.init, inner, World.init]
  have hfl : ∀ cfg (r : Run ℝ Unit), stopFlow cfg (fun x : ℝ => |x|) r = .brk ∨ stopFlow cfg (fun x : ℝ => |x|) r = .cont := by
    intro cfg r; unfold stopFlow; split <;> simp
  refine ⟨⟨1, 2, 10, 1 / 10 ^ 5, 1 / 10 ^ 9, 10, false, 1 / 10 ^ 8⟩,
    ⟨-1, ⟨1, some (-1), some 1, [], [], [], 1, some 1, some 0, none⟩, some (-1), some 1,
      ⟨(), [0, -1], -1, [], 10 ^ 16, some (-1), [(false, 0, 0), (false, -1, -1)]⟩,
      [⟨1, -1, -1, ⟨1, some (-1), some 1, [], [], [], 1, some 1, some 0, none⟩⟩]⟩,
    stopFlow ⟨1, 2, 10, 1 / 10 ^ 5, 1 / 10 ^ 9, 10, false, 1 / 10 ^ 8⟩ (fun x : ℝ => |x|)
      ⟨-1, ⟨1, some (-1), some 1, [], [], [], 1, some 1, some 0, none⟩, some (-1), some 1,
      ⟨(), [0, -1], -1, [], 10 ^ 16, some (-1), [(false, 0, 0), (false, -1, -1)]⟩, []⟩, by norm_num, rfl, by norm_num, by simp [linear], ?_, _, List.mem_singleton.2 rfl, rfl, rfl⟩
  unfold optimize epochs epoch
  simp only [gt_iff_lt, lt_self_iff_false, if_false, e0]
  generalize hg : stopFlow _ (fun x : ℝ => |x|) _ = fl
  rcases (hg ▸ hfl _ _ : fl = .brk ∨ fl = .cont) with rfl | rfl <;> simp [epochs, store]

/-! ### Property C59 -/

/-- A loss equal to 7 at -1 and 0 elsewhere, with gradient one. -/
noncomputable def hump : Problem ℝ Unit :=
  ⟨fun x e => (some (open Classical in if x = -1 then 7 else 0, 1), e), fun x e => (some (open Classical in if x = -1 then 7 else 0), e), fun _ x => x⟩

theorem hump_step (x : ℝ) (w : World ℝ Unit) (hx : x = 0 ∨ x = -1) (st : St ℝ)
    (hst : st = St.init ∨ st = ⟨1, some (-1), some 1, [], [], [], 1, some 1, some 0, none⟩) :
    ∃ st' l, step2c cfgPlain (fun x => |x|) (fun x => |x|) (closures hump) 0 none none st (x, w) =
      some (.done st' l none none, (x - 1, (closure hump x w).2)) ∧
      (st = St.init → x = 0 → st' = ⟨1, some (-1), some 1, [], [], [], 1, some 1, some 0, none⟩) := by
  rcases hx with rfl | rfl <;> rcases hst with rfl | rfl
  all_goals
    norm_num [step2c, afterEval, closures, hump, closure, cfgPlain, passes, pass, finish, initStep, direction, updateMemory, twoLoop, inner, St.init]

/-- A run and its resumption: after the run the file holds the state `0` with loss 0; the run resumed from the checkpoint
overwrites it with the state `-1` with loss 7. -/
theorem C59_violated : ∃ r f c r' f', optimize cfgPlain (fun x => |x|) (fun x => |x|) hump 0 1 (Run.init 0 () none) = some (r, f) ∧
    r.w.file = some 0 ∧ r.ckpts = [c] ∧
    optimize cfgPlain (fun x => |x|) (fun x => |x|) hump 0 1 (Run.resume c () r.w.file) = some (r', f') ∧ r'.w.file = some (-1) ∧
    (hump.grad 0 ()).1.map Prod.fst = some 0 ∧ (hump.grad (-1) ()).1.map Prod.fst = some 7 := by
  have hfl : ∀ cfg (r : Run ℝ Unit), stopFlow cfg (fun x : ℝ => |x|) r = .brk ∨ stopFlow cfg (fun x : ℝ => |x|) r = .cont := by
    intro cfg r; unfold stopFlow; split <;> simp
  obtain ⟨st1, l1, h1, h1'⟩ := hump_step 0 (World.init () none) (Or.inl rfl) St.init (Or.inl rfl)
  have hs1 := h1' rfl rfl
  obtain ⟨st2, l2, h2, -⟩ := hump_step (-1) (World.init () (some 0)) (Or.inr rfl) st1 (Or.inr hs1)
  have c1 : (closure hump 0 (World.init () none)).2 = ⟨(), [0], 0, [], 10 ^ 16, some 0, [(false, 0, 0)]⟩ := by
    norm_num [closure, hump, World.init]
  have c2 : (closure hump (-1) (World.init () (some 0))).2 = ⟨(), [7], 7, [], 10 ^ 16, some (-1), [(false, -1, 7)]⟩ := by
    norm_num [closure, hump, World.init]
  rw [c1] at h1
  rw [c2] at h2
  have r1 : ∃ f, optimize cfgPlain (fun x => |x|) (fun x => |x|) hump 0 1 (Run.init 0 () none) =
      some (⟨-1, st1, none, none, ⟨(), [0], 0, [], 10 ^ 16, some 0, [(false, 0, 0)]⟩, [⟨1, -1, 0, st1⟩]⟩, f) := by
    unfold optimize epochs epoch
    simp only [gt_iff_lt, lt_self_iff_false, if_false, Run.init, h1]
    generalize hg : stopFlow cfgPlain (fun x : ℝ => |x|) _ = fl
    rcases (hg ▸ hfl _ _ : fl = .brk ∨ fl = .cont) with rfl | rfl <;> norm_num [epochs, store]
  have r2 : ∃ f, optimize cfgPlain (fun x => |x|) (fun x => |x|) hump 0 1 (Run.resume ⟨1, -1, 0, st1⟩ () (some 0)) =
      some (⟨-2, st2, none, none, ⟨(), [7], 7, [], 10 ^ 16, some (-1), [(false, -1, 7)]⟩, [⟨1, -2, 7, st2⟩]⟩, f) := by
    unfold optimize epochs epoch
    simp only [gt_iff_lt, lt_self_iff_false, if_false, Run.resume, h2]
    generalize hg : stopFlow cfgPlain (fun x : ℝ => |x|) _ = fl
    rcases (hg ▸ hfl _ _ : fl = .brk ∨ fl = .cont) with rfl | rfl <;> norm_num [epochs, store]
  obtain ⟨f1, hf1⟩ := r1
  obtain ⟨f2, hf2⟩ := r2
  exact ⟨_, f1, _, _, f2, hf1, rfl, rfl, hf2, rfl, by norm_num [hump], by norm_num [hump]⟩

/-! ### Property C58 -/

/-- The loss functions do not depend on the environment left by earlier evaluations (converged environments). -/
structure Spec.EnvFree (P : Problem V E) : Prop where
  grad : ∀ x e e', (P.grad x e).1 = (P.grad x e').1
  ls : ∀ x e e', (P.ls x e).1 = (P.ls x e').1

theorem step_free (cfg : Cfg) (maxAbs sumAbs : V → ℝ) (P : Problem V E) (hP : Spec.EnvFree P) (fuel : Nat) (nl : Option ℝ)
    (ng : Option V) (st : St V) (x : V) (w1 w2 : World V E) :
    (step2c cfg maxAbs sumAbs (closures P) fuel nl ng st (x, w1)).map (fun o => (o.1, o.2.1)) =
      (step2c cfg maxAbs sumAbs (closures P) fuel nl ng st (x, w2)).map (fun o => (o.1, o.2.1)) := by
  let c0 : Closures V Unit := ⟨fun x u => ((P.grad x w1.env).1, u), fun x u => ((P.ls x w1.env).1, u)⟩
  have hsim : Simulates (fun _ : World V E => ()) (closures P) c0 := by
    constructor
    · intro x w
      show ((P.grad x w1.env).1, ()) = ((closure P x w).1, ())
      have := hP.grad x w1.env w.env
      rw [this]
      unfold closure
      rcases P.grad x w.env with ⟨_ | ⟨l, g⟩, e⟩ <;> rfl
    · intro x w
      show ((P.ls x w1.env).1, ()) = ((closureLs P x w).1, ())
      rw [hP.ls x w1.env w.env]
      unfold closureLs
      rcases P.ls x w.env with ⟨_ | l, e⟩ <;> rfl
  have h1 := step2c_map hsim cfg maxAbs sumAbs fuel nl ng st (x, w1)
  have h2 := step2c_map hsim cfg maxAbs sumAbs fuel nl ng st (x, w2)
  simp only at h1 h2
  rw [h1] at h2
  have := congrArg (fun o => o.map (fun o : StepOut V × (V × Unit) => (o.1, o.2.1))) h2
  simp only [Option.map_map] at this
  exact this

/-- `new_loss` is only passed through when no gradient is carried over. -/
theorem step_nl {W : Type} (cfg : Cfg) (maxAbs sumAbs : V → ℝ) (c : Closures V W) (fuel : Nat) (nl nl2 : Option ℝ) (st : St V) (xw : V × W)
    (htol : 0 < cfg.tolChange) (hcfg : cfg.backtracking = true ∨ cfg.maxIter ≤ 1) (st1 : St V) (l1 : ℝ) (nl1 : Option ℝ) (ng1 : Option V) (xw1 : V × W)
    (h : step2c cfg maxAbs sumAbs c fuel nl none st xw = some (.done st1 l1 nl1 ng1, xw1)) :
    ng1 = none ∧ ∃ nl', step2c cfg maxAbs sumAbs c fuel nl2 none st xw = some (.done st1 l1 nl' none, xw1) := by
  have hz : ∀ l : ℝ, |l - l| < cfg.tolChange := by intro l; rw [sub_self, abs_zero]; exact htol
  have hpass : ∀ l g e xw st1 nl1 ng1 xw1 Q, 0 < cfg.maxIter → pass cfg maxAbs sumAbs c fuel 1 e l g nl none Q st xw = some (.stop st1 nl1 ng1, xw1) →
      ng1 = none ∧ ∃ nl', pass cfg maxAbs sumAbs c fuel 1 e l g nl2 none Q st xw = some (.stop st1 nl' none, xw1) := by
    intro l g e xw st1 nl1 ng1 xw1 Q hmi h
    unfold pass at h ⊢
    rcases hdir : direction cfg.histSize st g l with _ | st2
    · rw [hdir] at h; exact absurd h (by simp)
    · rw [hdir] at h
      simp only at h ⊢
      rcases hd : st2.d with _ | d
      · simp only [hd] at h; exact absurd h (by simp)
      · simp only [hd] at h ⊢
        simp only [finish, hz, if_true, ite_self] at h ⊢
        split at h
        · rename_i h1
          rw [if_pos h1]
          simp only [Option.some.injEq, Prod.mk.injEq, Pass.stop.injEq] at h
          obtain ⟨⟨rfl, rfl, rfl⟩, rfl⟩ := h
          exact ⟨rfl, _, rfl⟩
        · rename_i h1
          rw [if_neg h1]
          split at h
          · rename_i hb
            rw [if_pos hb]
            rcases hl : lsLoop c xw.1 d l (inner ℝ g d) cfg.lsEps fuel fuel (initStep cfg sumAbs st2 g) none xw with
              _ | ⟨⟨t, nl1⟩ | _, p, w2⟩
            · rw [hl] at h; exact absurd h (by simp)
            · rw [hl] at h
              simp only [Option.some.injEq, Prod.mk.injEq, Pass.stop.injEq] at h
              obtain ⟨⟨rfl, rfl, rfl⟩, rfl⟩ := h
              exact ⟨rfl, _, rfl⟩
            · rw [hl] at h; exact absurd h (by simp)
          · rename_i hb
            rw [if_neg hb]
            have hm : (1 : Nat) = cfg.maxIter := by
              rcases hcfg with hcfg | hcfg
              · exact absurd hcfg hb
              · omega
            rw [if_pos hm] at h ⊢
            simp only [Option.some.injEq, Prod.mk.injEq, Pass.stop.injEq] at h
            obtain ⟨⟨rfl, rfl, rfl⟩, rfl⟩ := h
            exact ⟨rfl, _, rfl⟩
  have hae : ∀ l g e xw, afterEval cfg maxAbs sumAbs c fuel nl none st l g e xw = some (.done st1 l1 nl1 ng1, xw1) →
      ng1 = none ∧ ∃ nl', afterEval cfg maxAbs sumAbs c fuel nl2 none st l g e xw = some (.done st1 l1 nl' none, xw1) := by
    intro l g e xw h
    unfold afterEval at h ⊢
    split at h
    · rename_i hg
      rw [if_pos hg]
      simp only [Option.some.injEq, Prod.mk.injEq, StepOut.done.injEq] at h
      obtain ⟨⟨rfl, rfl, rfl, rfl⟩, rfl⟩ := h
      exact ⟨rfl, _, rfl⟩
    · rename_i hg
      rw [if_neg hg]
      cases hk : cfg.maxIter with
      | zero =>
        rw [hk] at h
        simp only [passes, Option.some.injEq, Prod.mk.injEq, StepOut.done.injEq] at h
        obtain ⟨⟨rfl, rfl, rfl, rfl⟩, rfl⟩ := h
        exact ⟨rfl, _, rfl⟩
      | succ k =>
        rw [hk, C56_violated cfg maxAbs sumAbs c fuel l g k _ _ _ _ _ htol] at h
        rw [C56_violated cfg maxAbs sumAbs c fuel l g k _ _ _ _ _ htol]
        rcases hp : pass cfg maxAbs sumAbs c fuel 1 e l g nl none (maxAbs g ≤ cfg.tolGrad) st xw with
          _ | ⟨⟨st, nl, ng⟩ | ⟨st, nl, ng, e⟩ | why, p⟩
        · rw [hp] at h; exact absurd h (by simp)
        · rw [hp] at h
          simp only [Option.some.injEq, Prod.mk.injEq, StepOut.done.injEq] at h
          obtain ⟨⟨rfl, rfl, rfl, rfl⟩, rfl⟩ := h
          obtain ⟨rfl, nl', h'⟩ := hpass _ _ _ _ _ _ _ _ _ (by omega) hp
          rw [h']
          exact ⟨rfl, _, rfl⟩
        · exact absurd hp (pass_stops cfg maxAbs sumAbs c fuel _ _ _ _ _ _ _ _ _ htol _ _ _ _ _)
        · rw [hp] at h; exact absurd h (by simp)
  have unf : ∀ nl : Option ℝ, step2c cfg maxAbs sumAbs c fuel nl none st xw = (match c.main xw.1 xw.2 with
      | (none, w) => some (.raised "NoFixedPointError", (xw.1, w))
      | (some (l, g), w) => afterEval cfg maxAbs sumAbs c fuel nl none st l g 1 (xw.1, w)) := by
    intro nl; rcases nl with _ | v <;> rfl
  rw [unf] at h ⊢
  rcases hm : c.main xw.1 xw.2 with ⟨_ | ⟨l, g⟩, w⟩
  · rw [hm] at h; exact absurd h (by simp)
  · rw [hm] at h; exact hae _ _ _ _ h

/-- One epoch of two runs with the same parameters and optimizer state. -/
theorem epoch_free (cfg : Cfg) (maxAbs sumAbs : V → ℝ) (P : Problem V E) (hP : Spec.EnvFree P) (hgr : ∀ x e, (P.grad x e).1 ≠ none)
    (htol : 0 < cfg.tolChange) (hcfg : cfg.backtracking = true ∨ cfg.maxIter ≤ 1) (fuel k k' : Nat)
    (r r' r1 r1' : Run V E) (hx : r.x = r'.x) (hs : r.st = r'.st) (hn : r.ng = none) (hn' : r'.ng = none)
    (h : epoch cfg maxAbs sumAbs P fuel k r = some (r1, .cont)) (h' : epoch cfg maxAbs sumAbs P fuel k' r' = some (r1', .cont)) :
    r1.x = r1'.x ∧ r1.st = r1'.st ∧ r1.ng = none ∧ r1'.ng = none := by
  have hcl : ∀ y w, ((closures P).main y w).1 ≠ none := by
    intro y w hy
    have hy' : (closure P y w).1 = none := hy
    unfold closure at hy'
    split at hy'
    · rename_i e he
      exact hgr y w.env (by rw [he])
    · exact absurd hy' (by simp)
  have key : ∀ k (r r1 : Run V E), epoch cfg maxAbs sumAbs P fuel k r = some (r1, .cont) → r.ng = none →
      ∃ l nl w, step2c cfg maxAbs sumAbs (closures P) fuel r.nl none r.st (r.x, r.w) = some (.done r1.st l nl r1.ng, (r1.x, w)) := by
    intro k r r1 h hn
    unfold epoch at h
    simp only at h
    have hr0 : (if k > 0 then store k r else r).x = r.x ∧ (if k > 0 then store k r else r).st = r.st ∧
        (if k > 0 then store k r else r).nl = r.nl ∧ (if k > 0 then store k r else r).ng = r.ng ∧ (if k > 0 then store k r else r).w = r.w := by
      split
      · obtain ⟨s1, s2, s3, s4, s5⟩ := store_w k r
        exact ⟨s2, s3, s4, s5, s1⟩
      · exact ⟨rfl, rfl, rfl, rfl, rfl⟩
    generalize (if k > 0 then store k r else r) = r0 at h hr0
    obtain ⟨q1, q2, q3, q4, q5⟩ := hr0
    rw [q1, q2, q3, q4, q5, hn] at h
    split at h
    · exact absurd h (by simp)
    · rename_i why x w hs
      rw [if_neg (step_raised cfg maxAbs sumAbs (closures P) fuel _ _ _ _ _ why hcl hs)] at h
      exact absurd h (by simp)
    · rename_i st' l nl' ng' x' w' hs
      simp only [Option.some.injEq, Prod.mk.injEq] at h
      obtain ⟨rfl, -⟩ := h
      exact ⟨l, nl', w', hs⟩
  obtain ⟨l, nl, w, hst⟩ := key k r r1 h hn
  obtain ⟨l', nl', w', hst'⟩ := key k' r' r1' h' hn'
  obtain ⟨e1, nl2, hst2⟩ := step_nl cfg maxAbs sumAbs (closures P) fuel _ r'.nl _ _ htol hcfg _ _ _ _ _ hst
  obtain ⟨e2, -⟩ := step_nl cfg maxAbs sumAbs (closures P) fuel _ r'.nl _ _ htol hcfg _ _ _ _ _ hst'
  have := step_free cfg maxAbs sumAbs P hP fuel r'.nl none r'.st r'.x r.w r'.w
  rw [← hx, ← hs] at this
  rw [← hx, ← hs] at hst'
  rw [hst2, hst'] at this
  simp only [Option.map_some, Option.some.injEq, Prod.mk.injEq, StepOut.done.injEq] at this
  exact ⟨this.2, this.1.1, e1, e2⟩

theorem epochs_free (cfg : Cfg) (maxAbs sumAbs : V → ℝ) (P : Problem V E) (hP : Spec.EnvFree P) (hgr : ∀ x e, (P.grad x e).1 ≠ none)
    (htol : 0 < cfg.tolChange) (hcfg : cfg.backtracking = true ∨ cfg.maxIter ≤ 1) (fuel : Nat) :
    ∀ (n k k' : Nat) (r r' r1 r1' : Run V E), r.x = r'.x → r.st = r'.st → r.ng = none → r'.ng = none →
      epochs cfg maxAbs sumAbs P fuel n k r = some (r1, .cont) → epochs cfg maxAbs sumAbs P fuel n k' r' = some (r1', .cont) →
      r1.x = r1'.x ∧ r1.st = r1'.st ∧ r1.ng = none ∧ r1'.ng = none := by
  have hstep : ∀ (n k : Nat) (r r1 : Run V E), epochs cfg maxAbs sumAbs P fuel (n + 1) k r = some (r1, .cont) →
      ∃ r2, epoch cfg maxAbs sumAbs P fuel k r = some (r2, .cont) ∧ epochs cfg maxAbs sumAbs P fuel n (k + 1) r2 = some (r1, .cont) := by
    intro n k r r1 h
    unfold epochs at h
    split at h
    · exact absurd h (by simp)
    · rename_i r2 he
      exact ⟨r2, he, h⟩
    · rename_i r2 f2 hne he
      simp only [Option.some.injEq, Prod.mk.injEq] at h
      exact absurd h.2 (by intro hf; exact hne (by rw [hf]))
  intro n
  induction n with
  | zero =>
    intro k k' r r' r1 r1' hx hs hn hn' h h'
    simp only [epochs, Option.some.injEq, Prod.mk.injEq] at h h'
    obtain ⟨rfl, -⟩ := h
    obtain ⟨rfl, -⟩ := h'
    exact ⟨hx, hs, hn, hn'⟩
  | succ n ih =>
    intro k k' r r' r1 r1' hx hs hn hn' h h'
    obtain ⟨r2, a1, a2⟩ := hstep n k r r1 h
    obtain ⟨r2', b1, b2⟩ := hstep n k' r' r1' h'
    obtain ⟨c1, c2, c3, c4⟩ := epoch_free cfg maxAbs sumAbs P hP hgr htol hcfg fuel k k' r r' r2 r2' hx hs hn hn' a1 b1
    exact ih _ _ _ _ _ _ c1 c2 c3 c4 a2 b2

theorem epochs_add (cfg : Cfg) (maxAbs sumAbs : V → ℝ) (P : Problem V E) (fuel : Nat) :
    ∀ (n m k : Nat) (r r1 : Run V E), epochs cfg maxAbs sumAbs P fuel n k r = some (r1, .cont) →
      epochs cfg maxAbs sumAbs P fuel (n + m) k r = epochs cfg maxAbs sumAbs P fuel m (k + n) r1 := by
  intro n
  induction n with
  | zero =>
    intro m k r r1 h
    simp only [epochs, Option.some.injEq, Prod.mk.injEq] at h
    obtain ⟨rfl, -⟩ := h
    rw [Nat.zero_add, Nat.add_zero]
  | succ n ih =>
    intro m k r r1 h
    rw [Nat.add_right_comm, epochs]
    rw [epochs] at h
    rcases he : epoch cfg maxAbs sumAbs P fuel k r with _ | ⟨r2, _ | _ | why⟩
    · rw [he] at h; exact absurd h (by simp)
    · rw [he] at h
      simp only at h ⊢
      rw [ih m (k + 1) r2 r1 h, Nat.add_assoc, Nat.add_comm 1 n]
    · rw [he] at h; exact absurd h (by simp)
    · rw [he] at h; exact absurd h (by simp)

/-- A run of `n` epochs is checkpointed at its end; resuming from that checkpoint for `m` epochs gives the parameters and the
optimizer state of the uninterrupted run of `n + m` epochs. For loss functions that depend on the parameters only and do not
raise, with line search or one iteration per epoch, when neither run meets a stopping condition before its last epoch. -/
theorem C58_resume_continues_partial (cfg : Cfg) (maxAbs sumAbs : V → ℝ) (P : Problem V E) (hP : Spec.EnvFree P)
    (hgr : ∀ x e, (P.grad x e).1 ≠ none) (htol : 0 < cfg.tolChange) (hcfg : cfg.backtracking = true ∨ cfg.maxIter ≤ 1) (fuel n m : Nat)
    (x : V) (env env' : E) (file file' : Option V) (r r2 r3 : Run V E) (hn : 0 < n)
    (h1 : optimize cfg maxAbs sumAbs P fuel n (Run.init x env file) = some (r, .cont)) (c : Ckpt V) (hc : r.ckpts.getLast? = some c)
    (h2 : optimize cfg maxAbs sumAbs P fuel m (Run.resume c env' file') = some (r2, .cont))
    (h3 : optimize cfg maxAbs sumAbs P fuel (n + m) (Run.init x env file) = some (r3, .cont)) :
    r2.x = r3.x ∧ r2.st = r3.st := by
  have unf : ∀ n r0 r1, optimize cfg maxAbs sumAbs P fuel n r0 = some (r1, .cont) →
      ∃ r2, epochs cfg maxAbs sumAbs P fuel n 0 r0 = some (r2, .cont) ∧ r1 = store n r2 := by
    intro n r0 r1 h
    unfold optimize at h
    split at h
    · exact absurd h (by simp)
    · exact absurd h (by simp)
    · rename_i r2 f2 _ he
      simp only [Option.some.injEq, Prod.mk.injEq] at h
      obtain ⟨rfl, rfl⟩ := h
      exact ⟨r2, he, rfl⟩
  obtain ⟨s1, e1, rfl⟩ := unf _ _ _ h1
  obtain ⟨s2, e2, rfl⟩ := unf _ _ _ h2
  obtain ⟨s3, e3, rfl⟩ := unf _ _ _ h3
  -- the final checkpoint holds the final parameters and optimizer state
  have hloss : s1.w.loss ≠ [] := by
    obtain ⟨k, rfl⟩ : ∃ k, n = k + 1 := ⟨n - 1, by omega⟩
    -- after the first epoch the loss history is not empty, and it never shrinks
    have hgrow : ∀ (n k : Nat) (r r1 : Run V E) (f : Flow), r.w.loss ≠ [] → epochs cfg maxAbs sumAbs P fuel n k r = some (r1, f) → r1.w.loss ≠ [] := by
      intro n k r r1 f hr h
      refine epochs_world cfg maxAbs sumAbs P fuel (fun w => w.loss ≠ []) ?_ ?_ (fun _ h => h) n k r r1 f hr h
      · intro y w hw
        unfold closure
        split
        · exact hw
        · simp only
          split <;> simp
      · intro _ y w hw
        rw [loss_closureLs]; exact hw
    unfold epochs at e1
    rcases he : epoch cfg maxAbs sumAbs P fuel 0 (Run.init x env file) with _ | ⟨r2, f2⟩
    · rw [he] at e1; exact absurd e1 (by simp)
    · have hr2 : r2.w.loss ≠ [] := by
        unfold epoch at he
        simp only [gt_iff_lt, lt_self_iff_false, if_false, Run.init] at he
        have hstep : ∀ o x' w', step2c cfg maxAbs sumAbs (closures P) fuel none none St.init (x, World.init env file) = some (o, (x', w')) → w'.loss ≠ [] := by
          intro o x' w' hs
          unfold step2c at hs
          rcases hcl : closure P x (World.init env file) with ⟨_ | ⟨l1, g⟩, w1⟩
          · exfalso
            have hy' : (closure P x (World.init env file)).1 = none := by rw [hcl]
            unfold closure at hy'
            split at hy'
            · rename_i e he
              exact hgr x _ (by rw [he])
            · exact absurd hy' (by simp)
          · have hcl' : (closures P).main x (World.init env file) = (some (l1, g), w1) := hcl
            simp only [hcl'] at hs
            obtain ⟨c1, -, -⟩ := log_closure P x _ l1 g w1 hcl
            have hw1 : w1.loss ≠ [] := by rw [c1]; simp
            unfold afterEval at hs
            have hpw := fun o p => passes_world cfg maxAbs sumAbs (closures P) (fun w => w.loss ≠ []) (by
                intro y w hw
                show (closure P y w).2.loss ≠ []
                unfold closure
                split
                · exact hw
                · simp only
                  split <;> simp) (by
                intro _ y w hw
                show (closureLs P y w).2.loss ≠ []
                rw [loss_closureLs]; exact hw) fuel l1 g cfg.maxIter 0 1 none none St.init (x, w1) o p hw1
            split at hs
            · simp only [Option.some.injEq, Prod.mk.injEq] at hs
              rw [← hs.2.2]; exact hw1
            · split at hs
              · exact absurd hs (by simp)
              all_goals
                rename_i hp
                simp only [Option.some.injEq, Prod.mk.injEq] at hs
                have := hpw _ _ hp
                rw [hs.2] at this
                exact this
        split at he
        · exact absurd he (by simp)
        · rename_i hs
          have := hstep _ _ _ hs
          split at he
          all_goals
            simp only [Option.some.injEq, Prod.mk.injEq] at he
            rw [← he.1]; exact this
        · rename_i hs
          have := hstep _ _ _ hs
          simp only [Option.some.injEq, Prod.mk.injEq] at he
          rw [← he.1]; exact this
      rw [he] at e1
      rcases f2 with _ | _ | why
      · exact hgrow _ _ _ _ _ hr2 e1
      · exact absurd e1 (by simp)
      · exact absurd e1 (by simp)
  have hcc : c.x = s1.x ∧ c.st = s1.st := by
    unfold store at hc
    rcases hl : s1.w.loss.getLast? with _ | l
    · exact absurd (List.getLast?_eq_none_iff.1 hl) hloss
    · rw [hl] at hc
      simp only [List.getLast?_append, List.getLast?_singleton, Option.some_or, Option.some.injEq] at hc
      rw [← hc]; exact ⟨rfl, rfl⟩
  rw [epochs_add cfg maxAbs sumAbs P fuel n m 0 _ s1 e1] at e3
  have hng1 : s1.ng = none := (epochs_free cfg maxAbs sumAbs P hP hgr htol hcfg fuel n 0 0 _ _ s1 s1 rfl rfl rfl rfl e1 e1).2.2.1
  obtain ⟨d1, d2, -, -⟩ := epochs_free cfg maxAbs sumAbs P hP hgr htol hcfg fuel m 0 (0 + n) (Run.resume c env' file') s1 s2 s3 hcc.1 hcc.2 rfl hng1 e2 e3
  obtain ⟨-, q2, q3, -, -⟩ := store_w m s2
  obtain ⟨-, t2, t3, -, -⟩ := store_w (n + m) s3
  rw [q2, q3, t2, t3]
  exact ⟨d1, d2⟩

/-- Hypotheses met by `linear` with `n = m = 1`: the three runs exist and end with `.cont`. -/
example : Spec.EnvFree linear ∧ ∃ r r2 r3 c, optimize cfgPlain (fun x => |x|) (fun x => |x|) linear 0 1 (Run.init 0 () none) = some (r, .cont) ∧
    r.ckpts.getLast? = some c ∧ optimize cfgPlain (fun x => |x|) (fun x => |x|) linear 0 1 (Run.resume c () none) = some (r2, .cont) ∧
    optimize cfgPlain (fun x => |x|) (fun x => |x|) linear 0 (1 + 1) (Run.init 0 () none) = some (r3, .cont) ∧ r3.x = -2 := by
  refine ⟨⟨fun _ _ _ => rfl, fun _ _ _ => rfl⟩, ?_⟩
  have e0 : epoch cfgPlain (fun x => |x|) (fun x => |x|) linear 0 0 (Run.init 0 () none) =
      some (⟨-1, stA, none, none, ⟨(), [0], 0, [], 10 ^ 16, some 0, [(false, 0, 0)]⟩, []⟩, .cont) := by
    unfold epoch
    simp only [gt_iff_lt, lt_self_iff_false, if_false, Run.init, linear_step1]
    rw [(not_stop_one 0 (by norm_num [closure, linear, World.init]) rfl ⟨-1, 1, rfl, rfl, by norm_num [cfgPlain]⟩)]
    norm_num [closure, linear, World.init, stA]
  have e1 : epoch cfgPlain (fun x => |x|) (fun x => |x|) linear 0 0 (Run.resume ⟨1, -1, 0, stA⟩ () none) =
      some (⟨-2, stB (-1), none, none, ⟨(), [-1], -1, [], 10 ^ 16, some (-1), [(false, -1, -1)]⟩, []⟩, .cont) := by
    unfold epoch
    simp only [gt_iff_lt, lt_self_iff_false, if_false, Run.resume, stA, linear_step2]
    rw [(not_stop_one (-1) (by norm_num [closure, linear, World.init]) rfl ⟨-1, 1, rfl, rfl, by norm_num [cfgPlain]⟩)]
    norm_num [closure, linear, World.init, stB]
  refine ⟨⟨-1, stA, none, none, ⟨(), [0], 0, [], 10 ^ 16, some 0, [(false, 0, 0)]⟩, [⟨1, -1, 0, stA⟩]⟩,
    ⟨-2, stB (-1), none, none, ⟨(), [-1], -1, [], 10 ^ 16, some (-1), [(false, -1, -1)]⟩, [⟨1, -2, -1, stB (-1)⟩]⟩, _, ⟨1, -1, 0, stA⟩, ?_, rfl, ?_, linear_run, rfl⟩
  · unfold optimize epochs
    rw [e0]
    simp [epochs, store]
  · unfold optimize epochs
    rw [e1]
    simp [epochs, store]

end Verif.Loop
