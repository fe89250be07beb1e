import Verif.Optim.LoopModel
import Verif.Optim.LbfgsProps
/-
Helper lemmas: invariants of the closures' world carry through a step; a step does not depend on the world when the loss
functions do not.
-/
namespace Verif.Lbfgs

variable {V W W' : Type} [NormedAddCommGroup V] [InnerProductSpace ℝ V]

theorem dirEval_world (c : Closures V W) (I : W → Prop) (hl : ∀ x w, I w → I (c.ls x w).2) (x d : V) (t : ℝ) (pw : V × W)
    (h : I pw.2) : I (dirEval c x d t pw).2.2 := by
  unfold dirEval
  have := hl (pw.1 + t • d) pw.2 h
  simp only
  split <;> rename_i he <;> rw [he] at this <;> exact this

theorem lsLoop_world (c : Closures V W) (I : W → Prop) (hl : ∀ x w, I w → I (c.ls x w).2) (x d : V) (loss gtd eps : ℝ) (f : Nat) :
    ∀ (n : Nat) (t : ℝ) (nl : Option ℝ) (pw : V × W) (o : LsOut) (pw' : V × W), I pw.2 →
      lsLoop c x d loss gtd eps f n t nl pw = some (o, pw') → I pw'.2 := by
  intro n
  induction n with
  | zero =>
    intro t nl pw o pw' hi h
    unfold lsLoop at h
    split at h
    · exact absurd h (by simp)
    · simp only [Option.some.injEq, Prod.mk.injEq] at h
      rw [← h.2]; exact hi
  | succ n ih =>
    intro t nl pw o pw' hi h
    unfold lsLoop at h
    have key := fun o' => Armijo.search_state (dirEval c x d) (fun pw => I pw.2) (fun a s hs => dirEval_world c I hl x d a s hs)
      (phi0 := loss) (d := gtd) (c1 := 1 / 10 ^ 4) (a0 := t) (amin := 1 / 10 ^ 8) (n := f) (s := pw) (o := o') hi
    split at h
    · split at h
      · exact absurd h (by simp)
      · rename_i a v p tr hs
        simp only [Option.some.injEq, Prod.mk.injEq] at h
        rw [← h.2]; exact key _ hs
      · rename_i p tr hs
        simp only [Option.some.injEq, Prod.mk.injEq] at h
        rw [← h.2]; exact key _ hs
      · rename_i a p tr hs
        exact ih _ _ _ _ _ (key _ hs) h
    · simp only [Option.some.injEq, Prod.mk.injEq] at h
      rw [← h.2]; exact hi

theorem pass_world (cfg : Cfg) (maxAbs sumAbs : V → ℝ) (c : Closures V W) (I : W → Prop)
    (hm : ∀ x w, I w → I (c.main x w).2) (hl : cfg.backtracking = true → ∀ x w, I w → I (c.ls x w).2)
    (fuel nIter evals : Nat) (loss : ℝ) (g : V) (nl : Option ℝ) (ng : Option V) (P : Prop) (st : St V)
    (xw : V × W) (o : Pass V) (xw' : V × W) (hi : I xw.2)
    (h : pass cfg maxAbs sumAbs c fuel nIter evals loss g nl ng P st xw = some (o, xw')) : I xw'.2 := by
  unfold pass at h
  split at h
  · simp only [Option.some.injEq, Prod.mk.injEq] at h
    rw [← h.2]; exact hi
  split at h
  · simp only [Option.some.injEq, Prod.mk.injEq] at h
    rw [← h.2]; exact hi
  simp only at h
  split at h
  · simp only [Option.some.injEq, Prod.mk.injEq] at h
    rw [← h.2]; exact hi
  split at h
  · rename_i hb
    split at h
    · exact absurd h (by simp)
    all_goals
      rename_i hls
      simp only [Option.some.injEq, Prod.mk.injEq] at h
      rw [← h.2]
      exact (lsLoop_world c I (hl hb) _ _ _ _ _ _ _ _ _ _ _ _ hi hls :)
  · split at h
    · simp only [Option.some.injEq, Prod.mk.injEq] at h
      rw [← h.2]; exact hi
    · split at h
      all_goals
        rename_i hc
        simp only [Option.some.injEq, Prod.mk.injEq] at h
        rw [← h.2]
        have := congrArg Prod.snd hc
        rw [← show _ = _ from this]; exact hm _ _ hi

theorem passes_world (cfg : Cfg) (maxAbs sumAbs : V → ℝ) (c : Closures V W) (I : W → Prop)
    (hm : ∀ x w, I w → I (c.main x w).2) (hl : cfg.backtracking = true → ∀ x w, I w → I (c.ls x w).2)
    (fuel : Nat) (loss : ℝ) (g : V) :
    ∀ (k nIter evals : Nat) (nl : Option ℝ) (ng : Option V) (st : St V) (xw : V × W) (o : Pass V) (xw' : V × W), I xw.2 →
      passes cfg maxAbs sumAbs c fuel loss g k nIter evals nl ng st xw = some (o, xw') → I xw'.2 := by
  intro k
  induction k with
  | zero =>
    intro nIter evals nl ng st xw o xw' hi h
    simp only [passes, Option.some.injEq, Prod.mk.injEq] at h
    rw [← h.2]; exact hi
  | succ k ih =>
    intro nIter evals nl ng st xw o xw' hi h
    unfold passes at h
    split at h
    · rename_i hp
      exact ih _ _ _ _ _ _ _ _ (pass_world cfg maxAbs sumAbs c I hm hl _ _ _ _ _ _ _ _ _ _ _ _ hi hp) h
    · exact pass_world cfg maxAbs sumAbs c I hm hl _ _ _ _ _ _ _ _ _ _ _ _ hi h

/-- An invariant of the world that the closures preserve is preserved by a step. -/
theorem step2c_world (cfg : Cfg) (maxAbs sumAbs : V → ℝ) (c : Closures V W) (I : W → Prop)
    (hm : ∀ x w, I w → I (c.main x w).2) (hl : cfg.backtracking = true → ∀ x w, I w → I (c.ls x w).2)
    (fuel : Nat) (nl : Option ℝ) (ng : Option V) (st : St V) (xw : V × W) (o : StepOut V) (xw' : V × W) (hi : I xw.2)
    (h : step2c cfg maxAbs sumAbs c fuel nl ng st xw = some (o, xw')) : I xw'.2 := by
  have key : ∀ (l : ℝ) (g : V) (e : Nat) (w : W), I w →
      afterEval cfg maxAbs sumAbs c fuel nl ng st l g e (xw.1, w) = some (o, xw') → I xw'.2 := by
    intro l g e w hw h
    unfold afterEval at h
    split at h
    · simp only [Option.some.injEq, Prod.mk.injEq] at h
      rw [← h.2]; exact hw
    · split at h
      · exact absurd h (by simp)
      all_goals
        rename_i hp
        simp only [Option.some.injEq, Prod.mk.injEq] at h
        rw [← h.2]
        exact passes_world cfg maxAbs sumAbs c I hm hl _ _ _ _ _ _ _ _ _ _ _ _ (by exact hw) hp
  unfold step2c at h
  split at h
  · exact key _ _ _ _ hi h
  · have := hm xw.1 xw.2 hi
    split at h <;> rename_i hc <;> rw [hc] at this
    · simp only [Option.some.injEq, Prod.mk.injEq] at h
      rw [← h.2]; exact this
    · exact key _ _ _ _ this h

/-! ### Independence of the world -/

end Verif.Lbfgs

namespace Verif.Armijo

variable {σ τ : Type}

/-- Change of the objective's state. -/
def Out.map (f : σ → τ) (o : Out σ) : Out τ := ⟨o.res, f o.state, o.trials⟩

theorem loop_map (f : σ → τ) (phi : ℝ → σ → Option ℝ × σ) (psi : ℝ → τ → Option ℝ × τ)
    (h : ∀ a s, psi a (f s) = ((phi a s).1, f (phi a s).2)) (phi0 d c1 amin : ℝ) :
    ∀ (n : Nat) (a0 a1 f0 f1 : ℝ) (s : σ) (tr : List ℝ),
      loop psi phi0 d c1 amin n a0 a1 f0 f1 (f s) tr = (loop phi phi0 d c1 amin n a0 a1 f0 f1 s tr).map (Out.map f) := by
  intro n
  induction n with
  | zero =>
    intro a0 a1 f0 f1 s tr
    unfold loop
    split <;> rfl
  | succ n ih =>
    intro a0 a1 f0 f1 s tr
    unfold loop
    split
    · split
      · rfl
      · rename_i a2 _
        rw [h]
        rcases hp : phi a2 s with ⟨_ | v, s'⟩
        · rfl
        · simp only
          split
          · rfl
          · exact ih _ _ _ _ _ _
    · rfl

theorem search_map (f : σ → τ) (phi : ℝ → σ → Option ℝ × σ) (psi : ℝ → τ → Option ℝ × τ)
    (h : ∀ a s, psi a (f s) = ((phi a s).1, f (phi a s).2)) (phi0 d c1 a0 amin : ℝ) (n : Nat) (s : σ) :
    search psi phi0 d c1 a0 amin n (f s) = (search phi phi0 d c1 a0 amin n s).map (Out.map f) := by
  unfold search
  rw [h]
  rcases hp : phi a0 s with ⟨_ | v, s'⟩
  · rfl
  · simp only
    split
    · rfl
    · split
      · rfl
      · rw [h]
        rcases hp1 : phi (-d * a0 ^ 2 / 2 / (v - phi0 - d * a0)) s' with ⟨_ | v', s''⟩
        · rfl
        · simp only
          split
          · rfl
          · exact loop_map f phi psi h _ _ _ _ _ _ _ _ _ _ _

end Verif.Armijo

namespace Verif.Lbfgs

variable {V W W' : Type} [NormedAddCommGroup V] [InnerProductSpace ℝ V]

/-- `c'` on world `f w` does what `c` does on `w`. -/
structure Simulates (f : W → W') (c : Closures V W) (c' : Closures V W') : Prop where
  main : ∀ x w, c'.main x (f w) = ((c.main x w).1, f (c.main x w).2)
  ls : ∀ x w, c'.ls x (f w) = ((c.ls x w).1, f (c.ls x w).2)

theorem dirEval_map {f : W → W'} {c : Closures V W} {c' : Closures V W'} (h : Simulates f c c') (x d : V) (t : ℝ) (pw : V × W) :
    dirEval c' x d t (pw.1, f pw.2) = ((dirEval c x d t pw).1, ((dirEval c x d t pw).2.1, f (dirEval c x d t pw).2.2)) := by
  unfold dirEval
  simp only [h.ls]
  rcases c.ls (pw.1 + t • d) pw.2 with ⟨_ | v, w⟩ <;> rfl

theorem lsLoop_map {f : W → W'} {c : Closures V W} {c' : Closures V W'} (h : Simulates f c c') (x d : V) (loss gtd eps : ℝ) (fi : Nat) :
    ∀ (n : Nat) (t : ℝ) (nl : Option ℝ) (pw : V × W),
      lsLoop c' x d loss gtd eps fi n t nl (pw.1, f pw.2) =
        (lsLoop c x d loss gtd eps fi n t nl pw).map (fun o => (o.1, (o.2.1, f o.2.2))) := by
  intro n
  induction n with
  | zero =>
    intro t nl pw
    unfold lsLoop
    split <;> rfl
  | succ n ih =>
    intro t nl pw
    unfold lsLoop
    split
    · have := Armijo.search_map (fun pw : V × W => (pw.1, f pw.2)) (dirEval c x d) (dirEval c' x d) (fun a s => dirEval_map h x d a s)
        loss gtd (1 / 10 ^ 4) t (1 / 10 ^ 8) fi pw
      rw [this]
      rcases Armijo.search (dirEval c x d) loss gtd (1 / 10 ^ 4) t (1 / 10 ^ 8) fi pw with _ | ⟨⟨a, v⟩ | _ | a, s, tr⟩
      · rfl
      · rfl
      · rfl
      · exact ih _ _ _
    · rfl

theorem pass_map {f : W → W'} {c : Closures V W} {c' : Closures V W'} (h : Simulates f c c') (cfg : Cfg) (maxAbs sumAbs : V → ℝ)
    (fuel nIter evals : Nat) (loss : ℝ) (g : V) (nl : Option ℝ) (ng : Option V) (P : Prop) (st : St V) (xw : V × W) :
    pass cfg maxAbs sumAbs c' fuel nIter evals loss g nl ng P st (xw.1, f xw.2) =
      (pass cfg maxAbs sumAbs c fuel nIter evals loss g nl ng P st xw).map (fun o => (o.1, (o.2.1, f o.2.2))) := by
  unfold pass
  rcases direction cfg.histSize st g loss with _ | st1
  · rfl
  · simp only
    rcases st1.d with _ | d
    · rfl
    · simp only
      split
      · rfl
      · split
        · rw [lsLoop_map h]
          rcases lsLoop c xw.1 d loss (inner ℝ g d) cfg.lsEps fuel fuel (initStep cfg sumAbs st1 g) none xw with _ | ⟨⟨t, nl⟩ | _, x, w⟩ <;> rfl
        · split
          · rfl
          · rw [h.main]
            rcases c.main (xw.1 + initStep cfg sumAbs st1 g • d) xw.2 with ⟨_ | ⟨l, g'⟩, w⟩ <;> rfl

theorem passes_map {f : W → W'} {c : Closures V W} {c' : Closures V W'} (h : Simulates f c c') (cfg : Cfg) (maxAbs sumAbs : V → ℝ)
    (fuel : Nat) (loss : ℝ) (g : V) :
    ∀ (k nIter evals : Nat) (nl : Option ℝ) (ng : Option V) (st : St V) (xw : V × W),
      passes cfg maxAbs sumAbs c' fuel loss g k nIter evals nl ng st (xw.1, f xw.2) =
        (passes cfg maxAbs sumAbs c fuel loss g k nIter evals nl ng st xw).map (fun o => (o.1, (o.2.1, f o.2.2))) := by
  intro k
  induction k with
  | zero => intro nIter evals nl ng st xw; rfl
  | succ k ih =>
    intro nIter evals nl ng st xw
    unfold passes
    rw [pass_map h]
    rcases pass cfg maxAbs sumAbs c fuel (nIter + 1) evals loss g nl ng (maxAbs g ≤ cfg.tolGrad) st xw with
      _ | ⟨⟨st, nl, ng⟩ | ⟨st, nl, ng, e⟩ | why, x, w⟩
    · rfl
    · rfl
    · exact ih _ _ _ _ _ _
    · rfl

theorem step2c_map {f : W → W'} {c : Closures V W} {c' : Closures V W'} (h : Simulates f c c') (cfg : Cfg) (maxAbs sumAbs : V → ℝ)
    (fuel : Nat) (nl : Option ℝ) (ng : Option V) (st : St V) (xw : V × W) :
    step2c cfg maxAbs sumAbs c' fuel nl ng st (xw.1, f xw.2) =
      (step2c cfg maxAbs sumAbs c fuel nl ng st xw).map (fun o => (o.1, (o.2.1, f o.2.2))) := by
  have key : ∀ (l : ℝ) (g : V) (e : Nat) (w : W),
      afterEval cfg maxAbs sumAbs c' fuel nl ng st l g e (xw.1, f w) =
      (afterEval cfg maxAbs sumAbs c fuel nl ng st l g e (xw.1, w)).map (fun o => (o.1, (o.2.1, f o.2.2))) := by
    intro l g e w
    unfold afterEval
    split
    · rfl
    · rw [passes_map h cfg maxAbs sumAbs fuel l g cfg.maxIter 0 e nl ng st (xw.1, w)]
      rcases passes cfg maxAbs sumAbs c fuel l g cfg.maxIter 0 e nl ng st (xw.1, w) with
        _ | ⟨⟨st, nl, ng⟩ | ⟨st, nl, ng, e⟩ | why, x, w⟩ <;> rfl
  unfold step2c
  simp only [h.main]
  rcases c.main xw.1 xw.2 with ⟨_ | ⟨l, g⟩, w⟩
  · rcases nl with _ | l
    · rfl
    · rcases ng with _ | g
      · rfl
      · exact key _ _ _ _
  · rcases nl with _ | l
    · exact key _ _ _ _
    · rcases ng with _ | g
      · exact key _ _ _ _
      · exact key _ _ _ _

end Verif.Lbfgs
