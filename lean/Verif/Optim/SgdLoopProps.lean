import Verif.Optim.SgdLoopModel
import Mathlib.Tactic.Linarith
import Mathlib.Tactic.NormNum
/-
C148, C149: optimisation by gradient descent with momentum: trajectory, best-state file, checkpoints, resume after a crash.
-/
namespace Verif.SgdLoop
open Loop
variable {V E : Type} [AddCommGroup V] [Module ℝ V]

/-- The loss and its gradient do not depend on the environment from which the evaluation starts. -/
def Spec.Exact (P : Problem V E) (L : V → ℝ) (G : V → V) : Prop := ∀ x e, (P.grad x e).1 = some (L x, G x)

/-- Gradient descent with momentum: velocity `v k` and states `X k`. -/
structure Spec.HeavyBall (lr momentum : ℝ) (G : V → V) (X v : Nat → V) : Prop where
  first : v 0 = G (X 0)
  velocity : ∀ k, v (k + 1) = momentum • v k + G (X (k + 1))
  move : ∀ k, X (k + 1) = X k - lr • v k

/-- The file holds a best one of the states `X o, ..., X (o + m - 1)`; if none of them has a loss below 1e16, it is what it was. -/
def Spec.BestFile (L : V → ℝ) (X : Nat → V) (o m : Nat) (file0 file : Option V) : Prop :=
  (∃ i < m, file = some (X (o + i)) ∧ L (X (o + i)) < 10 ^ 16 ∧ ∀ j < m, L (X (o + i)) ≤ L (X (o + j))) ∨ (file = file0 ∧ ∀ j < m, 10 ^ 16 ≤ L (X (o + j)))

/-- The momentum buffer after `k` steps. -/
noncomputable def bufAt (momentum : ℝ) (v : Nat → V) : Nat → Option V
  | 0 => none
  | k + 1 => open Classical in if momentum = 0 then none else some (v k)

/-- What holds before epoch `k` of a run that started from `X o`. -/
structure Inv (h : Hyper) (L : V → ℝ) (X v : Nat → V) (o : Nat) (file0 : Option V) (k : Nat) (r : Run V E) : Prop where
  x : r.x = X (o + k)
  buf : r.buf = bufAt h.momentum v (o + k)
  hyper : r.hyper = h
  loss : r.w.loss = (List.range k).map (fun i => L (X (o + i)))
  ckpts : r.ckpts = (List.range (k - 1)).map (fun i => ⟨i + 1, L (X (o + i)), X (o + i + 1), bufAt h.momentum v (o + i + 1), h⟩)
  low : ∀ j < k, r.w.minLoss ≤ L (X (o + j))
  file : (∃ i < k, r.w.file = some (X (o + i)) ∧ r.w.minLoss = L (X (o + i)) ∧ L (X (o + i)) < 10 ^ 16) ∨ (r.w.file = file0 ∧ r.w.minLoss = 10 ^ 16)

theorem direction_ok {h : Hyper} (hd : h.dampening = 0) {G : V → V} {X v : Nat → V} (hb : Spec.HeavyBall h.lr h.momentum G X v) (k : Nat) :
    direction h (bufAt h.momentum v k) (G (X k)) = (v k, bufAt h.momentum v (k + 1)) := by
  unfold direction
  by_cases hm : h.momentum = 0
  · rw [if_pos hm]
    cases k with
    | zero => simp [bufAt, hm, hb.first]
    | succ k => simp [bufAt, hm, hb.velocity]
  · rw [if_neg hm]
    cases k with
    | zero => simp [bufAt, hm, hb.first]
    | succ k => simp [bufAt, hm, hb.velocity, hd]

/-- Are the last two of the first `m` losses close? -/
def Spec.Close (tol : ℝ) (L : V → ℝ) (X : Nat → V) (o m : Nat) : Prop := 2 ≤ m ∧ |L (X (o + (m - 1))) - L (X (o + (m - 2)))| < tol

theorem stopFlow_range (tol : ℝ) (L : V → ℝ) (X : Nat → V) (o m : Nat) :
    (stopFlow tol ((List.range m).map (fun i => L (X (o + i)))) = .brk ∧ Spec.Close tol L X o m) ∨
    (stopFlow tol ((List.range m).map (fun i => L (X (o + i)))) = .cont ∧ ¬ Spec.Close tol L X o m) := by
  match m with
  | 0 => right; exact ⟨rfl, fun h => by have := h.1; omega⟩
  | 1 => right; exact ⟨rfl, fun h => by have := h.1; omega⟩
  | m + 2 =>
    have : ((List.range (m + 2)).map (fun i => L (X (o + i)))).reverse = L (X (o + (m + 1))) :: L (X (o + m)) :: ((List.range m).map (fun i => L (X (o + i)))).reverse := by
      rw [List.range_succ, List.range_succ]
      simp
    unfold stopFlow
    rw [this]
    simp only
    by_cases h : |L (X (o + (m + 1))) - L (X (o + m))| < tol
    · left; rw [if_pos h]; exact ⟨rfl, by omega, h⟩
    · right; rw [if_neg h]; exact ⟨rfl, fun hh => h hh.2⟩

theorem epoch_ok {tol : ℝ} {P : Problem V E} {L : V → ℝ} {G : V → V} (hP : Spec.Exact P L G) {h : Hyper} (hd : h.dampening = 0) {X v : Nat → V} (hb : Spec.HeavyBall h.lr h.momentum G X v)
    {o k : Nat} {file0 : Option V} {r : Run V E} (hi : Inv h L X v o file0 k r) :
    ∃ r', epoch tol P k r = (r', stopFlow tol ((List.range (k + 1)).map (fun i => L (X (o + i))))) ∧ Inv h L X v o file0 (k + 1) r' := by
  obtain ⟨r1, e1, x1, b1, h1, w1, c1⟩ : ∃ r1, (if k > 0 then store k r else some r) = some r1 ∧ r1.x = r.x ∧ r1.buf = r.buf ∧ r1.hyper = r.hyper ∧ r1.w = r.w ∧
      r1.ckpts = (List.range k).map (fun i => ⟨i + 1, L (X (o + i)), X (o + i + 1), bufAt h.momentum v (o + i + 1), h⟩) := by
    cases k with
    | zero => exact ⟨r, rfl, rfl, rfl, rfl, rfl, by rw [hi.ckpts]⟩
    | succ k =>
      rw [if_pos (by omega)]
      have hl : r.w.loss.getLast? = some (L (X (o + k))) := by rw [hi.loss, List.range_succ]; simp
      unfold store
      rw [hl]
      refine ⟨_, rfl, rfl, rfl, rfl, rfl, ?_⟩
      simp only [hi.ckpts, hi.x, hi.buf, hi.hyper]
      rw [List.range_succ]
      simp [Nat.add_assoc]
  obtain ⟨w2, hcl, wl, wlow, wf⟩ : ∃ w2, Loop.closure P r1.x r1.w = (some (L (X (o + k)), G (X (o + k))), w2) ∧ w2.loss = (List.range (k + 1)).map (fun i => L (X (o + i))) ∧
      (∀ j < k + 1, w2.minLoss ≤ L (X (o + j))) ∧
      ((∃ i < k + 1, w2.file = some (X (o + i)) ∧ w2.minLoss = L (X (o + i)) ∧ L (X (o + i)) < 10 ^ 16) ∨ (w2.file = file0 ∧ w2.minLoss = 10 ^ 16)) := by
    have hg := hP (X (o + k)) r.w.env
    have hloss : r.w.loss ++ [L (X (o + k))] = (List.range (k + 1)).map (fun i => L (X (o + i))) := by
      rw [hi.loss, List.range_succ]
      simp
    cases hgr : P.grad (X (o + k)) r.w.env with
    | mk res e =>
      rw [hgr] at hg
      simp only at hg
      subst hg
      unfold Loop.closure
      rw [w1, x1, hi.x, hgr]
      refine ⟨_, rfl, ?_, ?_, ?_⟩
      · simp only
        split <;> exact hloss
      · intro j hj
        simp only
        split
        · next hlt =>
          rcases Nat.lt_succ_iff_lt_or_eq.mp hj with hj | rfl
          · exact le_of_lt (lt_of_lt_of_le hlt (hi.low j hj))
          · exact le_rfl
        · next hlt =>
          rcases Nat.lt_succ_iff_lt_or_eq.mp hj with hj | rfl
          · exact hi.low j hj
          · exact not_lt.mp hlt
      · simp only
        split
        · next hlt =>
          left
          refine ⟨k, by omega, rfl, rfl, ?_⟩
          rcases hi.file with ⟨i, _, _, hm, hl⟩ | ⟨_, hm⟩
          · rw [hm] at hlt; exact lt_trans hlt hl
          · rw [hm] at hlt; exact hlt
        · rcases hi.file with ⟨i, hik, hf, hm, hl⟩ | ⟨hf, hm⟩
          · exact .inl ⟨i, by omega, hf, hm, hl⟩
          · exact .inr ⟨hf, hm⟩
  refine ⟨⟨X (o + (k + 1)), bufAt h.momentum v (o + (k + 1)), h, { w2 with lossLs := [], minLossLs := 10 ^ 16 }, r1.ckpts⟩, ?_, rfl, rfl, rfl, wl, by rw [c1]; rfl, wlow, wf⟩
  unfold epoch
  rw [e1]
  simp only
  rw [hcl]
  simp only
  rw [h1, hi.hyper, b1, hi.buf, direction_ok hd hb (o + k), x1, hi.x, ← hb.move, wl]
  rfl

theorem epochs_ok {tol : ℝ} {P : Problem V E} {L : V → ℝ} {G : V → V} (hP : Spec.Exact P L G) {h : Hyper} (hd : h.dampening = 0) {X v : Nat → V} (hb : Spec.HeavyBall h.lr h.momentum G X v)
    {o : Nat} {file0 : Option V} (n k : Nat) (r : Run V E) (hi : Inv h L X v o file0 k r) :
    ∃ m r' f, epochs tol P n k r = (r', f) ∧ Inv h L X v o file0 m r' ∧ k ≤ m ∧ m ≤ k + n ∧ (0 < n → k < m) ∧ (∀ j, k < j → j < m → ¬ Spec.Close tol L X o j) ∧
      ((f = .brk ∧ Spec.Close tol L X o m) ∨ (f = .cont ∧ m = k + n ∧ (0 < n → ¬ Spec.Close tol L X o m))) := by
  induction n generalizing k r with
  | zero => exact ⟨k, r, .cont, rfl, hi, le_rfl, le_rfl, fun h => absurd h (by omega), fun j h1 h2 => absurd h1 (by omega), .inr ⟨rfl, rfl, fun h => absurd h (by omega)⟩⟩
  | succ n ih =>
    obtain ⟨r1, e1, hi1⟩ := epoch_ok (tol := tol) hP hd hb hi
    unfold epochs
    rw [e1]
    rcases stopFlow_range tol L X o (k + 1) with ⟨hf, hc⟩ | ⟨hf, hc⟩
    · rw [hf]
      exact ⟨k + 1, r1, .brk, rfl, hi1, by omega, by omega, fun _ => by omega, fun j h1 h2 => absurd h1 (by omega), .inl ⟨rfl, hc⟩⟩
    · rw [hf]
      simp only
      obtain ⟨m, r', f, e, hi', h1, h2, h3, h4, h5⟩ := ih (k + 1) r1 hi1
      refine ⟨m, r', f, e, hi', by omega, by omega, fun _ => by omega, fun j hj hj' => ?_, ?_⟩
      · by_cases hjk : j = k + 1
        · rw [hjk]; exact hc
        · exact h4 j (by omega) hj'
      · rcases h5 with h5 | ⟨h5, h6, h7⟩
        · exact .inl h5
        · refine .inr ⟨h5, by omega, fun _ => ?_⟩
          cases n with
          | zero => rw [show m = k + 1 by omega]; exact hc
          | succ n => exact h7 (by omega)

omit [AddCommGroup V] [Module ℝ V] in
theorem inv_file {h : Hyper} {L : V → ℝ} {X v : Nat → V} {o : Nat} {file0 : Option V} {m : Nat} {r : Run V E} (hi : Inv h L X v o file0 m r) : Spec.BestFile L X o m file0 r.w.file := by
  rcases hi.file with ⟨i, hik, hf, hm, hl⟩ | ⟨hf, hm⟩
  · exact .inl ⟨i, hik, hf, hl, fun j hj => by rw [← hm]; exact hi.low j hj⟩
  · exact .inr ⟨hf, fun j hj => by rw [← hm]; exact hi.low j hj⟩

/-- The checkpoint written at the end of epoch `k` of the trajectory. -/
noncomputable def Spec.ckpt (h : Hyper) (L : V → ℝ) (X v : Nat → V) (o k e : Nat) : Ckpt V := ⟨e, L (X (o + (k - 1))), X (o + k), bufAt h.momentum v (o + k), h⟩

theorem optimize_ok {a : Args} {P : Problem V E} {L : V → ℝ} {G : V → V} (hP : Spec.Exact P L G) {h : Hyper} (hd : h.dampening = 0) {X v : Nat → V} (hb : Spec.HeavyBall h.lr h.momentum G X v)
    {o : Nat} {file0 : Option V} {n : Nat} (hn : 0 < n) {r : Run V E} (hi : Inv h L X v o file0 0 r) :
    ∃ m r' f, optimize a P n r = (r', f) ∧ 0 < m ∧ m ≤ n ∧ (m = n ∨ Spec.Close a.tolChange L X o m) ∧ (∀ j, j < m → ¬ Spec.Close a.tolChange L X o j) ∧
      r'.x = X (o + m) ∧ r'.w.loss = (List.range m).map (fun i => L (X (o + i))) ∧ Spec.BestFile L X o m file0 r'.w.file ∧
      r'.ckpts = (List.range (m - 1)).map (fun i => Spec.ckpt h L X v o (i + 1) (i + 1)) ++ [Spec.ckpt h L X v o m n] ∧ f ≠ .raised := by
  obtain ⟨m, r1, f, e, hi1, -, h2, h3, h4, h5⟩ := epochs_ok (tol := a.tolChange) hP hd hb n 0 r hi
  have hm : 0 < m := h3 hn
  have hl : r1.w.loss.getLast? = some (L (X (o + (m - 1)))) := by
    obtain ⟨m, rfl⟩ : ∃ m', m = m' + 1 := ⟨m - 1, by omega⟩
    rw [hi1.loss, List.range_succ]; simp
  refine ⟨m, { r1 with ckpts := r1.ckpts ++ [⟨n, L (X (o + (m - 1))), r1.x, r1.buf, r1.hyper⟩] }, f, ?_, hm, by omega, ?_, fun j hj => ?_, hi1.x, hi1.loss, (inv_file hi1 : Spec.BestFile L X o m file0 r1.w.file), ?_, ?_⟩
  · unfold optimize store
    rw [e]
    rcases h5 with ⟨rfl, _⟩ | ⟨rfl, _⟩ <;> simp only [hl]
  · rcases h5 with h5 | h5
    · exact .inr h5.2
    · exact .inl (by omega)
  · rcases Nat.eq_zero_or_pos j with rfl | hj0
    · intro hc; have := hc.1; omega
    · exact h4 j hj0 hj
  · simp only [hi1.ckpts, hi1.x, hi1.buf, hi1.hyper, Spec.ckpt]
    congr 1
  · rcases h5 with ⟨rfl, _⟩ | ⟨rfl, _⟩ <;> simp

/-- **C148.** A new run of at least one epoch makes steps of gradient descent with momentum until the losses of two consecutive states differ by less than the tolerance, or the allowed number of epochs
is reached. Every state visited is evaluated once, the state file holds a best one, and the checkpoints are those of the states visited, the last one that of the final state. -/
theorem C148_trajectory {a : Args} {P : Problem V E} {L : V → ℝ} {G : V → V} (hP : Spec.Exact P L G) {X v : Nat → V} (hb : Spec.HeavyBall a.lr a.momentum G X v) (env : E) (file0 : Option V)
    {n : Nat} (hn : 0 < n) :
    ∃ m r' f, optimize a P n (start a (X 0) env file0) = (r', f) ∧ 0 < m ∧ m ≤ n ∧ (m = n ∨ Spec.Close a.tolChange L X 0 m) ∧ (∀ j, j < m → ¬ Spec.Close a.tolChange L X 0 j) ∧
      r'.x = X m ∧ r'.w.loss = (List.range m).map (fun i => L (X i)) ∧ Spec.BestFile L X 0 m file0 r'.w.file ∧
      r'.ckpts = (List.range (m - 1)).map (fun i => Spec.ckpt (fresh a) L X v 0 (i + 1) (i + 1)) ++ [Spec.ckpt (fresh a) L X v 0 m n] ∧ f ≠ .raised := by
  have hi : Inv (fresh a) L X v 0 file0 0 (start a (X 0) env file0) := ⟨rfl, rfl, rfl, rfl, rfl, by simp, .inr ⟨rfl, rfl⟩⟩
  simpa using optimize_ok (a := a) hP (h := fresh a) rfl hb hn hi

/-- **C148.** No epochs: an exception, nothing is written. -/
theorem C148_no_epochs (a : Args) (P : Problem V E) (x : V) (env : E) (file0 : Option V) : optimize a P 0 (start a x env file0) = (start a x env file0, .raised) := rfl

/-- **C148.** At every crash point: if the loss function raises, in whatever epoch and however it behaved before, the state file holds a best one of the states evaluated so far, or what it was. -/
theorem C148_crash (a : Args) (P : Problem V E) (x : V) (env : E) (file0 : Option V) (n : Nat) :
    let r' := (optimize a P n (start a x env file0)).1
    (∃ e ∈ r'.w.log, r'.w.file = some e.2.1 ∧ ∀ e' ∈ r'.w.log, e.2.2 ≤ e'.2.2) ∨ (r'.w.file = file0 ∧ ∀ e' ∈ r'.w.log, 10 ^ 16 ≤ e'.2.2) := by
  let Q : World V E → Prop := fun w => (∀ e' ∈ w.log, w.minLoss ≤ e'.2.2) ∧ ((∃ e ∈ w.log, w.file = some e.2.1 ∧ w.minLoss = e.2.2) ∨ (w.file = file0 ∧ w.minLoss = 10 ^ 16))
  have hcl : ∀ (x : V) (w : World V E), Q w → Q (Loop.closure P x w).2 := by
    intro x w hw
    unfold Loop.closure
    cases hg : P.grad x w.env with
    | mk res e =>
      cases res with
      | none => exact hw
      | some lg =>
        simp only
        split
        · next hlt =>
          refine ⟨fun e' he => ?_, .inl ⟨(false, x, lg.1), by simp, rfl, rfl⟩⟩
          simp only [List.mem_append, List.mem_singleton] at he
          rcases he with he | rfl
          · exact le_of_lt (lt_of_lt_of_le hlt (hw.1 e' he))
          · exact le_rfl
        · next hlt =>
          refine ⟨fun e' he => ?_, ?_⟩
          · simp only [List.mem_append, List.mem_singleton] at he
            rcases he with he | rfl
            · exact hw.1 e' he
            · exact not_lt.mp hlt
          · rcases hw.2 with ⟨e, he, h⟩ | h
            · exact .inl ⟨e, by simp [he], h⟩
            · exact .inr h
  have hst : ∀ k (r r' : Run V E), store k r = some r' → r'.w = r.w := by
    intro k r r' h
    unfold store at h
    split at h
    · cases h
    · cases h; rfl
  have hep : ∀ k (r : Run V E), Q r.w → Q (epoch a.tolChange P k r).1.w := by
    intro k r hr
    unfold epoch
    cases hs : (if k > 0 then store k r else some r) with
    | none => exact hr
    | some r1 =>
      have hw : r1.w = r.w := by
        split at hs
        · exact hst k r r1 hs
        · cases hs; rfl
      have := hcl r1.x r1.w (hw ▸ hr)
      simp only
      cases hc : Loop.closure P r1.x r1.w with
      | mk res w =>
        rw [hc] at this
        cases res with
        | none => exact this
        | some lg => exact this
  have heps : ∀ n k (r : Run V E), Q r.w → Q (epochs a.tolChange P n k r).1.w := by
    intro n
    induction n with
    | zero => intro k r hr; exact hr
    | succ n ih =>
      intro k r hr
      have := hep k r hr
      unfold epochs
      cases he : epoch a.tolChange P k r with
      | mk r1 f =>
        rw [he] at this
        cases f with
        | cont => exact ih (k + 1) r1 this
        | brk => exact this
        | raised => exact this
  have h0 : Q (start a x env file0).w := ⟨by simp [start, World.init], .inr ⟨rfl, rfl⟩⟩
  have h1 := heps n 0 _ h0
  have h2 : Q (optimize a P n (start a x env file0)).1.w := by
    unfold optimize
    cases he : epochs a.tolChange P n 0 (start a x env file0) with
    | mk r1 f =>
      rw [he] at h1
      cases f with
      | raised => exact h1
      | cont =>
        simp only
        cases hs : store n r1 with
        | none => exact h1
        | some r2 => rw [← hst n r1 r2 hs] at h1; exact h1
      | brk =>
        simp only
        cases hs : store n r1 with
        | none => exact h1
        | some r2 => rw [← hst n r1 r2 hs] at h1; exact h1
  intro r'
  rcases h2.2 with ⟨e, he, hf, hm⟩ | ⟨hf, hm⟩
  · exact .inl ⟨e, he, hf, fun e' he' => hm ▸ h2.1 e' he'⟩
  · exact .inr ⟨hf, fun e' he' => hm ▸ h2.1 e' he'⟩

/-- **C149.** Resuming from the checkpoint written before epoch `k` (the last one if the run crashed in that epoch) or from the last one continues the trajectory: the resumed run visits `X k, X (k+1), ...`.
Either the parameters of the optimizer are not overridden, or they are with the same arguments and dampening zero. -/
theorem C149_resume_partial {a : Args} {P : Problem V E} {L : V → ℝ} {G : V → V} (hP : Spec.Exact P L G) {X v : Nat → V} (hb : Spec.HeavyBall a.lr a.momentum G X v) (env : E) (file0 : Option V)
    (k e : Nat) (override : Bool) (ho : override = true → a.dampening = 0) {n : Nat} (hn : 0 < n) :
    ∃ m r' f, optimize a P n (resume a override (Spec.ckpt (fresh a) L X v 0 k e) env file0) = (r', f) ∧ 0 < m ∧ m ≤ n ∧ (m = n ∨ Spec.Close a.tolChange L X k m) ∧
      (∀ j, j < m → ¬ Spec.Close a.tolChange L X k j) ∧ r'.x = X (k + m) ∧ r'.w.loss = (List.range m).map (fun i => L (X (k + i))) ∧ Spec.BestFile L X k m file0 r'.w.file ∧ f ≠ .raised := by
  have hh : (resume a override (Spec.ckpt (fresh a) L X v 0 k e) env file0 : Run V E).hyper = fresh a := by
    cases override with
    | false => rfl
    | true => simp [resume, fresh, ho rfl]
  have hi : Inv (fresh a) L X v k file0 0 (resume a override (Spec.ckpt (fresh a) L X v 0 k e) env file0) :=
    ⟨by simp [resume, Spec.ckpt], by simp [resume, Spec.ckpt], hh, rfl, rfl, by simp, .inr ⟨rfl, rfl⟩⟩
  obtain ⟨m, r', f, h⟩ := optimize_ok (a := a) hP (h := fresh a) rfl hb hn hi
  exact ⟨m, r', f, h.1, h.2.1, h.2.2.1, h.2.2.2.1, h.2.2.2.2.1, h.2.2.2.2.2.1, h.2.2.2.2.2.2.1, h.2.2.2.2.2.2.2.1, h.2.2.2.2.2.2.2.2.2⟩

/-! ### A parabola with a large step -/

/-- The loss x² with its gradient; no environment. -/
def parabola : Problem ℝ Unit := ⟨fun x _ => (some (x ^ 2, 2 * x), ()), fun x _ => (some (x ^ 2), ()), fun _ x => x⟩

/-- Step 3/2, no momentum. -/
noncomputable def exArgs : Args := ⟨3 / 2, 0, 0, 1 / 10⟩

theorem parabola_exact : Spec.Exact parabola (fun x => x ^ 2) (fun x => 2 * x) := fun _ _ => rfl

theorem parabola_ball : Spec.HeavyBall exArgs.lr exArgs.momentum (fun x : ℝ => 2 * x) (fun k => (-2) ^ k) (fun k => 2 * (-2) ^ k) := by
  refine ⟨rfl, fun k => ?_, fun k => ?_⟩
  · simp [exArgs]
  · simp only [exArgs, smul_eq_mul, pow_succ]; ring

/-- Three epochs from 1: the states 1, -2, 4 are evaluated, the file holds 1. -/
example (file0 : Option ℝ) : ∃ r' f, optimize exArgs parabola 3 (start exArgs 1 () file0) = (r', f) ∧ r'.w.file = some 1 ∧ r'.x = -8 := by
  obtain ⟨m, r', f, h1, h2, h3, h4, h5, h6, h7, h8, h9, h10⟩ := C148_trajectory parabola_exact parabola_ball () file0 (n := 3) (by decide)
  have hm : m = 3 := by
    rcases h4 with h | h
    · exact h
    · exfalso
      obtain ⟨h, h'⟩ := h
      have : m = 2 ∨ m = 3 := by omega
      rcases this with rfl | rfl <;> norm_num [exArgs, abs_lt] at h'
  subst hm
  refine ⟨r', f, by simpa using h1, ?_, by rw [h6]; norm_num⟩
  rcases h8 with ⟨i, hi, hf, _, hle⟩ | ⟨_, hle⟩
  · have : i = 0 := by
      by_contra hne
      have := hle 0 (by decide)
      have h12 : i = 1 ∨ i = 2 := by omega
      rcases h12 with rfl | rfl <;> norm_num at this
    subst this
    simpa using hf
  · have := hle 0 (by decide)
    norm_num at this

/-- VIOLATED: the comment L191-L192 says that checkpoints hold the wavefunction together with its loss; the loss is that of the state before. -/
theorem C149_checkpoint_loss_violated : ∃ (a : Args) (P : Problem ℝ Unit) (L G : ℝ → ℝ), Spec.Exact P L G ∧ ∃ r' f c, optimize a P 1 (start a 1 () none) = (r', f) ∧ r'.ckpts = [c] ∧ c.loss ≠ L c.x := by
  refine ⟨exArgs, parabola, _, _, parabola_exact, ?_⟩
  obtain ⟨m, r', f, h1, h2, h3, h4, h5, h6, h7, h8, h9, h10⟩ := C148_trajectory parabola_exact parabola_ball () none (n := 1) (by decide)
  have hm : m = 1 := by omega
  subst hm
  exact ⟨r', f, _, by simpa using h1, h9, by norm_num [Spec.ckpt]⟩

/-- VIOLATED: a resumed run forgets the best loss of the run it continues and overwrites a better state. -/
theorem C149_best_lost_violated : ∃ (a : Args) (P : Problem ℝ Unit) (L G : ℝ → ℝ), Spec.Exact P L G ∧ ∃ r f c r' f' y y', optimize a P 1 (start a 1 () none) = (r, f) ∧ r.ckpts = [c] ∧
    r.w.file = some y ∧ optimize a P 1 (resume a false c () r.w.file) = (r', f') ∧ r'.w.file = some y' ∧ L y < L y' := by
  refine ⟨exArgs, parabola, _, _, parabola_exact, ?_⟩
  obtain ⟨m, r, f, h1, h2, h3, -, -, -, -, h8, h9, -⟩ := C148_trajectory parabola_exact parabola_ball () none (n := 1) (by decide)
  have hm : m = 1 := by omega
  subst hm
  obtain ⟨m', r', f', k1, k2, k3, -, -, -, -, k8, -⟩ := C149_resume_partial parabola_exact parabola_ball () r.w.file 1 1 false (by simp) (n := 1) (by decide)
  have hm : m' = 1 := by omega
  subst hm
  refine ⟨r, f, _, r', f', 1, -2, by simpa using h1, h9, ?_, k1, ?_, by norm_num⟩
  · rcases h8 with ⟨i, hi, hf, _⟩ | ⟨_, hle⟩
    · obtain rfl : i = 0 := by omega
      simpa using hf
    · have := hle 0 (by decide)
      norm_num at this
  · rcases k8 with ⟨i, hi, hf, _⟩ | ⟨_, hle⟩
    · obtain rfl : i = 0 := by omega
      simpa using hf
    · have := hle 0 (by decide)
      norm_num at this

/-- VIOLATED: config.py L458 documents the dampening of the SGD step; a new run ignores it. -/
theorem C149_dampening_ignored (a : Args) (d : ℝ) (P : Problem V E) (x : V) (env : E) (file0 : Option V) (n : Nat) :
    optimize { a with dampening := d } P n (start { a with dampening := d } x env file0) = optimize a P n (start a x env file0) := rfl

/-- A linear loss. -/
def slope : Problem ℝ Unit := ⟨fun x _ => (some (x, 1), ()), fun x _ => (some x, ()), fun _ x => x⟩

/-- VIOLATED: a run resumed with the same arguments and `opt_resume_override_params` does not continue the run if the dampening is not zero, since only then it is used. -/
theorem C149_dampening_violated : ∃ (a : Args) (P : Problem ℝ Unit), ∃ c, (optimize a P 1 (start a 0 () none)).1.ckpts = [c] ∧
    (optimize a P 1 (resume a true c () none)).1.x ≠ (optimize a P 2 (start a 0 () none)).1.x := by
  have hb : Spec.HeavyBall (1 : ℝ) 1 (fun _ : ℝ => (1 : ℝ)) (fun k => -(k * (k + 1) / 2 : ℝ)) (fun k => (k : ℝ) + 1) := by
    refine ⟨by norm_num, fun k => ?_, fun k => ?_⟩
    · push_cast; simp
    · push_cast; simp only [smul_eq_mul]; ring
  have hP : Spec.Exact slope (fun x => x) (fun _ => 1) := fun _ _ => rfl
  let a : Args := ⟨1, 1, 1, 0⟩
  refine ⟨a, slope, ?_⟩
  obtain ⟨m, r, f, h1, h2, h3, -, -, -, -, -, h9, -⟩ := C148_trajectory (a := a) hP hb () none (n := 1) (by decide)
  obtain rfl : m = 1 := by omega
  obtain ⟨m', r', f', k1, k2, k3, k4, k5, k6, -⟩ := C148_trajectory (a := a) hP hb () none (n := 2) (by decide)
  have hm : m' = 2 := by
    rcases k4 with h | h
    · exact h
    · have := h.1; omega
  subst hm
  have s0 : (start a (-(((0 : ℕ) : ℝ) * (((0 : ℕ) : ℝ) + 1) / 2)) () none : Run ℝ Unit) = start a 0 () none := by norm_num
  rw [s0] at h1 k1
  refine ⟨_, by rw [h1]; exact h9, ?_⟩
  rw [k1]
  simp only
  rw [k6]
  simp only [optimize, epochs, epoch, Loop.closure, slope, resume, Spec.ckpt, bufAt, direction, store, stopFlow, World.init, fresh, a]
  norm_num

end Verif.SgdLoop
