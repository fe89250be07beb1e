import Verif.Optim.SgdModel
import Mathlib.Tactic.Module
import Mathlib.Tactic.Abel
import Mathlib.Algebra.BigOperators.Intervals
import Mathlib.Algebra.Module.BigOperators
import Mathlib.Analysis.Real.Sqrt
import Mathlib.Data.List.Sort
/-
Properties C45 (momentum) and C46 (finite differences).
-/
namespace Verif.Sgd

variable {V : Type} [AddCommGroup V] [Module ℝ V]

/-! ### Property C45 -/

/-- The gradient of the regularised loss at the `i`-th visited point. -/
noncomputable def Spec.effGrad (cfg : Cfg) (grad : V → V) (xs : Nat → V) (i : Nat) : V := grad (xs i) + cfg.weightDecay • xs i

/-- The momentum recursion `v_0 = g_0`, `v_{n+1} = mu v_n + (1 - dampening) g_{n+1}`, solved. -/
noncomputable def Spec.velocity (mu damp : ℝ) (g : Nat → V) (n : Nat) : V :=
  mu ^ n • g 0 + ∑ i ∈ Finset.range n, (mu ^ (n - 1 - i) * (1 - damp)) • g (i + 1)

theorem velocity_succ (mu damp : ℝ) (g : Nat → V) (n : Nat) :
    Spec.velocity mu damp g (n + 1) = mu • Spec.velocity mu damp g n + (1 - damp) • g (n + 1) := by
  unfold Spec.velocity
  rw [Finset.sum_range_succ, smul_add, Finset.smul_sum, smul_smul, pow_succ']
  have : ∀ i ∈ Finset.range n, (mu ^ (n + 1 - 1 - i) * (1 - damp)) • g (i + 1) = mu • (mu ^ (n - 1 - i) * (1 - damp)) • g (i + 1) := by
    intro i hi
    rw [Finset.mem_range] at hi
    rw [smul_smul, ← mul_assoc, ← pow_succ', show n + 1 - 1 - i = n - 1 - i + 1 by omega]
  rw [Finset.sum_congr rfl this]
  simp only [Nat.add_sub_cancel, Nat.sub_self, pow_zero, one_mul]
  abel

/-- What one step does, in plain terms. -/
theorem step_eq (cfg : Cfg) (grad : V → V) (ls : V → V → Option ℝ) (st st' : St V) (d : V) (hm : cfg.momentum ≠ 0)
    (h : step cfg grad ls st = some (st', d)) :
    let g := grad st.x + cfg.weightDecay • st.x
    let v := match st.buf with
      | none => g
      | some b => cfg.momentum • b + (1 - cfg.dampening) • g
    let u := if cfg.nesterov then g + cfg.momentum • v else v
    (cfg.lineSearch = false → st'.buf = some v ∧ st'.x = st.x - cfg.lr • u ∧ d = u) ∧
    (cfg.lineSearch = true → st'.buf = some (if cfg.nesterov then v else -v) ∧ d = -u ∧ ∃ t, ls st.x (-u) = some t ∧ st'.x = st.x - t • u) := by
  have hd : (open Classical in if cfg.weightDecay ≠ 0 then grad st.x + cfg.weightDecay • st.x else grad st.x) = grad st.x + cfg.weightDecay • st.x := by
    split
    · rfl
    · rename_i hh
      push Not at hh
      rw [hh]; simp
  intro g v u
  have hdir : direction cfg st (grad st.x) = (if cfg.nesterov then (⟨u, false⟩, some v) else (⟨u, true⟩, some v)) := by
    unfold direction
    simp only [hd]
    rw [if_pos hm]
    cases hn : cfg.nesterov
    · simp only [u, hn, Bool.false_eq_true, if_false]; rfl
    · simp only [u, hn, if_true]; rfl
  unfold step at h
  rw [hdir] at h
  cases hn : cfg.nesterov <;> cases hl : cfg.lineSearch <;> simp only [hn, hl, Bool.false_eq_true, if_true, if_false] at h ⊢
  · simp only [Option.some.injEq, Prod.mk.injEq] at h
    obtain ⟨rfl, rfl⟩ := h
    simp [sub_eq_add_neg]
  · split at h
    · exact absurd h (by simp)
    · rename_i t ht
      simp only [Option.some.injEq, Prod.mk.injEq] at h
      obtain ⟨rfl, rfl⟩ := h
      have huv : u = v := by simp [u, hn]
      simp only [huv, neg_one_smul] at ht ⊢
      simp [ht, sub_eq_add_neg]
  · simp only [Option.some.injEq, Prod.mk.injEq] at h
    obtain ⟨rfl, rfl⟩ := h
    simp [sub_eq_add_neg]
  · split at h
    · exact absurd h (by simp)
    · rename_i t ht
      simp only [Option.some.injEq, Prod.mk.injEq] at h
      obtain ⟨rfl, rfl⟩ := h
      simp only [neg_one_smul] at ht ⊢
      simp [ht, sub_eq_add_neg]

/-- Every prefix of a run that does not raise. -/
theorem run_prefix (cfg : Cfg) (grad : V → V) (ls : V → V → Option ℝ) (x : V) (n : Nat) (h : run cfg grad ls x (n + 1) ≠ none) :
    run cfg grad ls x n ≠ none := by
  intro hn
  apply h
  simp [run, hn]

/-- Without line search, or with Nesterov momentum: for every loss, number of steps and configuration with momentum the buffer
after step `n` is the exponentially weighted sum of all gradients seen. -/
theorem C45_momentum_partial (cfg : Cfg) (grad : V → V) (ls : V → V → Option ℝ) (xs : Nat → V) (hm : cfg.momentum ≠ 0)
    (hcfg : cfg.lineSearch = false ∨ cfg.nesterov = true) (n : Nat)
    (hxs : ∀ i ≤ n + 1, ∃ b, run cfg grad ls (xs 0) i = some ⟨xs i, b⟩) :
    run cfg grad ls (xs 0) (n + 1) = some ⟨xs (n + 1), some (Spec.velocity cfg.momentum cfg.dampening (Spec.effGrad cfg grad xs) n)⟩ := by
  induction n with
  | zero =>
    obtain ⟨b, hb⟩ := hxs 1 (by omega)
    rw [hb]
    simp only [run, Option.bind_eq_bind, Option.bind_some] at hb
    rcases hs : step cfg grad ls ⟨xs 0, none⟩ with _ | ⟨st', d⟩
    · rw [hs] at hb; exact absurd hb (by simp)
    · rw [hs] at hb
      simp only [Option.bind_some, Option.some.injEq] at hb
      have key := step_eq cfg grad ls _ _ _ hm hs
      simp only at key
      have : st'.buf = some (grad (xs 0) + cfg.weightDecay • xs 0) := by
        cases hl : cfg.lineSearch
        · exact (key.1 hl).1
        · have hn : cfg.nesterov = true := by
            rcases hcfg with h | h
            · rw [hl] at h; exact absurd h (by simp)
            · exact h
          have := (key.2 hl).1
          rw [hn] at this
          simpa using this
      rw [hb] at this
      simp only at this
      rw [this]
      simp [Spec.velocity, Spec.effGrad]
  | succ n ih =>
    have ih' := ih (fun i hi => hxs i (by omega))
    obtain ⟨b, hb⟩ := hxs (n + 2) (by omega)
    rw [hb]
    rw [run] at hb
    simp only [ih', Option.bind_eq_bind, Option.bind_some] at hb
    rcases hs : step cfg grad ls ⟨xs (n + 1), some (Spec.velocity cfg.momentum cfg.dampening (Spec.effGrad cfg grad xs) n)⟩ with _ | ⟨st', d⟩
    · rw [hs] at hb; exact absurd hb (by simp)
    · rw [hs] at hb
      simp only [Option.bind_some, Option.some.injEq] at hb
      have key := step_eq cfg grad ls _ _ _ hm hs
      simp only at key
      have : st'.buf = some (cfg.momentum • Spec.velocity cfg.momentum cfg.dampening (Spec.effGrad cfg grad xs) n +
          (1 - cfg.dampening) • (grad (xs (n + 1)) + cfg.weightDecay • xs (n + 1))) := by
        cases hl : cfg.lineSearch
        · exact (key.1 hl).1
        · have hn : cfg.nesterov = true := by
            rcases hcfg with h | h
            · rw [hl] at h; exact absurd h (by simp)
            · exact h
          have := (key.2 hl).1
          rw [hn] at this
          simpa using this
      rw [hb] at this
      simp only at this
      rw [this, velocity_succ]
      rfl

/-- With line search and ordinary momentum the buffer follows the recursion with `-mu` in place of `mu`, and with the opposite
sign: the accumulated gradients are subtracted from, instead of added to, each new one. -/
theorem C45_line_search_violated (cfg : Cfg) (grad : V → V) (ls : V → V → Option ℝ) (xs : Nat → V) (hm : cfg.momentum ≠ 0)
    (hl : cfg.lineSearch = true) (hn : cfg.nesterov = false) (n : Nat)
    (hxs : ∀ i ≤ n + 1, ∃ b, run cfg grad ls (xs 0) i = some ⟨xs i, b⟩) :
    run cfg grad ls (xs 0) (n + 1) = some ⟨xs (n + 1), some (-Spec.velocity (-cfg.momentum) cfg.dampening (Spec.effGrad cfg grad xs) n)⟩ := by
  induction n with
  | zero =>
    obtain ⟨b, hb⟩ := hxs 1 (by omega)
    rw [hb]
    simp only [run, Option.bind_eq_bind, Option.bind_some] at hb
    rcases hs : step cfg grad ls ⟨xs 0, none⟩ with _ | ⟨st', d⟩
    · rw [hs] at hb; exact absurd hb (by simp)
    · rw [hs] at hb
      simp only [Option.bind_some, Option.some.injEq] at hb
      have key := ((step_eq cfg grad ls _ _ _ hm hs).2 hl).1
      simp only [hn, Bool.false_eq_true, if_false] at key
      rw [hb] at key
      simp only at key
      rw [key]
      simp [Spec.velocity, Spec.effGrad]
  | succ n ih =>
    have ih' := ih (fun i hi => hxs i (by omega))
    obtain ⟨b, hb⟩ := hxs (n + 2) (by omega)
    rw [hb]
    rw [run] at hb
    simp only [ih', Option.bind_eq_bind, Option.bind_some] at hb
    rcases hs : step cfg grad ls ⟨xs (n + 1), some (-Spec.velocity (-cfg.momentum) cfg.dampening (Spec.effGrad cfg grad xs) n)⟩ with _ | ⟨st', d⟩
    · rw [hs] at hb; exact absurd hb (by simp)
    · rw [hs] at hb
      simp only [Option.bind_some, Option.some.injEq] at hb
      have key := ((step_eq cfg grad ls _ _ _ hm hs).2 hl).1
      simp only [hn, Bool.false_eq_true, if_false] at key
      rw [hb] at key
      simp only at key
      rw [key, velocity_succ]
      congr 2
      simp only [Spec.effGrad, smul_neg, neg_smul]

/-- Constant gradient one, momentum 1/2, step length one: after two steps with line search the buffer is `-1/2`, where the
momentum recursion gives `3/2` in magnitude. The run meets the hypotheses of `C45_line_search_violated`. -/
theorem C45_violated : ∃ (cfg : Cfg) (grad : ℝ → ℝ) (ls : ℝ → ℝ → Option ℝ), cfg.lineSearch = true ∧ cfg.nesterov = false ∧ cfg.momentum = 1 / 2 ∧
    run cfg grad ls 0 1 = some ⟨-1, some (-1)⟩ ∧ run cfg grad ls 0 2 = some ⟨-3 / 2, some (-1 / 2)⟩ ∧
    Spec.velocity (1 / 2 : ℝ) 0 (fun _ => (1 : ℝ)) 1 = 3 / 2 := by
  refine ⟨⟨1, 1 / 2, 0, 0, false, true⟩, fun _ => 1, fun _ _ => some 1, rfl, rfl, rfl, ?_, ?_, ?_⟩
  · norm_num [run, step, direction]
  · norm_num [run, step, direction]
  · norm_num [Spec.velocity]

/-- The hypotheses of `C45_momentum_partial` on three steps of length 1/10 on `x^2`. -/
example : ∃ (xs : Nat → ℝ), xs 0 = 1 ∧ xs 1 ≠ xs 0 ∧ ∀ i ≤ 2, ∃ b, run (⟨1 / 10, 1 / 2, 0, 0, false, false⟩ : Cfg) (fun x : ℝ => 2 * x) (fun _ _ => none) (xs 0) i = some ⟨xs i, b⟩ := by
  refine ⟨fun n => if n = 0 then 1 else if n = 1 then 4 / 5 else 27 / 50, rfl, by norm_num, ?_⟩
  intro i hi
  match i with
  | 0 => exact ⟨none, by norm_num [run]⟩
  | 1 => exact ⟨some 2, by norm_num [run, step, direction]⟩
  | 2 => exact ⟨some (13 / 5), by norm_num [run, step, direction]⟩
  | n + 3 => omega

/-! ### Property C46 -/

/-- The parameters with `eps` added to entry `i` of tensor `k`. -/
noncomputable def Spec.shift (c : Coeffs) (k : String) (i : Nat) (eps : ℝ) : Coeffs :=
  c.map (fun p => if p.1 = k then (p.1, p.2.modify i (· + eps)) else p)

/-- The forward-difference gradient at `c`. -/
noncomputable def Spec.fdGrad (L : Coeffs → ℝ) (loss0 eps : ℝ) (c : Coeffs) : Coeffs :=
  c.map (fun p => (p.1, (List.range p.2.length).map (fun i => (L (Spec.shift c p.1 i eps) - loss0) / eps)))

theorem setKey_self (c : Coeffs) (hnd : (c.map Prod.fst).Nodup) (k : String) (v : List ℝ) (h : c.lookup k = some v) : setKey c k v = c := by
  induction c with
  | nil => rfl
  | cons p c ih =>
    obtain ⟨q, w⟩ := p
    rw [List.map_cons, List.nodup_cons] at hnd
    by_cases hq : k = q
    · subst hq
      rw [List.lookup_cons_self, Option.some.injEq] at h
      subst h
      unfold setKey
      rw [List.map_cons, if_pos rfl]
      congr 1
      rw [List.map_congr_left (g := id), List.map_id]
      intro r hr
      rw [if_neg]
      · rfl
      · intro hrk
        have hm := List.mem_map_of_mem (f := Prod.fst) hr
        rw [hrk] at hm
        exact hnd.1 hm
    · rw [List.lookup_cons, beq_eq_false_iff_ne.2 hq] at h
      have := ih hnd.2 h
      unfold setKey at this ⊢
      rw [List.map_cons, if_neg (by simpa using fun h => hq h.symm), this]

theorem setKey_setKey (c : Coeffs) (k : String) (v w : List ℝ) : setKey (setKey c k v) k w = setKey c k w := by
  unfold setKey
  rw [List.map_map]
  apply List.map_congr_left
  intro p _
  simp only [Function.comp]
  by_cases hp : p.1 = k <;> simp [hp]

theorem zipIdx_modify (l : List ℝ) (i : Nat) (eps : ℝ) :
    l.zipIdx.map (fun p => p.1 + if p.2 = i then eps else 0) = l.modify i (· + eps) := by
  apply List.ext_getElem
  · simp
  · intro j h1 h2
    simp only [List.getElem_map, List.getElem_zipIdx, List.getElem_modify, Nat.zero_add]
    by_cases hj : i = j
    · subst hj; simp
    · rw [if_neg hj, if_neg (fun h => hj h.symm), add_zero]

theorem setKey_shift (c : Coeffs) (hnd : (c.map Prod.fst).Nodup) (k : String) (i : Nat) (eps : ℝ) (v : List ℝ) (h : c.lookup k = some v) :
    setKey c k (v.modify i (· + eps)) = Spec.shift c k i eps := by
  unfold setKey Spec.shift
  apply List.map_congr_left
  intro p hp
  by_cases hk : p.1 = k
  · rw [if_pos hk, if_pos hk]
    have : p.2 = v := by
      induction c with
      | nil => exact absurd hp (by simp)
      | cons q c ih =>
        obtain ⟨q1, q2⟩ := q
        rw [List.map_cons, List.nodup_cons] at hnd
        by_cases hq : k = q1
        · subst hq
          rw [List.lookup_cons_self, Option.some.injEq] at h
          rcases List.mem_cons.1 hp with rfl | hp
          · exact h
          · exact absurd (List.mem_map_of_mem (f := Prod.fst) hp) (by rw [hk]; exact hnd.1)
        · rw [List.lookup_cons, beq_eq_false_iff_ne.2 hq] at h
          rcases List.mem_cons.1 hp with rfl | hp
          · exact absurd hk.symm hq
          · exact ih hnd.2 h hp
    rw [this]
  · rw [if_neg hk, if_neg hk]

theorem entries_spec (L : Coeffs → ℝ) (loss0 eps : ℝ) (c : Coeffs) (hnd : (c.map Prod.fst).Nodup) (k : String) (v : List ℝ)
    (h : c.lookup k = some v) :
    ∀ is, entries (fun c => some (L c)) loss0 eps k v is c =
      (some (is.map (fun i => (L (Spec.shift c k i eps) - loss0) / eps)), c) := by
  intro is
  induction is with
  | nil => rfl
  | cons i is ih =>
    unfold entries
    simp only [h, Option.getD_some, zipIdx_modify, setKey_shift c hnd k i eps v h]
    have hback : setKey (Spec.shift c k i eps) k v = c := by
      rw [← setKey_shift c hnd k i eps v h, setKey_setKey, setKey_self c hnd k v h]
    rw [hback, ih]
    rfl

theorem gradFd_spec (L : Coeffs → ℝ) (loss0 eps : ℝ) (c : Coeffs) (hnd : (c.map Prod.fst).Nodup) :
    ∀ s : Coeffs, (∀ p ∈ s, c.lookup p.1 = some p.2) →
      gradFd (fun c => some (L c)) loss0 eps (s.map Prod.fst) c =
        (some (s.map (fun p => (p.1, (List.range p.2.length).map (fun i => (L (Spec.shift c p.1 i eps) - loss0) / eps)))), c) := by
  intro s
  induction s with
  | nil => intro _; rfl
  | cons p s ih =>
    intro hs
    have hp := hs p (by simp)
    rw [List.map_cons]
    unfold gradFd
    simp only [hp, Option.getD_some]
    rw [entries_spec L loss0 eps c hnd p.1 p.2 hp]
    simp only
    rw [ih (fun q hq => hs q (by simp [hq]))]
    rfl

theorem lookup_mem (c : Coeffs) (hnd : (c.map Prod.fst).Nodup) : ∀ p ∈ c, c.lookup p.1 = some p.2 := by
  induction c with
  | nil => simp
  | cons q c ih =>
    rw [List.map_cons, List.nodup_cons] at hnd
    intro p hp
    rcases List.mem_cons.1 hp with rfl | hp'
    · exact List.lookup_cons_self
    · have hne : p.1 ≠ q.1 := by
        intro hh
        exact hnd.1 (hh ▸ List.mem_map_of_mem hp')
      obtain ⟨q1, q2⟩ := q
      rw [List.lookup_cons, beq_eq_false_iff_ne.2 hne]
      exact ih hnd.2 p hp'

/-- For every loss function that does not raise, every dictionary of parameters and every step: the parameters afterwards are
the original ones and the result is the forward-difference gradient. -/
theorem C46_fd_gradient (L : Coeffs → ℝ) (loss0 eps : ℝ) (c : Coeffs) (hnd : (c.map Prod.fst).Nodup) :
    gradFd (fun c => some (L c)) loss0 eps (c.map Prod.fst) c = (some (Spec.fdGrad L loss0 eps c), c) :=
  gradFd_spec L loss0 eps c hnd c (lookup_mem c hnd)

/-- For a loss that is affine in the parameters the result is the exact gradient (here: the coefficients). -/
theorem C46_exact_affine (c : Coeffs) (hnd : (c.map Prod.fst).Nodup) (L : Coeffs → ℝ) (a : String → Nat → ℝ) (eps : ℝ) (he : eps ≠ 0)
    (hL : ∀ k i, L (Spec.shift c k i eps) = L c + eps * a k i) :
    (gradFd (fun c => some (L c)) (L c) eps (c.map Prod.fst) c).1 = some (c.map (fun p => (p.1, (List.range p.2.length).map (a p.1)))) := by
  rw [C46_fd_gradient L (L c) eps c hnd]
  simp only [Spec.fdGrad, Option.some.injEq]
  apply List.map_congr_left
  intro p _
  congr 1
  apply List.map_congr_left
  intro i _
  rw [hL, add_sub_cancel_left, mul_comm, mul_div_assoc, div_self he, mul_one]

/-- If the loss function raises, the parameters stay shifted. -/
theorem C46_error_not_restored : gradFd (fun _ => none) 0 1 ["a"] [("a", [5])] = (none, [("a", [6])]) := by
  norm_num [gradFd, entries, setKey, List.lookup, List.range, List.range.loop]

/-- A dictionary of two tensors. -/
example : (([("a", [1, 2]), ("b", [3])] : Coeffs).map Prod.fst).Nodup := by decide

end Verif.Sgd
