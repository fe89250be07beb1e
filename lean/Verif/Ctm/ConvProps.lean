import Verif.Ctm.ConvModel
import Mathlib.Algebra.BigOperators.Group.Finset.Basic
import Mathlib.Algebra.Order.BigOperators.Group.Finset
/-
Properties C26 and C63.
-/
namespace Verif.Conv
namespace Spec
/-- Squared distance of two spectra, the shorter one padded with zeros. -/
noncomputable def dist2 (s t : List ℝ) : ℝ := ∑ i ∈ Finset.range (max s.length t.length), (s.getD i 0 - t.getD i 0) ^ 2

/-- `t` is `s` in descending order. -/
def Descending (s t : List ℝ) : Prop := List.Perm t s ∧ t.Pairwise (· ≥ ·)

/-- The documented criterion (L827-L829): root of the sum of all squared differences. -/
noncomputable def documented {κ : Type} (keys : List κ) (new old : κ → List ℝ) : ℝ :=
  Real.sqrt ((keys.map (fun k => dist2 (new k) (old k))).sum)
end Spec
open Spec

theorem sumSq_eq (s : List ℝ) : sumSq s = ∑ i ∈ Finset.range s.length, s.getD i 0 ^ 2 := by
  induction s with
  | nil => simp [sumSq]
  | cons a s ih =>
    simp only [sumSq, List.map_cons, List.sum_cons] at ih ⊢
    rw [ih, List.length_cons, Finset.sum_range_succ']
    simp [add_comm]

theorem diffSpec_eq (s t : List ℝ) : diffSpec s t = dist2 s t := by
  have key : ∀ s t : List ℝ, s.length ≤ t.length →
      sumSq (List.zipWith (· - ·) s (t.take s.length)) + sumSq (t.drop s.length) = dist2 s t := by
    intro s t h
    rw [sumSq_eq, sumSq_eq]
    simp only [dist2, max_eq_right h]
    have e1 : (List.zipWith (fun x1 x2 => x1 - x2) s (t.take s.length)).length = s.length := by simp [h]
    rw [e1, List.length_drop]
    conv_rhs => rw [← Nat.add_sub_cancel' h, Finset.sum_range_add]
    congr 1
    · refine Finset.sum_congr rfl (fun i hi => ?_)
      have hi := Finset.mem_range.1 hi
      have hi' : i < t.length := by omega
      simp [List.getD_eq_getElem?_getD, List.getElem?_zipWith, hi, hi']
    · refine Finset.sum_congr rfl (fun i hi => ?_)
      simp [List.getD_eq_getElem?_getD]
  have symm : ∀ s t : List ℝ, dist2 s t = dist2 t s := by
    intro s t; unfold dist2; rw [max_comm]
    exact Finset.sum_congr rfl (fun i _ => by ring)
  unfold diffSpec
  split
  · rename_i h
    have := key s t h.le
    rw [h] at this
    simpa [sumSq] using this
  · split
    · rename_i h; exact key s t h.le
    · have := key t s (by omega)
      rw [symm s t, ← this]
      congr 1
      have : ∀ a b : List ℝ, sumSq (List.zipWith (· - ·) a b) = sumSq (List.zipWith (· - ·) b a) := by
        intro a b
        induction a generalizing b with
        | nil => simp [sumSq]
        | cons x a ih =>
          cases b with
          | nil => simp [sumSq]
          | cons y b =>
            have := ih b
            simp only [sumSq, List.zipWith_cons_cons, List.map_cons, List.sum_cons] at this ⊢
            rw [this]; ring
      exact this _ _

theorem sortDesc_spec (s : List ℝ) : Descending s (sortDesc s) := by
  classical
  unfold sortDesc
  exact ⟨List.perm_insertionSort _ _, List.pairwise_insertionSort _ _⟩

theorem dist2_nonneg (s t : List ℝ) : 0 ≤ dist2 s t := Finset.sum_nonneg (fun _ _ => sq_nonneg _)

theorem foldl_max_lt (d : ℝ) (ds : List ℝ) (x : ℝ) : ds.foldl max d < x ↔ ∀ e ∈ d :: ds, e < x := by
  induction ds generalizing d with
  | nil => simp
  | cons a ds ih => rw [List.foldl_cons, ih]; simp [and_assoc]

variable {κ : Type} [DecidableEq κ]

/-- A spectrum dictionary given by its keys and values. -/
def ofFun (keys : List κ) (f : κ → List ℝ) : Dict κ := keys.map (fun k => (k, f k))

theorem lookup_ofFun (keys : List κ) (f : κ → List ℝ) {k : κ} (h : k ∈ keys) : (ofFun keys f).lookup k = some (f k) := by
  induction keys with
  | nil => simp at h
  | cons a l ih =>
    simp only [ofFun, List.map_cons, List.lookup_cons]
    by_cases e : k = a
    · subst e; simp
    · have : (k == a) = false := by simp [e]
      rw [this]
      exact ih (by simpa [e] using h)

theorem diffs_ofFun (keys : List κ) (f g : κ → List ℝ) : diffs (ofFun keys f) (ofFun keys g) = .ok (keys.map (fun k => dist2 (f k) (g k))) := by
  have : ∀ l : List κ, (∀ k ∈ l, k ∈ keys) → diffs (ofFun l f) (ofFun keys g) = .ok (l.map (fun k => dist2 (f k) (g k))) := by
    intro l hl
    induction l with
    | nil => rfl
    | cons a l ih =>
      have ih := ih (fun k hk => hl k (by simp [hk]))
      simp only [diffs, ofFun, List.map_cons] at ih ⊢
      have hl' := lookup_ofFun keys g (hl a (by simp))
      simp only [ofFun] at hl'
      rw [List.mapM_cons, ih]
      simp [hl', diffSpec_eq, bind, Except.bind, pure, Except.pure]
  exact this keys (fun _ h => h)

/-- The history after the measurements `f 0, …, f (n-1)`, each sorted; the lists `diffs` and `conv_crit` have one entry per
measurement. -/
def After (keys : List κ) (f : Nat → κ → List ℝ) (n : Nat) (h : Option (History κ)) : Prop :=
  match h with
  | none => n = 0
  | some h => h.spec = (List.range n).map (fun i => ofFun keys (f i)) ∧ h.diffs.length = n ∧ h.crit.length = n

theorem step {keys : List κ} (hk : keys ≠ []) {f : Nat → κ → List ℝ} {n : Nat} {h : Option (History κ)} (ha : After keys f n h)
    (p : Norm) (tol : ℝ) (maxIter : Nat) (spec : κ → List ℝ) (hs : f n = fun k => sortDesc (spec k)) :
    ∃ b h', convSpecC p tol maxIter (ofFun keys spec) h = .ok (b, h') ∧ After keys f (n + 1) (some h') ∧
      (b = true ↔ (0 < n ∧ (match p with
        | .fro => Real.sqrt ((keys.map (fun k => dist2 (f n k) (f (n - 1) k))).sum) < tol
        | .inf => ∀ k ∈ keys, Real.sqrt (dist2 (f n k) (f (n - 1) k)) < tol
        | .other => False)) ∨ maxIter ≤ n + 1) := by
  have hsp : (h.getD ⟨[], [], []⟩).spec = (List.range n).map (fun i => ofFun keys (f i)) ∧ (h.getD ⟨[], [], []⟩).diffs.length = n ∧
      (h.getD ⟨[], [], []⟩).crit.length = n := by
    cases h with
    | none => simp only [After] at ha; subst ha; simp
    | some h => exact ha
  have hsort : (ofFun keys spec).map (fun q => (q.1, sortDesc q.2)) = ofFun keys (f n) := by
    simp [ofFun, hs]
  have hafter : ∀ ds cr, After keys f (n + 1) (some ⟨(h.getD ⟨[], [], []⟩).spec ++ [ofFun keys (f n)], (h.getD ⟨[], [], []⟩).diffs ++ [ds],
      (h.getD ⟨[], [], []⟩).crit ++ [cr]⟩) := by
    intro ds cr
    refine ⟨?_, by simp [hsp.2.1], by simp [hsp.2.2]⟩
    simp only [hsp.1, List.range_succ, List.map_append, List.map_cons, List.map_nil]
  unfold convSpecC measure
  simp only [hsort]
  cases n with
  | zero =>
    have : (h.getD ⟨[], [], []⟩).spec.getLast? = none := by rw [hsp.1]; rfl
    rw [this]
    refine ⟨_, _, rfl, hafter _ _, ?_⟩
    simp [hsp.2.1]
  | succ m =>
    have : (h.getD ⟨[], [], []⟩).spec.getLast? = some (ofFun keys (f m)) := by
      rw [hsp.1, List.range_succ]; simp
    rw [this]
    simp only [diffs_ofFun, bind, Except.bind, pure, Except.pure]
    cases p with
    | fro =>
      refine ⟨_, _, rfl, hafter _ _, ?_⟩
      simp [hsp.2.1, below]
    | other =>
      refine ⟨_, _, rfl, hafter _ _, ?_⟩
      simp [hsp.2.1, below]
    | inf =>
      cases hkk : keys with
      | nil => exact absurd hkk hk
      | cons a l =>
        rw [hkk] at hafter
        refine ⟨_, _, rfl, hafter _ _, ?_⟩
        simp only [List.length_append, hsp.2.1, List.length_cons, List.length_nil, decide_eq_true_eq, Nat.add_sub_cancel]
        have hq : Real.sqrt ((l.map (fun k => dist2 (f (m + 1) k) (f m k))).foldl max (dist2 (f (m + 1) a) (f m a))) < tol ↔
            ∀ k ∈ a :: l, Real.sqrt (dist2 (f (m + 1) k) (f m k)) < tol := by
          by_cases ht : 0 < tol
          · rw [Real.sqrt_lt' ht, foldl_max_lt]
            simp only [List.mem_cons, List.mem_map, forall_eq_or_imp, forall_exists_index, and_imp, forall_apply_eq_imp_iff₂, Real.sqrt_lt' ht]
          · constructor
            · intro h; exact absurd (lt_of_le_of_lt (Real.sqrt_nonneg _) h) ht
            · intro h; exact absurd (lt_of_le_of_lt (Real.sqrt_nonneg _) (h a (by simp))) ht
        have hb : ∀ c : ℝ, below (some c) tol ↔ c < tol := fun c => by simp [below]
        rw [hb, hq]
        simp

/-- Successive calls, each with the history returned by the previous one: the answers. -/
noncomputable def calls (p : Norm) (tol : ℝ) (maxIter : Nat) : List (Dict κ) → Option (History κ) → Except Err (List Bool)
  | [], _ => .ok []
  | s :: ss, h => do
    let (b, h') ← convSpecC p tol maxIter s h
    let bs ← calls p tol maxIter ss (some h')
    return b :: bs

/-- **C26**. `spec i` are the spectra measured at the `i`-th call. The calls never raise; the `n`-th answer (from 0) is "converged" exactly when
there was an earlier call and the sorted spectra of the last two calls agree within the tolerance (every corner for `p='inf'`, all corners
together for `p='fro'`), or `ctm_max_iter` calls were made. -/
theorem C26_conv {keys : List κ} (hk : keys ≠ []) (p : Norm) (tol : ℝ) (maxIter : Nat) (spec : Nat → κ → List ℝ) (sorted : Nat → κ → List ℝ)
    (hs : ∀ i k, Descending (spec i k) (sorted i k)) (N : Nat) :
    ∃ bs, calls p tol maxIter ((List.range N).map (fun i => keys.map (fun k => (k, spec i k)))) none = .ok bs ∧ bs.length = N ∧
      ∀ n < N, (bs.getD n false = true ↔ (0 < n ∧ (match p with
        | .fro => Real.sqrt ((keys.map (fun k => dist2 (sorted n k) (sorted (n - 1) k))).sum) < tol
        | .inf => ∀ k ∈ keys, Real.sqrt (dist2 (sorted n k) (sorted (n - 1) k)) < tol
        | .other => False)) ∨ maxIter ≤ n + 1) := by
  have hu : sorted = fun i k => sortDesc (spec i k) := by
    funext i k
    exact List.Perm.eq_of_pairwise (fun a b _ _ h1 h2 => le_antisymm h2 h1) (hs i k).2 (sortDesc_spec _).2 ((hs i k).1.trans (sortDesc_spec _).1.symm)
  have gen : ∀ (l a : Nat) (h : Option (History κ)), After keys sorted a h →
      ∃ bs, calls p tol maxIter ((List.range l).map (fun i => ofFun keys (spec (a + i)))) h = .ok bs ∧ bs.length = l ∧
      ∀ n < l, (bs.getD n false = true ↔ (0 < a + n ∧ (match p with
        | .fro => Real.sqrt ((keys.map (fun k => dist2 (sorted (a + n) k) (sorted (a + n - 1) k))).sum) < tol
        | .inf => ∀ k ∈ keys, Real.sqrt (dist2 (sorted (a + n) k) (sorted (a + n - 1) k)) < tol
        | .other => False)) ∨ maxIter ≤ a + n + 1) := by
    intro l
    induction l with
    | zero => exact fun a h _ => ⟨[], rfl, rfl, fun n hn => by omega⟩
    | succ l ih =>
      intro a h ha
      obtain ⟨b, h', e, ha', hb⟩ := step hk ha p tol maxIter (spec a) (by rw [hu])
      obtain ⟨bs, e', hl, hbs⟩ := ih (a + 1) (some h') ha'
      refine ⟨b :: bs, ?_, by simp [hl], fun n hn => ?_⟩
      · rw [List.range_succ_eq_map, List.map_cons, List.map_map, calls]
        have : (List.map ((fun i => ofFun keys (spec (a + i))) ∘ Nat.succ) (List.range l)) = (List.range l).map (fun i => ofFun keys (spec (a + 1 + i))) := by
          refine List.map_congr_left (fun i _ => ?_)
          simp only [Function.comp, Nat.succ_eq_add_one]
          rw [show a + (i + 1) = a + 1 + i by omega]
        rw [this]
        simp only [Nat.add_zero, e, e', bind, Except.bind, pure, Except.pure]
      · cases n with
        | zero => simpa using hb
        | succ n =>
          have := hbs n (by omega)
          rw [show a + 1 + n = a + (n + 1) by omega] at this
          simpa using this
  have := gen N 0 none rfl
  simpa [ofFun] using this

example := C26_conv (keys := [0, 1]) (by simp) .inf (1 / 100) 50 (fun i k => [1, (1 : ℝ) / ((i : ℝ) + (k : Nat) + 2)])
  (fun i k => sortDesc [1, (1 : ℝ) / ((i : ℝ) + (k : Nat) + 2)]) (fun _ _ => sortDesc_spec _) 3

/-- **C26**: the first call never reports convergence by tolerance. -/
theorem C26_first {keys : List κ} (hk : keys ≠ []) (p : Norm) (tol : ℝ) (maxIter : Nat) (hm : 1 < maxIter) (spec : κ → List ℝ) :
    ∃ h', convSpecC p tol maxIter (keys.map (fun k => (k, spec k))) none = .ok (false, h') := by
  obtain ⟨b, h', e, -, hb⟩ := step (f := fun _ k => sortDesc (spec k)) (n := 0) hk (h := none) rfl p tol maxIter spec rfl
  have : b = false := by
    cases b with
    | false => rfl
    | true => have := hb.1 rfl; simp at this; omega
  subst this
  exact ⟨h', e⟩

/-- **C63**, for `p='fro'`: the check is the documented criterion. -/
theorem C63_documented_partial {keys : List κ} (hk : keys ≠ []) (tol : ℝ) (maxIter : Nat) (hm : 2 < maxIter) (s0 s1 : κ → List ℝ) :
    ∃ bs, calls .fro tol maxIter [keys.map (fun k => (k, s0 k)), keys.map (fun k => (k, s1 k))] none = .ok bs ∧
      (bs.getD 1 false = true ↔ documented keys (fun k => sortDesc (s1 k)) (fun k => sortDesc (s0 k)) < tol) := by
  obtain ⟨bs, e, -, h⟩ := C26_conv hk .fro tol maxIter (fun i => if i = 0 then s0 else s1) (fun i k => sortDesc ((if i = 0 then s0 else s1) k)) (fun i k => sortDesc_spec _) 2
  refine ⟨bs, ?_, ?_⟩
  · simpa [List.range_succ] using e
  · have := h 1 (by omega)
    rw [this]
    simp only [documented, Nat.one_ne_zero, if_false, Nat.sub_self, if_true, zero_lt_one, true_and]
    constructor
    · rintro (h | h)
      · exact h
      · omega
    · exact .inl

/-- **C63** refuted for the default `p='inf'`: two corners whose spectra move by 3/4 of the tolerance each are reported as converged although
the documented criterion exceeds the tolerance. -/
theorem C63_violated : ∃ (s0 s1 : Nat → List ℝ) (tol : ℝ) (bs : List Bool),
    calls .inf tol 50 [[0, 1].map (fun k => (k, s0 k)), [0, 1].map (fun k => (k, s1 k))] none = .ok bs ∧ bs.getD 1 false = true ∧
    tol < documented [0, 1] s1 s0 := by
  have hsort : ∀ x : ℝ, x ≤ 1 → sortDesc [1, x] = [1, x] := by
    intro x hx
    have := sortDesc_spec [1, x]
    exact List.Perm.eq_of_pairwise (fun a b _ _ h1 h2 => le_antisymm h2 h1) this.2 (by simpa using hx) this.1
  obtain ⟨bs, e, -, h⟩ := C26_conv (keys := [0, 1]) (by simp) .inf 1 50 (fun i _ => [1, if i = 0 then 0 else 3 / 4]) (fun i _ => [1, if i = 0 then 0 else 3 / 4])
    (fun i k => by have := sortDesc_spec [1, if i = 0 then 0 else 3 / 4]; rwa [hsort _ (by split <;> norm_num)] at this) 2
  refine ⟨fun _ => [1, 0], fun _ => [1, 3 / 4], 1, bs, ?_, ?_, ?_⟩
  · simpa [List.range_succ] using e
  · rw [h 1 (by omega)]
    left
    refine ⟨by omega, fun k _ => ?_⟩
    rw [Real.sqrt_lt' (by norm_num)]
    simp [dist2, Finset.sum_range_succ]; norm_num
  · rw [documented, Real.lt_sqrt (by norm_num)]
    simp [dist2, Finset.sum_range_succ]; norm_num

end Verif.Conv
