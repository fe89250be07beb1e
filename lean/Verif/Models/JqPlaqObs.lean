import Verif.Models.JqPlaqWitness
/-
C112. The observables of the tensors that hold four spins.
-/
namespace Verif.Models
open Tensor Ctm Ctm.Spec
open Spec (spin spins onSpins)
open Energy.Spec (expect onSite)

namespace Spec
/-- The operator `o` on spin `r` of a tensor. -/
def onSpin (r : Nat) (o : Nat → Nat → ℂ) : Corrf.Spec.Op ℂ := fun t s => onSpins 4 [r] (fun t s => o (t.getD 0 0) (s.getD 0 0)) (spins [t]) (spins [s])
end Spec
open Spec (onSpin)

theorem sum_two (f : Nat → ℂ) : ∑ i ∈ Finset.range 2, f i = f 0 + f 1 := by simp [Finset.sum_range_succ]

theorem onSite_sum0 (V : Tensor ℂ) (g : Nat → Nat → ℂ) : expect V (onSite 0 g) = ∑ i ∈ Finset.range 2, ∑ j ∈ Finset.range 2, ∑ k ∈ Finset.range 2, ∑ l ∈ Finset.range 2, ∑ a ∈ Finset.range 2, V.val [i, j, k, l, a, j, k, l] * g a i := by
  simp only [expect, sumIdx]
  refine Finset.sum_congr rfl fun i hi => Finset.sum_congr rfl fun j hj => Finset.sum_congr rfl fun k hk => Finset.sum_congr rfl fun l hl => ?_
  have e : ∑ a ∈ Finset.range 2, ∑ b ∈ Finset.range 2, ∑ c ∈ Finset.range 2, ∑ d ∈ Finset.range 2, V.val ([i, j, k, l] ++ [a, b, c, d]) * onSite 0 g [a, b, c, d] [i, j, k, l] = ∑ a ∈ Finset.range 2, ∑ b ∈ Finset.range 2, ket j b * (∑ c ∈ Finset.range 2, ket k c * (∑ d ∈ Finset.range 2, ket l d * (V.val [i, j, k, l, a, b, c, d] * g a i))) := by
    simp only [Finset.mul_sum]
    refine Finset.sum_congr rfl fun a _ => Finset.sum_congr rfl fun b _ => Finset.sum_congr rfl fun c _ => Finset.sum_congr rfl fun d _ => ?_
    simp only [onSite, ket, List.forall_mem_cons, List.getD_cons_zero, List.getD_cons_succ, List.cons_append, List.nil_append]
    simp
    try split_ifs <;> simp_all
  rw [e]
  simp only [sum_ket (Finset.mem_range.1 hi), sum_ket (Finset.mem_range.1 hj), sum_ket (Finset.mem_range.1 hk), sum_ket (Finset.mem_range.1 hl)]

theorem onSite_sum1 (V : Tensor ℂ) (g : Nat → Nat → ℂ) : expect V (onSite 1 g) = ∑ i ∈ Finset.range 2, ∑ j ∈ Finset.range 2, ∑ k ∈ Finset.range 2, ∑ l ∈ Finset.range 2, ∑ a ∈ Finset.range 2, V.val [i, j, k, l, i, a, k, l] * g a j := by
  simp only [expect, sumIdx]
  refine Finset.sum_congr rfl fun i hi => Finset.sum_congr rfl fun j hj => Finset.sum_congr rfl fun k hk => Finset.sum_congr rfl fun l hl => ?_
  have e : ∑ a ∈ Finset.range 2, ∑ b ∈ Finset.range 2, ∑ c ∈ Finset.range 2, ∑ d ∈ Finset.range 2, V.val ([i, j, k, l] ++ [a, b, c, d]) * onSite 1 g [a, b, c, d] [i, j, k, l] = ∑ a ∈ Finset.range 2, ket i a * (∑ b ∈ Finset.range 2, ∑ c ∈ Finset.range 2, ket k c * (∑ d ∈ Finset.range 2, ket l d * (V.val [i, j, k, l, a, b, c, d] * g b j))) := by
    simp only [Finset.mul_sum]
    refine Finset.sum_congr rfl fun a _ => Finset.sum_congr rfl fun b _ => Finset.sum_congr rfl fun c _ => Finset.sum_congr rfl fun d _ => ?_
    simp only [onSite, ket, List.forall_mem_cons, List.getD_cons_zero, List.getD_cons_succ, List.cons_append, List.nil_append]
    simp
    try split_ifs <;> simp_all
  rw [e]
  simp only [sum_ket (Finset.mem_range.1 hi), sum_ket (Finset.mem_range.1 hj), sum_ket (Finset.mem_range.1 hk), sum_ket (Finset.mem_range.1 hl)]

theorem onSite_sum2 (V : Tensor ℂ) (g : Nat → Nat → ℂ) : expect V (onSite 2 g) = ∑ i ∈ Finset.range 2, ∑ j ∈ Finset.range 2, ∑ k ∈ Finset.range 2, ∑ l ∈ Finset.range 2, ∑ a ∈ Finset.range 2, V.val [i, j, k, l, i, j, a, l] * g a k := by
  simp only [expect, sumIdx]
  refine Finset.sum_congr rfl fun i hi => Finset.sum_congr rfl fun j hj => Finset.sum_congr rfl fun k hk => Finset.sum_congr rfl fun l hl => ?_
  have e : ∑ a ∈ Finset.range 2, ∑ b ∈ Finset.range 2, ∑ c ∈ Finset.range 2, ∑ d ∈ Finset.range 2, V.val ([i, j, k, l] ++ [a, b, c, d]) * onSite 2 g [a, b, c, d] [i, j, k, l] = ∑ a ∈ Finset.range 2, ket i a * (∑ b ∈ Finset.range 2, ket j b * (∑ c ∈ Finset.range 2, ∑ d ∈ Finset.range 2, ket l d * (V.val [i, j, k, l, a, b, c, d] * g c k))) := by
    simp only [Finset.mul_sum]
    refine Finset.sum_congr rfl fun a _ => Finset.sum_congr rfl fun b _ => Finset.sum_congr rfl fun c _ => Finset.sum_congr rfl fun d _ => ?_
    simp only [onSite, ket, List.forall_mem_cons, List.getD_cons_zero, List.getD_cons_succ, List.cons_append, List.nil_append]
    simp
    try split_ifs <;> simp_all
  rw [e]
  simp only [sum_ket (Finset.mem_range.1 hi), sum_ket (Finset.mem_range.1 hj), sum_ket (Finset.mem_range.1 hk), sum_ket (Finset.mem_range.1 hl)]

theorem onSite_sum3 (V : Tensor ℂ) (g : Nat → Nat → ℂ) : expect V (onSite 3 g) = ∑ i ∈ Finset.range 2, ∑ j ∈ Finset.range 2, ∑ k ∈ Finset.range 2, ∑ l ∈ Finset.range 2, ∑ a ∈ Finset.range 2, V.val [i, j, k, l, i, j, k, a] * g a l := by
  simp only [expect, sumIdx]
  refine Finset.sum_congr rfl fun i hi => Finset.sum_congr rfl fun j hj => Finset.sum_congr rfl fun k hk => Finset.sum_congr rfl fun l hl => ?_
  have e : ∑ a ∈ Finset.range 2, ∑ b ∈ Finset.range 2, ∑ c ∈ Finset.range 2, ∑ d ∈ Finset.range 2, V.val ([i, j, k, l] ++ [a, b, c, d]) * onSite 3 g [a, b, c, d] [i, j, k, l] = ∑ a ∈ Finset.range 2, ket i a * (∑ b ∈ Finset.range 2, ket j b * (∑ c ∈ Finset.range 2, ket k c * (∑ d ∈ Finset.range 2, V.val [i, j, k, l, a, b, c, d] * g d l))) := by
    simp only [Finset.mul_sum]
    refine Finset.sum_congr rfl fun a _ => Finset.sum_congr rfl fun b _ => Finset.sum_congr rfl fun c _ => Finset.sum_congr rfl fun d _ => ?_
    simp only [onSite, ket, List.forall_mem_cons, List.getD_cons_zero, List.getD_cons_succ, List.cons_append, List.nil_append]
    simp
    try split_ifs <;> simp_all
  rw [e]
  simp only [sum_ket (Finset.mem_range.1 hi), sum_ket (Finset.mem_range.1 hj), sum_ket (Finset.mem_range.1 hk), sum_ket (Finset.mem_range.1 hl)]

theorem measure_ok {V op : Tensor ℂ} (hV : V.shape = [2, 2, 2, 2, 2, 2, 2, 2]) (ho : op.shape = [2, 2]) (r : Nat) (hr : r < 4) : plaqMeasure V op r = some (expect V (onSite r fun a i => op.val [i, a])) := by
  interval_cases r
  · obtain ⟨R, e, -, v⟩ := einsum_ok (fun _ => 2) [(V, [3, 0, 1, 2, 4, 0, 1, 2]), (op, [3, 4])] [] (by simp [hV, ho]) (by decide) (by simp)
    have hw := v (fun _ => 0) (by simp)
    have hL : ((List.flatMap Prod.snd [(V, [3, 0, 1, 2, 4, 0, 1, 2]), (op, [3, 4])]).dedup.filter (fun l => l ∉ ([] : List Nat))) = [0, 1, 2, 3, 4] := by
      simp only [List.flatMap_cons, List.flatMap_nil]
      decide
    rw [hL, List.map_nil] at hw
    have e' : plaqMeasure V op 0 = some (R.val []) := by
      rw [plaqMeasure]
      exact (congrArg (· >>= fun x : Tensor ℂ => some (x.val [])) e)
    rw [e', hw, onSite_sum0]
    have ht : ∀ σ : Nat → Nat, termOf [(V, [3, 0, 1, 2, 4, 0, 1, 2]), (op, [3, 4])] σ = V.val [σ 3, σ 0, σ 1, σ 2, σ 4, σ 0, σ 1, σ 2] * op.val [σ 3, σ 4] := fun σ => by simp [termOf]
    simp only [sumOver, ht]
    simp [Function.update]
    simp only [sum_two]
    ring
  · obtain ⟨R, e, -, v⟩ := einsum_ok (fun _ => 2) [(V, [0, 3, 1, 2, 0, 4, 1, 2]), (op, [3, 4])] [] (by simp [hV, ho]) (by decide) (by simp)
    have hw := v (fun _ => 0) (by simp)
    have hL : ((List.flatMap Prod.snd [(V, [0, 3, 1, 2, 0, 4, 1, 2]), (op, [3, 4])]).dedup.filter (fun l => l ∉ ([] : List Nat))) = [0, 1, 2, 3, 4] := by
      simp only [List.flatMap_cons, List.flatMap_nil]
      decide
    rw [hL, List.map_nil] at hw
    have e' : plaqMeasure V op 1 = some (R.val []) := by
      rw [plaqMeasure]
      exact (congrArg (· >>= fun x : Tensor ℂ => some (x.val [])) e)
    rw [e', hw, onSite_sum1]
    have ht : ∀ σ : Nat → Nat, termOf [(V, [0, 3, 1, 2, 0, 4, 1, 2]), (op, [3, 4])] σ = V.val [σ 0, σ 3, σ 1, σ 2, σ 0, σ 4, σ 1, σ 2] * op.val [σ 3, σ 4] := fun σ => by simp [termOf]
    simp only [sumOver, ht]
    simp [Function.update]
    simp only [sum_two]
    ring
  · obtain ⟨R, e, -, v⟩ := einsum_ok (fun _ => 2) [(V, [0, 1, 3, 2, 0, 1, 4, 2]), (op, [3, 4])] [] (by simp [hV, ho]) (by decide) (by simp)
    have hw := v (fun _ => 0) (by simp)
    have hL : ((List.flatMap Prod.snd [(V, [0, 1, 3, 2, 0, 1, 4, 2]), (op, [3, 4])]).dedup.filter (fun l => l ∉ ([] : List Nat))) = [0, 1, 2, 3, 4] := by
      simp only [List.flatMap_cons, List.flatMap_nil]
      decide
    rw [hL, List.map_nil] at hw
    have e' : plaqMeasure V op 2 = some (R.val []) := by
      rw [plaqMeasure]
      exact (congrArg (· >>= fun x : Tensor ℂ => some (x.val [])) e)
    rw [e', hw, onSite_sum2]
    have ht : ∀ σ : Nat → Nat, termOf [(V, [0, 1, 3, 2, 0, 1, 4, 2]), (op, [3, 4])] σ = V.val [σ 0, σ 1, σ 3, σ 2, σ 0, σ 1, σ 4, σ 2] * op.val [σ 3, σ 4] := fun σ => by simp [termOf]
    simp only [sumOver, ht]
    simp [Function.update]
    simp only [sum_two]
    ring
  · obtain ⟨R, e, -, v⟩ := einsum_ok (fun _ => 2) [(V, [0, 1, 2, 3, 0, 1, 2, 4]), (op, [3, 4])] [] (by simp [hV, ho]) (by decide) (by simp)
    have hw := v (fun _ => 0) (by simp)
    have hL : ((List.flatMap Prod.snd [(V, [0, 1, 2, 3, 0, 1, 2, 4]), (op, [3, 4])]).dedup.filter (fun l => l ∉ ([] : List Nat))) = [0, 1, 2, 3, 4] := by
      simp only [List.flatMap_cons, List.flatMap_nil]
      decide
    rw [hL, List.map_nil] at hw
    have e' : plaqMeasure V op 3 = some (R.val []) := by
      rw [plaqMeasure]
      exact (congrArg (· >>= fun x : Tensor ℂ => some (x.val [])) e)
    rw [e', hw, onSite_sum3]
    have ht : ∀ σ : Nat → Nat, termOf [(V, [0, 1, 2, 3, 0, 1, 2, 4]), (op, [3, 4])] σ = V.val [σ 0, σ 1, σ 2, σ 3, σ 0, σ 1, σ 2, σ 4] * op.val [σ 3, σ 4] := fun σ => by simp [termOf]
    simp only [sumOver, ht]
    simp [Function.update]

theorem sum_16 (f : Nat → ℂ) : ∑ n ∈ Finset.range 16, f n = ∑ i ∈ Finset.range 2, ∑ j ∈ Finset.range 2, ∑ k ∈ Finset.range 2, ∑ l ∈ Finset.range 2, f (8 * i + 4 * j + 2 * k + l) := by
  simp [Finset.sum_range_succ]
  ring

theorem onSpin_bits (r : Nat) (hr : r < 4) (o : Nat → Nat → ℂ) (i j k l a b c d : Nat) (hi : i < 2) (hj : j < 2) (hk : k < 2) (hl : l < 2) (ha : a < 2) (hb : b < 2) (hc : c < 2) (hd : d < 2) :
    onSpin r o (8 * a + 4 * b + 2 * c + d) (8 * i + 4 * j + 2 * k + l) = onSite r o [a, b, c, d] [i, j, k, l] := by
  have h : ∀ a b c d : Nat, a < 2 → b < 2 → c < 2 → d < 2 → ∀ x < 4, spins [8 * a + 4 * b + 2 * c + d] x = [a, b, c, d].getD x 0 := by
    intro a b c d ha hb hc hd x hx
    interval_cases x <;> simp [spins, spin] <;> omega
  have h1 := h a b c d ha hb hc hd
  have h2 := h i j k l hi hj hk hl
  unfold onSpin onSpins onSite
  simp only [List.map_cons, List.map_nil, List.getD_cons_zero, h1 r hr, h2 r hr]
  congr 1
  apply propext
  constructor
  · intro H x hx hne
    have hx4 : x < 4 := by
      simp at hx
      omega
    have := H x (List.mem_range.2 hx4)
    rw [h1 x hx4, h2 x hx4] at this
    exact this.resolve_left (by simpa using hne)
  · intro H x hx
    have hx4 : x < 4 := by simpa using hx
    rw [h1 x hx4, h2 x hx4]
    by_cases hne : x = r
    · exact .inl (by simp [hne])
    · exact .inr (H x (by simp; omega) hne)

theorem view_bits {R V : Tensor ℂ} (hR : R.shape = [16, 16]) (e : view [2, 2, 2, 2, 2, 2, 2, 2] R = some V) (r : Nat) (hr : r < 4) (o : Nat → Nat → ℂ) : V.shape = [2, 2, 2, 2, 2, 2, 2, 2] ∧ expect V (onSite r o) = expect1P 16 R (onSpin r o) := by
  rw [view, if_pos (by rw [hR]; decide)] at e
  injection e with e
  subst e
  refine ⟨rfl, ?_⟩
  unfold expect1P
  simp only [sum_16, expect, sumIdx]
  refine Finset.sum_congr rfl fun i hi => Finset.sum_congr rfl fun j hj => Finset.sum_congr rfl fun k hk => Finset.sum_congr rfl fun l hl => Finset.sum_congr rfl fun a ha => Finset.sum_congr rfl fun b hb => Finset.sum_congr rfl fun c hc => Finset.sum_congr rfl fun d hd => ?_
  simp only [Finset.mem_range] at hi hj hk hl ha hb hc hd
  rw [onSpin_bits r hr o i j k l a b c d hi hj hk hl ha hb hc hd]
  congr 1
  have h1 : ravel [2, 2, 2, 2, 2, 2, 2, 2] ([i, j, k, l] ++ [a, b, c, d]) = ravel [16, 16] [8 * i + 4 * j + 2 * k + l, 8 * a + 4 * b + 2 * c + d] := by
    simp [ravel]
    omega
  simp only [hR]
  rw [h1, unravel_ravel (.cons (by omega) (.cons (by omega) .nil))]

theorem onSpin_herm (r : Nat) {o : Nat → Nat → ℂ} (ho : ∀ i j, star (o i j) = o j i) (i j : Nat) : star (onSpin r o i j) = onSpin r o j i := by
  unfold onSpin onSpins
  simp only [List.map_cons, List.map_nil, List.getD_cons_zero]
  have hc : (∀ x ∈ List.range 4, x ∈ [r] ∨ spins [i] x = spins [j] x) ↔ (∀ x ∈ List.range 4, x ∈ [r] ∨ spins [j] x = spins [i] x) := by simp only [eq_comm]
  by_cases h : ∀ x ∈ List.range 4, x ∈ [r] ∨ spins [i] x = spins [j] x
  · rw [if_pos h, if_pos (hc.1 h), ho]
  · rw [if_neg h, if_neg (fun H => h (hc.2 H)), star_zero]

theorem sx_herm (i j : Nat) : star (Energy.Spec.sx i j) = Energy.Spec.sx j i := by
  unfold Energy.Spec.sx
  by_cases h : i = j <;> simp [h, eq_comm]
theorem sy_herm (i j : Nat) : star (Energy.Spec.sy i j) = Energy.Spec.sy j i := by
  unfold Energy.Spec.sy
  rcases lt_trichotomy i j with h | h | h <;> simp [h, h.le, not_lt.2, not_lt.2 h.le]
theorem sz_herm (i j : Nat) : star (Energy.Spec.sz i j) = Energy.Spec.sz j i := by
  unfold Energy.Spec.sz
  by_cases h : i = j
  · subst h
    by_cases h : i = 0 <;> simp [h]
  · simp [h, Ne.symm h]

/-- The combination `sx + w sy` on a spin. -/
theorem expect1P_add (R : Tensor ℂ) (r : Nat) (w : ℂ) (o o' : Nat → Nat → ℂ) : expect1P 16 R (onSpin r fun i j => o i j + w * o' i j) = expect1P 16 R (onSpin r o) + w * expect1P 16 R (onSpin r o') := by
  unfold expect1P
  simp only [Finset.mul_sum, ← Finset.sum_add_distrib]
  refine Finset.sum_congr rfl fun i _ => Finset.sum_congr rfl fun j _ => ?_
  unfold onSpin onSpins
  by_cases h : ∀ x ∈ List.range 4, x ∈ [r] ∨ spins [j] x = spins [i] x
  · simp only [if_pos h]
    ring
  · simp only [if_neg h]
    ring

/-- A tensor with sixteen values on the one-site operators. -/
theorem expect_congr2 (V : Tensor ℂ) (r : Nat) (hr : r < 4) {g g' : Nat → Nat → ℂ} (h : ∀ i < 2, ∀ j < 2, g i j = g' i j) : expect V (onSite r g) = expect V (onSite r g') := by
  simp only [expect, sumIdx]
  refine Finset.sum_congr rfl fun i hi => Finset.sum_congr rfl fun j hj => Finset.sum_congr rfl fun k hk => Finset.sum_congr rfl fun l hl => Finset.sum_congr rfl fun a ha => Finset.sum_congr rfl fun b hb => Finset.sum_congr rfl fun c hc => Finset.sum_congr rfl fun d hd => ?_
  simp only [Finset.mem_range] at hi hj hk hl ha hb hc hd
  unfold onSite
  rw [h]
  · interval_cases r <;> assumption
  · interval_cases r <;> assumption

open Energy.Spec (onsite sx sy sz)

/-- The component `o` of spin `r` of the tensor at the origin. -/
noncomputable def Spec.comp (a : Tensor ℂ) (env : C4v.Env ℂ) (chi D : Nat) (o : Nat → Nat → ℂ) (r : Nat) : ℝ := onsite (C4v.tensors a env) (C4v.Spec.dims chi D 16) (0, 0) (onSpin r o)

/-- The length of the vector of the three components. -/
noncomputable def Spec.len (a : Tensor ℂ) (env : C4v.Env ℂ) (chi D r : Nat) : ℝ := Real.sqrt (Spec.comp a env chi D sx r ^ 2 + Spec.comp a env chi D sy r ^ 2 + Spec.comp a env chi D sz r ^ 2)

section
variable {chi D : Nat} {a : Tensor ℂ} {env : C4v.Env ℂ}
open Spec (comp len)

/-- C112. What `JQ_C4V_PLAQUETTE.eval_obs` returns for every one-site state: the magnetisations, their average and the z-components are those of the four spins of the tensor. Under `sp` it returns `<Sx> - i <Sy>`, the value of `S^-`, and under `sm` the value of `S^+`. -/
theorem C112_value (eigh : Tensor ℂ → List ℝ × Tensor ℂ) (hchi : 0 < chi) (hD : 0 < D) (hf : C4v.Spec.Fits chi D 16 a env) (hS : C4v.Spec.CSymm chi env)
    (h1 : (Corrf.Spec.norm (C4v.tensors a env) (C4v.Spec.dims chi D 16) .right (0, 0) 1).re ≠ 0) :
    plaqObs eigh a env = .ok ⟨(len a env chi D 0 + len a env chi D 1 + len a env chi D 2 + len a env chi D 3) / 4, [0, 1, 2, 3].map (len a env chi D),
      [0, 1, 2, 3].map fun r => ((comp a env chi D sz r : ℂ), comp a env chi D sx r - Complex.I * comp a env chi D sy r, comp a env chi D sx r + Complex.I * comp a env chi D sy r)⟩ := by
  obtain ⟨R, f1, f2, f3⟩ := siteP eigh (by decide : 0 < 16) (C4v.fitsState hD (by decide) hf) (C4v.fitsEnv hchi hf) (C4v.tiling a) (fun _ => rfl) (C4v.reads a env) (0, 0) h1
  have f1' := (C4v.C74_site_partial eigh false false hchi hD (by decide) hf hS (.inl rfl) (0, 0)).trans f1
  obtain ⟨V, e⟩ : ∃ V, view [2, 2, 2, 2, 2, 2, 2, 2] R = some V := by
    rw [view, if_pos (by rw [f2]; decide)]
    exact ⟨_, rfl⟩
  have hV : V.shape = [2, 2, 2, 2, 2, 2, 2, 2] := (view_bits f2 e 0 (by decide) sz).1
  have hz : ∀ r < 4, plaqMeasure V (Energy.opT (Su2.SZ 2)) r = some (comp a env chi D sz r : ℂ) := fun r hr => by
    rw [measure_ok hV rfl r hr, expect_congr2 V r hr (g' := sz), (view_bits f2 e r hr sz).2, f3 _ (onSpin_herm r sz_herm)]
    · rfl
    · intro i hi j hj
      rw [← Energy.sz_val hi hj]
      change Su2.SZ 2 (Fin.ofNat 2 j) (Fin.ofNat 2 i) = _
      rw [Energy.sz_val hj hi, Energy.sz_val hi hj]
      unfold Energy.Spec.sz
      by_cases h : i = j <;> simp [h, eq_comm]
  have hxy : ∀ r < 4, ∀ w : ℂ, expect V (onSite r fun i j => sx i j + w * sy i j) = comp a env chi D sx r + w * comp a env chi D sy r := fun r hr w => by
    rw [(view_bits f2 e r hr _).2, expect1P_add, f3 _ (onSpin_herm r sx_herm), f3 _ (onSpin_herm r sy_herm)]
    rfl
  have hp : ∀ r < 4, plaqMeasure V (Energy.opT (Su2.SP 2)) r = some ((comp a env chi D sx r : ℂ) - Complex.I * comp a env chi D sy r) := fun r hr => by
    rw [measure_ok hV rfl r hr, expect_congr2 V r hr (g' := fun i j => sx i j + (-Complex.I) * sy i j), hxy r hr, neg_mul, ← sub_eq_add_neg]
    intro i hi j hj
    change Su2.SP 2 (Fin.ofNat 2 j) (Fin.ofNat 2 i) = _
    rw [Energy.sp_val hj hi]
    interval_cases i <;> interval_cases j <;> simp [Energy.Spec.sp, sx, sy, ← mul_div_assoc] <;> norm_num
  have hm : ∀ r < 4, plaqMeasure V (Energy.opT (Su2.SM 2)) r = some ((comp a env chi D sx r : ℂ) + Complex.I * comp a env chi D sy r) := fun r hr => by
    rw [measure_ok hV rfl r hr, expect_congr2 V r hr (g' := fun i j => sx i j + Complex.I * sy i j), hxy r hr]
    intro i hi j hj
    change Su2.SM 2 (Fin.ofNat 2 j) (Fin.ofNat 2 i) = _
    rw [Energy.sm_val hj hi]
    interval_cases i <;> interval_cases j <;> simp [Energy.Spec.sm, sx, sy, ← mul_div_assoc] <;> norm_num
  have hlen : ∀ r, Real.sqrt ‖(comp a env chi D sz r : ℂ) ^ 2 + ((comp a env chi D sx r : ℂ) - Complex.I * comp a env chi D sy r) * ((comp a env chi D sx r : ℂ) + Complex.I * comp a env chi D sy r)‖ = len a env chi D r := fun r => by
    rw [len]
    congr 1
    have : (comp a env chi D sz r : ℂ) ^ 2 + ((comp a env chi D sx r : ℂ) - Complex.I * comp a env chi D sy r) * ((comp a env chi D sx r : ℂ) + Complex.I * comp a env chi D sy r) =
        ((comp a env chi D sx r ^ 2 + comp a env chi D sy r ^ 2 + comp a env chi D sz r ^ 2 : ℝ) : ℂ) := by
      push_cast
      linear_combination (-(comp a env chi D sy r : ℂ) ^ 2) * Complex.I_sq
    rw [this, Complex.norm_real, Real.norm_of_nonneg (by positivity)]
  rw [plaqObs, f1', Energy.bindOk, e, C4v.lift_some]
  simp only [List.mapM_cons, List.mapM_nil, hz 0 (by decide), hz 1 (by decide), hz 2 (by decide), hz 3 (by decide), hp 0 (by decide), hp 1 (by decide), hp 2 (by decide), hp 3 (by decide),
    hm 0 (by decide), hm 1 (by decide), hm 2 (by decide), hm 3 (by decide), Option.bind_eq_bind, Option.bind_some, Option.pure_def, C4v.lift_some]
  simp only [List.map_cons, List.map_nil, hlen, List.sum_cons, List.sum_nil, add_zero, ← add_assoc]
  rfl

/-- C112, partial. The full property is that `sp` and `sm` are `<Sx> + i <Sy>` and `<Sx> - i <Sy>`; it holds if no spin has a y-component, which is so for real tensors. -/
theorem C112_labels_partial (eigh : Tensor ℂ → List ℝ × Tensor ℂ) (hchi : 0 < chi) (hD : 0 < D) (hf : C4v.Spec.Fits chi D 16 a env) (hS : C4v.Spec.CSymm chi env)
    (h1 : (Corrf.Spec.norm (C4v.tensors a env) (C4v.Spec.dims chi D 16) .right (0, 0) 1).re ≠ 0) (hy : ∀ r < 4, comp a env chi D sy r = 0) :
    ∃ x, plaqObs eigh a env = .ok x ∧ x.ops = [0, 1, 2, 3].map fun r => ((comp a env chi D sz r : ℂ), comp a env chi D sx r + Complex.I * comp a env chi D sy r, comp a env chi D sx r - Complex.I * comp a env chi D sy r) := by
  refine ⟨_, C112_value eigh hchi hD hf hS h1, ?_⟩
  simp [hy]
end

/-- The state whose first spins are along `3/5 up + 4i/5 down`, the others up. -/
noncomputable def tiltVec (n : Nat) : ℂ := if n = 0 then 3 / 5 else if n = 8 then 4 / 5 * Complex.I else 0
noncomputable def tiltTensor : Tensor ℂ := gSite 16 tiltVec

theorem tilt_expect (o : Corrf.Spec.Op ℂ) : gExpect 16 tiltVec o = 9 / 25 * o 0 0 + 16 / 25 * o 8 8 + 12 / 25 * Complex.I * (o 0 8 - o 8 0) := by
  have h : ∀ f : Nat → ℂ, (∀ n ∈ Finset.range 16, n ≠ 0 → n ≠ 8 → f n = 0) → ∑ n ∈ Finset.range 16, f n = f 0 + f 8 := fun f hf => by
    rw [← Finset.sum_subset (s₁ := {0, 8}) (by decide) (fun n hn hm => by
      simp only [Finset.mem_insert, Finset.mem_singleton, not_or] at hm
      exact hf n hn hm.1 hm.2)]
    simp
  have h0 : ∀ n, n ≠ 0 → n ≠ 8 → tiltVec n = 0 := fun n h0 h8 => by simp [tiltVec, h0, h8]
  rw [gExpect, h _ (fun n _ n0 n8 => Finset.sum_eq_zero fun m _ => by rw [h0 n n0 n8]; simp), h _ (fun n _ n0 n8 => by rw [h0 n n0 n8]; simp), h _ (fun n _ n0 n8 => by rw [h0 n n0 n8]; simp)]
  have e0 : tiltVec 0 = 3 / 5 := rfl
  have e8 : tiltVec 8 = 4 / 5 * Complex.I := rfl
  have c0 : star (3 / 5 : ℂ) = 3 / 5 := by simp
  have c8 : star (4 / 5 * Complex.I) = -(4 / 5 * Complex.I) := by simp
  rw [e0, e8, c0, c8]
  linear_combination (-16 / 25 * o 8 8) * Complex.I_sq

theorem tilt_norm (n : Nat) : Corrf.Spec.norm (C4v.tensors tiltTensor C4v.oneEnv) (C4v.Spec.dims 1 1 16) .right (0, 0) n = 1 := by
  have ht : C4v.tensors tiltTensor C4v.oneEnv = gTensors 16 id fun _ => tiltVec := rfl
  have hd : C4v.Spec.dims 1 1 16 = gDims 16 := rfl
  rw [ht, hd, gNorm _ _ (fun c => by
    rw [tilt_expect]
    simp [Corrf.Spec.one]
    norm_num)]

theorem tilt_comp (o : Nat → Nat → ℂ) (r : Nat) : Spec.comp tiltTensor C4v.oneEnv 1 1 o r = (9 / 25 * onSpin r o 0 0 + 16 / 25 * onSpin r o 8 8 + 12 / 25 * Complex.I * (onSpin r o 0 8 - onSpin r o 8 0)).re := by
  have ht : C4v.tensors tiltTensor C4v.oneEnv = gTensors 16 id fun _ => tiltVec := rfl
  have hd : C4v.Spec.dims 1 1 16 = gDims 16 := rfl
  rw [Spec.comp, onsite, tilt_norm, ht, hd, gNetwork]
  simp only [gAlong, mul_one, Complex.one_re, div_one, tilt_expect]

/-- C112. A product state where the expectation value of `S^+` of the first spin is `12i/25`, and `eval_obs` returns `-12i/25` under the label `sp0`. -/
theorem C112_violated (eigh : Tensor ℂ → List ℝ × Tensor ℂ) : ∃ (a : Tensor ℂ) (env : C4v.Env ℂ) (x : PlaqObs), C4v.Spec.Fits 1 1 16 a env ∧ C4v.Spec.Rotated 1 16 a ∧ C4v.Spec.CSymm 1 env ∧
    (Corrf.Spec.norm (C4v.tensors a env) (C4v.Spec.dims 1 1 16) .right (0, 0) 1).re ≠ 0 ∧ plaqObs eigh a env = .ok x ∧ (x.ops.map fun o => o.2.1)[0]? = some (-(12 / 25) * Complex.I) ∧
    (Spec.comp a env 1 1 sx 0 : ℂ) + Complex.I * Spec.comp a env 1 1 sy 0 = 12 / 25 * Complex.I := by
  have hx : Spec.comp tiltTensor C4v.oneEnv 1 1 sx 0 = 0 := by
    rw [tilt_comp]
    simp [onSpin, onSpins, List.range_succ, spins, spin, sx]
  have hy : Spec.comp tiltTensor C4v.oneEnv 1 1 sy 0 = 12 / 25 := by
    rw [tilt_comp]
    simp [onSpin, onSpins, List.range_succ, spins, spin, sy]
    norm_num
  refine ⟨tiltTensor, C4v.oneEnv, _, ⟨rfl, rfl, rfl, rfl⟩, ⟨1, by simp, fun i u l d r _ _ _ _ _ => by simp [tiltTensor, gSite]⟩, C4v.oneEnv_c, by rw [tilt_norm]; simp,
    C112_value (chi := 1) (D := 1) eigh (by decide) (by decide) ⟨rfl, rfl, rfl, rfl⟩ C4v.oneEnv_c (by rw [tilt_norm]; simp), ?_, ?_⟩
  · simp [hx, hy, mul_comm]
  · rw [hx, hy]
    push_cast
    ring

/-- C112: the tilted state has spins of length 1/2. -/
example (eigh : Tensor ℂ → List ℝ × Tensor ℂ) : ∃ x, plaqObs eigh tiltTensor C4v.oneEnv = .ok x ∧ x.m[0]? = some (1 / 2) := by
  refine ⟨_, C112_value (chi := 1) (D := 1) eigh (by decide) (by decide) ⟨rfl, rfl, rfl, rfl⟩ C4v.oneEnv_c (by rw [tilt_norm]; simp), ?_⟩
  simp only [List.map_cons, List.getElem?_cons_zero, Option.some.injEq, Spec.len, tilt_comp]
  simp [onSpin, onSpins, List.range_succ, spins, spin, sx, sy, sz]
  rw [Real.sqrt_eq_iff_mul_self_eq] <;> norm_num

/-- C112: the antiferromagnetic tensor has no y-components. -/
example (eigh : Tensor ℂ → List ℝ × Tensor ℂ) : ∃ x, plaqObs eigh neelTensor C4v.oneEnv = .ok x ∧ x.ops.map (fun o => o.1) = [1 / 2, -1 / 2, -1 / 2, 1 / 2] ∧ (∀ r < 4, Spec.comp neelTensor C4v.oneEnv 1 1 sy r = 0) := by
  have hc : ∀ (o : Nat → Nat → ℂ) r, Spec.comp neelTensor C4v.oneEnv 1 1 o r = (onSpin r o 6 6).re := fun o r => ketSite id (fun _ => (6 : Fin 16)) (0, 0) (onSpin r o)
  have hn : (Corrf.Spec.norm (C4v.tensors neelTensor C4v.oneEnv) (C4v.Spec.dims 1 1 16) .right (0, 0) 1).re ≠ 0 := by
    have ht : C4v.tensors neelTensor C4v.oneEnv = gTensors 16 id fun _ => ket 6 := rfl
    have hd : C4v.Spec.dims 1 1 16 = gDims 16 := rfl
    rw [ht, hd, gNorm _ _ (fun c => ket_norm (by decide))]
    simp
  refine ⟨_, C112_value eigh (by decide) (by decide) neelTensor_fits C4v.oneEnv_c hn, ?_, ?_⟩
  · simp [hc, onSpin, onSpins, List.range_succ, spins, spin, sz]
  · intro r hr
    rw [hc]
    interval_cases r <;> simp [onSpin, onSpins, List.range_succ, spins, spin, sy]

end Verif.Models
