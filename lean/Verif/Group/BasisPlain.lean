import Verif.Group.BasisOrbit
/-
Helper lemmas: the branch of `generate_a_basis` without charges.
-/
namespace Verif.SymBasis
open Pg.Spec
open Spec (IsBasis)
variable {K : Type} [Field K] [LinearOrder K] [IsStrictOrderedRing K]

/-- Multi-index of an element. -/
def lst (r : Nat × T4) : List Nat := [r.1, r.2 0, r.2 1, r.2 2, r.2 3]

theorem lst_inj {a b : Nat × T4} (h : lst a = lst b) : a = b := by
  simp only [lst, List.cons.injEq, and_true] at h
  obtain ⟨h0, h1, h2, h3, h4⟩ := h
  exact Prod.ext h0 (t4_ext.2 ⟨h1, h2, h3, h4⟩)

theorem mem_indices_lst {d D : Nat} {r : Nat × T4} :
    lst r ∈ Tensor.indices [d, D, D, D, D] ↔ r.1 < d ∧ ∀ i, r.2 i < D := by
  rw [Tensor.mem_indices]
  simp only [Tensor.InB, lst, List.forall₂_cons, List.forall₂_nil_left_iff, and_true]
  constructor
  · rintro ⟨h, h0, h1, h2, h3⟩
    refine ⟨h, fun i => ?_⟩
    fin_cases i
    · exact h0
    · exact h1
    · exact h2
    · exact h3
  · rintro ⟨h, h'⟩
    exact ⟨h, h' 0, h' 1, h' 2, h' 3⟩

theorem exists_lst {d D : Nat} {idx : List Nat} (h : idx ∈ Tensor.indices [d, D, D, D, D]) :
    ∃ r, idx = lst r := by
  obtain ⟨s, u, l, dn, r, rfl, _⟩ := Pg.inB5 (Tensor.mem_indices.1 h)
  exact ⟨(s, ![u, l, dn, r]), rfl⟩

theorem ind_nonneg (P : Prop) [Decidable P] : (0 : K) ≤ if P then 1 else 0 := by
  split_ifs
  · exact zero_le_one
  · exact le_rfl

/-- The symmetrised unit tensor of the element `r`. -/
structure SymUnit (d D : Nat) (r : Nat × T4) (t : Tensor K) : Prop where
  run : Pg.symmA1 ⟨[d, D, D, D, D], fun idx => if idx = lst r then (1 : K) else 0⟩ = some t
  symm : Transforms chA1 d D t
  nonneg : ∀ x, 0 ≤ t.val (lst x)
  pos : ∀ x, RelP x r → 1 / 8 ≤ t.val (lst x)
  zero : ∀ x, ¬ RelP x r → t.val (lst x) = 0

theorem symUnit (d D : Nat) (r : Nat × T4) : ∃ t : Tensor K, SymUnit d D r t := by
  obtain ⟨w, hw, hv⟩ := Pg.projection_eq (K := K) .A1 (by decide) d D
    (fun idx => if idx = lst r then (1 : K) else 0)
  obtain ⟨s, a⟩ := r
  have hval : ∀ x : Nat × T4, w (lst x) = 8⁻¹ * (
      ((if s = x.1 ∧ a 0 = x.2 0 ∧ a 1 = x.2 1 ∧ a 2 = x.2 2 ∧ a 3 = x.2 3 then 1 else 0)
      + (if s = x.1 ∧ a 0 = x.2 1 ∧ a 1 = x.2 2 ∧ a 2 = x.2 3 ∧ a 3 = x.2 0 then 1 else 0)
      + (if s = x.1 ∧ a 0 = x.2 2 ∧ a 1 = x.2 3 ∧ a 2 = x.2 0 ∧ a 3 = x.2 1 then 1 else 0)
      + (if s = x.1 ∧ a 0 = x.2 3 ∧ a 1 = x.2 0 ∧ a 2 = x.2 1 ∧ a 3 = x.2 2 then 1 else 0))
      + ((if s = x.1 ∧ a 0 = x.2 0 ∧ a 1 = x.2 3 ∧ a 2 = x.2 2 ∧ a 3 = x.2 1 then 1 else 0)
      + (if s = x.1 ∧ a 0 = x.2 1 ∧ a 1 = x.2 0 ∧ a 2 = x.2 3 ∧ a 3 = x.2 2 then 1 else 0)
      + (if s = x.1 ∧ a 0 = x.2 2 ∧ a 1 = x.2 1 ∧ a 2 = x.2 0 ∧ a 3 = x.2 3 then 1 else 0)
      + (if s = x.1 ∧ a 0 = x.2 3 ∧ a 1 = x.2 2 ∧ a 2 = x.2 1 ∧ a 3 = x.2 0 then 1 else 0))) := by
    intro x
    rw [lst, hv]
    have e : ∀ b c d e f : Nat, (([b, c, d, e, f] : List Nat) = lst (s, a)) =
        (s = b ∧ a 0 = c ∧ a 1 = d ∧ a 2 = e ∧ a 3 = f) := by
      intro b c d e f
      simp only [lst, List.cons.injEq, and_true, eq_iff_iff]
      constructor <;> (rintro ⟨rfl, rfl, rfl, rfl, rfl⟩; exact ⟨rfl, rfl, rfl, rfl, rfl⟩)
    simp only [Pg.avg, Pg.Spec.chOf, chA1, Int.cast_one, one_mul, e]
  refine ⟨⟨[d, D, D, D, D], w⟩, hw, ?_, ?_, ?_, ?_⟩
  · exact Pg.C14_transforms .A1 (by decide) d D _ _ rfl hw
  · intro x
    simp only [hval]
    have h8 : (0 : K) ≤ 8⁻¹ := by positivity
    refine mul_nonneg h8 ?_
    have := @ind_nonneg K _ _ _
    refine add_nonneg (add_nonneg (add_nonneg (add_nonneg ?_ ?_) ?_) ?_)
      (add_nonneg (add_nonneg (add_nonneg ?_ ?_) ?_) ?_) <;> exact ind_nonneg _
  · rintro x ⟨hs, hrel⟩
    have hrel := (rel_iff _ _).1 hrel.symm
    simp only [hval]
    have hs' : s = x.1 := hs.symm
    generalize hx1 : (if s = x.1 ∧ a 0 = x.2 0 ∧ a 1 = x.2 1 ∧ a 2 = x.2 2 ∧ a 3 = x.2 3 then (1 : K) else 0) = x1
    generalize hx2 : (if s = x.1 ∧ a 0 = x.2 1 ∧ a 1 = x.2 2 ∧ a 2 = x.2 3 ∧ a 3 = x.2 0 then (1 : K) else 0) = x2
    generalize hx3 : (if s = x.1 ∧ a 0 = x.2 2 ∧ a 1 = x.2 3 ∧ a 2 = x.2 0 ∧ a 3 = x.2 1 then (1 : K) else 0) = x3
    generalize hx4 : (if s = x.1 ∧ a 0 = x.2 3 ∧ a 1 = x.2 0 ∧ a 2 = x.2 1 ∧ a 3 = x.2 2 then (1 : K) else 0) = x4
    generalize hx5 : (if s = x.1 ∧ a 0 = x.2 0 ∧ a 1 = x.2 3 ∧ a 2 = x.2 2 ∧ a 3 = x.2 1 then (1 : K) else 0) = x5
    generalize hx6 : (if s = x.1 ∧ a 0 = x.2 1 ∧ a 1 = x.2 0 ∧ a 2 = x.2 3 ∧ a 3 = x.2 2 then (1 : K) else 0) = x6
    generalize hx7 : (if s = x.1 ∧ a 0 = x.2 2 ∧ a 1 = x.2 1 ∧ a 2 = x.2 0 ∧ a 3 = x.2 3 then (1 : K) else 0) = x7
    generalize hx8 : (if s = x.1 ∧ a 0 = x.2 3 ∧ a 1 = x.2 2 ∧ a 2 = x.2 1 ∧ a 3 = x.2 0 then (1 : K) else 0) = x8
    have n1 : 0 ≤ x1 := hx1 ▸ ind_nonneg _
    have n2 : 0 ≤ x2 := hx2 ▸ ind_nonneg _
    have n3 : 0 ≤ x3 := hx3 ▸ ind_nonneg _
    have n4 : 0 ≤ x4 := hx4 ▸ ind_nonneg _
    have n5 : 0 ≤ x5 := hx5 ▸ ind_nonneg _
    have n6 : 0 ≤ x6 := hx6 ▸ ind_nonneg _
    have n7 : 0 ≤ x7 := hx7 ▸ ind_nonneg _
    have n8 : 0 ≤ x8 := hx8 ▸ ind_nonneg _
    have key : 1 ≤ (x1 + x2 + x3 + x4) + (x5 + x6 + x7 + x8) := by
      rcases hrel with h | h | h | h | h | h | h | h
      · rw [if_pos ⟨hs', h⟩] at hx1; linarith
      · rw [if_pos ⟨hs', h⟩] at hx2; linarith
      · rw [if_pos ⟨hs', h⟩] at hx3; linarith
      · rw [if_pos ⟨hs', h⟩] at hx4; linarith
      · rw [if_pos ⟨hs', h⟩] at hx5; linarith
      · rw [if_pos ⟨hs', h⟩] at hx6; linarith
      · rw [if_pos ⟨hs', h⟩] at hx7; linarith
      · rw [if_pos ⟨hs', h⟩] at hx8; linarith
    have e8 : (8 : K)⁻¹ = 1 / 8 := (one_div 8).symm
    rw [e8]
    linarith
  · intro x hx
    simp only [hval]
    have hn : ∀ P : Prop, (s = x.1 ∧ P) → (P → Rel a x.2) → False := fun P h hP =>
      hx ⟨h.1.symm, (hP h.2).symm⟩
    rw [if_neg fun h => hn _ h fun h => (rel_iff _ _).2 (Or.inl h),
      if_neg fun h => hn _ h fun h => (rel_iff _ _).2 (Or.inr (Or.inl h)),
      if_neg fun h => hn _ h fun h => (rel_iff _ _).2 (Or.inr (Or.inr (Or.inl h))),
      if_neg fun h => hn _ h fun h => (rel_iff _ _).2 (Or.inr (Or.inr (Or.inr (Or.inl h)))),
      if_neg fun h => hn _ h fun h => (rel_iff _ _).2 (Or.inr (Or.inr (Or.inr (Or.inr (Or.inl h))))),
      if_neg fun h => hn _ h fun h => (rel_iff _ _).2 (Or.inr (Or.inr (Or.inr (Or.inr (Or.inr (Or.inl h)))))),
      if_neg fun h => hn _ h fun h => (rel_iff _ _).2 (Or.inr (Or.inr (Or.inr (Or.inr (Or.inr (Or.inr (Or.inl h))))))),
      if_neg fun h => hn _ h fun h => (rel_iff _ _).2 (Or.inr (Or.inr (Or.inr (Or.inr (Or.inr (Or.inr (Or.inr h)))))))]
    ring

theorem RelP.symm {a b : Nat × T4} (h : RelP a b) : RelP b a := ⟨h.1.symm, h.2.symm⟩
theorem RelP.trans {a b c : Nat × T4} (h : RelP a b) (h' : RelP b c) : RelP a c :=
  ⟨h.1.trans h'.1, h.2.trans h'.2⟩
theorem RelP.refl (a : Nat × T4) : RelP a a := ⟨rfl, Rel.refl _⟩

theorem dot_near {d D : Nat} {r r' : Nat × T4} {t t' : Tensor K} (h : SymUnit d D r t)
    (h' : SymUnit d D r' t') (hr : r.1 < d ∧ ∀ i, r.2 i < D) :
    nearZero (dot [d, D, D, D, D] t t') ↔ ¬ RelP r' r := by
  constructor
  · intro hn hrel
    have h1 : t.val (lst r) * t'.val (lst r) ≤ dot [d, D, D, D, D] t t' := by
      unfold dot
      refine List.single_le_sum ?_ _ (List.mem_map.2 ⟨lst r, mem_indices_lst.2 hr, rfl⟩)
      intro x hx
      obtain ⟨idx, hidx, rfl⟩ := List.mem_map.1 hx
      obtain ⟨y, rfl⟩ := exists_lst hidx
      exact mul_nonneg (h.nonneg y) (h'.nonneg y)
    have h2 := h.pos r (RelP.refl _)
    have h3 := h'.pos r hrel.symm
    have h4 : (1 / 8 : K) * (1 / 8) ≤ t.val (lst r) * t'.val (lst r) :=
      mul_le_mul h2 h3 (by norm_num) ((by norm_num : (0:K) ≤ 1/8).trans h2)
    have h5 := (abs_le.1 hn).2
    have h6 : (1 / 100000000 : K) < 1 / 8 * (1 / 8) := by norm_num
    linarith
  · intro hrel
    have : dot [d, D, D, D, D] t t' = 0 := by
      unfold dot
      refine List.sum_eq_zero ?_
      intro x hx
      obtain ⟨idx, hidx, rfl⟩ := List.mem_map.1 hx
      obtain ⟨y, rfl⟩ := exists_lst hidx
      by_cases hy : RelP y r
      · rw [h'.zero y fun hy' => hrel (hy'.symm.trans hy), mul_zero]
      · rw [h.zero y hy, zero_mul]
    unfold nearZero
    rw [this, abs_zero]
    norm_num

/-- State of the loop after the elements `done`. -/
structure LoopInv (d D : Nat) (done : List (List Nat)) (rows : List (Tensor K)) (reps : List (Nat × T4)) :
    Prop where
  rows : List.Forall₂ (fun r t => (r.1 < d ∧ ∀ i, r.2 i < D) ∧ SymUnit d D r t) reps rows
  apart : reps.Pairwise fun a b => ¬ RelP a b
  cover : ∀ x, lst x ∈ done → ∃ r ∈ reps, RelP x r

theorem loop_step {d D : Nat} {done : List (List Nat)} {rows : List (Tensor K)} {reps : List (Nat × T4)}
    (h : LoopInv d D done rows reps) (x : Nat × T4) (hx : x.1 < d ∧ ∀ i, x.2 i < D) :
    ∃ rows' reps', symStepRow [d, D, D, D, D] rows (lst x) = some rows' ∧
      LoopInv d D (done ++ [lst x]) rows' reps' := by
  obtain ⟨t, ht⟩ := symUnit (K := K) d D x
  have hbig : ¬ ∀ idx ∈ Tensor.indices [d, D, D, D, D], nearZero (t.val idx) := by
    intro hall
    have h1 := (abs_le.1 (hall _ (mem_indices_lst.2 hx))).2
    have h2 := ht.pos x (RelP.refl _)
    have : (1 / 100000000 : K) < 1 / 8 := by norm_num
    linarith
  have hor : (∀ r ∈ rows, nearZero (dot [d, D, D, D, D] r t)) ↔ ∀ r ∈ reps, ¬ RelP x r := by
    obtain ⟨hl, hg⟩ := List.forall₂_iff_get.1 h.rows
    constructor
    · intro hall r hr
      obtain ⟨⟨k, hk⟩, rfl⟩ := List.get_of_mem hr
      have := hg k hk (hl ▸ hk)
      exact (dot_near this.2 ht this.1).1 (hall _ (List.get_mem _ _))
    · intro hall r hr
      obtain ⟨⟨k, hk⟩, rfl⟩ := List.get_of_mem hr
      have hk' : k < reps.length := by omega
      have := hg k hk' hk
      exact (dot_near this.2 ht this.1).2 (hall _ (List.get_mem _ _))
  have hrun : symStepRow [d, D, D, D, D] rows (lst x) =
      some (if (¬ ∀ idx ∈ Tensor.indices [d, D, D, D, D], nearZero (t.val idx)) ∧
        (∀ r ∈ rows, nearZero (dot [d, D, D, D, D] r t)) then rows ++ [t] else rows) := by
    unfold symStepRow
    rw [ht.run]
    rfl
  rw [hrun]
  by_cases hc : ∀ r ∈ rows, nearZero (dot [d, D, D, D, D] r t)
  · refine ⟨rows ++ [t], reps ++ [x], by rw [if_pos ⟨hbig, hc⟩], ?_, ?_, ?_⟩
    · exact List.rel_append h.rows (List.Forall₂.cons ⟨hx, ht⟩ .nil)
    · rw [List.pairwise_append]
      refine ⟨h.apart, List.pairwise_singleton _ _, ?_⟩
      intro a ha b hb hrel
      obtain rfl := List.mem_singleton.1 hb
      exact hor.1 hc a ha hrel.symm
    · intro y hy
      rcases List.mem_append.1 hy with hy | hy
      · obtain ⟨r, hr, hrel⟩ := h.cover y hy
        exact ⟨r, List.mem_append_left _ hr, hrel⟩
      · obtain rfl := lst_inj (List.mem_singleton.1 hy)
        exact ⟨y, by simp, RelP.refl _⟩
  · refine ⟨rows, reps, by rw [if_neg fun h => hc h.2], h.rows, h.apart, ?_⟩
    intro y hy
    rcases List.mem_append.1 hy with hy | hy
    · exact h.cover y hy
    · obtain rfl := lst_inj (List.mem_singleton.1 hy)
      rw [hor] at hc
      push_neg at hc
      exact hc

theorem loop_all {d D : Nat} (l : List (List Nat)) (hl : ∀ i ∈ l, i ∈ Tensor.indices [d, D, D, D, D]) :
    ∀ (done : List (List Nat)) (rows : List (Tensor K)) (reps : List (Nat × T4)),
      LoopInv d D done rows reps →
      ∃ rows' reps', l.foldlM (symStepRow [d, D, D, D, D]) rows = some rows' ∧
        LoopInv d D (done ++ l) rows' reps' := by
  induction l with
  | nil =>
    intro done rows reps h
    exact ⟨rows, reps, rfl, by simpa using h⟩
  | cons i is ih =>
    intro done rows reps h
    have hi := hl i List.mem_cons_self
    obtain ⟨x, rfl⟩ := exists_lst hi
    obtain ⟨rows1, reps1, h1, h2⟩ := loop_step h x (mem_indices_lst.1 hi)
    obtain ⟨rows2, reps2, h3, h4⟩ := ih (fun j hj => hl j (List.mem_cons_of_mem _ hj)) _ _ _ h2
    refine ⟨rows2, reps2, ?_, by simpa using h4⟩
    rw [List.foldlM_cons, h1]
    exact h3

theorem symUnit_onOrbit {d D : Nat} {r : Nat × T4} {t : Tensor K} (h : SymUnit d D r t)
    (hr : r.1 < d ∧ ∀ i, r.2 i < D) : OnOrbit d D r t := by
  refine ⟨h.symm, hr.1, hr.2, fun s f _ _ => ?_⟩
  show t.val (lst (s, f)) ≠ 0 ↔ RelP (s, f) r
  constructor
  · intro hne
    by_contra hrel
    exact hne (h.zero _ hrel)
  · intro hrel h0
    have := h.pos _ hrel
    rw [h0] at this
    exact absurd this (by norm_num)

end Verif.SymBasis
