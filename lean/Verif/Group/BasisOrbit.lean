import Verif.Group.BasisLemmas
import Verif.Group.BasisSpec
import Mathlib.Algebra.BigOperators.Group.Finset.Piecewise
import Mathlib.Algebra.Order.Ring.Abs
import Mathlib.Algebra.Order.BigOperators.Group.List
import Mathlib.Tactic.FieldSimp
import Mathlib.Tactic.NormNum
import Mathlib.Tactic.Positivity
/-
Helper lemmas: a list of symmetric tensors supported on different orbits is a basis.
-/
namespace Verif.SymBasis
open Pg.Spec
open Spec (IsBasis Conserves charge)
variable {K : Type}

theorem entry_rel [Ring K] {p D : Nat} {A : Tensor K} (h : Transforms chA1 p D A) {s : Nat} {f r : T4}
    (hs : s < p) (hr : ∀ i, r i < D) (hrel : Rel f r) : entry A s f = entry A s r := by
  obtain ⟨g, rfl⟩ := hrel
  rw [h.2 g s r hs hr]
  cases g <;> simp [Character.at, chA1]

/-- `b` is a symmetric tensor supported on the orbit of the element `r`. -/
structure OnOrbit [Ring K] (p D : Nat) (r : Nat × T4) (b : Tensor K) : Prop where
  symm : Transforms chA1 p D b
  phys : r.1 < p
  aux : ∀ i, r.2 i < D
  supp : ∀ s f, s < p → (∀ i, f i < D) → (entry b s f ≠ 0 ↔ s = r.1 ∧ Rel f r.2)

def RelP (a b : Nat × T4) : Prop := a.1 = b.1 ∧ Rel a.2 b.2

theorem orbit_basis [Field K] (p D : Nat) (reps : List (Nat × T4)) (bs : List (Tensor K))
    (h : List.Forall₂ (OnOrbit p D) reps bs) (hp : reps.Pairwise fun a b => ¬ RelP a b)
    (Q : Nat → T4 → Prop)
    (hQ : ∀ s f g, (∀ i, g i < D) → Rel f g → Q s g → Q s f)
    (hr : ∀ r ∈ reps, Q r.1 r.2)
    (hc : ∀ s f, s < p → (∀ i, f i < D) → Q s f → ∃ r ∈ reps, RelP (s, f) r) :
    IsBasis p D (fun A => Transforms chA1 p D A ∧
      ∀ s f, s < p → (∀ i, f i < D) → entry A s f ≠ 0 → Q s f) bs := by
  obtain ⟨hl, hg⟩ := List.forall₂_iff_get.1 h
  have hk : ∀ k : Fin bs.length, OnOrbit p D (reps.get (Fin.cast hl.symm k)) (bs.get k) :=
    fun k => hg k.1 (Fin.cast hl.symm k).2 k.2
  have hdis : ∀ k k' : Fin bs.length, ∀ s f, s < p → (∀ i, f i < D) → entry (bs.get k) s f ≠ 0 →
      entry (bs.get k') s f ≠ 0 → k = k' := by
    intro k k' s f hs hf h1 h2
    obtain ⟨e1, r1⟩ := ((hk k).supp s f hs hf).1 h1
    obtain ⟨e2, r2⟩ := ((hk k').supp s f hs hf).1 h2
    by_contra hne
    have hne' : k.1 ≠ k'.1 := fun e => hne (Fin.ext e)
    rw [List.pairwise_iff_get] at hp
    rcases Nat.lt_or_gt_of_ne hne' with hlt | hlt
    · exact hp (Fin.cast hl.symm k) (Fin.cast hl.symm k') hlt ⟨e1.symm.trans e2, r1.symm.trans r2⟩
    · exact hp (Fin.cast hl.symm k') (Fin.cast hl.symm k) hlt ⟨e2.symm.trans e1, r2.symm.trans r1⟩
  have hself : ∀ k : Fin bs.length, entry (bs.get k) (reps.get (Fin.cast hl.symm k)).1
      (reps.get (Fin.cast hl.symm k)).2 ≠ 0 := fun k =>
    ((hk k).supp _ _ (hk k).phys (hk k).aux).2 ⟨rfl, Rel.refl _⟩
  refine ⟨?_, ?_, ?_⟩
  · intro b hb
    obtain ⟨k, rfl⟩ := List.get_of_mem hb
    refine ⟨(hk k).symm, fun s f hs hf hne => ?_⟩
    obtain ⟨e, r⟩ := ((hk k).supp s f hs hf).1 hne
    rw [e]
    exact hQ _ _ _ (hk k).aux r (hr _ (List.get_mem _ _))
  · rw [List.pairwise_iff_get]
    intro k k' hlt s f hs hf
    by_contra hne
    have := hdis k k' s f hs hf (left_ne_zero_of_mul hne) (right_ne_zero_of_mul hne)
    exact absurd this (Fin.ne_of_lt hlt)
  · rintro A ⟨hA, hAQ⟩
    have hsum : ∀ (c : Fin bs.length → K) (k : Fin bs.length) s f, s < p → (∀ i, f i < D) →
        entry (bs.get k) s f ≠ 0 → ∑ k', c k' * entry (bs.get k') s f = c k * entry (bs.get k) s f := by
      intro c k s f hs hf hne
      refine Finset.sum_eq_single k (fun k' _ hk' => ?_) (fun hk' => absurd (Finset.mem_univ _) hk')
      by_contra h0
      exact hk' (hdis k' k s f hs hf (right_ne_zero_of_mul h0) hne)
    refine ⟨fun k => entry A (reps.get (Fin.cast hl.symm k)).1 (reps.get (Fin.cast hl.symm k)).2 /
      entry (bs.get k) (reps.get (Fin.cast hl.symm k)).1 (reps.get (Fin.cast hl.symm k)).2, ?_, ?_⟩
    · intro s f hs hf
      by_cases hex : ∃ k, entry (bs.get k) s f ≠ 0
      · obtain ⟨k, hne⟩ := hex
        rw [hsum _ k s f hs hf hne]
        obtain ⟨e, r⟩ := ((hk k).supp s f hs hf).1 hne
        rw [e, entry_rel hA (hk k).phys (hk k).aux r, entry_rel (hk k).symm (hk k).phys (hk k).aux r,
          div_mul_cancel₀ _ (hself k)]
      · have h0 : ∀ k, entry (bs.get k) s f = 0 := fun k => by
          by_contra hne
          exact hex ⟨k, hne⟩
        simp only [h0, mul_zero, Finset.sum_const_zero]
        by_contra hne
        obtain ⟨r, hrm, hrel⟩ := hc s f hs hf (hAQ s f hs hf hne)
        obtain ⟨⟨k, hkl⟩, rfl⟩ := List.get_of_mem hrm
        exact hex ⟨(Fin.cast hl ⟨k, hkl⟩), ((hk (Fin.cast hl ⟨k, hkl⟩)).supp s f hs hf).2 hrel⟩
    · intro c hcc
      funext k
      have := hcc _ _ (hk k).phys (hk k).aux
      rw [hsum c k _ _ (hk k).phys (hk k).aux (hself k)] at this
      rw [this, mul_div_cancel_right₀ _ (hself k)]

/-! Enumeration with charges. -/

/-- The element carries the total charge. -/
def allowed (charges : List Int) (total : Int) (p s : Nat) (f : T4) : Bool :=
  decide (charge charges p s f = total)

theorem charge_rel (charges : List Int) (p s : Nat) {f g : T4} (h : Rel f g) :
    charge charges p s f = charge charges p s g := by
  unfold charge
  rw [Fin.sum_univ_four, Fin.sum_univ_four]
  rw [rel_iff] at h
  rcases h with ⟨h1, h2, h3, h4⟩ | ⟨h1, h2, h3, h4⟩ | ⟨h1, h2, h3, h4⟩ | ⟨h1, h2, h3, h4⟩ |
    ⟨h1, h2, h3, h4⟩ | ⟨h1, h2, h3, h4⟩ | ⟨h1, h2, h3, h4⟩ | ⟨h1, h2, h3, h4⟩ <;>
  rw [h1, h2, h3, h4] <;> ring

theorem u1Filter_eq (charges : List Int) (total : Int) (p D s : Nat) (f : T4)
    (hl : charges.length = p + D) (hs : s < p) (hf : ∀ i, f i < D) :
    u1Filter charges total p s f = some (allowed charges total p s f) := by
  have e : ∀ n, n < charges.length → charges[n]? = some (charges.getD n 0) := by
    intro n hn
    rw [List.getElem?_eq_getElem hn, List.getD_eq_getElem?_getD, List.getElem?_eq_getElem hn]
    rfl
  have h0 := e (p + f 0) (by have := hf 0; omega)
  have h1 := e (p + f 1) (by have := hf 1; omega)
  have h2 := e (p + f 2) (by have := hf 2; omega)
  have h3 := e (p + f 3) (by have := hf 3; omega)
  unfold u1Filter
  rw [e s (by omega)]
  simp only [List.mapM_cons, List.mapM_nil, h0, h1, h2, h3, Option.bind_eq_bind, Option.bind_some,
    Option.pure_def, allowed, charge, Fin.sum_univ_four, List.cons_append, List.nil_append,
    List.sum_cons, List.sum_nil, add_zero]
  congr 1
  rw [decide_eq_decide]
  constructor <;> intro h <;> linarith

theorem filterOpt_eq {α : Type} (f : α → Option Bool) (g : α → Bool) (l : List α)
    (h : ∀ a ∈ l, f a = some (g a)) : filterOpt f l = some (l.filter g) := by
  induction l with
  | nil => rfl
  | cons a as ih =>
    simp only [filterOpt, h a List.mem_cons_self, ih (fun b hb => h b (List.mem_cons_of_mem _ hb)),
      Option.bind_eq_bind, Option.bind_some, List.filter_cons]

theorem mapM_eq {α β : Type} (f : α → Option β) (g : α → β) (l : List α)
    (h : ∀ a ∈ l, f a = some (g a)) : l.mapM f = some (l.map g) := by
  induction l with
  | nil => rfl
  | cons a as ih =>
    simp only [List.mapM_cons, h a List.mem_cons_self, ih (fun b hb => h b (List.mem_cons_of_mem _ hb)),
      Option.bind_eq_bind, Option.bind_some, Option.pure_def, List.map_cons]

/-- The tensor built in the loop body. -/
def unitT [Zero K] [One K] (D : Nat) (r : Nat × T4) : Tensor K :=
  ⟨[2, D, D, D, D], fun idx => match idx with
      | [s', u, l, d, r'] => if s' = r.1 ∧ ![u, l, d, r'] ∈ genC4v r.2 then 1 else 0
      | _ => 0⟩

theorem unitOn_eq [Zero K] [One K] (D s : Nat) (r : T4) (hs : s < 2) (hr : ∀ i, r i < D) :
    unitOn (K := K) D s (genC4v r) = some (unitT D (s, r)) := by
  unfold unitOn
  rw [if_pos ⟨hs, fun f hf => rel_bound ((mem_genC4v _ _).1 hf) hr⟩]
  rfl

theorem entry_unitT [Zero K] [One K] (D : Nat) (r : Nat × T4) (s : Nat) (f : T4) :
    entry (unitT (K := K) D r) s f = if s = r.1 ∧ f ∈ genC4v r.2 then 1 else 0 := by
  have : (![f 0, f 1, f 2, f 3] : T4) = f := t4_ext.2 ⟨rfl, rfl, rfl, rfl⟩
  simp only [entry, unitT, this]

theorem unitT_onOrbit [Field K] (D : Nat) (r : Nat × T4) (hs : r.1 < 2) (hr : ∀ i, r.2 i < D) :
    OnOrbit (K := K) 2 D r (unitT D r) := by
  refine ⟨⟨rfl, ?_⟩, hs, hr, ?_⟩
  · intro g s f _ _
    rw [entry_unitT, entry_unitT]
    have : Rel (fun i => f (g.act i)) r.2 ↔ Rel f r.2 :=
      ⟨fun h => (Rel.symm ⟨g, rfl⟩).trans h, fun h => Rel.trans ⟨g, rfl⟩ h⟩
    have hm : ((fun i => f (g.act i)) ∈ genC4v r.2) ↔ f ∈ genC4v r.2 := by
      rw [mem_genC4v, mem_genC4v]
      exact this
    have hc : ((chA1.at g : Int) : K) = 1 := by
      cases g <;> simp [Character.at, chA1]
    rw [hc, one_mul]
    by_cases h : s = r.1 ∧ f ∈ genC4v r.2
    · rw [if_pos h, if_pos ⟨h.1, hm.2 h.2⟩]
    · rw [if_neg h, if_neg fun h' => h ⟨h'.1, hm.1 h'.2⟩]
  · intro s f _ _
    rw [entry_unitT, ← mem_genC4v]
    by_cases h : s = r.1 ∧ f ∈ genC4v r.2
    · simp [if_pos h, h.1, h.2]
    · simp [if_neg h, h]

/-- The elements selected by the charges, one per orbit, in the order of the result. -/
def selected (charges : List Int) (total : Int) (dimH : Nat) (reps : List (List T4)) : List (Nat × T4) :=
  (List.range dimH).flatMap fun d => (reps.flatten.filter (allowed charges total dimH d)).map (d, ·)

/-- The set iteration order: an element of every non-empty set. -/
def Picks (pick : Finset T4 → T4) : Prop := ∀ o : Finset T4, o.Nonempty → pick o ∈ o

theorem group_eq {pick : Finset T4 → T4} (hpick : Picks pick) (charges : List Int)
    (total : Int) (p D d : Nat) (hl : charges.length = p + D) (hd : d < p) (rs : List T4)
    (hrs : ∀ r ∈ rs, ∀ i, r i < D) :
    filterOpt (fun x => u1Filter charges total p d (pick x)) (rs.map genC4v) =
      some ((rs.filter (allowed charges total p d)).map genC4v) := by
  have hrel : ∀ r, Rel (pick (genC4v r)) r := fun r =>
    (mem_genC4v _ _).1 (hpick _ ⟨r, seed_mem r⟩)
  rw [filterOpt_eq _ (fun x => allowed charges total p d (pick x))]
  · congr 1
    rw [List.filter_map]
    congr 1
    refine List.filter_congr fun r _ => ?_
    simp only [Function.comp, allowed, charge_rel charges p d (hrel r)]
  · intro o ho
    obtain ⟨r, hr, rfl⟩ := List.mem_map.1 ho
    exact u1Filter_eq charges total p D d _ hl hd (rel_bound (hrel r) (hrs r hr))

theorem getBasis_eq [Zero K] [One K] {pick : Finset T4 → T4} (hpick : Picks pick) (charges : List Int)
    (total : Int) (D : Nat) (hl : charges.length = 2 + D) (reps : List (List T4))
    (hreps : genUptoD D = reps.map (·.map genC4v)) (hb : ∀ r ∈ reps.flatten, ∀ i, r i < D) :
    getBasisUptoD (K := K) pick D 2 (u1Filter charges total 2) =
      some ((selected charges total 2 reps).map (unitT D)) := by
  have key : ∀ d < 2, (do
      let per ← (genUptoD D).mapM fun group => do
        let sel ← filterOpt (fun x => u1Filter charges total 2 d (pick x)) group
        sel.mapM (unitOn (K := K) D d)
      some per.flatten) =
      some ((reps.flatten.filter (allowed charges total 2 d)).map fun r => unitT D (d, r)) := by
    intro d hd
    rw [hreps, List.mapM_map, mapM_eq _ (fun rs : List T4 =>
      (rs.filter (allowed charges total 2 d)).map fun r => unitT (K := K) D (d, r))]
    · simp only [Option.bind_eq_bind, Option.bind_some]
      congr 1
      rw [List.filter_flatten, List.map_flatten, List.map_map]
      rfl
    · intro rs hrs
      have hrs' : ∀ r ∈ rs, ∀ i, r i < D := fun r hr => hb r (List.mem_flatten.2 ⟨rs, hrs, hr⟩)
      simp only [Function.comp]
      rw [group_eq hpick charges total 2 D d hl hd rs hrs']
      simp only [Option.bind_eq_bind, Option.bind_some]
      rw [List.mapM_map, mapM_eq _ (fun r : T4 => unitT (K := K) D (d, r))]
      intro r hr
      exact unitOn_eq D d r hd (hrs' r (List.mem_of_mem_filter hr))
  unfold getBasisUptoD
  rw [mapM_eq _ (fun d => (reps.flatten.filter (allowed charges total 2 d)).map
    fun r => unitT (K := K) D (d, r)) _ (fun d hd => key d (List.mem_range.1 hd))]
  simp only [Option.bind_eq_bind, Option.bind_some, selected, List.map_flatMap, List.map_map]
  rw [List.flatMap_def]
  rfl

theorem mem_selected {charges : List Int} {total : Int} {p : Nat} {reps : List (List T4)} {r : Nat × T4} :
    r ∈ selected charges total p reps ↔
      r.1 < p ∧ r.2 ∈ reps.flatten ∧ charge charges p r.1 r.2 = total := by
  obtain ⟨s, f⟩ := r
  simp only [selected, List.mem_flatMap, List.mem_range, List.mem_map, List.mem_filter, Prod.mk.injEq,
    allowed, decide_eq_true_eq]
  constructor
  · rintro ⟨a, h1, b, ⟨h2, h3⟩, rfl, rfl⟩
    exact ⟨h1, h2, h3⟩
  · rintro ⟨h1, h2, h3⟩
    exact ⟨s, h1, f, ⟨h2, h3⟩, rfl, rfl⟩

theorem selected_pairwise (charges : List Int) (total : Int) (p : Nat) (reps : List (List T4))
    (h : reps.flatten.Pairwise fun a b => ¬ Rel a b) :
    (selected charges total p reps).Pairwise fun a b => ¬ RelP a b := by
  unfold selected
  rw [List.pairwise_flatMap]
  refine ⟨fun d _ => ?_, ?_⟩
  · rw [List.pairwise_map]
    exact (h.filter _).imp fun hab hrel => hab hrel.2
  · refine (List.nodup_range (n := p)).imp fun {d d'} hne a ha b hb hrel => ?_
    obtain ⟨x, _, rfl⟩ := List.mem_map.1 ha
    obtain ⟨y, _, rfl⟩ := List.mem_map.1 hb
    exact hne hrel.1

theorem forall₂_map_self {α β : Type} {R : α → β → Prop} {f : α → β} {l : List α}
    (h : ∀ a ∈ l, R a (f a)) : List.Forall₂ R l (l.map f) := by
  rw [List.forall₂_map_right_iff]
  exact List.forall₂_same.2 h

end Verif.SymBasis
