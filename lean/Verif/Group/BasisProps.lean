import Verif.Group.BasisChange
import Mathlib.Data.Rat.Defs
import Mathlib.Algebra.Order.Ring.Rat
import Mathlib.Algebra.Field.Rat
/-
Property theorems for /repo/u1sym/basis.py.
-/
namespace Verif.SymBasis
open Pg.Spec
open Spec (Image IsBasis Conserves charge inner combined embedded SubsetOf)
variable {K : Type}

/-- C80. The orbit generated from a tuple of indices contains exactly its images under the eight
symmetries of the square lattice, for every tuple, also when the tuple is itself symmetric. -/
theorem C80_orbit (seed a : T4) : a ∈ genC4v seed ↔ Image seed a := mem_genC4v a seed

example : Image ![0, 1, 0, 2] ![2, 0, 1, 0] ∧ ¬ Image ![0, 0, 1, 1] ![0, 1, 0, 1] := by
  refine ⟨⟨.rot 3, by decide⟩, ?_⟩
  rw [← C80_orbit]
  decide

/-- C80. For every bond dimension the generated orbits are disjoint, each is the full orbit of one
tuple, and together they contain every tuple of indices below the bond dimension and no other. -/
theorem C80_partition (D : Nat) :
    (∀ o ∈ (genUptoD D).flatten, ∃ seed : T4, (∀ i, seed i < D) ∧ ∀ a, a ∈ o ↔ Image seed a) ∧
    (genUptoD D).flatten.Pairwise Disjoint ∧
    ∀ a : T4, (∀ i, a i < D) ↔ ∃ o ∈ (genUptoD D).flatten, a ∈ o := by
  obtain ⟨reps, h1, h2, h3, h4⟩ := genUptoD_spec D
  have hf : (genUptoD D).flatten = reps.flatten.map genC4v := by rw [h1, List.map_flatten]
  rw [hf]
  refine ⟨?_, ?_, ?_⟩
  · intro o ho
    obtain ⟨r, hr, rfl⟩ := List.mem_map.1 ho
    exact ⟨r, h2 r hr, fun a => C80_orbit r a⟩
  · rw [List.pairwise_map]
    refine h3.imp fun {a b} hab => ?_
    rw [Finset.disjoint_left]
    intro x hx hy
    exact hab (((mem_genC4v _ _).1 hx).symm.trans ((mem_genC4v _ _).1 hy))
  · intro a
    constructor
    · intro ha
      obtain ⟨r, hr, hrel⟩ := h4 a ha
      exact ⟨_, List.mem_map_of_mem hr, (mem_genC4v _ _).2 hrel⟩
    · rintro ⟨o, ho, hao⟩
      obtain ⟨r, hr, rfl⟩ := List.mem_map.1 ho
      exact rel_bound ((mem_genC4v _ _).1 hao) (h2 r hr)

/-- C80. The orbits come in groups of growing bond dimension: those of the group `D` use the index
`D - 1` and no larger one. -/
theorem C80_groups (D : Nat) (hD : 0 < D) (o : Finset T4) (ho : o ∈ genT D) (a : T4) (ha : a ∈ o) :
    (∀ i, a i < D) ∧ ∃ i, a i = D - 1 := by
  obtain ⟨reps, h1, h2, _, _⟩ := genT_spec D hD
  rw [h1] at ho
  obtain ⟨r, hr, rfl⟩ := List.mem_map.1 ho
  have hrel := (mem_genC4v _ _).1 ha
  obtain ⟨hb, i, hi⟩ := h2 r hr
  refine ⟨rel_bound hrel hb, ?_⟩
  obtain ⟨g, hg⟩ := hrel.symm
  exact ⟨g.act i, by rw [← hi, hg]⟩

example : ∃ o ∈ genT 3, (![2, 0, 1, 0] : T4) ∈ o := by
  obtain ⟨reps, h1, _, _, h4⟩ := genT_spec 3 (by decide)
  obtain ⟨r, hr, hrel⟩ := h4 ![2, 0, 1, 0] (by decide) ⟨0, by decide⟩
  exact ⟨genC4v r, by rw [h1]; exact List.mem_map_of_mem hr, (mem_genC4v _ _).2 hrel⟩

/-- C81. Spin-1/2 sites: for every bond dimension, every assignment of charges, every total charge and
every iteration order of Python sets, the returned tensors have entries 0 and 1 and form an orthogonal
basis of the space of on-site tensors which are invariant under all lattice symmetries and conserve the
charge; the call fails exactly when this space contains only the zero tensor.
Missing: other physical dimensions, see `C81_violated`, `C81_single_violated`. -/
theorem C81_basis_partial [Field K] [LinearOrder K] {pick : Finset T4 → T4} (hpick : Picks pick)
    (D : Nat) (charges : List Int) (total : Int) (hl : charges.length = 2 + D) :
    (∃ bs : List (Tensor K), generateABasis pick 2 D (some charges) (some total) = some bs ∧ bs ≠ [] ∧
      (∀ b ∈ bs, ∀ s f, entry b s f = 0 ∨ entry b s f = 1) ∧
      IsBasis 2 D (fun A => Transforms chA1 2 D A ∧ Conserves charges total 2 D A) bs) ∨
    (generateABasis (K := K) pick 2 D (some charges) (some total) = none ∧
      ∀ A : Tensor K, Transforms chA1 2 D A → Conserves charges total 2 D A →
        ∀ s f, s < 2 → (∀ i, f i < D) → entry A s f = 0) := by
  obtain ⟨reps, h1, h2, h3, h4⟩ := genUptoD_spec D
  have hrun := getBasis_eq (K := K) hpick charges total D hl reps h1 h2
  have hbas : IsBasis (K := K) 2 D (fun A => Transforms chA1 2 D A ∧ Conserves charges total 2 D A)
      ((selected charges total 2 reps).map (unitT D)) := by
    refine orbit_basis 2 D (selected charges total 2 reps) _ (forall₂_map_self fun r hr => ?_)
      (selected_pairwise _ _ _ _ h3) (fun s f => charge charges 2 s f = total) ?_ ?_ ?_
    · obtain ⟨r1, r2, _⟩ := mem_selected.1 hr
      exact unitT_onOrbit D r r1 (h2 _ r2)
    · intro s f g _ hrel hg
      rw [charge_rel charges 2 s hrel, hg]
    · intro r hr
      exact (mem_selected.1 hr).2.2
    · intro s f hs hf hq
      obtain ⟨r, hr, hrel⟩ := h4 f hf
      exact ⟨(s, r), mem_selected.2 ⟨hs, hr, by rw [← charge_rel charges 2 s hrel, hq]⟩, rfl, hrel⟩
  unfold generateABasis
  simp only [hl, if_true, hrun, Option.bind_eq_bind, Option.bind_some]
  by_cases he : selected charges total 2 reps = []
  · refine Or.inr ⟨by simp [he], ?_⟩
    intro A hA hC s f hs hf
    obtain ⟨c, hc, _⟩ := hbas.expand A ⟨hA, hC⟩
    rw [hc s f hs hf]
    refine Finset.sum_eq_zero fun k _ => ?_
    have := k.2
    simp [he] at this
  · refine Or.inl ⟨_, if_pos ?_, by simpa using he, ?_, hbas⟩
    · rw [List.length_map]
      exact List.length_pos_of_ne_nil he
    · intro b hb s f
      obtain ⟨r, _, rfl⟩ := List.mem_map.1 hb
      rw [entry_unitT]
      split_ifs
      · exact Or.inr rfl
      · exact Or.inl rfl

/-- Charges of the D = 3 resonating-valence-bond family: the hypotheses can be met, and the basis is
not empty. -/
example : ∃ pick : Finset T4 → T4, Picks pick ∧ ∃ bs : List (Tensor ℚ),
    generateABasis pick 2 3 (some [1, -1, -1, 0, 1]) (some 0) = some bs ∧ bs ≠ [] := by
  classical
  have hpick : Picks fun o => if h : o.Nonempty then h.choose else ![0, 0, 0, 0] := by
    intro o ho
    simp only [dif_pos ho]
    exact ho.choose_spec
  refine ⟨_, hpick, ?_⟩
  rcases C81_basis_partial (K := ℚ) hpick 3 [1, -1, -1, 0, 1] 0 rfl with ⟨bs, h, hne, _⟩ | ⟨_, h⟩
  · exact ⟨bs, h, hne⟩
  · exfalso
    have ho := unitT_onOrbit (K := ℚ) 3 (0, ![1, 1, 1, 0]) (by decide) (by decide)
    have h1 := (ho.supp 0 ![1, 1, 1, 0] (by decide) (by decide)).2 ⟨rfl, Rel.refl _⟩
    refine h1 (h _ ho.symm ?_ 0 ![1, 1, 1, 0] (by decide) (by decide))
    intro s f hs hf hne
    obtain ⟨rfl, hrel⟩ := (ho.supp s f hs hf).1 hne
    show charge _ 2 0 f = 0
    rw [charge_rel _ 2 0 hrel]
    decide

/-- C81. The result does not depend on the order in which sets are traversed. -/
theorem C81_order_independent [Field K] [LinearOrder K] {pick pick' : Finset T4 → T4} (h : Picks pick)
    (h' : Picks pick') (D : Nat) (charges : Option (List Int)) (total : Option Int) :
    generateABasis (K := K) pick 2 D charges total = generateABasis pick' 2 D charges total := by
  unfold generateABasis
  cases charges with
  | none => rfl
  | some q =>
    cases total with
    | none => rfl
    | some t =>
      by_cases hl : q.length = 2 + D
      · obtain ⟨reps, h1, h2, _, _⟩ := genUptoD_spec D
        simp only [hl, if_true, getBasis_eq (K := K) h q t D hl reps h1 h2,
          getBasis_eq (K := K) h' q t D hl reps h1 h2]
      · simp only [if_neg hl]

/-- C81. A list of charges of the wrong length is refused. -/
theorem C81_length [Field K] [LinearOrder K] (pick : Finset T4 → T4) (p D : Nat) (charges : List Int)
    (total : Int) (h : charges.length ≠ p + D) :
    generateABasis (K := K) pick p D (some charges) (some total) = none := by
  simp only [generateABasis, if_neg h]

example : ([1, -1, 0] : List Int).length ≠ 2 + 2 := by decide

/-- C81 fails for larger spins: with three or more physical states the call raises as soon as the
charges allow any tensor with a non-zero entry at a physical index of 2 or more. -/
theorem C81_violated [Field K] [LinearOrder K] {pick : Finset T4 → T4} (hpick : Picks pick) (p D : Nat)
    (charges : List Int) (total : Int) (hl : charges.length = p + D) (s : Nat) (f : T4) (hs : 2 ≤ s)
    (hsp : s < p) (hf : ∀ i, f i < D) (hq : charge charges p s f = total) :
    generateABasis (K := K) pick p D (some charges) (some total) = none := by
  obtain ⟨reps, h1, h2, h3, h4⟩ := genUptoD_spec D
  obtain ⟨r, hr, hrel⟩ := h4 f hf
  obtain ⟨rs, hrs, hrm⟩ := List.mem_flatten.1 hr
  have hnone : ∀ {α β : Type} (g : α → Option β) (l : List α) (a : α), a ∈ l → g a = none → l.mapM g = none := by
    intro α β g l a ha hg
    induction l with
    | nil => exact absurd ha List.not_mem_nil
    | cons b bs ih =>
      rw [List.mapM_cons]
      rcases List.mem_cons.1 ha with rfl | ha
      · rw [hg]; rfl
      · cases g b with
        | none => rfl
        | some v => rw [ih ha]; rfl
  have hb : getBasisUptoD (K := K) pick D p (u1Filter charges total p) = none := by
    unfold getBasisUptoD
    rw [hnone _ _ s (List.mem_range.2 hsp)]
    · rfl
    · rw [hnone _ _ (rs.map genC4v) (by rw [h1]; exact List.mem_map_of_mem hrs)]
      · rfl
      · rw [group_eq hpick charges total p D s hl hsp rs
          (fun r' hr' => h2 r' (List.mem_flatten.2 ⟨rs, hrs, hr'⟩))]
        show List.mapM (unitOn (K := K) D s) _ = none
        refine hnone _ _ (genC4v r) (List.mem_map_of_mem (List.mem_filter.2 ⟨hrm, ?_⟩)) ?_
        · rw [allowed, ← charge_rel charges p s hrel, hq]
          exact decide_eq_true rfl
        · unfold unitOn
          rw [if_neg fun h => absurd h.1 (by omega)]
  simp only [generateABasis, hl, if_true, hb]
  rfl

/-- A spin-1 site with auxiliary spins 1/2: the AKLT tensor conserves the charge, but the basis cannot be
generated. -/
example {pick : Finset T4 → T4} (hpick : Picks pick) :
    generateABasis (K := ℚ) pick 3 2 (some [2, 0, -2, 1, -1]) (some 0) = none :=
  C81_violated hpick 3 2 _ _ rfl 2 ![0, 0, 0, 1] (by decide) (by decide) (by decide) (by decide)

/-- C81 fails for sites with a single physical state: the returned tensors have two physical states. -/
theorem C81_single_violated [Field K] [LinearOrder K] (pick : Finset T4 → T4) (D : Nat)
    (charges : List Int) (total : Int) (bs : List (Tensor K))
    (h : generateABasis pick 1 D (some charges) (some total) = some bs) :
    ∀ b ∈ bs, b.shape = [2, D, D, D, D] := by
  simp only [generateABasis] at h
  split_ifs at h with hl
  simp only [Option.bind_eq_bind, Option.bind_eq_some_iff] at h
  obtain ⟨bs', h1, h2⟩ := h
  split_ifs at h2
  simp only [Option.some.injEq] at h2
  subst h2
  have hmem : ∀ {α β : Type} (g : α → Option β) (l : List α) (r : List β), l.mapM g = some r →
      ∀ b ∈ r, ∃ a ∈ l, g a = some b := by
    intro α β g l
    induction l with
    | nil =>
      intro r hr b hb
      cases hr
      exact absurd hb List.not_mem_nil
    | cons x xs ih =>
      intro r hr b hb
      simp only [List.mapM_cons, Option.bind_eq_bind, Option.bind_eq_some_iff, Option.pure_def,
        Option.some.injEq] at hr
      obtain ⟨y, hy, ys, hys, rfl⟩ := hr
      rcases List.mem_cons.1 hb with rfl | hb
      · exact ⟨x, List.mem_cons_self, hy⟩
      · obtain ⟨a, ha, hab⟩ := ih ys hys b hb
        exact ⟨a, List.mem_cons_of_mem _ ha, hab⟩
  simp only [getBasisUptoD, Option.bind_eq_bind, Option.bind_eq_some_iff, Option.some.injEq] at h1
  obtain ⟨per, h1, rfl⟩ := h1
  intro b hb
  obtain ⟨l, hl', hbl⟩ := List.mem_flatten.1 hb
  obtain ⟨d, _, hd⟩ := hmem _ _ _ h1 l hl'
  simp only [Option.bind_eq_some_iff, Option.some.injEq] at hd
  obtain ⟨per', h3, rfl⟩ := hd
  obtain ⟨l2, hl2, hbl2⟩ := List.mem_flatten.1 hbl
  obtain ⟨grp, _, hg⟩ := hmem _ _ _ h3 l2 hl2
  simp only [Option.bind_eq_some_iff] at hg
  obtain ⟨sel, _, h5⟩ := hg
  obtain ⟨o, _, ho⟩ := hmem _ _ _ h5 b hbl2
  unfold unitOn at ho
  split_ifs at ho
  simp only [Option.some.injEq] at ho
  subst ho
  rfl

/-- C82. Without charges, for every physical and every bond dimension, the returned tensors form an
orthogonal basis of the space of all on-site tensors invariant under the lattice symmetries; the
numerical tolerance of the orthogonality test never changes the outcome. -/
theorem C82_basis_plain [Field K] [LinearOrder K] [IsStrictOrderedRing K] (pick : Finset T4 → T4)
    (p D : Nat) (hp : 0 < p) (hD : 0 < D) (total : Option Int) :
    ∃ bs : List (Tensor K), generateABasis pick p D none total = some bs ∧
      IsBasis p D (fun A => Transforms chA1 p D A) bs := by
  obtain ⟨rows, reps, h1, h2⟩ := loop_all (K := K) (Tensor.indices [p, D, D, D, D]) (fun _ h => h) [] [] []
    ⟨.nil, List.Pairwise.nil, by simp⟩
  refine ⟨rows, ?_, ?_⟩
  · have hne : ¬ p * D * D * D * D = 0 := by positivity
    simp only [generateABasis, basisNoU1, if_neg hne, h1]
  · have := orbit_basis p D reps rows (h2.rows.imp fun {r t} h => symUnit_onOrbit h.2 h.1) h2.apart
      (fun _ _ => True) (fun _ _ _ _ _ _ => trivial) (fun _ _ => trivial) (fun s f hs hf _ => by
        refine h2.cover (s, f) ?_
        rw [List.nil_append]
        exact mem_indices_lst.2 ⟨hs, hf⟩)
    refine ⟨fun b hb => (this.inSpace b hb).1, this.disjoint, fun A hA => ?_⟩
    exact this.expand A ⟨hA, fun _ _ _ _ _ => trivial⟩

/-- C82. Charges without a total charge are ignored, and empty tensors are refused. -/
theorem C82_total_none [Field K] [LinearOrder K] (pick : Finset T4 → T4) (p D : Nat)
    (charges : Option (List Int)) :
    generateABasis (K := K) pick p D charges none = generateABasis pick p D none none := by
  cases charges <;> rfl

theorem C82_empty [Field K] [LinearOrder K] (pick : Finset T4 → T4) (p D : Nat) (h : p = 0 ∨ D = 0)
    (total : Option Int) : generateABasis (K := K) pick p D none total = none := by
  have : p * D * D * D * D = 0 := by
    rcases h with rfl | rfl <;> simp
  simp only [generateABasis, basisNoU1, if_pos this]

theorem inner_self_ne [Field K] [LinearOrder K] [IsStrictOrderedRing K] (p D : Nat) (A : Tensor K) (s : Nat)
    (f : T4) (hs : s < p) (hf : ∀ i, f i < D) (hne : entry A s f ≠ 0) : inner p D A A ≠ 0 := by
  rw [← dot_inner]
  have h1 : A.val (lst (s, f)) * A.val (lst (s, f)) ≤ dot [p, D, D, D, D] A A := by
    unfold dot
    refine List.single_le_sum ?_ _ (List.mem_map.2 ⟨lst (s, f), mem_indices_lst.2 ⟨hs, hf⟩, rfl⟩)
    intro x hx
    obtain ⟨idx, _, rfl⟩ := List.mem_map.1 hx
    exact mul_self_nonneg _
  have h2 : 0 < A.val (lst (s, f)) * A.val (lst (s, f)) := mul_self_pos.2 hne
  exact (h2.trans_le h1).ne'

/-- C83. Change of basis of the parameters of a state: when the old basis is a subset of the new one up
to order, rescaling and an increase of the bond dimension, the new parameters exist, those of elements
without counterpart are the noise, and with no noise the on-site tensor is unchanged apart from the
embedding into the larger bond dimension.
Missing: the check that the old basis is such a subset, see `C83_check_violated`. -/
theorem C83_rebase_partial [Field K] [DecidableEq K] (p D0 D1 : Nat) (hD : D0 ≤ D1)
    (basis0 basis : List (Tensor K))
    (pos : Fin basis0.length → Fin basis.length) (scale : Fin basis0.length → K)
    (h : SubsetOf p D0 D1 basis0 basis pos scale)
    (horth : ∀ y y' : Fin basis.length, y ≠ y' → inner p D1 (basis.get y) (basis.get y') = 0)
    (hpos : ∀ y : Fin basis.length, inner p D1 (basis.get y) (basis.get y) ≠ 0)
    (params noise : List K) (hp : params.length = basis0.length) (hn : noise.length = basis.length) :
    ∃ new, rebaseParams params p D0 D1 basis0 basis noise = some new ∧ new.length = basis.length ∧
      (∀ y : Fin basis.length, (∀ x, pos x ≠ y) → new[y.1]? = noise[y.1]?) ∧
      ((∀ v ∈ noise, v = 0) → ∀ s f, s < p → (∀ i, f i < D1) →
        combined new basis [s, f 0, f 1, f 2, f 3] = embedded D0 (combined params basis0) s f) := by
  obtain ⟨new, h1, h2, h3, h4⟩ := rebase_ok p D0 D1 hD basis0 basis pos scale h horth hpos params noise hp hn
  refine ⟨new, h1, h2, h4, ?_⟩
  intro hz s f hs hf
  rw [combined_eq _ _ h2]
  have himg : ∑ k : Fin basis.length, new.getD k.1 0 * (basis.get k).val [s, f 0, f 1, f 2, f 3] =
      ∑ x : Fin basis0.length, new.getD (pos x).1 0 * (basis.get (pos x)).val [s, f 0, f 1, f 2, f 3] := by
    rw [← Finset.sum_image (s := Finset.univ) (g := pos)
      (f := fun k => new.getD k.1 0 * (basis.get k).val [s, f 0, f 1, f 2, f 3])
      (fun x _ y _ e => h.inj x y e)]
    symm
    refine Finset.sum_subset (Finset.subset_univ _) fun y _ hy => ?_
    have hy' : ∀ x, pos x ≠ y := fun x e => hy (Finset.mem_image.2 ⟨x, Finset.mem_univ _, e⟩)
    have hl : y.1 < noise.length := by rw [hn]; exact y.2
    have : new.getD y.1 0 = 0 := by
      rw [List.getD_eq_getElem?_getD, h4 y hy', List.getElem?_eq_getElem hl]
      exact hz _ (List.getElem_mem hl)
    rw [this, zero_mul]
  rw [himg]
  have hterm : ∀ x : Fin basis0.length, new.getD (pos x).1 0 * (basis.get (pos x)).val [s, f 0, f 1, f 2, f 3] =
      params.getD x.1 0 * embedded D0 (basis0.get x).val s f := by
    intro x
    rw [h.same x s f hs hf, List.getD_eq_getElem?_getD, h3 x]
    simp only [Option.getD_some, entry]
    ring
  rw [Finset.sum_congr rfl fun x _ => hterm x]
  unfold embedded
  by_cases hf0 : ∀ i, f i < D0
  · simp only [if_pos hf0]
    rw [combined_eq _ _ hp]
  · simp only [if_neg hf0, mul_zero, Finset.sum_const_zero]

/-- C83. In particular a state in the basis generated for bond dimension `D0` can be moved to the basis
generated for any larger bond dimension with additional auxiliary charges: the call succeeds and the
tensor is unchanged apart from the embedding. -/
theorem C83_generated [Field K] [LinearOrder K] [IsStrictOrderedRing K] {pick : Finset T4 → T4}
    (hpick : Picks pick) (D0 D1 : Nat) (hD : D0 ≤ D1) (charges0 charges1 : List Int) (total : Int)
    (h0 : charges0.length = 2 + D0) (h1 : charges1.length = 2 + D1) (hpre : charges0 <+: charges1)
    (basis0 basis : List (Tensor K))
    (hb0 : generateABasis pick 2 D0 (some charges0) (some total) = some basis0)
    (hb1 : generateABasis pick 2 D1 (some charges1) (some total) = some basis)
    (params : List K) (hp : params.length = basis0.length) :
    ∃ new, rebaseParams params 2 D0 D1 basis0 basis (List.replicate basis.length 0) = some new ∧
      new.length = basis.length ∧
      ∀ s f, s < 2 → (∀ i, f i < D1) →
        combined new basis [s, f 0, f 1, f 2, f 3] = embedded D0 (combined params basis0) s f := by
  obtain ⟨reps0, a1, a2, a3, a4⟩ := genUptoD_spec D0
  obtain ⟨reps1, b1, b2, b3, b4⟩ := genUptoD_spec D1
  have hlen1 : reps1.length = D1 := by
    have := congrArg List.length b1
    simpa [genUptoD] using this.symm
  have hpre' : genUptoD D0 = (reps1.take D0).map (·.map genC4v) := by
    rw [List.map_take, ← b1]
    unfold genUptoD
    rw [← List.map_take]
    have e : List.range' 1 D1 = List.range' 1 D0 ++ List.range' (1 + D0) (D1 - D0) := by
      rw [List.range'_append_1]
      congr 1
      omega
    rw [e, List.take_left' (by simp)]
  have hbd : ∀ r ∈ (reps1.take D0).flatten, ∀ i, r i < D0 := by
    intro r hr
    obtain ⟨rs, hrs, hrm⟩ := List.mem_flatten.1 hr
    have : genC4v r ∈ (genUptoD D0).flatten := by
      rw [hpre']
      exact List.mem_flatten.2 ⟨rs.map genC4v, List.mem_map_of_mem hrs, List.mem_map_of_mem hrm⟩
    exact ((C80_partition D0).2.2 r).2 ⟨_, this, seed_mem r⟩
  have e0 := getBasis_eq (K := K) hpick charges0 total D0 h0 (reps1.take D0) hpre' hbd
  have e1 := getBasis_eq (K := K) hpick charges1 total D1 h1 reps1 b1 b2
  have hbas0 : basis0 = (selected charges0 total 2 (reps1.take D0)).map (unitT D0) := by
    simp only [generateABasis, h0, if_true, e0, Option.bind_eq_bind, Option.bind_some] at hb0
    split_ifs at hb0
    exact (Option.some.inj hb0).symm
  have hbas1 : basis = (selected charges1 total 2 reps1).map (unitT D1) := by
    simp only [generateABasis, h1, if_true, e1, Option.bind_eq_bind, Option.bind_some] at hb1
    split_ifs at hb1
    exact (Option.some.inj hb1).symm
  subst hbas0 hbas1
  have hcharge : ∀ s f, s < 2 → (∀ i, f i < D0) → charge charges1 2 s f = charge charges0 2 s f := by
    obtain ⟨ex, rfl⟩ := hpre
    have e : ∀ n, n < charges0.length → (charges0 ++ ex).getD n 0 = charges0.getD n 0 := by
      intro n hn
      rw [List.getD_eq_getElem?_getD, List.getD_eq_getElem?_getD, List.getElem?_append_left hn]
    intro s f hs hf
    unfold charge
    rw [e s (by omega)]
    congr 1
    exact Finset.sum_congr rfl fun i _ => e _ (by have := hf i; omega)
  have hsub : ∀ r ∈ selected charges0 total 2 (reps1.take D0), r ∈ selected charges1 total 2 reps1 := by
    intro r hr
    obtain ⟨r1, r2, r3⟩ := mem_selected.1 hr
    refine mem_selected.2 ⟨r1, ?_, ?_⟩
    · obtain ⟨rs, hrs, hrm⟩ := List.mem_flatten.1 r2
      exact List.mem_flatten.2 ⟨rs, List.mem_of_mem_take hrs, hrm⟩
    · rw [hcharge _ _ r1 (hbd _ r2), r3]
  have hpw0 : (reps1.take D0).flatten.Pairwise fun a b => ¬ Rel a b := by
    have : (reps1.take D0).flatten.Sublist reps1.flatten := (List.take_sublist _ _).flatten
    exact b3.sublist this
  have hnd0 : (selected charges0 total 2 (reps1.take D0)).Nodup :=
    (selected_pairwise charges0 total 2 _ hpw0).imp (by
      intro a b hab e
      subst e
      exact hab (RelP.refl _))
  have hpw1 := selected_pairwise charges1 total 2 reps1 b3
  generalize hS0 : selected charges0 total 2 (reps1.take D0) = S0 at *
  generalize hS1 : selected charges1 total 2 reps1 = S1 at *
  have hex : ∀ x : Fin (S0.map (unitT (K := K) D0)).length, ∃ y : Fin (S1.map (unitT (K := K) D1)).length,
      S0[x.1]'(by simpa using x.2) = S1[y.1]'(by simpa using y.2) := by
    intro x
    obtain ⟨i, hi, he⟩ := List.getElem_of_mem (hsub _ (List.getElem_mem (l := S0) (by simpa using x.2)))
    exact ⟨⟨i, by simpa using hi⟩, he.symm⟩
  choose pos hposeq using hex
  have hb0' : ∀ r ∈ S0, r.1 < 2 ∧ ∀ i, r.2 i < D0 := by
    intro r hr
    rw [← hS0] at hr
    obtain ⟨r1, r2, _⟩ := mem_selected.1 hr
    exact ⟨r1, hbd _ r2⟩
  have hb1' : ∀ r ∈ S1, r.1 < 2 ∧ ∀ i, r.2 i < D1 := by
    intro r hr
    rw [← hS1] at hr
    obtain ⟨r1, r2, _⟩ := mem_selected.1 hr
    exact ⟨r1, b2 _ r2⟩
  have hSub : SubsetOf 2 D0 D1 (S0.map (unitT (K := K) D0)) (S1.map (unitT D1)) pos (fun _ => 1) := by
    refine ⟨?_, ?_, fun _ => one_ne_zero⟩
    · intro x y hxy
      have := (hposeq x).trans ((by simp only [hxy] : _ = _).trans (hposeq y).symm)
      exact Fin.ext ((List.Nodup.getElem_inj_iff hnd0).1 this)
    · intro x s f hs hf
      have hx : x.1 < S0.length := by simpa using x.2
      have hy : (pos x).1 < S1.length := by simpa using (pos x).2
      rw [one_mul]
      have g0 : (S0.map (unitT (K := K) D0)).get x = unitT D0 S0[x.1] := by simp
      have g1 : (S1.map (unitT (K := K) D1)).get (pos x) = unitT D1 S0[x.1] := by
        rw [hposeq x]; simp
      rw [g0, g1, entry_unitT]
      have hr := hb0' _ (List.getElem_mem hx)
      unfold embedded
      by_cases hf0 : ∀ i, f i < D0
      · rw [if_pos hf0]
        exact entry_unitT D0 _ s f
      · rw [if_neg hf0, if_neg fun h => hf0 (rel_bound ((mem_genC4v _ _).1 h.2) hr.2)]
  have hne : ∀ y : Fin (S1.map (unitT (K := K) D1)).length,
      inner 2 D1 ((S1.map (unitT (K := K) D1)).get y) ((S1.map (unitT D1)).get y) ≠ 0 := by
    intro y
    have hy : y.1 < S1.length := by simpa using y.2
    have hr := hb1' _ (List.getElem_mem hy)
    have g1 : (S1.map (unitT (K := K) D1)).get y = unitT D1 S1[y.1] := by simp
    rw [g1]
    refine inner_self_ne 2 D1 _ S1[y.1].1 S1[y.1].2 hr.1 hr.2 ?_
    rw [entry_unitT, if_pos ⟨rfl, seed_mem _⟩]
    exact one_ne_zero
  have horth : ∀ y y' : Fin (S1.map (unitT (K := K) D1)).length, y ≠ y' →
      inner 2 D1 ((S1.map (unitT (K := K) D1)).get y) ((S1.map (unitT D1)).get y') = 0 := by
    intro y y' hyy
    have hy : y.1 < S1.length := by simpa using y.2
    have hy' : y'.1 < S1.length := by simpa using y'.2
    have g1 : (S1.map (unitT (K := K) D1)).get y = unitT D1 S1[y.1] := by simp
    have g2 : (S1.map (unitT (K := K) D1)).get y' = unitT D1 S1[y'.1] := by simp
    have hap : ¬ RelP S1[y.1] S1[y'.1] := by
      rw [List.pairwise_iff_getElem] at hpw1
      rcases Nat.lt_or_gt_of_ne (fun e => hyy (Fin.ext e)) with hlt | hlt
      · exact hpw1 y.1 y'.1 hy hy' hlt
      · exact fun hrel => hpw1 y'.1 y.1 hy' hy hlt hrel.symm
    rw [g1, g2, ← dot_inner]
    unfold dot
    refine List.sum_eq_zero ?_
    intro v hv
    obtain ⟨idx, hidx, rfl⟩ := List.mem_map.1 hv
    obtain ⟨q, rfl⟩ := exists_lst hidx
    show entry (unitT D1 S1[y.1]) q.1 q.2 * entry (unitT D1 S1[y'.1]) q.1 q.2 = 0
    rw [entry_unitT, entry_unitT]
    by_cases c1 : q.1 = S1[y.1].1 ∧ q.2 ∈ genC4v S1[y.1].2
    · have c2 : ¬ (q.1 = S1[y'.1].1 ∧ q.2 ∈ genC4v S1[y'.1].2) := by
        rintro ⟨c2, c3⟩
        exact hap ⟨c1.1.symm.trans c2, ((mem_genC4v _ _).1 c1.2).symm.trans ((mem_genC4v _ _).1 c3)⟩
      rw [if_neg c2, mul_zero]
    · rw [if_neg c1, zero_mul]
  obtain ⟨new, n1, n2, _, n4⟩ := C83_rebase_partial 2 D0 D1 hD _ _ pos _ hSub horth hne params
    (List.replicate (S1.map (unitT (K := K) D1)).length 0) hp (by simp)
  exact ⟨new, n1, n2, n4 fun v hv => (List.mem_replicate.1 hv).2⟩

/-- A rational vector as a tensor of bond dimension one. -/
def vec3 (a b c : ℚ) : Tensor ℚ := ⟨[3, 1, 1, 1, 1], fun idx => match idx with
  | 0 :: _ => a
  | 1 :: _ => b
  | _ => c⟩

/-- C83: the assertion "Target basis is not a subset of reference basis" counts overlaps only. Here
neither element of the old basis belongs to the new one, the call succeeds all the same, and the tensor
it describes has changed. -/
theorem C83_check_violated :
    rebaseParams [1, 1] 3 1 1 [vec3 1 1 0, vec3 0 0 1] [vec3 1 0 0, vec3 0 1 0] [0, 0] = some [2, 1] ∧
    (∀ (x : ℚ), ¬ (vec3 1 1 0).Same ⟨[3, 1, 1, 1, 1], fun i => x * (vec3 1 0 0).val i⟩ ∧
      ¬ (vec3 1 1 0).Same ⟨[3, 1, 1, 1, 1], fun i => x * (vec3 0 1 0).val i⟩) ∧
    combined [2, 1] [vec3 1 0 0, vec3 0 1 0] [0, 0, 0, 0, 0] = 2 ∧
    combined [1, 1] [vec3 1 1 0, vec3 0 0 1] [0, 0, 0, 0, 0] = 1 := by
  refine ⟨by decide +kernel, ?_, by decide +kernel, by decide +kernel⟩
  intro x
  constructor
  · intro h
    have := h.2 [1, 0, 0, 0, 0] (by decide)
    simp [vec3] at this
  · intro h
    have := h.2 [0, 0, 0, 0, 0] (by decide)
    simp [vec3] at this

/-- The hypotheses of `C83_rebase_partial` can be met with a genuine reordering and rescaling. -/
example : SubsetOf (K := ℚ) 3 1 1 [vec3 0 0 3, vec3 2 0 0] [vec3 1 0 0, vec3 0 1 0, vec3 0 0 1]
    ![2, 0] ![3, 2] ∧ rebaseParams [5, 7] 3 1 1 [vec3 0 0 3, vec3 2 0 0]
      [vec3 1 0 0, vec3 0 1 0, vec3 0 0 1] [0, 0, 0] = some [14, 0, 15] := by
  refine ⟨⟨?_, ?_, ?_⟩, by decide +kernel⟩
  · intro x y
    revert x y
    decide
  · intro x s f hs hf
    have hf' : f = ![0, 0, 0, 0] := by
      have h0 := hf 0
      have h1 := hf 1
      have h2 := hf 2
      have h3 := hf 3
      exact t4_ext.2 ⟨by simpa using h0, by simpa using h1, by simpa using h2, by simpa using h3⟩
    subst hf'
    have hs3 : s = 0 ∨ s = 1 ∨ s = 2 := by omega
    have hx : x = 0 ∨ x = 1 := by
      revert x
      decide
    rcases hx with rfl | rfl <;> rcases hs3 with rfl | rfl | rfl <;> decide +kernel
  · intro x
    have hx : x = 0 ∨ x = 1 := by
      revert x
      decide
    rcases hx with rfl | rfl <;> decide +kernel

/-- C84. A basis converted to a dictionary and back is the same array, for every shape without empty
axes. -/
theorem C84_roundtrip [AddMonoid K] [DecidableEq K] (B : Tensor K) (hne : B.shape ≠ [])
    (hpos : B.shape.prod ≠ 0) :
    ∃ d B', basisToDict B = some d ∧ basisFromDict d = some B' ∧ B.Same B' := by
  obtain ⟨sh, v⟩ := B
  cases sh with
  | nil => exact absurd rfl hne
  | cons n rest =>
    have hp : n * rest.prod ≠ 0 := by simpa using hpos
    obtain ⟨b, h1, h2⟩ := addElems n rest.prod (fun k => v (k.1 :: Tensor.unravel rest k.2))
      (nonzeros n rest.prod fun x j => v (x :: Tensor.unravel rest j))
      (fun k hk => by
        have := (mem_nonzeros n rest.prod _ k.1 k.2).1 hk
        exact ⟨this.1, this.2.1⟩) (nodup_nonzeros _ _ _) (fun _ _ => 0)
    refine ⟨⟨n :: rest, (nonzeros n rest.prod fun x j => v (x :: Tensor.unravel rest j)).map
      fun k => (k, v (k.1 :: Tensor.unravel rest k.2))⟩,
      ⟨n :: rest, unflatten rest b⟩, by simp only [basisToDict, if_neg hp], by
      simp only [basisFromDict, h1, Option.bind_eq_bind, Option.bind_some], rfl, ?_⟩
    intro idx hidx
    cases hidx with
    | @cons x _ is _ hx his =>
      show v (x :: is) = b x (Tensor.ravel rest is)
      rw [h2]
      simp only [mem_nonzeros, Tensor.unravel_ravel his, zero_add]
      by_cases h0 : v (x :: is) = 0
      · rw [if_neg fun h => h.2.2 h0, h0]
      · rw [if_pos ⟨hx, Tensor.ravel_lt his, h0⟩]

example : (vec3 1 0 5).shape ≠ [] ∧ (vec3 1 0 5).shape.prod ≠ 0 := by decide

end Verif.SymBasis
