import Verif.Lattice.Model
import Verif.Lattice.Spec
import Mathlib.Tactic.Linarith
import Mathlib.Data.List.Nodup
import Mathlib.Data.List.Sort
import Mathlib.Data.List.Pairwise

set_option linter.unusedSectionVars false
namespace Verif.Lattice

theorem wrap_eq (x : Int) {L : Int} (hL : 0 < L) : wrap x L = x % L := by
  unfold wrap
  rw [Int.fmod_eq_emod_of_nonneg _ hL.le, Int.add_mul_emod_self_right]

section
variable {L : Type}

theorem site2index_eq_some {rows : List (List L)} {w h : Nat}
    (hr : ∀ row ∈ rows, row.length = w) (hh : rows.length = h)
    {nx ny : Nat} (hx : nx < w) (hy : ny < h) : ∃ l, site2index rows nx ny = some l := by
  unfold site2index
  have hy' : ny < rows.length := hh ▸ hy
  have : rows[ny].length = w := hr _ (List.getElem_mem hy')
  rw [List.getElem?_eq_getElem hy']
  refine ⟨rows[ny][nx]'(by omega), ?_⟩
  simp [this, hx]

theorem site2indexPbc_eq {rows : List (List L)} {w h : Nat} (hw : 0 < w) (hh : 0 < h)
    (x y : Int) : site2indexPbc rows w h x y = Spec.labelAt rows w h (x, y) := by
  unfold site2indexPbc site2index Spec.labelAt
  rw [if_neg (by omega), wrap_eq x (by exact_mod_cast hw), wrap_eq y (by exact_mod_cast hh)]

theorem labelAt_cell (rows : List (List L)) {w h : Nat} {nx ny : Nat} (hx : nx < w)
    (hy : ny < h) : Spec.labelAt rows w h ((nx : Int), (ny : Int)) = site2index rows nx ny := by
  unfold Spec.labelAt site2index
  have h1 : ((nx : Int) % w).toNat = nx := by
    rw [Int.emod_eq_of_lt (by omega) (by omega)]; simp
  have h2 : ((ny : Int) % h).toNat = ny := by
    rw [Int.emod_eq_of_lt (by omega) (by omega)]; simp
  simp only [h1, h2]

theorem labelAt_some {rows : List (List L)} {w h : Nat} (hR : Spec.Rectangular rows w h)
    (hw : 0 < w) (c : Int × Int) : ∃ l, Spec.labelAt rows w h c = some l := by
  obtain ⟨hlen, hh, hrow⟩ := hR
  have h1 : 0 ≤ c.1 % (w : Int) := Int.emod_nonneg _ (by omega)
  have h2 : c.1 % (w : Int) < w := Int.emod_lt_of_pos _ (by omega)
  have h3 : 0 ≤ c.2 % (h : Int) := Int.emod_nonneg _ (by omega)
  have h4 : c.2 % (h : Int) < h := Int.emod_lt_of_pos _ (by omega)
  exact site2index_eq_some (nx := (c.1 % (w : Int)).toNat) (ny := (c.2 % (h : Int)).toNat)
    hrow hlen (by omega) (by omega)

/-- labels at a vertex only depend on its reduction -/
theorem labelAt_reduce (rows : List (List L)) (w h : Nat) (c : Int × Int) :
    Spec.labelAt rows w h (c.1 % w, c.2 % h) = Spec.labelAt rows w h c := by
  unfold Spec.labelAt; simp

theorem labelAt_congr (rows : List (List L)) (w h : Nat) {c c' : Int × Int}
    (h1 : c.1 % (w : Int) = c'.1 % w) (h2 : c.2 % (h : Int) = c'.2 % h) :
    Spec.labelAt rows w h c = Spec.labelAt rows w h c' := by
  unfold Spec.labelAt; rw [h1, h2]

theorem mem_cells {Nx Ny : Nat} {c : Nat × Nat} : c ∈ cells Nx Ny ↔ c.1 < Nx ∧ c.2 < Ny := by
  unfold cells
  obtain ⟨a, b⟩ := c
  simp only [List.mem_flatMap, List.mem_range, List.mem_map, Prod.mk.injEq]
  constructor
  · rintro ⟨x, hx, y, hy, rfl, rfl⟩; exact ⟨hx, hy⟩
  · rintro ⟨hx, hy⟩; exact ⟨a, hx, b, hy, rfl, rfl⟩

variable [DecidableEq L]

/-- lookup in the list of groups -/
def getG (gs : List (Group L)) (l : L) : Option (Group L) := gs.find? (fun g => decide (g.label = l))

theorem getG_addTo (l : L) (s : Nat × Nat) (e : Nbrs L) (gs : List (Group L)) (l' : L) :
    getG (addTo l s e gs) l' =
      if l' = l then
        (match getG gs l with
         | some g => some ⟨g.label, g.sites ++ [s], g.envs ++ [e]⟩
         | none => some ⟨l, [s], [e]⟩)
      else getG gs l' := by
  induction gs with
  | nil =>
    by_cases h : l' = l
    · subst h; simp [addTo, getG]
    · simp [addTo, getG, h, Ne.symm h]
  | cons g gs ih =>
    unfold getG at ih ⊢
    by_cases hg : g.label = l
    · by_cases h : l' = l
      · subst h; simp [addTo, hg]
      · have : ¬ g.label = l' := by rw [hg]; exact Ne.symm h
        simp [addTo, hg, h, Ne.symm h]
    · by_cases h : l' = l
      · subst h
        simp only [addTo, hg, if_false, if_true, List.find?_cons, decide_false] at ih ⊢
        exact ih
      · by_cases h2 : g.label = l'
        · simp [addTo, h, h2]
        · simp only [addTo, hg, if_false, h, List.find?_cons, h2, decide_false] at ih ⊢
          exact ih

theorem labels_addTo (l : L) (s : Nat × Nat) (e : Nbrs L) (gs : List (Group L)) :
    (addTo l s e gs).map (·.label) =
      if l ∈ gs.map (·.label) then gs.map (·.label) else gs.map (·.label) ++ [l] := by
  induction gs with
  | nil => simp [addTo]
  | cons g gs ih =>
    by_cases hg : g.label = l
    · simp [addTo, hg]
    · have hg' : ¬ l = g.label := fun h => hg h.symm
      simp only [addTo, hg, if_false, List.map_cons, ih, List.mem_cons, hg', false_or]
      split <;> simp

theorem mem_iff_getG {gs : List (Group L)} (hn : (gs.map (·.label)).Nodup) (g : Group L) :
    g ∈ gs ↔ getG gs g.label = some g := by
  induction gs with
  | nil => simp [getG]
  | cons a gs ih =>
    simp only [List.map_cons, List.nodup_cons] at hn
    unfold getG at ih ⊢
    by_cases h : a.label = g.label
    · simp only [List.mem_cons, List.find?_cons, h, decide_true, Option.some.injEq]
      constructor
      · rintro (rfl | hm)
        · rfl
        · exact absurd (List.mem_map.2 ⟨g, hm, h.symm⟩) hn.1
      · rintro rfl; exact Or.inl rfl
    · simp only [List.mem_cons, List.find?_cons, h, decide_false]
      rw [← ih hn.2]
      constructor
      · rintro (rfl | hm)
        · exact absurd rfl h
        · exact hm
      · exact Or.inr

theorem getG_label {gs : List (Group L)} {l : L} {g : Group L} (h : getG gs l = some g) :
    g.label = l := by
  have := List.find?_some h
  simpa using this

/-- `collect` groups the visited cells by label. -/
structure Grouped (lab : Nat × Nat → L) (env : Nat × Nat → Nbrs L) (cs : List (Nat × Nat))
    (gs : List (Group L)) : Prop where
  nodup : (gs.map (·.label)).Nodup
  get : ∀ l, getG gs l =
    if (∃ c ∈ cs, lab c = l) then
      some ⟨l, cs.filter (fun c => decide (lab c = l)),
            (cs.filter (fun c => decide (lab c = l))).map env⟩
    else none

theorem grouped_nil (lab : Nat × Nat → L) (env : Nat × Nat → Nbrs L) : Grouped lab env [] [] :=
  ⟨by simp, by simp [getG]⟩

theorem grouped_step {lab : Nat × Nat → L} {env : Nat × Nat → Nbrs L} {cs : List (Nat × Nat)}
    {gs : List (Group L)} (h : Grouped lab env cs gs) (c : Nat × Nat) :
    Grouped lab env (cs ++ [c]) (addTo (lab c) c (env c) gs) := by
  constructor
  · rw [labels_addTo]
    split
    · exact h.nodup
    · rename_i hn
      rw [List.nodup_append]
      refine ⟨h.nodup, by simp, ?_⟩
      intro a ha b hb
      simp only [List.mem_singleton] at hb
      subst hb
      rintro rfl
      exact hn ha
  · intro l
    rw [getG_addTo]
    by_cases hl : l = lab c
    · subst hl
      have hc : ∃ c' ∈ cs ++ [c], lab c' = lab c := ⟨c, by simp, rfl⟩
      rw [if_pos rfl, h.get]
      by_cases hex : ∃ c' ∈ cs, lab c' = lab c
      · rw [if_pos hex, if_pos hc]; simp [List.filter_append]
      · rw [if_neg hex, if_pos hc]
        have : cs.filter (fun c' => decide (lab c' = lab c)) = [] := by
          rw [List.filter_eq_nil_iff]; intro a ha; simp; intro h2; exact hex ⟨a, ha, h2⟩
        simp [List.filter_append, this]
    · rw [if_neg hl, h.get]
      have h2 : ¬ lab c = l := fun h => hl h.symm
      have : (∃ c' ∈ cs ++ [c], lab c' = l) ↔ (∃ c' ∈ cs, lab c' = l) := by
        constructor
        · rintro ⟨c', hc', he⟩
          rcases List.mem_append.1 hc' with h3 | h3
          · exact ⟨c', h3, he⟩
          · simp only [List.mem_singleton] at h3; subst h3; exact absurd he h2
        · rintro ⟨c', hc', he⟩; exact ⟨c', List.mem_append_left _ hc', he⟩
      simp only [this, List.filter_append, List.filter_cons, h2, decide_false]
      simp

theorem collect_grouped {rows : List (List L)} {Nx Ny : Nat} {lab : Nat × Nat → L}
    {env : Nat × Nat → Nbrs L} : ∀ (cs pre : List (Nat × Nat)) (acc : List (Group L)),
    (∀ c ∈ cs, site2index rows c.1 c.2 = some (lab c) ∧ envOf rows Nx Ny c.1 c.2 = some (env c)) →
    Grouped lab env pre acc →
    ∃ gs, collect rows Nx Ny cs acc = some gs ∧ Grouped lab env (pre ++ cs) gs
  | [], pre, acc, _, hg => ⟨acc, rfl, by simpa using hg⟩
  | c :: cs, pre, acc, hc, hg => by
    obtain ⟨h1, h2⟩ := hc c (by simp)
    obtain ⟨gs, h3, h4⟩ := collect_grouped cs (pre ++ [c]) (addTo (lab c) c (env c) acc)
      (fun c' hc' => hc c' (by simp [hc'])) (grouped_step hg c)
    refine ⟨gs, ?_, by simpa using h4⟩
    simp [collect, h1, h2, h3]

theorem twoDistinct_false_iff (es : List (Nbrs L)) :
    twoDistinct es = false ↔ ∀ a ∈ es, ∀ b ∈ es, a = b := by
  cases es with
  | nil => simp [twoDistinct]
  | cons e es =>
    simp only [twoDistinct, List.any_eq_false, decide_eq_true_eq, Classical.not_not]
    constructor
    · intro h a ha b hb
      have key : ∀ x ∈ e :: es, x = e := by
        intro x hx; rcases List.mem_cons.1 hx with rfl | hx
        · rfl
        · exact h x hx
      rw [key a ha, key b hb]
    · intro h x hx
      exact h x (by simp [hx]) e (by simp)

end

theorem lexLe_iff (a b : Nat × Nat) : lexLe a b = true ↔ Spec.LexLe a b := by
  unfold lexLe Spec.LexLe; simp

theorem LexLe.refl (a : Nat × Nat) : Spec.LexLe a a := Or.inr ⟨rfl, Nat.le_refl _⟩
theorem LexLe.trans {a b c : Nat × Nat} (h1 : Spec.LexLe a b) (h2 : Spec.LexLe b c) :
    Spec.LexLe a c := by unfold Spec.LexLe at *; omega
theorem LexLe.total (a b : Nat × Nat) : Spec.LexLe a b ∨ Spec.LexLe b a := by
  unfold Spec.LexLe; omega
theorem LexLe.antisymm {a b : Nat × Nat} (h1 : Spec.LexLe a b) (h2 : Spec.LexLe b a) : a = b := by
  unfold Spec.LexLe at *; apply Prod.ext <;> omega

theorem lexMin_fold (cs : List (Nat × Nat)) (c : Nat × Nat) :
    let m := cs.foldl (fun m d => if lexLe m d then m else d) c
    (m = c ∨ m ∈ cs) ∧ Spec.LexLe m c ∧ ∀ d ∈ cs, Spec.LexLe m d := by
  induction cs generalizing c with
  | nil => simp [LexLe.refl]
  | cons d cs ih =>
    simp only [List.foldl_cons]
    by_cases h : lexLe c d = true
    · simp only [h, if_true]
      obtain ⟨h1, h2, h3⟩ := ih c
      refine ⟨?_, h2, ?_⟩
      · rcases h1 with h1 | h1
        · exact Or.inl h1
        · exact Or.inr (List.mem_cons_of_mem _ h1)
      · intro x hx
        rcases List.mem_cons.1 hx with rfl | hx
        · exact LexLe.trans h2 ((lexLe_iff _ _).1 h)
        · exact h3 x hx
    · simp only [h]
      obtain ⟨h1, h2, h3⟩ := ih d
      have hdc : Spec.LexLe d c := by
        rcases LexLe.total c d with h4 | h4
        · exact absurd ((lexLe_iff _ _).2 h4) h
        · exact h4
      refine ⟨?_, LexLe.trans h2 hdc, ?_⟩
      · rcases h1 with h1 | h1
        · exact Or.inr (by simp [h1])
        · exact Or.inr (List.mem_cons_of_mem _ h1)
      · intro x hx
        rcases List.mem_cons.1 hx with rfl | hx
        · exact h2
        · exact h3 x hx

theorem lexMin_eq_some {l : List (Nat × Nat)} {m : Nat × Nat} :
    lexMin l = some m ↔ m ∈ l ∧ ∀ d ∈ l, Spec.LexLe m d := by
  cases l with
  | nil => simp [lexMin]
  | cons c cs =>
    have key := lexMin_fold cs c
    simp only [lexMin, Option.some.injEq]
    obtain ⟨k1, k2, k3⟩ := key
    constructor
    · rintro rfl
      refine ⟨by simpa using k1, ?_⟩
      intro d hd
      rcases List.mem_cons.1 hd with rfl | hd
      · exact k2
      · exact k3 d hd
    · rintro ⟨h1, h2⟩
      apply LexLe.antisymm
      · rcases List.mem_cons.1 h1 with rfl | h1
        · exact k2
        · exact k3 m h1
      · apply h2; simpa using k1

theorem lexInsert_perm (c : Nat × Nat) (l : List (Nat × Nat)) : (lexInsert c l).Perm (c :: l) := by
  induction l with
  | nil => exact List.Perm.refl _
  | cons d ds ih =>
    unfold lexInsert
    split
    · exact List.Perm.refl _
    · exact (List.Perm.cons d ih).trans (List.Perm.swap c d ds)

theorem lexSort_perm (l : List (Nat × Nat)) : (lexSort l).Perm l := by
  induction l with
  | nil => exact List.Perm.refl _
  | cons d ds ih => exact (lexInsert_perm d _).trans (List.Perm.cons d ih)

theorem mem_lexSort (l : List (Nat × Nat)) (c : Nat × Nat) : c ∈ lexSort l ↔ c ∈ l :=
  (lexSort_perm l).mem_iff

theorem lexInsert_pairwise (c : Nat × Nat) (l : List (Nat × Nat)) (h : l.Pairwise Spec.LexLe) :
    (lexInsert c l).Pairwise Spec.LexLe := by
  induction l with
  | nil => simp [lexInsert]
  | cons d ds ih =>
    rw [List.pairwise_cons] at h
    unfold lexInsert
    split
    · rename_i hcd
      rw [lexLe_iff] at hcd
      rw [List.pairwise_cons, List.pairwise_cons]
      refine ⟨?_, h⟩
      intro a ha
      rcases List.mem_cons.1 ha with rfl | ha
      · exact hcd
      · exact LexLe.trans hcd (h.1 a ha)
    · rename_i hcd
      rw [lexLe_iff] at hcd
      rw [List.pairwise_cons]
      refine ⟨?_, ih h.2⟩
      intro a ha
      rcases List.mem_cons.1 ((lexInsert_perm c ds).mem_iff.1 ha) with rfl | ha
      · exact (LexLe.total d a).resolve_right hcd
      · exact h.1 a ha

theorem lexSort_pairwise (l : List (Nat × Nat)) : (lexSort l).Pairwise Spec.LexLe := by
  induction l with
  | nil => simp [lexSort]
  | cons d ds ih => exact lexInsert_pairwise d _ ih

theorem lexSort_nodup {l : List (Nat × Nat)} (h : l.Nodup) : (lexSort l).Nodup :=
  (lexSort_perm l).nodup_iff.2 h

end Verif.Lattice

namespace Verif.Lattice
variable {L : Type} [DecidableEq L]

/-- total label function on cell coordinates (used only in proofs) -/
noncomputable def labFn (rows : List (List L)) (w h : Nat) (hR : Spec.Rectangular rows w h)
    (hw : 0 < w) (c : Int × Int) : L := (labelAt_some hR hw c).choose

theorem labFn_spec {rows : List (List L)} {w h : Nat} (hR : Spec.Rectangular rows w h)
    (hw : 0 < w) (c : Int × Int) : Spec.labelAt rows w h c = some (labFn rows w h hR hw c) :=
  (labelAt_some hR hw c).choose_spec

/-- neighbour tuple in terms of `labFn` -/
noncomputable def envFn (rows : List (List L)) (w h : Nat) (hR : Spec.Rectangular rows w h)
    (hw : 0 < w) (c : Int × Int) : Nbrs L :=
  (labFn rows w h hR hw (c.1 - 1, c.2), labFn rows w h hR hw (c.1, c.2 - 1),
   labFn rows w h hR hw (c.1 + 1, c.2), labFn rows w h hR hw (c.1, c.2 + 1))

theorem envOf_eq {rows : List (List L)} {w h : Nat} (hR : Spec.Rectangular rows w h)
    (hw : 0 < w) (nx ny : Nat) :
    envOf rows w h nx ny = some (envFn rows w h hR hw ((nx : Int), (ny : Int))) := by
  unfold envOf envFn
  simp only [site2indexPbc_eq hw hR.2.1, labFn_spec hR hw]
  rfl

/-- the four neighbour conditions at once -/
theorem sameNeighbours_iff_env {rows : List (List L)} {w h : Nat}
    (hR : Spec.Rectangular rows w h) (hw : 0 < w) :
    Spec.SameNeighbours rows w h ↔
      ∀ a ∈ cells w h, ∀ b ∈ cells w h,
        labFn rows w h hR hw ((a.1 : Int), (a.2 : Int)) = labFn rows w h hR hw ((b.1 : Int), (b.2 : Int)) →
        envFn rows w h hR hw ((a.1 : Int), (a.2 : Int)) = envFn rows w h hR hw ((b.1 : Int), (b.2 : Int)) := by
  constructor
  · intro hS a _ b _ hab
    obtain ⟨h1, h2, h3, h4⟩ := hS ((a.1 : Int), (a.2 : Int)) ((b.1 : Int), (b.2 : Int))
      (by rw [labFn_spec hR hw, labFn_spec hR hw, hab])
    simp only [labFn_spec hR hw, Option.some.injEq] at h1 h2 h3 h4
    simp only [envFn, h1, h2, h3, h4]
  · intro hE c c' hcc
    have hh : 0 < h := hR.2.1
    have red : ∀ c : Int × Int, ∃ a ∈ cells w h, (a.1 : Int) = c.1 % w ∧ (a.2 : Int) = c.2 % h := by
      intro c
      have h1 : 0 ≤ c.1 % (w : Int) := Int.emod_nonneg _ (by omega)
      have h2 : c.1 % (w : Int) < w := Int.emod_lt_of_pos _ (by omega)
      have h3 : 0 ≤ c.2 % (h : Int) := Int.emod_nonneg _ (by omega)
      have h4 : c.2 % (h : Int) < h := Int.emod_lt_of_pos _ (by omega)
      refine ⟨((c.1 % (w : Int)).toNat, (c.2 % (h : Int)).toNat), mem_cells.2 ⟨?_, ?_⟩, ?_, ?_⟩ <;>
        simp <;> omega
    obtain ⟨a, ha, ha1, ha2⟩ := red c
    obtain ⟨b, hb, hb1, hb2⟩ := red c'
    have e1 : Spec.labelAt rows w h ((a.1 : Int), (a.2 : Int)) = Spec.labelAt rows w h c :=
      labelAt_congr _ _ _ (by simp [ha1]) (by simp [ha2])
    have e2 : Spec.labelAt rows w h ((b.1 : Int), (b.2 : Int)) = Spec.labelAt rows w h c' :=
      labelAt_congr _ _ _ (by simp [hb1]) (by simp [hb2])
    have hab := hE a ha b hb (by
      have := e1.trans (hcc.trans e2.symm)
      simpa only [labFn_spec hR hw, Option.some.injEq] using this)
    simp only [envFn, Prod.mk.injEq] at hab
    obtain ⟨h1, h2, h3, h4⟩ := hab
    have tr : ∀ (dx dy : Int),
        Spec.labelAt rows w h ((a.1 : Int) + dx, (a.2 : Int) + dy) =
          Spec.labelAt rows w h (c.1 + dx, c.2 + dy) := by
      intro dx dy
      exact labelAt_congr _ _ _ (by simp [ha1]) (by simp [ha2])
    have tr' : ∀ (dx dy : Int),
        Spec.labelAt rows w h ((b.1 : Int) + dx, (b.2 : Int) + dy) =
          Spec.labelAt rows w h (c'.1 + dx, c'.2 + dy) := by
      intro dx dy
      exact labelAt_congr _ _ _ (by simp [hb1]) (by simp [hb2])
    refine ⟨?_, ?_, ?_, ?_⟩
    · have := (tr (-1) 0).symm.trans ((by simpa [labFn_spec hR hw, ← sub_eq_add_neg] using h1 :
        Spec.labelAt rows w h ((a.1 : Int) + -1, (a.2 : Int) + 0) = Spec.labelAt rows w h ((b.1 : Int) + -1, (b.2 : Int) + 0)).trans (tr' (-1) 0))
      simpa [← sub_eq_add_neg] using this
    · have := (tr 0 (-1)).symm.trans ((by simpa [labFn_spec hR hw, ← sub_eq_add_neg] using h2 :
        Spec.labelAt rows w h ((a.1 : Int) + 0, (a.2 : Int) + -1) = Spec.labelAt rows w h ((b.1 : Int) + 0, (b.2 : Int) + -1)).trans (tr' 0 (-1)))
      simpa [← sub_eq_add_neg] using this
    · have := (tr 1 0).symm.trans ((by simpa [labFn_spec hR hw] using h3 :
        Spec.labelAt rows w h ((a.1 : Int) + 1, (a.2 : Int) + 0) = Spec.labelAt rows w h ((b.1 : Int) + 1, (b.2 : Int) + 0)).trans (tr' 1 0))
      simpa using this
    · have := (tr 0 1).symm.trans ((by simpa [labFn_spec hR hw] using h4 :
        Spec.labelAt rows w h ((a.1 : Int) + 0, (a.2 : Int) + 1) = Spec.labelAt rows w h ((b.1 : Int) + 0, (b.2 : Int) + 1)).trans (tr' 0 1))
      simpa using this

/-- the groups found by the loop on a rectangular pattern -/
theorem collect_rect {rows : List (List L)} {w h : Nat} (hR : Spec.Rectangular rows w h)
    (hw : 0 < w) : ∃ gs, collect rows w h (cells w h) [] = some gs ∧
      Grouped (fun c => labFn rows w h hR hw ((c.1 : Int), (c.2 : Int)))
        (fun c => envFn rows w h hR hw ((c.1 : Int), (c.2 : Int))) (cells w h) gs := by
  have := collect_grouped (rows := rows) (Nx := w) (Ny := h)
    (lab := fun c => labFn rows w h hR hw ((c.1 : Int), (c.2 : Int)))
    (env := fun c => envFn rows w h hR hw ((c.1 : Int), (c.2 : Int))) (cells w h) [] []
    (by
      intro c hc
      obtain ⟨hx, hy⟩ := mem_cells.1 hc
      exact ⟨by rw [← labelAt_cell rows hx hy, labFn_spec hR hw], envOf_eq hR hw _ _⟩)
    (grouped_nil _ _)
  simpa using this

theorem grouped_mem {lab : Nat × Nat → L} {env : Nat × Nat → Nbrs L} {cs : List (Nat × Nat)}
    {gs : List (Group L)} (hg : Grouped lab env cs gs) {g : Group L} :
    g ∈ gs ↔ (∃ c ∈ cs, lab c = g.label) ∧ g.sites = cs.filter (fun c => decide (lab c = g.label)) ∧
      g.envs = (cs.filter (fun c => decide (lab c = g.label))).map env := by
  rw [mem_iff_getG hg.nodup, hg.get]
  split
  · rename_i h
    obtain ⟨l, s, e⟩ := g
    simp only [Option.some.injEq, Group.mk.injEq, true_and]
    constructor
    · rintro ⟨h1, h2⟩; exact ⟨h, h1.symm, h2.symm⟩
    · rintro ⟨_, h1, h2⟩; exact ⟨h1.symm, h2.symm⟩
  · rename_i h; simp [h]

theorem grouped_twoDistinct {lab : Nat × Nat → L} {env : Nat × Nat → Nbrs L}
    {cs : List (Nat × Nat)} {gs : List (Group L)} (hg : Grouped lab env cs gs) :
    gs.any (fun g => twoDistinct g.envs) = false ↔
      ∀ a ∈ cs, ∀ b ∈ cs, lab a = lab b → env a = env b := by
  rw [List.any_eq_false]
  constructor
  · intro h a ha b hb hab
    have hm : (⟨lab a, cs.filter (fun c => decide (lab c = lab a)),
        (cs.filter (fun c => decide (lab c = lab a))).map env⟩ : Group L) ∈ gs :=
      (grouped_mem hg).2 ⟨⟨a, ha, rfl⟩, rfl, rfl⟩
    have := h _ hm
    have := (twoDistinct_false_iff _).1 (by simpa using this)
    exact this _ (List.mem_map.2 ⟨a, by simp [ha], rfl⟩) _
      (List.mem_map.2 ⟨b, by simp [hb, hab], rfl⟩)
  · intro h g hgm
    obtain ⟨_, h2, h3⟩ := (grouped_mem hg).1 hgm
    have : twoDistinct g.envs = false := by
      rw [twoDistinct_false_iff, h3]
      intro x hx y hy
      obtain ⟨a, ha, rfl⟩ := List.mem_map.1 hx
      obtain ⟨b, hb, rfl⟩ := List.mem_map.1 hy
      simp only [List.mem_filter, decide_eq_true_eq] at ha hb
      exact h a ha.1 b hb.1 (ha.2.trans hb.2.symm)
    simp [this]

theorem rect_any {rows : List (List L)} {r0 : List L} {rest : List (List L)}
    (he : rows = r0 :: rest) :
    rows.any (fun row => row.length != r0.length) = false ↔
      Spec.Rectangular rows r0.length rows.length := by
  subst he
  unfold Spec.Rectangular
  simp [List.any_eq_false]

theorem rect_unique {rows : List (List L)} {w h w' h' : Nat} (h1 : Spec.Rectangular rows w h)
    (h2 : Spec.Rectangular rows w' h') : w = w' ∧ h = h' := by
  obtain ⟨a1, a2, a3⟩ := h1
  obtain ⟨b1, b2, b3⟩ := h2
  refine ⟨?_, by omega⟩
  cases rows with
  | nil => simp at a1; omega
  | cons r rs => exact (a3 r (by simp)).symm.trans (b3 r (by simp))

theorem labelAt_zero_width {rows : List (List L)} {h : Nat} (hR : Spec.Rectangular rows 0 h)
    (c : Int × Int) : Spec.labelAt rows 0 h c = none := by
  unfold Spec.labelAt
  cases hh : rows[(c.2 % (h : Int)).toNat]? with
  | none => rfl
  | some row =>
    have : row ∈ rows := List.mem_of_getElem? hh
    have := hR.2.2 row this
    simp only [List.length_eq_zero_iff] at this
    simp [this]

/-- complete description of `fromRows` -/
theorem fromRows_cases (rows : List (List L)) :
    (rows = [] ∧ fromRows rows = .error .noRows) ∨
    (rows ≠ [] ∧ (¬ ∃ w h, Spec.Rectangular rows w h) ∧ fromRows rows = .error .ragged) ∨
    (∃ w h, Spec.Rectangular rows w h ∧ ¬ Spec.SameNeighbours rows w h ∧
      fromRows rows = .error .neighbours) ∨
    (∃ w h, Spec.Rectangular rows w h ∧ Spec.SameNeighbours rows w h ∧
      ∃ sites, fromRows rows = .ok ⟨sites, rows⟩ ∧ sites.Pairwise Spec.LexLt ∧
        ∀ c, c ∈ sites ↔ Spec.IsRepresentative rows w h c) := by
  cases hrows : rows with
  | nil => left; exact ⟨rfl, rfl⟩
  | cons r0 rest =>
    right
    by_cases hany : rows.any (fun row => row.length != r0.length) = true
    · left
      subst hrows
      refine ⟨by simp, ?_, ?_⟩
      · rintro ⟨w, h, hR⟩
        have hw : r0.length = w := hR.2.2 r0 (by simp)
        subst hw
        have hh : h = (r0 :: rest).length := hR.1.symm
        subst hh
        have := (rect_any (rows := r0 :: rest) rfl).2 hR
        simp [this] at hany
      · simp only [fromRows, hany, if_true]
    · right
      have hany' : rows.any (fun row => row.length != r0.length) = false := by simpa using hany
      have hR := (rect_any hrows).1 hany'
      rw [← hrows]
      have hfr0 : fromRows rows =
          if rows.any (fun row => row.length != r0.length) then .error .ragged
          else match collect rows r0.length rows.length (cells r0.length rows.length) [] with
            | none => .error .keyError
            | some groups =>
              if groups.any (fun g => twoDistinct g.envs) then .error .neighbours
              else .ok ⟨lexSort (groups.filterMap (fun g => lexMin g.sites)), rows⟩ := by
        rw [hrows]; rfl
      by_cases hw : r0.length = 0
      · -- zero width
        right
        rw [hw] at hR
        refine ⟨0, rows.length, hR, ?_, [], ?_, by simp, ?_⟩
        · intro c c' _; simp [labelAt_zero_width hR]
        · rw [hfr0, hany', hw]
          simp [cells, collect, lexSort]
        · intro c; simp [Spec.IsRepresentative]
      · have hw0 : 0 < r0.length := Nat.pos_of_ne_zero hw
        obtain ⟨gs, hgs, hG⟩ := collect_rect hR hw0
        have hfr : fromRows rows = if gs.any (fun g => twoDistinct g.envs) then .error .neighbours
            else .ok ⟨lexSort (gs.filterMap (fun g => lexMin g.sites)), rows⟩ := by
          rw [hfr0, hany', hgs]
          simp
        by_cases hS : Spec.SameNeighbours rows r0.length rows.length
        · right
          have h2 := (grouped_twoDistinct hG).2 ((sameNeighbours_iff_env hR hw0).1 hS)
          refine ⟨_, _, hR, hS, lexSort (gs.filterMap (fun g => lexMin g.sites)), by
            rw [hfr, h2]; rfl, ?_, ?_⟩
          · -- strictly sorted
            have hnd : (gs.filterMap (fun g => lexMin g.sites)).Nodup := by
              have hn := hG.nodup
              have : gs.Pairwise (fun a b => a.label ≠ b.label) := by
                rw [List.Nodup, List.pairwise_map] at hn; exact hn
              rw [List.Nodup, List.pairwise_filterMap]
              refine List.Pairwise.imp_of_mem ?_ this
              intro a b ha hb hab m hm m' hm' he
              subst he
              obtain ⟨ham, _⟩ := lexMin_eq_some.1 hm
              obtain ⟨hbm, _⟩ := lexMin_eq_some.1 hm'
              rw [((grouped_mem hG).1 ha).2.1] at ham
              rw [((grouped_mem hG).1 hb).2.1] at hbm
              simp only [List.mem_filter, decide_eq_true_eq] at ham hbm
              exact hab (ham.2.symm.trans hbm.2)
            have h3 := lexSort_pairwise (gs.filterMap (fun g => lexMin g.sites))
            have h4 := lexSort_nodup hnd
            refine (h3.and h4).imp ?_
            rintro a b ⟨hab, hne⟩
            unfold Spec.LexLe at hab
            unfold Spec.LexLt
            rcases hab with h | ⟨h, h'⟩
            · exact Or.inl h
            · refine Or.inr ⟨h, ?_⟩
              rcases Nat.lt_or_eq_of_le h' with h5 | h5
              · exact h5
              · exact absurd (Prod.ext h h5) hne
          · intro c
            rw [mem_lexSort, List.mem_filterMap]
            constructor
            · rintro ⟨g, hg, hm⟩
              obtain ⟨h5, h6⟩ := lexMin_eq_some.1 hm
              have h7 := ((grouped_mem hG).1 hg).2.1
              rw [h7] at h5 h6
              simp only [List.mem_filter, decide_eq_true_eq, mem_cells] at h5 h6
              refine ⟨h5.1.1, h5.1.2, ?_⟩
              intro c' hx hy hl
              rw [labFn_spec hR hw0, labFn_spec hR hw0, Option.some.injEq] at hl
              exact h6 c' ⟨⟨hx, hy⟩, hl.trans h5.2⟩
            · rintro ⟨hx, hy, hmin⟩
              obtain ⟨l, hl⟩ : ∃ l, l = labFn rows _ _ hR hw0 ((c.1 : Int), (c.2 : Int)) := ⟨_, rfl⟩
              refine ⟨⟨l, (cells _ _).filter (fun d => decide (labFn rows _ _ hR hw0 ((d.1 : Int), (d.2 : Int)) = l)), ((cells _ _).filter (fun d => decide (labFn rows _ _ hR hw0 ((d.1 : Int), (d.2 : Int)) = l))).map (fun c => envFn rows _ _ hR hw0 ((c.1 : Int), (c.2 : Int)))⟩, (grouped_mem hG).2 ⟨⟨c, mem_cells.2 ⟨hx, hy⟩, hl.symm⟩, rfl, rfl⟩, ?_⟩
              subst hl
              rw [lexMin_eq_some]
              simp only [List.mem_filter, decide_eq_true_eq, mem_cells]
              refine ⟨⟨⟨hx, hy⟩, trivial⟩, ?_⟩
              rintro d ⟨⟨hdx, hdy⟩, hdl⟩
              apply hmin d hdx hdy
              rw [labFn_spec hR hw0, labFn_spec hR hw0, hdl]
        · left
          refine ⟨_, _, hR, hS, ?_⟩
          rw [hfr]
          have : gs.any (fun g => twoDistinct g.envs) = true := by
            by_contra hc
            have hc' : gs.any (fun g => twoDistinct g.envs) = false := by simpa using hc
            exact hS ((sameNeighbours_iff_env hR hw0).2 ((grouped_twoDistinct hG).1 hc'))
          simp [this]

end Verif.Lattice
