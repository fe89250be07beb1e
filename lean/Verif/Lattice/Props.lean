import Verif.Lattice.Lemmas
/-
Properties C01-C04 of the tiling logic. `Spec` names come from Verif/Lattice/Spec.lean.
-/
namespace Verif.Lattice
open Spec

variable {L : Type} [DecidableEq L]

/-! ## C01: the default tiling is the periodic reduction into the cell -/

/-- C01. For every positive cell size and every vertex (negative ones included) the default
tiling is the Euclidean reduction; it lands in the cell, fixes the cell, is periodic in both
directions, and is the only map with these properties. -/
theorem C01_default_tiling (lX lY : Int) (hX : 0 < lX) (hY : 0 < lY) :
    (∀ c, defaultVertexToSite lX lY c = some (reduce lX lY c)) ∧
    (∀ c s, defaultVertexToSite lX lY c = some s →
      0 ≤ s.1 ∧ s.1 < lX ∧ 0 ≤ s.2 ∧ s.2 < lY ∧ lX ∣ c.1 - s.1 ∧ lY ∣ c.2 - s.2) ∧
    (∀ c : Int × Int, 0 ≤ c.1 → c.1 < lX → 0 ≤ c.2 → c.2 < lY →
      defaultVertexToSite lX lY c = some c) ∧
    (∀ (c : Int × Int) (k l : Int), defaultVertexToSite lX lY (c.1 + k * lX, c.2 + l * lY) =
      defaultVertexToSite lX lY c) ∧
    (∀ f : Int × Int → Int × Int,
      (∀ c : Int × Int, 0 ≤ c.1 → c.1 < lX → 0 ≤ c.2 → c.2 < lY → f c = c) →
      (∀ (c : Int × Int) (k l : Int), f (c.1 + k * lX, c.2 + l * lY) = f c) →
      ∀ c, defaultVertexToSite lX lY c = some (f c)) := by
  have key : ∀ c, defaultVertexToSite lX lY c = some (reduce lX lY c) := by
    intro c
    unfold defaultVertexToSite reduce
    rw [if_neg (by omega), wrap_eq _ hX, wrap_eq _ hY]
  have hx0 : ∀ x : Int, 0 ≤ x % lX := fun x => Int.emod_nonneg _ (by omega)
  have hx1 : ∀ x : Int, x % lX < lX := fun x => Int.emod_lt_of_pos _ hX
  have hy0 : ∀ x : Int, 0 ≤ x % lY := fun x => Int.emod_nonneg _ (by omega)
  have hy1 : ∀ x : Int, x % lY < lY := fun x => Int.emod_lt_of_pos _ hY
  refine ⟨key, ?_, ?_, ?_, ?_⟩
  · intro c s hs
    rw [key, Option.some.injEq] at hs
    subst hs
    exact ⟨hx0 _, hx1 _, hy0 _, hy1 _, Int.dvd_self_sub_emod, Int.dvd_self_sub_emod⟩
  · rintro ⟨x, y⟩ h1 h2 h3 h4
    rw [key]
    simp only [reduce, Int.emod_eq_of_lt h1 h2, Int.emod_eq_of_lt h3 h4]
  · intro c k l
    rw [key, key]
    simp [reduce]
  · intro f hfix hper c
    rw [key]
    have h1 : c = ((c.1 % lX) + (c.1 / lX) * lX, (c.2 % lY) + (c.2 / lY) * lY) := by
      have e1 := Int.emod_add_mul_ediv c.1 lX
      have e2 := Int.emod_add_mul_ediv c.2 lY
      ext <;> simp only [] <;> linarith [mul_comm lX (c.1 / lX), mul_comm lY (c.2 / lY)]
    have h2 := hper (c.1 % lX, c.2 % lY) (c.1 / lX) (c.2 / lY)
    simp only [← h1] at h2
    rw [h2, hfix _ (hx0 _) (hx1 _) (hy0 _) (hy1 _)]
    rfl

/-- A zero-sized cell is an error for every vertex, never a silent value. -/
theorem C01_zero_cell (lX lY : Int) (h : lX = 0 ∨ lY = 0) (c : Int × Int) :
    defaultVertexToSite lX lY c = none := by
  simp [defaultVertexToSite, h]

/-- Non-vacuity: a negative vertex on a 3 x 2 cell. -/
example : defaultVertexToSite 3 2 (-1, -3) = some (2, 1) := by decide

/-! ## C02: which patterns are accepted and what is returned -/

/-- C02. A table is accepted exactly when all rows have equal length and equal labels have equal
neighbours under periodic repetition. -/
theorem C02_accepts_iff (rows : List (List L)) :
    (∃ r, fromRows rows = .ok r) ↔
      ∃ w h, Rectangular rows w h ∧ SameNeighbours rows w h := by
  rcases fromRows_cases rows with ⟨he, hf⟩ | ⟨_, hn, hf⟩ | ⟨w, h, hR, hS, hf⟩ | ⟨w, h, hR, hS, s, hf, _⟩
  · simp only [hf, reduceCtorEq, exists_false, false_iff]
    rintro ⟨w, h, ⟨h1, h2, _⟩, _⟩
    subst he; simp at h1; omega
  · simp only [hf, reduceCtorEq, exists_false, false_iff]
    rintro ⟨w, h, hR, _⟩; exact hn ⟨w, h, hR⟩
  · simp only [hf, reduceCtorEq, exists_false, false_iff]
    rintro ⟨w', h', hR', hS'⟩
    obtain ⟨rfl, rfl⟩ := rect_unique hR hR'
    exact hS hS'
  · simp only [hf]; exact ⟨fun _ => ⟨w, h, hR, hS⟩, fun _ => ⟨_, rfl⟩⟩

/-- C02. On success the table is returned unchanged and the sites are, in strictly increasing
order, exactly the lexicographically smallest position of every label. -/
theorem C02_result (rows : List (List L)) (w h : Nat) (hR : Rectangular rows w h)
    (r : PatternOk L) (hr : fromRows rows = .ok r) :
    r.rows = rows ∧ r.sites.Pairwise LexLt ∧ ∀ c, c ∈ r.sites ↔ IsRepresentative rows w h c := by
  rcases fromRows_cases rows with ⟨_, hf⟩ | ⟨_, _, hf⟩ | ⟨_, _, _, _, hf⟩ | ⟨w', h', hR', _, s, hf, hp, hm⟩
  · rw [hf] at hr; cases hr
  · rw [hf] at hr; cases hr
  · rw [hf] at hr; cases hr
  · rw [hf] at hr; cases hr
    obtain ⟨rfl, rfl⟩ := rect_unique hR hR'
    exact ⟨rfl, hp, hm⟩

/-- C02, error branches: which table gets which error, and that no lookup ever leaves the table. -/
theorem C02_errors (rows : List (List L)) :
    (fromRows rows = .error .noRows ↔ rows = []) ∧
    (fromRows rows = .error .ragged ↔ rows ≠ [] ∧ ¬ ∃ w h, Rectangular rows w h) ∧
    (fromRows rows = .error .neighbours ↔
      ∃ w h, Rectangular rows w h ∧ ¬ SameNeighbours rows w h) ∧
    fromRows rows ≠ .error .keyError ∧ fromRows rows ≠ .error .emptyDict ∧
    fromRows rows ≠ .error .notRectangle := by
  have hnr : rows = [] → ¬ ∃ w h, Rectangular rows w h := by
    rintro rfl ⟨w, h, h1, h2, _⟩; simp at h1; omega
  have hne : ∀ {w h}, Rectangular rows w h → rows ≠ [] := fun {w h} hR he => hnr he ⟨w, h, hR⟩
  rcases fromRows_cases rows with ⟨he, hf⟩ | ⟨he, hn, hf⟩ | ⟨w, h, hR, hS, hf⟩ | ⟨w, h, hR, hS, s, hf, _⟩
  · have := hnr he
    simp only [hf]; simp
    refine ⟨he, fun h => absurd he h, ?_⟩
    intro w h hR; exact absurd ⟨w, h, hR⟩ this
  · simp only [hf]; simp [he]
    refine ⟨fun w h hR => hn ⟨w, h, hR⟩, fun w h hR => absurd ⟨w, h, hR⟩ hn⟩
  · simp only [hf]; simp
    exact ⟨hne hR, fun _ => ⟨w, h, hR⟩, w, h, hR, hS⟩
  · simp only [hf]; simp
    refine ⟨hne hR, fun _ => ⟨w, h, hR⟩, ?_⟩
    intro w' h' hR'
    obtain ⟨rfl, rfl⟩ := rect_unique hR hR'
    exact hS

/-- Non-vacuity: a 2 x 2 checkerboard, a rejected table and a ragged one. -/
example : fromRows [['A', 'B'], ['B', 'A']] = .ok ⟨[(0, 0), (0, 1)], [['A', 'B'], ['B', 'A']]⟩ := by
  decide
example : fromRows [['A', 'A', 'B']] = .error .neighbours := by decide
example : fromRows [['A', 'B'], ['B']] = .error .ragged := by decide

/-! ### Dictionary patterns -/

/-- `d` (distinct keys) lists exactly the entries of a `h`-row, `w`-column table, keyed by
(row, column). -/
def Spec.DictIsTable {L : Type} (d : List ((Int × Int) × L)) (rows : List (List L)) (w h : Nat) : Prop :=
  (∀ k l, (k, l) ∈ d → ∃ r c : Nat, k = ((r : Int), (c : Int)) ∧ r < h ∧ c < w) ∧
  ∀ r c : Nat, r < h → c < w →
    ∃ l, (((r : Int), (c : Int)), l) ∈ d ∧ (rows[r]?).bind (fun row => row[c]?) = some l

omit [DecidableEq L] in
theorem minInt_le (a : Int) (l : List Int) : minInt a l ≤ a ∧ ∀ x ∈ l, minInt a l ≤ x := by
  unfold minInt
  induction l generalizing a with
  | nil => simp
  | cons y ys ih =>
    obtain ⟨h1, h2⟩ := ih (min a y)
    simp only [List.foldl_cons, List.mem_cons]
    refine ⟨by omega, ?_⟩
    rintro x (rfl | hx)
    · omega
    · exact h2 x hx

theorem le_maxInt (a : Int) (l : List Int) : a ≤ maxInt a l ∧ ∀ x ∈ l, x ≤ maxInt a l := by
  unfold maxInt
  induction l generalizing a with
  | nil => simp
  | cons y ys ih =>
    obtain ⟨h1, h2⟩ := ih (max a y)
    simp only [List.foldl_cons, List.mem_cons]
    refine ⟨by omega, ?_⟩
    rintro x (rfl | hx)
    · omega
    · exact h2 x hx

theorem minInt_mem (a : Int) (l : List Int) : minInt a l = a ∨ minInt a l ∈ l := by
  unfold minInt
  induction l generalizing a with
  | nil => simp
  | cons y ys ih =>
    simp only [List.foldl_cons, List.mem_cons]
    rcases ih (min a y) with h | h
    · rcases le_total a y with h' | h'
      · left; rw [h]; exact min_eq_left h'
      · right; left; rw [h]; exact min_eq_right h'
    · exact Or.inr (Or.inr h)

theorem maxInt_mem (a : Int) (l : List Int) : maxInt a l = a ∨ maxInt a l ∈ l := by
  unfold maxInt
  induction l generalizing a with
  | nil => simp
  | cons y ys ih =>
    simp only [List.foldl_cons, List.mem_cons]
    rcases ih (max a y) with h | h
    · rcases le_total a y with h' | h'
      · right; left; rw [h]; exact max_eq_right h'
      · left; rw [h]; exact max_eq_left h'
    · exact Or.inr (Or.inr h)

omit [DecidableEq L] in
theorem dictGet_eq_some {d : List (Vertex × L)} (hd : (d.map (·.1)).Nodup) {k : Vertex} {l : L} :
    dictGet d k = some l ↔ (k, l) ∈ d := by
  unfold dictGet
  induction d with
  | nil => simp
  | cons e es ih =>
    obtain ⟨k', l'⟩ := e
    simp only [List.map_cons, List.nodup_cons] at hd
    by_cases hk : k' = k
    · subst hk
      simp only [List.find?_cons, beq_self_eq_true, Option.map_some, Option.some.injEq,
        List.mem_cons, Prod.mk.injEq, true_and]
      constructor
      · intro h; exact Or.inl h.symm
      · rintro (h | h)
        · exact h.symm
        · exact absurd (List.mem_map.2 ⟨_, h, rfl⟩) hd.1
    · have : ((k' == k) = false) := by simpa using hk
      simp only [List.find?_cons, this, List.mem_cons, Prod.mk.injEq, Ne.symm hk, false_and,
        false_or]
      exact ih hd.2

theorem mapM_option_range {α : Type} (f : Nat → Option α) (n : Nat) (l : List α) :
    (List.range n).mapM f = some l ↔ l.length = n ∧ ∀ i, i < n → f i = l[i]? := by
  induction n generalizing l with
  | zero =>
    simp only [List.range_zero, List.mapM_nil, Nat.not_lt_zero, false_implies, implies_true, and_true]
    constructor
    · intro h; cases h; rfl
    · intro h; rw [List.length_eq_zero_iff] at h; subst h; rfl
  | succ n ih =>
    rw [List.range_succ, List.mapM_append]
    cases hm : (List.range n).mapM f with
    | none =>
      simp only [Option.bind_eq_bind, Option.bind_none, reduceCtorEq, false_iff, not_and]
      rintro hl hf
      have := (ih (l.take n)).2 ⟨by simp [hl], fun i hi => by
        rw [hf i (by omega), List.getElem?_take_of_lt hi]⟩
      rw [hm] at this; cases this
    | some l0 =>
      obtain ⟨h1, h2⟩ := (ih l0).1 hm
      cases hfn : f n with
      | none =>
        simp only [List.mapM_cons, hfn, Option.bind_eq_bind, Option.bind_some, Option.bind_none,
          reduceCtorEq, false_iff, not_and]
        intro hl hf
        have := hf n (by omega)
        rw [hfn, eq_comm, List.getElem?_eq_none_iff] at this
        omega
      | some a =>
        simp only [List.mapM_cons, hfn, Option.bind_eq_bind, Option.bind_some, List.mapM_nil,
          Option.pure_def, Option.some.injEq]
        constructor
        · rintro rfl
          refine ⟨by simp [h1], fun i hi => ?_⟩
          rcases Nat.lt_succ_iff_lt_or_eq.1 hi with hi | rfl
          · rw [h2 i hi, List.getElem?_append_left (by omega)]
          · rw [hfn, List.getElem?_append_right (by omega), h1]; simp
        · rintro ⟨hl, hf⟩
          apply List.ext_getElem?
          intro i
          rcases Nat.lt_trichotomy i n with hi | rfl | hi
          · rw [List.getElem?_append_left (by omega), ← h2 i hi, hf i (by omega)]
          · rw [List.getElem?_append_right (by omega), h1, ← hf i (by omega), hfn]; simp
          · rw [List.getElem?_eq_none (by simp; omega), List.getElem?_eq_none (by omega)]

theorem dictRows_eq_some {d : List (Vertex × L)} {nr nc : Nat} {rows : List (List L)} :
    dictRows d nr nc = some rows ↔ rows.length = nr ∧ (∀ row ∈ rows, row.length = nc) ∧
      ∀ r c : Nat, r < nr → c < nc →
        dictGet d ((r : Int), (c : Int)) = (rows[r]?).bind (fun row => row[c]?) := by
  unfold dictRows
  rw [mapM_option_range]
  constructor
  · rintro ⟨h1, h2⟩
    have h3 : ∀ r (hr : r < rows.length), (rows[r]).length = nc ∧ ∀ c, c < nc →
        dictGet d ((r : Int), (c : Int)) = (rows[r])[c]? := by
      intro r hr
      have := h2 r (by omega)
      rw [List.getElem?_eq_getElem hr, mapM_option_range] at this
      exact this
    refine ⟨h1, ?_, ?_⟩
    · intro row hrow
      obtain ⟨i, hi, rfl⟩ := List.getElem_of_mem hrow
      exact (h3 i hi).1
    · intro r c hr hc
      rw [List.getElem?_eq_getElem (by omega : r < rows.length)]
      exact (h3 r (by omega)).2 c hc
  · rintro ⟨h1, h2, h3⟩
    refine ⟨h1, ?_⟩
    intro r hr
    rw [List.getElem?_eq_getElem (by omega : r < rows.length), mapM_option_range]
    refine ⟨h2 _ (List.getElem_mem _), ?_⟩
    intro c hc
    rw [h3 r c hr hc, List.getElem?_eq_getElem (by omega : r < rows.length)]
    rfl

/-- C02, dictionary form. A dictionary (distinct keys) is accepted with result `r` exactly when it
lists a complete `h x w` table keyed by (row, column) and that table is accepted with result `r`. -/
theorem C02_dict (d : List (Vertex × L)) (hd : (d.map (·.1)).Nodup) (r : PatternOk L) :
    fromDict d = .ok r ↔
      ∃ rows w h, 0 < w ∧ Rectangular rows w h ∧ DictIsTable d rows w h ∧ fromRows rows = .ok r := by
  cases hk : d.map (·.1) with
  | nil =>
    have : d = [] := by simpa using hk
    subst this
    simp only [fromDict, List.map_nil, reduceCtorEq, false_iff, not_exists, not_and]
    rintro rows w h hw hR hT _
    obtain ⟨l, hl, _⟩ := hT.2 0 0 hR.2.1 hw
    simp at hl
  | cons k ks =>
    set minR := minInt k.1 (ks.map (·.1)) with hminR
    set minC := minInt k.2 (ks.map (·.2)) with hminC
    set maxR := maxInt k.1 (ks.map (·.1)) with hmaxR
    set maxC := maxInt k.2 (ks.map (·.2)) with hmaxC
    have hfd : fromDict d = if (minR, minC) ≠ (0, 0) then .error .notRectangle
        else match dictRows d (maxR + 1).toNat (maxC + 1).toNat with
          | none => .error .notRectangle
          | some rows => fromRows rows := by
      unfold fromDict; rw [hk]; rfl
    have hmemk : ∀ q : Vertex, q ∈ k :: ks ↔ ∃ l, (q, l) ∈ d := by
      intro q; rw [← hk]; simp
    have bounds : ∀ q : Vertex, q ∈ k :: ks →
        minR ≤ q.1 ∧ q.1 ≤ maxR ∧ minC ≤ q.2 ∧ q.2 ≤ maxC := by
      intro q hq
      rcases List.mem_cons.1 hq with rfl | hq
      · exact ⟨(minInt_le _ _).1, (le_maxInt _ _).1, (minInt_le _ _).1, (le_maxInt _ _).1⟩
      · exact ⟨(minInt_le _ _).2 _ (List.mem_map.2 ⟨q, hq, rfl⟩),
          (le_maxInt _ _).2 _ (List.mem_map.2 ⟨q, hq, rfl⟩),
          (minInt_le _ _).2 _ (List.mem_map.2 ⟨q, hq, rfl⟩),
          (le_maxInt _ _).2 _ (List.mem_map.2 ⟨q, hq, rfl⟩)⟩
    have attR : ∀ m : Int, (m = k.1 ∨ m ∈ ks.map (·.1)) → ∃ q ∈ k :: ks, q.1 = m := by
      rintro m (rfl | hm)
      · exact ⟨k, by simp, rfl⟩
      · obtain ⟨q, hq, rfl⟩ := List.mem_map.1 hm; exact ⟨q, by simp [hq], rfl⟩
    have attC : ∀ m : Int, (m = k.2 ∨ m ∈ ks.map (·.2)) → ∃ q ∈ k :: ks, q.2 = m := by
      rintro m (rfl | hm)
      · exact ⟨k, by simp, rfl⟩
      · obtain ⟨q, hq, rfl⟩ := List.mem_map.1 hm; exact ⟨q, by simp [hq], rfl⟩
    constructor
    · intro hf
      rw [hfd] at hf
      by_cases h0 : (minR, minC) ≠ (0, 0)
      · rw [if_pos h0] at hf; cases hf
      · rw [if_neg h0] at hf
        simp only [ne_eq, Prod.mk.injEq, not_not] at h0
        cases hrows : dictRows d (maxR + 1).toNat (maxC + 1).toNat with
        | none => rw [hrows] at hf; cases hf
        | some rows =>
          rw [hrows] at hf
          obtain ⟨h1, h2, h3⟩ := dictRows_eq_some.1 hrows
          obtain ⟨b1, b2, b3, b4⟩ := bounds k (by simp)
          refine ⟨rows, (maxC + 1).toNat, (maxR + 1).toNat, by omega, ⟨h1, by omega, h2⟩, ⟨?_, ?_⟩, hf⟩
          · intro q l hq
            obtain ⟨c1, c2, c3, c4⟩ := bounds q ((hmemk q).2 ⟨l, hq⟩)
            exact ⟨q.1.toNat, q.2.toNat, by ext <;> simp <;> omega, by omega, by omega⟩
          · intro r c hr hc
            have := h3 r c hr hc
            have hlr : r < rows.length := by omega
            have hlc : c < rows[r].length := by rw [h2 _ (List.getElem_mem _)]; exact hc
            refine ⟨rows[r][c], ?_, ?_⟩
            · rw [← dictGet_eq_some hd, this, List.getElem?_eq_getElem hlr]
              simp [List.getElem?_eq_getElem hlc]
            · rw [List.getElem?_eq_getElem hlr]; simp [List.getElem?_eq_getElem hlc]
    · rintro ⟨rows, w, h, hw, hR, hT, hf⟩
      have key : ∀ q ∈ k :: ks, 0 ≤ q.1 ∧ q.1 < h ∧ 0 ≤ q.2 ∧ q.2 < w := by
        intro q hq
        obtain ⟨l, hl⟩ := (hmemk q).1 hq
        obtain ⟨r, c, rfl, hr, hc⟩ := hT.1 q l hl
        simp; omega
      have corner : ∀ r c : Nat, r < h → c < w → ((r : Int), (c : Int)) ∈ k :: ks := by
        intro r c hr hc
        obtain ⟨l, hl, _⟩ := hT.2 r c hr hc
        exact (hmemk _).2 ⟨l, hl⟩
      have hh := hR.2.1
      have e0 := bounds _ (corner 0 0 hh hw)
      have e1 := bounds _ (corner (h - 1) (w - 1) (by omega) (by omega))
      obtain ⟨q1, hq1, hq1e⟩ := attR minR (minInt_mem _ _)
      obtain ⟨q2, hq2, hq2e⟩ := attC minC (minInt_mem _ _)
      obtain ⟨q3, hq3, hq3e⟩ := attR maxR (maxInt_mem _ _)
      obtain ⟨q4, hq4, hq4e⟩ := attC maxC (maxInt_mem _ _)
      have k1 := key q1 hq1
      have k2 := key q2 hq2
      have k3 := key q3 hq3
      have k4 := key q4 hq4
      simp only [] at e0 e1
      have m1 : minR = 0 := by omega
      have m2 : minC = 0 := by omega
      have m3 : (maxR + 1).toNat = h := by omega
      have m4 : (maxC + 1).toNat = w := by omega
      have hrows : dictRows d h w = some rows := by
        rw [dictRows_eq_some]
        refine ⟨hR.1, hR.2.2, ?_⟩
        intro r c hr hc
        obtain ⟨l, hl, hl'⟩ := hT.2 r c hr hc
        rw [hl', dictGet_eq_some hd]; exact hl
      rw [hfd, if_neg (by simp [m1, m2]), m3, m4, hrows]
      exact hf

/-- Non-vacuity: key (row, column) = (0,1) becomes site (x,y) = (1,0). -/
example : fromDict [((0, 0), 'A'), ((0, 1), 'B')] = .ok ⟨[(0, 0), (1, 0)], [['A', 'B']]⟩ := by
  decide
example : fromDict [((0, 1), 'B')] = .error .notRectangle := by decide

/-! ## C03: a pattern drives a consistent tiling -/

theorem label2index_spec (rows : List (List L)) (w h : Nat) (hR : Rectangular rows w h)
    (hw : 0 < w) :
    ∀ (cs : List Vertex) (acc out : List (L × Vertex)), label2index rows cs acc = some out →
      (∀ c ∈ cs, 0 ≤ c.1 ∧ c.1 < w ∧ 0 ≤ c.2 ∧ c.2 < h) ∧
      ∀ l : L, (out.find? (fun e => decide (e.1 = l))).map (·.2) =
        ((cs.reverse.find? (fun c => decide (labelAt rows w h c = some l))).or
          ((acc.find? (fun e => decide (e.1 = l))).map (·.2))) := by
  intro cs
  induction cs with
  | nil => intro acc out h; simp only [label2index, Option.some.injEq] at h; subst h; simp
  | cons c cs ih =>
    intro acc out ho
    unfold label2index at ho
    split at ho
    · cases ho
    · rename_i hneg
      cases hs : site2index rows c.1.toNat c.2.toNat with
      | none => rw [hs] at ho; cases ho
      | some l =>
        rw [hs] at ho
        obtain ⟨h1, h2⟩ := ih _ _ ho
        obtain ⟨row, hrow, hl⟩ := Option.bind_eq_some_iff.1 hs
        have hcy : c.2.toNat < h := by
          have := (List.getElem?_eq_some_iff.1 hrow).1; rw [hR.1] at this; exact this
        have hcx : c.1.toNat < w := by
          have := (List.getElem?_eq_some_iff.1 hl).1
          rw [hR.2.2 row (List.mem_of_getElem? hrow)] at this; exact this
        have hlab : labelAt rows w h c = some l := by
          have := labelAt_cell rows hcx hcy
          rw [hs] at this
          rw [← this]
          congr 1
          ext <;> simp <;> omega
        refine ⟨?_, ?_⟩
        · intro c' hc'
          rcases List.mem_cons.1 hc' with rfl | hc'
          · omega
          · exact h1 c' hc'
        · intro l'
          rw [h2 l']
          simp only [List.reverse_cons, List.find?_append, Option.or_assoc]
          congr 1
          simp only [List.find?_cons, hlab, Option.some.injEq]
          by_cases hll : l = l'
          · subst hll; simp
          · simp only [hll, decide_false, List.find?_nil, Option.none_or]
            congr 1
            clear h2 ho
            induction acc with
            | nil => simp
            | cons e es ihe =>
              by_cases he : e.1 = l
              · simp [List.filter_cons, he, hll]
                simpa using ihe
              · by_cases he' : e.1 = l'
                · simp [List.filter_cons, he', Ne.symm hll]
                · simp [List.filter_cons, he, he']
                  simpa using ihe

/-- The labels used by the tiling all have a tensor. -/
def Spec.Covers {L : Type} (rows : List (List L)) (w h : Nat) (sites : List (Int × Int)) : Prop :=
  ∀ c : Int × Int, ∃ s ∈ sites, labelAt rows w h s = labelAt rows w h c

/-- C03. A state built from an accepted pattern with a tensor for every label maps every vertex
of the infinite lattice to one of its sites, of the same label; two vertices share a tensor
exactly when they carry the same label; hence the map is periodic with the pattern and vertices
sharing a tensor have pairwise shared neighbours. -/
theorem C03_pattern_tiling (sites : List Vertex) (rows : List (List L)) (w h : Nat)
    (lX lY : Option Int) (hR : Rectangular rows w h) (hw : 0 < w) (hC : Covers rows w h sites)
    (g : Geometry) (hg : mkGeometry sites none rows lX lY = .ok g) :
    (g.lX = w ∧ g.lY = h) ∧
    (∀ c, ∃ s ∈ sites, g.vertexToSite c = some s ∧ labelAt rows w h s = labelAt rows w h c) ∧
    (∀ c c', g.vertexToSite c = g.vertexToSite c' ↔ labelAt rows w h c = labelAt rows w h c') ∧
    (∀ c (k l : Int), g.vertexToSite (c.1 + k * w, c.2 + l * h) = g.vertexToSite c) ∧
    (∀ c c', g.vertexToSite c = g.vertexToSite c' → ∀ d : Int × Int,
      d ∈ [((-1 : Int), (0 : Int)), (0, -1), (1, 0), (0, 1)] →
      g.vertexToSite (c.1 + d.1, c.2 + d.2) = g.vertexToSite (c'.1 + d.1, c'.2 + d.2)) := by
  have hh := hR.2.1
  cases hrows : rows with
  | nil => rw [hrows] at hR; have := hR.1; simp at this; omega
  | cons r0 rest =>
  have hr0 : r0.length = w := hR.2.2 r0 (by simp [hrows])
  have hlen : rows.length = h := hR.1
  -- the pattern was accepted
  have hacc : ∃ r, fromRows rows = .ok r := by
    cases hf : fromRows rows with
    | ok r => exact ⟨r, rfl⟩
    | error e =>
      exfalso
      rw [hrows] at hf hg
      simp [mkGeometry, cellSize, hf] at hg
  obtain ⟨r, hr⟩ := hacc
  have hS : SameNeighbours rows w h := by
    obtain ⟨w', h', hR', hS'⟩ := (C02_accepts_iff rows).1 ⟨r, hr⟩
    obtain ⟨rfl, rfl⟩ := rect_unique hR hR'
    exact hS'
  obtain ⟨s0, hs0, _⟩ := hC (0, 0)
  obtain ⟨sx, ss, hsites⟩ : ∃ x xs, sites = x :: xs := by
    cases sites with
    | nil => simp at hs0
    | cons x xs => exact ⟨x, xs, rfl⟩
  cases hl2i : label2index rows sites [] with
  | none =>
    exfalso
    rw [hrows] at hr hg hl2i
    rw [hsites] at hg hl2i
    simp [mkGeometry, cellSize, hr, hl2i] at hg
  | some l2i =>
  have hgeq : g = ⟨(w : Int), (h : Int), patternVertexToSite rows w h l2i⟩ := by
    have hg' := hg
    rw [hrows] at hr hg' hl2i
    rw [hsites] at hg' hl2i
    simp [mkGeometry, cellSize, hr, hl2i] at hg'
    rw [← hg', hrows]
    have h2 : rest.length + 1 = h := by rw [hrows] at hlen; simpa using hlen
    have h3 : ((rest.length : Int) + 1) = h := by omega
    simp only [hr0, h2, h3]
  obtain ⟨hin, hfind⟩ := label2index_spec rows w h hR hw sites [] l2i hl2i
  have hv : ∀ c l, labelAt rows w h c = some l → ∃ s ∈ sites,
      g.vertexToSite c = some s ∧ labelAt rows w h s = some l ∧
      sites.reverse.find? (fun c => decide (labelAt rows w h c = some l)) = some s := by
    intro c l hl
    have e1 : g.vertexToSite c = (l2i.find? (fun e => decide (e.1 = l))).map (·.2) := by
      rw [hgeq]
      simp only [patternVertexToSite, site2indexPbc_eq hw hh, hl]
      rfl
    rw [hfind l] at e1
    simp only [List.find?_nil, Option.map_none, Option.or_none] at e1
    obtain ⟨s, hs, hsl⟩ := hC c
    cases hf : sites.reverse.find? (fun c => decide (labelAt rows w h c = some l)) with
    | none =>
      rw [List.find?_eq_none] at hf
      have := hf s (by simpa using hs)
      simp [hsl, hl] at this
    | some s' =>
      have h1 := List.find?_some hf
      have h2 := List.mem_of_find?_eq_some hf
      exact ⟨s', by simpa using h2, by rw [e1, hf], by simpa using h1, rfl⟩
  have hiff : ∀ c c', g.vertexToSite c = g.vertexToSite c' ↔
      labelAt rows w h c = labelAt rows w h c' := by
    intro c c'
    obtain ⟨l, hl⟩ := labelAt_some hR hw c
    obtain ⟨l', hl'⟩ := labelAt_some hR hw c'
    obtain ⟨s, hs, e1, e2, e3⟩ := hv c l hl
    obtain ⟨s', hs', e1', e2', e3'⟩ := hv c' l' hl'
    rw [e1, e1', hl, hl']
    constructor
    · intro h; cases h; exact e2.symm.trans e2'
    · intro h; cases h; rw [e3] at e3'; exact e3'
  rw [← hrows]
  refine ⟨by rw [hgeq]; exact ⟨rfl, rfl⟩, ?_, hiff, ?_, ?_⟩
  · intro c
    obtain ⟨l, hl⟩ := labelAt_some hR hw c
    obtain ⟨s, hs, e1, e2, _⟩ := hv c l hl
    exact ⟨s, hs, e1, by rw [hl, e2]⟩
  · intro c k l
    rw [hiff]
    exact labelAt_congr _ _ _ (by simp) (by simp)
  · intro c c' hcc d hd
    rw [hiff] at hcc ⊢
    obtain ⟨n1, n2, n3, n4⟩ := hS c c' hcc
    simp only [List.mem_cons, List.not_mem_nil, or_false] at hd
    rcases hd with rfl | rfl | rfl | rfl
    · simpa [← sub_eq_add_neg] using n1
    · simpa [← sub_eq_add_neg] using n2
    · simpa using n3
    · simpa using n4

omit [DecidableEq L] in
/-- the representatives cover the pattern -/
theorem representatives_cover (rows : List (List L)) (w h : Nat) (hR : Rectangular rows w h)
    (hw : 0 < w) (sites : List (Nat × Nat))
    (hm : ∀ c, c ∈ sites ↔ IsRepresentative rows w h c) :
    Covers rows w h (sites.map (fun c => ((c.1 : Int), (c.2 : Int)))) := by
  classical
  intro c
  have hh := hR.2.1
  have h1 : 0 ≤ c.1 % (w : Int) := Int.emod_nonneg _ (by omega)
  have h2 : c.1 % (w : Int) < w := Int.emod_lt_of_pos _ (by omega)
  have h3 : 0 ≤ c.2 % (h : Int) := Int.emod_nonneg _ (by omega)
  have h4 : c.2 % (h : Int) < h := Int.emod_lt_of_pos _ (by omega)
  obtain ⟨m, hmin⟩ : ∃ m, lexMin ((cells w h).filter (fun d : Nat × Nat =>
      decide (labelAt rows w h ((d.1 : Int), (d.2 : Int)) = labelAt rows w h c))) = some m := by
    have : ((c.1 % (w : Int)).toNat, (c.2 % (h : Int)).toNat) ∈
        (cells w h).filter (fun d : Nat × Nat =>
          decide (labelAt rows w h ((d.1 : Int), (d.2 : Int)) = labelAt rows w h c)) := by
      rw [List.mem_filter, mem_cells]
      refine ⟨⟨by simp; omega, by simp; omega⟩, ?_⟩
      rw [decide_eq_true_eq]
      exact labelAt_congr _ _ _ (by simp [Int.toNat_of_nonneg h1]) (by simp [Int.toNat_of_nonneg h3])
    cases hl : (cells w h).filter (fun d : Nat × Nat =>
      decide (labelAt rows w h ((d.1 : Int), (d.2 : Int)) = labelAt rows w h c)) with
    | nil => rw [hl] at this; simp at this
    | cons a as => exact ⟨_, rfl⟩
  obtain ⟨h5, h6⟩ := lexMin_eq_some.1 hmin
  simp only [List.mem_filter, decide_eq_true_eq, mem_cells] at h5 h6
  refine ⟨((m.1 : Int), (m.2 : Int)), List.mem_map.2 ⟨m, (hm m).2 ⟨h5.1.1, h5.1.2, ?_⟩, rfl⟩, h5.2⟩
  intro c' hx hy hl
  exact h6 c' ⟨⟨hx, hy⟩, hl.trans h5.2⟩

/-- C03, reachability of its hypotheses: for every accepted pattern of positive width, handing the
constructor tensors for the sites that `from_pattern` returned always succeeds and covers every
label. -/
theorem C03_own_sites_construct (rows : List (List L)) (w h : Nat) (lX lY : Option Int)
    (hR : Rectangular rows w h) (hw : 0 < w) (r : PatternOk L) (hr : fromRows rows = .ok r) :
    Covers rows w h (r.sites.map (fun c => ((c.1 : Int), (c.2 : Int)))) ∧
    ∃ g, mkGeometry (r.sites.map (fun c => ((c.1 : Int), (c.2 : Int)))) none rows lX lY = .ok g := by
  obtain ⟨_, _, hm⟩ := C02_result rows w h hR r hr
  have hC := representatives_cover rows w h hR hw r.sites hm
  refine ⟨hC, ?_⟩
  have hl : ∀ (cs : List (Nat × Nat)) acc, (∀ c ∈ cs, c ∈ r.sites) →
      ∃ out, label2index rows (cs.map (fun c => ((c.1 : Int), (c.2 : Int)))) acc = some out := by
    intro cs
    induction cs with
    | nil => intro acc _; exact ⟨acc, rfl⟩
    | cons c cs ih =>
      intro acc hcs
      obtain ⟨hx, hy, _⟩ := (hm c).1 (hcs c (by simp))
      obtain ⟨l, hl⟩ := labelAt_some hR hw ((c.1 : Int), (c.2 : Int))
      rw [labelAt_cell rows hx hy] at hl
      simp only [List.map_cons, label2index]
      rw [if_neg (by simp)]
      simp only [Int.toNat_natCast, hl]
      exact ih _ (fun c hc => hcs c (by simp [hc]))
  obtain ⟨out, hout⟩ := hl r.sites [] (fun _ h => h)
  obtain ⟨s0, hs0, _⟩ := hC (0, 0)
  cases hrows : rows with
  | nil => rw [hrows] at hR; have := hR.1; simp at this; have := hR.2.1; omega
  | cons r0 rest =>
    rw [hrows] at hr hout
    cases hs : r.sites.map (fun c => ((c.1 : Int), (c.2 : Int))) with
    | nil => rw [hs] at hs0; simp at hs0
    | cons a as =>
      rw [hs] at hout
      exact ⟨⟨r0.length, (r0 :: rest).length, patternVertexToSite (r0 :: rest) r0.length
        (r0 :: rest).length out⟩, by simp only [mkGeometry, cellSize, hr, hout]⟩

/-- Non-vacuity: the checkerboard state. -/
example : ∃ g, mkGeometry [(0, 0), (0, 1)] none [['A', 'B'], ['B', 'A']] none none = .ok g ∧
    g.vertexToSite (-1, 0) = some (0, 1) ∧ g.vertexToSite (5, -3) = some (0, 0) :=
  ⟨_, rfl, by decide, by decide⟩

/-! ## C04: which cell size and tiling a constructed state gets -/

/-- C04. Decision table of the constructor: a pattern fixes the size; otherwise explicit non-zero
sizes; otherwise the bounding box of the given sites; otherwise an error.  An explicit tiling
function is always used as is; a pattern tiling without site tensors is an error. -/
theorem C04_constructor :
    -- pattern wins over everything for the size
    (∀ (sites : List Vertex) (rows : List (List L)) (w h : Nat) vts lX lY (g : Geometry),
      Rectangular rows w h → mkGeometry sites vts rows lX lY = .ok g → g.lX = w ∧ g.lY = h) ∧
    -- explicit tiling function is used unchanged, whatever else is given
    (∀ (sites : List Vertex) (rows : List (List L)) f lX lY (g : Geometry),
      mkGeometry sites (some f) rows lX lY = .ok g → g.vertexToSite = f) ∧
    -- both sizes given and non-zero
    (∀ (sites : List Vertex) (x y : Int), x ≠ 0 → y ≠ 0 →
      mkGeometry sites none ([] : List (List L)) (some x) (some y) =
        .ok ⟨x, y, defaultVertexToSite x y⟩) ∧
    -- one size missing: bounding box of the sites, i.e. the smallest box holding all of them
    (∀ (sites : List Vertex) (lX lY : Option Int) (g : Geometry), sites ≠ [] →
      (lX = none ∨ lY = none) → mkGeometry sites none ([] : List (List L)) lX lY = .ok g →
      ∃ x0 y0 : Int, (∀ s ∈ sites, x0 ≤ s.1 ∧ s.1 < x0 + g.lX ∧ y0 ≤ s.2 ∧ s.2 < y0 + g.lY) ∧
        (∃ s ∈ sites, s.1 = x0) ∧ (∃ s ∈ sites, s.1 = x0 + g.lX - 1) ∧
        (∃ s ∈ sites, s.2 = y0) ∧ (∃ s ∈ sites, s.2 = y0 + g.lY - 1) ∧
        g.vertexToSite = defaultVertexToSite g.lX g.lY) ∧
    -- nothing to determine the size
    (∀ (vts : Option (Vertex → Option Vertex)) (lX lY : Option Int),
      (lX = none ∨ lX = some 0 ∨ lY = none ∨ lY = some 0) →
      mkGeometry [] vts ([] : List (List L)) lX lY = .error .noSize) ∧
    -- an accepted pattern without tensors
    (∀ (rows : List (List L)) lX lY r, fromRows rows = .ok r →
      mkGeometry [] none rows lX lY = .error .patternNoSites) := by
  refine ⟨?_, ?_, ?_, ?_, ?_, ?_⟩
  · intro sites rows w h vts lX lY g hR hg
    cases rows with
    | nil => have := hR.1; have := hR.2.1; simp at *; omega
    | cons r0 rest =>
      have h1 : r0.length = w := hR.2.2 r0 (by simp)
      have h2 : rest.length + 1 = h := by simpa using hR.1
      have h3 : ((rest.length : Int) + 1) = h := by omega
      simp only [mkGeometry, cellSize] at hg
      cases vts with
      | some f => simp at hg; rw [← hg]; simp [h1, h3]
      | none =>
        simp only at hg
        split at hg
        · cases hg
        · split at hg
          · cases hg
          · split at hg
            · cases hg
            · cases hg; simp [h1, h3]
  · intro sites rows f lX lY g hg
    simp only [mkGeometry] at hg
    split at hg
    · cases hg
    · cases hg; rfl
  · intro sites x y hx hy
    cases sites <;> simp [mkGeometry, cellSize, truthy, hx, hy]
  · intro sites lX lY g hs hl hg
    cases sites with
    | nil => exact absurd rfl hs
    | cons s ss =>
      have hsz : cellSize (s :: ss) ([] : List (List L)) lX lY =
          .ok (maxInt s.1 (ss.map (·.1)) - minInt s.1 (ss.map (·.1)) + 1,
             maxInt s.2 (ss.map (·.2)) - minInt s.2 (ss.map (·.2)) + 1) := by
        rcases hl with rfl | rfl
        · rfl
        · cases lX <;> rfl
      simp only [mkGeometry, hsz] at hg
      cases hg
      have a1 := minInt_le s.1 (ss.map (·.1))
      have a2 := le_maxInt s.1 (ss.map (·.1))
      have a3 := minInt_le s.2 (ss.map (·.2))
      have a4 := le_maxInt s.2 (ss.map (·.2))
      refine ⟨minInt s.1 (ss.map (·.1)), minInt s.2 (ss.map (·.2)), ?_, ?_, ?_, ?_, ?_, rfl⟩
      · intro t ht
        simp only []
        rcases List.mem_cons.1 ht with rfl | ht
        · omega
        · have b1 := a1.2 _ (List.mem_map.2 ⟨t, ht, rfl⟩)
          have b2 := a2.2 _ (List.mem_map.2 ⟨t, ht, rfl⟩)
          have b3 := a3.2 _ (List.mem_map.2 ⟨t, ht, rfl⟩)
          have b4 := a4.2 _ (List.mem_map.2 ⟨t, ht, rfl⟩)
          omega
      · rcases minInt_mem s.1 (ss.map (·.1)) with e | e
        · exact ⟨s, by simp, e.symm⟩
        · obtain ⟨t, ht, e'⟩ := List.mem_map.1 e; exact ⟨t, by simp [ht], e'⟩
      · rcases maxInt_mem s.1 (ss.map (·.1)) with e | e
        · exact ⟨s, by simp, by simp only []; omega⟩
        · obtain ⟨t, ht, e'⟩ := List.mem_map.1 e
          exact ⟨t, by simp [ht], by simp only []; omega⟩
      · rcases minInt_mem s.2 (ss.map (·.2)) with e | e
        · exact ⟨s, by simp, e.symm⟩
        · obtain ⟨t, ht, e'⟩ := List.mem_map.1 e; exact ⟨t, by simp [ht], e'⟩
      · rcases maxInt_mem s.2 (ss.map (·.2)) with e | e
        · exact ⟨s, by simp, by simp only []; omega⟩
        · obtain ⟨t, ht, e'⟩ := List.mem_map.1 e
          exact ⟨t, by simp [ht], by simp only []; omega⟩
  · intro vts lX lY hl
    have : cellSize [] ([] : List (List L)) lX lY = .error .noSize := by
      rcases hl with rfl | rfl | rfl | rfl
      · rfl
      · rfl
      · cases h : truthy lX <;> simp [cellSize, truthy]
      · cases h : truthy lX <;> simp [cellSize, truthy]
    simp only [mkGeometry, this]
  · intro rows lX lY r hr
    cases rows with
    | nil => cases hr
    | cons r0 rest => simp only [mkGeometry, cellSize, hr]

/-- Non-vacuity: bounding box of two sites. -/
example : ∃ g, mkGeometry [(0, 0), (1, 0)] none ([] : List (List Char)) none none = .ok g ∧
    g.lX = 2 ∧ g.lY = 1 := ⟨_, rfl, rfl, rfl⟩

/-- The documentation says a `pattern` makes an explicit `vertexToSite` ignored; the code does the
opposite (ipeps/ipeps.py L211-L231). -/
theorem C04_doc_disagreement : ∃ (f : Vertex → Option Vertex) (g : Geometry),
    mkGeometry [(0, 0), (1, 0)] (some f) [['A', 'B']] none none = .ok g ∧
    g.vertexToSite (1, 0) = some (0, 0) ∧
    ∃ g', mkGeometry [(0, 0), (1, 0)] none [['A', 'B']] none none = .ok g' ∧
      g'.vertexToSite (1, 0) = some (1, 0) :=
  ⟨fun _ => some (0, 0), _, rfl, rfl, _, rfl, by decide⟩

end Verif.Lattice
