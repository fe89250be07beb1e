import Verif.State.BondModel
import Verif.State.BondSpec
import Mathlib.Tactic.FinCases
import Mathlib.Algebra.BigOperators.Fin
import Mathlib.Tactic.Ring
/-
Properties C08 (growing the bond dimension) and C09 (bond weights).
-/
namespace Verif.State
open Verif.Lattice (Vertex)
open Spec
variable {K : Type}

/-! ## C08 -/

/-- What one grown site looks like: auxiliary axes of size `d`, old entries kept, zeros elsewhere. -/
def Spec.Grown [Zero K] (d : Nat) (X Y : Tensor K) : Prop :=
  Y.shape = X.shape.take 1 ++ [d, d, d, d] ∧
  (∀ idx, Tensor.InB X.shape idx → Tensor.InB Y.shape idx ∧ Y.val idx = X.val idx) ∧
  ∀ idx, Tensor.InB Y.shape idx → ¬ Tensor.InB X.shape idx → Y.val idx = 0

theorem extendSite_grown [Zero K] (d : Nat) (X : Tensor K) (h5 : X.shape.length = 5)
    (hd : ∀ a ∈ X.shape.tail, a ≤ d) : ∃ Y, extendSite d X = some Y ∧ Grown d X Y := by
  obtain ⟨sh, val⟩ := X
  match sh, h5 with
  | [p, a, b, c, e], _ =>
    simp only [List.tail_cons, List.mem_cons, List.not_mem_nil, or_false, forall_eq_or_imp, forall_eq] at hd
    refine ⟨_, by simp only [extendSite]; rw [if_pos hd], rfl, ?_, ?_⟩
    · intro idx hi
      refine ⟨?_, by simp only [if_pos hi]⟩
      simp only [Tensor.InB] at hi ⊢
      rcases hi with _ | ⟨h1, hi⟩
      rcases hi with _ | ⟨h2, hi⟩
      rcases hi with _ | ⟨h3, hi⟩
      rcases hi with _ | ⟨h4, hi⟩
      rcases hi with _ | ⟨h5, hi⟩
      cases hi
      exact .cons h1 (.cons (by omega) (.cons (by omega) (.cons (by omega) (.cons (by omega) .nil))))
    · intro idx _ hi
      simp only [if_neg hi]

theorem extendSite_none [Zero K] (d : Nat) (X : Tensor K) (hd : ¬ ∀ a ∈ X.shape.tail, a ≤ d) :
    extendSite d X = none := by
  unfold extendSite
  split
  · rename_i p a b c e hs
    rw [if_neg]
    intro h
    apply hd
    rw [hs]
    simpa using h
  · rfl

/-- C08. If every auxiliary dimension fits, the call returns and every site has grown; the keys are
unchanged. -/
theorem C08_extend [Zero K] (d : Nat) (sites : List (Vertex × Tensor K))
    (h5 : ∀ e ∈ sites, e.2.shape.length = 5) (hd : ∀ e ∈ sites, ∀ a ∈ e.2.shape.tail, a ≤ d) :
    (extendBondDim d sites).2 = true ∧
    List.Forall₂ (fun a b => a.1 = b.1 ∧ Grown d a.2 b.2) sites (extendBondDim d sites).1 := by
  induction sites with
  | nil => exact ⟨rfl, .nil⟩
  | cons e es ih =>
    obtain ⟨c, X⟩ := e
    obtain ⟨Y, hY, hg⟩ := extendSite_grown d X (h5 (c, X) (by simp)) (hd (c, X) (by simp))
    obtain ⟨i1, i2⟩ := ih (fun e he => h5 e (by simp [he])) (fun e he => hd e (by simp [he]))
    simp only [extendBondDim, hY]
    exact ⟨i1, .cons ⟨rfl, hg⟩ i2⟩

/-- C08. The call raises exactly when some auxiliary dimension exceeds the requested one. -/
theorem C08_raises_iff [Zero K] (d : Nat) (sites : List (Vertex × Tensor K))
    (h5 : ∀ e ∈ sites, e.2.shape.length = 5) :
    (extendBondDim d sites).2 = false ↔ ∃ e ∈ sites, ∃ a ∈ e.2.shape.tail, d < a := by
  constructor
  · intro h
    by_contra hc
    have hd : ∀ e ∈ sites, ∀ a ∈ e.2.shape.tail, a ≤ d := by
      intro e he a ha
      by_contra hlt
      exact hc ⟨e, he, a, ha, by omega⟩
    rw [(C08_extend d sites h5 hd).1] at h
    cases h
  · rintro ⟨e, he, a, ha, hlt⟩
    induction sites with
    | nil => simp at he
    | cons f fs ih =>
      obtain ⟨c, X⟩ := f
      unfold extendBondDim
      cases hx : extendSite d X with
      | none => rfl
      | some Y =>
        simp only []
        rcases List.mem_cons.1 he with rfl | he
        · rw [extendSite_none d _ (fun h => by have := h a ha; omega)] at hx; cases hx
        · exact ih (fun e he => h5 e (by simp [he])) he

/-- C08, the error path (partial: the first site processed is too large, in particular every
single-site state). Then the dictionary is left as it was.
Missing from the full property: later offending sites, where it is false, see
`C08_error_not_atomic`. -/
theorem C08_error_unchanged_partial [Zero K] (d : Nat) (c : Vertex) (X : Tensor K)
    (rest : List (Vertex × Tensor K)) (h : ∃ a ∈ X.shape.tail, d < a) :
    extendBondDim d ((c, X) :: rest) = ((c, X) :: rest, false) := by
  obtain ⟨a, ha, hlt⟩ := h
  unfold extendBondDim
  rw [extendSite_none d X (fun h => by have := h a ha; omega)]

/-- C08, the error path (violated). With two sites, the second being too large, the call raises
after the first site has already been replaced by a tensor of another shape. -/
theorem C08_error_not_atomic : ∃ (sites : List (Vertex × Tensor Int)) (d : Nat),
    (∀ e ∈ sites, e.2.shape.length = 5) ∧ (extendBondDim d sites).2 = false ∧
    (extendBondDim d sites).1.map (fun e => e.2.shape) ≠ sites.map (fun e => e.2.shape) :=
  ⟨[((0, 0), ⟨[2, 1, 1, 1, 1], fun _ => 1⟩), ((1, 0), ⟨[2, 3, 1, 1, 1], fun _ => 1⟩)], 2,
    by decide, by decide, by decide⟩

/-- C08. Growing every tensor leaves the amplitude of every finite arrangement unchanged, provided
each summed bond is attached to at least one tensor. -/
theorem C08_amplitude [CommSemiring K] {n : Nat} {B : Type} [Fintype B] [DecidableEq B]
    (T T' : Fin n → Tensor K) (phys : Fin n → Nat) (bond : Fin n → Fin 4 → B) (D : B → Nat) (d : Nat)
    (hfit : Fits T phys bond D) (hD : ∀ b, D b ≤ d) (htouch : ∀ b, ∃ i k, bond i k = b)
    (hT : ∀ i, extendSite d (T i) = some (T' i)) :
    amplitude T' phys bond (fun _ => d) (fun _ => 1) = amplitude T phys bond D (fun _ => 1) := by
  have hval : ∀ i idx, (T' i).val idx = if Tensor.InB (T i).shape idx then (T i).val idx else 0 := by
    intro i idx
    have h := hT i
    obtain ⟨p, _, hs⟩ := hfit i
    unfold extendSite at h
    rw [hs] at h ⊢
    simp only at h
    split at h
    · simp only [Option.some.injEq] at h; rw [← h]
    · cases h
  have hin : ∀ i (σ : B → Nat), (∀ k, σ (bond i k) < D (bond i k)) →
      Tensor.InB (T i).shape [phys i, σ (bond i 0), σ (bond i 1), σ (bond i 2), σ (bond i 3)] := by
    intro i σ h
    obtain ⟨p, hp, hs⟩ := hfit i
    rw [hs]
    exact .cons hp (.cons (h 0) (.cons (h 1) (.cons (h 2) (.cons (h 3) .nil))))
  unfold amplitude
  simp only [mul_one]
  symm
  have hsub : Fintype.piFinset (fun b => Finset.range (D b)) ⊆
      Fintype.piFinset (fun _ : B => Finset.range d) := by
    apply Fintype.piFinset_subset
    intro b
    exact Finset.range_subset_range.2 (hD b)
  rw [← Finset.sum_subset hsub]
  · apply Finset.sum_congr rfl
    intro σ hσ
    simp only [Fintype.mem_piFinset, Finset.mem_range] at hσ
    apply Finset.prod_congr rfl
    intro i _
    rw [hval, if_pos (hin i σ (fun k => hσ _))]
  · intro σ _ hσ
    simp only [Fintype.mem_piFinset, Finset.mem_range, not_forall, not_lt] at hσ
    obtain ⟨b, hb⟩ := hσ
    obtain ⟨i, k, rfl⟩ := htouch b
    apply Finset.prod_eq_zero (Finset.mem_univ i)
    rw [hval, if_neg]
    intro hc
    obtain ⟨p, _, hs⟩ := hfit i
    rw [hs] at hc
    unfold Tensor.InB at hc
    rcases hc with _ | ⟨h1, hc⟩
    rcases hc with _ | ⟨h2, hc⟩
    rcases hc with _ | ⟨h3, hc⟩
    rcases hc with _ | ⟨h4, hc⟩
    rcases hc with _ | ⟨h5, hc⟩
    fin_cases k <;> simp at hb <;> omega

/-- Non-vacuity of C08_amplitude: one site of a torus, both bond pairs closed on themselves. -/
example : ∃ T' : Tensor Int, extendSite 3 ⟨[2, 2, 1, 2, 1], fun i => (i.sum : Int)⟩ = some T' ∧
    Fits (n := 1) (B := Fin 2) (fun _ => (⟨[2, 2, 1, 2, 1], fun i => (i.sum : Int)⟩ : Tensor Int))
      (fun _ => 1) (fun _ k => if k.val % 2 = 0 then 0 else 1) (fun b => if b = 0 then 2 else 1) :=
  ⟨_, rfl, fun _ => ⟨2, Nat.lt_succ_self 1, rfl⟩⟩

/-! ## C09, part one: both ends of a bond find the same weight -/

/-- A tiling under which vertices sharing a tensor have pairwise shared neighbours, and every
listed site is its own representative. -/
structure Spec.GoodTiling (keys : List Vertex) (vts : Vertex → Option Vertex) : Prop where
  total : ∀ c, ∃ s ∈ keys, vts c = some s
  own : ∀ s ∈ keys, vts s = some s
  neighbours : ∀ c c', vts c = vts c' → ∀ d : Int × Int,
      d ∈ [((-1 : Int), (0 : Int)), (0, -1), (1, 0), (0, 1)] →
      vts (c.1 + d.1, c.2 + d.2) = vts (c'.1 + d.1, c'.2 + d.2)

/-- Neighbouring tensors have matching dimensions on their common bond. -/
def Spec.BondsMatch (keys : List Vertex) (vts : Vertex → Option Vertex)
    (dim : Vertex → Int × Int → Option Nat) : Prop :=
  ∀ c ∈ keys, ∀ d ∈ [((0 : Int), (-1 : Int)), (-1, 0), (0, 1), (1, 0)], ∀ s,
    vts (c.1 + d.1, c.2 + d.2) = some s → ∃ n, dim c d = some n ∧ dim s (-d.1, -d.2) = some n

theorem dictFind_set {κ α : Type} [DecidableEq κ] (d : List (κ × α)) (k k' : κ) (v : α) :
    dictFind (dictSet k v d) k' = if k' = k then some v else dictFind d k' := by
  induction d with
  | nil => by_cases h : k' = k
           · subst h; simp [dictFind, dictSet]
           · simp [dictFind, dictSet, h, Ne.symm h]
  | cons e es ih =>
    obtain ⟨a, b⟩ := e
    unfold dictFind at *
    unfold dictSet
    by_cases ha : a = k
    · subst ha
      by_cases h : k' = a
      · subst h; simp
      · simp [h, Ne.symm h]
    · by_cases h : k' = a
      · subst h; simp [ha]
      · simp only [ha, if_false, List.find?_cons, Ne.symm h, decide_false]
        exact ih

theorem dictSet_length_new {κ α : Type} [DecidableEq κ] (d : List (κ × α)) (k : κ) (v : α)
    (h : dictFind d k = none) : (dictSet k v d).length = d.length + 1 := by
  induction d with
  | nil => rfl
  | cons e es ih =>
    obtain ⟨a, b⟩ := e
    unfold dictFind at *
    by_cases ha : a = k
    · subst ha; simp at h
    · simp only [List.find?_cons, ha, decide_false] at h
      simp only [dictSet, ha, if_false, List.length_cons, ih h]

/-- Invariant of the weight-generation loop (proof device). `rev` is the other name of a bond. -/
structure WInv (good : WKey → Prop) (rev : WKey → WKey) (ws : List (WKey × (Nat × Nat))) : Prop where
  sym : ∀ k v, dictFind ws k = some v → good k ∧ dictFind ws (rev k) = some v ∧ v.1 < ws.length
  inj : ∀ k k' v v', dictFind ws k = some v → dictFind ws k' = some v' → v.1 = v'.1 →
    k' = k ∨ k' = rev k

theorem mem_dirs {d : Int × Int} : d ∈ dirs ↔ d = (0, -1) ∨ d = (-1, 0) ∨ d = (0, 1) ∨ d = (1, 0) := by
  simp [dirs]

theorem neg_mem_dirs {d : Int × Int} (h : d ∈ dirs) : (-d.1, -d.2) ∈ dirs := by
  rw [mem_dirs] at *
  rcases h with rfl | rfl | rfl | rfl <;> simp

theorem genLoop (good : WKey → Prop) (rev : WKey → WKey) (vts : Vertex → Option Vertex)
    (dim : Vertex → Int × Int → Option Nat)
    (hstep : ∀ k, good k → vts (k.1.1 + k.2.1, k.1.2 + k.2.2) = some (rev k).1 ∧
      (rev k).2 = (-k.2.1, -k.2.2))
    (hown : ∀ k, good k → vts k.1 = some k.1)
    (hrev : ∀ k, good k → good (rev k) ∧ rev (rev k) = k ∧ rev k ≠ k)
    (hdim : ∀ k, good k → ∃ n, dim k.1 k.2 = some n ∧ dim (rev k).1 (rev k).2 = some n) :
    ∀ (L : List WKey) (ws : List (WKey × (Nat × Nat))), (∀ k ∈ L, good k) → WInv good rev ws →
      ∃ out, L.foldlM (genOne vts dim) ws = some out ∧ WInv good rev out ∧
        (∀ k, (dictFind ws k).isSome → (dictFind out k).isSome) ∧
        ∀ k ∈ L, (dictFind out k).isSome := by
  intro L
  induction L with
  | nil => intro ws _ hi; exact ⟨ws, rfl, hi, fun _ h => h, by simp⟩
  | cons k L ih =>
    intro ws hL hi
    have hk := hL k (by simp)
    obtain ⟨h1, h2⟩ := hstep k hk
    obtain ⟨r1, r2, r3⟩ := hrev k hk
    have hrk : ((rev k).1, (-k.2.1, -k.2.2)) = rev k := by rw [← h2]
    cases hf : dictFind ws k with
    | some v =>
      have hone : genOne vts dim ws k = some ws := by
        unfold genOne; rw [h1]; simp [hf]
      obtain ⟨out, ho, hi', hm, hp⟩ := ih ws (fun k hk => hL k (by simp [hk])) hi
      refine ⟨out, by rw [List.foldlM_cons, hone]; exact ho, hi', hm, ?_⟩
      intro k' hk'
      rcases List.mem_cons.1 hk' with rfl | hk'
      · exact hm _ (by simp [hf])
      · exact hp k' hk'
    | none =>
      have hfr : dictFind ws (rev k) = none := by
        cases hfr : dictFind ws (rev k) with
        | none => rfl
        | some v => have := (hi.sym _ _ hfr).2.1; rw [r2, hf] at this; cases this
      obtain ⟨n, d1, d2⟩ := hdim k hk
      set ws' := dictSet (rev k) (ws.length, n) (dictSet k (ws.length, n) ws) with hws'
      have hone : genOne vts dim ws k = some ws' := by
        unfold genOne
        rw [h1]
        simp only [Option.bind_eq_bind, Option.bind_some, hf, hfr, Option.isNone_none,
          Bool.and_self, if_true, hown k hk, hown _ r1, d1, ← h2, d2]
        rfl
      have hfind : ∀ q, dictFind ws' q = if q = rev k ∨ q = k then some (ws.length, n)
          else dictFind ws q := by
        intro q
        rw [hws', dictFind_set, dictFind_set]
        by_cases a : q = rev k
        · simp [a]
        · by_cases b : q = k <;> simp [a, b]
      have hlen : ws'.length = ws.length + 2 := by
        rw [hws', dictSet_length_new, dictSet_length_new _ _ _ hf]
        rw [dictFind_set, if_neg r3]; exact hfr
      have hi' : WInv good rev ws' := by
        constructor
        · intro q v hq
          rw [hfind] at hq
          by_cases a : q = rev k ∨ q = k
          · rw [if_pos a, Option.some.injEq] at hq
            subst hq
            refine ⟨?_, ?_, by simp only []; omega⟩
            · rcases a with rfl | rfl
              · exact r1
              · exact hk
            · rw [hfind, if_pos]
              rcases a with rfl | rfl
              · right; exact r2
              · left; rfl
          · rw [if_neg a] at hq
            obtain ⟨s1, s2, s3⟩ := hi.sym q v hq
            refine ⟨s1, ?_, by omega⟩
            rw [hfind, if_neg, s2]
            rintro (b | b)
            · have := (hrev q s1).2.1
              rw [b, r2] at this
              exact a (Or.inr this.symm)
            · have := (hrev q s1).2.1
              rw [b] at this
              exact a (Or.inl this.symm)
        · intro q q' v v' hq hq' hv
          rw [hfind] at hq hq'
          by_cases a : q = rev k ∨ q = k <;> by_cases b : q' = rev k ∨ q' = k
          · rcases a with rfl | rfl <;> rcases b with rfl | rfl
            · exact Or.inl rfl
            · right; rw [r2]
            · right; rfl
            · exact Or.inl rfl
          · rw [if_pos a, Option.some.injEq] at hq
            rw [if_neg b] at hq'
            have := (hi.sym q' v' hq').2.2
            rw [← hv, ← hq] at this; simp at this
          · rw [if_neg a] at hq
            rw [if_pos b, Option.some.injEq] at hq'
            have := (hi.sym q v hq).2.2
            rw [hv, ← hq'] at this; simp at this
          · rw [if_neg a] at hq
            rw [if_neg b] at hq'
            exact hi.inj q q' v v' hq hq' hv
      obtain ⟨out, ho, hi2, hm, hp⟩ := ih ws' (fun k hk => hL k (by simp [hk])) hi'
      refine ⟨out, by rw [List.foldlM_cons, hone]; exact ho, hi2, ?_, ?_⟩
      · intro q hq
        apply hm
        rw [hfind]; split
        · rfl
        · exact hq
      · intro k' hk'
        rcases List.mem_cons.1 hk' with rfl | hk'
        · apply hm; rw [hfind]; simp
        · exact hp k' hk'

/-- C09. On every consistent tiling with matching bond dimensions the weights are generated, and
for every vertex of the infinite lattice and every direction the weight seen from the two ends of
the bond is the same object; two lookups return the same object only for the same bond. -/
theorem C09_weights_shared (keys : List Vertex) (vts : Vertex → Option Vertex)
    (dim : Vertex → Int × Int → Option Nat) (hT : GoodTiling keys vts)
    (hB : BondsMatch keys vts dim) :
    ∃ ws, generateWeights vts dim keys = some ws ∧
      (∀ (v : Vertex) (d : Int × Int), d ∈ [((0 : Int), (-1 : Int)), (-1, 0), (0, 1), (1, 0)] →
        ∃ w, weight vts ws (v, d) = some w ∧
          weight vts ws ((v.1 + d.1, v.2 + d.2), (-d.1, -d.2)) = some w) ∧
      (∀ (v v' : Vertex) (d d' : Int × Int) w w', weight vts ws (v, d) = some w →
        weight vts ws (v', d') = some w' → w.1 = w'.1 →
          (d' = d ∧ vts v' = vts v) ∨
          (d' = (-d.1, -d.2) ∧ vts v' = vts (v.1 + d.1, v.2 + d.2))) := by
  choose site hmem hsite using hT.total
  have hown : ∀ s ∈ keys, site s = s := by
    intro s hs
    have := hsite s
    rw [hT.own s hs, Option.some.injEq] at this
    exact this.symm
  have hnb : ∀ c c', site c = site c' → ∀ d ∈ dirs,
      site (c.1 + d.1, c.2 + d.2) = site (c'.1 + d.1, c'.2 + d.2) := by
    intro c c' h d hd
    have := hT.neighbours c c' (by rw [hsite, hsite, h]) d (by
      rw [mem_dirs] at hd; rcases hd with rfl | rfl | rfl | rfl <;> simp)
    rw [hsite, hsite, Option.some.injEq] at this
    exact this
  let good : WKey → Prop := fun k => k.1 ∈ keys ∧ k.2 ∈ dirs
  let rev : WKey → WKey := fun k => (site (k.1.1 + k.2.1, k.1.2 + k.2.2), (-k.2.1, -k.2.2))
  have hrev : ∀ k, good k → good (rev k) ∧ rev (rev k) = k ∧ rev k ≠ k := by
    rintro ⟨c, d⟩ ⟨h1, h2⟩
    simp only at h1 h2
    refine ⟨⟨hmem _, neg_mem_dirs h2⟩, ?_, ?_⟩
    · simp only [rev, neg_neg]
      have h3 : site (site (c.1 + d.1, c.2 + d.2)) = site (c.1 + d.1, c.2 + d.2) := hown _ (hmem _)
      have h4 := hnb _ _ h3 (-d.1, -d.2) (neg_mem_dirs h2)
      simp only [add_neg_cancel_right] at h4
      rw [h4, hown c h1]
    · intro h
      simp only [rev, Prod.mk.injEq] at h
      have h5 := h.2
      rw [mem_dirs] at h2
      rcases h2 with rfl | rfl | rfl | rfl <;> simp at h5
  obtain ⟨ws, hw, hi, _, hp⟩ := genLoop good rev vts dim
    (fun k hk => ⟨hsite _, rfl⟩) (fun k hk => hT.own _ hk.1) hrev
    (by
      rintro ⟨c, d⟩ ⟨h1, h2⟩
      simp only at h1 h2
      exact hB c h1 d h2 _ (hsite _))
    (keys.flatMap (fun c => dirs.map (fun d => (c, d)))) []
    (by
      intro k hk
      simp only [List.mem_flatMap, List.mem_map] at hk
      obtain ⟨c, hc, d, hd, rfl⟩ := hk
      exact ⟨hc, hd⟩)
    ⟨by intro k v h; simp [dictFind] at h, by intro k k' v v' h; simp [dictFind] at h⟩
  have hfind : ∀ c ∈ keys, ∀ d ∈ dirs, ∃ w, dictFind ws (c, d) = some w := by
    intro c hc d hd
    exact Option.isSome_iff_exists.1 (hp (c, d) (by
      simp only [List.mem_flatMap, List.mem_map]
      exact ⟨c, hc, d, hd, rfl⟩))
  refine ⟨ws, hw, ?_, ?_⟩
  · intro v d hd
    have hd' : d ∈ dirs := hd
    obtain ⟨w, hw⟩ := hfind (site v) (hmem v) d hd'
    refine ⟨w, ?_, ?_⟩
    · simp [weight, hd', hsite, hw]
    · have h1 := (hi.sym _ _ hw).2.1
      have h2 : site ((site v).1 + d.1, (site v).2 + d.2) = site (v.1 + d.1, v.2 + d.2) :=
        hnb (site v) v (hown _ (hmem v)) d hd'
      simp only [rev, h2] at h1
      simp only [weight, neg_mem_dirs hd', if_true, hsite, Option.bind_some, h1]
  · intro v v' d d' w w' h h' he
    unfold weight at h h'
    split at h <;> split at h'
    · rename_i hd hd'
      simp only [hsite, Option.bind_some] at h h' hd hd'
      rcases hi.inj _ _ _ _ h h' he with e | e
      · left
        simp only [Prod.mk.injEq] at e
        exact ⟨e.2, by rw [hsite, hsite, e.1]⟩
      · right
        have h2 : site ((site v).1 + d.1, (site v).2 + d.2) = site (v.1 + d.1, v.2 + d.2) :=
          hnb (site v) v (hown _ (hmem v)) d hd
        simp only [rev, Prod.mk.injEq, h2] at e
        exact ⟨e.2, by rw [hsite, hsite, e.1]⟩
    · cases h'
    · cases h
    · cases h

/-- Non-vacuity: a single-site cell with all bonds of size 3; up and down share one weight. -/
example : ∃ ws, generateWeights (fun _ => some (0, 0)) (fun _ _ => some 3) [(0, 0)] = some ws ∧
    weight (fun _ => some (0, 0)) ws ((5, 7), (0, -1)) = some (0, 3) ∧
    weight (fun _ => some (0, 0)) ws ((5, 6), (0, 1)) = some (0, 3) ∧
    weight (fun _ => some (0, 0)) ws ((5, 6), (1, 0)) = some (2, 3) :=
  ⟨_, rfl, by decide, by decide, by decide⟩
example : GoodTiling [(0, 0)] (fun _ => some (0, 0)) :=
  ⟨fun _ => ⟨(0, 0), by simp, rfl⟩, by simp, fun _ _ _ _ _ => rfl⟩

/-- Mismatched bond dimensions are rejected. -/
example : generateWeights (fun _ => some (0, 0)) (fun _ d => if d = (0, 1) then some 2 else some 3)
    [(0, 0)] = none := by decide

/-! ## C09, part two: absorbing the weights -/

/-- C09. For diagonal weights whose entries have square roots, absorbing multiplies each entry by
the roots of the four weights at its indices. -/
theorem C09_absorb_entries [CommSemiring K] (rt : K → K) (h0 : rt 0 = 0) (A : Tensor K)
    (w : Fin 4 → Nat → K) (p a b c e : Nat) (hA : A.shape = [p, a, b, c, e])
    (s u l d r : Nat) (hu : u < a) (hl : l < b) (hd : d < c) (hr : r < e) :
    ∃ A', absorbSite rt A (fun i j => if i = j then w 0 i else 0) (fun i j => if i = j then w 1 i else 0)
        (fun i j => if i = j then w 2 i else 0) (fun i j => if i = j then w 3 i else 0) = some A' ∧
      A'.shape = A.shape ∧
      A'.val [s, u, l, d, r] = A.val [s, u, l, d, r] * (rt (w 0 u) * rt (w 1 l) * rt (w 2 d) * rt (w 3 r)) := by
  obtain ⟨sh, val⟩ := A
  simp only at hA
  subst hA
  refine ⟨_, rfl, rfl, ?_⟩
  simp only []
  rw [Finset.sum_eq_single_of_mem u (Finset.mem_range.2 hu),
    Finset.sum_eq_single_of_mem l (Finset.mem_range.2 hl),
    Finset.sum_eq_single_of_mem d (Finset.mem_range.2 hd),
    Finset.sum_eq_single_of_mem r (Finset.mem_range.2 hr)]
  · simp only [if_true]; ring
  · intro i _ hi; simp [Ne.symm hi, h0]
  · intro i _ hi; apply Finset.sum_eq_zero; intro j _; simp [Ne.symm hi, h0]
  · intro i _ hi; apply Finset.sum_eq_zero; intro j _; apply Finset.sum_eq_zero; intro k _
    simp [Ne.symm hi, h0]
  · intro i _ hi; apply Finset.sum_eq_zero; intro j _; apply Finset.sum_eq_zero; intro k _
    apply Finset.sum_eq_zero; intro m _
    simp [Ne.symm hi, h0]

/-- C09. In every closed finite arrangement (each bond joins exactly two axes) the absorbed tensors
give the amplitude of the original tensors with one weight on every bond. -/
theorem C09_absorb_amplitude [CommSemiring K] {n : Nat} {B : Type} [Fintype B] [DecidableEq B]
    (rt : K → K) (h0 : rt 0 = 0) (T T' : Fin n → Tensor K) (phys : Fin n → Nat)
    (bond : Fin n → Fin 4 → B) (D : B → Nat) (w : B → Nat → K)
    (hrt : ∀ b, ∀ i < D b, rt (w b i) * rt (w b i) = w b i)
    (hfit : Fits T phys bond D)
    (hclosed : ∀ b, (Finset.univ.filter (fun q : Fin n × Fin 4 => bond q.1 q.2 = b)).card = 2)
    (hT : ∀ i, absorbSite rt (T i)
      (fun x y => if x = y then w (bond i 0) x else 0) (fun x y => if x = y then w (bond i 1) x else 0)
      (fun x y => if x = y then w (bond i 2) x else 0) (fun x y => if x = y then w (bond i 3) x else 0)
      = some (T' i)) :
    amplitude T' phys bond D (fun _ => 1) = amplitude T phys bond D (fun σ => ∏ b, w b (σ b)) := by
  unfold amplitude
  apply Finset.sum_congr rfl
  intro σ hσ
  simp only [Fintype.mem_piFinset, Finset.mem_range] at hσ
  rw [mul_one]
  have h1 : ∀ i, (T' i).val [phys i, σ (bond i 0), σ (bond i 1), σ (bond i 2), σ (bond i 3)] =
      (T i).val [phys i, σ (bond i 0), σ (bond i 1), σ (bond i 2), σ (bond i 3)] *
        ∏ k, rt (w (bond i k) (σ (bond i k))) := by
    intro i
    obtain ⟨p, hp, hs⟩ := hfit i
    obtain ⟨A', hA', _, hv⟩ := C09_absorb_entries rt h0 (T i) (fun k => w (bond i k)) p _ _ _ _ hs
      (phys i) _ _ _ _ (hσ (bond i 0)) (hσ (bond i 1)) (hσ (bond i 2)) (hσ (bond i 3))
    rw [hT i, Option.some.injEq] at hA'
    rw [hA', hv, Fin.prod_univ_four]
  simp only [h1]
  rw [Finset.prod_mul_distrib]
  congr 1
  have h2 : ∏ i, ∏ k, rt (w (bond i k) (σ (bond i k))) =
      ∏ q : Fin n × Fin 4, rt (w (bond q.1 q.2) (σ (bond q.1 q.2))) := by
    rw [← Finset.univ_product_univ, Finset.prod_product]
  rw [h2, ← Finset.prod_fiberwise_of_maps_to (t := Finset.univ) (g := fun q : Fin n × Fin 4 => bond q.1 q.2)
    (fun _ _ => Finset.mem_univ _)]
  apply Finset.prod_congr rfl
  intro b _
  have h3 : ∏ q ∈ Finset.univ.filter (fun q : Fin n × Fin 4 => bond q.1 q.2 = b),
      rt (w (bond q.1 q.2) (σ (bond q.1 q.2))) =
      ∏ q ∈ Finset.univ.filter (fun q : Fin n × Fin 4 => bond q.1 q.2 = b), rt (w b (σ b)) := by
    apply Finset.prod_congr rfl
    intro q hq
    rw [(Finset.mem_filter.1 hq).2]
  rw [h3, Finset.prod_const, hclosed, pow_two, hrt b _ (hσ b)]

/-- Non-vacuity: the one-site torus is a closed arrangement (two bonds, each joining two axes). -/
example : ∀ b : Fin 2, (Finset.univ.filter (fun q : Fin 1 × Fin 4 =>
    (fun (_ : Fin 1) (k : Fin 4) => if k.val % 2 = 0 then (0 : Fin 2) else 1) q.1 q.2 = b)).card = 2 := by
  decide

/-- The right axis of every tensor matches the left axis of its right neighbour, and the down axis
the up axis of its lower neighbour; all tensors have rank 5 and every key occurs once. -/
structure Spec.LegsMatch (sites : List (Vertex × Tensor K)) (vts : Vertex → Option Vertex) : Prop where
  nodup : (sites.map (·.1)).Nodup
  rank : ∀ e ∈ sites, e.2.shape.length = 5
  right : ∀ e ∈ sites, ∀ f ∈ sites, vts (e.1.1 + 1, e.1.2) = some f.1 → e.2.shape[4]? = f.2.shape[2]?
  down : ∀ e ∈ sites, ∀ f ∈ sites, vts (e.1.1, e.1.2 + 1) = some f.1 → e.2.shape[3]? = f.2.shape[1]?

theorem dictFind_mem {κ α : Type} [DecidableEq κ] (d : List (κ × α)) (hn : (d.map (·.1)).Nodup)
    (k : κ) (v : α) : dictFind d k = some v ↔ (k, v) ∈ d := by
  induction d with
  | nil => simp [dictFind]
  | cons e es ih =>
    obtain ⟨a, b⟩ := e
    simp only [List.map_cons, List.nodup_cons] at hn
    unfold dictFind at *
    by_cases ha : a = k
    · subst ha
      simp only [List.find?_cons, decide_true, Option.map_some, Option.some.injEq, List.mem_cons,
        Prod.mk.injEq, true_and]
      constructor
      · intro h; exact Or.inl h.symm
      · rintro (h | h)
        · exact h.symm
        · exact absurd (List.mem_map.2 ⟨_, h, rfl⟩) hn.1
    · simp only [List.find?_cons, ha, decide_false, List.mem_cons, Prod.mk.injEq]
      rw [ih hn.2]
      constructor
      · exact Or.inr
      · rintro (h | h)
        · exact absurd h.1.symm ha
        · exact h

theorem legsMatch_bondsMatch (sites : List (Vertex × Tensor K)) (vts : Vertex → Option Vertex)
    (hT : GoodTiling (sites.map (·.1)) vts) (hL : LegsMatch sites vts) :
    BondsMatch (sites.map (·.1)) vts (siteDim sites) := by
  intro c hc d hd s hs
  obtain ⟨⟨c', A⟩, he, rfl⟩ := List.mem_map.1 hc
  obtain ⟨s', hs', hs2⟩ := hT.total (c'.1 + d.1, c'.2 + d.2)
  rw [hs] at hs2
  obtain rfl : s = s' := by simpa using hs2
  obtain ⟨⟨s'', B⟩, hf, rfl⟩ := List.mem_map.1 hs'
  have fA : dictFind sites c' = some A := (dictFind_mem _ hL.nodup _ _).2 he
  have fB : dictFind sites s'' = some B := (dictFind_mem _ hL.nodup _ _).2 hf
  simp only at hs hc
  have rA := hL.rank _ he
  have rB := hL.rank _ hf
  simp only at rA rB
  have key : A.shape[dirAxis d]? = B.shape[dirAxis (-d.1, -d.2)]? := by
    have back : vts (s''.1 + -d.1, s''.2 + -d.2) = some c' := by
      have h1 : vts s'' = vts (c'.1 + d.1, c'.2 + d.2) := by
        rw [hs]; exact hT.own _ (List.mem_map.2 ⟨_, hf, rfl⟩)
      have := hT.neighbours _ _ h1 (-d.1, -d.2) (by
        simp only [List.mem_cons, List.not_mem_nil, or_false] at hd
        rcases hd with rfl | rfl | rfl | rfl <;> simp)
      simp only [add_neg_cancel_right] at this
      rw [this]
      exact hT.own _ hc
    simp only [List.mem_cons, List.not_mem_nil, or_false] at hd
    rcases hd with rfl | rfl | rfl | rfl
    · exact (hL.down _ hf _ he (by simpa using back)).symm
    · exact (hL.right _ hf _ he (by simpa using back)).symm
    · exact hL.down _ he _ hf (by simpa using hs)
    · exact hL.right _ he _ hf (by simpa using hs)
  have hax : dirAxis d < A.shape.length := by
    rw [rA]; unfold dirAxis; split
    · omega
    · split
      · omega
      · split <;> omega
  refine ⟨A.shape[dirAxis d], ?_, ?_⟩
  · simp [siteDim, fA, List.getElem?_eq_getElem hax]
  · simp only [siteDim, fB, Option.bind_some]
    rw [← key, List.getElem?_eq_getElem hax]

/-- The direction of each auxiliary axis in the order up, left, down, right. -/
def Spec.axisDir : Fin 4 → Int × Int
  | 0 => (0, -1)
  | 1 => (-1, 0)
  | 2 => (0, 1)
  | 3 => (1, 0)

theorem axisDir_mem (k : Fin 4) : axisDir k ∈ [((0 : Int), (-1 : Int)), (-1, 0), (0, 1), (1, 0)] := by
  fin_cases k <;> simp [axisDir]

theorem mapM_mem {α β : Type} (f : α → Option β) : ∀ (l : List α) (out : List β),
    l.mapM f = some out → (∀ a ∈ l, ∃ b ∈ out, f a = some b) ∧ ∀ b ∈ out, ∃ a ∈ l, f a = some b := by
  intro l
  induction l with
  | nil => intro out h; simp at h; subst h; simp
  | cons a l ih =>
    intro out h
    rw [List.mapM_cons] at h
    simp only [Option.bind_eq_bind, Option.bind_eq_some_iff, Option.pure_def, Option.some.injEq] at h
    obtain ⟨b, hb, bs, hbs, rfl⟩ := h
    obtain ⟨i1, i2⟩ := ih bs hbs
    constructor
    · intro x hx
      rcases List.mem_cons.1 hx with rfl | hx
      · exact ⟨b, by simp, hb⟩
      · obtain ⟨y, hy, h⟩ := i1 x hx; exact ⟨y, by simp [hy], h⟩
    · intro y hy
      rcases List.mem_cons.1 hy with rfl | hy
      · exact ⟨a, by simp, hb⟩
      · obtain ⟨x, hx, h⟩ := i2 y hy; exact ⟨x, by simp [hx], h⟩

theorem mapM_isSome {α β : Type} (f : α → Option β) : ∀ (l : List α),
    (∀ a ∈ l, ∃ b, f a = some b) → ∃ out, l.mapM f = some out := by
  intro l
  induction l with
  | nil => intro _; exact ⟨[], rfl⟩
  | cons a l ih =>
    intro h
    obtain ⟨b, hb⟩ := h a (by simp)
    obtain ⟨bs, hbs⟩ := ih (fun a ha => h a (by simp [ha]))
    exact ⟨b :: bs, by rw [List.mapM_cons, hb, hbs]; rfl⟩

/-- C09, whole state. For a consistently tiled state with matching legs: weights are generated; for
any diagonal values later stored in the weight objects, absorbing succeeds; and the amplitude of
every closed finite arrangement of the absorbed tensors equals that of the original tensors with
the weight that either end looks up inserted once on every bond. -/
theorem C09_absorb_state [CommSemiring K] (rt : K → K) (h0 : rt 0 = 0)
    (sites : List (Vertex × Tensor K)) (vts : Vertex → Option Vertex)
    (hT : GoodTiling (sites.map (·.1)) vts) (hL : LegsMatch sites vts)
    (diag : Nat → Nat → K) (hrt : ∀ o i, rt (diag o i) * rt (diag o i) = diag o i) :
    ∃ ws out, generateWeights vts (siteDim sites) (sites.map (·.1)) = some ws ∧
      absorbWeights rt vts ws (fun o i j => if i = j then diag o i else 0) sites = some out ∧
      (∀ c, (∃ A, (c, A) ∈ out) ↔ ∃ A, (c, A) ∈ sites) ∧
      ∀ {n : Nat} {B : Type} [Fintype B] [DecidableEq B] (pos : Fin n → Vertex) (phys : Fin n → Nat)
        (bond : Fin n → Fin 4 → B) (D : B → Nat) (T T' : Fin n → Tensor K) (obj : B → Nat × Nat),
        (∀ i, ∃ s, vts (pos i) = some s ∧ (s, T i) ∈ sites ∧ (s, T' i) ∈ out) →
        Fits T phys bond D →
        (∀ b, (Finset.univ.filter (fun q : Fin n × Fin 4 => bond q.1 q.2 = b)).card = 2) →
        (∀ i j k l, bond i k = bond j l → (i = j ∧ k = l) ∨
          (axisDir l = (-(axisDir k).1, -(axisDir k).2) ∧
            vts (pos j) = vts ((pos i).1 + (axisDir k).1, (pos i).2 + (axisDir k).2))) →
        (∀ b, ∃ i k, bond i k = b ∧ weight vts ws (pos i, axisDir k) = some (obj b)) →
        amplitude T' phys bond D (fun _ => 1) =
          amplitude T phys bond D (fun σ => ∏ b, diag (obj b).1 (σ b)) := by
  obtain ⟨ws, hws, hsh, _⟩ := C09_weights_shared _ vts (siteDim sites) hT (legsMatch_bondsMatch sites vts hT hL)
  have hrow : ∀ e ∈ sites, ∃ wu wl wd wr A', weight vts ws (e.1, (0, -1)) = some wu ∧
      weight vts ws (e.1, (-1, 0)) = some wl ∧ weight vts ws (e.1, (0, 1)) = some wd ∧
      weight vts ws (e.1, (1, 0)) = some wr ∧ vts e.1 = some e.1 ∧ dictFind sites e.1 = some e.2 ∧
      absorbSite rt e.2 (fun i j => if i = j then diag wu.1 i else 0)
        (fun i j => if i = j then diag wl.1 i else 0) (fun i j => if i = j then diag wd.1 i else 0)
        (fun i j => if i = j then diag wr.1 i else 0) = some A' := by
    intro e he
    obtain ⟨wu, h1, _⟩ := hsh e.1 (0, -1) (by simp)
    obtain ⟨wl, h2, _⟩ := hsh e.1 (-1, 0) (by simp)
    obtain ⟨wd, h3, _⟩ := hsh e.1 (0, 1) (by simp)
    obtain ⟨wr, h4, _⟩ := hsh e.1 (1, 0) (by simp)
    have h5 := hL.rank e he
    have h6 : ∃ A', absorbSite rt e.2 (fun i j => if i = j then diag wu.1 i else 0)
        (fun i j => if i = j then diag wl.1 i else 0) (fun i j => if i = j then diag wd.1 i else 0)
        (fun i j => if i = j then diag wr.1 i else 0) = some A' := by
      obtain ⟨c, sh, val⟩ := e
      match sh, h5 with
      | [p, a, b, c, e], _ => exact ⟨_, rfl⟩
    obtain ⟨A', h6⟩ := h6
    exact ⟨wu, wl, wd, wr, A', h1, h2, h3, h4, hT.own _ (List.mem_map.2 ⟨e, he, rfl⟩),
      (dictFind_mem _ hL.nodup _ _).2 he, h6⟩
  have hval : ∀ e ∈ sites, ∃ wu wl wd wr A', weight vts ws (e.1, (0, -1)) = some wu ∧
      weight vts ws (e.1, (-1, 0)) = some wl ∧ weight vts ws (e.1, (0, 1)) = some wd ∧
      weight vts ws (e.1, (1, 0)) = some wr ∧
      absorbSite rt e.2 (fun i j => if i = j then diag wu.1 i else 0)
        (fun i j => if i = j then diag wl.1 i else 0) (fun i j => if i = j then diag wd.1 i else 0)
        (fun i j => if i = j then diag wr.1 i else 0) = some A' ∧
      (do
        let s ← vts e.1
        let A ← dictFind sites s
        let wu ← weight vts ws (e.1, (0, -1))
        let wl ← weight vts ws (e.1, (-1, 0))
        let wd ← weight vts ws (e.1, (0, 1))
        let wr ← weight vts ws (e.1, (1, 0))
        let A' ← absorbSite rt A (fun i j => if i = j then diag wu.1 i else 0)
          (fun i j => if i = j then diag wl.1 i else 0) (fun i j => if i = j then diag wd.1 i else 0)
          (fun i j => if i = j then diag wr.1 i else 0)
        some (e.1, A')) = some (e.1, A') := by
    intro e he
    obtain ⟨wu, wl, wd, wr, A', h1, h2, h3, h4, h5, h6, h7⟩ := hrow e he
    refine ⟨wu, wl, wd, wr, A', h1, h2, h3, h4, h7, ?_⟩
    simp only [h1, h2, h3, h4, h5, h6, h7, Option.bind_eq_bind, Option.bind_some]
  obtain ⟨out, hout⟩ := mapM_isSome _ sites (fun e he => by
    obtain ⟨wu, wl, wd, wr, A', _, _, _, _, _, h⟩ := hval e he
    exact ⟨_, h⟩)
  obtain ⟨m1, m2⟩ := mapM_mem _ _ _ hout
  refine ⟨ws, out, hws, hout, ?_, ?_⟩
  · intro c
    constructor
    · rintro ⟨A, hA⟩
      obtain ⟨e, he, h⟩ := m2 _ hA
      obtain ⟨wu, wl, wd, wr, A', _, _, _, _, _, h'⟩ := hval e he
      rw [h', Option.some.injEq, Prod.mk.injEq] at h
      exact ⟨e.2, by rw [← h.1]; exact he⟩
    · rintro ⟨A, hA⟩
      obtain ⟨b, hb, h⟩ := m1 _ hA
      obtain ⟨wu, wl, wd, wr, A', _, _, _, _, _, h'⟩ := hval _ hA
      rw [h', Option.some.injEq] at h
      exact ⟨A', by rw [h]; exact hb⟩
  · intro n B _ _ pos phys bond D T T' obj hpos hfit hcl hjoin hobj
    have hw : ∀ i k, weight vts ws (pos i, axisDir k) = some (obj (bond i k)) := by
      intro i k
      obtain ⟨j, l, hb, h⟩ := hobj (bond i k)
      rcases hjoin j i l k hb with ⟨rfl, rfl⟩ | ⟨h1, h2⟩
      · exact h
      · obtain ⟨w, w1, w2⟩ := hsh (pos j) (axisDir l) (axisDir_mem l)
        rw [h, Option.some.injEq] at w1
        subst w1
        rw [h1]
        unfold weight at w2 ⊢
        rw [h2]
        exact w2
    have hloc : ∀ i s, vts (pos i) = some s → ∀ k, weight vts ws (s, axisDir k) =
        weight vts ws (pos i, axisDir k) := by
      intro i s hs k
      obtain ⟨s', hs', h⟩ := hT.total (pos i)
      rw [hs] at h
      obtain rfl : s = s' := by simpa using h
      unfold weight
      simp only [hs, hT.own s hs']
    apply C09_absorb_amplitude rt h0 T T' phys bond D (fun b => diag (obj b).1)
      (fun b i _ => hrt _ _) hfit hcl
    intro i
    obtain ⟨s, hs, hin, hin'⟩ := hpos i
    obtain ⟨e, he, h⟩ := m2 _ hin'
    obtain ⟨wu, wl, wd, wr, A', h1, h2, h3, h4, h5, h6⟩ := hval e he
    rw [h6, Option.some.injEq, Prod.mk.injEq] at h
    obtain ⟨hc, rfl⟩ := h
    have heT : e.2 = T i := by
      have a := (dictFind_mem _ hL.nodup s e.2).2 (by rw [← hc]; exact he)
      have b := (dictFind_mem _ hL.nodup s (T i)).2 hin
      rw [a, Option.some.injEq] at b
      exact b
    rw [hc] at h1 h2 h3 h4
    have e0 := (hloc i s hs 0).trans (hw i 0)
    have e1 := (hloc i s hs 1).trans (hw i 1)
    have e2 := (hloc i s hs 2).trans (hw i 2)
    have e3 := (hloc i s hs 3).trans (hw i 3)
    simp only [axisDir] at e0 e1 e2 e3
    rw [h1, Option.some.injEq] at e0
    rw [h2, Option.some.injEq] at e1
    rw [h3, Option.some.injEq] at e2
    rw [h4, Option.some.injEq] at e3
    rw [← heT, ← e0, ← e1, ← e2, ← e3]
    exact h5

/-- Non-vacuity: a one-site state with shape [2,3,1,3,1] satisfies the hypotheses on the state. -/
example : LegsMatch (K := Int) [((0, 0), ⟨[2, 3, 1, 3, 1], fun i => i.sum⟩)] (fun _ => some (0, 0)) :=
  ⟨by decide, by decide, by simp, by simp⟩

end Verif.State
