import Verif.State.KagomeSite
import Verif.State.BondProps
/-
Lemmas about the projection onto irreps of the point group (`_to_PG_symmetric`).
-/
namespace Verif.Kagome
open Verif.State
open Verif.Tensor
open Spec

theorem permute021 (x : Tensor ℂ) {a b c : Nat} (h : x.shape = [a, b, c]) :
    ∃ y, permute [0, 2, 1] x = some y ∧ y.shape = [a, c, b] ∧ ∀ i j k, y.val [i, j, k] = x.val [i, k, j] := by
  refine ⟨_, if_pos ⟨by simp [h], by simp, by simp [h]⟩, by simp [h], ?_⟩
  intro i j k
  show x.val _ = _
  rw [h]
  rfl

theorem permute120 (x : Tensor ℂ) {a b c : Nat} (h : x.shape = [a, b, c]) :
    ∃ y, permute [1, 2, 0] x = some y ∧ y.shape = [b, c, a] ∧ ∀ i j k, y.val [i, j, k] = x.val [k, i, j] := by
  refine ⟨_, if_pos ⟨by simp [h], by simp, by simp [h]⟩, by simp [h], ?_⟩
  intro i j k
  show x.val _ = _
  rw [h]
  rfl

theorem permute201 (x : Tensor ℂ) {a b c : Nat} (h : x.shape = [a, b, c]) :
    ∃ y, permute [2, 0, 1] x = some y ∧ y.shape = [c, a, b] ∧ ∀ i j k, y.val [i, j, k] = x.val [j, k, i] := by
  refine ⟨_, if_pos ⟨by simp [h], by simp, by simp [h]⟩, by simp [h], ?_⟩
  intro i j k
  show x.val _ = _
  rw [h]
  rfl

theorem permute_rank {q : List Nat} {x y : Tensor ℂ} (h : permute q x = some y) : x.shape.length = q.length := by
  unfold permute at h
  split at h
  · rename_i hc; exact hc.1.symm
  · cases h

theorem rank3 {l : List Nat} (h : l.length = 3) : ∃ a b c, l = [a, b, c] := by
  match l, h with
  | [a, b, c], _ => exact ⟨a, b, c, rfl⟩

/-- The sign of a reflection. -/
def signOf (minus : Bool) : ℂ := if minus then -1 else 1

theorem reflectPart_ok (minus : Bool) (x : Tensor ℂ) {p D : Nat} (h : x.shape = [p, D, D]) :
    ∃ y, reflectPart minus x = some y ∧ y.shape = [p, D, D] ∧
      ∀ s a b, y.val [s, a, b] = 1 / 2 * (x.val [s, a, b] + signOf minus * star (x.val [s, b, a])) := by
  obtain ⟨z, hz, hs, hv⟩ := permute021 x h
  have hc : x.shape = (conj z).shape := by rw [h]; exact hs.symm
  cases minus with
  | true =>
    refine ⟨⟨x.shape, fun i => 1 / 2 * (x.val i - star (z.val i))⟩, by simp only [reflectPart, hz, Option.bind_eq_bind, Option.bind_some, if_true, subT, if_pos hc]; rfl, h, ?_⟩
    intro s a b
    show 1 / 2 * (x.val [s, a, b] - star (z.val [s, a, b])) = _
    rw [hv]; simp [signOf]; ring
  | false =>
    refine ⟨⟨x.shape, fun i => 1 / 2 * (x.val i + star (z.val i))⟩, by simp only [reflectPart, hz, Option.bind_eq_bind, Option.bind_some, Bool.false_eq_true, if_false, addT, if_pos hc]; rfl, h, ?_⟩
    intro s a b
    show 1 / 2 * (x.val [s, a, b] + star (z.val [s, a, b])) = _
    rw [hv]; simp [signOf]

theorem reflectPart_shape {minus : Bool} {x y : Tensor ℂ} (h : reflectPart minus x = some y) : ∃ p D, x.shape = [p, D, D] := by
  unfold reflectPart at h
  obtain ⟨z, hz, h⟩ := Option.bind_eq_some_iff.1 h
  obtain ⟨w, hw, _⟩ : ∃ w, (if minus then subT x (conj z) else addT x (conj z)) = some w ∧ True := by
    cases minus
    · obtain ⟨w, hw, _⟩ := Option.bind_eq_some_iff.1 h; exact ⟨w, hw, trivial⟩
    · obtain ⟨w, hw, _⟩ := Option.bind_eq_some_iff.1 h; exact ⟨w, hw, trivial⟩
  obtain ⟨a, b, c, e⟩ := rank3 (permute_rank hz)
  obtain ⟨z', hz', hs, _⟩ := permute021 x e
  rw [hz, Option.some.injEq] at hz'
  subst hz'
  have hc : x.shape = z.shape := by
    cases minus
    · simp only [Bool.false_eq_true, if_false, addT] at hw
      split at hw
      · rename_i hc; exact hc
      · cases hw
    · simp only [if_true, subT] at hw
      split at hw
      · rename_i hc; exact hc
      · cases hw
  rw [e, hs] at hc
  simp only [List.cons.injEq, and_true, true_and] at hc
  exact ⟨a, b, by rw [e, hc.1]⟩

theorem cyclicPart_ok (x : Tensor ℂ) {D : Nat} (h : x.shape = [D, D, D]) :
    ∃ y, cyclicPart x = some y ∧ y.shape = [D, D, D] ∧
      ∀ a b c, y.val [a, b, c] = 1 / 3 * (x.val [a, b, c] + x.val [c, a, b] + x.val [b, c, a]) := by
  obtain ⟨z, hz, hs, hv⟩ := permute120 x h
  obtain ⟨w, hw, hs', hv'⟩ := permute201 x h
  have hc : x.shape = z.shape := by rw [h]; exact hs.symm
  have hc' : x.shape = w.shape := by rw [h]; exact hs'.symm
  refine ⟨⟨x.shape, fun i => 1 / 3 * (x.val i + z.val i + w.val i)⟩, by simp only [cyclicPart, hz, hw, Option.bind_eq_bind, Option.bind_some, addT, if_pos hc, if_pos hc']; rfl, h, ?_⟩
  intro a b c
  show 1 / 3 * (x.val [a, b, c] + z.val [a, b, c] + w.val [a, b, c]) = _
  rw [hv, hv']

theorem cyclicPart_shape {x y : Tensor ℂ} (h : cyclicPart x = some y) : ∃ D, x.shape = [D, D, D] := by
  unfold cyclicPart at h
  simp only [Option.bind_eq_bind, Option.bind_eq_some_iff] at h
  obtain ⟨z, hz, w, hw, u, hu, _⟩ := h
  obtain ⟨a, b, c, e⟩ := rank3 (permute_rank hz)
  obtain ⟨z', hz', hs, _⟩ := permute120 x e
  rw [hz, Option.some.injEq] at hz'
  subst hz'
  have hc : x.shape = z.shape := by
    simp only [addT] at hu
    split at hu
    · rename_i hc; exact hc
    · cases hu
  rw [e, hs] at hc
  simp only [List.cons.injEq, and_true] at hc
  exact ⟨a, by rw [e, ← hc.2.1, ← hc.1]⟩

/-! ### The irreps -/

theorem signOf_sq (m : Bool) : signOf m * signOf m = 1 := by cases m <;> simp [signOf]
theorem star_signOf (m : Bool) : star (signOf m) = signOf m := by cases m <;> simp [signOf]

/-- The reflected average obeys the reflection. -/
theorem reflectPart_mirror {minus : Bool} {x y : Tensor ℂ} {p D : Nat}
    (hv : ∀ s a b, y.val [s, a, b] = 1 / 2 * (x.val [s, a, b] + signOf minus * star (x.val [s, b, a]))) : Mirror p D (signOf minus) y := by
  intro s a b _ _ _
  rw [hv, hv]
  simp only [star_mul', star_add, star_star, star_signOf, star_div₀, star_one, star_ofNat]
  linear_combination (-(1 / 2 : ℂ)) * x.val [s, b, a] * signOf_sq minus

theorem reflectPart_cyclic {minus : Bool} {x y : Tensor ℂ} {D : Nat} (hx : Cyclic D x)
    (hv : ∀ s a b, y.val [s, a, b] = 1 / 2 * (x.val [s, a, b] + signOf minus * star (x.val [s, b, a]))) : Cyclic D y := by
  intro a b c ha hb hc
  rw [hv, hv, hx a b c ha hb hc, ← hx b a c hb ha hc]

theorem cyclicPart_cyclic {x y : Tensor ℂ} {D : Nat}
    (hv : ∀ a b c, y.val [a, b, c] = 1 / 3 * (x.val [a, b, c] + x.val [c, a, b] + x.val [b, c, a])) : Cyclic D y := by
  intro a b c _ _ _
  rw [hv, hv]; ring

theorem reflectPart_fix {minus : Bool} {x y : Tensor ℂ} {p D : Nat} (hx : Mirror p D (signOf minus) x)
    (hv : ∀ s a b, y.val [s, a, b] = 1 / 2 * (x.val [s, a, b] + signOf minus * star (x.val [s, b, a]))) :
    ∀ s a b, s < p → a < D → b < D → y.val [s, a, b] = x.val [s, a, b] := by
  intro s a b hs ha hb
  rw [hv, hx s a b hs ha hb]
  simp only [star_mul', star_star, star_signOf]
  linear_combination (1 / 2 : ℂ) * x.val [s, a, b] * signOf_sq minus

theorem cyclicPart_fix {x y : Tensor ℂ} {D : Nat} (hx : Cyclic D x)
    (hv : ∀ a b c, y.val [a, b, c] = 1 / 3 * (x.val [a, b, c] + x.val [c, a, b] + x.val [b, c, a])) :
    ∀ a b c, a < D → b < D → c < D → y.val [a, b, c] = x.val [a, b, c] := by
  intro a b c ha hb hc
  rw [hv, hx a b c ha hb hc, ← hx c a b hc ha hb]; ring

theorem Mirror.congr {p D : Nat} {ε : ℂ} {x y : Tensor ℂ} (h : Mirror p D ε x)
    (e : ∀ s a b, s < p → a < D → b < D → y.val [s, a, b] = x.val [s, a, b]) : Mirror p D ε y := by
  intro s a b hs ha hb
  rw [e s b a hs hb ha, e s a b hs ha hb]
  exact h s a b hs ha hb

theorem same3 {x y : Tensor ℂ} {a b c : Nat} (hx : x.shape = [a, b, c]) (hy : y.shape = [a, b, c])
    (e : ∀ i j k, i < a → j < b → k < c → y.val [i, j, k] = x.val [i, j, k]) : x.Same y := by
  refine ⟨by rw [hx, hy], ?_⟩
  intro i hi
  rw [hx, inB_iff3] at hi
  obtain ⟨u, v, w, rfl, h1, h2, h3⟩ := hi
  exact (e u v w h1 h2 h3).symm

/-! ### All tensors -/

theorem symmAll_nil (el acc : List (Name × Ten)) : ([] : List (Name × Option Irrep)).foldlM (symmStep el) acc = .ok acc := rfl

theorem symmStep_find {el acc acc' : List (Name × Ten)} {e : Name × Option Irrep} (h : symmStep el acc e = .ok acc') (n : Name) :
    (n ≠ e.1 → dictFind acc' n = dictFind acc n) ∧
    (∀ p X, e.2 = some p → dictFind el e.1 = some X → ∃ Y, symmOne e.1 p X = .ok Y ∧ dictFind acc' e.1 = some Y) ∧
    (e.2 = none ∨ dictFind el e.1 = none → acc' = acc) := by
  obtain ⟨k, o⟩ := e
  cases o with
  | none =>
    have : acc = acc' := Except.ok.inj h
    subst this
    exact ⟨fun _ => rfl, by intro p X hp; simp at hp, fun _ => rfl⟩
  | some p =>
    unfold symmStep at h
    simp only [] at h
    split at h
    · rename_i hn
      have : acc = acc' := Except.ok.inj h
      subst this
      exact ⟨fun _ => rfl, by intro p' X _ hX; simp [hn] at hX, fun _ => rfl⟩
    · rename_i X hX
      obtain ⟨Y, hY, h⟩ := bind_ok.1 h
      have : dictSet k Y acc = acc' := Except.ok.inj h
      subst this
      refine ⟨fun hn => ?_, ?_, ?_⟩
      · rw [dictFind_set, if_neg hn]
      · intro p' X' hp hX'
        simp only [Option.some.injEq] at hp
        subst hp
        simp only [] at hX'
        rw [hX, Option.some.injEq] at hX'
        subst hX'
        exact ⟨Y, hY, by rw [dictFind_set]; simp⟩
      · rintro (h | h)
        · cases h
        · simp only [] at h; rw [hX] at h; cases h

theorem symm_foldl_find (el : List (Name × Ten)) : ∀ (pgs : List (Name × Option Irrep)), (pgs.map (·.1)).Nodup →
    ∀ acc out, pgs.foldlM (symmStep el) acc = .ok out → ∀ n,
      (∀ p X, dictFind pgs n = some (some p) → dictFind el n = some X → ∃ Y, symmOne n p X = .ok Y ∧ dictFind out n = some Y) ∧
      ((∀ p, dictFind pgs n ≠ some (some p)) ∨ dictFind el n = none → dictFind out n = dictFind acc n) := by
  intro pgs
  induction pgs with
  | nil =>
    intro _ acc out h n
    have : acc = out := Except.ok.inj h
    subst this
    exact ⟨fun p X hp => by simp [dictFind] at hp, fun _ => rfl⟩
  | cons e es ih =>
    intro hn acc out h n
    simp only [List.map_cons, List.nodup_cons] at hn
    rw [List.foldlM_cons] at h
    obtain ⟨acc1, h1, h⟩ := bind_ok.1 h
    obtain ⟨s1, s2, s3⟩ := symmStep_find h1 n
    obtain ⟨t1, t2⟩ := ih hn.2 acc1 out h n
    have hfind : dictFind (e :: es) n = if e.1 = n then some e.2 else dictFind es n := by
      obtain ⟨a, b⟩ := e
      by_cases hh : a = n <;> simp [dictFind, hh]
    by_cases he : e.1 = n
    · subst he
      have hnone : dictFind es e.1 = none := by
        rw [dictFind, Option.map_eq_none_iff, List.find?_eq_none]
        intro x hx
        simp only [decide_eq_true_eq]
        intro hxe
        exact hn.1 (by rw [← hxe]; exact List.mem_map_of_mem hx)
      have hout : dictFind out e.1 = dictFind acc1 e.1 := t2 (Or.inl (by simp [hnone]))
      rw [hfind, if_pos rfl]
      constructor
      · intro p X hp hX
        simp only [Option.some.injEq] at hp
        obtain ⟨Y, hY, hf⟩ := s2 p X hp hX
        exact ⟨Y, hY, by rw [hout, hf]⟩
      · intro hor
        rw [hout, s3]
        rcases hor with ho | ho
        · left
          cases h2 : e.2 with
          | none => rfl
          | some p => exact absurd (by rw [h2]) (ho p)
        · exact Or.inr ho
    · rw [hfind, if_neg he]
      refine ⟨t1, fun hor => ?_⟩
      rw [t2 hor, s1 (Ne.symm he)]

end Verif.Kagome
