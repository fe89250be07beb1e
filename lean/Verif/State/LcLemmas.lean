import Verif.State.LcModel
import Verif.State.IOLemmas
import Verif.Group.PgSpec
/- Helper lemmas for states built from elementary tensors. -/
namespace Verif.Lc
open Verif.State
open Verif.Lattice (Vertex)
variable {R : Type}

theorem splitSpGo_append (w rest cur : Str) (hw : ∀ c ∈ w, c ≠ ' ') :
    splitSpGo (w ++ rest) cur = splitSpGo rest (w.reverse ++ cur) := by
  induction w generalizing cur with
  | nil => rfl
  | cons c cs ih =>
    have hc : c ≠ ' ' := hw c (by simp)
    simp only [List.cons_append, splitSpGo, if_neg hc]
    rw [ih _ (fun d hd => hw d (by simp [hd]))]
    simp

theorem noSp {w : Str} (hw : IsToken w) : ∀ c ∈ w, c ≠ ' ' := by
  intro c hc e
  have := hw.2 c hc
  rw [e] at this
  exact absurd this (by decide)

theorem splitSp_token (w : Str) (hw : IsToken w) : splitSp w = [w] := by
  have := splitSpGo_append w [] [] (noSp hw)
  simp only [List.append_nil] at this
  rw [splitSp, this, splitSpGo]
  simp

theorem splitSp_token_sp (w rest : Str) (hw : IsToken w) : splitSp (w ++ ' ' :: rest) = w :: splitSp rest := by
  rw [splitSp, splitSpGo_append w _ [] (noSp hw), splitSpGo]
  simp [splitSp]

theorem splitSp_join_sp (l : List Str) (hne : l ≠ []) (rest : Str) (hl : ∀ w ∈ l, IsToken w) :
    splitSp (join l ++ ' ' :: rest) = l ++ splitSp rest := by
  induction l with
  | nil => exact absurd rfl hne
  | cons w l ih =>
    cases l with
    | nil => simp [join, splitSp_token_sp w rest (hl w (by simp))]
    | cons w' l' =>
      have e : join (w :: w' :: l') ++ ' ' :: rest = w ++ ' ' :: (join (w' :: l') ++ ' ' :: rest) := by simp [join]
      rw [e, splitSp_token_sp w _ (hl w (by simp)), ih (by simp) (fun v hv => hl v (by simp [hv]))]
      rfl

/-- A loop of assignments to distinct positions. -/
theorem fold_set {α : Type} (step : (List Nat → R × R) → Str → Option (List Nat → R × R)) (txt : α → Str)
    (key : α → List Nat) (v : α → R × R) : ∀ (L : List α) (val : List Nat → R × R),
      (∀ a ∈ L, ∀ val, step val (txt a) = some (setAt val (key a) (v a))) → (L.map key).Nodup →
      ∃ out, (L.map txt).foldlM step val = some out ∧ (∀ a ∈ L, out (key a) = v a) ∧
        ∀ idx, idx ∉ L.map key → out idx = val idx := by
  intro L
  induction L with
  | nil => intro val _ _; exact ⟨val, rfl, by simp, by simp⟩
  | cons a L ih =>
    intro val h hn
    rw [List.map_cons, List.nodup_cons] at hn
    obtain ⟨out, ho, hv, hr⟩ := ih (setAt val (key a) (v a)) (fun b hb => h b (by simp [hb])) hn.2
    refine ⟨out, ?_, ?_, ?_⟩
    · rw [List.map_cons, List.foldlM_cons, h a (by simp)]
      exact ho
    · intro b hb
      rcases List.mem_cons.1 hb with rfl | hb
      · rw [hr _ hn.1]; simp [setAt]
      · exact hv b hb
    · intro idx hi
      simp only [List.map_cons, List.mem_cons, not_or] at hi
      rw [hr idx hi.2]; simp [setAt, hi.1]

/-- A permutation of the four auxiliary axes, spelled out. -/
theorem perm4 {aux : List Nat} (h : aux.Perm [0, 1, 2, 3]) : ∃ q0 q1 q2 q3, aux = [q0, q1, q2, q3] ∧ q0 < 4 ∧ q1 < 4 ∧ q2 < 4 ∧ q3 < 4 := by
  have hl : aux.length = 4 := by simpa using h.length_eq
  have hm : ∀ p ∈ aux, p < 4 := by intro p hp; have := h.mem_iff.1 hp; simp at this; omega
  match aux, hl, hm with
  | [a, b, c, d], _, hm => exact ⟨a, b, c, d, rfl, hm a (by simp), hm b (by simp), hm c (by simp), hm d (by simp)⟩

/-- The index under which the entry `[s, a 0, a 1, a 2, a 3]` is written. -/
def moved (aux : List Nat) (ei : List Nat) : List Nat := ei.getD 0 0 :: aux.map (fun k => ei.getD (k + 1) 0)

theorem get5 (s : Nat) (a : Nat → Nat) {q : Nat} (h : q < 4) : [s, a 0, a 1, a 2, a 3][q + 1]? = some (a q) := by
  rcases q with _ | _ | _ | _ | q <;> first | rfl | omega

theorem inB5' {p D : Nat} {idx : List Nat} (h : Tensor.InB [p, D, D, D, D] idx) :
    ∃ (s : Nat) (a : Nat → Nat), idx = [s, a 0, a 1, a 2, a 3] ∧ s < p ∧ ∀ k, k < 4 → a k < D := by
  unfold Tensor.InB at h
  rcases h with _ | ⟨h1, h⟩
  rcases h with _ | ⟨h2, h⟩
  rcases h with _ | ⟨h3, h⟩
  rcases h with _ | ⟨h4, h⟩
  rcases h with _ | ⟨h5, h⟩
  cases h
  rename_i s a0 a1 a2 a3
  refine ⟨s, fun k => [a0, a1, a2, a3].getD k 0, rfl, h1, ?_⟩
  intro k hk
  rcases k with _ | _ | _ | _ | k
  · exact h2
  · exact h3
  · exact h4
  · exact h5
  · omega

theorem inB5_of {p D s : Nat} {a0 a1 a2 a3 : Nat} (hs : s < p) (h0 : a0 < D) (h1 : a1 < D) (h2 : a2 < D) (h3 : a3 < D) :
    Tensor.InB [p, D, D, D, D] [s, a0, a1, a2, a3] := by
  unfold Tensor.InB
  simp [hs, h0, h1, h2, h3]

theorem moved_eq (aux : List Nat) (haux : aux.Perm [0, 1, 2, 3]) (s : Nat) (a : Nat → Nat) :
    moved aux [s, a 0, a 1, a 2, a 3] = s :: aux.map a := by
  obtain ⟨q0, q1, q2, q3, rfl, h0, h1, h2, h3⟩ := perm4 haux
  simp only [moved, List.getD_eq_getElem?_getD, List.map_cons, List.map_nil, get5 s a h0, get5 s a h1, get5 s a h2, get5 s a h3]
  rfl

theorem moved_inj (aux : List Nat) (haux : aux.Perm [0, 1, 2, 3]) {s s' : Nat} {a a' : Nat → Nat}
    (h : s :: aux.map a = s' :: aux.map a') : s = s' ∧ ∀ k, k < 4 → a k = a' k := by
  rw [List.cons.injEq] at h
  refine ⟨h.1, fun k hk => ?_⟩
  have hm : k ∈ aux := haux.mem_iff.2 (by simp; omega)
  exact List.map_inj_left.1 h.2 k hm

/-- The text of an entry of a real tensor. -/
theorem elemEntry_eq (F : NumFmt R) (aux : List Nat) (haux : aux.Perm [0, 1, 2, 3]) (X : CTensor R) (s : Nat) (a : Nat → Nat) :
    elemEntry F (aux.map (· + 1)) X [s, a 0, a 1, a 2, a 3] =
      some (join ((s :: aux.map a).map F.encN) ++ ' ' :: encNum F X.cplx (X.t.val [s, a 0, a 1, a 2, a 3])) := by
  obtain ⟨q0, q1, q2, q3, rfl, h0, h1, h2, h3⟩ := perm4 haux
  unfold elemEntry
  simp only [List.map_cons, List.map_nil, List.getElem?_cons_zero, List.getElem?_cons_succ, Option.bind_eq_bind, Option.bind_some]
  have g := fun q (h : q < 4) => get5 s a h
  simp only [List.getElem?_cons_succ] at g
  rw [g q0 h0, g q1 h1, g q2 h2, g q3 h3]
  rfl

theorem read_entry_real [Zero R] (F : NumFmt R) (hF : F.Lawful) (dims idx : List Nat) (h5 : idx.length = 5) (hi : Tensor.InB dims idx)
    (x : R) (val : List Nat → R × R) :
    readElemEntry F false dims val (join (idx.map F.encN) ++ ' ' :: F.encR x) = some (setAt val idx (x, 0)) := by
  have htok : ∀ w ∈ idx.map F.encN, IsToken w := by
    intro w hw
    obtain ⟨n, _, rfl⟩ := List.mem_map.1 hw
    exact hF.tokN n
  unfold readElemEntry
  have hne : idx.map F.encN ≠ [] := by
    intro h; have := congrArg List.length h; simp [h5] at this
  rw [splitSp_join_sp _ hne _ htok, splitSp_token _ (hF.tokR _)]
  have e1 : (idx.map F.encN ++ [F.encR x]).take 5 = idx.map F.encN := by
    rw [List.take_append_of_le_length (by simp [h5]), List.take_of_length_le (by simp [h5])]
  have e2 : (idx.map F.encN ++ [F.encR x])[5]? = some (F.encR x) := by
    rw [List.getElem?_append_right (by simp [h5])]; simp [h5]
  simp only [e1, e2, mapM_dec_enc F hF, Option.bind_eq_bind, Option.bind_some, hF.decR_encR, Bool.false_eq_true, if_false, hi, if_true]

end Verif.Lc
