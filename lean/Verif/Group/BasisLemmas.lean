import Verif.Group.BasisModel
import Verif.Group.PgProps
/-
Helper lemmas for /repo/u1sym/basis.py.
-/
namespace Verif.SymBasis
open Pg.Spec
variable {K : Type}

theorem t4_ext {a b : T4} : a = b ↔ a 0 = b 0 ∧ a 1 = b 1 ∧ a 2 = b 2 ∧ a 3 = b 3 := by
  constructor
  · rintro rfl; exact ⟨rfl, rfl, rfl, rfl⟩
  · rintro ⟨h0, h1, h2, h3⟩
    funext i
    fin_cases i
    · exact h0
    · exact h1
    · exact h2
    · exact h3

/-- Two index tuples are related by a lattice symmetry. -/
def Rel (a b : T4) : Prop := ∃ g : G, a = fun i => b (g.act i)

theorem rel_iff (a b : T4) : Rel a b ↔
    (a 0 = b 0 ∧ a 1 = b 1 ∧ a 2 = b 2 ∧ a 3 = b 3) ∨ (a 0 = b 1 ∧ a 1 = b 2 ∧ a 2 = b 3 ∧ a 3 = b 0) ∨
    (a 0 = b 2 ∧ a 1 = b 3 ∧ a 2 = b 0 ∧ a 3 = b 1) ∨ (a 0 = b 3 ∧ a 1 = b 0 ∧ a 2 = b 1 ∧ a 3 = b 2) ∨
    (a 0 = b 0 ∧ a 1 = b 3 ∧ a 2 = b 2 ∧ a 3 = b 1) ∨ (a 0 = b 1 ∧ a 1 = b 0 ∧ a 2 = b 3 ∧ a 3 = b 2) ∨
    (a 0 = b 2 ∧ a 1 = b 1 ∧ a 2 = b 0 ∧ a 3 = b 3) ∨ (a 0 = b 3 ∧ a 1 = b 2 ∧ a 2 = b 1 ∧ a 3 = b 0) := by
  unfold Rel
  constructor
  · rintro ⟨g, rfl⟩
    cases g with
    | rot k => fin_cases k <;> simp [G.act] <;> decide
    | refl k => fin_cases k <;> simp [G.act] <;> decide
  · intro h
    rcases h with h | h | h | h | h | h | h | h
    · exact ⟨.rot 0, t4_ext.2 h⟩
    · exact ⟨.rot 1, t4_ext.2 h⟩
    · exact ⟨.rot 2, t4_ext.2 h⟩
    · exact ⟨.rot 3, t4_ext.2 h⟩
    · exact ⟨.refl 0, t4_ext.2 h⟩
    · exact ⟨.refl 1, t4_ext.2 h⟩
    · exact ⟨.refl 2, t4_ext.2 h⟩
    · exact ⟨.refl 3, t4_ext.2 h⟩

theorem Rel.refl (a : T4) : Rel a a := (rel_iff a a).2 (Or.inl ⟨rfl, rfl, rfl, rfl⟩)

theorem Rel.symm {a b : T4} (h : Rel a b) : Rel b a := by
  rw [rel_iff] at h ⊢
  rcases h with h | h | h | h | h | h | h | h <;> simp [h]

theorem Rel.trans {a b c : T4} (h : Rel a b) (h' : Rel b c) : Rel a c := by
  rw [rel_iff] at h h' ⊢
  rcases h with ⟨h1, h2, h3, h4⟩ | ⟨h1, h2, h3, h4⟩ | ⟨h1, h2, h3, h4⟩ | ⟨h1, h2, h3, h4⟩ |
    ⟨h1, h2, h3, h4⟩ | ⟨h1, h2, h3, h4⟩ | ⟨h1, h2, h3, h4⟩ | ⟨h1, h2, h3, h4⟩ <;>
  rw [h1, h2, h3, h4] <;>
  rcases h' with ⟨h1, h2, h3, h4⟩ | ⟨h1, h2, h3, h4⟩ | ⟨h1, h2, h3, h4⟩ | ⟨h1, h2, h3, h4⟩ |
    ⟨h1, h2, h3, h4⟩ | ⟨h1, h2, h3, h4⟩ | ⟨h1, h2, h3, h4⟩ | ⟨h1, h2, h3, h4⟩ <;>
  simp [h1, h2, h3, h4]

theorem mem_genA1 (a s : T4) : a ∈ genA1 s ↔
    (a 0 = s 0 ∧ a 1 = s 3 ∧ a 2 = s 2 ∧ a 3 = s 1) ∨ (a 0 = s 2 ∧ a 1 = s 1 ∧ a 2 = s 0 ∧ a 3 = s 3) ∨
    (a 0 = s 3 ∧ a 1 = s 0 ∧ a 2 = s 1 ∧ a 3 = s 2) ∨ (a 0 = s 1 ∧ a 1 = s 2 ∧ a 2 = s 3 ∧ a 3 = s 0) := by
  simp only [genA1, Finset.mem_insert, Finset.mem_singleton, t4_ext, getPerm]
  rfl

theorem genA1_rel {a s : T4} (h : a ∈ genA1 s) : Rel a s := by
  rw [mem_genA1] at h
  rw [rel_iff]
  rcases h with h | h | h | h <;> simp [h]

/-- `gen_c4v_symm_A1` is the orbit of its seed. -/
theorem mem_genC4v (a s : T4) : a ∈ genC4v s ↔ Rel a s := by
  unfold genC4v
  split
  · rw [Finset.mem_union, Finset.mem_biUnion]
    constructor
    · rintro (h | ⟨b, hb, h⟩)
      · exact genA1_rel h
      · exact (genA1_rel h).trans (genA1_rel hb)
    · intro h
      have m1 : (getPerm s ![0, 3, 2, 1]) ∈ genA1 s := by simp [genA1]
      have m3 : (getPerm s ![3, 0, 1, 2]) ∈ genA1 s := by simp [genA1]
      rw [rel_iff] at h
      rcases h with h | h | h | h | h | h | h | h
      · exact Or.inr ⟨_, m1, (mem_genA1 _ _).2 (Or.inl h)⟩
      · exact Or.inl ((mem_genA1 _ _).2 (Or.inr (Or.inr (Or.inr h))))
      · exact Or.inr ⟨_, m1, (mem_genA1 _ _).2 (Or.inr (Or.inl h))⟩
      · exact Or.inl ((mem_genA1 _ _).2 (Or.inr (Or.inr (Or.inl h))))
      · exact Or.inl ((mem_genA1 _ _).2 (Or.inl h))
      · exact Or.inr ⟨_, m1, (mem_genA1 _ _).2 (Or.inr (Or.inr (Or.inl h)))⟩
      · exact Or.inl ((mem_genA1 _ _).2 (Or.inr (Or.inl h)))
      · exact Or.inr ⟨_, m1, (mem_genA1 _ _).2 (Or.inr (Or.inr (Or.inr h)))⟩
  · rename_i hs
    rw [not_not, mem_genA1] at hs
    rw [mem_genA1, rel_iff]
    constructor
    · intro h
      rcases h with h | h | h | h
      · exact Or.inr (Or.inr (Or.inr (Or.inr (Or.inl h))))
      · exact Or.inr (Or.inr (Or.inr (Or.inr (Or.inr (Or.inr (Or.inl h))))))
      · exact Or.inr (Or.inr (Or.inr (Or.inl h)))
      · exact Or.inr (Or.inl h)
    · intro h
      rcases hs with ⟨h1, h2, h3, h4⟩ | ⟨h1, h2, h3, h4⟩ | ⟨h1, h2, h3, h4⟩ | ⟨h1, h2, h3, h4⟩ <;>
      rcases h with ⟨k1, k2, k3, k4⟩ | ⟨k1, k2, k3, k4⟩ | ⟨k1, k2, k3, k4⟩ | ⟨k1, k2, k3, k4⟩ |
        ⟨k1, k2, k3, k4⟩ | ⟨k1, k2, k3, k4⟩ | ⟨k1, k2, k3, k4⟩ | ⟨k1, k2, k3, k4⟩ <;>
      rw [k1, k2, k3, k4] <;> omega

theorem rel_bound {a b : T4} {D : Nat} (h : Rel a b) (hb : ∀ i, b i < D) : ∀ i, a i < D := by
  obtain ⟨g, rfl⟩ := h
  intro i
  exact hb _

/-- What the `while` loop of `gen_t` computes: representatives of the classes met in the work list. -/
theorem genLoop_spec (n : Nat) : ∀ (work : List T4), work.length ≤ n →
    ∃ reps : List T4, genLoop work = reps.map genC4v ∧ (∀ r ∈ reps, r ∈ work) ∧
      reps.Pairwise (fun a b => ¬ Rel a b) ∧ ∀ w ∈ work, ∃ r ∈ reps, Rel w r := by
  induction n with
  | zero =>
    intro work h
    obtain rfl := List.length_eq_zero_iff.1 (Nat.le_zero.1 h)
    exact ⟨[], by simp [genLoop], by simp, List.Pairwise.nil, by simp⟩
  | succ n ih =>
    intro work h
    cases work with
    | nil => exact ⟨[], by simp [genLoop], by simp, List.Pairwise.nil, by simp⟩
    | cons w ws =>
      have hl : ((w :: ws).filter (· ∉ genC4v w)).length ≤ n := by
        simp only [List.filter_cons, seed_mem, not_true_eq_false, decide_false]
        exact (List.length_filter_le _ _).trans (Nat.le_of_succ_le_succ h)
      obtain ⟨reps, h1, h2, h3, h4⟩ := ih _ hl
      refine ⟨w :: reps, ?_, ?_, ?_, ?_⟩
      · rw [genLoop, h1]
        rfl
      · intro r hr
        rcases List.mem_cons.1 hr with rfl | hr
        · exact List.mem_cons_self
        · exact (List.mem_filter.1 (h2 r hr)).1
      · refine List.Pairwise.cons ?_ h3
        intro r hr hrel
        have := (List.mem_filter.1 (h2 r hr)).2
        simp only [decide_eq_true_eq, mem_genC4v] at this
        exact this hrel.symm
      · intro x hx
        by_cases hxo : x ∈ genC4v w
        · exact ⟨w, List.mem_cons_self, (mem_genC4v _ _).1 hxo⟩
        · obtain ⟨r, hr, hrel⟩ := h4 x (List.mem_filter.2 ⟨hx, by simpa using hxo⟩)
          exact ⟨r, List.mem_cons_of_mem _ hr, hrel⟩

theorem genT_spec (D : Nat) (hD : 0 < D) :
    ∃ reps : List T4, genT D = reps.map genC4v ∧
      (∀ r ∈ reps, (∀ i, r i < D) ∧ ∃ i, r i = D - 1) ∧
      reps.Pairwise (fun a b => ¬ Rel a b) ∧
      ∀ w : T4, (∀ i, w i < D) → (∃ i, w i = D - 1) → ∃ r ∈ reps, Rel w r := by
  obtain ⟨reps, h1, h2, h3, h4⟩ := genLoop_spec _ ((List.range D).flatMap fun a =>
    (List.range D).flatMap fun b => (List.range D).map fun c => (![a, b, c, D - 1] : T4)) le_rfl
  refine ⟨reps, h1, ?_, h3, ?_⟩
  · intro r hr
    have := h2 r hr
    simp only [List.mem_flatMap, List.mem_range, List.mem_map] at this
    obtain ⟨a, ha, b, hb, c, hc, rfl⟩ := this
    refine ⟨?_, 3, rfl⟩
    intro i
    fin_cases i
    · exact ha
    · exact hb
    · exact hc
    · show D - 1 < D
      omega
  · rintro w hw ⟨i, hi⟩
    have key : ∀ x : T4, (∀ i, x i < D) → x 3 = D - 1 → ∃ r ∈ reps, Rel x r := by
      intro x hx h3
      refine h4 x ?_
      simp only [List.mem_flatMap, List.mem_range, List.mem_map]
      refine ⟨x 0, hx 0, x 1, hx 1, x 2, hx 2, ?_⟩
      exact t4_ext.2 ⟨rfl, rfl, rfl, h3.symm⟩
    obtain ⟨r, hr, hrel⟩ := key (fun j => w ((G.rot (i - 3)).act j)) (fun _ => hw _) (by
      show w (3 + (i - 3)) = D - 1
      rw [← hi]
      congr 1
      fin_cases i <;> rfl)
    exact ⟨r, hr, (Rel.symm ⟨_, rfl⟩).trans hrel⟩

theorem genUptoD_spec (D : Nat) :
    ∃ reps : List (List T4), genUptoD D = reps.map (·.map genC4v) ∧
      (∀ r ∈ reps.flatten, ∀ i, r i < D) ∧
      reps.flatten.Pairwise (fun a b => ¬ Rel a b) ∧
      ∀ w : T4, (∀ i, w i < D) → ∃ r ∈ reps.flatten, Rel w r := by
  induction D with
  | zero =>
    refine ⟨[], by simp [genUptoD], by simp, by simp, ?_⟩
    intro w hw
    exact absurd (hw 0) (Nat.not_lt_zero _)
  | succ D ih =>
    obtain ⟨reps, h1, h2, h3, h4⟩ := ih
    obtain ⟨rs, k1, k2, k3, k4⟩ := genT_spec (D + 1) (Nat.succ_pos _)
    have hf : (reps ++ [rs]).flatten = reps.flatten ++ rs := by simp
    refine ⟨reps ++ [rs], ?_, ?_, ?_, ?_⟩
    · unfold genUptoD at h1 ⊢
      rw [List.range'_1_concat, List.map_append, h1, List.map_append]
      simp only [List.map_cons, List.map_nil]
      rw [show 1 + D = D + 1 by omega, k1]
    · intro r hr i
      rw [hf, List.mem_append] at hr
      rcases hr with hr | hr
      · exact Nat.lt_succ_of_lt (h2 r hr i)
      · exact (k2 r hr).1 i
    · rw [hf, List.pairwise_append]
      refine ⟨h3, k3, ?_⟩
      rintro a ha b hb hrel
      obtain ⟨i, hi⟩ := (k2 b hb).2
      have := rel_bound hrel.symm (h2 a ha) i
      omega
    · intro w hw
      rw [hf]
      by_cases hi : ∃ i, w i = D
      · obtain ⟨r, hr, hrel⟩ := k4 w hw hi
        exact ⟨r, List.mem_append_right _ hr, hrel⟩
      · obtain ⟨r, hr, hrel⟩ := h4 w (fun i => by
          have := hw i
          have : w i ≠ D := fun e => hi ⟨i, e⟩
          omega)
        exact ⟨r, List.mem_append_left _ hr, hrel⟩

end Verif.SymBasis
