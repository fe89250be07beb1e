import Verif.Kagome.Block
/-
The final `view` and `permute` of the Kagome density matrices (rdm_kagome.py L20-L28, L1406-L1410): one index per spin, kets first.
-/
namespace Verif.KagomeRdm
open Tensor Rdm
variable {K : Type} [RCLike K]

/-- The labels of the fused indices: every block has its kets and then its bras. -/
def grp (c : Nat) : List Nat → List (List Nat)
  | [] => []
  | n :: ns => if n = 0 then grp c ns else List.range' (2 * c) (2 * n) :: grp (c + n) ns

theorem grp_flatten (c : Nat) (ns : List Nat) : (grp c ns).flatten = List.range' (2 * c) (2 * ns.sum) := by
  induction ns generalizing c with
  | nil => rfl
  | cons n ns ih =>
    unfold grp
    split
    · rename_i h; rw [ih, h]; simp
    · rw [List.flatten_cons, ih, show 2 * (c + n) = 2 * c + 2 * n by ring, List.range'_append_1]
      congr 1; simp; ring

theorem expandGo_perm (c : Nat) (ns : List Nat) : ((expandGo c ns).1 ++ (expandGo c ns).2).Perm (List.range' (2 * c) (2 * ns.sum)) := by
  induction ns generalizing c with
  | nil => exact List.Perm.refl _
  | cons n ns ih =>
    unfold expandGo
    split
    · rename_i h
      have := ih c
      simpa [h] using this
    · have h1 : (List.range' (2 * c) (2 * (n :: ns).sum)) = (List.range' (2 * c) n ++ List.range' (2 * c + n) n) ++ List.range' (2 * (c + n)) (2 * ns.sum) := by
        rw [List.range'_append_1, show 2 * (c + n) = 2 * c + (n + n) by ring, List.range'_append_1]
        congr 1; simp; ring
      rw [h1]
      simp only [List.append_assoc]
      refine List.Perm.append_left _ ?_
      refine (List.perm_append_comm_assoc _ _ _).trans ?_
      refine List.Perm.append_left _ ?_
      simpa using ih (c + n)

theorem expandPerm_perm (ns : List Nat) : (expandPerm ns).Perm (List.range (2 * ns.sum)) := by
  have := expandGo_perm 0 ns
  simpa [List.range_eq_range', expandPerm] using this

/-- The entries in the order of the fused indices. -/
def weave (κ β : List (List Nat)) : List Nat := (κ.zip β).flatMap (fun q => q.1 ++ q.2)

theorem range_getD {W u v : List Nat} {a n : Nat} (h : W.drop a = u ++ v) (hn : u.length = n) : (List.range' a n).map (fun i => W.getD i 0) = u := by
  subst hn
  apply List.ext_getElem (by simp)
  intro i h1 h2
  have e : W.getD (a + i) 0 = (W.drop a).getD i 0 := by simp [List.getD_eq_getElem?_getD, List.getElem?_drop]
  simp only [List.getElem_map, List.getElem_range', Nat.one_mul, e, h]
  rw [List.getD_eq_getElem?_getD, List.getElem?_append_left h2, List.getElem?_eq_getElem h2]; rfl

theorem drop_more {W u v : List Nat} {a n : Nat} (h : W.drop a = u ++ v) (hn : u.length = n) : W.drop (a + n) = v := by
  subst hn
  rw [← List.drop_drop, h, List.drop_left]

theorem expandGo_map (W : List Nat) (c : Nat) (κ β : List (List Nat)) (hl : β.map List.length = κ.map List.length) (h : W.drop (2 * c) = weave κ β) :
    (expandGo c (κ.map List.length)).1.map (fun i => W.getD i 0) = κ.flatten ∧ (expandGo c (κ.map List.length)).2.map (fun i => W.getD i 0) = β.flatten := by
  induction κ generalizing c β with
  | nil =>
    cases β with
    | nil => exact ⟨rfl, rfl⟩
    | cons => simp at hl
  | cons k κ ih =>
    cases β with
    | nil => simp at hl
    | cons b β =>
      simp only [List.map_cons, List.cons.injEq] at hl
      have hw : W.drop (2 * c) = k ++ (b ++ weave κ β) := by rw [h]; simp [weave]
      have h2 := drop_more hw rfl
      have h3 := drop_more h2 hl.1
      rw [show 2 * c + k.length + k.length = 2 * (c + k.length) by ring] at h3
      simp only [List.map_cons]
      unfold expandGo
      split
      · rename_i h0
        have hk : k = [] := List.length_eq_zero_iff.1 h0
        have hb : b = [] := List.length_eq_zero_iff.1 (hl.1.trans h0)
        subst hk; subst hb
        simpa using ih c β hl.2 (by simpa using h3)
      · obtain ⟨i1, i2⟩ := ih (c + k.length) β hl.2 h3
        simp only [List.map_append, List.flatten_cons, i1, i2, range_getD hw rfl, range_getD h2 hl.1, and_self]

/-- The fused index of a block. -/
def fuse (p : Nat) (k b : List Nat) : List Nat := if k = [] then [] else [ravel (List.replicate (2 * k.length) p) (k ++ b)]

theorem grp_gidx (p : Nat) (W : List Nat) (c : Nat) (κ β : List (List Nat)) (hl : β.map List.length = κ.map List.length) (h : W.drop (2 * c) = weave κ β) :
    (grp c (κ.map List.length)).map (gidx (fun _ => p) (fun i => W.getD i 0)) = (κ.zip β).flatMap (fun q => fuse p q.1 q.2) := by
  induction κ generalizing c β with
  | nil => rfl
  | cons k κ ih =>
    cases β with
    | nil => simp at hl
    | cons b β =>
      simp only [List.map_cons, List.cons.injEq] at hl
      have hw : W.drop (2 * c) = (k ++ b) ++ weave κ β := by rw [h]; simp [weave]
      have hlen : (k ++ b).length = 2 * k.length := by simp [hl.1]; ring
      have h3 := drop_more hw hlen
      rw [show 2 * c + 2 * k.length = 2 * (c + k.length) by ring] at h3
      simp only [List.map_cons, List.zip_cons_cons, List.flatMap_cons]
      unfold grp
      split
      · rename_i h0
        have hk : k = [] := List.length_eq_zero_iff.1 h0
        have hb : b = [] := List.length_eq_zero_iff.1 (hl.1.trans h0)
        subst hk; subst hb
        simpa [fuse] using ih c β hl.2 (by simpa using h3)
      · rename_i h0
        have hk : k ≠ [] := fun e => h0 (by simp [e])
        rw [List.map_cons, ih _ β hl.2 h3]
        unfold fuse
        rw [if_neg hk]
        unfold gidx
        rw [range_getD hw hlen]
        simp

theorem grp_gdim (p c : Nat) (ns : List Nat) : (grp c ns).map (gdim (fun _ => p)) = (ns.filter (· ≠ 0)).map (fun n => p ^ (2 * n)) := by
  induction ns generalizing c with
  | nil => rfl
  | cons n ns ih =>
    unfold grp
    split
    · rename_i h; simp [h, ih]
    · rename_i h; simp only [List.map_cons, ih]; simp [h, gdim]

theorem unfuse_val (p : Nat) (ls : List Nat) (X : Tensor K) (hX : X.shape = (ls.filter (· ≠ 0)).map (fun n => p ^ (2 * n))) :
    ∃ R, unfuse p ls X = some R ∧ R.shape = List.replicate ls.sum p ++ List.replicate ls.sum p ∧
      ∀ κ β : List (List Nat), κ.map List.length = ls → β.map List.length = ls → (∀ k ∈ κ, ∀ x ∈ k, x < p) → (∀ k ∈ β, ∀ x ∈ k, x < p) →
        R.val (κ.flatten ++ β.flatten) = X.val ((κ.zip β).flatMap (fun q => fuse p q.1 q.2)) := by
  have d0 := Denotes.leaf (fun _ => p) X (grp 0 ls) (by rw [hX, grp_gdim])
  have hpm := expandPerm_perm ls
  obtain ⟨x, e1, q1⟩ := Denotes.view d0 (singles (List.range (2 * ls.sum))) (List.replicate (2 * ls.sum) p)
    (by rw [singles_flatten, grp_flatten, List.range_eq_range']) (by rw [singles_gdim]; simp)
  obtain ⟨R, e2, q2⟩ := Denotes.permute q1 (expandPerm ls) (by
    rw [decide_eq_true_eq]
    refine ⟨by simpa [singles] using hpm.length_eq, hpm.nodup_iff.2 List.nodup_range, fun y hy => ?_⟩
    simpa [singles] using hpm.mem_iff.1 hy)
  have hpick : pick (singles (List.range (2 * ls.sum))) (expandPerm ls) = singles (expandPerm ls) := by
    unfold pick
    conv_rhs => unfold singles
    refine List.map_congr_left fun y hy => ?_
    have hy' : y < 2 * ls.sum := by simpa using hpm.mem_iff.1 hy
    simp [singles, List.getD_eq_getElem?_getD, hy']
  rw [hpick] at q2
  refine ⟨R, by simp [unfuse, e1, e2], ?_, ?_⟩
  · rw [q2.shape, singles_gdim]
    have := hpm.length_eq
    simp only [List.length_range] at this
    rw [List.map_const', this, ← List.replicate_add]
    congr 1; ring
  · intro κ β hκ hβ h1 h2
    have hw : (weave κ β).drop (2 * 0) = weave κ β := rfl
    obtain ⟨g1, g2⟩ := expandGo_map (weave κ β) 0 κ β (hβ.trans hκ.symm) hw
    have hv := q2.val (fun i => (weave κ β).getD i 0) (by
      intro l hl
      rw [singles_flatten] at hl
      have hm : (weave κ β).getD l 0 ∈ κ.flatten ++ β.flatten := by
        rw [← g1, ← g2, ← List.map_append, hκ]
        exact List.mem_map.2 ⟨l, hl, rfl⟩
      rw [List.mem_append, List.mem_flatten, List.mem_flatten] at hm
      rcases hm with ⟨k, hk, hx⟩ | ⟨k, hk, hx⟩
      · exact h1 k hk _ hx
      · exact h2 k hk _ hx)
    rw [singles_gidx] at hv
    have hm : (expandPerm ls).map (fun i => (weave κ β).getD i 0) = κ.flatten ++ β.flatten := by
      rw [← g1, ← g2, ← List.map_append, hκ]; rfl
    rw [hm] at hv
    rw [hv]
    show X.val _ = _
    rw [← hκ, grp_gidx p (weave κ β) 0 κ β (hβ.trans hκ.symm) hw]

end Verif.KagomeRdm
