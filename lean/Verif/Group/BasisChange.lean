import Verif.Group.BasisPlain
/-
Helper lemmas: change of basis of the parameters; dictionary of a basis.
-/
namespace Verif.SymBasis
open Pg.Spec
open Spec (inner combined embedded SubsetOf)
variable {K : Type}

theorem dot_finset [Field K] (sh : List Nat) (A B : Tensor K) :
    dot sh A B = ∑ idx ∈ (Tensor.indices sh).toFinset, A.val idx * B.val idx := by
  unfold dot
  rw [List.sum_toFinset _ (Tensor.nodup_indices sh)]

theorem sum_range_list [AddCommMonoid K] (n : Nat) (f : Nat → K) :
    ((List.range n).map f).sum = ∑ i ∈ Finset.range n, f i := by
  rw [Finset.sum_eq_multiset_sum]
  rfl

theorem sum_indices [AddCommMonoid K] (d : Nat) (ds : List Nat) (f : List Nat → K) :
    ((Tensor.indices (d :: ds)).map f).sum =
      ∑ i ∈ Finset.range d, ((Tensor.indices ds).map fun is => f (i :: is)).sum := by
  rw [← sum_range_list]
  simp only [Tensor.indices, List.map_flatMap, List.map_map]
  induction List.range d with
  | nil => rfl
  | cons x xs ih =>
    rw [List.flatMap_cons, List.sum_append, ih]
    rfl

theorem dot_inner [Field K] (p D : Nat) (A B : Tensor K) : dot [p, D, D, D, D] A B = inner p D A B := by
  unfold dot inner
  simp only [sum_indices]
  simp [Tensor.indices]

/-- Scalar product of an embedded tensor with a larger one. -/
theorem dot_embedded [Field K] (p D0 D1 : Nat) (h : D0 ≤ D1) (A B C : Tensor K) (c : K)
    (hA : ∀ s f, s < p → (∀ i, f i < D1) → embedded D0 A.val s f = c * entry C s f) :
    dot [p, D0, D0, D0, D0] A B = c * inner p D1 C B := by
  rw [← dot_inner, dot_finset, dot_finset, Finset.mul_sum]
  have hsub : (Tensor.indices [p, D0, D0, D0, D0]).toFinset ⊆ (Tensor.indices [p, D1, D1, D1, D1]).toFinset := by
    intro idx hidx
    rw [List.mem_toFinset] at hidx ⊢
    obtain ⟨r, rfl⟩ := exists_lst hidx
    rw [mem_indices_lst] at hidx ⊢
    exact ⟨hidx.1, fun i => (hidx.2 i).trans_le h⟩
  rw [← Finset.sum_subset hsub (f := fun idx => c * (C.val idx * B.val idx))]
  · refine Finset.sum_congr rfl fun idx hidx => ?_
    rw [List.mem_toFinset] at hidx
    obtain ⟨r, rfl⟩ := exists_lst hidx
    rw [mem_indices_lst] at hidx
    have := hA r.1 r.2 hidx.1 fun i => (hidx.2 i).trans_le h
    rw [embedded, if_pos hidx.2] at this
    show A.val (lst r) * B.val (lst r) = _
    rw [← mul_assoc]
    exact congrArg (· * B.val (lst r)) this
  · intro idx hidx hn
    rw [List.mem_toFinset] at hidx hn
    obtain ⟨r, rfl⟩ := exists_lst hidx
    rw [mem_indices_lst] at hidx hn
    have := hA r.1 r.2 hidx.1 hidx.2
    rw [embedded, if_neg fun h' => hn ⟨hidx.1, h'⟩] at this
    show c * (C.val (lst r) * B.val (lst r)) = 0
    rw [← mul_assoc]
    exact mul_eq_zero_of_left this.symm _

theorem filter_range_eq (m k : Nat) (h : k < m) (q : Nat → Bool) (hq : ∀ y < m, q y = true ↔ y = k) :
    (List.range m).filter q = [k] := by
  have h1 : (List.range m).filter q = (List.range m).filter (· == k) := by
    refine List.filter_congr fun y hy => ?_
    rw [Bool.eq_iff_iff, hq y (List.mem_range.1 hy)]
    simp
  rw [h1, List.filter_beq, List.count_eq_one_of_mem List.nodup_range (List.mem_range.2 h)]
  rfl

theorem nonzeros_perm [Zero K] [DecidableEq K] (n m : Nat) (M : Nat → Nat → K) (pos : Nat → Nat)
    (hpos : ∀ x < n, pos x < m) (h : ∀ x < n, ∀ y < m, M x y ≠ 0 ↔ y = pos x) :
    nonzeros n m M = (List.range n).map fun x => (x, pos x) := by
  unfold nonzeros
  have key : ∀ l : List Nat, (∀ x ∈ l, x < n) →
      l.flatMap (fun x => ((List.range m).filter fun y => M x y ≠ 0).map fun y => (x, y)) =
      l.map fun x => (x, pos x) := by
    intro l
    induction l with
    | nil => intro _; rfl
    | cons x xs ih =>
      intro hl
      have hx := hl x List.mem_cons_self
      rw [List.flatMap_cons, ih fun y hy => hl y (List.mem_cons_of_mem _ hy),
        filter_range_eq m (pos x) (hpos x hx) _ fun y hy => by simpa using h x hx y hy]
      rfl
  exact key _ fun x hx => List.mem_range.1 hx

theorem foldl_assign_length (l : List (Nat × K)) (a : List K) : (l.foldl assign a).length = a.length := by
  induction l generalizing a with
  | nil => rfl
  | cons e es ih => rw [List.foldl_cons, ih]; simp [assign]

theorem foldl_assign_other (l : List (Nat × K)) (a : List K) (j : Nat) (h : ∀ e ∈ l, e.1 ≠ j) :
    (l.foldl assign a)[j]? = a[j]? := by
  induction l generalizing a with
  | nil => rfl
  | cons e es ih =>
    rw [List.foldl_cons, ih _ fun e' he' => h e' (List.mem_cons_of_mem _ he')]
    simp [assign, List.getElem?_set_ne (h e List.mem_cons_self)]

theorem foldl_assign_at (l : List (Nat × K)) (a : List K) (e : Nat × K) (he : e ∈ l)
    (hn : (l.map Prod.fst).Nodup) (hb : e.1 < a.length) : (l.foldl assign a)[e.1]? = some e.2 := by
  induction l generalizing a with
  | nil => exact absurd he List.not_mem_nil
  | cons e' es ih =>
    rw [List.map_cons, List.nodup_cons] at hn
    rw [List.foldl_cons]
    rcases List.mem_cons.1 he with rfl | he
    · rw [foldl_assign_other]
      · simp [assign, List.getElem?_set_self hb]
      · intro e2 h2 heq
        exact hn.1 (heq ▸ List.mem_map_of_mem h2)
    · exact ih _ he hn.2 (by simpa [assign] using hb)

theorem getD_get (l : List (Tensor K)) (x : Nat) (h : x < l.length) (z : Tensor K) :
    l.getD x z = l.get ⟨x, h⟩ := by
  rw [List.getD_eq_getElem?_getD, List.getElem?_eq_getElem h]
  rfl

theorem combined_eq [Ring K] (c : List K) (bs : List (Tensor K)) (h : c.length = bs.length) (idx : List Nat) :
    combined c bs idx = ∑ k : Fin bs.length, c.getD k.1 0 * (bs.get k).val idx := by
  induction bs generalizing c with
  | nil =>
    rw [combined]
    simp
  | cons b bs ih =>
    cases c with
    | nil => simp at h
    | cons x xs =>
      have := ih xs (by simpa using h)
      simp only [combined, List.zipWith_cons_cons, List.sum_cons] at this ⊢
      rw [this]
      simp only [List.length_cons]
      rw [Fin.sum_univ_succ]
      rfl

theorem rebase_ok [Field K] [DecidableEq K] (p D0 D1 : Nat) (hD : D0 ≤ D1) (basis0 basis : List (Tensor K))
    (pos : Fin basis0.length → Fin basis.length) (scale : Fin basis0.length → K)
    (h : SubsetOf p D0 D1 basis0 basis pos scale)
    (horth : ∀ y y' : Fin basis.length, y ≠ y' → inner p D1 (basis.get y) (basis.get y') = 0)
    (hpos : ∀ y : Fin basis.length, inner p D1 (basis.get y) (basis.get y) ≠ 0)
    (params noise : List K) (hp : params.length = basis0.length) (hn : noise.length = basis.length) :
    ∃ new, rebaseParams params p D0 D1 basis0 basis noise = some new ∧ new.length = basis.length ∧
      (∀ x : Fin basis0.length, new[(pos x).1]? = some (params.getD x.1 0 * scale x)) ∧
      (∀ y : Fin basis.length, (∀ x, pos x ≠ y) → new[y.1]? = noise[y.1]?) := by
  have hov : ∀ (x : Fin basis0.length) (y : Fin basis.length),
      dot [p, D0, D0, D0, D0] (basis0.get x) (basis.get y) =
        scale x * inner p D1 (basis.get (pos x)) (basis.get y) := fun x y =>
    dot_embedded p D0 D1 hD _ _ _ _ (h.same x)
  have hov0 : ∀ (x : Fin basis0.length), dot [p, D0, D0, D0, D0] (basis0.get x) (basis0.get x) =
      scale x * (scale x * inner p D1 (basis.get (pos x)) (basis.get (pos x))) := by
    intro x
    rw [dot_embedded p D0 D1 hD _ _ _ _ (h.same x), ← hov x (pos x)]
    congr 1
    rw [← dot_inner, dot_finset, dot_finset]
    symm
    have hsub : (Tensor.indices [p, D0, D0, D0, D0]).toFinset ⊆
        (Tensor.indices [p, D1, D1, D1, D1]).toFinset := by
      intro idx hidx
      rw [List.mem_toFinset] at hidx ⊢
      obtain ⟨r, rfl⟩ := exists_lst hidx
      rw [mem_indices_lst] at hidx ⊢
      exact ⟨hidx.1, fun i => (hidx.2 i).trans_le hD⟩
    rw [← Finset.sum_subset hsub]
    · exact Finset.sum_congr rfl fun idx _ => mul_comm _ _
    · intro idx hidx hn
      rw [List.mem_toFinset] at hidx hn
      obtain ⟨r, rfl⟩ := exists_lst hidx
      rw [mem_indices_lst] at hidx hn
      have := h.same x r.1 r.2 hidx.1 hidx.2
      rw [embedded, if_neg fun h' => hn ⟨hidx.1, h'⟩] at this
      have h0 : (basis.get (pos x)).val (lst r) = 0 :=
        (mul_eq_zero.1 this.symm).resolve_left (h.scale_ne x)
      rw [h0, zero_mul]
  have hne : ∀ x, scale x * inner p D1 (basis.get (pos x)) (basis.get (pos x)) ≠ 0 := fun x =>
    mul_ne_zero (h.scale_ne x) (hpos _)
  let z : Tensor K := ⟨[], fun _ => 0⟩
  let ov : Nat → Nat → K := fun x y => dot [p, D0, D0, D0, D0] (basis0.getD x z) (basis.getD y z)
  let posN : Nat → Nat := fun x => if hx : x < basis0.length then (pos ⟨x, hx⟩).1 else 0
  have hposN : ∀ x : Fin basis0.length, posN x.1 = (pos x).1 := fun x => dif_pos x.2
  have hovN : ∀ (x : Fin basis0.length) (y : Fin basis.length), ov x.1 y.1 =
      scale x * inner p D1 (basis.get (pos x)) (basis.get y) := by
    intro x y
    show dot [p, D0, D0, D0, D0] (basis0.getD x.1 z) (basis.getD y.1 z) = _
    rw [getD_get _ _ x.2, getD_get _ _ y.2]
    exact hov x y
  have hperm : nonzeros basis0.length basis.length ov = (List.range basis0.length).map fun x => (x, posN x) := by
    refine nonzeros_perm _ _ _ _ (fun x hx => ?_) (fun x hx y hy => ?_)
    · rw [hposN ⟨x, hx⟩]
      exact (pos ⟨x, hx⟩).2
    · rw [hovN ⟨x, hx⟩ ⟨y, hy⟩, hposN ⟨x, hx⟩]
      constructor
      · intro hn0
        by_contra hyx
        refine hn0 ?_
        rw [horth _ _ fun e => hyx (congrArg Fin.val e).symm, mul_zero]
      · intro e
        have e' : (⟨y, hy⟩ : Fin basis.length) = pos ⟨x, hx⟩ := Fin.ext e
        rw [e']
        exact hne _
  let ups : List (Nat × K) := (List.range basis0.length).map fun x =>
    (posN x, params.getD x 0 * dot [p, D0, D0, D0, D0] (basis0.getD x z) (basis0.getD x z) / ov x (posN x))
  have hups : ((List.zipWith (· * ·) params (basis0.map fun b => dot [p, D0, D0, D0, D0] b b)).zip
      (nonzeros basis0.length basis.length ov)).map (fun q => (q.2.2, q.1 / ov q.2.1 q.2.2)) = ups := by
    rw [hperm]
    apply List.ext_getElem
    · simp [ups, hp]
    · intro i h1 h2
      have hi : i < basis0.length := by simpa [ups] using h2
      have hi' : i < params.length := by omega
      simp [ups, List.getElem?_eq_getElem hi, List.getElem?_eq_getElem hi']
  have hrun : rebaseParams params p D0 D1 basis0 basis noise = some (ups.foldl assign noise) := by
    unfold rebaseParams
    simp only [Option.getD_none, Nat.min_eq_left hD, ne_eq, not_true_eq_false, if_false]
    rw [← hups]
    rw [if_neg (by
      show ¬ ¬ (nonzeros basis0.length basis.length ov).length = basis0.length
      rw [hperm]; simp), if_neg (by simpa using hp)]
  have hval : ∀ x : Fin basis0.length, ((pos x).1, params.getD x.1 0 * scale x) ∈ ups := by
    intro x
    refine List.mem_map.2 ⟨x.1, List.mem_range.2 x.2, ?_⟩
    have e : ov x.1 (posN x.1) = scale x * inner p D1 (basis.get (pos x)) (basis.get (pos x)) := by
      rw [hposN]
      exact hovN x (pos x)
    rw [e, hposN, getD_get _ _ x.2]
    refine Prod.ext rfl ?_
    show params.getD x.1 0 * dot [p, D0, D0, D0, D0] (basis0.get x) (basis0.get x) / _ = _
    rw [hov0 x, mul_div_assoc, mul_div_cancel_right₀ _ (hne x)]
  have hnd : (ups.map Prod.fst).Nodup := by
    simp only [ups, List.map_map]
    refine List.Nodup.map_on ?_ List.nodup_range
    intro x hx y hy hxy
    have hx := List.mem_range.1 hx
    have hy := List.mem_range.1 hy
    have : pos ⟨x, hx⟩ = pos ⟨y, hy⟩ := by
      refine Fin.ext ?_
      rw [← hposN, ← hposN]
      exact hxy
    exact congrArg Fin.val (h.inj _ _ this)
  refine ⟨_, hrun, ?_, ?_, ?_⟩
  · rw [foldl_assign_length, hn]
  · intro x
    exact foldl_assign_at ups noise _ (hval x) hnd (by rw [hn]; exact (pos x).2)
  · intro y hy
    refine foldl_assign_other ups noise _ ?_
    intro e he heq
    obtain ⟨x, hx, rfl⟩ := List.mem_map.1 he
    have hx := List.mem_range.1 hx
    exact hy ⟨x, hx⟩ (Fin.ext ((hposN ⟨x, hx⟩).symm.trans heq))

theorem addElems [AddZeroClass K] (n m : Nat) (v : Nat × Nat → K) (ks : List (Nat × Nat))
    (hk : ∀ k ∈ ks, k.1 < n ∧ k.2 < m) (hn : ks.Nodup) (a : Nat → Nat → K) :
    ∃ b, (ks.map fun k => (k, v k)).foldlM (addElem n m) a = some b ∧
      ∀ x j, b x j = if (x, j) ∈ ks then a x j + v (x, j) else a x j := by
  induction ks generalizing a with
  | nil => exact ⟨a, rfl, fun x j => by simp⟩
  | cons k ks ih =>
    rw [List.nodup_cons] at hn
    obtain ⟨b, h1, h2⟩ := ih (fun k' h' => hk k' (List.mem_cons_of_mem _ h')) hn.2
      (fun x j => if x = k.1 ∧ j = k.2 then a x j + v k else a x j)
    refine ⟨b, ?_, ?_⟩
    · rw [List.map_cons, List.foldlM_cons, addElem, if_pos (hk k List.mem_cons_self)]
      exact h1
    · intro x j
      rw [h2]
      by_cases hxj : (x, j) = k
      · subst hxj
        rw [if_neg hn.1]
        simp
      · have hne : ¬ (x = k.1 ∧ j = k.2) := fun h => hxj (Prod.ext h.1 h.2)
        rw [if_neg hne]
        by_cases hm : (x, j) ∈ ks
        · rw [if_pos hm, if_pos (List.mem_cons_of_mem _ hm)]
        · rw [if_neg hm, if_neg fun h => (List.mem_cons.1 h).elim hxj hm]

theorem mem_nonzeros [Zero K] [DecidableEq K] (n m : Nat) (M : Nat → Nat → K) (x y : Nat) :
    (x, y) ∈ nonzeros n m M ↔ x < n ∧ y < m ∧ M x y ≠ 0 := by
  simp only [nonzeros, List.mem_flatMap, List.mem_range, List.mem_map, List.mem_filter, Prod.mk.injEq,
    decide_eq_true_eq]
  constructor
  · rintro ⟨a, h1, b, ⟨h2, h3⟩, rfl, rfl⟩
    exact ⟨h1, h2, h3⟩
  · rintro ⟨h1, h2, h3⟩
    exact ⟨x, h1, y, ⟨h2, h3⟩, rfl, rfl⟩

theorem nodup_nonzeros [Zero K] [DecidableEq K] (n m : Nat) (M : Nat → Nat → K) : (nonzeros n m M).Nodup := by
  unfold nonzeros
  rw [List.nodup_flatMap]
  refine ⟨fun x _ => (List.nodup_range.filter _).map fun a b h => (Prod.mk.injEq _ _ _ _ ▸ h).2, ?_⟩
  refine (List.nodup_range (n := n)).imp fun {x x'} hne => ?_
  rw [Function.onFun, List.disjoint_left]
  intro a ha hb
  obtain ⟨y, _, rfl⟩ := List.mem_map.1 ha
  obtain ⟨y', _, h⟩ := List.mem_map.1 hb
  exact hne (Prod.mk.inj h).1.symm

end Verif.SymBasis
