import Verif.Transfer.Props
/-
Transfer operators of width zero: `get_Top_w0_spec`.
-/
namespace Verif.Transfer
open Tensor Ctm Ctm.Spec Spec Corrf.Spec
set_option linter.unusedSimpArgs false

/-- Two-index tensor with entries `f`. -/
def Rep2 (s : Nat × Nat) (E : Tensor ℂ) (f : Vec2) : Prop := E.shape = [s.1, s.2] ∧ ∀ x z, x < s.1 → z < s.2 → E.val [x, z] = f x z

theorem core_up {X X' M Z Z' : Nat} {T1 E T2 : Tensor ℂ} (h1 : T1.shape = [X', X, M]) (hE : E.shape = [X, Z]) (h2 : T2.shape = [Z', M, Z]) :
    ∃ R, (tensordot [1] [0] T1 E >>= fun E => tensordot [1, 2] [1, 2] E T2) = some R ∧ R.shape = [X', Z'] ∧ ∀ x' z', x' < X' → z' < Z' →
      R.val [x', z'] = ∑ x ∈ Finset.range X, ∑ z ∈ Finset.range Z, ∑ m ∈ Finset.range M, E.val [x, z] * T1.val [x', x, m] * T2.val [z', m, z] := by
  obtain ⟨dim, hdim⟩ : ∃ dim : Nat → Nat, dim = fun l => [X, Z, M, X', Z'].getD l 0 := ⟨_, rfl⟩
  have d1 := Denotes.leaf dim T1 [[3], [0], [2]] (by simp [gdim, hdim, h1])
  have dE := Denotes.leaf dim E [[0], [1]] (by simp [gdim, hdim, hE])
  have d2 := Denotes.leaf dim T2 [[4], [2], [1]] (by simp [gdim, hdim, h2])
  obtain ⟨x1, e1, q1⟩ := Denotes.tensordot d1 dE [1] [0] (dotOK_iff (by decide))
  obtain ⟨x2, e2, q2⟩ := Denotes.tensordot q1 d2 [1, 2] [1, 2] (dotOK_iff (by decide))
  have q : Denotes dim x2 [[3], [4]] [0, 1, 2] [0, 1, 2, 3, 4, 5] (fun σ => E.val [σ 0, σ 1] * T1.val [σ 3, σ 0, σ 2] * T2.val [σ 4, σ 2, σ 1]) :=
    q2.congr (by decide) (by decide) (fun σ => by simp only [List.map_cons, List.map_nil, gidx_single] <;> ring)
  refine ⟨x2, by simp [e1, e2], by rw [q.shape]; simp [gdim, hdim], ?_⟩
  intro x' z' hx' hz'
  have hv := q.val (fun l => [0, 0, 0, x', z'].getD l 0) (by
    rw [hdim]
    simp only [List.flatten_cons, List.flatten_nil, List.cons_append, List.nil_append, List.mem_cons, List.not_mem_nil, or_false]
    rintro l (rfl | rfl) <;> simpa)
  rw [hdim] at hv
  simp [gidx, ravel, sumOver, Function.update] at hv
  exact hv

theorem core_left {X X' M Z Z' : Nat} {T1 E T2 : Tensor ℂ} (h1 : T1.shape = [X', M, X]) (hE : E.shape = [X, Z]) (h2 : T2.shape = [M, Z', Z]) :
    ∃ R, (tensordot [2] [0] T1 E >>= fun E => tensordot [1, 2] [0, 2] E T2) = some R ∧ R.shape = [X', Z'] ∧ ∀ x' z', x' < X' → z' < Z' →
      R.val [x', z'] = ∑ x ∈ Finset.range X, ∑ z ∈ Finset.range Z, ∑ m ∈ Finset.range M, E.val [x, z] * T1.val [x', m, x] * T2.val [m, z', z] := by
  obtain ⟨dim, hdim⟩ : ∃ dim : Nat → Nat, dim = fun l => [X, Z, M, X', Z'].getD l 0 := ⟨_, rfl⟩
  have d1 := Denotes.leaf dim T1 [[3], [2], [0]] (by simp [gdim, hdim, h1])
  have dE := Denotes.leaf dim E [[0], [1]] (by simp [gdim, hdim, hE])
  have d2 := Denotes.leaf dim T2 [[2], [4], [1]] (by simp [gdim, hdim, h2])
  obtain ⟨x1, e1, q1⟩ := Denotes.tensordot d1 dE [2] [0] (dotOK_iff (by decide))
  obtain ⟨x2, e2, q2⟩ := Denotes.tensordot q1 d2 [1, 2] [0, 2] (dotOK_iff (by decide))
  have q : Denotes dim x2 [[3], [4]] [0, 1, 2] [0, 1, 2, 3, 4, 5] (fun σ => E.val [σ 0, σ 1] * T1.val [σ 3, σ 2, σ 0] * T2.val [σ 2, σ 4, σ 1]) :=
    q2.congr (by decide) (by decide) (fun σ => by simp only [List.map_cons, List.map_nil, gidx_single] <;> ring)
  refine ⟨x2, by simp [e1, e2], by rw [q.shape]; simp [gdim, hdim], ?_⟩
  intro x' z' hx' hz'
  have hv := q.val (fun l => [0, 0, 0, x', z'].getD l 0) (by
    rw [hdim]
    simp only [List.flatten_cons, List.flatten_nil, List.cons_append, List.nil_append, List.mem_cons, List.not_mem_nil, or_false]
    rintro l (rfl | rfl) <;> simpa)
  rw [hdim] at hv
  simp [gidx, ravel, sumOver, Function.update] at hv
  exact hv

/-- Index pairs at the cut in front of `c`. -/
def cutSet0 (D : Dims) (d : Dir) (c : Coord) : Finset (Nat × Nat) := Finset.range (cut0 D d c).1 ×ˢ Finset.range (cut0 D d c).2

/-- Matrix element of one pair of half-row tensors. -/
noncomputable def siteKer0 (N : Tensors ℂ) (D : Dims) (d : Dir) (c : Coord) (j i : Nat × Nat) : ℂ :=
  ∑ m ∈ Finset.range (sides D d c).1, first N d c j.1 m i.1 * second N d (across d c) j.2 m i.2

theorem step0_chain (N : Tensors ℂ) (D : Dims) (d : Dir) (c : Coord) (E : Vec2) (x z : Nat) :
    step0 N D d c E x z = ∑ j ∈ cutSet0 D d c, E j.1 j.2 * siteKer0 N D d c j (x, z) := by
  rw [cutSet0, Finset.sum_product]
  simp only [step0, siteKer0, Finset.mul_sum]
  exact Finset.sum_congr rfl (fun _ _ => Finset.sum_congr rfl (fun _ _ => Finset.sum_congr rfl (fun _ _ => by ring)))

theorem grow0_chain (N : Tensors ℂ) (D : Dims) (d : Dir) : ∀ (n : Nat) (c : Coord) (E : Vec2) (i : Nat × Nat),
    grow0 N D d c n E i.1 i.2 = chain (cutSet0 D d) (siteKer0 N D d) (nxt d) n c (fun j => E j.1 j.2) i
  | 0, _, _, _ => rfl
  | n + 1, c, E, i => by
    simp only [grow0, chain]
    rw [grow0_chain N D d n]
    congr 1
    funext k
    exact step0_chain N D d c E _ _

theorem mem_box2 {s : Nat × Nat} {A : Finset (Nat × Nat)} (hA : A = Finset.range s.1 ×ˢ Finset.range s.2) (k : Nat × Nat) : k ∈ A ↔ k.1 < s.1 ∧ k.2 < s.2 := by
  rw [hA]; simp only [Finset.mem_product, Finset.mem_range]

/-- Pairs of indices at a cut. -/
def idxEquiv2 (s : Nat × Nat) (A : Finset (Nat × Nat)) (hA : A = Finset.range s.1 ×ˢ Finset.range s.2) : Idx2 s ≃ A where
  toFun i := ⟨(i.1.1, i.2.1), (mem_box2 hA _).2 ⟨i.1.2, i.2.2⟩⟩
  invFun k := (⟨k.1.1, ((mem_box2 hA _).1 k.2).1⟩, ⟨k.1.2, ((mem_box2 hA _).1 k.2).2⟩)
  left_inv _ := rfl
  right_inv _ := rfl

theorem strip0_reindex (N : Tensors ℂ) (D : Dims) (d : Dir) (c : Coord) (n : Nat) :
    cmat (cutSet0 D d) (siteKer0 N D d) (nxt d) n c (cutSet0 D d c) (cutSet0 D d c) =
      Matrix.reindex (idxEquiv2 (cut0 D d c) (cutSet0 D d c) rfl) (idxEquiv2 (cut0 D d c) (cutSet0 D d c) rfl) (strip0 N D d c n (cut0 D d c) (cut0 D d c)) := by
  ext i j
  rw [Matrix.reindex_apply, Matrix.submatrix_apply, cmat, strip0]
  refine Eq.trans ?_ (grow0_chain N D d n c _ (i.1)).symm
  congr 1
  funext k
  obtain ⟨⟨j1, j2⟩, hj⟩ := j
  obtain ⟨k1, k2⟩ := k
  simp [idxEquiv2, Pi.single_apply]
  congr

theorem strip0_charpoly (N : Tensors ℂ) (D : Dims) (d : Dir) (c : Coord) (n : Nat) :
    (cmat (cutSet0 D d) (siteKer0 N D d) (nxt d) n c (cutSet0 D d c) (cutSet0 D d c)).charpoly = (strip0 N D d c n (cut0 D d c) (cut0 D d c)).charpoly := by
  rw [strip0_reindex, Matrix.charpoly_reindex]

theorem strip0_charpoly' (N : Tensors ℂ) (D : Dims) (d : Dir) (c : Coord) (n : Nat) {S : Coord → Finset (Nat × Nat)} {A : Finset (Nat × Nat)} (hS : cutSet0 D d = S) (hA : cutSet0 D d c = A) :
    (cmat S (siteKer0 N D d) (nxt d) n c A A).charpoly = (strip0 N D d c n (cut0 D d c) (cut0 D d c)).charpoly := by
  subst hS hA
  exact strip0_charpoly N D d c n

/-- The directions for which `apply_TM_0sO` is written. -/
def base : Dir → Dir
  | .left | .right => .left
  | .up | .down => .up

theorem applyTM0_base (st : State ℂ) (env : Env ℂ) (d : Dir) : applyTM0 st env d = applyTM0 st env (base d) := by cases d <;> rfl

section
variable {D : Dims} {st : State ℂ} {env : Env ℂ} {N : Tensors ℂ}

theorem applyTM0_rep (ht : Tiling st) (he : FitsEnv D st env) (hN : Reads st env N) (d : Dir) (hd : d = .left ∨ d = .up) (c : Coord) {E : Tensor ℂ} {f : Vec2}
    (hE : Rep2 (cut0 D d c) E f) : ∃ R, applyTM0 st env d c E = some R ∧ Rep2 (cut0 D d (ahead d c 1)) R (step0 N D d c f) := by
  have s1 := Corrf.shape_of (he.tu c) (hN.tu c)
  have s2 := Corrf.shape_of (he.td (c.1, c.2 - 1)) (hN.td (c.1, c.2 - 1))
  have s3 := Corrf.shape_of (he.tl c) (hN.tl c)
  have s4 := Corrf.shape_of (he.tr (c.1 - 1, c.2)) (hN.tr (c.1 - 1, c.2))
  rcases hd with rfl | rfl
  · have hv : st.vts ((st.vts c).1, (st.vts c).2 - 1) = st.vts (c.1, c.2 - 1) := by
      have := ht.shift c (0, -1)
      simpa [Int.sub_eq_add_neg] using this
    have e2 : dn (c.1, c.2 - 1) = c := by simp [dn]
    rw [e2] at s2
    obtain ⟨R, e, s, q⟩ := core_left s1 hE.1 s2
    refine ⟨R, ?_, ?_, ?_⟩
    · simp only [applyTM0, hN.tu c, hv, hN.td (c.1, c.2 - 1), Option.bind_eq_bind, Option.bind_some]
      exact e
    · rw [s]; simp [cut0, cut, across, ahead, Dir.vec, rt]
    · intro x z hx hz
      rw [q x z (by simpa [cut0, cut, across, ahead, Dir.vec, rt] using hx) (by simpa [cut0, cut, across, ahead, Dir.vec, rt] using hz), step0]
      refine Finset.sum_congr rfl (fun i hi => Finset.sum_congr rfl (fun k hk => Finset.sum_congr rfl (fun m _ => ?_)))
      rw [hE.2 i k (Finset.mem_range.1 hi) (Finset.mem_range.1 hk)]
      rfl
  · have hv : st.vts ((st.vts c).1 - 1, (st.vts c).2) = st.vts (c.1 - 1, c.2) := by
      have := ht.shift c (-1, 0)
      simpa [Int.sub_eq_add_neg] using this
    have e2 : rt (c.1 - 1, c.2) = c := by simp [rt]
    rw [e2] at s4
    obtain ⟨R, e, s, q⟩ := core_up s3 hE.1 s4
    refine ⟨R, ?_, ?_, ?_⟩
    · simp only [applyTM0, hN.tl c, hv, hN.tr (c.1 - 1, c.2), Option.bind_eq_bind, Option.bind_some]
      exact e
    · rw [s]; simp [cut0, cut, across, ahead, Dir.vec, dn]
    · intro x z hx hz
      rw [q x z (by simpa [cut0, cut, across, ahead, Dir.vec, dn] using hx) (by simpa [cut0, cut, across, ahead, Dir.vec, dn] using hz), step0]
      refine Finset.sum_congr rfl (fun i hi => Finset.sum_congr rfl (fun k hk => Finset.sum_congr rfl (fun m _ => ?_)))
      rw [hE.2 i k (Finset.mem_range.1 hi) (Finset.mem_range.1 hk)]
      rfl

/-- The loop: maps of direction `d` applied while moving in direction `d'`. -/
theorem iter0_rep (ht : Tiling st) (he : FitsEnv D st env) (hN : Reads st env N) (d : Dir) (hd : d = .left ∨ d = .up) (d' : Dir)
    (hS : ∀ c, cut0 D d (nxt d' c) = cut0 D d (nxt d c)) : ∀ (n : Nat) (c : Coord) {E : Tensor ℂ} {f : Vec2},
    Rep2 (cut0 D d c) E f → ∃ R, iter (applyTM0 st env d) d' n c E = some R ∧
      Rep2 (cut0 D d ((nxt d')^[n] c)) R (fun x z => chain (cutSet0 D d) (siteKer0 N D d) (nxt d') n c (fun j => f j.1 j.2) (x, z))
  | 0, c, E, f, hE => ⟨E, rfl, hE⟩
  | n + 1, c, E, f, hE => by
    obtain ⟨R, e, q⟩ := applyTM0_rep ht he hN d hd c hE
    have q2 : Rep2 (cut0 D d (nxt d' c)) R (step0 N D d c f) := by rw [hS]; exact q
    obtain ⟨R', e', q'⟩ := iter0_rep ht he hN d hd d' hS n (nxt d' c) q2
    refine ⟨R', ?_, q'.1, ?_⟩
    · simp only [iter, e, Option.bind_eq_bind, Option.bind_some, Corrf.shift_vec]
      exact e'
    · intro x z hx hz
      rw [q'.2 x z hx hz]
      simp only [chain]
      congr 1
      funext k
      exact step0_chain N D d c f _ _

theorem ravel_bij2 (a b n : Nat) (hn : a * b = n) :
    Set.BijOn (fun k : Nat × Nat => ravel [a, b] [k.1, k.2]) (Finset.range a ×ˢ Finset.range b : Finset (Nat × Nat)) (Set.Iio n) := by
  have hp : [a, b].prod = n := by simp [← hn]
  have hin : ∀ k : Nat × Nat, k ∈ Finset.range a ×ˢ Finset.range b → InB [a, b] [k.1, k.2] := by
    intro k hk
    simp only [Finset.mem_product, Finset.mem_range] at hk
    exact .cons hk.1 (.cons hk.2 .nil)
  refine ⟨fun k hk => ?_, fun k hk k' hk' h => ?_, fun i hi => ?_⟩
  · have := ravel_lt (hin k hk)
    rwa [hp] at this
  · have := congrArg (unravel [a, b]) h
    simp only [unravel_ravel (hin k hk), unravel_ravel (hin k' hk')] at this
    obtain ⟨k1, k2⟩ := k
    obtain ⟨l1, l2⟩ := k'
    simpa using this
  · obtain ⟨h1, h2⟩ := inB_unravel [a, b] i (by rw [hp]; exact hi)
    generalize unravel [a, b] i = u at h1 h2
    cases h1 with
    | cons hx h1 => cases h1 with
      | cons hy h1 => cases h1 with
        | nil =>
          rename_i x y
          exact ⟨(x, y), by simpa using ⟨hx, hy⟩, h2⟩

theorem mv0_multiplies (ht : Tiling st) (he : FitsEnv D st env) (hN : Reads st env N) (d : Dir)
    (hS : ∀ c, cut0 D (base d) (nxt d c) = cut0 D (base d) (nxt (base d) c)) (c : Coord) (hc : cut0 D (base d) ((nxt d)^[cellLen st d] c) = cut0 D (base d) c) :
    ∃ e : cutSet0 D (base d) c ≃ Fin ((cut0 D (base d) c).1 * (cut0 D (base d) c).2),
      Multiplies (mv0 st env d c (cut0 D (base d) c).1 (cut0 D (base d) c).2)
        (Matrix.reindex e e (cmat (cutSet0 D (base d)) (siteKer0 N D (base d)) (nxt d) (cellLen st d) c (cutSet0 D (base d) c) (cutSet0 D (base d) c))) := by
  have hd : base d = .left ∨ base d = .up := by cases d <;> simp [base]
  obtain ⟨e, _, hM⟩ := multiplies_of (A := cutSet0 D (base d) c) _ (ravel_bij2 _ _ _ rfl) (mv0 st env d c (cut0 D (base d) c).1 (cut0 D (base d) c).2)
    (cmat (cutSet0 D (base d)) (siteKer0 N D (base d)) (nxt d) (cellLen st d) c (cutSet0 D (base d) c) (cutSet0 D (base d) c)) (by
      intro v hv
      have hmem : ∀ k ∈ cutSet0 D (base d) c, InB [(cut0 D (base d) c).1, (cut0 D (base d) c).2] [k.1, k.2] := by
        intro k hk
        have := (mem_box2 (s := cut0 D (base d) c) rfl k).1 hk
        exact .cons this.1 (.cons this.2 .nil)
      obtain ⟨V, eV, hV⟩ : ∃ V, view [(cut0 D (base d) c).1, (cut0 D (base d) c).2] v = some V ∧
          Rep2 (cut0 D (base d) c) V (fun x z => v.val [ravel [(cut0 D (base d) c).1, (cut0 D (base d) c).2] [x, z]]) := by
        refine ⟨_, by rw [view, if_pos (by rw [hv]; simp)], rfl, ?_⟩
        intro x z hx hz
        have hlt := ravel_lt (hmem (x, z) ((mem_box2 (s := cut0 D (base d) c) rfl _).2 ⟨hx, hz⟩))
        simp only [hv]
        congr 1
        have := unravel_ravel (shape := [(cut0 D (base d) c).1 * (cut0 D (base d) c).2]) (idx := [ravel [(cut0 D (base d) c).1, (cut0 D (base d) c).2] [x, z]])
          (.cons (by simpa using hlt) .nil)
        rw [← this]
        congr 1
        simp [ravel]
      obtain ⟨R, eR, hR⟩ := iter0_rep ht he hN (base d) hd d hS (cellLen st d) c hV
      rw [hc] at hR
      refine ⟨⟨[(cut0 D (base d) c).1 * (cut0 D (base d) c).2], fun idx => R.val (unravel R.shape (ravel [(cut0 D (base d) c).1 * (cut0 D (base d) c).2] idx))⟩, ?_, rfl, ?_⟩
      · rw [← applyTM0_base] at eR
        simp only [mv0, eV, eR, Option.bind_eq_bind, Option.bind_some]
        rw [view, if_pos (by rw [hR.1]; simp)]
      · intro k
        have hk := hmem k.1 k.2
        have e1 : ravel [(cut0 D (base d) c).1 * (cut0 D (base d) c).2] [ravel [(cut0 D (base d) c).1, (cut0 D (base d) c).2] [k.1.1, k.1.2]] =
            ravel [(cut0 D (base d) c).1, (cut0 D (base d) c).2] [k.1.1, k.1.2] := by simp [ravel]
        have hb := (mem_box2 (s := cut0 D (base d) c) rfl _).1 k.2
        show R.val (unravel R.shape (ravel _ [ravel _ _])) = _
        rw [e1, hR.1, unravel_ravel hk, hR.2 _ _ hb.1 hb.2]
        refine Eq.trans (chain_expand (S := cutSet0 D (base d)) _ c _ k.1 (by rw [cutSet0, hc]; exact k.2)) ?_
        rw [← Finset.sum_coe_sort (cutSet0 D (base d) c)]
        exact Finset.sum_congr rfl (fun j _ => mul_comm _ _))
  exact ⟨e, hM⟩

/-! ### Periods -/

theorem vts_across (ht : Tiling st) (d : Dir) {c c' : Coord} (h : st.vts c = st.vts c') : st.vts (across d c) = st.vts (across d c') := by
  have a := ht.shift c (0, -1)
  have b := ht.shift c' (0, -1)
  have a' := ht.shift c (-1, 0)
  have b' := ht.shift c' (-1, 0)
  rw [h] at a a'
  simp only [add_zero] at a b a' b'
  cases d <;> simp only [across, Int.sub_eq_add_neg] <;> first | exact a.symm.trans b | exact a'.symm.trans b'

theorem cut0_vts (ht : Tiling st) (hs : FitsState D st) (he : FitsEnv D st env) (d : Dir) {c c' : Coord} (h : st.vts c = st.vts c') : cut0 D d c = cut0 D d c' := by
  rw [cut0, cut0, cut_vts ht hs he d h, cut_vts ht hs he d (vts_across ht d h)]

theorem cutSet0_vts (ht : Tiling st) (hs : FitsState D st) (he : FitsEnv D st env) (d : Dir) {c c' : Coord} (h : st.vts c = st.vts c') : cutSet0 D d c = cutSet0 D d c' := by
  rw [cutSet0, cutSet0, cut0_vts ht hs he d h]

theorem siteKer0_vts (ht : Tiling st) (hs : FitsState D st) (hN : Reads st env N) (d : Dir) {c c' : Coord} (h : st.vts c = st.vts c') : siteKer0 N D d c = siteKer0 N D d c' := by
  funext j i
  simp only [siteKer0, sides_vts ht hs d h, first_vts hN d h, second_vts hN d (vts_across ht d h)]

theorem siteKer0_rev (d : Dir) (c : Coord) (i j : Nat × Nat) : siteKer0 N D (Corrf.rev d) c i j = siteKer0 N D d c j i := by
  cases d <;> rfl

theorem across_ahead (d : Dir) (c : Coord) (n : Nat) : across d (ahead d c n) = ahead d (across d c) n := by
  cases d <;> simp [across, ahead, Dir.vec, Int.sub_eq_add_neg]

theorem across_rev (d : Dir) (c : Coord) : across (Corrf.rev d) c = across d c := by cases d <;> rfl

theorem cut0_rev (d : Dir) (c : Coord) : cut0 D (Corrf.rev d) c = cut0 D d (ahead d c 1) := by
  rw [cut0, cut0, cut_rev, cut_rev, across_rev, across_ahead]

/-- Same nonzero eigenvalues and same size: same eigenvalues. -/
theorem roots_of_same {ι κ : Type} [Fintype ι] [DecidableEq ι] [Fintype κ] [DecidableEq κ] {M : Matrix ι ι ℂ} {M' : Matrix κ κ ℂ} (h : SameNonzero M M')
    (hc : Fintype.card ι = Fintype.card κ) : M.charpoly.roots = M'.charpoly.roots := by
  have c1 : Multiset.card M.charpoly.roots = Fintype.card ι := by
    rw [IsAlgClosed.card_roots_eq_natDegree, Matrix.charpoly_natDegree_eq_dim]
  have c2 : Multiset.card M'.charpoly.roots = Fintype.card κ := by
    rw [IsAlgClosed.card_roots_eq_natDegree, Matrix.charpoly_natDegree_eq_dim]
  have key : ∀ s : Multiset ℂ, s = s.filter (· ≠ 0) + Multiset.replicate (Multiset.card s - Multiset.card (s.filter (· ≠ 0))) 0 := by
    intro s
    have e := Multiset.filter_add_not (· ≠ 0) s
    have h0 : s.filter (fun x => ¬ x ≠ 0) = Multiset.replicate (Multiset.card (s.filter (fun x => ¬ x ≠ 0))) 0 := by
      rw [Multiset.eq_replicate]
      exact ⟨rfl, fun b hb => by simpa using (Multiset.mem_filter.1 hb).2⟩
    have hcard := congrArg Multiset.card e
    rw [Multiset.card_add] at hcard
    rw [show Multiset.card s - Multiset.card (s.filter (· ≠ 0)) = Multiset.card (s.filter (fun x => ¬ x ≠ 0)) by omega, ← h0, e]
  rw [key M.charpoly.roots, key M'.charpoly.roots, c1, c2, hc, show M.charpoly.roots.filter (· ≠ 0) = M'.charpoly.roots.filter (· ≠ 0) from h]

theorem Spectrum.congr_same {ι κ : Type} [Fintype ι] [DecidableEq ι] [Fintype κ] [DecidableEq κ] {M : Matrix ι ι ℂ} {M' : Matrix κ κ ℂ} (h : SameNonzero M M')
    (hc : Fintype.card ι = Fintype.card κ) {n : Nat} {L : List (ℝ × ℝ)} (hM : Spectrum M n L) : Spectrum M' n L := by
  obtain ⟨h1, s, s0, h2⟩ := hM
  refine ⟨h1, s, s0, ?_⟩
  rw [Leading, ← roots_of_same h hc]; exact h2

theorem period0_shift (ht : Tiling st) (hs : FitsState D st) (he : FitsEnv D st env) (hN : Reads st env N) (hp : Periodic st) (d : Dir) (hc : 0 < cellLen st d)
    (c : Coord) (m : Nat) : SameNonzero (period0 st N D d c) (period0 st N D d (ahead d c m)) := by
  have h := cmat_shift_iter (S := cutSet0 D d) (ker := siteKer0 N D d) (nx := nxt d) hc (fun c => by rw [nxt_iter]; exact cutSet0_vts ht hs he d (vts_period hp d c))
    (fun c => by rw [nxt_iter]; exact siteKer0_vts ht hs hN d (vts_period hp d c)) c m
  rw [nxt_iter] at h
  rw [SameNonzero, strip0_charpoly, strip0_charpoly] at h
  exact h

/-- Maps of the direction `rev d`, applied while moving along `d`, in cells of one or two sites. -/
theorem period0_swapped (ht : Tiling st) (hs : FitsState D st) (he : FitsEnv D st env) (hN : Reads st env N) (hp : Periodic st) (d : Dir)
    (hc : cellLen st d = 1 ∨ cellLen st d = 2) (c : Coord) (B : Finset (Nat × Nat)) (hB : ∀ d, cutSet0 D d = fun _ => B) :
    SameNonzero (cmat (fun _ => B) (siteKer0 N D (Corrf.rev d)) (nxt d) (cellLen st d) c B B) (period0 st N D d c) := by
  have hrev := fun n => cmat_reverse (S := fun _ => B) (ker := siteKer0 N D (Corrf.rev d)) (nx := nxt (Corrf.rev d)) (S' := fun _ => B) (ker' := siteKer0 N D d) (nx' := nxt d)
    (fun _ => rfl) (fun c i j => (siteKer0_rev d c j i).symm) (fun c => by have := ahead_rev (Corrf.rev d) c 1; rwa [rev_rev] at this) (fun c => ahead_rev d c 1) n c B rfl
  have hch := fun c n => strip0_charpoly' N D d c n (hB d) (congrFun (hB d) c)
  rcases hc with h1 | h2
  · refine sameNonzero_of_charpoly ?_
    rw [period0, h1, ← hch]
    have e := hrev 0
    rw [show (cmat (fun _ => B) (siteKer0 N D d) (nxt d) 1 c B B) = _ from e, Matrix.charpoly_transpose]
    rfl
  · have e := hrev 1
    have hk : siteKer0 N D (Corrf.rev d) (nxt d c) = siteKer0 N D (Corrf.rev d) (nxt (Corrf.rev d) c) := by
      refine siteKer0_vts ht hs hN _ ?_
      have := vts_period hp d (nxt (Corrf.rev d) c)
      rw [h2] at this
      rw [← this, Corrf.ahead_ahead d _ 1 1 |>.symm]
      have := ahead_rev (Corrf.rev d) c 1
      rw [rev_rev] at this
      rw [nxt, this]
    have e2 : cmat (fun _ => B) (siteKer0 N D (Corrf.rev d)) (nxt d) 2 c B B = cmat (fun _ => B) (siteKer0 N D (Corrf.rev d)) (nxt (Corrf.rev d)) 2 c B B := by
      ext i j
      simp only [cmat, chain, hk]
    have h3 : SameNonzero (cmat (fun _ => B) (siteKer0 N D (Corrf.rev d)) (nxt d) 2 c B B) (period0 st N D d (nxt (Corrf.rev d) c)) := by
      refine sameNonzero_of_charpoly ?_
      rw [period0, h2, ← hch, e2, show (cmat (fun _ => B) (siteKer0 N D d) (nxt d) 2 (nxt (Corrf.rev d) c) B B) = _ from e, Matrix.charpoly_transpose]
    rw [h2]
    refine h3.trans ?_
    have h4 := period0_shift ht hs he hN hp d (by omega) (nxt (Corrf.rev d) c) 1
    have := ahead_rev (Corrf.rev d) c 1
    rw [rev_rev] at this
    rw [nxt, this] at h4
    exact h4

theorem period0_swapped' (ht : Tiling st) (hs : FitsState D st) (he : FitsEnv D st env) (hN : Reads st env N) (hp : Periodic st) (d : Dir)
    (hc : cellLen st d = 1 ∨ cellLen st d = 2) (c : Coord) {s : Nat × Nat} (hU : ∀ d c, cut0 D d c = s) {S : Coord → Finset (Nat × Nat)} {A : Finset (Nat × Nat)}
    (hS : cutSet0 D (Corrf.rev d) = S) (hA : cutSet0 D (Corrf.rev d) c = A) :
    SameNonzero (cmat S (siteKer0 N D (Corrf.rev d)) (nxt d) (cellLen st d) c A A) (period0 st N D d c) := by
  obtain ⟨B, hB⟩ : ∃ B, ∀ d, cutSet0 D d = fun _ => B := ⟨_, fun d => by funext c; rw [cutSet0, hU d c]⟩
  rw [hB] at hS hA
  subst hS hA
  exact period0_swapped ht hs he hN hp d hc c B hB

theorem card_idx2 (s : Nat × Nat) : Fintype.card (Idx2 s) = s.1 * s.2 := by simp [Idx2]

theorem card_cutSet0 (d : Dir) (c : Coord) : Fintype.card (cutSet0 D d c) = (cut0 D d c).1 * (cut0 D d c).2 := by
  rw [Fintype.card_coe, cutSet0, Finset.card_product, Finset.card_range, Finset.card_range]

/-- **C94 (left and up, any cell).** `get_Top_w0_spec` returns the `n` leading eigenvalues of the two facing environment rows (columns) over one period of the cell. Partial: the size of the second bond
is read from another tensor than the one used, so it must be the same there; and only the directions left and up. -/
theorem C94_leftup_partial {eigs : Eigs} {argsort : Argsort} (hei : Solves eigs) (har : Sorts argsort) (ht : Tiling st) (hs : FitsState D st) (he : FitsEnv D st env) (hN : Reads st env N)
    (hp : Periodic st) (n : Nat) (c : Coord) (d : Dir) (hd : d = .left ∨ d = .up) (hchi : (cut D d (across d c)).2.2 = (cut D d c).2.2)
    {L : List (ℝ × ℝ)} (h : topSpec0 eigs argsort n c d st env = .ok L) : Spectrum (period0 st N D d c) n L := by
  have hb : base d = d := by rcases hd with rfl | rfl <;> rfl
  have hper : cut0 D d ((nxt d)^[cellLen st d] c) = cut0 D d c := by rw [nxt_iter]; exact cut0_vts ht hs he d (vts_period hp d c)
  have q := mv0_multiplies ht he hN d (fun c => by rw [hb]) c (by rw [hb]; exact hper)
  rw [hb] at q
  obtain ⟨e, hM⟩ := q
  unfold topSpec0 at h
  rw [getChis_ok ht he hN d c] at h
  have hx : (cut D d c).2.2 = (cut0 D d c).2 := hchi.symm
  rw [hx] at h
  obtain ⟨q, hq, h⟩ := bind_ok'.1 h
  cases lift_ok'.1 hq
  obtain ⟨r, h1, h2⟩ := bind_ok'.1 h
  cases h2
  have := (sorted_ok hei har hM h1).1
  refine Spectrum.congr ?_ this
  rw [Matrix.charpoly_reindex, strip0_charpoly]
  rfl

/-- **C94 (all directions).** With all environment bonds of one size, in cells of at most two sites along the direction. -/
theorem C94_partial {eigs : Eigs} {argsort : Argsort} (hei : Solves eigs) (har : Sorts argsort) (ht : Tiling st) (hs : FitsState D st) (he : FitsEnv D st env) (hN : Reads st env N)
    (hp : Periodic st) (n : Nat) (c : Coord) (d : Dir) {chi : Nat} (hU : Uniform D chi) (hl : cellLen st d = 1 ∨ cellLen st d = 2)
    {L : List (ℝ × ℝ)} (h : topSpec0 eigs argsort n c d st env = .ok L) : Spectrum (period0 st N D d c) n L := by
  have hcut : ∀ d c, cut D d c = ((cut D d c).1, (cut D d c).2.1, (cut D d c).2.2) := fun _ _ => rfl
  have hc1 : ∀ d c, (cut D d c).1 = chi := fun d c => by cases d <;> simp [cut, hU c, hU (rt c), hU (dn c)]
  have hc2 : ∀ d c, (cut D d c).2.2 = chi := fun d c => by cases d <;> simp [cut, hU c, hU (rt c), hU (dn c)]
  have hc0 : ∀ d c, cut0 D d c = (chi, chi) := fun d c => by rw [cut0, hc1, hc2]
  by_cases hd : d = .left ∨ d = .up
  · exact C94_leftup_partial hei har ht hs he hN hp n c d hd (by rw [hc2, hc2]) h
  · have hb : base d = Corrf.rev d := by cases d <;> first | rfl | simp at hd
    have q := mv0_multiplies ht he hN d (fun c => by rw [hc0, hc0]) c (by rw [hc0, hc0])
    rw [hb] at q
    obtain ⟨e, hM⟩ := q
    unfold topSpec0 at h
    rw [getChis_ok ht he hN d c] at h
    have hx : ((cut D d c).1, (cut D d c).2.2) = ((cut0 D (Corrf.rev d) c).1, (cut0 D (Corrf.rev d) c).2) := by rw [hc0, hc1, hc2]
    rw [hx] at h
    obtain ⟨q, hq, h⟩ := bind_ok'.1 h
    cases lift_ok'.1 hq
    obtain ⟨r, h1, h2⟩ := bind_ok'.1 h
    cases h2
    have := (sorted_ok hei har hM h1).1
    refine Spectrum.congr_same (period0_swapped' ht hs he hN hp d hl c hc0 rfl rfl) ?_ (Spectrum.congr (Matrix.charpoly_reindex e _) this)
    rw [card_cutSet0, card_idx2, hc0, hc0]

/-- **C94.** In the situation of `C94_partial` it fails only if the solver does or if the operator has no eigenvalue other than zero. -/
theorem C94_defined {eigs : Eigs} {argsort : Argsort} (hei : Solves eigs) (har : Sorts argsort) (ht : Tiling st) (hs : FitsState D st) (he : FitsEnv D st env) (hN : Reads st env N)
    (hp : Periodic st) (n : Nat) (c : Coord) (d : Dir) {chi : Nat} (hU : Uniform D chi) (hl : cellLen st d = 1 ∨ cellLen st d = 2) (hn : 0 < n)
    (hz : ∃ x ∈ (period0 st N D d c).charpoly.roots, x ≠ 0)
    (hsol : ∀ f (M : Matrix (Fin (chi * chi)) (Fin (chi * chi)) ℂ), Multiplies f M → (eigs false (chi * chi) f n).isSome) :
    ∃ L, topSpec0 eigs argsort n c d st env = .ok L := by
  have hc1 : ∀ d c, (cut D d c).1 = chi := fun d c => by cases d <;> simp [cut, hU c, hU (rt c), hU (dn c)]
  have hc2 : ∀ d c, (cut D d c).2.2 = chi := fun d c => by cases d <;> simp [cut, hU c, hU (rt c), hU (dn c)]
  have hc0 : ∀ d c, cut0 D d c = (chi, chi) := fun d c => by rw [cut0, hc1, hc2]
  obtain ⟨x, hx, hx0⟩ := hz
  obtain ⟨e, hM⟩ := mv0_multiplies ht he hN d (fun c => by rw [hc0, hc0]) c (by rw [hc0, hc0])
  have hroot : x ∈ (Matrix.reindex e e (cmat (cutSet0 D (base d)) (siteKer0 N D (base d)) (nxt d) (cellLen st d) c (cutSet0 D (base d) c) (cutSet0 D (base d) c))).charpoly.roots := by
    rw [Matrix.charpoly_reindex]
    by_cases hd : d = .left ∨ d = .up
    · have hb : base d = d := by rcases hd with rfl | rfl <;> rfl
      rw [hb]
      rw [strip0_charpoly]
      exact hx
    · have hb : base d = Corrf.rev d := by cases d <;> first | rfl | simp at hd
      rw [hb]
      have := period0_swapped' ht hs he hN hp d hl c hc0 rfl rfl
      rw [SameNonzero] at this
      have h1 := (Multiset.mem_filter (p := fun y => y ≠ 0)).2 ⟨hx, hx0⟩
      first
        | (rw [this] at h1; exact (Multiset.mem_filter.1 h1).1)
        | (rw [← this] at h1; exact (Multiset.mem_filter.1 h1).1)
  have hcc : (cut0 D (base d) c).1 * (cut0 D (base d) c).2 = chi * chi := by rw [hc0]
  obtain ⟨r, hr⟩ := sorted_defined hei har (b := false) hM hn ⟨x, hroot, hx0⟩ (by
    revert hM
    generalize Matrix.reindex e e _ = M
    clear hroot e
    revert M
    rw [hc0]
    exact fun M hM => hsol _ M hM)
  refine ⟨r.1, ?_⟩
  unfold topSpec0
  rw [getChis_ok ht he hN d c]
  have hx : ((cut D d c).1, (cut D d c).2.2) = ((cut0 D (base d) c).1, (cut0 D (base d) c).2) := by rw [hc0, hc1, hc2]
  rw [hx]
  exact bind_ok'.2 ⟨_, lift_ok'.2 rfl, bind_ok'.2 ⟨r, hr, rfl⟩⟩

end
end Verif.Transfer
