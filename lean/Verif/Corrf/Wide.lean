import Verif.Corrf.Pair
/-
The contractions of `get_edge_2` and `apply_TM_2sO_2sChannel` as explicit sums. Generated by bookkeeping of labels, checked by the kernel.
-/
namespace Verif.Corrf
open Tensor Ctm Ctm.Spec
set_option linter.unusedSimpArgs false
set_option linter.unusedSectionVars false
set_option linter.unnecessarySeqFocus false
set_option linter.unusedTactic false
set_option linter.unreachableTactic false
variable {K : Type} [RCLike K]

/-- A tensor of rank four with the given entries. -/
def RepW (s : Nat × Nat × Nat × Nat) (E : Tensor K) (f : Spec.Vec4 K) : Prop :=
  E.shape = [s.1, s.2.1, s.2.2.1, s.2.2.2] ∧ ∀ x y w z, x < s.1 → y < s.2.1 → w < s.2.2.1 → z < s.2.2.2 → E.val [x, y, w, z] = f x y w z

theorem wideCore_right_none {X Y W Z M J N X' Y' W' Z' : Nat} {T1 E A G T2 : Tensor K} (h1 : T1.shape = [X, M, X']) (hE : E.shape = [X, Y, W, Z])
    (hA : A.shape = [M, Y, J, Y']) (hB : G.shape = [J, W, N, W']) (h2 : T2.shape = [N, Z, Z']) :
    ∃ R, wideCore .right true T1 E A G T2 = some R ∧ R.shape = [X', Y', W', Z'] ∧
      ∀ x' y' w' z', x' < X' → y' < Y' → w' < W' → z' < Z' → R.val [x', y', w', z'] = ∑ x ∈ Finset.range X, ∑ y ∈ Finset.range Y, ∑ w ∈ Finset.range W, ∑ z ∈ Finset.range Z, ∑ m ∈ Finset.range M, ∑ k ∈ Finset.range J, ∑ n ∈ Finset.range N, 
        E.val [x, y, w, z] * T1.val [x, m, x'] * A.val [m, y, k, y'] * G.val [k, w, n, w'] * T2.val [n, z, z'] := by
  obtain ⟨dim, hdim⟩ : ∃ dim : Nat → Nat, dim = fun l => [X, Y, W, Z, M, J, N, X', Y', W', Z'].getD l 0 := ⟨_, rfl⟩
  have d1 := Denotes.leaf dim T1 [[0], [4], [7]] (by simp [gdim, hdim, h1])
  have dE := Denotes.leaf dim E [[0], [1], [2], [3]] (by simp [gdim, hdim, hE])
  have dA := Denotes.leaf dim A [[4], [1], [5], [8]] (by simp [gdim, hdim, hA])
  have dB := Denotes.leaf dim G [[5], [2], [6], [9]] (by simp [gdim, hdim, hB])
  have d2 := Denotes.leaf dim T2 [[6], [3], [10]] (by simp [gdim, hdim, h2])
  obtain ⟨x1, e1, q1⟩ := Denotes.tensordot d1 dE [0] [0] (dotOK_iff (by decide))
  obtain ⟨x2, e2, q2⟩ := Denotes.tensordot q1 dA [0, 2] [0, 1] (dotOK_iff (by decide))
  obtain ⟨x3, e3, q3⟩ := Denotes.tensordot q2 dB [1, 3] [1, 0] (dotOK_iff (by decide))
  obtain ⟨x4, e4, q4⟩ := Denotes.tensordot q3 d2 [1, 3] [1, 0] (dotOK_iff (by decide))
  have q : Denotes dim x4 [[7], [8], [9], [10]] [0, 1, 2, 3, 4, 5, 6] [0, 1, 2, 3, 4, 5, 6, 7, 8, 9, 10, 11] (fun σ => E.val [σ 0, σ 1, σ 2, σ 3] * T1.val [σ 0, σ 4, σ 7] * A.val [σ 4, σ 1, σ 5, σ 8] * G.val [σ 5, σ 2, σ 6, σ 9] * T2.val [σ 6, σ 3, σ 10]) :=
    q4.congr (by decide) (by decide) (fun σ => by simp only [List.map_cons, List.map_nil, gidx_single]; ring)
  refine ⟨x4, by simp [wideCore, e1, e2, e3, e4], by rw [q.shape]; simp [gdim, hdim], ?_⟩
  intro x' y' w' z' hx' hy' hw' hz'
  have hv := q.val (fun l => [0, 0, 0, 0, 0, 0, 0, x', y', w', z'].getD l 0) (by
    rw [hdim]
    simp only [List.flatten_cons, List.flatten_nil, List.cons_append, List.nil_append, List.mem_cons, List.not_mem_nil, or_false]
    rintro l (rfl | rfl | rfl | rfl) <;> simpa)
  rw [hdim] at hv
  simp [gidx, ravel, sumOver, Function.update] at hv
  exact hv

theorem wideCore_down_none {X Y W Z M J N X' Y' W' Z' : Nat} {T1 E A G T2 : Tensor K} (h1 : T1.shape = [X, X', M]) (hE : E.shape = [X, Y, W, Z])
    (hA : A.shape = [Y, M, Y', J]) (hB : G.shape = [W, J, W', N]) (h2 : T2.shape = [Z, N, Z']) :
    ∃ R, wideCore .down true T1 E A G T2 = some R ∧ R.shape = [X', Y', W', Z'] ∧
      ∀ x' y' w' z', x' < X' → y' < Y' → w' < W' → z' < Z' → R.val [x', y', w', z'] = ∑ x ∈ Finset.range X, ∑ y ∈ Finset.range Y, ∑ w ∈ Finset.range W, ∑ z ∈ Finset.range Z, ∑ m ∈ Finset.range M, ∑ k ∈ Finset.range J, ∑ n ∈ Finset.range N, 
        E.val [x, y, w, z] * T1.val [x, x', m] * A.val [y, m, y', k] * G.val [w, k, w', n] * T2.val [z, n, z'] := by
  obtain ⟨dim, hdim⟩ : ∃ dim : Nat → Nat, dim = fun l => [X, Y, W, Z, M, J, N, X', Y', W', Z'].getD l 0 := ⟨_, rfl⟩
  have d1 := Denotes.leaf dim T1 [[0], [7], [4]] (by simp [gdim, hdim, h1])
  have dE := Denotes.leaf dim E [[0], [1], [2], [3]] (by simp [gdim, hdim, hE])
  have dA := Denotes.leaf dim A [[1], [4], [8], [5]] (by simp [gdim, hdim, hA])
  have dB := Denotes.leaf dim G [[2], [5], [9], [6]] (by simp [gdim, hdim, hB])
  have d2 := Denotes.leaf dim T2 [[3], [6], [10]] (by simp [gdim, hdim, h2])
  obtain ⟨x1, e1, q1⟩ := Denotes.tensordot d1 dE [0] [0] (dotOK_iff (by decide))
  obtain ⟨x2, e2, q2⟩ := Denotes.tensordot q1 dA [1, 2] [1, 0] (dotOK_iff (by decide))
  obtain ⟨x3, e3, q3⟩ := Denotes.tensordot q2 dB [1, 4] [0, 1] (dotOK_iff (by decide))
  obtain ⟨x4, e4, q4⟩ := Denotes.tensordot q3 d2 [1, 4] [0, 1] (dotOK_iff (by decide))
  have q : Denotes dim x4 [[7], [8], [9], [10]] [0, 1, 2, 3, 4, 5, 6] [0, 1, 2, 3, 4, 5, 6, 7, 8, 9, 10, 11] (fun σ => E.val [σ 0, σ 1, σ 2, σ 3] * T1.val [σ 0, σ 7, σ 4] * A.val [σ 1, σ 4, σ 8, σ 5] * G.val [σ 2, σ 5, σ 9, σ 6] * T2.val [σ 3, σ 6, σ 10]) :=
    q4.congr (by decide) (by decide) (fun σ => by simp only [List.map_cons, List.map_nil, gidx_single]; ring)
  refine ⟨x4, by simp [wideCore, e1, e2, e3, e4], by rw [q.shape]; simp [gdim, hdim], ?_⟩
  intro x' y' w' z' hx' hy' hw' hz'
  have hv := q.val (fun l => [0, 0, 0, 0, 0, 0, 0, x', y', w', z'].getD l 0) (by
    rw [hdim]
    simp only [List.flatten_cons, List.flatten_nil, List.cons_append, List.nil_append, List.mem_cons, List.not_mem_nil, or_false]
    rintro l (rfl | rfl | rfl | rfl) <;> simpa)
  rw [hdim] at hv
  simp [gidx, ravel, sumOver, Function.update] at hv
  exact hv

theorem wideCore_right_op {X Y W Z M J N X' Y' W' Z' B : Nat} {T1 E A G T2 : Tensor K} (h1 : T1.shape = [X, M, X']) (hE : E.shape = [X, Y, W, Z])
    (hA : A.shape = [M, Y, J, Y', B]) (hB : G.shape = [J, W, N, W', B]) (h2 : T2.shape = [N, Z, Z']) :
    ∃ R, wideCore .right false T1 E A G T2 = some R ∧ R.shape = [X', Y', W', Z'] ∧
      ∀ x' y' w' z', x' < X' → y' < Y' → w' < W' → z' < Z' → R.val [x', y', w', z'] = ∑ x ∈ Finset.range X, ∑ y ∈ Finset.range Y, ∑ w ∈ Finset.range W, ∑ z ∈ Finset.range Z, ∑ m ∈ Finset.range M, ∑ k ∈ Finset.range J, ∑ n ∈ Finset.range N, ∑ b ∈ Finset.range B, 
        E.val [x, y, w, z] * T1.val [x, m, x'] * A.val [m, y, k, y', b] * G.val [k, w, n, w', b] * T2.val [n, z, z'] := by
  obtain ⟨dim, hdim⟩ : ∃ dim : Nat → Nat, dim = fun l => [X, Y, W, Z, M, J, N, X', Y', W', Z', B].getD l 0 := ⟨_, rfl⟩
  have d1 := Denotes.leaf dim T1 [[0], [4], [7]] (by simp [gdim, hdim, h1])
  have dE := Denotes.leaf dim E [[0], [1], [2], [3]] (by simp [gdim, hdim, hE])
  have dA := Denotes.leaf dim A [[4], [1], [5], [8], [11]] (by simp [gdim, hdim, hA])
  have dB := Denotes.leaf dim G [[5], [2], [6], [9], [11]] (by simp [gdim, hdim, hB])
  have d2 := Denotes.leaf dim T2 [[6], [3], [10]] (by simp [gdim, hdim, h2])
  obtain ⟨x1, e1, q1⟩ := Denotes.tensordot d1 dE [0] [0] (dotOK_iff (by decide))
  obtain ⟨x2, e2, q2⟩ := Denotes.tensordot q1 dA [0, 2] [0, 1] (dotOK_iff (by decide))
  obtain ⟨x3, e3, q3⟩ := Denotes.tensordot q2 dB [1, 3, 5] [1, 0, 4] (dotOK_iff (by decide))
  obtain ⟨x4, e4, q4⟩ := Denotes.tensordot q3 d2 [1, 3] [1, 0] (dotOK_iff (by decide))
  have q : Denotes dim x4 [[7], [8], [9], [10]] [0, 1, 2, 3, 4, 5, 6, 11] [0, 1, 2, 3, 4, 5, 6, 7, 8, 9, 10, 11] (fun σ => E.val [σ 0, σ 1, σ 2, σ 3] * T1.val [σ 0, σ 4, σ 7] * A.val [σ 4, σ 1, σ 5, σ 8, σ 11] * G.val [σ 5, σ 2, σ 6, σ 9, σ 11] * T2.val [σ 6, σ 3, σ 10]) :=
    q4.congr (by decide) (by decide) (fun σ => by simp only [List.map_cons, List.map_nil, gidx_single]; ring)
  refine ⟨x4, by simp [wideCore, e1, e2, e3, e4], by rw [q.shape]; simp [gdim, hdim], ?_⟩
  intro x' y' w' z' hx' hy' hw' hz'
  have hv := q.val (fun l => [0, 0, 0, 0, 0, 0, 0, x', y', w', z'].getD l 0) (by
    rw [hdim]
    simp only [List.flatten_cons, List.flatten_nil, List.cons_append, List.nil_append, List.mem_cons, List.not_mem_nil, or_false]
    rintro l (rfl | rfl | rfl | rfl) <;> simpa)
  rw [hdim] at hv
  simp [gidx, ravel, sumOver, Function.update] at hv
  exact hv

theorem wideCore_down_op {X Y W Z M J N X' Y' W' Z' B : Nat} {T1 E A G T2 : Tensor K} (h1 : T1.shape = [X, X', M]) (hE : E.shape = [X, Y, W, Z])
    (hA : A.shape = [Y, M, Y', J, B]) (hB : G.shape = [W, J, W', N, B]) (h2 : T2.shape = [Z, N, Z']) :
    ∃ R, wideCore .down false T1 E A G T2 = some R ∧ R.shape = [X', Y', W', Z'] ∧
      ∀ x' y' w' z', x' < X' → y' < Y' → w' < W' → z' < Z' → R.val [x', y', w', z'] = ∑ x ∈ Finset.range X, ∑ y ∈ Finset.range Y, ∑ w ∈ Finset.range W, ∑ z ∈ Finset.range Z, ∑ m ∈ Finset.range M, ∑ k ∈ Finset.range J, ∑ n ∈ Finset.range N, ∑ b ∈ Finset.range B, 
        E.val [x, y, w, z] * T1.val [x, x', m] * A.val [y, m, y', k, b] * G.val [w, k, w', n, b] * T2.val [z, n, z'] := by
  obtain ⟨dim, hdim⟩ : ∃ dim : Nat → Nat, dim = fun l => [X, Y, W, Z, M, J, N, X', Y', W', Z', B].getD l 0 := ⟨_, rfl⟩
  have d1 := Denotes.leaf dim T1 [[0], [7], [4]] (by simp [gdim, hdim, h1])
  have dE := Denotes.leaf dim E [[0], [1], [2], [3]] (by simp [gdim, hdim, hE])
  have dA := Denotes.leaf dim A [[1], [4], [8], [5], [11]] (by simp [gdim, hdim, hA])
  have dB := Denotes.leaf dim G [[2], [5], [9], [6], [11]] (by simp [gdim, hdim, hB])
  have d2 := Denotes.leaf dim T2 [[3], [6], [10]] (by simp [gdim, hdim, h2])
  obtain ⟨x1, e1, q1⟩ := Denotes.tensordot d1 dE [0] [0] (dotOK_iff (by decide))
  obtain ⟨x2, e2, q2⟩ := Denotes.tensordot q1 dA [1, 2] [1, 0] (dotOK_iff (by decide))
  obtain ⟨x3, e3, q3⟩ := Denotes.tensordot q2 dB [1, 4, 5] [0, 1, 4] (dotOK_iff (by decide))
  obtain ⟨x4, e4, q4⟩ := Denotes.tensordot q3 d2 [1, 4] [0, 1] (dotOK_iff (by decide))
  have q : Denotes dim x4 [[7], [8], [9], [10]] [0, 1, 2, 3, 4, 5, 6, 11] [0, 1, 2, 3, 4, 5, 6, 7, 8, 9, 10, 11] (fun σ => E.val [σ 0, σ 1, σ 2, σ 3] * T1.val [σ 0, σ 7, σ 4] * A.val [σ 1, σ 4, σ 8, σ 5, σ 11] * G.val [σ 2, σ 5, σ 9, σ 6, σ 11] * T2.val [σ 3, σ 6, σ 10]) :=
    q4.congr (by decide) (by decide) (fun σ => by simp only [List.map_cons, List.map_nil, gidx_single]; ring)
  refine ⟨x4, by simp [wideCore, e1, e2, e3, e4], by rw [q.shape]; simp [gdim, hdim], ?_⟩
  intro x' y' w' z' hx' hy' hw' hz'
  have hv := q.val (fun l => [0, 0, 0, 0, 0, 0, 0, x', y', w', z'].getD l 0) (by
    rw [hdim]
    simp only [List.flatten_cons, List.flatten_nil, List.cons_append, List.nil_append, List.mem_cons, List.not_mem_nil, or_false]
    rintro l (rfl | rfl | rfl | rfl) <;> simpa)
  rw [hdim] at hv
  simp [gidx, ravel, sumOver, Function.update] at hv
  exact hv

theorem getEdge2_up {D : Dims} {st : State K} {env : Env K} {N : Spec.Tensors K} (he : FitsEnv D st env) (hN : Spec.Reads st env N) (c : Coord) :
    ∃ E, getEdge2 st env .up c = some E ∧ RepW (D.el c, D.U c * D.U c, D.U (rt c) * D.U (rt c), D.er (rt c)) E (Spec.edge2 N D .up c) := by
  have s0 : (N.lu c).shape = _ := shape_of (he.lu c) (hN.lu c)
  have s1 : (N.tu c).shape = _ := shape_of (he.tu c) (hN.tu c)
  have s2 : (N.tu (rt c)).shape = _ := shape_of (he.tu (rt c)) (hN.tu (rt c))
  have s3 : (N.ru (rt c)).shape = _ := shape_of (he.ru (rt c)) (hN.ru (rt c))
  obtain ⟨dim, hdim⟩ : ∃ dim : Nat → Nat, dim = fun l => [D.el c, D.U c * D.U c, D.U (rt c) * D.U (rt c), D.er (rt c), D.eu c, D.eu (rt c), D.eu (rt (rt c))].getD l 0 := ⟨_, rfl⟩
  have d0 := Denotes.leaf dim (N.lu c) [[0], [4]] (by simp [gdim, hdim, s0])
  have d1 := Denotes.leaf dim (N.tu c) [[4], [1], [5]] (by simp [gdim, hdim, s1])
  have d2 := Denotes.leaf dim (N.tu (rt c)) [[5], [2], [6]] (by simp [gdim, hdim, s2])
  have d3 := Denotes.leaf dim (N.ru (rt c)) [[6], [3]] (by simp [gdim, hdim, s3])
  obtain ⟨x1, e1, q1⟩ := Denotes.tensordot d0 d1 [1] [0] (dotOK_iff (by decide))
  obtain ⟨x2, e2, q2⟩ := Denotes.tensordot q1 d2 [2] [0] (dotOK_iff (by decide))
  obtain ⟨x3, e3, q3⟩ := Denotes.tensordot q2 d3 [3] [0] (dotOK_iff (by decide))
  have q : Denotes dim x3 [[0], [1], [2], [3]] [4, 5, 6] [0, 1, 2, 3, 4, 5, 6] (fun σ => (N.lu c).val [σ 0, σ 4] * (N.tu c).val [σ 4, σ 1, σ 5] * (N.tu (rt c)).val [σ 5, σ 2, σ 6] * (N.ru (rt c)).val [σ 6, σ 3]) :=
    q3.congr (by decide) (by decide) (fun σ => by simp only [List.map_cons, List.map_nil, gidx_single] <;> ring)
  have hsh : shift c (1, 0) = rt c := by simp [shift, rt]
  refine ⟨x3, by simp [getEdge2, Dir.vec, hsh, hN.lu c, hN.tu c, hN.tu (rt c), hN.ru (rt c), e1, e2, e3], by rw [q.shape]; simp [gdim, hdim], ?_⟩
  intro x y w z hx hy hw hz
  have hv := q.val (fun l => [x, y, w, z].getD l 0) (by
    rw [hdim]
    simp only [List.flatten_cons, List.flatten_nil, List.cons_append, List.nil_append, List.mem_cons, List.not_mem_nil, or_false]
    rintro l (rfl | rfl | rfl | rfl) <;> simpa)
  rw [hdim] at hv
  simp [gidx, ravel, sumOver, Function.update] at hv
  exact hv

theorem getEdge2_left {D : Dims} {st : State K} {env : Env K} {N : Spec.Tensors K} (he : FitsEnv D st env) (hN : Spec.Reads st env N) (c : Coord) :
    ∃ E, getEdge2 st env .left c = some E ∧ RepW (D.eu c, D.L c * D.L c, D.L (dn c) * D.L (dn c), D.ed (dn c)) E (Spec.edge2 N D .left c) := by
  have s0 : (N.lu c).shape = _ := shape_of (he.lu c) (hN.lu c)
  have s1 : (N.tl c).shape = _ := shape_of (he.tl c) (hN.tl c)
  have s2 : (N.tl (dn c)).shape = _ := shape_of (he.tl (dn c)) (hN.tl (dn c))
  have s3 : (N.ld (dn c)).shape = _ := shape_of (he.ld (dn c)) (hN.ld (dn c))
  obtain ⟨dim, hdim⟩ : ∃ dim : Nat → Nat, dim = fun l => [D.eu c, D.L c * D.L c, D.L (dn c) * D.L (dn c), D.ed (dn c), D.el c, D.el (dn c), D.el (dn (dn c))].getD l 0 := ⟨_, rfl⟩
  have d0 := Denotes.leaf dim (N.lu c) [[4], [0]] (by simp [gdim, hdim, s0])
  have d1 := Denotes.leaf dim (N.tl c) [[4], [5], [1]] (by simp [gdim, hdim, s1])
  have d2 := Denotes.leaf dim (N.tl (dn c)) [[5], [6], [2]] (by simp [gdim, hdim, s2])
  have d3 := Denotes.leaf dim (N.ld (dn c)) [[6], [3]] (by simp [gdim, hdim, s3])
  obtain ⟨x1, e1, q1⟩ := Denotes.tensordot d0 d1 [0] [0] (dotOK_iff (by decide))
  obtain ⟨x2, e2, q2⟩ := Denotes.tensordot q1 d2 [1] [0] (dotOK_iff (by decide))
  obtain ⟨x3, e3, q3⟩ := Denotes.tensordot q2 d3 [2] [0] (dotOK_iff (by decide))
  have q : Denotes dim x3 [[0], [1], [2], [3]] [4, 5, 6] [0, 1, 2, 3, 4, 5, 6] (fun σ => (N.lu c).val [σ 4, σ 0] * (N.tl c).val [σ 4, σ 5, σ 1] * (N.tl (dn c)).val [σ 5, σ 6, σ 2] * (N.ld (dn c)).val [σ 6, σ 3]) :=
    q3.congr (by decide) (by decide) (fun σ => by simp only [List.map_cons, List.map_nil, gidx_single] <;> ring)
  have hsh : shift c (0, 1) = dn c := by simp [shift, dn]
  refine ⟨x3, by simp [getEdge2, Dir.vec, hsh, hN.lu c, hN.tl c, hN.tl (dn c), hN.ld (dn c), e1, e2, e3], by rw [q.shape]; simp [gdim, hdim], ?_⟩
  intro x y w z hx hy hw hz
  have hv := q.val (fun l => [x, y, w, z].getD l 0) (by
    rw [hdim]
    simp only [List.flatten_cons, List.flatten_nil, List.cons_append, List.nil_append, List.mem_cons, List.not_mem_nil, or_false]
    rintro l (rfl | rfl | rfl | rfl) <;> simpa)
  rw [hdim] at hv
  simp [gidx, ravel, sumOver, Function.update] at hv
  exact hv

theorem getEdge2_down {D : Dims} {st : State K} {env : Env K} {N : Spec.Tensors K} (he : FitsEnv D st env) (hN : Spec.Reads st env N) (c : Coord) :
    ∃ E, getEdge2 st env .down c = some E ∧ RepW (D.el (dn c), D.U (dn c) * D.U (dn c), D.U (dn (rt c)) * D.U (dn (rt c)), D.er (dn (rt c))) E (Spec.edge2 N D .down c) := by
  have s0 : (N.ld c).shape = _ := shape_of (he.ld c) (hN.ld c)
  have s1 : (N.td c).shape = _ := shape_of (he.td c) (hN.td c)
  have s2 : (N.td (rt c)).shape = _ := shape_of (he.td (rt c)) (hN.td (rt c))
  have s3 : (N.rd (rt c)).shape = _ := shape_of (he.rd (rt c)) (hN.rd (rt c))
  obtain ⟨dim, hdim⟩ : ∃ dim : Nat → Nat, dim = fun l => [D.el (dn c), D.U (dn c) * D.U (dn c), D.U (dn (rt c)) * D.U (dn (rt c)), D.er (dn (rt c)), D.ed c, D.ed (rt c), D.ed (rt (rt c))].getD l 0 := ⟨_, rfl⟩
  have d0 := Denotes.leaf dim (N.ld c) [[0], [4]] (by simp [gdim, hdim, s0])
  have d1 := Denotes.leaf dim (N.td c) [[1], [4], [5]] (by simp [gdim, hdim, s1])
  have d2 := Denotes.leaf dim (N.td (rt c)) [[2], [5], [6]] (by simp [gdim, hdim, s2])
  have d3 := Denotes.leaf dim (N.rd (rt c)) [[3], [6]] (by simp [gdim, hdim, s3])
  obtain ⟨x1, e1, q1⟩ := Denotes.tensordot d0 d1 [1] [1] (dotOK_iff (by decide))
  obtain ⟨x2, e2, q2⟩ := Denotes.tensordot q1 d2 [2] [1] (dotOK_iff (by decide))
  obtain ⟨x3, e3, q3⟩ := Denotes.tensordot q2 d3 [3] [1] (dotOK_iff (by decide))
  have q : Denotes dim x3 [[0], [1], [2], [3]] [4, 5, 6] [0, 1, 2, 3, 4, 5, 6] (fun σ => (N.ld c).val [σ 0, σ 4] * (N.td c).val [σ 1, σ 4, σ 5] * (N.td (rt c)).val [σ 2, σ 5, σ 6] * (N.rd (rt c)).val [σ 3, σ 6]) :=
    q3.congr (by decide) (by decide) (fun σ => by simp only [List.map_cons, List.map_nil, gidx_single] <;> ring)
  have hsh : shift c (1, 0) = rt c := by simp [shift, rt]
  refine ⟨x3, by simp [getEdge2, Dir.vec, hsh, hN.ld c, hN.td c, hN.td (rt c), hN.rd (rt c), e1, e2, e3], by rw [q.shape]; simp [gdim, hdim], ?_⟩
  intro x y w z hx hy hw hz
  have hv := q.val (fun l => [x, y, w, z].getD l 0) (by
    rw [hdim]
    simp only [List.flatten_cons, List.flatten_nil, List.cons_append, List.nil_append, List.mem_cons, List.not_mem_nil, or_false]
    rintro l (rfl | rfl | rfl | rfl) <;> simpa)
  rw [hdim] at hv
  simp [gidx, ravel, sumOver, Function.update] at hv
  exact hv

theorem getEdge2_right {D : Dims} {st : State K} {env : Env K} {N : Spec.Tensors K} (he : FitsEnv D st env) (hN : Spec.Reads st env N) (c : Coord) :
    ∃ E, getEdge2 st env .right c = some E ∧ RepW (D.eu (rt c), D.L (rt c) * D.L (rt c), D.L (rt (dn c)) * D.L (rt (dn c)), D.ed (rt (dn c))) E (Spec.edge2 N D .right c) := by
  have s0 : (N.ru c).shape = _ := shape_of (he.ru c) (hN.ru c)
  have s1 : (N.tr c).shape = _ := shape_of (he.tr c) (hN.tr c)
  have s2 : (N.tr (dn c)).shape = _ := shape_of (he.tr (dn c)) (hN.tr (dn c))
  have s3 : (N.rd (dn c)).shape = _ := shape_of (he.rd (dn c)) (hN.rd (dn c))
  obtain ⟨dim, hdim⟩ : ∃ dim : Nat → Nat, dim = fun l => [D.eu (rt c), D.L (rt c) * D.L (rt c), D.L (rt (dn c)) * D.L (rt (dn c)), D.ed (rt (dn c)), D.er c, D.er (dn c), D.er (dn (dn c))].getD l 0 := ⟨_, rfl⟩
  have d0 := Denotes.leaf dim (N.ru c) [[0], [4]] (by simp [gdim, hdim, s0])
  have d1 := Denotes.leaf dim (N.tr c) [[4], [1], [5]] (by simp [gdim, hdim, s1])
  have d2 := Denotes.leaf dim (N.tr (dn c)) [[5], [2], [6]] (by simp [gdim, hdim, s2])
  have d3 := Denotes.leaf dim (N.rd (dn c)) [[6], [3]] (by simp [gdim, hdim, s3])
  obtain ⟨x1, e1, q1⟩ := Denotes.tensordot d0 d1 [1] [0] (dotOK_iff (by decide))
  obtain ⟨x2, e2, q2⟩ := Denotes.tensordot q1 d2 [2] [0] (dotOK_iff (by decide))
  obtain ⟨x3, e3, q3⟩ := Denotes.tensordot q2 d3 [3] [0] (dotOK_iff (by decide))
  have q : Denotes dim x3 [[0], [1], [2], [3]] [4, 5, 6] [0, 1, 2, 3, 4, 5, 6] (fun σ => (N.ru c).val [σ 0, σ 4] * (N.tr c).val [σ 4, σ 1, σ 5] * (N.tr (dn c)).val [σ 5, σ 2, σ 6] * (N.rd (dn c)).val [σ 6, σ 3]) :=
    q3.congr (by decide) (by decide) (fun σ => by simp only [List.map_cons, List.map_nil, gidx_single] <;> ring)
  have hsh : shift c (0, 1) = dn c := by simp [shift, dn]
  refine ⟨x3, by simp [getEdge2, Dir.vec, hsh, hN.ru c, hN.tr c, hN.tr (dn c), hN.rd (dn c), e1, e2, e3], by rw [q.shape]; simp [gdim, hdim], ?_⟩
  intro x y w z hx hy hw hz
  have hv := q.val (fun l => [x, y, w, z].getD l 0) (by
    rw [hdim]
    simp only [List.flatten_cons, List.flatten_nil, List.cons_append, List.nil_append, List.mem_cons, List.not_mem_nil, or_false]
    rintro l (rfl | rfl | rfl | rfl) <;> simpa)
  rw [hdim] at hv
  simp [gidx, ravel, sumOver, Function.update] at hv
  exact hv

end Verif.Corrf
