import Verif.C4v.CorrfModel
import Verif.C4v.RdmProps
import Verif.Corrf.Loop2
/-
The contractions of the C4v correlation functions as explicit sums. Generated by bookkeeping of labels, checked by the kernel.
-/
namespace Verif.C4v
open Tensor Ctm
set_option linter.unusedSimpArgs false
set_option linter.unusedSectionVars false
set_option linter.unnecessarySeqFocus false
set_option linter.unusedTactic false
set_option linter.unreachableTactic false
variable {K : Type} [RCLike K]

/-- The contractions of `apply_TM_1sO` (corrf_c4v.py L227-L268). -/
def row (T E A : Tensor K) : Option (Tensor K) := do
  let E ← tensordot [0] [1] E T
  let E ← tensordot [0, 3] [1, 0] E A
  tensordot [0, 2] [0, 2] E T

/-- Those of the second half of `apply_TM_2sO` (L549-L588). -/
def rowIn (T E A : Tensor K) : Option (Tensor K) := do
  let E ← tensordot [0] [1] E T
  let E ← tensordot [0, 1, 4] [1, 4, 0] E A
  tensordot [0, 2] [0, 2] E T

/-- Those of `apply_TM_1sO_2` without (L376-L430) -/
def rows (T E A G : Tensor K) : Option (Tensor K) := do
  let E ← tensordot [1] [0] T E
  let E ← tensordot [1, 2] [0, 1] E A
  let E ← tensordot [1, 3] [1, 0] E G
  tensordot [1, 3] [0, 2] E T

/-- and with an operator. -/
def rowsOp (T E A G : Tensor K) : Option (Tensor K) := do
  let E ← tensordot [1] [0] T E
  let E ← tensordot [1, 2] [0, 1] E A
  let E ← tensordot [1, 3, 5] [1, 0, 4] E G
  tensordot [1, 3] [0, 2] E T

/-- Those of `get_edge` (L31-L39) and `apply_edge` (L121-L139), -/
def edge (C T : Tensor K) : Option (Tensor K) := do
  let E ← tensordot [0] [0] C T
  tensordot [1] [0] E C

def close (C T V : Tensor K) : Option (Tensor K) := do
  let S ← tensordot [0] [0] V C
  let S ← tensordot [0, 2] [2, 1] S T
  tensordot [0, 1] [1, 0] S C

/-- of `get_edge_L` with two half-rows (L75-L80) and `apply_edge_L` (L173). -/
def edgeL (C T : Tensor K) : Option (Tensor K) := do
  let E ← tensordot [1] [0] C T
  let E ← tensordot [2] [0] E T
  tensordot [3] [0] E C

def closeL (V E : Tensor K) : Option (Tensor K) := tensordot [0, 1, 2, 3] [3, 2, 1, 0] V E

theorem row_sum {chi Q : Nat} {T E A : Tensor K} (hT : T.shape = [chi, chi, Q]) (hE : E.shape = [chi, Q, chi]) (hA : A.shape = [Q, Q, Q, Q]) :
    ∃ R, row T E A = some R ∧ R.shape = [chi, Q, chi] ∧
      ∀ x' y' z', x' < chi → y' < Q → z' < chi → R.val [x', y', z'] = ∑ x ∈ Finset.range chi, ∑ y ∈ Finset.range Q, ∑ z ∈ Finset.range chi, ∑ m ∈ Finset.range Q, ∑ n ∈ Finset.range Q,
        E.val [x, y, z] * T.val [x', x, m] * A.val [m, y, n, y'] * T.val [z, z', n] := by
  obtain ⟨dim, hdim⟩ : ∃ dim : Nat → Nat, dim = fun l => [chi, Q, chi, Q, Q, chi, Q, chi].getD l 0 := ⟨_, rfl⟩
  have d1 := Denotes.leaf dim T [[5], [0], [3]] (by simp [gdim, hdim, hT])
  have dE := Denotes.leaf dim E [[0], [1], [2]] (by simp [gdim, hdim, hE])
  have dA := Denotes.leaf dim A [[3], [1], [4], [6]] (by simp [gdim, hdim, hA])
  have d2 := Denotes.leaf dim T [[2], [7], [4]] (by simp [gdim, hdim, hT])
  obtain ⟨x1, e1, q1⟩ := Denotes.tensordot dE d1 [0] [1] (dotOK_iff (by decide))
  obtain ⟨x2, e2, q2⟩ := Denotes.tensordot q1 dA [0, 3] [1, 0] (dotOK_iff (by decide))
  obtain ⟨x3, e3, q3⟩ := Denotes.tensordot q2 d2 [0, 2] [0, 2] (dotOK_iff (by decide))
  have q : Denotes dim x3 [[5], [6], [7]] [0, 1, 2, 3, 4] [0, 1, 2, 3, 4, 5, 6, 7] (fun σ => E.val [σ 0, σ 1, σ 2] * T.val [σ 5, σ 0, σ 3] * A.val [σ 3, σ 1, σ 4, σ 6] * T.val [σ 2, σ 7, σ 4]) :=
    q3.congr (by decide) (by decide) (fun σ => by simp only [List.map_cons, List.map_nil, gidx_single] <;> ring)
  refine ⟨x3, by simp [row, e1, e2, e3], by rw [q.shape]; simp [gdim, hdim], ?_⟩
  intro x' y' z' hxp hyp hzp
  have hv := q.val (fun l => [0, 0, 0, 0, 0, x', y', z'].getD l 0) (by
    rw [hdim]
    simp only [List.flatten_cons, List.flatten_nil, List.cons_append, List.nil_append, List.mem_cons, List.not_mem_nil, or_false]
    rintro l (rfl | rfl | rfl) <;> simpa)
  rw [hdim] at hv
  simp [gidx, ravel, sumOver, Function.update] at hv
  exact hv

theorem rowOut_sum {B chi Q : Nat} {T E A : Tensor K} (hT : T.shape = [chi, chi, Q]) (hE : E.shape = [chi, Q, chi]) (hA : A.shape = [Q, Q, Q, Q, B]) :
    ∃ R, row T E A = some R ∧ R.shape = [chi, Q, B, chi] ∧
      ∀ x' y' k z', x' < chi → y' < Q → k < B → z' < chi → R.val [x', y', k, z'] = ∑ x ∈ Finset.range chi, ∑ y ∈ Finset.range Q, ∑ z ∈ Finset.range chi, ∑ m ∈ Finset.range Q, ∑ n ∈ Finset.range Q,
        E.val [x, y, z] * T.val [x', x, m] * A.val [m, y, n, y', k] * T.val [z, z', n] := by
  obtain ⟨dim, hdim⟩ : ∃ dim : Nat → Nat, dim = fun l => [chi, Q, chi, Q, Q, chi, Q, chi, B].getD l 0 := ⟨_, rfl⟩
  have d1 := Denotes.leaf dim T [[5], [0], [3]] (by simp [gdim, hdim, hT])
  have dE := Denotes.leaf dim E [[0], [1], [2]] (by simp [gdim, hdim, hE])
  have dA := Denotes.leaf dim A [[3], [1], [4], [6], [8]] (by simp [gdim, hdim, hA])
  have d2 := Denotes.leaf dim T [[2], [7], [4]] (by simp [gdim, hdim, hT])
  obtain ⟨x1, e1, q1⟩ := Denotes.tensordot dE d1 [0] [1] (dotOK_iff (by decide))
  obtain ⟨x2, e2, q2⟩ := Denotes.tensordot q1 dA [0, 3] [1, 0] (dotOK_iff (by decide))
  obtain ⟨x3, e3, q3⟩ := Denotes.tensordot q2 d2 [0, 2] [0, 2] (dotOK_iff (by decide))
  have q : Denotes dim x3 [[5], [6], [8], [7]] [0, 1, 2, 3, 4] [0, 1, 2, 3, 4, 5, 6, 7, 8] (fun σ => E.val [σ 0, σ 1, σ 2] * T.val [σ 5, σ 0, σ 3] * A.val [σ 3, σ 1, σ 4, σ 6, σ 8] * T.val [σ 2, σ 7, σ 4]) :=
    q3.congr (by decide) (by decide) (fun σ => by simp only [List.map_cons, List.map_nil, gidx_single] <;> ring)
  refine ⟨x3, by simp [row, e1, e2, e3], by rw [q.shape]; simp [gdim, hdim], ?_⟩
  intro x' y' k z' hxp hyp hk hzp
  have hv := q.val (fun l => [0, 0, 0, 0, 0, x', y', z', k].getD l 0) (by
    rw [hdim]
    simp only [List.flatten_cons, List.flatten_nil, List.cons_append, List.nil_append, List.mem_cons, List.not_mem_nil, or_false]
    rintro l (rfl | rfl | rfl | rfl) <;> simpa)
  rw [hdim] at hv
  simp [gidx, ravel, sumOver, Function.update] at hv
  exact hv

theorem rowIn_sum {B chi Q : Nat} {T E A : Tensor K} (hT : T.shape = [chi, chi, Q]) (hE : E.shape = [chi, Q, B, chi]) (hA : A.shape = [Q, Q, Q, Q, B]) :
    ∃ R, rowIn T E A = some R ∧ R.shape = [chi, Q, chi] ∧
      ∀ x' y' z', x' < chi → y' < Q → z' < chi → R.val [x', y', z'] = ∑ x ∈ Finset.range chi, ∑ y ∈ Finset.range Q, ∑ z ∈ Finset.range chi, ∑ m ∈ Finset.range Q, ∑ n ∈ Finset.range Q, ∑ k ∈ Finset.range B,
        E.val [x, y, k, z] * T.val [x', x, m] * A.val [m, y, n, y', k] * T.val [z, z', n] := by
  obtain ⟨dim, hdim⟩ : ∃ dim : Nat → Nat, dim = fun l => [chi, Q, chi, Q, Q, chi, Q, chi, B].getD l 0 := ⟨_, rfl⟩
  have d1 := Denotes.leaf dim T [[5], [0], [3]] (by simp [gdim, hdim, hT])
  have dE := Denotes.leaf dim E [[0], [1], [8], [2]] (by simp [gdim, hdim, hE])
  have dA := Denotes.leaf dim A [[3], [1], [4], [6], [8]] (by simp [gdim, hdim, hA])
  have d2 := Denotes.leaf dim T [[2], [7], [4]] (by simp [gdim, hdim, hT])
  obtain ⟨x1, e1, q1⟩ := Denotes.tensordot dE d1 [0] [1] (dotOK_iff (by decide))
  obtain ⟨x2, e2, q2⟩ := Denotes.tensordot q1 dA [0, 1, 4] [1, 4, 0] (dotOK_iff (by decide))
  obtain ⟨x3, e3, q3⟩ := Denotes.tensordot q2 d2 [0, 2] [0, 2] (dotOK_iff (by decide))
  have q : Denotes dim x3 [[5], [6], [7]] [0, 1, 2, 3, 4, 8] [0, 1, 2, 3, 4, 5, 6, 7, 8] (fun σ => E.val [σ 0, σ 1, σ 8, σ 2] * T.val [σ 5, σ 0, σ 3] * A.val [σ 3, σ 1, σ 4, σ 6, σ 8] * T.val [σ 2, σ 7, σ 4]) :=
    q3.congr (by decide) (by decide) (fun σ => by simp only [List.map_cons, List.map_nil, gidx_single] <;> ring)
  refine ⟨x3, by simp [rowIn, e1, e2, e3], by rw [q.shape]; simp [gdim, hdim], ?_⟩
  intro x' y' z' hxp hyp hzp
  have hv := q.val (fun l => [0, 0, 0, 0, 0, x', y', z', 0].getD l 0) (by
    rw [hdim]
    simp only [List.flatten_cons, List.flatten_nil, List.cons_append, List.nil_append, List.mem_cons, List.not_mem_nil, or_false]
    rintro l (rfl | rfl | rfl) <;> simpa)
  rw [hdim] at hv
  simp [gidx, ravel, sumOver, Function.update] at hv
  exact hv

theorem rows_sum {chi Q : Nat} {T E A G : Tensor K} (hT : T.shape = [chi, chi, Q]) (hE : E.shape = [chi, Q, Q, chi]) (hA : A.shape = [Q, Q, Q, Q]) (hG : G.shape = [Q, Q, Q, Q]) :
    ∃ R, rows T E A G = some R ∧ R.shape = [chi, Q, Q, chi] ∧
      ∀ x' y' w' z', x' < chi → y' < Q → w' < Q → z' < chi → R.val [x', y', w', z'] = ∑ x ∈ Finset.range chi, ∑ y ∈ Finset.range Q, ∑ w ∈ Finset.range Q, ∑ z ∈ Finset.range chi, ∑ m ∈ Finset.range Q, ∑ k ∈ Finset.range Q, ∑ n ∈ Finset.range Q,
        E.val [x, y, w, z] * T.val [x', x, m] * A.val [m, y, k, y'] * G.val [k, w, n, w'] * T.val [z, z', n] := by
  obtain ⟨dim, hdim⟩ : ∃ dim : Nat → Nat, dim = fun l => [chi, Q, Q, chi, Q, Q, Q, chi, Q, Q, chi].getD l 0 := ⟨_, rfl⟩
  have d1 := Denotes.leaf dim T [[7], [0], [4]] (by simp [gdim, hdim, hT])
  have dE := Denotes.leaf dim E [[0], [1], [2], [3]] (by simp [gdim, hdim, hE])
  have dA := Denotes.leaf dim A [[4], [1], [5], [8]] (by simp [gdim, hdim, hA])
  have dG := Denotes.leaf dim G [[5], [2], [6], [9]] (by simp [gdim, hdim, hG])
  have d2 := Denotes.leaf dim T [[3], [10], [6]] (by simp [gdim, hdim, hT])
  obtain ⟨x1, e1, q1⟩ := Denotes.tensordot d1 dE [1] [0] (dotOK_iff (by decide))
  obtain ⟨x2, e2, q2⟩ := Denotes.tensordot q1 dA [1, 2] [0, 1] (dotOK_iff (by decide))
  obtain ⟨x3, e3, q3⟩ := Denotes.tensordot q2 dG [1, 3] [1, 0] (dotOK_iff (by decide))
  obtain ⟨x4, e4, q4⟩ := Denotes.tensordot q3 d2 [1, 3] [0, 2] (dotOK_iff (by decide))
  have q : Denotes dim x4 [[7], [8], [9], [10]] [0, 1, 2, 3, 4, 5, 6] [0, 1, 2, 3, 4, 5, 6, 7, 8, 9, 10] (fun σ => E.val [σ 0, σ 1, σ 2, σ 3] * T.val [σ 7, σ 0, σ 4] * A.val [σ 4, σ 1, σ 5, σ 8] * G.val [σ 5, σ 2, σ 6, σ 9] * T.val [σ 3, σ 10, σ 6]) :=
    q4.congr (by decide) (by decide) (fun σ => by simp only [List.map_cons, List.map_nil, gidx_single] <;> ring)
  refine ⟨x4, by simp [rows, e1, e2, e3, e4], by rw [q.shape]; simp [gdim, hdim], ?_⟩
  intro x' y' w' z' hxp hyp hwp hzp
  have hv := q.val (fun l => [0, 0, 0, 0, 0, 0, 0, x', y', w', z'].getD l 0) (by
    rw [hdim]
    simp only [List.flatten_cons, List.flatten_nil, List.cons_append, List.nil_append, List.mem_cons, List.not_mem_nil, or_false]
    rintro l (rfl | rfl | rfl | rfl) <;> simpa)
  rw [hdim] at hv
  simp [gidx, ravel, sumOver, Function.update] at hv
  exact hv

theorem rowsOp_sum {B chi Q : Nat} {T E A G : Tensor K} (hT : T.shape = [chi, chi, Q]) (hE : E.shape = [chi, Q, Q, chi]) (hA : A.shape = [Q, Q, Q, Q, B]) (hG : G.shape = [Q, Q, Q, Q, B]) :
    ∃ R, rowsOp T E A G = some R ∧ R.shape = [chi, Q, Q, chi] ∧
      ∀ x' y' w' z', x' < chi → y' < Q → w' < Q → z' < chi → R.val [x', y', w', z'] = ∑ x ∈ Finset.range chi, ∑ y ∈ Finset.range Q, ∑ w ∈ Finset.range Q, ∑ z ∈ Finset.range chi, ∑ m ∈ Finset.range Q, ∑ k ∈ Finset.range Q, ∑ n ∈ Finset.range Q, ∑ b ∈ Finset.range B,
        E.val [x, y, w, z] * T.val [x', x, m] * A.val [m, y, k, y', b] * G.val [k, w, n, w', b] * T.val [z, z', n] := by
  obtain ⟨dim, hdim⟩ : ∃ dim : Nat → Nat, dim = fun l => [chi, Q, Q, chi, Q, Q, Q, chi, Q, Q, chi, B].getD l 0 := ⟨_, rfl⟩
  have d1 := Denotes.leaf dim T [[7], [0], [4]] (by simp [gdim, hdim, hT])
  have dE := Denotes.leaf dim E [[0], [1], [2], [3]] (by simp [gdim, hdim, hE])
  have dA := Denotes.leaf dim A [[4], [1], [5], [8], [11]] (by simp [gdim, hdim, hA])
  have dG := Denotes.leaf dim G [[5], [2], [6], [9], [11]] (by simp [gdim, hdim, hG])
  have d2 := Denotes.leaf dim T [[3], [10], [6]] (by simp [gdim, hdim, hT])
  obtain ⟨x1, e1, q1⟩ := Denotes.tensordot d1 dE [1] [0] (dotOK_iff (by decide))
  obtain ⟨x2, e2, q2⟩ := Denotes.tensordot q1 dA [1, 2] [0, 1] (dotOK_iff (by decide))
  obtain ⟨x3, e3, q3⟩ := Denotes.tensordot q2 dG [1, 3, 5] [1, 0, 4] (dotOK_iff (by decide))
  obtain ⟨x4, e4, q4⟩ := Denotes.tensordot q3 d2 [1, 3] [0, 2] (dotOK_iff (by decide))
  have q : Denotes dim x4 [[7], [8], [9], [10]] [0, 1, 2, 3, 4, 5, 6, 11] [0, 1, 2, 3, 4, 5, 6, 7, 8, 9, 10, 11] (fun σ => E.val [σ 0, σ 1, σ 2, σ 3] * T.val [σ 7, σ 0, σ 4] * A.val [σ 4, σ 1, σ 5, σ 8, σ 11] * G.val [σ 5, σ 2, σ 6, σ 9, σ 11] * T.val [σ 3, σ 10, σ 6]) :=
    q4.congr (by decide) (by decide) (fun σ => by simp only [List.map_cons, List.map_nil, gidx_single] <;> ring)
  refine ⟨x4, by simp [rowsOp, e1, e2, e3, e4], by rw [q.shape]; simp [gdim, hdim], ?_⟩
  intro x' y' w' z' hxp hyp hwp hzp
  have hv := q.val (fun l => [0, 0, 0, 0, 0, 0, 0, x', y', w', z', 0].getD l 0) (by
    rw [hdim]
    simp only [List.flatten_cons, List.flatten_nil, List.cons_append, List.nil_append, List.mem_cons, List.not_mem_nil, or_false]
    rintro l (rfl | rfl | rfl | rfl) <;> simpa)
  rw [hdim] at hv
  simp [gidx, ravel, sumOver, Function.update] at hv
  exact hv

theorem edge_sum {chi Q : Nat} {C T : Tensor K} (hC : C.shape = [chi, chi]) (hT : T.shape = [chi, chi, Q]) :
    ∃ R, edge C T = some R ∧ R.shape = [chi, Q, chi] ∧
      ∀ x y z, x < chi → y < Q → z < chi → R.val [x, y, z] = ∑ p ∈ Finset.range chi, ∑ q ∈ Finset.range chi,
        C.val [p, x] * T.val [p, q, y] * C.val [q, z] := by
  obtain ⟨dim, hdim⟩ : ∃ dim : Nat → Nat, dim = fun l => [chi, Q, chi, chi, chi].getD l 0 := ⟨_, rfl⟩
  have d1 := Denotes.leaf dim C [[3], [0]] (by simp [gdim, hdim, hC])
  have dT := Denotes.leaf dim T [[3], [4], [1]] (by simp [gdim, hdim, hT])
  have d2 := Denotes.leaf dim C [[4], [2]] (by simp [gdim, hdim, hC])
  obtain ⟨x1, e1, q1⟩ := Denotes.tensordot d1 dT [0] [0] (dotOK_iff (by decide))
  obtain ⟨x2, e2, q2⟩ := Denotes.tensordot q1 d2 [1] [0] (dotOK_iff (by decide))
  have q : Denotes dim x2 [[0], [1], [2]] [3, 4] [0, 1, 2, 3, 4] (fun σ => C.val [σ 3, σ 0] * T.val [σ 3, σ 4, σ 1] * C.val [σ 4, σ 2]) :=
    q2.congr (by decide) (by decide) (fun σ => by simp only [List.map_cons, List.map_nil, gidx_single] <;> ring)
  refine ⟨x2, by simp [edge, e1, e2], by rw [q.shape]; simp [gdim, hdim], ?_⟩
  intro x y z hx hy hz
  have hv := q.val (fun l => [x, y, z, 0, 0].getD l 0) (by
    rw [hdim]
    simp only [List.flatten_cons, List.flatten_nil, List.cons_append, List.nil_append, List.mem_cons, List.not_mem_nil, or_false]
    rintro l (rfl | rfl | rfl) <;> simpa)
  rw [hdim] at hv
  simp [gidx, ravel, sumOver, Function.update] at hv
  exact hv

theorem close_sum {chi Q : Nat} {C T V : Tensor K} (hC : C.shape = [chi, chi]) (hT : T.shape = [chi, chi, Q]) (hV : V.shape = [chi, Q, chi]) :
    ∃ R, close C T V = some R ∧ R.shape = [] ∧
      R.val [] = ∑ x ∈ Finset.range chi, ∑ y ∈ Finset.range Q, ∑ z ∈ Finset.range chi, ∑ p ∈ Finset.range chi, ∑ q ∈ Finset.range chi,
        V.val [x, y, z] * C.val [x, p] * T.val [q, p, y] * C.val [q, z] := by
  obtain ⟨dim, hdim⟩ : ∃ dim : Nat → Nat, dim = fun l => [chi, Q, chi, chi, chi].getD l 0 := ⟨_, rfl⟩
  have dV := Denotes.leaf dim V [[0], [1], [2]] (by simp [gdim, hdim, hV])
  have d1 := Denotes.leaf dim C [[0], [3]] (by simp [gdim, hdim, hC])
  have dT := Denotes.leaf dim T [[4], [3], [1]] (by simp [gdim, hdim, hT])
  have d2 := Denotes.leaf dim C [[4], [2]] (by simp [gdim, hdim, hC])
  obtain ⟨x1, e1, q1⟩ := Denotes.tensordot dV d1 [0] [0] (dotOK_iff (by decide))
  obtain ⟨x2, e2, q2⟩ := Denotes.tensordot q1 dT [0, 2] [2, 1] (dotOK_iff (by decide))
  obtain ⟨x3, e3, q3⟩ := Denotes.tensordot q2 d2 [0, 1] [1, 0] (dotOK_iff (by decide))
  have q : Denotes dim x3 [] [0, 1, 2, 3, 4] [0, 1, 2, 3, 4] (fun σ => V.val [σ 0, σ 1, σ 2] * C.val [σ 0, σ 3] * T.val [σ 4, σ 3, σ 1] * C.val [σ 4, σ 2]) :=
    q3.congr (by decide) (by decide) (fun σ => by simp only [List.map_cons, List.map_nil, gidx_single] <;> ring)
  refine ⟨x3, by simp [close, e1, e2, e3], by rw [q.shape]; simp [gdim, hdim], ?_⟩
  have hv := q.val (fun l => [0, 0, 0, 0, 0].getD l 0) (by
    simp)
  rw [hdim] at hv
  simp [gidx, ravel, sumOver, Function.update] at hv
  exact hv

theorem edgeL_sum {chi Q : Nat} {C T : Tensor K} (hC : C.shape = [chi, chi]) (hT : T.shape = [chi, Q, chi]) :
    ∃ R, edgeL C T = some R ∧ R.shape = [chi, Q, Q, chi] ∧
      ∀ x y w z, x < chi → y < Q → w < Q → z < chi → R.val [x, y, w, z] = ∑ p ∈ Finset.range chi, ∑ q ∈ Finset.range chi, ∑ r ∈ Finset.range chi,
        C.val [x, p] * T.val [p, y, q] * T.val [q, w, r] * C.val [r, z] := by
  obtain ⟨dim, hdim⟩ : ∃ dim : Nat → Nat, dim = fun l => [chi, Q, Q, chi, chi, chi, chi].getD l 0 := ⟨_, rfl⟩
  have d1 := Denotes.leaf dim C [[0], [4]] (by simp [gdim, hdim, hC])
  have dT := Denotes.leaf dim T [[4], [1], [5]] (by simp [gdim, hdim, hT])
  have dU := Denotes.leaf dim T [[5], [2], [6]] (by simp [gdim, hdim, hT])
  have d2 := Denotes.leaf dim C [[6], [3]] (by simp [gdim, hdim, hC])
  obtain ⟨x1, e1, q1⟩ := Denotes.tensordot d1 dT [1] [0] (dotOK_iff (by decide))
  obtain ⟨x2, e2, q2⟩ := Denotes.tensordot q1 dU [2] [0] (dotOK_iff (by decide))
  obtain ⟨x3, e3, q3⟩ := Denotes.tensordot q2 d2 [3] [0] (dotOK_iff (by decide))
  have q : Denotes dim x3 [[0], [1], [2], [3]] [4, 5, 6] [0, 1, 2, 3, 4, 5, 6] (fun σ => C.val [σ 0, σ 4] * T.val [σ 4, σ 1, σ 5] * T.val [σ 5, σ 2, σ 6] * C.val [σ 6, σ 3]) :=
    q3.congr (by decide) (by decide) (fun σ => by simp only [List.map_cons, List.map_nil, gidx_single] <;> ring)
  refine ⟨x3, by simp [edgeL, e1, e2, e3], by rw [q.shape]; simp [gdim, hdim], ?_⟩
  intro x y w z hx hy hw hz
  have hv := q.val (fun l => [x, y, w, z, 0, 0, 0].getD l 0) (by
    rw [hdim]
    simp only [List.flatten_cons, List.flatten_nil, List.cons_append, List.nil_append, List.mem_cons, List.not_mem_nil, or_false]
    rintro l (rfl | rfl | rfl | rfl) <;> simpa)
  rw [hdim] at hv
  simp [gidx, ravel, sumOver, Function.update] at hv
  exact hv

theorem closeL_sum {chi Q : Nat} {V E : Tensor K} (hV : V.shape = [chi, Q, Q, chi]) (hE : E.shape = [chi, Q, Q, chi]) :
    ∃ R, closeL V E = some R ∧ R.shape = [] ∧
      R.val [] = ∑ x ∈ Finset.range chi, ∑ y ∈ Finset.range Q, ∑ w ∈ Finset.range Q, ∑ z ∈ Finset.range chi,
        V.val [x, y, w, z] * E.val [z, w, y, x] := by
  obtain ⟨dim, hdim⟩ : ∃ dim : Nat → Nat, dim = fun l => [chi, Q, Q, chi].getD l 0 := ⟨_, rfl⟩
  have dV := Denotes.leaf dim V [[0], [1], [2], [3]] (by simp [gdim, hdim, hV])
  have dE := Denotes.leaf dim E [[3], [2], [1], [0]] (by simp [gdim, hdim, hE])
  obtain ⟨x1, e1, q1⟩ := Denotes.tensordot dV dE [0, 1, 2, 3] [3, 2, 1, 0] (dotOK_iff (by decide))
  have q : Denotes dim x1 [] [0, 1, 2, 3] [0, 1, 2, 3] (fun σ => V.val [σ 0, σ 1, σ 2, σ 3] * E.val [σ 3, σ 2, σ 1, σ 0]) :=
    q1.congr (by decide) (by decide) (fun σ => by simp only [List.map_cons, List.map_nil, gidx_single] <;> ring)
  refine ⟨x1, by simp [closeL, e1], by rw [q.shape]; simp [gdim, hdim], ?_⟩
  have hv := q.val (fun l => [0, 0, 0, 0].getD l 0) (by
    simp)
  rw [hdim] at hv
  simp [gidx, ravel, sumOver, Function.update] at hv
  exact hv

/-- Bra and ket with an operator in between. -/
theorem layer2_ok (a o : Tensor K) {p D : Nat} (ha : a.shape = [p, D, D, D, D]) (ho : o.shape = [p, p]) :
    ∃ A, layer2 a o = some A ∧ A.shape = [D * D, D * D, D * D, D * D] ∧
      ∀ u l d r, u < D * D → l < D * D → d < D * D → r < D * D → A.val [u, l, d, r] = Corrf.Spec.layer a (Corrf.Spec.transposed o) u l d r := by
  obtain ⟨dim, hdim⟩ : ∃ dim : Nat → Nat, dim = fun l => [p, D, D, D, D, D, D, D, D, p].getD l 0 := ⟨_, rfl⟩
  have d0 := Denotes.leaf dim a (singles [9, 1, 2, 3, 4]) (by simp [singles, hdim, ha])
  have d1 := Denotes.leaf dim o (singles [9, 0]) (by simp [singles, hdim, ho])
  have d2 := (Denotes.leaf dim a (singles [0, 5, 6, 7, 8]) (by simp [singles, hdim, ha])).conj
  obtain ⟨x1, e1, q1⟩ := Denotes.einsum' (OpsNet.cons d0 (OpsNet.cons d1 (OpsNet.cons d2 OpsNet.nil))) [1, 5, 2, 6, 3, 7, 4, 8] (by decide)
  obtain ⟨x2, e2, q2⟩ := q1.view [[1, 5], [2, 6], [3, 7], [4, 8]] [a.size 1 ^ 2, a.size 2 ^ 2, a.size 3 ^ 2, a.size 4 ^ 2] (by decide)
    (by simp [size, gdim, ha, hdim, pow_two])
  refine ⟨x2, by simp [layer2, e1, e2], by rw [q2.shape]; simp [gdim, hdim], ?_⟩
  intro u l d r hu hl hd hr
  have h1 : 0 < D := by by_contra h; simp_all
  have hv := q2.val (fun k => [0, u / D, l / D, d / D, r / D, u % D, l % D, d % D, r % D].getD k 0) (by
    simp only [List.flatten_cons, List.flatten_nil, List.cons_append, List.nil_append, List.mem_cons, List.not_mem_nil, or_false]
    rintro k (rfl | rfl | rfl | rfl | rfl | rfl | rfl | rfl) <;> rw [hdim] <;> simp <;>
      first | exact Nat.div_lt_of_lt_mul ‹_› | exact Nat.mod_lt _ ‹_›)
  rw [hdim] at hv
  simp [gidx, ravel, Corrf.pair_idx, sumOver, Function.update, singles] at hv
  rw [hv]
  simp only [Corrf.Spec.layer, size, ha, Corrf.Spec.transposed, List.getD_cons_zero, List.getD_cons_succ]
  rw [Finset.sum_comm]
  exact Finset.sum_congr rfl (fun i _ => Finset.sum_congr rfl (fun j _ => by simp only [RCLike.star_def]; ring))

theorem layer3_ok (a o : Tensor K) {p D B : Nat} (hD : 0 < D) (ha : a.shape = [p, D, D, D, D]) (ho : o.shape = [p, p, B]) :
    ∃ A, layer3 a o = some A ∧ A.shape = [D * D, D * D, D * D, D * D, B] ∧
      ∀ u l d r k, u < D * D → l < D * D → d < D * D → r < D * D → k < B → A.val [u, l, d, r, k] = Corrf.Spec.layer a (Corrf.factor o k) u l d r := by
  obtain ⟨dim, hdim⟩ : ∃ dim : Nat → Nat, dim = fun l => [p, D, D, D, D, D, D, D, D, p, B].getD l 0 := ⟨_, rfl⟩
  have d0 := Denotes.leaf dim a (singles [9, 1, 2, 3, 4]) (by simp [singles, hdim, ha])
  have d1 := Denotes.leaf dim o (singles [9, 0, 10]) (by simp [singles, hdim, ho])
  have d2 := (Denotes.leaf dim a (singles [0, 5, 6, 7, 8]) (by simp [singles, hdim, ha])).conj
  obtain ⟨x1, e1, q1⟩ := Denotes.einsum' (OpsNet.cons d0 (OpsNet.cons d1 (OpsNet.cons d2 OpsNet.nil))) [1, 5, 2, 6, 3, 7, 4, 8, 10] (by decide)
  have hx : x1.shape = [D, D, D, D, D, D, D, D, B] := by rw [q1.shape]; simp [gdim, hdim, singles]
  have hp : 0 < D * (D * (D * (D * (D * (D * (D * D)))))) := by positivity
  have hinf : x1.shape.prod / [a.size 1 ^ 2, a.size 2 ^ 2, a.size 3 ^ 2, a.size 4 ^ 2].prod = B := by
    simp only [hx, size, ha, List.prod_cons, List.prod_nil, List.getD_cons_zero, List.getD_cons_succ, mul_one]
    rw [show D * (D * (D * (D * (D * (D * (D * (D * B))))))) = (D * (D * (D * (D * (D * (D * (D * D))))))) * B by ring,
      show D ^ 2 * (D ^ 2 * (D ^ 2 * D ^ 2)) = D * (D * (D * (D * (D * (D * (D * D)))))) by ring]
    exact Nat.mul_div_cancel_left B hp
  have hne : [a.size 1 ^ 2, a.size 2 ^ 2, a.size 3 ^ 2, a.size 4 ^ 2].prod ≠ 0 := by
    simp [size, ha]; omega
  obtain ⟨x2, e2, q2⟩ := q1.view [[1, 5], [2, 6], [3, 7], [4, 8], [10]] ([a.size 1 ^ 2, a.size 2 ^ 2, a.size 3 ^ 2, a.size 4 ^ 2] ++ [B]) (by decide)
    (by simp [size, gdim, ha, hdim, pow_two])
  refine ⟨x2, ?_, by rw [q2.shape]; simp [gdim, hdim], ?_⟩
  · show (einsum _ _ >>= _) = _
    rw [e1]
    show Corrf.viewInfer _ x1 = _
    unfold Corrf.viewInfer
    rw [if_neg hne, hinf, e2]
  intro u l d r k hu hl hd hr hk
  have hv := q2.val (fun j => [0, u / D, l / D, d / D, r / D, u % D, l % D, d % D, r % D, 0, k].getD j 0) (by
    simp only [List.flatten_cons, List.flatten_nil, List.cons_append, List.nil_append, List.mem_cons, List.not_mem_nil, or_false]
    rintro k (rfl | rfl | rfl | rfl | rfl | rfl | rfl | rfl | rfl) <;> rw [hdim] <;> simp <;>
      first | exact Nat.div_lt_of_lt_mul ‹_› | exact Nat.mod_lt _ ‹_› | assumption)
  rw [hdim] at hv
  simp [gidx, ravel, Corrf.pair_idx, sumOver, Function.update, singles] at hv
  rw [hv]
  simp only [Corrf.Spec.layer, size, ha, Corrf.factor, List.getD_cons_zero, List.getD_cons_succ]
  rw [Finset.sum_comm]
  exact Finset.sum_congr rfl (fun i _ => Finset.sum_congr rfl (fun j _ => by simp only [RCLike.star_def]; ring))

end Verif.C4v
