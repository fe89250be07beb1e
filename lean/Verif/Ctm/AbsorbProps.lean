import Verif.Ctm.AbsorbSpec
import Verif.Ctm.CornerProps
/-
Property C60: absorption equals its network, and the two contraction modes agree (except the single-layer right move).
-/
namespace Verif.Absorb
open Tensor Corner
set_option linter.unusedSimpArgs false
set_option linter.unusedVariables false
variable {K : Type} [CommRing K] [StarRing K]

theorem upC1_denotes (dim : Nat → Nat) (C T P : Tensor K) (hC : C.shape = [dim 0, dim 1]) (hT : T.shape = [dim 1, dim 2, dim 3]) (hP : P.shape = [dim 0, dim 2, dim 4]) :
    ∃ R, upC1 C T P = some R ∧ Denotes dim R [[4], [3]] [0, 1, 2] [0, 1, 2, 3, 4] (Spec.upC1 C T P) := by
  have dC := Denotes.leaf dim C [[0], [1]] (by simp [gdim, hC])
  have dT := Denotes.leaf dim T [[1], [2], [3]] (by simp [gdim, hT])
  have dP := Denotes.leaf dim P [[0], [2], [4]] (by simp [gdim, hP])
  obtain ⟨x1, e1, q1⟩ := Denotes.tensordot dC dT [1] [0] (dotOK_iff (by decide))
  obtain ⟨x2, e2, q2⟩ := Denotes.tensordot dP q1 [0, 1] [0, 1] (dotOK_iff (by decide))
  refine ⟨x2, by simp [upC1, e1, e2], q2.congr (by decide) (by decide) ?_⟩
  intro σ
  simp only [Spec.upC1, List.map_cons, List.map_nil, gidx_single] <;> ring

/-- C60, corner `upC1`. -/
theorem C60_upC1 (dim : Nat → Nat) (C T P : Tensor K) (hC : C.shape = [dim 0, dim 1]) (hT : T.shape = [dim 1, dim 2, dim 3]) (hP : P.shape = [dim 0, dim 2, dim 4]) :
    ∃ R, upC1 C T P = some R ∧ Spec.IsNetwork dim R [[4], [3]] [0, 1, 2] (Spec.upC1 C T P) := by
  obtain ⟨R, e, q⟩ := upC1_denotes dim C T P hC hT hP
  exact ⟨R, e, isNetwork q⟩

theorem upC2_denotes (dim : Nat → Nat) (C T P : Tensor K) (hC : C.shape = [dim 0, dim 1]) (hT : T.shape = [dim 0, dim 2, dim 3]) (hP : P.shape = [dim 1, dim 3, dim 4]) :
    ∃ R, upC2 C T P = some R ∧ Denotes dim R [[2], [4]] [0, 1, 3] [0, 1, 2, 3, 4] (Spec.upC2 C T P) := by
  have dC := Denotes.leaf dim C [[0], [1]] (by simp [gdim, hC])
  have dT := Denotes.leaf dim T [[0], [2], [3]] (by simp [gdim, hT])
  have dP := Denotes.leaf dim P [[1], [3], [4]] (by simp [gdim, hP])
  obtain ⟨x1, e1, q1⟩ := Denotes.tensordot dC dT [0] [0] (dotOK_iff (by decide))
  obtain ⟨x2, e2, q2⟩ := Denotes.tensordot q1 dP [0, 2] [0, 1] (dotOK_iff (by decide))
  refine ⟨x2, by simp [upC2, e1, e2], q2.congr (by decide) (by decide) ?_⟩
  intro σ
  simp only [Spec.upC2, List.map_cons, List.map_nil, gidx_single] <;> ring

/-- C60, corner `upC2`. -/
theorem C60_upC2 (dim : Nat → Nat) (C T P : Tensor K) (hC : C.shape = [dim 0, dim 1]) (hT : T.shape = [dim 0, dim 2, dim 3]) (hP : P.shape = [dim 1, dim 3, dim 4]) :
    ∃ R, upC2 C T P = some R ∧ Spec.IsNetwork dim R [[2], [4]] [0, 1, 3] (Spec.upC2 C T P) := by
  obtain ⟨R, e, q⟩ := upC2_denotes dim C T P hC hT hP
  exact ⟨R, e, isNetwork q⟩

theorem leftC1_denotes (dim : Nat → Nat) (C T P : Tensor K) (hC : C.shape = [dim 0, dim 1]) (hT : T.shape = [dim 1, dim 2, dim 3]) (hP : P.shape = [dim 0, dim 2, dim 4]) :
    ∃ R, leftC1 C T P = some R ∧ Denotes dim R [[4], [3]] [0, 1, 2] [0, 1, 2, 3, 4] (Spec.leftC1 C T P) := by
  have dC := Denotes.leaf dim C [[0], [1]] (by simp [gdim, hC])
  have dT := Denotes.leaf dim T [[1], [2], [3]] (by simp [gdim, hT])
  have dP := Denotes.leaf dim P [[0], [2], [4]] (by simp [gdim, hP])
  obtain ⟨x1, e1, q1⟩ := Denotes.tensordot dC dT [1] [0] (dotOK_iff (by decide))
  obtain ⟨x2, e2, q2⟩ := Denotes.tensordot dP q1 [0, 1] [0, 1] (dotOK_iff (by decide))
  refine ⟨x2, by simp [leftC1, e1, e2], q2.congr (by decide) (by decide) ?_⟩
  intro σ
  simp only [Spec.leftC1, List.map_cons, List.map_nil, gidx_single] <;> ring

/-- C60, corner `leftC1`. -/
theorem C60_leftC1 (dim : Nat → Nat) (C T P : Tensor K) (hC : C.shape = [dim 0, dim 1]) (hT : T.shape = [dim 1, dim 2, dim 3]) (hP : P.shape = [dim 0, dim 2, dim 4]) :
    ∃ R, leftC1 C T P = some R ∧ Spec.IsNetwork dim R [[4], [3]] [0, 1, 2] (Spec.leftC1 C T P) := by
  obtain ⟨R, e, q⟩ := leftC1_denotes dim C T P hC hT hP
  exact ⟨R, e, isNetwork q⟩

theorem leftC2_denotes (dim : Nat → Nat) (C T P : Tensor K) (hC : C.shape = [dim 0, dim 1]) (hT : T.shape = [dim 2, dim 1, dim 3]) (hP : P.shape = [dim 0, dim 2, dim 4]) :
    ∃ R, leftC2 C T P = some R ∧ Denotes dim R [[4], [3]] [0, 1, 2] [0, 1, 2, 3, 4] (Spec.leftC2 C T P) := by
  have dC := Denotes.leaf dim C [[0], [1]] (by simp [gdim, hC])
  have dT := Denotes.leaf dim T [[2], [1], [3]] (by simp [gdim, hT])
  have dP := Denotes.leaf dim P [[0], [2], [4]] (by simp [gdim, hP])
  obtain ⟨x1, e1, q1⟩ := Denotes.tensordot dC dT [1] [1] (dotOK_iff (by decide))
  obtain ⟨x2, e2, q2⟩ := Denotes.tensordot dP q1 [0, 1] [0, 1] (dotOK_iff (by decide))
  refine ⟨x2, by simp [leftC2, e1, e2], q2.congr (by decide) (by decide) ?_⟩
  intro σ
  simp only [Spec.leftC2, List.map_cons, List.map_nil, gidx_single] <;> ring

/-- C60, corner `leftC2`. -/
theorem C60_leftC2 (dim : Nat → Nat) (C T P : Tensor K) (hC : C.shape = [dim 0, dim 1]) (hT : T.shape = [dim 2, dim 1, dim 3]) (hP : P.shape = [dim 0, dim 2, dim 4]) :
    ∃ R, leftC2 C T P = some R ∧ Spec.IsNetwork dim R [[4], [3]] [0, 1, 2] (Spec.leftC2 C T P) := by
  obtain ⟨R, e, q⟩ := leftC2_denotes dim C T P hC hT hP
  exact ⟨R, e, isNetwork q⟩

theorem downC1_denotes (dim : Nat → Nat) (C T P : Tensor K) (hC : C.shape = [dim 0, dim 1]) (hT : T.shape = [dim 2, dim 0, dim 3]) (hP : P.shape = [dim 1, dim 3, dim 4]) :
    ∃ R, downC1 C T P = some R ∧ Denotes dim R [[2], [4]] [0, 1, 3] [0, 1, 2, 3, 4] (Spec.downC1 C T P) := by
  have dC := Denotes.leaf dim C [[0], [1]] (by simp [gdim, hC])
  have dT := Denotes.leaf dim T [[2], [0], [3]] (by simp [gdim, hT])
  have dP := Denotes.leaf dim P [[1], [3], [4]] (by simp [gdim, hP])
  obtain ⟨x1, e1, q1⟩ := Denotes.tensordot dC dT [0] [1] (dotOK_iff (by decide))
  obtain ⟨x2, e2, q2⟩ := Denotes.tensordot q1 dP [0, 2] [0, 1] (dotOK_iff (by decide))
  refine ⟨x2, by simp [downC1, e1, e2], q2.congr (by decide) (by decide) ?_⟩
  intro σ
  simp only [Spec.downC1, List.map_cons, List.map_nil, gidx_single] <;> ring

/-- C60, corner `downC1`. -/
theorem C60_downC1 (dim : Nat → Nat) (C T P : Tensor K) (hC : C.shape = [dim 0, dim 1]) (hT : T.shape = [dim 2, dim 0, dim 3]) (hP : P.shape = [dim 1, dim 3, dim 4]) :
    ∃ R, downC1 C T P = some R ∧ Spec.IsNetwork dim R [[2], [4]] [0, 1, 3] (Spec.downC1 C T P) := by
  obtain ⟨R, e, q⟩ := downC1_denotes dim C T P hC hT hP
  exact ⟨R, e, isNetwork q⟩

theorem downC2_denotes (dim : Nat → Nat) (C T P : Tensor K) (hC : C.shape = [dim 0, dim 1]) (hT : T.shape = [dim 2, dim 3, dim 0]) (hP : P.shape = [dim 1, dim 3, dim 4]) :
    ∃ R, downC2 C T P = some R ∧ Denotes dim R [[2], [4]] [0, 1, 3] [0, 1, 2, 3, 4] (Spec.downC2 C T P) := by
  have dC := Denotes.leaf dim C [[0], [1]] (by simp [gdim, hC])
  have dT := Denotes.leaf dim T [[2], [3], [0]] (by simp [gdim, hT])
  have dP := Denotes.leaf dim P [[1], [3], [4]] (by simp [gdim, hP])
  obtain ⟨x1, e1, q1⟩ := Denotes.tensordot dC dT [0] [2] (dotOK_iff (by decide))
  obtain ⟨x2, e2, q2⟩ := Denotes.tensordot q1 dP [0, 2] [0, 1] (dotOK_iff (by decide))
  refine ⟨x2, by simp [downC2, e1, e2], q2.congr (by decide) (by decide) ?_⟩
  intro σ
  simp only [Spec.downC2, List.map_cons, List.map_nil, gidx_single] <;> ring

/-- C60, corner `downC2`. -/
theorem C60_downC2 (dim : Nat → Nat) (C T P : Tensor K) (hC : C.shape = [dim 0, dim 1]) (hT : T.shape = [dim 2, dim 3, dim 0]) (hP : P.shape = [dim 1, dim 3, dim 4]) :
    ∃ R, downC2 C T P = some R ∧ Spec.IsNetwork dim R [[2], [4]] [0, 1, 3] (Spec.downC2 C T P) := by
  obtain ⟨R, e, q⟩ := downC2_denotes dim C T P hC hT hP
  exact ⟨R, e, isNetwork q⟩

theorem rightC1_denotes (dim : Nat → Nat) (C T P : Tensor K) (hC : C.shape = [dim 0, dim 1]) (hT : T.shape = [dim 2, dim 3, dim 1]) (hP : P.shape = [dim 0, dim 2, dim 4]) :
    ∃ R, rightC1 C T P = some R ∧ Denotes dim R [[4], [3]] [0, 1, 2] [0, 1, 2, 3, 4] (Spec.rightC1 C T P) := by
  have dC := Denotes.leaf dim C [[0], [1]] (by simp [gdim, hC])
  have dT := Denotes.leaf dim T [[2], [3], [1]] (by simp [gdim, hT])
  have dP := Denotes.leaf dim P [[0], [2], [4]] (by simp [gdim, hP])
  obtain ⟨x1, e1, q1⟩ := Denotes.tensordot dC dT [1] [2] (dotOK_iff (by decide))
  obtain ⟨x2, e2, q2⟩ := Denotes.tensordot dP q1 [0, 1] [0, 1] (dotOK_iff (by decide))
  refine ⟨x2, by simp [rightC1, e1, e2], q2.congr (by decide) (by decide) ?_⟩
  intro σ
  simp only [Spec.rightC1, List.map_cons, List.map_nil, gidx_single] <;> ring

/-- C60, corner `rightC1`. -/
theorem C60_rightC1 (dim : Nat → Nat) (C T P : Tensor K) (hC : C.shape = [dim 0, dim 1]) (hT : T.shape = [dim 2, dim 3, dim 1]) (hP : P.shape = [dim 0, dim 2, dim 4]) :
    ∃ R, rightC1 C T P = some R ∧ Spec.IsNetwork dim R [[4], [3]] [0, 1, 2] (Spec.rightC1 C T P) := by
  obtain ⟨R, e, q⟩ := rightC1_denotes dim C T P hC hT hP
  exact ⟨R, e, isNetwork q⟩

theorem rightC2_denotes (dim : Nat → Nat) (C T P : Tensor K) (hC : C.shape = [dim 0, dim 1]) (hT : T.shape = [dim 2, dim 3, dim 0]) (hP : P.shape = [dim 1, dim 3, dim 4]) :
    ∃ R, rightC2 C T P = some R ∧ Denotes dim R [[2], [4]] [0, 1, 3] [0, 1, 2, 3, 4] (Spec.rightC2 C T P) := by
  have dC := Denotes.leaf dim C [[0], [1]] (by simp [gdim, hC])
  have dT := Denotes.leaf dim T [[2], [3], [0]] (by simp [gdim, hT])
  have dP := Denotes.leaf dim P [[1], [3], [4]] (by simp [gdim, hP])
  obtain ⟨x1, e1, q1⟩ := Denotes.tensordot dC dT [0] [2] (dotOK_iff (by decide))
  obtain ⟨x2, e2, q2⟩ := Denotes.tensordot q1 dP [0, 2] [0, 1] (dotOK_iff (by decide))
  refine ⟨x2, by simp [rightC2, e1, e2], q2.congr (by decide) (by decide) ?_⟩
  intro σ
  simp only [Spec.rightC2, List.map_cons, List.map_nil, gidx_single] <;> ring

/-- C60, corner `rightC2`. -/
theorem C60_rightC2 (dim : Nat → Nat) (C T P : Tensor K) (hC : C.shape = [dim 0, dim 1]) (hT : T.shape = [dim 2, dim 3, dim 0]) (hP : P.shape = [dim 1, dim 3, dim 4]) :
    ∃ R, rightC2 C T P = some R ∧ Spec.IsNetwork dim R [[2], [4]] [0, 1, 3] (Spec.rightC2 C T P) := by
  obtain ⟨R, e, q⟩ := rightC2_denotes dim C T P hC hT hP
  exact ⟨R, e, isNetwork q⟩

theorem upTdl_denotes (dim : Nat → Nat) (T A Pt2 P1 : Tensor K) (hA : A.shape = [dim 12, dim 1, dim 8, dim 5, dim 10])
    (g1 : dim 2 = dim 1) (g2 : dim 9 = dim 8) (g3 : dim 6 = dim 5) (g4 : dim 11 = dim 10)
    (hT : T.shape = [dim 0, dim 1 * dim 2, dim 3]) (hQ : Pt2.shape = [dim 0, dim 8 * dim 9, dim 4]) (hP : P1.shape = [dim 3, dim 10 * dim 11, dim 7]) :
    ∃ A' R, doubleLayer A = some A' ∧ upTdl T A' Pt2 P1 = some R ∧
      Denotes dim R [[4], [5, 6], [7]] [0, 1, 2, 3, 8, 9, 10, 11, 12] [0, 1, 2, 3, 4, 5, 6, 7, 8, 9, 10, 11, 12] (Spec.upT dim T A Pt2 P1) := by
  have dT := Denotes.leaf dim T [[0], [1, 2], [3]] (by simp [gdim, hT])
  have dQ := Denotes.leaf dim Pt2 [[0], [8, 9], [4]] (by simp [gdim, hQ])
  have dP := Denotes.leaf dim P1 [[3], [10, 11], [7]] (by simp [gdim, hP])
  obtain ⟨A', eA, dA⟩ := doubleLayer_denotes dim A 12 1 8 5 10 2 9 6 11 (by decide) hA g1 g2 g3 g4
  obtain ⟨x1, e1, q1⟩ := Denotes.tensordot dQ dT [0] [0] (dotOK_iff (by decide))
  obtain ⟨x2, e2, q2⟩ := Denotes.tensordot q1 dA [0, 2] [1, 0] (dotOK_iff (by decide))
  obtain ⟨x3, e3, q3⟩ := Denotes.tensordot q2 dP [1, 3] [0, 1] (dotOK_iff (by decide))
  refine ⟨A', x3, eA, by simp [upTdl, e1, e2, e3], q3.congr (by decide) (by decide) ?_⟩
  intro σ
  simp only [Spec.upT, singles, List.map_cons, List.map_nil, gidx_single, fused_eq] <;> ring

theorem upTsl_denotes (dim : Nat → Nat) (T A Pt2 P1 : Tensor K) (hA : A.shape = [dim 12, dim 1, dim 8, dim 5, dim 10])
    (g1 : dim 2 = dim 1) (g2 : dim 9 = dim 8) (g3 : dim 6 = dim 5) (g4 : dim 11 = dim 10)
    (hT : T.shape = [dim 0, dim 1 * dim 2, dim 3]) (hQ : Pt2.shape = [dim 0, dim 8 * dim 9, dim 4]) (hP : P1.shape = [dim 3, dim 10 * dim 11, dim 7]) :
    ∃ R, upTsl T A Pt2 P1 = some R ∧
      Denotes dim R [[4], [5, 6], [7]] [0, 1, 2, 3, 8, 9, 10, 11, 12] [0, 1, 2, 3, 4, 5, 6, 7, 8, 9, 10, 11, 12] (Spec.upT dim T A Pt2 P1) := by
  have dT := Denotes.leaf dim T [[0], [1, 2], [3]] (by simp [gdim, hT])
  have dQ := Denotes.leaf dim Pt2 [[0], [8, 9], [4]] (by simp [gdim, hQ])
  have dP := Denotes.leaf dim P1 [[3], [10, 11], [7]] (by simp [gdim, hP])
  have dA := Denotes.leaf dim A [[12], [1], [8], [5], [10]] (by simp [gdim, hA])
  have dB := (Denotes.leaf dim A [[12], [2], [9], [6], [11]] (by simp [gdim, hA, g1, g2, g3, g4])).conj
  obtain ⟨x1, e1, q1⟩ := Denotes.view dT [[0], [1], [2], [3]] [T.size 0, A.size 1, A.size 1, T.size 2] (by decide) (by simp [size, gdim, pow_two, hT, hQ, hP, hA, g1, g2, g3, g4])
  obtain ⟨x2, e2, q2⟩ := Denotes.view dQ [[0], [8], [9], [4]] [Pt2.size 0, A.size 2, A.size 2, Pt2.size 2] (by decide) (by simp [size, gdim, pow_two, hT, hQ, hP, hA, g1, g2, g3, g4])
  obtain ⟨x3, e3, q3⟩ := Denotes.view dP [[3], [10], [11], [7]] [P1.size 0, A.size 4, A.size 4, P1.size 2] (by decide) (by simp [size, gdim, pow_two, hT, hQ, hP, hA, g1, g2, g3, g4])
  obtain ⟨x4, e4, q4⟩ := Denotes.einsum' (OpsNet.cons (l := [0, 1, 2, 3]) q1 (OpsNet.cons (l := [0, 8, 9, 4]) q2 (OpsNet.cons (l := [12, 1, 8, 5, 10]) dA (OpsNet.cons (l := [12, 2, 9, 6, 11]) dB (OpsNet.cons (l := [3, 10, 11, 7]) q3 OpsNet.nil))))) [4, 5, 6, 7] (by decide)
  have h4 : x4.shape = [dim 4, dim 5, dim 6, dim 7] := by simp [q4.shape, singles]
  obtain ⟨x5, e5, q5⟩ := Denotes.view q4 [[4], [5, 6], [7]] [x4.size 0, x4.size 1 * x4.size 2, x4.size 3] (by decide) (by simp [size, gdim, pow_two, h4])
  refine ⟨x5, by simp [upTsl, e1, e2, e3, e4, e5], q5.congr (by decide) (by decide) ?_⟩
  intro σ
  simp only [Spec.upT, singles, List.prod_cons, List.prod_nil, mul_one, List.map_cons, List.map_nil, gidx_single, fused_eq] <;> ring

/-- C60: the half-row/column tensor of the move `up`: both modes succeed, give the network and agree. -/
theorem C60_upT (dim : Nat → Nat) (T A Pt2 P1 : Tensor K) (hA : A.shape = [dim 12, dim 1, dim 8, dim 5, dim 10])
    (g1 : dim 2 = dim 1) (g2 : dim 9 = dim 8) (g3 : dim 6 = dim 5) (g4 : dim 11 = dim 10)
    (hT : T.shape = [dim 0, dim 1 * dim 2, dim 3]) (hQ : Pt2.shape = [dim 0, dim 8 * dim 9, dim 4]) (hP : P1.shape = [dim 3, dim 10 * dim 11, dim 7]) :
    ∃ A' R R', doubleLayer A = some A' ∧ upTdl T A' Pt2 P1 = some R ∧ upTsl T A Pt2 P1 = some R' ∧ Same R R' ∧
      Spec.IsNetwork dim R [[4], [5, 6], [7]] [0, 1, 2, 3, 8, 9, 10, 11, 12] (Spec.upT dim T A Pt2 P1) := by
  obtain ⟨A', R, e1, e2, q⟩ := upTdl_denotes dim T A Pt2 P1 hA g1 g2 g3 g4 hT hQ hP
  obtain ⟨R', e3, q'⟩ := upTsl_denotes dim T A Pt2 P1 hA g1 g2 g3 g4 hT hQ hP
  exact ⟨A', R, R', e1, e2, e3, q.same q' (by decide) (List.Perm.refl _) (fun _ => rfl), isNetwork q⟩

theorem leftTdl_denotes (dim : Nat → Nat) (T A Pt2 P1 : Tensor K) (hA : A.shape = [dim 8, dim 4, dim 2, dim 6, dim 10])
    (g1 : dim 5 = dim 4) (g2 : dim 3 = dim 2) (g3 : dim 7 = dim 6) (g4 : dim 11 = dim 10)
    (hT : T.shape = [dim 0, dim 1, dim 2 * dim 3]) (hQ : Pt2.shape = [dim 1, dim 6 * dim 7, dim 12]) (hP : P1.shape = [dim 0, dim 4 * dim 5, dim 9]) :
    ∃ A' R, doubleLayer A = some A' ∧ leftTdl T A' Pt2 P1 = some R ∧
      Denotes dim R [[9], [12], [10, 11]] [0, 1, 2, 3, 4, 5, 6, 7, 8] [0, 1, 2, 3, 4, 5, 6, 7, 8, 9, 10, 11, 12] (Spec.leftT dim T A Pt2 P1) := by
  have dT := Denotes.leaf dim T [[0], [1], [2, 3]] (by simp [gdim, hT])
  have dQ := Denotes.leaf dim Pt2 [[1], [6, 7], [12]] (by simp [gdim, hQ])
  have dP := Denotes.leaf dim P1 [[0], [4, 5], [9]] (by simp [gdim, hP])
  obtain ⟨A', eA, dA⟩ := doubleLayer_denotes dim A 8 4 2 6 10 5 3 7 11 (by decide) hA g1 g2 g3 g4
  obtain ⟨x1, e1, q1⟩ := Denotes.tensordot dP dT [0] [0] (dotOK_iff (by decide))
  obtain ⟨x2, e2, q2⟩ := Denotes.tensordot q1 dA [0, 3] [0, 1] (dotOK_iff (by decide))
  obtain ⟨x3, e3, q3⟩ := Denotes.tensordot q2 dQ [1, 2] [0, 1] (dotOK_iff (by decide))
  obtain ⟨x4, e4, q4⟩ := Denotes.permute q3 [0, 2, 1] (by decide)
  refine ⟨A', x4, eA, by simp [leftTdl, e1, e2, e3, e4], q4.congr (by decide) (by decide) ?_⟩
  intro σ
  simp only [Spec.leftT, singles, List.map_cons, List.map_nil, gidx_single, fused_eq] <;> ring

theorem leftTsl_denotes (dim : Nat → Nat) (T A Pt2 P1 : Tensor K) (hA : A.shape = [dim 8, dim 4, dim 2, dim 6, dim 10])
    (g1 : dim 5 = dim 4) (g2 : dim 3 = dim 2) (g3 : dim 7 = dim 6) (g4 : dim 11 = dim 10)
    (hT : T.shape = [dim 0, dim 1, dim 2 * dim 3]) (hQ : Pt2.shape = [dim 1, dim 6 * dim 7, dim 12]) (hP : P1.shape = [dim 0, dim 4 * dim 5, dim 9]) :
    ∃ R, leftTsl T A Pt2 P1 = some R ∧
      Denotes dim R [[9], [12], [10, 11]] [0, 1, 2, 3, 4, 5, 6, 7, 8] [0, 1, 2, 3, 4, 5, 6, 7, 8, 9, 10, 11, 12] (Spec.leftT dim T A Pt2 P1) := by
  have dT := Denotes.leaf dim T [[0], [1], [2, 3]] (by simp [gdim, hT])
  have dQ := Denotes.leaf dim Pt2 [[1], [6, 7], [12]] (by simp [gdim, hQ])
  have dP := Denotes.leaf dim P1 [[0], [4, 5], [9]] (by simp [gdim, hP])
  have dA := Denotes.leaf dim A [[8], [4], [2], [6], [10]] (by simp [gdim, hA])
  have dB := (Denotes.leaf dim A [[8], [5], [3], [7], [11]] (by simp [gdim, hA, g1, g2, g3, g4])).conj
  obtain ⟨x1, e1, q1⟩ := Denotes.view dT [[0], [1], [2], [3]] [T.size 0, T.size 1, A.size 2, A.size 2] (by decide) (by simp [size, gdim, pow_two, hT, hQ, hP, hA, g1, g2, g3, g4])
  obtain ⟨x2, e2, q2⟩ := Denotes.view dQ [[1], [6], [7], [12]] [Pt2.size 0, A.size 3, A.size 3, Pt2.size 2] (by decide) (by simp [size, gdim, pow_two, hT, hQ, hP, hA, g1, g2, g3, g4])
  obtain ⟨x3, e3, q3⟩ := Denotes.view dP [[0], [4], [5], [9]] [P1.size 0, A.size 1, A.size 1, P1.size 2] (by decide) (by simp [size, gdim, pow_two, hT, hQ, hP, hA, g1, g2, g3, g4])
  obtain ⟨x4, e4, q4⟩ := Denotes.einsum' (OpsNet.cons (l := [0, 1, 2, 3]) q1 (OpsNet.cons (l := [1, 6, 7, 12]) q2 (OpsNet.cons (l := [8, 4, 2, 6, 10]) dA (OpsNet.cons (l := [8, 5, 3, 7, 11]) dB (OpsNet.cons (l := [0, 4, 5, 9]) q3 OpsNet.nil))))) [9, 12, 10, 11] (by decide)
  have h4 : x4.shape = [dim 9, dim 12, dim 10, dim 11] := by simp [q4.shape, singles]
  obtain ⟨x5, e5, q5⟩ := Denotes.view q4 [[9], [12], [10, 11]] [x4.size 0, x4.size 1, x4.size 2 * x4.size 3] (by decide) (by simp [size, gdim, pow_two, h4])
  refine ⟨x5, by simp [leftTsl, e1, e2, e3, e4, e5], q5.congr (by decide) (by decide) ?_⟩
  intro σ
  simp only [Spec.leftT, singles, List.prod_cons, List.prod_nil, mul_one, List.map_cons, List.map_nil, gidx_single, fused_eq] <;> ring

/-- C60: the half-row/column tensor of the move `left`: both modes succeed, give the network and agree. -/
theorem C60_leftT (dim : Nat → Nat) (T A Pt2 P1 : Tensor K) (hA : A.shape = [dim 8, dim 4, dim 2, dim 6, dim 10])
    (g1 : dim 5 = dim 4) (g2 : dim 3 = dim 2) (g3 : dim 7 = dim 6) (g4 : dim 11 = dim 10)
    (hT : T.shape = [dim 0, dim 1, dim 2 * dim 3]) (hQ : Pt2.shape = [dim 1, dim 6 * dim 7, dim 12]) (hP : P1.shape = [dim 0, dim 4 * dim 5, dim 9]) :
    ∃ A' R R', doubleLayer A = some A' ∧ leftTdl T A' Pt2 P1 = some R ∧ leftTsl T A Pt2 P1 = some R' ∧ Same R R' ∧
      Spec.IsNetwork dim R [[9], [12], [10, 11]] [0, 1, 2, 3, 4, 5, 6, 7, 8] (Spec.leftT dim T A Pt2 P1) := by
  obtain ⟨A', R, e1, e2, q⟩ := leftTdl_denotes dim T A Pt2 P1 hA g1 g2 g3 g4 hT hQ hP
  obtain ⟨R', e3, q'⟩ := leftTsl_denotes dim T A Pt2 P1 hA g1 g2 g3 g4 hT hQ hP
  exact ⟨A', R, R', e1, e2, e3, q.same q' (by decide) (List.Perm.refl _) (fun _ => rfl), isNetwork q⟩

theorem downTdl_denotes (dim : Nat → Nat) (T A Pt2 P1 : Tensor K) (hA : A.shape = [dim 12, dim 5, dim 8, dim 0, dim 10])
    (g1 : dim 6 = dim 5) (g2 : dim 9 = dim 8) (g3 : dim 1 = dim 0) (g4 : dim 11 = dim 10)
    (hT : T.shape = [dim 0 * dim 1, dim 2, dim 3]) (hQ : Pt2.shape = [dim 3, dim 10 * dim 11, dim 7]) (hP : P1.shape = [dim 2, dim 8 * dim 9, dim 4]) :
    ∃ A' R, doubleLayer A = some A' ∧ downTdl T A' Pt2 P1 = some R ∧
      Denotes dim R [[5, 6], [4], [7]] [0, 1, 2, 3, 8, 9, 10, 11, 12] [0, 1, 2, 3, 4, 5, 6, 7, 8, 9, 10, 11, 12] (Spec.downT dim T A Pt2 P1) := by
  have dT := Denotes.leaf dim T [[0, 1], [2], [3]] (by simp [gdim, hT])
  have dQ := Denotes.leaf dim Pt2 [[3], [10, 11], [7]] (by simp [gdim, hQ])
  have dP := Denotes.leaf dim P1 [[2], [8, 9], [4]] (by simp [gdim, hP])
  obtain ⟨A', eA, dA⟩ := doubleLayer_denotes dim A 12 5 8 0 10 6 9 1 11 (by decide) hA g1 g2 g3 g4
  obtain ⟨x1, e1, q1⟩ := Denotes.tensordot dP dT [0] [1] (dotOK_iff (by decide))
  obtain ⟨x2, e2, q2⟩ := Denotes.tensordot q1 dA [0, 2] [1, 2] (dotOK_iff (by decide))
  obtain ⟨x3, e3, q3⟩ := Denotes.tensordot q2 dQ [1, 3] [0, 1] (dotOK_iff (by decide))
  obtain ⟨x4, e4, q4⟩ := Denotes.permute q3 [1, 0, 2] (by decide)
  refine ⟨A', x4, eA, by simp [downTdl, e1, e2, e3, e4], q4.congr (by decide) (by decide) ?_⟩
  intro σ
  simp only [Spec.downT, singles, List.map_cons, List.map_nil, gidx_single, fused_eq] <;> ring

theorem downTsl_denotes (dim : Nat → Nat) (T A Pt2 P1 : Tensor K) (hA : A.shape = [dim 12, dim 5, dim 8, dim 0, dim 10])
    (g1 : dim 6 = dim 5) (g2 : dim 9 = dim 8) (g3 : dim 1 = dim 0) (g4 : dim 11 = dim 10)
    (hT : T.shape = [dim 0 * dim 1, dim 2, dim 3]) (hQ : Pt2.shape = [dim 3, dim 10 * dim 11, dim 7]) (hP : P1.shape = [dim 2, dim 8 * dim 9, dim 4]) :
    ∃ R, downTsl T A Pt2 P1 = some R ∧
      Denotes dim R [[5, 6], [4], [7]] [0, 1, 2, 3, 8, 9, 10, 11, 12] [0, 1, 2, 3, 4, 5, 6, 7, 8, 9, 10, 11, 12] (Spec.downT dim T A Pt2 P1) := by
  have dT := Denotes.leaf dim T [[0, 1], [2], [3]] (by simp [gdim, hT])
  have dQ := Denotes.leaf dim Pt2 [[3], [10, 11], [7]] (by simp [gdim, hQ])
  have dP := Denotes.leaf dim P1 [[2], [8, 9], [4]] (by simp [gdim, hP])
  have dA := Denotes.leaf dim A [[12], [5], [8], [0], [10]] (by simp [gdim, hA])
  have dB := (Denotes.leaf dim A [[12], [6], [9], [1], [11]] (by simp [gdim, hA, g1, g2, g3, g4])).conj
  obtain ⟨x1, e1, q1⟩ := Denotes.view dT [[0], [1], [2], [3]] [A.size 3, A.size 3, T.size 1, T.size 2] (by decide) (by simp [size, gdim, pow_two, hT, hQ, hP, hA, g1, g2, g3, g4])
  obtain ⟨x2, e2, q2⟩ := Denotes.view dQ [[3], [10], [11], [7]] [Pt2.size 0, A.size 4, A.size 4, Pt2.size 2] (by decide) (by simp [size, gdim, pow_two, hT, hQ, hP, hA, g1, g2, g3, g4])
  obtain ⟨x3, e3, q3⟩ := Denotes.view dP [[2], [8], [9], [4]] [P1.size 0, A.size 2, A.size 2, P1.size 2] (by decide) (by simp [size, gdim, pow_two, hT, hQ, hP, hA, g1, g2, g3, g4])
  obtain ⟨x4, e4, q4⟩ := Denotes.einsum' (OpsNet.cons (l := [0, 1, 2, 3]) q1 (OpsNet.cons (l := [3, 10, 11, 7]) q2 (OpsNet.cons (l := [12, 5, 8, 0, 10]) dA (OpsNet.cons (l := [12, 6, 9, 1, 11]) dB (OpsNet.cons (l := [2, 8, 9, 4]) q3 OpsNet.nil))))) [5, 6, 4, 7] (by decide)
  have h4 : x4.shape = [dim 5, dim 6, dim 4, dim 7] := by simp [q4.shape, singles]
  obtain ⟨x5, e5, q5⟩ := Denotes.view q4 [[5, 6], [4], [7]] [x4.size 0 * x4.size 1, x4.size 2, x4.size 3] (by decide) (by simp [size, gdim, pow_two, h4])
  refine ⟨x5, by simp [downTsl, e1, e2, e3, e4, e5], q5.congr (by decide) (by decide) ?_⟩
  intro σ
  simp only [Spec.downT, singles, List.prod_cons, List.prod_nil, mul_one, List.map_cons, List.map_nil, gidx_single, fused_eq] <;> ring

/-- C60: the half-row/column tensor of the move `down`: both modes succeed, give the network and agree. -/
theorem C60_downT (dim : Nat → Nat) (T A Pt2 P1 : Tensor K) (hA : A.shape = [dim 12, dim 5, dim 8, dim 0, dim 10])
    (g1 : dim 6 = dim 5) (g2 : dim 9 = dim 8) (g3 : dim 1 = dim 0) (g4 : dim 11 = dim 10)
    (hT : T.shape = [dim 0 * dim 1, dim 2, dim 3]) (hQ : Pt2.shape = [dim 3, dim 10 * dim 11, dim 7]) (hP : P1.shape = [dim 2, dim 8 * dim 9, dim 4]) :
    ∃ A' R R', doubleLayer A = some A' ∧ downTdl T A' Pt2 P1 = some R ∧ downTsl T A Pt2 P1 = some R' ∧ Same R R' ∧
      Spec.IsNetwork dim R [[5, 6], [4], [7]] [0, 1, 2, 3, 8, 9, 10, 11, 12] (Spec.downT dim T A Pt2 P1) := by
  obtain ⟨A', R, e1, e2, q⟩ := downTdl_denotes dim T A Pt2 P1 hA g1 g2 g3 g4 hT hQ hP
  obtain ⟨R', e3, q'⟩ := downTsl_denotes dim T A Pt2 P1 hA g1 g2 g3 g4 hT hQ hP
  exact ⟨A', R, R', e1, e2, e3, q.same q' (by decide) (List.Perm.refl _) (fun _ => rfl), isNetwork q⟩

theorem rightTdl_denotes (dim : Nat → Nat) (T A Pt2 P1 : Tensor K) (hA : A.shape = [dim 8, dim 4, dim 10, dim 6, dim 1])
    (g1 : dim 5 = dim 4) (g2 : dim 11 = dim 10) (g3 : dim 7 = dim 6) (g4 : dim 2 = dim 1)
    (hT : T.shape = [dim 0, dim 1 * dim 2, dim 3]) (hQ : Pt2.shape = [dim 0, dim 4 * dim 5, dim 9]) (hP : P1.shape = [dim 3, dim 6 * dim 7, dim 12]) :
    ∃ A' R, doubleLayer A = some A' ∧ rightTdl T A' Pt2 P1 = some R ∧
      Denotes dim R [[9], [10, 11], [12]] [0, 1, 2, 3, 4, 5, 6, 7, 8] [0, 1, 2, 3, 4, 5, 6, 7, 8, 9, 10, 11, 12] (Spec.rightT dim T A Pt2 P1) := by
  have dT := Denotes.leaf dim T [[0], [1, 2], [3]] (by simp [gdim, hT])
  have dQ := Denotes.leaf dim Pt2 [[0], [4, 5], [9]] (by simp [gdim, hQ])
  have dP := Denotes.leaf dim P1 [[3], [6, 7], [12]] (by simp [gdim, hP])
  obtain ⟨A', eA, dA⟩ := doubleLayer_denotes dim A 8 4 10 6 1 5 11 7 2 (by decide) hA g1 g2 g3 g4
  obtain ⟨x1, e1, q1⟩ := Denotes.tensordot dQ dT [0] [0] (dotOK_iff (by decide))
  obtain ⟨x2, e2, q2⟩ := Denotes.tensordot q1 dA [0, 2] [0, 3] (dotOK_iff (by decide))
  obtain ⟨x3, e3, q3⟩ := Denotes.tensordot q2 dP [1, 3] [0, 1] (dotOK_iff (by decide))
  refine ⟨A', x3, eA, by simp [rightTdl, e1, e2, e3], q3.congr (by decide) (by decide) ?_⟩
  intro σ
  simp only [Spec.rightT, singles, List.map_cons, List.map_nil, gidx_single, fused_eq] <;> ring

theorem rightTsl_denotes (dim : Nat → Nat) (T A Pt2 P1 : Tensor K) (hA : A.shape = [dim 8, dim 4, dim 10, dim 6, dim 1])
    (g1 : dim 5 = dim 4) (g2 : dim 11 = dim 10) (g3 : dim 7 = dim 6) (g4 : dim 2 = dim 1)
    (hT : T.shape = [dim 0, dim 1 * dim 2, dim 3]) (hQ : Pt2.shape = [dim 0, dim 4 * dim 5, dim 9]) (hP : P1.shape = [dim 3, dim 6 * dim 7, dim 12]) (hsq : dim 10 = dim 1) :
    ∃ R, rightTsl T A Pt2 P1 = some R ∧
      Denotes dim R [[9], [10, 11], [12]] [0, 1, 2, 3, 4, 5, 6, 7, 8] [0, 1, 2, 3, 4, 5, 6, 7, 8, 9, 10, 11, 12] (Spec.rightT dim T A Pt2 P1) := by
  have dT := Denotes.leaf dim T [[0], [1, 2], [3]] (by simp [gdim, hT])
  have dQ := Denotes.leaf dim Pt2 [[0], [4, 5], [9]] (by simp [gdim, hQ])
  have dP := Denotes.leaf dim P1 [[3], [6, 7], [12]] (by simp [gdim, hP])
  have dA := Denotes.leaf dim A [[8], [4], [10], [6], [1]] (by simp [gdim, hA])
  have dB := (Denotes.leaf dim A [[8], [5], [11], [7], [2]] (by simp [gdim, hA, g1, g2, g3, g4])).conj
  obtain ⟨x1, e1, q1⟩ := Denotes.view dT [[0], [1], [2], [3]] [T.size 0, A.size 2, A.size 2, T.size 2] (by decide) (by simp [size, gdim, pow_two, hT, hQ, hP, hA, g1, g2, g3, g4, hsq])
  obtain ⟨x2, e2, q2⟩ := Denotes.view dQ [[0], [4], [5], [9]] [Pt2.size 0, A.size 1, A.size 1, Pt2.size 2] (by decide) (by simp [size, gdim, pow_two, hT, hQ, hP, hA, g1, g2, g3, g4, hsq])
  obtain ⟨x3, e3, q3⟩ := Denotes.view dP [[3], [6], [7], [12]] [P1.size 0, A.size 3, A.size 3, P1.size 2] (by decide) (by simp [size, gdim, pow_two, hT, hQ, hP, hA, g1, g2, g3, g4, hsq])
  obtain ⟨x4, e4, q4⟩ := Denotes.einsum' (OpsNet.cons (l := [0, 1, 2, 3]) q1 (OpsNet.cons (l := [0, 4, 5, 9]) q2 (OpsNet.cons (l := [8, 4, 10, 6, 1]) dA (OpsNet.cons (l := [8, 5, 11, 7, 2]) dB (OpsNet.cons (l := [3, 6, 7, 12]) q3 OpsNet.nil))))) [9, 10, 11, 12] (by decide)
  have h4 : x4.shape = [dim 9, dim 10, dim 11, dim 12] := by simp [q4.shape, singles]
  obtain ⟨x5, e5, q5⟩ := Denotes.view q4 [[9], [10, 11], [12]] [x4.size 0, x4.size 1 * x4.size 2, x4.size 3] (by decide) (by simp [size, gdim, pow_two, h4])
  refine ⟨x5, by simp [rightTsl, e1, e2, e3, e4, e5], q5.congr (by decide) (by decide) ?_⟩
  intro σ
  simp only [Spec.rightT, singles, List.prod_cons, List.prod_nil, mul_one, List.map_cons, List.map_nil, gidx_single, fused_eq] <;> ring

/-- C60, right move, double layer: always the network. -/
theorem C60_rightT_dl (dim : Nat → Nat) (T A Pt2 P1 : Tensor K) (hA : A.shape = [dim 8, dim 4, dim 10, dim 6, dim 1])
    (g1 : dim 5 = dim 4) (g2 : dim 11 = dim 10) (g3 : dim 7 = dim 6) (g4 : dim 2 = dim 1)
    (hT : T.shape = [dim 0, dim 1 * dim 2, dim 3]) (hQ : Pt2.shape = [dim 0, dim 4 * dim 5, dim 9]) (hP : P1.shape = [dim 3, dim 6 * dim 7, dim 12]) :
    ∃ A' R, doubleLayer A = some A' ∧ rightTdl T A' Pt2 P1 = some R ∧
      Spec.IsNetwork dim R [[9], [10, 11], [12]] [0, 1, 2, 3, 4, 5, 6, 7, 8] (Spec.rightT dim T A Pt2 P1) := by
  obtain ⟨A', R, e1, e2, q⟩ := rightTdl_denotes dim T A Pt2 P1 hA g1 g2 g3 g4 hT hQ hP
  exact ⟨A', R, e1, e2, isNetwork q⟩

/-- C60, right move: the modes agree if the left and right bond of the site have the same size. -/
theorem C60_rightT_partial (dim : Nat → Nat) (T A Pt2 P1 : Tensor K) (hA : A.shape = [dim 8, dim 4, dim 10, dim 6, dim 1])
    (g1 : dim 5 = dim 4) (g2 : dim 11 = dim 10) (g3 : dim 7 = dim 6) (g4 : dim 2 = dim 1)
    (hT : T.shape = [dim 0, dim 1 * dim 2, dim 3]) (hQ : Pt2.shape = [dim 0, dim 4 * dim 5, dim 9]) (hP : P1.shape = [dim 3, dim 6 * dim 7, dim 12]) (hsq : dim 10 = dim 1) :
    ∃ A' R R', doubleLayer A = some A' ∧ rightTdl T A' Pt2 P1 = some R ∧ rightTsl T A Pt2 P1 = some R' ∧ Same R R' ∧
      Spec.IsNetwork dim R [[9], [10, 11], [12]] [0, 1, 2, 3, 4, 5, 6, 7, 8] (Spec.rightT dim T A Pt2 P1) := by
  obtain ⟨A', R, e1, e2, q⟩ := rightTdl_denotes dim T A Pt2 P1 hA g1 g2 g3 g4 hT hQ hP
  obtain ⟨R', e3, q'⟩ := rightTsl_denotes dim T A Pt2 P1 hA g1 g2 g3 g4 hT hQ hP hsq
  exact ⟨A', R, R', e1, e2, e3, q.same q' (by decide) (List.Perm.refl _) (fun _ => rfl), isNetwork q⟩

/-- C60 is violated by the single-layer right move: it raises whenever the left and right bonds of the site differ (and the
environment bonds are not empty). -/
theorem C60_rightT_violated (dim : Nat → Nat) (T A Pt2 P1 : Tensor K) (hA : A.shape = [dim 8, dim 4, dim 10, dim 6, dim 1])
    (g1 : dim 5 = dim 4) (g2 : dim 11 = dim 10) (g3 : dim 7 = dim 6) (g4 : dim 2 = dim 1)
    (hT : T.shape = [dim 0, dim 1 * dim 2, dim 3]) (hQ : Pt2.shape = [dim 0, dim 4 * dim 5, dim 9]) (hP : P1.shape = [dim 3, dim 6 * dim 7, dim 12])
    (hne : dim 10 ≠ dim 1) (h0 : 0 < dim 0) (h3 : 0 < dim 3) : rightTsl T A Pt2 P1 = none := by
  have : view [T.size 0, A.size 2, A.size 2, T.size 2] T = none := by
    simp only [view, size, hT, hA, g4, List.getD_cons_zero, List.getD_cons_succ, List.prod_cons, List.prod_nil, mul_one]
    rw [if_neg]
    intro h
    have h := Nat.eq_of_mul_eq_mul_left h0 h
    rw [← mul_assoc] at h
    exact hne (Nat.mul_self_inj.1 (Nat.eq_of_mul_eq_mul_right h3 h))
  simp [rightTsl, this]

example := C60_upC1 (fun l => [2, 3, 4, 5, 6].getD l 0) (exT [2, 3]) (exT [3, 4, 5]) (exT [2, 4, 6]) rfl rfl rfl
example := C60_upC2 (fun l => [2, 3, 4, 5, 6].getD l 0) (exT [2, 3]) (exT [2, 4, 5]) (exT [3, 5, 6]) rfl rfl rfl
example := C60_leftC1 (fun l => [2, 3, 4, 5, 6].getD l 0) (exT [2, 3]) (exT [3, 4, 5]) (exT [2, 4, 6]) rfl rfl rfl
example := C60_leftC2 (fun l => [2, 3, 4, 5, 6].getD l 0) (exT [2, 3]) (exT [4, 3, 5]) (exT [2, 4, 6]) rfl rfl rfl
example := C60_downC1 (fun l => [2, 3, 4, 5, 6].getD l 0) (exT [2, 3]) (exT [4, 2, 5]) (exT [3, 5, 6]) rfl rfl rfl
example := C60_downC2 (fun l => [2, 3, 4, 5, 6].getD l 0) (exT [2, 3]) (exT [4, 5, 2]) (exT [3, 5, 6]) rfl rfl rfl
example := C60_rightC1 (fun l => [2, 3, 4, 5, 6].getD l 0) (exT [2, 3]) (exT [4, 5, 3]) (exT [2, 4, 6]) rfl rfl rfl
example := C60_rightC2 (fun l => [2, 3, 4, 5, 6].getD l 0) (exT [2, 3]) (exT [4, 5, 2]) (exT [3, 5, 6]) rfl rfl rfl
example := C60_upT (fun l => [2, 2, 2, 3, 4, 4, 4, 5, 3, 3, 5, 5, 2].getD l 0) (exT [2, 4, 3]) (exT [2, 2, 3, 4, 5]) (exT [2, 9, 4]) (exT [3, 25, 5]) rfl rfl rfl rfl rfl rfl rfl rfl
example := C60_leftT (fun l => [2, 3, 3, 3, 2, 2, 4, 4, 2, 4, 5, 5, 5].getD l 0) (exT [2, 3, 9]) (exT [2, 2, 3, 4, 5]) (exT [3, 16, 5]) (exT [2, 4, 4]) rfl rfl rfl rfl rfl rfl rfl rfl
example := C60_downT (fun l => [4, 4, 2, 3, 4, 2, 2, 5, 3, 3, 5, 5, 2].getD l 0) (exT [16, 2, 3]) (exT [2, 2, 3, 4, 5]) (exT [3, 25, 5]) (exT [2, 9, 4]) rfl rfl rfl rfl rfl rfl rfl rfl
example := C60_rightT_dl (fun l => [2, 5, 5, 3, 2, 2, 4, 4, 2, 4, 3, 3, 5].getD l 0) (exT [2, 25, 3]) (exT [2, 2, 3, 4, 5]) (exT [2, 4, 4]) (exT [3, 16, 5]) rfl rfl rfl rfl rfl rfl rfl rfl
example := C60_rightT_violated (fun l => [2, 5, 5, 3, 2, 2, 4, 4, 2, 4, 3, 3, 5].getD l 0) (exT [2, 25, 3]) (exT [2, 2, 3, 4, 5]) (exT [2, 4, 4]) (exT [3, 16, 5]) rfl rfl rfl rfl rfl rfl rfl rfl (by decide) (by decide) (by decide)
example := C60_rightT_partial (fun l => [2, 5, 5, 3, 2, 2, 4, 4, 2, 4, 5, 5, 5].getD l 0) (exT [2, 25, 3]) (exT [2, 2, 5, 4, 5]) (exT [2, 4, 4]) (exT [3, 16, 5]) rfl rfl rfl rfl rfl rfl rfl rfl rfl

end Verif.Absorb
