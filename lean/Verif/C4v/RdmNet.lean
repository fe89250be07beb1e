import Verif.C4v.RdmSpec
import Verif.C4v.Net
import Verif.Rdm.PlaqProps
import Verif.Tensor.Trace
/-
The networks computed by the C4v density matrices (generated).
-/
namespace Verif.C4v
open Tensor Ctm Rdm
set_option linter.unusedSimpArgs false
set_option linter.unusedVariables false
variable {K : Type} [RCLike K]

/-- The enlarged corner with open physical indices `12` (ket) and `13` (bra). -/
def Spec.openCorner (dim : Nat → Nat) (C T a : Tensor K) (σ : Nat → Nat) : K :=
  C.val [σ 0, σ 1] * T.val [σ 2, σ 1, Corner.Spec.fused dim σ 4 5] * T.val [σ 0, σ 3, Corner.Spec.fused dim σ 6 7] * (a.val [σ 12, σ 4, σ 6, σ 8, σ 10] * star (a.val [σ 13, σ 5, σ 7, σ 9, σ 11]))

/-- The left half of a row: the enlarged corner, the corner and the half-row below. -/
def Spec.openHalf (dim : Nat → Nat) (C T a : Tensor K) (σ : Nat → Nat) : K :=
  C.val [σ 0, σ 1] * T.val [σ 2, σ 1, Corner.Spec.fused dim σ 4 5] * T.val [σ 0, σ 3, Corner.Spec.fused dim σ 6 7] * (a.val [σ 12, σ 4, σ 6, σ 8, σ 10] * star (a.val [σ 13, σ 5, σ 7, σ 9, σ 11])) * (C.val [σ 3, σ 14] * T.val [σ 14, σ 15, Corner.Spec.fused dim σ 8 9])

theorem openSl_net {chi D p : Nat} {dim : Nat → Nat} (hd : dim = Spec.dim chi D p) {a C T : Tensor K} (hs : a.shape = [p, D, D, D, D])
    (hC : C.shape = [chi, chi]) (hT : T.shape = [chi, chi, D * D]) :
    ∃ R, openSl C T a = some R ∧
      Denotes dim R [[3, 8, 9], [2, 10, 11], [12], [13]] [0, 1, 4, 5, 6, 7] [0, 1, 2, 3, 4, 5, 6, 7, 8, 9, 10, 11, 12, 13] (Spec.openCorner dim C T a) := by
  have h0 : dim 0 = chi := by rw [hd]; rfl
  have h1 : dim 1 = chi := by rw [hd]; rfl
  have h2 : dim 2 = chi := by rw [hd]; rfl
  have h3 : dim 3 = chi := by rw [hd]; rfl
  have h4 : dim 4 = D := by rw [hd]; rfl
  have h5 : dim 5 = D := by rw [hd]; rfl
  have h6 : dim 6 = D := by rw [hd]; rfl
  have h7 : dim 7 = D := by rw [hd]; rfl
  have h8 : dim 8 = D := by rw [hd]; rfl
  have h9 : dim 9 = D := by rw [hd]; rfl
  have h10 : dim 10 = D := by rw [hd]; rfl
  have h11 : dim 11 = D := by rw [hd]; rfl
  have h12 : dim 12 = p := by rw [hd]; rfl
  have h13 : dim 13 = p := by rw [hd]; rfl
  have h14 : dim 14 = chi := by rw [hd]; rfl
  have h15 : dim 15 = chi := by rw [hd]; rfl
  have h16 : dim 16 = chi := by rw [hd]; rfl
  have dC := Denotes.leaf dim C [[0], [1]] (by simp [gdim, hC, h0, h1, h2, h3, h4, h5, h6, h7, h8, h9, h10, h11, h12, h13, h14, h15, h16])
  have dT1 := Denotes.leaf dim T [[2], [1], [4, 5]] (by simp [gdim, hT, h0, h1, h2, h3, h4, h5, h6, h7, h8, h9, h10, h11, h12, h13, h14, h15, h16])
  have dT2 := Denotes.leaf dim T [[0], [3], [6, 7]] (by simp [gdim, hT, h0, h1, h2, h3, h4, h5, h6, h7, h8, h9, h10, h11, h12, h13, h14, h15, h16])
  have da := Denotes.leaf dim a [[12], [4], [6], [8], [10]] (by simp [gdim, hs, h0, h1, h2, h3, h4, h5, h6, h7, h8, h9, h10, h11, h12, h13, h14, h15, h16])
  have db := (Denotes.leaf dim a [[13], [5], [7], [9], [11]] (by simp [gdim, hs, h0, h1, h2, h3, h4, h5, h6, h7, h8, h9, h10, h11, h12, h13, h14, h15, h16])).conj
  obtain ⟨x1, e1, q1⟩ := Denotes.tensordot dC dT1 [1] [1] (dotOK_iff (by decide))
  obtain ⟨x2, e2, q2⟩ := Denotes.tensordot q1 dT2 [0] [0] (dotOK_iff (by decide))
  have sx2' : x2.shape = List.map (gdim dim) [[2], [4, 5], [3], [6, 7]] := q2.shape
  have sx2 : x2.shape = [chi, D * D, chi, D * D] := by rw [sx2']; simp [gdim, h0, h1, h2, h3, h4, h5, h6, h7, h8, h9, h10, h11, h12, h13, h14, h15, h16]
  obtain ⟨x3, e3, q3⟩ := Denotes.view q2 [[2], [4], [5], [3], [6], [7]] [x2.size 0, a.size 1, a.size 1, x2.size 2, a.size 2, a.size 2] (by decide) (by simp [size, gdim, pow_two, sx2, hT, hs, h0, h1, h2, h3, h4, h5, h6, h7, h8, h9, h10, h11, h12, h13, h14, h15, h16])
  obtain ⟨x4, e4, q4⟩ := Denotes.tensordot q3 da [1, 4] [1, 2] (dotOK_iff (by decide))
  obtain ⟨x5, e5, q5⟩ := Denotes.tensordot q4 db [1, 3] [1, 2] (dotOK_iff (by decide))
  have sx5' : x5.shape = List.map (gdim dim) [[2], [3], [12], [8], [10], [13], [9], [11]] := q5.shape
  have sx5 : x5.shape = [chi, chi, p, D, D, p, D, D] := by rw [sx5']; simp [gdim, h0, h1, h2, h3, h4, h5, h6, h7, h8, h9, h10, h11, h12, h13, h14, h15, h16]
  obtain ⟨x6, e6, q6⟩ := Denotes.permute q5 [1, 3, 6, 0, 4, 7, 2, 5] (by decide)
  obtain ⟨x7, e7, q7⟩ := Denotes.view q6 [[3, 8, 9], [2, 10, 11], [12], [13]] [x5.size 1 * a.size 3 ^ 2, x5.size 0 * a.size 4 ^ 2, a.size 0, a.size 0] (by decide) (by simp [size, gdim, pow_two, sx5, mul_assoc, hT, hs, h0, h1, h2, h3, h4, h5, h6, h7, h8, h9, h10, h11, h12, h13, h14, h15, h16])
  refine ⟨x7, by simp [openSl, e1, e2, e3, e4, e5, e6, e7], q7.congr (by decide) (by decide) ?_⟩
  intro σ
  simp only [Spec.openCorner, List.map_cons, List.map_nil, gidx_single, Corner.fused_eq] <;> ring

theorem openDl_net {chi D p : Nat} {dim : Nat → Nat} (hd : dim = Spec.dim chi D p) {a C T : Tensor K} (hs : a.shape = [p, D, D, D, D])
    (hC : C.shape = [chi, chi]) (hT : T.shape = [chi, chi, D * D]) :
    ∃ R, openDl C T a = some R ∧
      Denotes dim R [[3, 8, 9], [2, 10, 11], [12], [13]] [0, 1, 4, 5, 6, 7] [0, 1, 2, 3, 4, 5, 6, 7, 8, 9, 10, 11, 12, 13] (Spec.openCorner dim C T a) := by
  have h0 : dim 0 = chi := by rw [hd]; rfl
  have h1 : dim 1 = chi := by rw [hd]; rfl
  have h2 : dim 2 = chi := by rw [hd]; rfl
  have h3 : dim 3 = chi := by rw [hd]; rfl
  have h4 : dim 4 = D := by rw [hd]; rfl
  have h5 : dim 5 = D := by rw [hd]; rfl
  have h6 : dim 6 = D := by rw [hd]; rfl
  have h7 : dim 7 = D := by rw [hd]; rfl
  have h8 : dim 8 = D := by rw [hd]; rfl
  have h9 : dim 9 = D := by rw [hd]; rfl
  have h10 : dim 10 = D := by rw [hd]; rfl
  have h11 : dim 11 = D := by rw [hd]; rfl
  have h12 : dim 12 = p := by rw [hd]; rfl
  have h13 : dim 13 = p := by rw [hd]; rfl
  have h14 : dim 14 = chi := by rw [hd]; rfl
  have h15 : dim 15 = chi := by rw [hd]; rfl
  have h16 : dim 16 = chi := by rw [hd]; rfl
  have dC := Denotes.leaf dim C [[0], [1]] (by simp [gdim, hC, h0, h1, h2, h3, h4, h5, h6, h7, h8, h9, h10, h11, h12, h13, h14, h15, h16])
  have dT1 := Denotes.leaf dim T [[2], [1], [4, 5]] (by simp [gdim, hT, h0, h1, h2, h3, h4, h5, h6, h7, h8, h9, h10, h11, h12, h13, h14, h15, h16])
  have dT2 := Denotes.leaf dim T [[0], [3], [6, 7]] (by simp [gdim, hT, h0, h1, h2, h3, h4, h5, h6, h7, h8, h9, h10, h11, h12, h13, h14, h15, h16])
  obtain ⟨A, eA, dA⟩ := dlOpen_denotes dim a 12 4 6 8 10 5 7 9 11 13 (by decide) (by rw [hs, h12, h4, h6, h8, h10]) (by rw [h5, h4]) (by rw [h7, h6]) (by rw [h9, h8]) (by rw [h11, h10]) (by rw [h13, h12])
  have hA : A.shape = [D * D, D * D, D * D, D * D, p, p] := by simp [dA.shape, gdim, h0, h1, h2, h3, h4, h5, h6, h7, h8, h9, h10, h11, h12, h13, h14, h15, h16]
  obtain ⟨x1, e1, q1⟩ := Denotes.tensordot dC dT1 [1] [1] (dotOK_iff (by decide))
  obtain ⟨x2, e2, q2⟩ := Denotes.tensordot q1 dT2 [0] [0] (dotOK_iff (by decide))
  obtain ⟨x3, e3, q3⟩ := Denotes.tensordot q2 dA [1, 3] [0, 1] (dotOK_iff (by decide))
  obtain ⟨x4, e4, q4⟩ := Denotes.permute q3 [1, 2, 0, 3, 4, 5] (by decide)
  obtain ⟨x5, e5, q5⟩ := Denotes.view q4 [[3, 8, 9], [2, 10, 11], [12], [13]] [T.size 1 * A.size 2, T.size 1 * A.size 3, a.size 0, a.size 0] (by decide) (by simp [size, gdim, pow_two, hT, hs, h0, h1, h2, h3, h4, h5, h6, h7, h8, h9, h10, h11, h12, h13, h14, h15, h16, hA])
  refine ⟨x5, by simp [openDl, e1, e2, e3, e4, e5, eA], q5.congr (by decide) (by decide) ?_⟩
  intro σ
  simp only [Spec.openCorner, List.map_cons, List.map_nil, gidx_single, Corner.fused_eq] <;> ring

theorem halfDl_net {chi D p : Nat} {dim : Nat → Nat} (hd : dim = Spec.dim chi D p) {a C T : Tensor K} (hs : a.shape = [p, D, D, D, D])
    (hC : C.shape = [chi, chi]) (hT : T.shape = [chi, chi, D * D]) :
    ∃ R, halfDl a C T = some R ∧
      Denotes dim R [[15], [2], [10, 11], [12], [13]] [0, 1, 3, 4, 5, 6, 7, 8, 9, 14] [0, 1, 2, 3, 4, 5, 6, 7, 8, 9, 10, 11, 12, 13, 14, 15] (Spec.openHalf dim C T a) := by
  have h0 : dim 0 = chi := by rw [hd]; rfl
  have h1 : dim 1 = chi := by rw [hd]; rfl
  have h2 : dim 2 = chi := by rw [hd]; rfl
  have h3 : dim 3 = chi := by rw [hd]; rfl
  have h4 : dim 4 = D := by rw [hd]; rfl
  have h5 : dim 5 = D := by rw [hd]; rfl
  have h6 : dim 6 = D := by rw [hd]; rfl
  have h7 : dim 7 = D := by rw [hd]; rfl
  have h8 : dim 8 = D := by rw [hd]; rfl
  have h9 : dim 9 = D := by rw [hd]; rfl
  have h10 : dim 10 = D := by rw [hd]; rfl
  have h11 : dim 11 = D := by rw [hd]; rfl
  have h12 : dim 12 = p := by rw [hd]; rfl
  have h13 : dim 13 = p := by rw [hd]; rfl
  have h14 : dim 14 = chi := by rw [hd]; rfl
  have h15 : dim 15 = chi := by rw [hd]; rfl
  have h16 : dim 16 = chi := by rw [hd]; rfl
  have dC := Denotes.leaf dim C [[0], [1]] (by simp [gdim, hC, h0, h1, h2, h3, h4, h5, h6, h7, h8, h9, h10, h11, h12, h13, h14, h15, h16])
  have dT1 := Denotes.leaf dim T [[2], [1], [4, 5]] (by simp [gdim, hT, h0, h1, h2, h3, h4, h5, h6, h7, h8, h9, h10, h11, h12, h13, h14, h15, h16])
  have dT2 := Denotes.leaf dim T [[0], [3], [6, 7]] (by simp [gdim, hT, h0, h1, h2, h3, h4, h5, h6, h7, h8, h9, h10, h11, h12, h13, h14, h15, h16])
  obtain ⟨A, eA, dA⟩ := dlOpen_denotes dim a 12 4 6 8 10 5 7 9 11 13 (by decide) (by rw [hs, h12, h4, h6, h8, h10]) (by rw [h5, h4]) (by rw [h7, h6]) (by rw [h9, h8]) (by rw [h11, h10]) (by rw [h13, h12])
  have hA : A.shape = [D * D, D * D, D * D, D * D, p, p] := by simp [dA.shape, gdim, h0, h1, h2, h3, h4, h5, h6, h7, h8, h9, h10, h11, h12, h13, h14, h15, h16]
  obtain ⟨x1, e1, q1⟩ := Denotes.tensordot dC dT1 [1] [1] (dotOK_iff (by decide))
  obtain ⟨x2, e2, q2⟩ := Denotes.tensordot q1 dT2 [0] [0] (dotOK_iff (by decide))
  obtain ⟨x3, e3, q3⟩ := Denotes.tensordot q2 dA [1, 3] [0, 1] (dotOK_iff (by decide))
  obtain ⟨x4, e4, q4⟩ := Denotes.permute q3 [1, 2, 0, 3, 4, 5] (by decide)
  have dC2 := Denotes.leaf dim C [[3], [14]] (by simp [gdim, hC, h0, h1, h2, h3, h4, h5, h6, h7, h8, h9, h10, h11, h12, h13, h14, h15, h16])
  have dT3 := Denotes.leaf dim T [[14], [15], [8, 9]] (by simp [gdim, hT, h0, h1, h2, h3, h4, h5, h6, h7, h8, h9, h10, h11, h12, h13, h14, h15, h16])
  obtain ⟨x5, e5, q5⟩ := Denotes.tensordot dC2 dT3 [1] [0] (dotOK_iff (by decide))
  obtain ⟨x6, e6, q6⟩ := Denotes.tensordot q5 q4 [0, 2] [0, 1] (dotOK_iff (by decide))
  refine ⟨x6, by simp [halfDl, e1, e2, e3, e4, e5, e6, eA], q6.congr (by decide) (by decide) ?_⟩
  intro σ
  simp only [Spec.openHalf, List.map_cons, List.map_nil, gidx_single, Corner.fused_eq] <;> ring

theorem halfSl_net {chi D p : Nat} {dim : Nat → Nat} (hd : dim = Spec.dim chi D p) {a C T : Tensor K} (hs : a.shape = [p, D, D, D, D])
    (hC : C.shape = [chi, chi]) (hT : T.shape = [chi, chi, D * D]) :
    ∃ R, halfSl a C T = some R ∧
      Denotes dim R [[15], [2], [10, 11], [12], [13]] [0, 1, 3, 4, 5, 6, 7, 8, 9, 14] [0, 1, 2, 3, 4, 5, 6, 7, 8, 9, 10, 11, 12, 13, 14, 15] (Spec.openHalf dim C T a) := by
  have h0 : dim 0 = chi := by rw [hd]; rfl
  have h1 : dim 1 = chi := by rw [hd]; rfl
  have h2 : dim 2 = chi := by rw [hd]; rfl
  have h3 : dim 3 = chi := by rw [hd]; rfl
  have h4 : dim 4 = D := by rw [hd]; rfl
  have h5 : dim 5 = D := by rw [hd]; rfl
  have h6 : dim 6 = D := by rw [hd]; rfl
  have h7 : dim 7 = D := by rw [hd]; rfl
  have h8 : dim 8 = D := by rw [hd]; rfl
  have h9 : dim 9 = D := by rw [hd]; rfl
  have h10 : dim 10 = D := by rw [hd]; rfl
  have h11 : dim 11 = D := by rw [hd]; rfl
  have h12 : dim 12 = p := by rw [hd]; rfl
  have h13 : dim 13 = p := by rw [hd]; rfl
  have h14 : dim 14 = chi := by rw [hd]; rfl
  have h15 : dim 15 = chi := by rw [hd]; rfl
  have h16 : dim 16 = chi := by rw [hd]; rfl
  have dC := Denotes.leaf dim C [[0], [1]] (by simp [gdim, hC, h0, h1, h2, h3, h4, h5, h6, h7, h8, h9, h10, h11, h12, h13, h14, h15, h16])
  have dT1 := Denotes.leaf dim T [[2], [1], [4, 5]] (by simp [gdim, hT, h0, h1, h2, h3, h4, h5, h6, h7, h8, h9, h10, h11, h12, h13, h14, h15, h16])
  have dT2 := Denotes.leaf dim T [[0], [3], [6, 7]] (by simp [gdim, hT, h0, h1, h2, h3, h4, h5, h6, h7, h8, h9, h10, h11, h12, h13, h14, h15, h16])
  have da := Denotes.leaf dim a [[12], [4], [6], [8], [10]] (by simp [gdim, hs, h0, h1, h2, h3, h4, h5, h6, h7, h8, h9, h10, h11, h12, h13, h14, h15, h16])
  have db := (Denotes.leaf dim a [[13], [5], [7], [9], [11]] (by simp [gdim, hs, h0, h1, h2, h3, h4, h5, h6, h7, h8, h9, h10, h11, h12, h13, h14, h15, h16])).conj
  obtain ⟨x1, e1, q1⟩ := Denotes.tensordot dC dT1 [1] [1] (dotOK_iff (by decide))
  obtain ⟨x2, e2, q2⟩ := Denotes.tensordot q1 dT2 [0] [0] (dotOK_iff (by decide))
  have sx2' : x2.shape = List.map (gdim dim) [[2], [4, 5], [3], [6, 7]] := q2.shape
  have sx2 : x2.shape = [chi, D * D, chi, D * D] := by rw [sx2']; simp [gdim, h0, h1, h2, h3, h4, h5, h6, h7, h8, h9, h10, h11, h12, h13, h14, h15, h16]
  obtain ⟨x3, e3, q3⟩ := Denotes.view q2 [[2], [4], [5], [3], [6], [7]] [x2.size 0, a.size 1, a.size 1, x2.size 2, a.size 2, a.size 2] (by decide) (by simp [size, gdim, pow_two, sx2, hT, hs, h0, h1, h2, h3, h4, h5, h6, h7, h8, h9, h10, h11, h12, h13, h14, h15, h16])
  obtain ⟨x4, e4, q4⟩ := Denotes.tensordot q3 da [1, 4] [1, 2] (dotOK_iff (by decide))
  obtain ⟨x5, e5, q5⟩ := Denotes.tensordot q4 db [1, 3] [1, 2] (dotOK_iff (by decide))
  have sx5' : x5.shape = List.map (gdim dim) [[2], [3], [12], [8], [10], [13], [9], [11]] := q5.shape
  have sx5 : x5.shape = [chi, chi, p, D, D, p, D, D] := by rw [sx5']; simp [gdim, h0, h1, h2, h3, h4, h5, h6, h7, h8, h9, h10, h11, h12, h13, h14, h15, h16]
  obtain ⟨x6, e6, q6⟩ := Denotes.permute q5 [1, 3, 6, 0, 4, 7, 2, 5] (by decide)
  obtain ⟨x7, e7, q7⟩ := Denotes.view q6 [[3], [8, 9], [2], [10, 11], [12], [13]] [x5.size 1, a.size 3 ^ 2, x5.size 0, a.size 4 ^ 2, a.size 0, a.size 0] (by decide) (by simp [size, gdim, pow_two, sx5, mul_assoc, hT, hs, h0, h1, h2, h3, h4, h5, h6, h7, h8, h9, h10, h11, h12, h13, h14, h15, h16])
  have dC2 := Denotes.leaf dim C [[3], [14]] (by simp [gdim, hC, h0, h1, h2, h3, h4, h5, h6, h7, h8, h9, h10, h11, h12, h13, h14, h15, h16])
  have dT3 := Denotes.leaf dim T [[14], [15], [8, 9]] (by simp [gdim, hT, h0, h1, h2, h3, h4, h5, h6, h7, h8, h9, h10, h11, h12, h13, h14, h15, h16])
  obtain ⟨x8, e8, q8⟩ := Denotes.tensordot dC2 dT3 [1] [0] (dotOK_iff (by decide))
  obtain ⟨x9, e9, q9⟩ := Denotes.tensordot q8 q7 [0, 2] [0, 1] (dotOK_iff (by decide))
  refine ⟨x9, by simp [halfSl, e1, e2, e3, e4, e5, e6, e7, e8, e9], q9.congr (by decide) (by decide) ?_⟩
  intro σ
  simp only [Spec.openHalf, List.map_cons, List.map_nil, gidx_single, Corner.fused_eq] <;> ring

theorem halfSplit_net {chi D p : Nat} {dim : Nat → Nat} (hd : dim = Spec.dim chi D p) {a C T : Tensor K} (hs : a.shape = [p, D, D, D, D])
    (hC : C.shape = [chi, chi]) (hT : T.shape = [chi, chi, D * D]) :
    ∃ R, halfSplit a C T = some R ∧
      Denotes dim R [[15], [2], [10], [11], [12], [13]] [0, 1, 3, 4, 5, 6, 7, 8, 9, 14] [0, 1, 2, 3, 4, 5, 6, 7, 8, 9, 10, 11, 12, 13, 14, 15] (Spec.openHalf dim C T a) := by
  have h0 : dim 0 = chi := by rw [hd]; rfl
  have h1 : dim 1 = chi := by rw [hd]; rfl
  have h2 : dim 2 = chi := by rw [hd]; rfl
  have h3 : dim 3 = chi := by rw [hd]; rfl
  have h4 : dim 4 = D := by rw [hd]; rfl
  have h5 : dim 5 = D := by rw [hd]; rfl
  have h6 : dim 6 = D := by rw [hd]; rfl
  have h7 : dim 7 = D := by rw [hd]; rfl
  have h8 : dim 8 = D := by rw [hd]; rfl
  have h9 : dim 9 = D := by rw [hd]; rfl
  have h10 : dim 10 = D := by rw [hd]; rfl
  have h11 : dim 11 = D := by rw [hd]; rfl
  have h12 : dim 12 = p := by rw [hd]; rfl
  have h13 : dim 13 = p := by rw [hd]; rfl
  have h14 : dim 14 = chi := by rw [hd]; rfl
  have h15 : dim 15 = chi := by rw [hd]; rfl
  have h16 : dim 16 = chi := by rw [hd]; rfl
  have dC := Denotes.leaf dim C [[0], [1]] (by simp [gdim, hC, h0, h1, h2, h3, h4, h5, h6, h7, h8, h9, h10, h11, h12, h13, h14, h15, h16])
  have dT1 := Denotes.leaf dim T [[2], [1], [4, 5]] (by simp [gdim, hT, h0, h1, h2, h3, h4, h5, h6, h7, h8, h9, h10, h11, h12, h13, h14, h15, h16])
  have dT2 := Denotes.leaf dim T [[0], [3], [6, 7]] (by simp [gdim, hT, h0, h1, h2, h3, h4, h5, h6, h7, h8, h9, h10, h11, h12, h13, h14, h15, h16])
  have da := Denotes.leaf dim a [[12], [4], [6], [8], [10]] (by simp [gdim, hs, h0, h1, h2, h3, h4, h5, h6, h7, h8, h9, h10, h11, h12, h13, h14, h15, h16])
  have db := (Denotes.leaf dim a [[13], [5], [7], [9], [11]] (by simp [gdim, hs, h0, h1, h2, h3, h4, h5, h6, h7, h8, h9, h10, h11, h12, h13, h14, h15, h16])).conj
  obtain ⟨x1, e1, q1⟩ := Denotes.tensordot dC dT1 [1] [1] (dotOK_iff (by decide))
  obtain ⟨x2, e2, q2⟩ := Denotes.tensordot q1 dT2 [0] [0] (dotOK_iff (by decide))
  have sx2' : x2.shape = List.map (gdim dim) [[2], [4, 5], [3], [6, 7]] := q2.shape
  have sx2 : x2.shape = [chi, D * D, chi, D * D] := by rw [sx2']; simp [gdim, h0, h1, h2, h3, h4, h5, h6, h7, h8, h9, h10, h11, h12, h13, h14, h15, h16]
  obtain ⟨x3, e3, q3⟩ := Denotes.view q2 [[2], [4], [5], [3], [6], [7]] [x2.size 0, a.size 1, a.size 1, x2.size 2, a.size 2, a.size 2] (by decide) (by simp [size, gdim, pow_two, sx2, hT, hs, h0, h1, h2, h3, h4, h5, h6, h7, h8, h9, h10, h11, h12, h13, h14, h15, h16])
  obtain ⟨x4, e4, q4⟩ := Denotes.tensordot q3 da [1, 4] [1, 2] (dotOK_iff (by decide))
  obtain ⟨x5, e5, q5⟩ := Denotes.tensordot q4 db [1, 3] [1, 2] (dotOK_iff (by decide))
  have sx5' : x5.shape = List.map (gdim dim) [[2], [3], [12], [8], [10], [13], [9], [11]] := q5.shape
  have sx5 : x5.shape = [chi, chi, p, D, D, p, D, D] := by rw [sx5']; simp [gdim, h0, h1, h2, h3, h4, h5, h6, h7, h8, h9, h10, h11, h12, h13, h14, h15, h16]
  obtain ⟨x6, e6, q6⟩ := Denotes.permute q5 [1, 3, 6, 0, 4, 7, 2, 5] (by decide)
  obtain ⟨x7, e7, q7⟩ := Denotes.view q6 [[3], [8, 9], [2], [10], [11], [12], [13]] [x5.size 1, a.size 3 ^ 2, x5.size 0, a.size 4, a.size 4, a.size 0, a.size 0] (by decide) (by simp [size, gdim, pow_two, sx5, mul_assoc, hT, hs, h0, h1, h2, h3, h4, h5, h6, h7, h8, h9, h10, h11, h12, h13, h14, h15, h16])
  have dC2 := Denotes.leaf dim C [[3], [14]] (by simp [gdim, hC, h0, h1, h2, h3, h4, h5, h6, h7, h8, h9, h10, h11, h12, h13, h14, h15, h16])
  have dT3 := Denotes.leaf dim T [[14], [15], [8, 9]] (by simp [gdim, hT, h0, h1, h2, h3, h4, h5, h6, h7, h8, h9, h10, h11, h12, h13, h14, h15, h16])
  obtain ⟨x8, e8, q8⟩ := Denotes.tensordot dC2 dT3 [1] [0] (dotOK_iff (by decide))
  obtain ⟨x9, e9, q9⟩ := Denotes.tensordot q8 q7 [0, 2] [0, 1] (dotOK_iff (by decide))
  refine ⟨x9, by simp [halfSplit, e1, e2, e3, e4, e5, e6, e7, e8, e9], q9.congr (by decide) (by decide) ?_⟩
  intro σ
  simp only [Spec.openHalf, List.map_cons, List.map_nil, gidx_single, Corner.fused_eq] <;> ring

end Verif.C4v
