import Verif.C4v.Spec
import Verif.Ctm.CornerProps
import Verif.Tensor.Subst
/-
The networks computed by the C4v contractions (generated).
-/
namespace Verif.C4v
open Tensor Ctm
set_option linter.unusedSimpArgs false
set_option linter.unusedVariables false
variable {K : Type} [RCLike K]

theorem gidx3 (dim σ : Nat → Nat) (a b c : Nat) : gidx dim σ [a, b, c] = ravel [dim a, dim b, dim c] [σ a, σ b, σ c] := rfl

theorem c2x2Sl_net {chi D p : Nat} {dim : Nat → Nat} (hd : dim = Spec.dim chi D p) {a C T : Tensor K} (hs : a.shape = [p, D, D, D, D])
    (hC : C.shape = [chi, chi]) (hT : T.shape = [chi, chi, D * D]) :
    ∃ R, c2x2Sl a C T = some R ∧
      Denotes dim R [[3, 8, 9], [2, 10, 11]] [0, 1, 4, 5, 6, 7, 12] [0, 1, 2, 3, 4, 5, 6, 7, 8, 9, 10, 11, 12] (Spec.corner dim C T a) := by
  have h0 : dim 0 = chi := by rw [hd]; rfl
  have h1 : dim 1 = chi := by rw [hd]; rfl
  have h2 : dim 2 = chi := by rw [hd]; rfl
  have h3 : dim 3 = chi := by rw [hd]; rfl
  have h4 : dim 4 = D := by rw [hd]; rfl
  have h5 : dim 5 = D := by rw [hd]; rfl
  have h6 : dim 6 = D := by rw [hd]; rfl
  have h7 : dim 7 = D := by rw [hd]; rfl
  have h8 : dim 8 = D := by rw [hd]; rfl
  have h9 : dim 9 = D := by rw [hd]; rfl
  have h10 : dim 10 = D := by rw [hd]; rfl
  have h11 : dim 11 = D := by rw [hd]; rfl
  have h12 : dim 12 = p := by rw [hd]; rfl
  have h14 : dim 14 = chi := by rw [hd]; rfl
  have h15 : dim 15 = chi := by rw [hd]; rfl
  have dC := Denotes.leaf dim C [[0], [1]] (by simp [gdim, hC, h0, h1, h2, h3, h4, h5, h6, h7, h8, h9, h10, h11, h12, h14, h15])
  have dT1 := Denotes.leaf dim T [[2], [1], [4, 5]] (by simp [gdim, hT, h0, h1, h2, h3, h4, h5, h6, h7, h8, h9, h10, h11, h12, h14, h15])
  have dT2 := Denotes.leaf dim T [[0], [3], [6, 7]] (by simp [gdim, hT, h0, h1, h2, h3, h4, h5, h6, h7, h8, h9, h10, h11, h12, h14, h15])
  have da := Denotes.leaf dim a [[12], [4], [6], [8], [10]] (by simp [gdim, hs, h0, h1, h2, h3, h4, h5, h6, h7, h8, h9, h10, h11, h12, h14, h15])
  have db := (Denotes.leaf dim a [[12], [5], [7], [9], [11]] (by simp [gdim, hs, h0, h1, h2, h3, h4, h5, h6, h7, h8, h9, h10, h11, h12, h14, h15])).conj
  obtain ⟨x1, e1, q1⟩ := Denotes.tensordot dC dT1 [1] [1] (dotOK_iff (by decide))
  obtain ⟨x2, e2, q2⟩ := Denotes.tensordot q1 dT2 [0] [0] (dotOK_iff (by decide))
  have sx2' : x2.shape = List.map (gdim dim) [[2], [4, 5], [3], [6, 7]] := q2.shape
  have sx2 : x2.shape = [chi, D * D, chi, D * D] := by rw [sx2']; simp [gdim, h0, h1, h2, h3, h4, h5, h6, h7, h8, h9, h10, h11, h12, h14, h15]
  obtain ⟨x3, e3, q3⟩ := Denotes.view q2 [[2], [4], [5], [3], [6], [7]] [x2.size 0, a.size 1, a.size 1, x2.size 2, a.size 2, a.size 2] (by decide) (by simp [size, gdim, pow_two, sx2, hT, hs, h0, h1, h2, h3, h4, h5, h6, h7, h8, h9, h10, h11, h12, h14, h15])
  obtain ⟨x4, e4, q4⟩ := Denotes.tensordot q3 da [1, 4] [1, 2] (dotOK_iff (by decide))
  obtain ⟨x5, e5, q5⟩ := Denotes.tensordot q4 db [1, 3, 4] [1, 2, 0] (dotOK_iff (by decide))
  have sx5' : x5.shape = List.map (gdim dim) [[2], [3], [8], [10], [9], [11]] := q5.shape
  have sx5 : x5.shape = [chi, chi, D, D, D, D] := by rw [sx5']; simp [gdim, h0, h1, h2, h3, h4, h5, h6, h7, h8, h9, h10, h11, h12, h14, h15]
  obtain ⟨x6, e6, q6⟩ := Denotes.permute q5 [1, 2, 4, 0, 3, 5] (by decide)
  obtain ⟨x7, e7, q7⟩ := Denotes.view q6 [[3, 8, 9], [2, 10, 11]] [x5.size 1 * a.size 3 * a.size 3, x5.size 0 * a.size 4 * a.size 4] (by decide) (by simp [size, gdim, pow_two, sx5, mul_assoc, hT, hs, h0, h1, h2, h3, h4, h5, h6, h7, h8, h9, h10, h11, h12, h14, h15])
  refine ⟨x7, by simp [c2x2Sl, e1, e2, e3, e4, e5, e6, e7], q7.congr (by decide) (by decide) ?_⟩
  intro σ
  simp only [Spec.corner, Corner.Spec.site, List.map_cons, List.map_nil, gidx_single, Corner.fused_eq] <;> ring

theorem c2x2Dl_net {chi D p : Nat} {dim : Nat → Nat} (hd : dim = Spec.dim chi D p) {a C T : Tensor K} (hs : a.shape = [p, D, D, D, D])
    (hC : C.shape = [chi, chi]) (hT : T.shape = [chi, chi, D * D]) :
    ∃ A R, Corner.doubleLayer a = some A ∧ c2x2Dl A C T = some R ∧
      Denotes dim R [[3, 8, 9], [2, 10, 11]] [0, 1, 4, 5, 6, 7, 12] [0, 1, 2, 3, 4, 5, 6, 7, 8, 9, 10, 11, 12] (Spec.corner dim C T a) := by
  have h0 : dim 0 = chi := by rw [hd]; rfl
  have h1 : dim 1 = chi := by rw [hd]; rfl
  have h2 : dim 2 = chi := by rw [hd]; rfl
  have h3 : dim 3 = chi := by rw [hd]; rfl
  have h4 : dim 4 = D := by rw [hd]; rfl
  have h5 : dim 5 = D := by rw [hd]; rfl
  have h6 : dim 6 = D := by rw [hd]; rfl
  have h7 : dim 7 = D := by rw [hd]; rfl
  have h8 : dim 8 = D := by rw [hd]; rfl
  have h9 : dim 9 = D := by rw [hd]; rfl
  have h10 : dim 10 = D := by rw [hd]; rfl
  have h11 : dim 11 = D := by rw [hd]; rfl
  have h12 : dim 12 = p := by rw [hd]; rfl
  have h14 : dim 14 = chi := by rw [hd]; rfl
  have h15 : dim 15 = chi := by rw [hd]; rfl
  have dC := Denotes.leaf dim C [[0], [1]] (by simp [gdim, hC, h0, h1, h2, h3, h4, h5, h6, h7, h8, h9, h10, h11, h12, h14, h15])
  have dT1 := Denotes.leaf dim T [[2], [1], [4, 5]] (by simp [gdim, hT, h0, h1, h2, h3, h4, h5, h6, h7, h8, h9, h10, h11, h12, h14, h15])
  have dT2 := Denotes.leaf dim T [[0], [3], [6, 7]] (by simp [gdim, hT, h0, h1, h2, h3, h4, h5, h6, h7, h8, h9, h10, h11, h12, h14, h15])
  obtain ⟨A, eA, dA⟩ := Corner.doubleLayer_denotes dim a 12 4 6 8 10 5 7 9 11 (by decide) (by rw [hs, h12, h4, h6, h8, h10]) (by rw [h5, h4]) (by rw [h7, h6]) (by rw [h9, h8]) (by rw [h11, h10])
  have hA : A.shape = [D * D, D * D, D * D, D * D] := by simp [dA.shape, gdim, h0, h1, h2, h3, h4, h5, h6, h7, h8, h9, h10, h11, h12, h14, h15]
  obtain ⟨x1, e1, q1⟩ := Denotes.tensordot dC dT1 [1] [1] (dotOK_iff (by decide))
  obtain ⟨x2, e2, q2⟩ := Denotes.tensordot q1 dT2 [0] [0] (dotOK_iff (by decide))
  obtain ⟨x3, e3, q3⟩ := Denotes.tensordot q2 dA [1, 3] [0, 1] (dotOK_iff (by decide))
  obtain ⟨x4, e4, q4⟩ := Denotes.permute q3 [1, 2, 0, 3] (by decide)
  obtain ⟨x5, e5, q5⟩ := Denotes.view q4 [[3, 8, 9], [2, 10, 11]] [T.size 1 * A.size 3, T.size 1 * A.size 2] (by decide) (by simp [size, gdim, pow_two, hT, hs, h0, h1, h2, h3, h4, h5, h6, h7, h8, h9, h10, h11, h12, h14, h15, hA])
  refine ⟨A, x5, eA, by simp [c2x2Dl, e1, e2, e3, e4, e5], q5.congr (by decide) (by decide) ?_⟩
  intro σ
  simp only [Spec.corner, Corner.Spec.site, List.map_cons, List.map_nil, gidx_single, Corner.fused_eq] <;> ring

theorem absorbSl_net {chi D p : Nat} {dim : Nat → Nat} (hd : dim = Spec.dim chi D p) {a T P Pv : Tensor K} (hs : a.shape = [p, D, D, D, D])
    (hT : T.shape = [chi, chi, D * D]) (hP : P.shape = [chi * (D * D), chi]) (hv : view [chi, D * D, chi] P = some Pv) :
    ∃ R, absorbSl a T Pv = some R ∧
      Denotes dim R [[14], [15], [10, 11]] [0, 3, 4, 5, 6, 7, 8, 9, 12] [0, 3, 4, 5, 6, 7, 8, 9, 10, 11, 12, 14, 15] (Spec.half dim P T a) := by
  have h0 : dim 0 = chi := by rw [hd]; rfl
  have h1 : dim 1 = chi := by rw [hd]; rfl
  have h2 : dim 2 = chi := by rw [hd]; rfl
  have h3 : dim 3 = chi := by rw [hd]; rfl
  have h4 : dim 4 = D := by rw [hd]; rfl
  have h5 : dim 5 = D := by rw [hd]; rfl
  have h6 : dim 6 = D := by rw [hd]; rfl
  have h7 : dim 7 = D := by rw [hd]; rfl
  have h8 : dim 8 = D := by rw [hd]; rfl
  have h9 : dim 9 = D := by rw [hd]; rfl
  have h10 : dim 10 = D := by rw [hd]; rfl
  have h11 : dim 11 = D := by rw [hd]; rfl
  have h12 : dim 12 = p := by rw [hd]; rfl
  have h14 : dim 14 = chi := by rw [hd]; rfl
  have h15 : dim 15 = chi := by rw [hd]; rfl
  obtain ⟨y1, f1, d1⟩ := Denotes.view (Denotes.leaf dim P [[0, 4, 5], [14]] (by simp [gdim, hP, h0, h1, h2, h3, h4, h5, h6, h7, h8, h9, h10, h11, h12, h14, h15])) [[0], [4, 5], [14]] [chi, D * D, chi] (by decide) (by simp [gdim, h0, h1, h2, h3, h4, h5, h6, h7, h8, h9, h10, h11, h12, h14, h15])
  obtain ⟨y2, f2, d2⟩ := Denotes.view (Denotes.leaf dim P [[3, 8, 9], [15]] (by simp [gdim, hP, h0, h1, h2, h3, h4, h5, h6, h7, h8, h9, h10, h11, h12, h14, h15])) [[3], [8, 9], [15]] [chi, D * D, chi] (by decide) (by simp [gdim, h0, h1, h2, h3, h4, h5, h6, h7, h8, h9, h10, h11, h12, h14, h15])
  obtain rfl : Pv = y1 := Option.some.inj (hv.symm.trans f1)
  obtain rfl : Pv = y2 := Option.some.inj (hv.symm.trans f2)
  have d3 := d2.conj
  have dT := Denotes.leaf dim T [[0], [3], [6, 7]] (by simp [gdim, hT, h0, h1, h2, h3, h4, h5, h6, h7, h8, h9, h10, h11, h12, h14, h15])
  have da := Denotes.leaf dim a [[12], [4], [6], [8], [10]] (by simp [gdim, hs, h0, h1, h2, h3, h4, h5, h6, h7, h8, h9, h10, h11, h12, h14, h15])
  have db := (Denotes.leaf dim a [[12], [5], [7], [9], [11]] (by simp [gdim, hs, h0, h1, h2, h3, h4, h5, h6, h7, h8, h9, h10, h11, h12, h14, h15])).conj
  obtain ⟨x1, e1, q1⟩ := Denotes.tensordot d1 dT [0] [0] (dotOK_iff (by decide))
  have sx1' : x1.shape = List.map (gdim dim) [[4, 5], [14], [3], [6, 7]] := q1.shape
  have sx1 : x1.shape = [D * D, chi, chi, D * D] := by rw [sx1']; simp [gdim, h0, h1, h2, h3, h4, h5, h6, h7, h8, h9, h10, h11, h12, h14, h15]
  obtain ⟨x2, e2, q2⟩ := Denotes.view q1 [[4], [5], [14], [3], [6], [7]] [a.size 1, a.size 1, x1.size 1, x1.size 2, a.size 2, a.size 2] (by decide) (by simp [size, gdim, pow_two, sx1, hT, hs, h0, h1, h2, h3, h4, h5, h6, h7, h8, h9, h10, h11, h12, h14, h15])
  obtain ⟨x3, e3, q3⟩ := Denotes.tensordot q2 da [0, 4] [1, 2] (dotOK_iff (by decide))
  obtain ⟨x4, e4, q4⟩ := Denotes.tensordot q3 db [0, 3, 4] [1, 2, 0] (dotOK_iff (by decide))
  have sx4' : x4.shape = List.map (gdim dim) [[14], [3], [8], [10], [9], [11]] := q4.shape
  have sx4 : x4.shape = [chi, chi, D, D, D, D] := by rw [sx4']; simp [gdim, h0, h1, h2, h3, h4, h5, h6, h7, h8, h9, h10, h11, h12, h14, h15]
  obtain ⟨x5, e5, q5⟩ := Denotes.permute q4 [0, 1, 2, 4, 3, 5] (by decide)
  obtain ⟨x6, e6, q6⟩ := Denotes.view q5 [[14], [3], [8, 9], [10, 11]] [x4.size 0, x4.size 1, a.size 3 ^ 2, a.size 4 ^ 2] (by decide) (by simp [size, gdim, pow_two, sx4, mul_assoc, hT, hs, h0, h1, h2, h3, h4, h5, h6, h7, h8, h9, h10, h11, h12, h14, h15])
  obtain ⟨x7, e7, q7⟩ := Denotes.tensordot q6 d3 [1, 2] [0, 1] (dotOK_iff (by decide))
  obtain ⟨x8, e8, q8⟩ := Denotes.permute q7 [0, 2, 1] (by decide)
  refine ⟨x8, by simp [absorbSl, e1, e2, e3, e4, e5, e6, e7, e8], q8.congr (by decide) (by decide) ?_⟩
  intro σ
  simp only [Spec.half, Corner.Spec.site, List.map_cons, List.map_nil, gidx_single, Corner.fused_eq, gidx3] <;> ring

theorem absorbDl_net {chi D p : Nat} {dim : Nat → Nat} (hd : dim = Spec.dim chi D p) {a T P Pv : Tensor K} (hs : a.shape = [p, D, D, D, D])
    (hT : T.shape = [chi, chi, D * D]) (hP : P.shape = [chi * (D * D), chi]) (hv : view [chi, D * D, chi] P = some Pv) :
    ∃ A R, Corner.doubleLayer a = some A ∧ absorbDl A T Pv = some R ∧
      Denotes dim R [[14], [15], [10, 11]] [0, 3, 4, 5, 6, 7, 8, 9, 12] [0, 3, 4, 5, 6, 7, 8, 9, 10, 11, 12, 14, 15] (Spec.half dim P T a) := by
  have h0 : dim 0 = chi := by rw [hd]; rfl
  have h1 : dim 1 = chi := by rw [hd]; rfl
  have h2 : dim 2 = chi := by rw [hd]; rfl
  have h3 : dim 3 = chi := by rw [hd]; rfl
  have h4 : dim 4 = D := by rw [hd]; rfl
  have h5 : dim 5 = D := by rw [hd]; rfl
  have h6 : dim 6 = D := by rw [hd]; rfl
  have h7 : dim 7 = D := by rw [hd]; rfl
  have h8 : dim 8 = D := by rw [hd]; rfl
  have h9 : dim 9 = D := by rw [hd]; rfl
  have h10 : dim 10 = D := by rw [hd]; rfl
  have h11 : dim 11 = D := by rw [hd]; rfl
  have h12 : dim 12 = p := by rw [hd]; rfl
  have h14 : dim 14 = chi := by rw [hd]; rfl
  have h15 : dim 15 = chi := by rw [hd]; rfl
  obtain ⟨y1, f1, d1⟩ := Denotes.view (Denotes.leaf dim P [[0, 4, 5], [14]] (by simp [gdim, hP, h0, h1, h2, h3, h4, h5, h6, h7, h8, h9, h10, h11, h12, h14, h15])) [[0], [4, 5], [14]] [chi, D * D, chi] (by decide) (by simp [gdim, h0, h1, h2, h3, h4, h5, h6, h7, h8, h9, h10, h11, h12, h14, h15])
  obtain ⟨y2, f2, d2⟩ := Denotes.view (Denotes.leaf dim P [[3, 8, 9], [15]] (by simp [gdim, hP, h0, h1, h2, h3, h4, h5, h6, h7, h8, h9, h10, h11, h12, h14, h15])) [[3], [8, 9], [15]] [chi, D * D, chi] (by decide) (by simp [gdim, h0, h1, h2, h3, h4, h5, h6, h7, h8, h9, h10, h11, h12, h14, h15])
  obtain rfl : Pv = y1 := Option.some.inj (hv.symm.trans f1)
  obtain rfl : Pv = y2 := Option.some.inj (hv.symm.trans f2)
  have d3 := d2.conj
  have dT := Denotes.leaf dim T [[0], [3], [6, 7]] (by simp [gdim, hT, h0, h1, h2, h3, h4, h5, h6, h7, h8, h9, h10, h11, h12, h14, h15])
  obtain ⟨A, eA, dA⟩ := Corner.doubleLayer_denotes dim a 12 4 6 8 10 5 7 9 11 (by decide) (by rw [hs, h12, h4, h6, h8, h10]) (by rw [h5, h4]) (by rw [h7, h6]) (by rw [h9, h8]) (by rw [h11, h10])
  have hA : A.shape = [D * D, D * D, D * D, D * D] := by simp [dA.shape, gdim, h0, h1, h2, h3, h4, h5, h6, h7, h8, h9, h10, h11, h12, h14, h15]
  obtain ⟨x1, e1, q1⟩ := Denotes.tensordot d1 dT [0] [0] (dotOK_iff (by decide))
  obtain ⟨x2, e2, q2⟩ := Denotes.tensordot q1 dA [0, 3] [0, 1] (dotOK_iff (by decide))
  obtain ⟨x3, e3, q3⟩ := Denotes.tensordot q2 d3 [1, 2] [0, 1] (dotOK_iff (by decide))
  obtain ⟨x4, e4, q4⟩ := Denotes.permute q3 [0, 2, 1] (by decide)
  refine ⟨A, x4, eA, by simp [absorbDl, e1, e2, e3, e4], q4.congr (by decide) (by decide) ?_⟩
  intro σ
  simp only [Spec.half, Corner.Spec.site, List.map_cons, List.map_nil, gidx_single, Corner.fused_eq, gidx3] <;> ring

end Verif.C4v
