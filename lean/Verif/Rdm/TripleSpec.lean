import Verif.Rdm.TripleModel
import Verif.Ctm.CornerSpec
/-
Specification of the networks of three sites in a row and in a column with a matrix-product operator, with the labels of the drawings
rdm.py L1813-L1831 and L1888-L1907. Generated from the drawings.
-/
namespace Verif.Rdm
open Tensor
variable {K : Type} [RCLike K]

/-- Shapes of the tensors of the drawn network. -/
structure Spec.FitsRow (dim : Nat → Nat) (e : Row3 K) (m0 m1 m2 : Tensor K) : Prop where
  C1 : e.C1.shape = [dim 0, dim 1]
  T1 : e.T1.shape = [dim 1, dim 2 * dim 3, dim 4]
  T1x : e.T1x.shape = [dim 4, dim 5 * dim 6, dim 7]
  T1z : e.T1z.shape = [dim 7, dim 8 * dim 9, dim 10]
  C2 : e.C2.shape = [dim 10, dim 11]
  T4 : e.T4.shape = [dim 0, dim 26, dim 12 * dim 16]
  T2 : e.T2.shape = [dim 11, dim 15 * dim 19, dim 27]
  C4 : e.C4.shape = [dim 26, dim 28]
  T3 : e.T3.shape = [dim 20 * dim 21, dim 28, dim 29]
  T3x : e.T3x.shape = [dim 22 * dim 23, dim 29, dim 30]
  T3z : e.T3z.shape = [dim 24 * dim 25, dim 30, dim 31]
  C3 : e.C3.shape = [dim 27, dim 31]
  a : e.a.shape = [dim 100, dim 2, dim 12, dim 20, dim 13]
  a0 : dim 101 = dim 100
  a1 : dim 3 = dim 2
  a2 : dim 16 = dim 12
  a3 : dim 21 = dim 20
  a4 : dim 17 = dim 13
  ax : e.ax.shape = [dim 102, dim 5, dim 13, dim 22, dim 14]
  ax0 : dim 103 = dim 102
  ax1 : dim 6 = dim 5
  ax2 : dim 17 = dim 13
  ax3 : dim 23 = dim 22
  ax4 : dim 18 = dim 14
  az : e.az.shape = [dim 104, dim 8, dim 14, dim 24, dim 15]
  az0 : dim 105 = dim 104
  az1 : dim 9 = dim 8
  az2 : dim 18 = dim 14
  az3 : dim 25 = dim 24
  az4 : dim 19 = dim 15
  m0 : m0.shape = [dim 300, dim 100, dim 200, dim 101]
  m1 : m1.shape = [dim 200, dim 102, dim 201, dim 103]
  m2 : m2.shape = [dim 201, dim 104, dim 302, dim 105]

/-- The drawing L1816-L1831: the product of all tensors. -/
def Spec.netRow (dim : Nat → Nat) (e : Row3 K) (m0 m1 m2 : Tensor K) (σ : Nat → Nat) : K :=
  e.C1.val [σ 0, σ 1] * e.T1.val [σ 1, Corner.Spec.fused dim σ 2 3, σ 4] * e.T1x.val [σ 4, Corner.Spec.fused dim σ 5 6, σ 7] * e.T1z.val [σ 7, Corner.Spec.fused dim σ 8 9, σ 10] * e.C2.val [σ 10, σ 11] * e.T4.val [σ 0, σ 26, Corner.Spec.fused dim σ 12 16] * e.T2.val [σ 11, Corner.Spec.fused dim σ 15 19, σ 27] * e.C4.val [σ 26, σ 28] * e.T3.val [Corner.Spec.fused dim σ 20 21, σ 28, σ 29] * e.T3x.val [Corner.Spec.fused dim σ 22 23, σ 29, σ 30] * e.T3z.val [Corner.Spec.fused dim σ 24 25, σ 30, σ 31] * e.C3.val [σ 27, σ 31] *
    (e.a.val [σ 100, σ 2, σ 12, σ 20, σ 13] * star (e.a.val [σ 101, σ 3, σ 16, σ 21, σ 17])) *
    (e.ax.val [σ 102, σ 5, σ 13, σ 22, σ 14] * star (e.ax.val [σ 103, σ 6, σ 17, σ 23, σ 18])) *
    (e.az.val [σ 104, σ 8, σ 14, σ 24, σ 15] * star (e.az.val [σ 105, σ 9, σ 18, σ 25, σ 19])) *
    m0.val [σ 300, σ 100, σ 200, σ 101] * m1.val [σ 200, σ 102, σ 201, σ 103] * m2.val [σ 201, σ 104, σ 302, σ 105]

/-- All labels of the drawing. -/
def Spec.labelsRow : List Nat := [0, 1, 2, 3, 4, 5, 6, 7, 8, 9, 10, 11, 12, 13, 14, 15, 16, 17, 18, 19, 20, 21, 22, 23, 24, 25, 26, 27, 28, 29, 30, 31, 100, 101, 102, 103, 104, 105, 200, 201, 300, 302]

/-- Shapes of the tensors of the drawn network. -/
structure Spec.FitsCol (dim : Nat → Nat) (e : Col3 K) (m0 m1 m2 : Tensor K) : Prop where
  C1 : e.C1.shape = [dim 0, dim 1]
  T1 : e.T1.shape = [dim 1, dim 2 * dim 5, dim 9]
  C2 : e.C2.shape = [dim 9, dim 8]
  T4 : e.T4.shape = [dim 0, dim 24, dim 3 * dim 6]
  T2 : e.T2.shape = [dim 8, dim 10 * dim 11, dim 27]
  T4y : e.T4y.shape = [dim 24, dim 30, dim 14 * dim 17]
  T2y : e.T2y.shape = [dim 27, dim 22 * dim 23, dim 31]
  T4z : e.T4z.shape = [dim 30, dim 39, dim 32 * dim 35]
  T2z : e.T2z.shape = [dim 31, dim 34 * dim 36, dim 40]
  C4 : e.C4.shape = [dim 39, dim 41]
  T3 : e.T3.shape = [dim 37 * dim 38, dim 41, dim 42]
  C3 : e.C3.shape = [dim 40, dim 42]
  a : e.a.shape = [dim 100, dim 2, dim 3, dim 25, dim 10]
  a0 : dim 101 = dim 100
  a1 : dim 5 = dim 2
  a2 : dim 6 = dim 3
  a3 : dim 26 = dim 25
  a4 : dim 11 = dim 10
  ay : e.ay.shape = [dim 102, dim 25, dim 14, dim 28, dim 22]
  ay0 : dim 103 = dim 102
  ay1 : dim 26 = dim 25
  ay2 : dim 17 = dim 14
  ay3 : dim 29 = dim 28
  ay4 : dim 23 = dim 22
  az : e.az.shape = [dim 104, dim 28, dim 32, dim 37, dim 34]
  az0 : dim 105 = dim 104
  az1 : dim 29 = dim 28
  az2 : dim 35 = dim 32
  az3 : dim 38 = dim 37
  az4 : dim 36 = dim 34
  m0 : m0.shape = [dim 300, dim 100, dim 200, dim 101]
  m1 : m1.shape = [dim 200, dim 102, dim 201, dim 103]
  m2 : m2.shape = [dim 201, dim 104, dim 301, dim 105]

/-- The drawing L1888-L1907: the product of all tensors. -/
def Spec.netCol (dim : Nat → Nat) (e : Col3 K) (m0 m1 m2 : Tensor K) (σ : Nat → Nat) : K :=
  e.C1.val [σ 0, σ 1] * e.T1.val [σ 1, Corner.Spec.fused dim σ 2 5, σ 9] * e.C2.val [σ 9, σ 8] * e.T4.val [σ 0, σ 24, Corner.Spec.fused dim σ 3 6] * e.T2.val [σ 8, Corner.Spec.fused dim σ 10 11, σ 27] * e.T4y.val [σ 24, σ 30, Corner.Spec.fused dim σ 14 17] * e.T2y.val [σ 27, Corner.Spec.fused dim σ 22 23, σ 31] * e.T4z.val [σ 30, σ 39, Corner.Spec.fused dim σ 32 35] * e.T2z.val [σ 31, Corner.Spec.fused dim σ 34 36, σ 40] * e.C4.val [σ 39, σ 41] * e.T3.val [Corner.Spec.fused dim σ 37 38, σ 41, σ 42] * e.C3.val [σ 40, σ 42] *
    (e.a.val [σ 100, σ 2, σ 3, σ 25, σ 10] * star (e.a.val [σ 101, σ 5, σ 6, σ 26, σ 11])) *
    (e.ay.val [σ 102, σ 25, σ 14, σ 28, σ 22] * star (e.ay.val [σ 103, σ 26, σ 17, σ 29, σ 23])) *
    (e.az.val [σ 104, σ 28, σ 32, σ 37, σ 34] * star (e.az.val [σ 105, σ 29, σ 35, σ 38, σ 36])) *
    m0.val [σ 300, σ 100, σ 200, σ 101] * m1.val [σ 200, σ 102, σ 201, σ 103] * m2.val [σ 201, σ 104, σ 301, σ 105]

/-- All labels of the drawing. -/
def Spec.labelsCol : List Nat := [0, 1, 2, 3, 5, 6, 8, 9, 10, 11, 14, 17, 22, 23, 24, 25, 26, 27, 28, 29, 30, 31, 32, 34, 35, 36, 37, 38, 39, 40, 41, 42, 100, 101, 102, 103, 104, 105, 200, 201, 300, 301]

end Verif.Rdm
