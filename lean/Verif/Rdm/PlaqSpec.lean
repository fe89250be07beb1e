import Verif.Rdm.PlaqModel
import Verif.Ctm.CornerSpec
/-
Specification of the plaquette network. The labels are those of the drawing rdm.py L1597-L1616: `100 + 2 x` is the physical index of the ket of
site `x` (0 upper left, 1 upper right, 2 lower left, 3 lower right) and `101 + 2 x` that of the bra if it is open.
-/
namespace Verif.Rdm
open Tensor
variable {K : Type} [RCLike K]

/-- Shapes of the tensors of the plaquette network. -/
structure Spec.FitsP (dim : Nat → Nat) (e : PlaqEnv K) (s : PlaqSites K) : Prop where
  C1 : e.C1.shape = [dim 0, dim 1]
  T1 : e.T1.shape = [dim 1, dim 2 * dim 5, dim 36]
  T4 : e.T4.shape = [dim 0, dim 15, dim 3 * dim 6]
  T4y : e.T4y.shape = [dim 15, dim 8, dim 9 * dim 12]
  C4 : e.C4.shape = [dim 8, dim 7]
  T3y : e.T3y.shape = [dim 10 * dim 13, dim 7, dim 41]
  T1x : e.T1x.shape = [dim 36, dim 20 * dim 23, dim 18]
  C2 : e.C2.shape = [dim 18, dim 19]
  T2x : e.T2x.shape = [dim 19, dim 21 * dim 24, dim 33]
  T2xy : e.T2xy.shape = [dim 33, dim 28 * dim 31, dim 26]
  C3 : e.C3.shape = [dim 26, dim 27]
  T3xy : e.T3xy.shape = [dim 29 * dim 32, dim 41, dim 27]
  a : s.a.shape = [dim 100, dim 2, dim 3, dim 16, dim 37]
  a0 : dim 101 = dim 100
  a1 : dim 5 = dim 2
  a2 : dim 6 = dim 3
  a3 : dim 17 = dim 16
  a4 : dim 38 = dim 37
  ax : s.ax.shape = [dim 102, dim 20, dim 37, dim 34, dim 21]
  ax0 : dim 103 = dim 102
  ax1 : dim 23 = dim 20
  ax2 : dim 38 = dim 37
  ax3 : dim 35 = dim 34
  ax4 : dim 24 = dim 21
  ay : s.ay.shape = [dim 104, dim 16, dim 9, dim 10, dim 39]
  ay0 : dim 105 = dim 104
  ay1 : dim 17 = dim 16
  ay2 : dim 12 = dim 9
  ay3 : dim 13 = dim 10
  ay4 : dim 40 = dim 39
  axy : s.axy.shape = [dim 106, dim 34, dim 39, dim 29, dim 28]
  axy0 : dim 107 = dim 106
  axy1 : dim 35 = dim 34
  axy2 : dim 40 = dim 39
  axy3 : dim 32 = dim 29
  axy4 : dim 31 = dim 28

/-- The product of all tensors of the plaquette; `q x` is the physical label of the bra of site `x`. -/
def Spec.rhoP (dim : Nat → Nat) (e : PlaqEnv K) (s : PlaqSites K) (q : Nat → Nat) (σ : Nat → Nat) : K :=
  e.C1.val [σ 0, σ 1] * e.T1.val [σ 1, Corner.Spec.fused dim σ 2 5, σ 36] * e.T4.val [σ 0, σ 15, Corner.Spec.fused dim σ 3 6] * e.T4y.val [σ 15, σ 8, Corner.Spec.fused dim σ 9 12] * e.C4.val [σ 8, σ 7] * e.T3y.val [Corner.Spec.fused dim σ 10 13, σ 7, σ 41] * e.T1x.val [σ 36, Corner.Spec.fused dim σ 20 23, σ 18] * e.C2.val [σ 18, σ 19] * e.T2x.val [σ 19, Corner.Spec.fused dim σ 21 24, σ 33] * e.T2xy.val [σ 33, Corner.Spec.fused dim σ 28 31, σ 26] * e.C3.val [σ 26, σ 27] * e.T3xy.val [Corner.Spec.fused dim σ 29 32, σ 41, σ 27] *
    (s.a.val [σ 100, σ 2, σ 3, σ 16, σ 37] * star (s.a.val [σ (q 0), σ 5, σ 6, σ 17, σ 38])) *
    (s.ax.val [σ 102, σ 20, σ 37, σ 34, σ 21] * star (s.ax.val [σ (q 1), σ 23, σ 38, σ 35, σ 24])) *
    (s.ay.val [σ 104, σ 16, σ 9, σ 10, σ 39] * star (s.ay.val [σ (q 2), σ 17, σ 12, σ 13, σ 40])) *
    (s.axy.val [σ 106, σ 34, σ 39, σ 29, σ 28] * star (s.axy.val [σ (q 3), σ 35, σ 40, σ 32, σ 31]))

/-- All labels but the physical ones. -/
def Spec.innerP : List Nat := [0, 1, 2, 3, 5, 6, 7, 8, 9, 10, 12, 13, 15, 16, 17, 18, 19, 20, 21, 23, 24, 26, 27, 28, 29, 31, 32, 33, 34, 35, 36, 37, 38, 39, 40, 41]

/-- The bra of an open site has its own physical label, that of a closed one shares the label of the ket. -/
def Spec.bra (os : List Nat) (x : Nat) : Nat := if x ∈ os then 100 + 2 * x + 1 else 100 + 2 * x

/-- The sites that are not in `os`. -/
def Spec.closedSites (os : List Nat) : List Nat := (List.range 4).filter (· ∉ os)

end Verif.Rdm
