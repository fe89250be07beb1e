import Verif.Rdm.Model
import Verif.Ctm.CornerSpec
/-
Specification of the reduced density matrices as labelled networks. The labels are those of the drawings in rdm.py: L266-L284 `rdm1x1_sl`,
L503-L518 `_get_rdm2x1_sl_tn`, L829-L850 `_get_rdm1x2_sl_tn`. A pair (ket, bra) on an axis of an environment tensor is fused with the ket
first. `4`, `16` are the physical indices of the ket of the first and second site, `7`, `19` those of the bra.
-/
namespace Verif.Rdm
open Tensor
variable {K : Type} [RCLike K]

/-- Shapes of the tensors of the network of one site. -/
structure Spec.Fits1 (dim : Nat → Nat) (e : SiteEnv K) (a : Tensor K) : Prop where
  C1 : e.C1.shape = [dim 0, dim 1]
  T1 : e.T1.shape = [dim 1, dim 2 * dim 5, dim 9]
  T4 : e.T4.shape = [dim 0, dim 14, dim 3 * dim 6]
  C2 : e.C2.shape = [dim 9, dim 8]
  T2 : e.T2.shape = [dim 8, dim 10 * dim 11, dim 17]
  C3 : e.C3.shape = [dim 17, dim 13]
  T3 : e.T3.shape = [dim 15 * dim 16, dim 12, dim 13]
  C4 : e.C4.shape = [dim 14, dim 12]
  a : a.shape = [dim 4, dim 2, dim 3, dim 15, dim 10]
  a0 : dim 7 = dim 4
  a1 : dim 5 = dim 2
  a2 : dim 6 = dim 3
  a3 : dim 16 = dim 15
  a4 : dim 11 = dim 10

/-- The product of all tensors of the network of one site. -/
def Spec.rho1 (dim : Nat → Nat) (e : SiteEnv K) (a : Tensor K) (σ : Nat → Nat) : K :=
  e.C1.val [σ 0, σ 1] * e.T1.val [σ 1, Corner.Spec.fused dim σ 2 5, σ 9] * e.T4.val [σ 0, σ 14, Corner.Spec.fused dim σ 3 6] * e.C2.val [σ 9, σ 8] * e.T2.val [σ 8, Corner.Spec.fused dim σ 10 11, σ 17] * e.C3.val [σ 17, σ 13] * e.T3.val [Corner.Spec.fused dim σ 15 16, σ 12, σ 13] * e.C4.val [σ 14, σ 12] *
    (a.val [σ 4, σ 2, σ 3, σ 15, σ 10] * star (a.val [σ 7, σ 5, σ 6, σ 16, σ 11]))

/-- Shapes of the tensors of the network of two sites in a row. -/
structure Spec.FitsH (dim : Nat → Nat) (e : PairEnv K) (a b : Tensor K) : Prop where
  C1 : e.C1.shape = [dim 0, dim 1]
  T1 : e.T1.shape = [dim 1, dim 2 * dim 5, dim 24]
  S : e.S.shape = [dim 0, dim 9, dim 3 * dim 6]
  C4 : e.C4.shape = [dim 9, dim 8]
  T3 : e.T3.shape = [dim 10 * dim 11, dim 8, dim 25]
  T1b : e.T1b.shape = [dim 24, dim 14 * dim 17, dim 12]
  C2 : e.C2.shape = [dim 12, dim 13]
  Sb : e.Sb.shape = [dim 13, dim 15 * dim 18, dim 21]
  C3 : e.C3.shape = [dim 21, dim 20]
  T3b : e.T3b.shape = [dim 22 * dim 23, dim 25, dim 20]
  a : a.shape = [dim 4, dim 2, dim 3, dim 10, dim 26]
  a0 : dim 7 = dim 4
  a1 : dim 5 = dim 2
  a2 : dim 6 = dim 3
  a3 : dim 11 = dim 10
  a4 : dim 27 = dim 26
  b : b.shape = [dim 16, dim 14, dim 26, dim 22, dim 15]
  b0 : dim 19 = dim 16
  b1 : dim 17 = dim 14
  b2 : dim 27 = dim 26
  b3 : dim 23 = dim 22
  b4 : dim 18 = dim 15

/-- The product of all tensors of the network of two sites in a row. -/
def Spec.rhoH (dim : Nat → Nat) (e : PairEnv K) (a b : Tensor K) (σ : Nat → Nat) : K :=
  e.C1.val [σ 0, σ 1] * e.T1.val [σ 1, Corner.Spec.fused dim σ 2 5, σ 24] * e.S.val [σ 0, σ 9, Corner.Spec.fused dim σ 3 6] * e.C4.val [σ 9, σ 8] * e.T3.val [Corner.Spec.fused dim σ 10 11, σ 8, σ 25] * e.T1b.val [σ 24, Corner.Spec.fused dim σ 14 17, σ 12] * e.C2.val [σ 12, σ 13] * e.Sb.val [σ 13, Corner.Spec.fused dim σ 15 18, σ 21] * e.C3.val [σ 21, σ 20] * e.T3b.val [Corner.Spec.fused dim σ 22 23, σ 25, σ 20] *
    (a.val [σ 4, σ 2, σ 3, σ 10, σ 26] * star (a.val [σ 7, σ 5, σ 6, σ 11, σ 27])) *
    (b.val [σ 16, σ 14, σ 26, σ 22, σ 15] * star (b.val [σ 19, σ 17, σ 27, σ 23, σ 18]))

/-- Shapes of the tensors of the network of two sites in a column. -/
structure Spec.FitsV (dim : Nat → Nat) (e : PairEnv K) (a b : Tensor K) : Prop where
  C1 : e.C1.shape = [dim 0, dim 1]
  S : e.S.shape = [dim 1, dim 2 * dim 5, dim 9]
  T1 : e.T1.shape = [dim 0, dim 24, dim 3 * dim 6]
  T3 : e.T3.shape = [dim 8, dim 10 * dim 11, dim 27]
  C2 : e.C2.shape = [dim 9, dim 8]
  T1b : e.T1b.shape = [dim 24, dim 13, dim 14 * dim 17]
  C4 : e.C4.shape = [dim 13, dim 12]
  Sb : e.Sb.shape = [dim 15 * dim 18, dim 12, dim 21]
  C3 : e.C3.shape = [dim 20, dim 21]
  T3b : e.T3b.shape = [dim 27, dim 22 * dim 23, dim 20]
  a : a.shape = [dim 4, dim 2, dim 3, dim 25, dim 10]
  a0 : dim 7 = dim 4
  a1 : dim 5 = dim 2
  a2 : dim 6 = dim 3
  a3 : dim 26 = dim 25
  a4 : dim 11 = dim 10
  b : b.shape = [dim 16, dim 25, dim 14, dim 15, dim 22]
  b0 : dim 19 = dim 16
  b1 : dim 26 = dim 25
  b2 : dim 17 = dim 14
  b3 : dim 18 = dim 15
  b4 : dim 23 = dim 22

/-- The product of all tensors of the network of two sites in a column. -/
def Spec.rhoV (dim : Nat → Nat) (e : PairEnv K) (a b : Tensor K) (σ : Nat → Nat) : K :=
  e.C1.val [σ 0, σ 1] * e.S.val [σ 1, Corner.Spec.fused dim σ 2 5, σ 9] * e.T1.val [σ 0, σ 24, Corner.Spec.fused dim σ 3 6] * e.T3.val [σ 8, Corner.Spec.fused dim σ 10 11, σ 27] * e.C2.val [σ 9, σ 8] * e.T1b.val [σ 24, σ 13, Corner.Spec.fused dim σ 14 17] * e.C4.val [σ 13, σ 12] * e.Sb.val [Corner.Spec.fused dim σ 15 18, σ 12, σ 21] * e.C3.val [σ 20, σ 21] * e.T3b.val [σ 27, Corner.Spec.fused dim σ 22 23, σ 20] *
    (a.val [σ 4, σ 2, σ 3, σ 25, σ 10] * star (a.val [σ 7, σ 5, σ 6, σ 26, σ 11])) *
    (b.val [σ 16, σ 25, σ 14, σ 15, σ 22] * star (b.val [σ 19, σ 26, σ 17, σ 18, σ 23]))

end Verif.Rdm
