import Verif.Ctm.CornerModel
import Verif.Tensor.Net
/-
Specification of the enlarged corners as labelled networks. Labels: `0`-`3` are environment bonds; `4, 6, 8, 10` are the bonds
of the ket site tensor (up, left, down, right), `5, 7, 9, 11` those of the bra; `12` is the physical index of the ket and `13`
that of the bra if it is open. Index order of the tensors is that of the documentation of `ENV` (env.py L57-L71): from "up"
anti-clockwise, and the pair (ket, bra) is fused with the ket first.
-/
namespace Verif.Corner
open Tensor
variable {K : Type} [CommRing K] [StarRing K]

/-- Sizes of a site tensor; ket and bra have equal sizes. -/
structure Spec.Site (dim : Nat → Nat) (a : Tensor K) : Prop where
  shape : a.shape = [dim 12, dim 4, dim 6, dim 8, dim 10]
  up : dim 5 = dim 4
  left : dim 7 = dim 6
  down : dim 9 = dim 8
  right : dim 11 = dim 10
  phys : dim 13 = dim 12

/-- The fused index of the pair (ket, bra). -/
def Spec.fused (dim σ : Nat → Nat) (k b : Nat) : Nat := σ k * dim b + σ b

/-- Ket times bra; the bra has physical label `p`. -/
def Spec.site (a : Tensor K) (p : Nat) (σ : Nat → Nat) : K :=
  a.val [σ 12, σ 4, σ 6, σ 8, σ 10] * star (a.val [σ p, σ 5, σ 7, σ 9, σ 11])

/-- Enlarged corner `LU`: corner, the two half-row/column tensors and the site. -/
def Spec.lu (dim : Nat → Nat) (C T1 T2 a : Tensor K) (p : Nat) (σ : Nat → Nat) : K :=
  C.val [σ 0, σ 1] * T1.val [σ 1, Spec.fused dim σ 4 5, σ 2] * T2.val [σ 0, σ 3, Spec.fused dim σ 6 7] * Spec.site a p σ

/-- Enlarged corner `RU`: corner, the two half-row/column tensors and the site. -/
def Spec.ru (dim : Nat → Nat) (C T1 T2 a : Tensor K) (p : Nat) (σ : Nat → Nat) : K :=
  C.val [σ 0, σ 1] * T1.val [σ 1, Spec.fused dim σ 10 11, σ 2] * T2.val [σ 3, Spec.fused dim σ 4 5, σ 0] * Spec.site a p σ

/-- Enlarged corner `RD`: corner, the two half-row/column tensors and the site. -/
def Spec.rd (dim : Nat → Nat) (C T1 T2 a : Tensor K) (p : Nat) (σ : Nat → Nat) : K :=
  C.val [σ 0, σ 1] * T1.val [Spec.fused dim σ 8 9, σ 2, σ 1] * T2.val [σ 3, Spec.fused dim σ 10 11, σ 0] * Spec.site a p σ

/-- Enlarged corner `LD`: corner, the two half-row/column tensors and the site. -/
def Spec.ld (dim : Nat → Nat) (C T1 T2 a : Tensor K) (p : Nat) (σ : Nat → Nat) : K :=
  C.val [σ 0, σ 1] * T1.val [σ 2, σ 0, Spec.fused dim σ 6 7] * T2.val [Spec.fused dim σ 8 9, σ 1, σ 3] * Spec.site a p σ

/-- `T` has the axes `O` (each a group of fused labels, first slowest) and its entries are the sums of `F` over the labels `L`. -/
def Spec.IsNetwork (dim : Nat → Nat) (T : Tensor K) (O : List (List Nat)) (L : List Nat) (F : (Nat → Nat) → K) : Prop :=
  T.shape = O.map (fun g => (g.map dim).prod) ∧
  ∀ σ, (∀ g ∈ O, ∀ l ∈ g, σ l < dim l) → T.val (O.map (fun g => ravel (g.map dim) (g.map σ))) = sumOver dim L F σ

end Verif.Corner
