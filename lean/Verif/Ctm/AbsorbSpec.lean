import Verif.Ctm.AbsorbModel
import Verif.Ctm.CornerSpec
/-
Specification of the absorption step as labelled networks. The labels are those of the drawings in ctmrg.py.
-/
namespace Verif.Absorb
open Tensor
variable {K : Type} [CommRing K] [StarRing K]

/-- The new half-row/column tensor of the move `up`: old one, site, conjugate site and the two projectors. -/
def Spec.upT (dim : Nat → Nat) (T A Pt2 P1 : Tensor K) (σ : Nat → Nat) : K :=
  T.val [σ 0, Corner.Spec.fused dim σ 1 2, σ 3] * Pt2.val [σ 0, Corner.Spec.fused dim σ 8 9, σ 4] * A.val [σ 12, σ 1, σ 8, σ 5, σ 10] *
    star (A.val [σ 12, σ 2, σ 9, σ 6, σ 11]) * P1.val [σ 3, Corner.Spec.fused dim σ 10 11, σ 7]

/-- The new half-row/column tensor of the move `left`: old one, site, conjugate site and the two projectors. -/
def Spec.leftT (dim : Nat → Nat) (T A Pt2 P1 : Tensor K) (σ : Nat → Nat) : K :=
  T.val [σ 0, σ 1, Corner.Spec.fused dim σ 2 3] * Pt2.val [σ 1, Corner.Spec.fused dim σ 6 7, σ 12] * A.val [σ 8, σ 4, σ 2, σ 6, σ 10] *
    star (A.val [σ 8, σ 5, σ 3, σ 7, σ 11]) * P1.val [σ 0, Corner.Spec.fused dim σ 4 5, σ 9]

/-- The new half-row/column tensor of the move `down`: old one, site, conjugate site and the two projectors. -/
def Spec.downT (dim : Nat → Nat) (T A Pt2 P1 : Tensor K) (σ : Nat → Nat) : K :=
  T.val [Corner.Spec.fused dim σ 0 1, σ 2, σ 3] * Pt2.val [σ 3, Corner.Spec.fused dim σ 10 11, σ 7] * A.val [σ 12, σ 5, σ 8, σ 0, σ 10] *
    star (A.val [σ 12, σ 6, σ 9, σ 1, σ 11]) * P1.val [σ 2, Corner.Spec.fused dim σ 8 9, σ 4]

/-- The new half-row/column tensor of the move `right`: old one, site, conjugate site and the two projectors. -/
def Spec.rightT (dim : Nat → Nat) (T A Pt2 P1 : Tensor K) (σ : Nat → Nat) : K :=
  T.val [σ 0, Corner.Spec.fused dim σ 1 2, σ 3] * Pt2.val [σ 0, Corner.Spec.fused dim σ 4 5, σ 9] * A.val [σ 8, σ 4, σ 10, σ 6, σ 1] *
    star (A.val [σ 8, σ 5, σ 11, σ 7, σ 2]) * P1.val [σ 3, Corner.Spec.fused dim σ 6 7, σ 12]

/-- New corner `upC1`. -/
def Spec.upC1 (C T P : Tensor K) (σ : Nat → Nat) : K := C.val [σ 0, σ 1] * T.val [σ 1, σ 2, σ 3] * P.val [σ 0, σ 2, σ 4]

/-- New corner `upC2`. -/
def Spec.upC2 (C T P : Tensor K) (σ : Nat → Nat) : K := C.val [σ 0, σ 1] * T.val [σ 0, σ 2, σ 3] * P.val [σ 1, σ 3, σ 4]

/-- New corner `leftC1`. -/
def Spec.leftC1 (C T P : Tensor K) (σ : Nat → Nat) : K := C.val [σ 0, σ 1] * T.val [σ 1, σ 2, σ 3] * P.val [σ 0, σ 2, σ 4]

/-- New corner `leftC2`. -/
def Spec.leftC2 (C T P : Tensor K) (σ : Nat → Nat) : K := C.val [σ 0, σ 1] * T.val [σ 2, σ 1, σ 3] * P.val [σ 0, σ 2, σ 4]

/-- New corner `downC1`. -/
def Spec.downC1 (C T P : Tensor K) (σ : Nat → Nat) : K := C.val [σ 0, σ 1] * T.val [σ 2, σ 0, σ 3] * P.val [σ 1, σ 3, σ 4]

/-- New corner `downC2`. -/
def Spec.downC2 (C T P : Tensor K) (σ : Nat → Nat) : K := C.val [σ 0, σ 1] * T.val [σ 2, σ 3, σ 0] * P.val [σ 1, σ 3, σ 4]

/-- New corner `rightC1`. -/
def Spec.rightC1 (C T P : Tensor K) (σ : Nat → Nat) : K := C.val [σ 0, σ 1] * T.val [σ 2, σ 3, σ 1] * P.val [σ 0, σ 2, σ 4]

/-- New corner `rightC2`. -/
def Spec.rightC2 (C T P : Tensor K) (σ : Nat → Nat) : K := C.val [σ 0, σ 1] * T.val [σ 2, σ 3, σ 0] * P.val [σ 1, σ 3, σ 4]

end Verif.Absorb
