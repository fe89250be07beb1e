import Verif.Ctm.CornerModel
/-
Model of /repo/ctm/generic/ctmrg.py L324-L804: absorption of a row or column into the environment, `absorb_truncate_CTM_MOVE_*_c`.
`sl` is the flag `mode` of the code (single-layer site tensor of rank 5 instead of the double-layer one of rank 4). Projectors are
rank-3 tensors (environment index, fused site index, new index). Checkpointing and printing are not modelled.
-/
namespace Verif.Absorb
open Tensor
variable {K : Type} [CommRing K] [StarRing K]

/-- ctmrg.py L343-L359 (`absorb_truncate_CTM_MOVE_UP_c`, corners). -/
def upC1 (C1 T1 Pt1 : Tensor K) : Option (Tensor K) := do
  let x ← tensordot [1] [0] C1 T1
  tensordot [0, 1] [0, 1] Pt1 x

/-- L361-L374. -/
def upC2 (C2 T2 P2 : Tensor K) : Option (Tensor K) := do
  let x ← tensordot [0] [0] C2 T2
  tensordot [0, 2] [0, 1] x P2

/-- L376-L399: double-layer branch. -/
def upTdl (T A Pt2 P1 : Tensor K) : Option (Tensor K) := do
  let x ← tensordot [0] [0] Pt2 T
  let x ← tensordot [0, 2] [1, 0] x A
  tensordot [1, 3] [0, 1] x P1

/-- L400-L425: single-layer branch. -/
def upTsl (T A Pt2 P1 : Tensor K) : Option (Tensor K) := do
  let T ← view [T.size 0, A.size 1, A.size 1, T.size 2] T
  let Pt2 ← view [Pt2.size 0, A.size 2, A.size 2, Pt2.size 2] Pt2
  let P1 ← view [P1.size 0, A.size 4, A.size 4, P1.size 2] P1
  let x ← einsum [(T, [0, 1, 2, 3]), (Pt2, [0, 8, 9, 4]), (A, [12, 1, 8, 5, 10]), (A.conj, [12, 2, 9, 6, 11]), (P1, [3, 10, 11, 7])]
    [4, 5, 6, 7]
  view [x.size 0, x.size 1 * x.size 2, x.size 3] x

/-- L459-L473 (`absorb_truncate_CTM_MOVE_LEFT_c`, corners). -/
def leftC1 (C1 T1 Pt1 : Tensor K) : Option (Tensor K) := do
  let x ← tensordot [1] [0] C1 T1
  tensordot [0, 1] [0, 1] Pt1 x

/-- L475-L484. -/
def leftC2 (C2 T2 P2 : Tensor K) : Option (Tensor K) := do
  let x ← tensordot [1] [1] C2 T2
  tensordot [0, 1] [0, 1] P2 x

/-- L486-L513: double-layer branch. -/
def leftTdl (T A Pt2 P1 : Tensor K) : Option (Tensor K) := do
  let x ← tensordot [0] [0] P1 T
  let x ← tensordot [0, 3] [0, 1] x A
  let x ← tensordot [1, 2] [0, 1] x Pt2
  permute [0, 2, 1] x

/-- L514-L543: single-layer branch. -/
def leftTsl (T A Pt2 P1 : Tensor K) : Option (Tensor K) := do
  let T ← view [T.size 0, T.size 1, A.size 2, A.size 2] T
  let P1 ← view [P1.size 0, A.size 1, A.size 1, P1.size 2] P1
  let Pt2 ← view [Pt2.size 0, A.size 3, A.size 3, Pt2.size 2] Pt2
  let x ← einsum [(T, [0, 1, 2, 3]), (Pt2, [1, 6, 7, 12]), (A, [8, 4, 2, 6, 10]), (A.conj, [8, 5, 3, 7, 11]), (P1, [0, 4, 5, 9])]
    [9, 12, 10, 11]
  view [x.size 0, x.size 1, x.size 2 * x.size 3] x

/-- L585-L601 (`absorb_truncate_CTM_MOVE_DOWN_c`, corners). -/
def downC1 (C1 T1 Pt1 : Tensor K) : Option (Tensor K) := do
  let x ← tensordot [0] [1] C1 T1
  tensordot [0, 2] [0, 1] x Pt1

/-- L603-L616. -/
def downC2 (C2 T2 P2 : Tensor K) : Option (Tensor K) := do
  let x ← tensordot [0] [2] C2 T2
  tensordot [0, 2] [0, 1] x P2

/-- L618-L641: double-layer branch. -/
def downTdl (T A Pt2 P1 : Tensor K) : Option (Tensor K) := do
  let x ← tensordot [0] [1] P1 T
  let x ← tensordot [0, 2] [1, 2] x A
  let x ← tensordot [1, 3] [0, 1] x Pt2
  permute [1, 0, 2] x

/-- L642-L667: single-layer branch. -/
def downTsl (T A Pt2 P1 : Tensor K) : Option (Tensor K) := do
  let T ← view [A.size 3, A.size 3, T.size 1, T.size 2] T
  let P1 ← view [P1.size 0, A.size 2, A.size 2, P1.size 2] P1
  let Pt2 ← view [Pt2.size 0, A.size 4, A.size 4, Pt2.size 2] Pt2
  let x ← einsum [(T, [0, 1, 2, 3]), (Pt2, [3, 10, 11, 7]), (A, [12, 5, 8, 0, 10]), (A.conj, [12, 6, 9, 1, 11]), (P1, [2, 8, 9, 4])]
    [5, 6, 4, 7]
  view [x.size 0 * x.size 1, x.size 2, x.size 3] x

/-- L701-L713 (`absorb_truncate_CTM_MOVE_RIGHT_c`, corners). -/
def rightC1 (C1 T1 Pt1 : Tensor K) : Option (Tensor K) := do
  let x ← tensordot [1] [2] C1 T1
  tensordot [0, 1] [0, 1] Pt1 x

/-- L715-L724. -/
def rightC2 (C2 T2 P2 : Tensor K) : Option (Tensor K) := do
  let x ← tensordot [0] [2] C2 T2
  tensordot [0, 2] [0, 1] x P2

/-- L726-L753: double-layer branch. -/
def rightTdl (T A Pt2 P1 : Tensor K) : Option (Tensor K) := do
  let x ← tensordot [0] [0] Pt2 T
  let x ← tensordot [0, 2] [0, 3] x A
  tensordot [1, 3] [0, 1] x P1

/-- L754-L783: single-layer branch. The code unfuses `T` with the size of the left leg of the site (`A.size(2)`). -/
def rightTsl (T A Pt2 P1 : Tensor K) : Option (Tensor K) := do
  let T ← view [T.size 0, A.size 2, A.size 2, T.size 2] T
  let Pt2 ← view [Pt2.size 0, A.size 1, A.size 1, Pt2.size 2] Pt2
  let P1 ← view [P1.size 0, A.size 3, A.size 3, P1.size 2] P1
  let x ← einsum [(T, [0, 1, 2, 3]), (Pt2, [0, 4, 5, 9]), (A, [8, 4, 10, 6, 1]), (A.conj, [8, 5, 11, 7, 2]), (P1, [3, 6, 7, 12])]
    [9, 10, 11, 12]
  view [x.size 0, x.size 1 * x.size 2, x.size 3] x

end Verif.Absorb
