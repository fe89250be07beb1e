import Verif.Tensor.Ops
/-
Model of /repo/ctm/generic/ctm_components.py: the enlarged corners `c2x2_*`, double-layer and single-layer. Checkpointing (`fwd_checkpoint_*`) recomputes the same values and is not modelled; printing is not modelled.
The last argument `op` is the flag `mode` of the code: physical indices open.
-/
namespace Verif.Corner
open Tensor
variable {K : Type} [CommRing K] [StarRing K]

/-- ctmrg.py L56-L58: the double-layer tensor, `einsum('mefgh,mabcd->eafbgchd',A,conj(A))` viewed with fused pairs.
Letters `m e f g h a b c d` are `0 1 2 3 4 5 6 7 8`. -/
def doubleLayer (a : Tensor K) : Option (Tensor K) := do
  let x ← einsum [(a, [0, 1, 2, 3, 4]), (a.conj, [0, 5, 6, 7, 8])] [1, 5, 2, 6, 3, 7, 4, 8]
  view [a.size 1 ^ 2, a.size 2 ^ 2, a.size 3 ^ 2, a.size 4 ^ 2] x

/-- The six-leg double-layer tensor expected by the double-layer corners with open physical indices (`mode='dl-open'`): ket
and bra physical index first. -/
def doubleLayerOpen (a : Tensor K) : Option (Tensor K) := do
  let x ← einsum [(a, [0, 1, 2, 3, 4]), (a.conj, [9, 5, 6, 7, 8])] [0, 9, 1, 5, 2, 6, 3, 7, 4, 8]
  view [a.size 0, a.size 0, a.size 1 ^ 2, a.size 2 ^ 2, a.size 3 ^ 2, a.size 4 ^ 2] x

/-- ctm_components.py L321-L370 `c2x2_LU_c`. -/
def luDl (C T1 T2 A : Tensor K) (op : Bool) : Option (Tensor K) := do
  let x ← tensordot [1] [0] C T1
  let x ← tensordot [0] [0] x T2
  if op then
    let x ← tensordot [0, 3] [2, 3] x A
    let x ← permute [1, 4, 0, 5, 2, 3] x
    view [T2.size 1 * A.size 4, T1.size 2 * A.size 5, A.size 0, A.size 1] x
  else
    let x ← tensordot [0, 3] [0, 1] x A
    let x ← permute [1, 2, 0, 3] x
    view [T2.size 1 * A.size 2, T1.size 2 * A.size 3] x

/-- ctm_components.py L372-L435 `c2x2_LU_sl_c`. -/
def luSl (C T1 T2 a : Tensor K) (op : Bool) : Option (Tensor K) := do
  let x ← tensordot [1] [0] C T1
  let x ← tensordot [0] [0] x T2
  let x ← view [a.size 1, a.size 1, T1.size 2, T2.size 1, a.size 2, a.size 2] x
  let x ← tensordot [0, 4] [1, 2] x a
  if op then
    let x ← tensordot [0, 3] [1, 2] x a.conj
    let x ← permute [1, 3, 6, 0, 4, 7, 2, 5] x
    view [T2.size 1 * a.size 3 ^ 2, T1.size 2 * a.size 4 ^ 2, a.size 0, a.size 0] x
  else
    let x ← tensordot [0, 3, 4] [1, 2, 0] x a.conj
    let x ← permute [1, 2, 4, 0, 3, 5] x
    view [T2.size 1 * a.size 3 ^ 2, T1.size 2 * a.size 4 ^ 2] x

/-- ctm_components.py L487-L530 `c2x2_RU_c`. -/
def ruDl (C T1 T2 A : Tensor K) (op : Bool) : Option (Tensor K) := do
  let x ← tensordot [1] [0] C T1
  let x ← tensordot [0] [2] x T2
  if op then
    let x ← tensordot [0, 3] [5, 2] x A
    let x ← permute [1, 4, 0, 5, 2, 3] x
    view [T2.size 0 * A.size 3, T1.size 2 * A.size 4, A.size 0, A.size 1] x
  else
    let x ← tensordot [0, 3] [3, 0] x A
    let x ← permute [1, 2, 0, 3] x
    view [T2.size 0 * A.size 1, T1.size 2 * A.size 2] x

/-- ctm_components.py L532-L587 `c2x2_RU_sl_c`. -/
def ruSl (C T1 T2 a : Tensor K) (op : Bool) : Option (Tensor K) := do
  let x ← tensordot [1] [0] C T1
  let x ← tensordot [0] [2] x T2
  let x ← view [a.size 4, a.size 4, T1.size 2, T2.size 0, a.size 1, a.size 1] x
  let x ← tensordot [0, 4] [4, 1] x a
  if op then
    let x ← tensordot [0, 3] [4, 1] x a.conj
    let x ← permute [1, 3, 6, 0, 4, 7, 2, 5] x
    view [T2.size 0 * a.size 2 ^ 2, T1.size 2 * a.size 3 ^ 2, a.size 0, a.size 0] x
  else
    let x ← tensordot [0, 3, 4] [4, 1, 0] x a.conj
    let x ← permute [1, 2, 4, 0, 3, 5] x
    view [T2.size 0 * a.size 2 ^ 2, T1.size 2 * a.size 3 ^ 2] x

/-- ctm_components.py L639-L681 `c2x2_RD_c`. -/
def rdDl (C T1 T2 A : Tensor K) (op : Bool) : Option (Tensor K) := do
  let x ← tensordot [1] [2] C T1
  let x ← tensordot [0] [2] x T2
  if op then
    let x ← tensordot [0, 3] [4, 5] x A
    let x ← permute [1, 4, 0, 5, 2, 3] x
    view [T2.size 0 * A.size 2, T1.size 1 * A.size 3, A.size 0, A.size 1] x
  else
    let x ← tensordot [0, 3] [2, 3] x A
    let x ← permute [1, 2, 0, 3] x
    view [T2.size 0 * A.size 0, T1.size 1 * A.size 1] x

/-- ctm_components.py L683-L734 `c2x2_RD_sl_c`. -/
def rdSl (C T1 T2 a : Tensor K) (op : Bool) : Option (Tensor K) := do
  let x ← tensordot [1] [2] C T1
  let x ← tensordot [0] [2] x T2
  let x ← view [a.size 3, a.size 3, T1.size 1, T2.size 0, a.size 4, a.size 4] x
  let x ← tensordot [0, 4] [3, 4] x a
  if op then
    let x ← tensordot [0, 3] [3, 4] x a.conj
    let x ← permute [1, 3, 6, 0, 4, 7, 2, 5] x
    view [T2.size 0 * a.size 1 ^ 2, T1.size 1 * a.size 2 ^ 2, a.size 0, a.size 0] x
  else
    let x ← tensordot [0, 3, 4] [3, 4, 0] x a.conj
    let x ← permute [1, 2, 4, 0, 3, 5] x
    view [T2.size 0 * a.size 1 ^ 2, T1.size 1 * a.size 2 ^ 2] x

/-- ctm_components.py L786-L830 `c2x2_LD_c`. -/
def ldDl (C T1 T2 A : Tensor K) (op : Bool) : Option (Tensor K) := do
  let x ← tensordot [0] [1] C T1
  let x ← tensordot [0] [1] x T2
  if op then
    let x ← tensordot [1, 2] [3, 4] x A
    let x ← permute [0, 4, 1, 5, 2, 3] x
    view [T1.size 0 * A.size 2, T2.size 2 * A.size 5, A.size 0, A.size 1] x
  else
    let x ← tensordot [1, 2] [1, 2] x A
    let x ← permute [0, 2, 1, 3] x
    view [T1.size 0 * A.size 0, T2.size 2 * A.size 3] x

/-- ctm_components.py L832-L885 `c2x2_LD_sl_c`. -/
def ldSl (C T1 T2 a : Tensor K) (op : Bool) : Option (Tensor K) := do
  let x ← tensordot [0] [1] C T1
  let x ← tensordot [0] [1] x T2
  let x ← view [T1.size 0, a.size 2, a.size 2, a.size 3, a.size 3, T2.size 2] x
  let x ← tensordot [1, 3] [2, 3] x a
  if op then
    let x ← tensordot [1, 2] [2, 3] x a.conj
    let x ← permute [0, 3, 6, 1, 4, 7, 2, 5] x
    view [T1.size 0 * a.size 1 ^ 2, T2.size 2 * a.size 4 ^ 2, a.size 0, a.size 0] x
  else
    let x ← tensordot [1, 2, 4] [2, 3, 0] x a.conj
    let x ← permute [0, 2, 4, 1, 3, 5] x
    view [T1.size 0 * a.size 1 ^ 2, T2.size 2 * a.size 4 ^ 2] x

end Verif.Corner
