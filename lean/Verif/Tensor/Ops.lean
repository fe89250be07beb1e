import Verif.Tensor.Core
import Mathlib.Algebra.BigOperators.Ring.Finset
import Mathlib.Algebra.Star.BigOperators
/-
Tensor operations of torch used by peps-torch through /repo/tn_interface.py L1-L26 (`contract` = `torch.tensordot`, `view`,
`permute`, `conj`, `einsum`) and `opt_einsum.contract` (same meaning as `einsum`; the contraction order is not modelled).
Entries are elements of a commutative ring, so rounding is not modelled. `contiguous` and devices have no effect on values.
`none` is the RuntimeError torch raises. torch's broadcasting of axes of size one in `tensordot`/`einsum` is not modelled:
mismatched sizes always raise here.
-/
namespace Verif.Tensor
variable {K : Type}

/-- Sum over all multi-indices of a shape. -/
def sumIdx [AddCommMonoid K] : List Nat → (List Nat → K) → K
  | [], f => f []
  | d :: ds, f => ∑ i ∈ Finset.range d, sumIdx ds (fun is => f (i :: is))

/-- The axes of a rank-`n` tensor that are not contracted, in order. -/
def freeAxes (n : Nat) (ax : List Nat) : List Nat := (List.range n).filter (fun p => p ∉ ax)

/-- The multi-index with entries `k` at the axes `ax` and `f` at the others. -/
def merge (n : Nat) (ax k f : List Nat) : List Nat :=
  (List.range n).map (fun p => if p ∈ ax then k.getD (ax.idxOf p) 0 else f.getD ((freeAxes n ax).idxOf p) 0)

/-- `torch.tensordot(A, B, (ax, bx))`. -/
def tensordot [CommRing K] (ax bx : List Nat) (A B : Tensor K) : Option (Tensor K) :=
  if ax.Nodup ∧ bx.Nodup ∧ (∀ p ∈ ax, p < A.shape.length) ∧ (∀ p ∈ bx, p < B.shape.length) ∧
      ax.map (A.shape.getD · 0) = bx.map (B.shape.getD · 0) then
    let fa := freeAxes A.shape.length ax
    let fb := freeAxes B.shape.length bx
    some ⟨fa.map (A.shape.getD · 0) ++ fb.map (B.shape.getD · 0),
      fun idx => sumIdx (ax.map (A.shape.getD · 0)) (fun k =>
        A.val (merge A.shape.length ax k (idx.take fa.length)) * B.val (merge B.shape.length bx k (idx.drop fa.length)))⟩
  else none

/-- `t.view(shape)` / `t.reshape(shape)` with explicit sizes. -/
def view (sh : List Nat) (A : Tensor K) : Option (Tensor K) :=
  if sh.prod = A.shape.prod then some ⟨sh, fun idx => A.val (unravel A.shape (ravel sh idx))⟩ else none

/-- `t.conj()`. -/
def conj [Star K] (A : Tensor K) : Tensor K := ⟨A.shape, fun idx => star (A.val idx)⟩

/-- `t.size(i)`; only used with `i` a valid axis. -/
def size (A : Tensor K) (i : Nat) : Nat := A.shape.getD i 0

/-- Sum of `f` over all values of the labels `ls`; label `l` takes the values `0, ..., dim l - 1`. -/
def sumOver [AddCommMonoid K] (dim : Nat → Nat) : List Nat → ((Nat → Nat) → K) → (Nat → Nat) → K
  | [], f, σ => f σ
  | l :: ls, f, σ => ∑ i ∈ Finset.range (dim l), sumOver dim ls f (Function.update σ l i)

/-- The sizes of all labels of an `einsum`. -/
def labelDims (ops : List (Tensor K × List Nat)) : List (Nat × Nat) := ops.flatMap (fun p => p.2.zip p.1.shape)

/-- `torch.einsum(A, labsA, B, labsB, ..., out)` / `oe.contract` in the interleaved format; the string format is the same with
letters for numbers. -/
def einsum [CommRing K] (ops : List (Tensor K × List Nat)) (out : List Nat) : Option (Tensor K) :=
  let ds := labelDims ops
  let dim := fun l => (ds.lookup l).getD 1
  let labs := (ops.flatMap Prod.snd).dedup
  if (∀ p ∈ ops, p.2.length = p.1.shape.length) ∧ (∀ q ∈ ds, ds.lookup q.1 = some q.2) ∧ out.Nodup ∧ (∀ l ∈ out, l ∈ labs) then
    some ⟨out.map dim, fun idx =>
      sumOver dim (labs.filter (fun l => l ∉ out)) (fun σ => (ops.map (fun p => p.1.val (p.2.map σ))).prod)
        (fun l => idx.getD (out.idxOf l) 0)⟩
  else none

end Verif.Tensor
