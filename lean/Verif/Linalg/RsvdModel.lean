import Mathlib.Analysis.RCLike.Basic
import Mathlib.Data.Matrix.Mul
import Mathlib.LinearAlgebra.Matrix.ConjTranspose
/-
Model of the randomised truncated SVD, `linalg/svd_rsvd.py`.
-/
namespace Verif.Rsvd
open Matrix
variable {K : Type} [RCLike K]

/-- The two routines of torch that are called: `torch.linalg.qr` in reduced mode (linalg/svd_rsvd.py:27) returning `Q`, `R`, and
`SVDGESDD.apply` (linalg/svd_gesdd.py:31, `torch.svd`) returning `U`, `S`, `V`. Their values are left open; the contract is in `Spec`.
The `cutoff` argument enters only the backward pass, which is not modelled. -/
structure Backend (K : Type) [RCLike K] where
  qr : ∀ {a b : Nat}, Matrix (Fin a) (Fin b) K → Matrix (Fin a) (Fin (min a b)) K × Matrix (Fin (min a b)) (Fin b) K
  svd : ∀ {a b : Nat}, Matrix (Fin a) (Fin b) K → Matrix (Fin a) (Fin (min a b)) K × (Fin (min a b) → ℝ) × Matrix (Fin b) (Fin (min a b)) K

/-- A matrix whose number of columns is known only at run time (`Y`, `Z`, `Yorth`, `Zorth` in linalg/svd_rsvd.py:47-74). -/
structure Cols (K : Type) (m : Nat) where
  c : Nat
  A : Matrix (Fin m) (Fin c) K

/-- The returned `U`, `S`, `V` (linalg/svd_rsvd.py:118). -/
structure Out (K : Type) (m n : Nat) where
  r : Nat
  U : Matrix (Fin m) (Fin r) K
  S : Fin r → ℝ
  V : Matrix (Fin n) (Fin r) K

/-- linalg/svd_rsvd.py:26-30 `QR_check`, keeping `Q`. The warning is only logged. -/
def orth (be : Backend K) {m : Nat} (Y : Cols K m) : Cols K m := ⟨min m Y.c, (be.qr Y.A).1⟩

/-- linalg/svd_rsvd.py:57-64 and 67-74: the matrix that is multiplied next, orthogonalised when the counter `t` is divisible by `s`. -/
def pick (be : Backend K) {m : Nat} (s : Int) (t : Int) (Y : Cols K m) : Cols K m := if t % s = 0 then orth be Y else Y

/-- linalg/svd_rsvd.py:57-74: the body of the loop for `j`. -/
def body (be : Backend K) {m n : Nat} (M : Matrix (Fin m) (Fin n) K) (s : Int) (j : Nat) (Y : Cols K m) : Cols K m :=
  let Y' := pick be s (2 * j - 2) Y
  let Z : Cols K n := ⟨Y'.c, Mᴴ * Y'.A⟩
  let Z' := pick be s (2 * j - 1) Z
  ⟨Z'.c, M * Z'.A⟩

/-- linalg/svd_rsvd.py:54: `for j in range(1,q)`; `i` passes have been made. -/
def passes (be : Backend K) {m n : Nat} (M : Matrix (Fin m) (Fin n) K) (s : Int) (Y : Cols K m) : Nat → Cols K m
  | 0 => Y
  | i + 1 => body be M s (i + 1) (passes be M s Y i)

/-- linalg/svd_rsvd.py:83-116: factors from the QR decomposition of `Bt`, cut to the first `k`. -/
def finish (be : Backend K) {m n : Nat} (M : Matrix (Fin m) (Fin n) K) (k : Nat) (Q : Cols K m) : Out K m n :=
  let Bt := Mᴴ * Q.A
  let QR := be.qr Bt
  let d := be.svd QR.2
  let w := min (min n Q.c) Q.c
  let cut : Fin (min k w) → Fin w := Fin.castLE (Nat.min_le_right k w)
  ⟨min k w, (Q.A * d.2.2).submatrix id cut, fun i => d.2.1 (cut i), (QR.1 * d.1).submatrix id cut⟩

/-- linalg/svd_rsvd.py:6-118 `rsvd`. The random matrix of line 44, with `k+p` columns, is the argument `RN`. `none` is the `ZeroDivisionError`
of `% s`. Simplifications: `k`, `p`, `q` are natural numbers (a negative `q` behaves as `0`); arithmetic is exact; singular values are kept as reals. -/
def rsvd (be : Backend K) {m n : Nat} (M : Matrix (Fin m) (Fin n) K) (k p q : Nat) (s vnum : Int) (RN : Matrix (Fin n) (Fin (k + p)) K) :
    Option (Out K m n) :=
  let Y : Cols K m := ⟨k + p, M * RN⟩
  if s = 0 ∧ 1 < q then none else
  let Q := orth be (passes be M s Y (q - 1))
  if vnum = 1 ∨ vnum > 2 then some (finish be M k Q)
  else some ⟨k + p, 0, fun _ => 0, 0⟩

end Verif.Rsvd
