import Mathlib.Analysis.RCLike.Basic
import Mathlib.Data.Matrix.Mul
import Mathlib.Data.Real.Sign
import Mathlib.LinearAlgebra.Matrix.ConjTranspose
/-
Model of the partial decompositions through scipy: `linalg/svd_arnoldi.py` and `linalg/eig_arnoldi.py`, forward passes.
-/
namespace Verif.Arnoldi
open Matrix
variable {K : Type} [RCLike K]

/-- linalg/eig_arnoldi.py:38-52 `SYMARNOLDI.forward`. `D`, `U` are what `scipy.sparse.linalg.eigsh` returned for the matrix, `p` is the
permutation `torch.sort` returned for the magnitudes. Device transfers are left out. -/
def symEig {n k : Nat} (D : Fin k → ℝ) (U : Matrix (Fin n) (Fin k) K) (p : Fin k → Fin k) : (Fin k → ℝ) × Matrix (Fin n) (Fin k) K :=
  (fun i => D (p i), U.submatrix id p)

/-- linalg/svd_arnoldi.py:44-63 `SVDSYMARNOLDI.forward`, with the same arguments. `torch.sign` of zero is zero. -/
noncomputable def symSvd {n k : Nat} (D : Fin k → ℝ) (U : Matrix (Fin n) (Fin k) K) (p : Fin k → Fin k) :
    Matrix (Fin n) (Fin k) K × (Fin k → ℝ) × Matrix (Fin n) (Fin k) K :=
  let U' := U.submatrix id p
  (U', fun i => |D (p i)|, U' * diagonal (fun i => ((Real.sign (D (p i)) : ℝ) : K)))

/-- Factors of a decomposition with possibly different numbers of columns: `u` left vectors, `s` values, `v` right vectors. -/
structure Fac (K : Type) (m n : Nat) where
  u : Nat
  s : Nat
  v : Nat
  U : Nat → Fin m → K
  S : Nat → ℝ
  V : Nat → Fin n → K

/-- linalg/svd_arnoldi.py:138-150 `SVDARNOLDI.forward`. `full` is the result of `scipy.linalg.svd` (square `U` and `V`), `part` that of
`scipy.sparse.linalg.svds(M, k)`; the result is not reordered. -/
noncomputable def svdArnoldi {m n : Nat} (full part : Fac K m n) (k : Nat) (thresh : ℝ) : Fac K m n :=
  if (m : ℝ) * thresh ≤ k ∨ (n : ℝ) * thresh ≤ k then { full with u := min k full.u, s := min k full.s, v := min k full.v }
  else part

/-- linalg/svd_arnoldi.py:223-231 `SVD_PROPACK.forward`: `part` is the result of `svds(M, k+k_extra)`, `np.flip` reverses it. -/
def svdPropack {m n : Nat} (part : Fac K m n) : Fac K m n :=
  { part with U := fun i => part.U (part.u - 1 - i), S := fun i => part.S (part.s - 1 - i), V := fun i => part.V (part.v - 1 - i) }

end Verif.Arnoldi
