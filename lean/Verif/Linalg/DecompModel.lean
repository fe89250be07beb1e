import Mathlib.Analysis.RCLike.Basic
import Mathlib.Analysis.Complex.Basic
import Mathlib.Data.Matrix.Mul
import Mathlib.LinearAlgebra.Matrix.ConjTranspose
import Mathlib.Algebra.Order.Floor.Ring
import Mathlib.Data.Sign.Basic
/-
Model of /repo/linalg/svd_gesdd.py, /repo/linalg/svd_symeig.py, /repo/linalg/eig_sym.py.
Arithmetic is exact. The LAPACK factorisations are inputs.
-/
namespace Verif.Decomp
open Matrix

/-- svd_gesdd.py L11-L12 (also eig_sym.py L4-L5, svd_symeig.py L7-L8) `safe_inverse`. -/
noncomputable def safeInverse (x eps : ℝ) : ℝ := x / (x ^ 2 + eps)

/-- svd_gesdd.py L14-L16 `safe_inverse_2`: entries below `eps` in magnitude become inf and then 0.
For `x = 0` and `eps = 0` the code gives inf; here 0: every use below excludes that case. -/
noncomputable def safeInverse2 (x eps : ℝ) : ℝ := if |x| < eps then 0 else x⁻¹

/-! ### Sign fixing -/

/-- `torch.argmax` of a vector: first position of the largest entry. `none`: empty vector (raises). -/
def argmax : List Nat → Option Nat
  | [] => none
  | x :: l =>
    match argmax l with
    | none => some 0
    | some i => if x < l.getD i 0 then some (i + 1) else some 0

/-- svd_gesdd.py L19 for one column: `(U.abs() * (2**40)).to(int64)`. Overflow is not modelled (columns
have norm one). -/
noncomputable def amps {m : Nat} (u : Fin m → ℂ) : List Nat := List.ofFn fun i => ⌊‖u i‖ * 2 ^ 40⌋₊

/-- svd_gesdd.py L20-L22 for one column: the phase of the pivot entry. `none`: empty column (raises) or
0/0 (the code goes on with nan). -/
noncomputable def phase {m : Nat} (u : Fin m → ℂ) : Option ℂ :=
  match argmax (amps u) with
  | none => none
  | some i => if h : i < m then (if u ⟨i, h⟩ = 0 then none else some (u ⟨i, h⟩ / (‖u ⟨i, h⟩‖ : ℂ))) else none

/-- `X * row.reshape(1,-1)` for a matrix given by its columns, with torch broadcasting. -/
def scaleCols {n : Nat} (X : List (Fin n → ℂ)) (row : List ℂ) : Option (List (Fin n → ℂ)) :=
  if X.length = row.length then some (List.zipWith (fun x c => fun i => x i * c) X row)
  else match X, row with
    | [x], _ => some (row.map (fun c => fun i => x i * c))
    | _, [c] => some (X.map (fun x => fun i => x i * c))
    | _, _ => none

/-- svd_gesdd.py L18-L26 `fix_svd_signs`. -/
noncomputable def fixSvdSigns {m n : Nat} (U : List (Fin m → ℂ)) (V : List (Fin n → ℂ)) :
    Option (List (Fin m → ℂ) × List (Fin n → ℂ)) := do
  let ph ← U.mapM phase
  let U' ← scaleCols U (ph.map (starRingEnd ℂ))
  let V' ← scaleCols V (ph.map (starRingEnd ℂ))
  some (U', V')

/-! ### Symmetric eigendecomposition and the SVD built on it -/

/-- svd_symeig.py L25-L45 `SVDSYMEIG.forward`, real matrices: `D, U` are the result of `torch.symeig`, `p`
the permutation returned by `torch.sort(abs(D), descending=True)`. -/
noncomputable def svdSymeig {n : Nat} (D : Fin n → ℝ) (U : Matrix (Fin n) (Fin n) ℝ) (p : Fin n → Fin n) :
    Matrix (Fin n) (Fin n) ℝ × (Fin n → ℝ) × Matrix (Fin n) (Fin n) ℝ :=
  let S := fun i => |D (p i)|
  let U' := U.submatrix id p
  (U', S, U' * Matrix.diagonal (fun i => (SignType.sign (D (p i)) : ℝ)))

variable {𝕜 : Type} [RCLike 𝕜] {n m k : Nat}

/-- `F = safe_inverse(D - D[:,None], eps); F.diagonal().fill_(0)`, eig_sym.py L72-L75, svd_gesdd.py
L281-L283. -/
noncomputable def Fmat (D : Fin k → ℝ) (eps : ℝ) : Matrix (Fin k) (Fin k) ℝ :=
  Matrix.of fun i j => if i = j then 0 else safeInverse (D j - D i) eps

/-- svd_gesdd.py L285-L287. -/
noncomputable def Gmat (D : Fin k → ℝ) (eps : ℝ) : Matrix (Fin k) (Fin k) ℝ :=
  Matrix.of fun i j => if i = j then 0 else safeInverse (D j + D i) eps

/-- Element-wise product with a real matrix. -/
def had (F : Matrix (Fin k) (Fin k) ℝ) (X : Matrix (Fin k) (Fin k) 𝕜) : Matrix (Fin k) (Fin k) 𝕜 :=
  Matrix.of fun i j => (F i j : 𝕜) * X i j

/-- eig_sym.py L55-L78 `SYMEIG.backward`. -/
noncomputable def symeigBackward (D : Fin n → ℝ) (U : Matrix (Fin n) (Fin n) 𝕜) (reg : ℝ)
    (gD : Fin n → ℝ) (gU : Matrix (Fin n) (Fin n) 𝕜) : Matrix (Fin n) (Fin n) 𝕜 :=
  U * (Matrix.diagonal (fun i => (gD i : 𝕜)) + had (Fmat D reg) (Uᴴ * gU)) * Uᴴ

/-- svd_gesdd.py L205-L331 `SVDGESDD.backward`, all three incoming gradients present. `u`, `v` have already
been narrowed to their first `k` columns (L256-L263). `s0` is `sigma[0]`. The last term (L320-L325) is
added for complex dtypes; for real ones it is zero. -/
noncomputable def svdBackward (u : Matrix (Fin m) (Fin k) 𝕜) (s : Fin k → ℝ) (v : Matrix (Fin n) (Fin k) 𝕜)
    (s0 eps : ℝ) (gu : Matrix (Fin m) (Fin k) 𝕜) (gs : Fin k → ℝ) (gv : Matrix (Fin n) (Fin k) 𝕜) :
    Matrix (Fin m) (Fin n) 𝕜 :=
  let sigmaTerm := u * Matrix.diagonal (fun i => (gs i : 𝕜)) * vᴴ
  let sinv := Matrix.diagonal (fun i => ((safeInverse2 (s i) (s0 * eps) : ℝ) : 𝕜))
  let F := Fmat s (s0 * eps)
  let G := Gmat s (s0 * eps)
  let uTerm := (1 / 2 : 𝕜) • (u * had (F + G) (uᴴ * gu - guᴴ * u))
  let uTerm := if k < m then uTerm + (1 - u * uᴴ) * (gu * sinv) else uTerm
  let uTerm := uTerm * vᴴ
  let vTerm := (1 / 2 : 𝕜) • (had (F - G) (vᴴ * gv - gvᴴ * v) * vᴴ)
  let vTerm := if k < n then vTerm + sinv * (gvᴴ * (1 - v * vᴴ)) else vTerm
  let vTerm := u * vTerm
  let L := Matrix.diagonal (fun i => RCLike.I * ((RCLike.im ((uᴴ * gu) i i) * safeInverse2 (s i) (s0 * eps) : ℝ) : 𝕜))
  uTerm + sigmaTerm + vTerm + u * L * vᴴ

end Verif.Decomp
