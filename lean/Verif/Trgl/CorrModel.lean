import Verif.Trgl.Model
import Verif.Energy.CorrModel
import Verif.Energy.ObsModel
/-
Model of the spin correlation functions of /repo/models/spin_triangular.py: `J1J2J4_1SITEQ.eval_corrf_SS` (L780-L867, `rl_0=None`), `J1J2J4_1SITEQ.eval_corrf_SId` (L869-L923,
`rl_0=None`), `J1J2J4.eval_corrf_SS` (L953-L989). The dtype is complex. The dictionaries are structures. A division by zero gives zero instead of `nan`.
-/
namespace Verif.Trgl
open Tensor Ctm Rdm Models

/-- L812-L814, L909-L911: `S_zxiy`, the components `S^z`, `S^x`, `i S^y`. -/
noncomputable def szxiy (p : Nat) : Fin 3 → Su2.Op p
  | 0 => Su2.SZ p
  | 1 => (1 / 2 : ℂ) • (Su2.SP p + Su2.SM p)
  | 2 => (1 / 2 : ℂ) • (Su2.SP p - Su2.SM p)

/-- L845-L851: `sign_r`. -/
def sign : Dir → ℝ
  | .right => 1
  | .up => 1
  | .left => -1
  | .down => -1

/-- L856: `einsum('xy,xj,yb->jb', op_0, R, R)`. -/
def rotOne (p : Nat) (o : Tensor ℂ) (R : Su2.Op p) : Option (Tensor ℂ) := einsum [(o, [2, 3]), (opP p R, [2, 0]), (opP p R, [3, 1])] [0, 1]

/-- L843-L857 `conjugate_op`: the operator at distance `r + 1`. The contraction cannot raise, the shapes fit. -/
noncomputable def genOp (p : Nat) (q : ℝ × ℝ) (conj : Bool) (d : Dir) (o : Su2.Op p) (r : Nat) : Tensor ℂ :=
  if conj then (rotOne p (opP p o) (rotation p (sign d * (r + 1) * q.1))).getD (opP p o) else opP p o

/-- L828, L834: the vector `Sexp_zxiy` divided by its norm. -/
noncomputable def direction (eigh : Tensor ℂ → List ℝ × Tensor ℂ) (p : Nat) (st : State ℂ) (env : Env ℂ) (c : Coord) : Except Err (Fin 3 → ℂ) := do
  let rho ← rdm1x1 eigh true false st env c none
  let z ← lift (Energy.traceMul rho (opP p (szxiy p 0)))
  let x ← lift (Energy.traceMul rho (opP p (szxiy p 1)))
  let y ← lift (Energy.traceMul rho (opP p (szxiy p 2)))
  let n : ℝ := Real.sqrt (‖z‖ ^ 2 + ‖x‖ ^ 2 + ‖y‖ ^ 2)
  return ![z / n, x / n, y / n]

/-- L836-L837: the matrix `SR`, the identity of size `phys_dim + 1` with `Sexp[0] * I + Sexp[1] * (2 * S_zxiy[2])` in its upper left block of size two. -/
noncomputable def SR (p : Nat) (e : Fin 3 → ℂ) (a b : Fin 3) : ℂ :=
  if a < 2 ∧ b < 2 then e 0 * (opP p 1).val [(a : Nat), (b : Nat)] + e 1 * (2 * (opP p (szxiy p 2)).val [(a : Nat), (b : Nat)]) else if a = b then 1 else 0

/-- L823-L840: the operators. For `phys_dim ≠ 2` the assignment or the contraction with `SR` raises. -/
noncomputable def operators (eigh : Tensor ℂ → List ℝ × Tensor ℂ) (p : Nat) (canonical : Bool) (st : State ℂ) (env : Env ℂ) (c : Coord) : Except Err (Fin 3 → Su2.Op p) := do
  if canonical then
    let e ← direction eigh p st env c
    if p ≠ 2 then .error .raise else
    return fun a => ∑ b, SR p e a b • szxiy p b
  else return szxiy p

/-- The dictionary L866. -/
structure Corr where
  ss : List ℝ
  szsz : List ℝ
  sxsx : List ℝ
  sysy : List ℝ

/-- `_cast_to_real` of a one-dimensional tensor, L11-L12. -/
def realParts (l : List ℂ) : List ℝ := l.map Complex.re

/-- L866. -/
noncomputable def corrOf (z x y : List ℝ) : Corr := ⟨List.zipWith (· - ·) (List.zipWith (· + ·) z x) y, z, x, y.map (- ·)⟩

/-- L780-L867 `J1J2J4_1SITEQ.eval_corrf_SS` with `rl_0=None`; `q` is the argument, the pitch vector of the model or that of the state. -/
noncomputable def evalCorrfSS (eigh : Tensor ℂ → List ℝ × Tensor ℂ) (p : Nat) (q : ℝ × ℝ) (canonical conj : Bool) (st : State ℂ) (env : Env ℂ) (d : Dir) (c : Coord) (dist : Nat) :
    Except Err Corr := do
  let S ← operators eigh p canonical st env c
  let z ← Corrf.corrf11 st env d c (opP p (S 0)) (genOp p q conj d (S 0)) dist
  let x ← Corrf.corrf11 st env d c (opP p (S 1)) (genOp p q conj d (S 1)) dist
  let y ← Corrf.corrf11 st env d c (opP p (S 2)) (genOp p q conj d (S 2)) dist
  return corrOf (realParts z) (realParts x) (realParts y)

/-- The dictionary L922. -/
structure OnePoint where
  sz : List ℝ
  sx : List ℝ
  isy : List ℝ

/-- L913-L914: `R` and the operators `einsum('ki,xkj->xij', R, einsum('xkl,lj->xkj', S_zxiy, R))`. -/
noncomputable def turnedOps (p : Nat) (q : ℝ × ℝ) (conj : Bool) (c : Coord) (a : Fin 3) : Su2.Op p :=
  if conj then (rotation p (c.1 * q.1 + c.2 * q.1)).transpose * (szxiy p a * rotation p (c.1 * q.1 + c.2 * q.1)) else szxiy p a

/-- L869-L923 `eval_corrf_SId` with `rl_0=None`. -/
noncomputable def evalCorrfSId (p : Nat) (q : ℝ × ℝ) (conj : Bool) (st : State ℂ) (env : Env ℂ) (d : Dir) (c : Coord) (dist : Nat) : Except Err OnePoint := do
  let z ← Corrf.corrf11 st env d c (opP p (turnedOps p q conj c 0)) (fun _ => opP p 1) dist
  let x ← Corrf.corrf11 st env d c (opP p (turnedOps p q conj c 1)) (fun _ => opP p 1) dist
  let y ← Corrf.corrf11 st env d c (opP p (turnedOps p q conj c 2)) (fun _ => opP p 1) dist
  return ⟨realParts z, realParts x, realParts y⟩

open Classical in
/-- L953-L989 `J1J2J4.eval_corrf_SS`. -/
noncomputable def evalCorrfSS0 (p : Nat) (q : ℝ × ℝ) (st : State ℂ) (env : Env ℂ) (d : Dir) (c : Coord) (dist : Nat) : Except Err Energy.SpinCorr :=
  if ¬ (q.1 = 0 ∧ q.2 = 0) then .error .raise else do
  let sx : Su2.Op p := (1 / 2 : ℂ) • (Su2.SP p + Su2.SM p)
  let isy : Su2.Op p := (-(1 / 2) : ℂ) • (Su2.SP p - Su2.SM p)
  let z ← Corrf.corrf11 st env d c (opP p (Su2.SZ p)) (fun _ => opP p (Su2.SZ p)) dist
  let x ← Corrf.corrf11 st env d c (opP p sx) (fun _ => opP p sx) dist
  let y ← Corrf.corrf11 st env d c (opP p isy) (fun _ => opP p isy) dist
  return Energy.spinCorr z x y

end Verif.Trgl
