import Verif.C4v.Model
import Verif.Corrf.Model
/-
Model of the correlation functions of one-site C4v symmetric states, /repo/ctm/one_site_c4v/corrf_c4v.py. `a` is the site tensor, the first (and only) one of
`state.sites`. The backend of the SVD is a parameter; the option `rl_0` (edges given by the caller), devices and logging are not modelled.
-/
namespace Verif.C4v
open Tensor Ctm
variable {K : Type} [RCLike K]

/-- L5-L41 `get_edge`. -/
def getEdge (env : C4v.Env K) : Option (Tensor K) := do
  let E ← tensordot [0] [0] env.C env.T
  tensordot [1] [0] E env.C

/-- L73-L76, the loop of `get_edge_L`: `n` half-rows left, the next one is number `i`. -/
def edgeLoop (T : Tensor K) : Nat → Nat → Tensor K → Option (Tensor K)
  | 0, _, E => some E
  | n + 1, i, E => do
    let E ← tensordot [i] [0] E T
    edgeLoop T n (i + 1) E

/-- L43-L83 `get_edge_L`. -/
def getEdgeL (env : C4v.Env K) (l : Nat) : Option (Tensor K) := do
  let T ← permute [1, 2, 0] env.T
  let E ← edgeLoop T l 1 env.C
  tensordot [l + 1] [0] E env.C

/-- L85-L143 `apply_edge`. -/
def applyEdge (env : C4v.Env K) (vec : Tensor K) : Option (Tensor K) := do
  let S ← tensordot [0] [0] vec env.C
  let S ← tensordot [0, 2] [2, 1] S env.T
  tensordot [0, 1] [1, 0] S env.C

/-- L145-L176 `apply_edge_L`. A vector of rank below two makes `l` negative and the contraction fails. -/
def applyEdgeL (env : C4v.Env K) (vec : Tensor K) : Option (Tensor K) :=
  if vec.shape.length < 2 then none
  else do
    let E ← getEdgeL env (vec.shape.length - 2)
    tensordot (List.range vec.shape.length) (List.range vec.shape.length).reverse vec E

/-- `torch.eye`. -/
def eye (p : Nat) : Tensor K := ⟨[p, p], fun idx => if idx.getD 0 0 = idx.getD 1 0 then 1 else 0⟩

/-- `torch.eye(p)[:,:,None]`. -/
def eye3 (p : Nat) : Tensor K := ⟨[p, p, 1], fun idx => if idx.getD 0 0 = idx.getD 1 0 then 1 else 0⟩

/-- L245-L247 of `apply_TM_1sO`: bra and ket with an operator of rank two in between; letters `n e f g h a b c d` are `0`-`8`, `m` is `9`. -/
def layer2 (a X : Tensor K) : Option (Tensor K) := do
  let A ← einsum [(a, [9, 1, 2, 3, 4]), (X, [9, 0]), (a.conj, [0, 5, 6, 7, 8])] [1, 5, 2, 6, 3, 7, 4, 8]
  view [a.size 1 ^ 2, a.size 2 ^ 2, a.size 3 ^ 2, a.size 4 ^ 2] A

/-- L354-L355, L518-L520, L565-L567: the same with an operator that carries a bond, `l` is `10`. -/
def layer3 (a X : Tensor K) : Option (Tensor K) := do
  let A ← einsum [(a, [9, 1, 2, 3, 4]), (X, [9, 0, 10]), (a.conj, [0, 5, 6, 7, 8])] [1, 5, 2, 6, 3, 7, 4, 8, 10]
  Corrf.viewInfer [a.size 1 ^ 2, a.size 2 ^ 2, a.size 3 ^ 2, a.size 4 ^ 2] A

/-- L178-L271 `apply_TM_1sO`. An operator of another rank fails the assertion. -/
def applyTM (a : Tensor K) (env : C4v.Env K) (edge : Tensor K) (op : Option (Tensor K)) : Option (Tensor K) := do
  let X ← match op with
    | none => some (eye (a.size 0))
    | some o => if o.shape.length = 2 then some o else none
  let E ← tensordot [0] [1] edge env.T
  let A ← layer2 a X
  let E ← tensordot [0, 3] [1, 0] E A
  tensordot [0, 2] [0, 2] E env.T

/-- L314-L327 of `apply_TM_1sO_2` and L475-L485 of `apply_TM_2sO`: the factors of a two-site operator. Operators of another rank raise. -/
noncomputable def splitOp (svd : Tensor K → Nat → Svd K) (op : Tensor K) : Option (Tensor K × Tensor K) := do
  if op.shape.length = 4 then
    let d := op.size 0
    let x ← permute [0, 2, 1, 3] op
    let M ← view [d ^ 2, d ^ 2] x
    let r := svd M (d ^ 2)
    let o1 ← view [d, d, r.S.length] r.U
    let y ← permute [1, 0] r.V
    let y : Tensor K := ⟨y.shape, fun idx => ((r.S.getD (idx.getD 0 0) 0 : ℝ) : K) * y.val idx⟩
    let z ← view [r.S.length, d, d] y
    let o2 ← permute [1, 2, 0] z
    return (o1, o2)
  else none

/-- L435-L591 `apply_TM_2sO`. -/
noncomputable def applyTM2 (svd : Tensor K → Nat → Svd K) (a : Tensor K) (env : C4v.Env K) (edge : Tensor K) (op : Option (Tensor K)) : Option (Tensor K) := do
  let (X, Y) ← match op with
    | none => some (eye3 (a.size 0), eye3 (a.size 0))
    | some op => splitOp svd op
  let E ← tensordot [0] [1] edge env.T
  let A ← layer3 a X
  let E ← tensordot [0, 3] [1, 0] E A
  let E ← tensordot [0, 2] [0, 2] E env.T
  let E ← tensordot [0] [1] E env.T
  let A ← layer3 a Y
  let E ← tensordot [0, 1, 4] [1, 4, 0] E A
  tensordot [0, 2] [0, 2] E env.T

/-- L273-L433 `apply_TM_1sO_2`: two sites on top of each other. -/
noncomputable def applyTMW (svd : Tensor K → Nat → Svd K) (a : Tensor K) (env : C4v.Env K) (edge : Tensor K) (op : Option (Tensor K)) : Option (Tensor K) :=
  match op with
  | none => do
    let E ← tensordot [1] [0] env.T edge
    let A ← Corrf.aXa a none
    let E ← tensordot [1, 2] [0, 1] E A
    let E ← tensordot [1, 3] [1, 0] E A
    tensordot [1, 3] [0, 2] E env.T
  | some op => do
    let (X, Y) ← splitOp svd op
    let E ← tensordot [1] [0] env.T edge
    let A ← layer3 a X
    let E ← tensordot [1, 2] [0, 1] E A
    let A ← layer3 a Y
    let E ← tensordot [1, 3, 5] [1, 0, 4] E A
    tensordot [1, 3] [0, 2] E env.T

/-- L637-L663, the loop of `corrf_1sO1sO`. -/
noncomputable def loop11 (a : Tensor K) (env : C4v.Env K) (op2 : Nat → Tensor K) : Nat → Nat → Tensor K → Tensor K → Except Err (List K)
  | 0, _, _, _ => .ok []
  | n + 1, r, E0, E1 => do
    let E12 ← lift (applyTM a env E1 (some (op2 r)))
    let E0 ← lift (applyTM a env E0 none)
    let E1 ← lift (applyTM a env E1 none)
    let S12 ← lift (applyEdge env E12)
    let S00 ← lift (applyEdge env E0)
    let (v, E0, E1) ← Corrf.entry S12 S00 E0 E1
    let vs ← loop11 a env op2 n (r + 1) E0 E1
    return v :: vs

/-- L593-L664 `corrf_1sO1sO` with `rl_0=None`. -/
noncomputable def corrf11 (a : Tensor K) (env : C4v.Env K) (op1 : Tensor K) (op2 : Nat → Tensor K) (dist : Nat) : Except Err (List K) := do
  let E ← lift (getEdge env)
  let E1 ← lift (applyTM a env E (some op1))
  let E0 ← lift (applyTM a env E none)
  loop11 a env op2 (dist + 1) 0 E0 E1

/-- L711-L735, the loop of `corrf_2sOH2sOH_E1`. -/
noncomputable def loopH (svd : Tensor K → Nat → Svd K) (a : Tensor K) (env : C4v.Env K) (op2 : Nat → Tensor K) : Nat → Nat → Tensor K → Tensor K → Except Err (List K)
  | 0, _, _, _ => .ok []
  | n + 1, r, E0, E1 => do
    let E12 ← lift (applyTM2 svd a env E1 (some (op2 r)))
    let E0 ← lift (applyTM a env E0 none)
    let E1 ← lift (applyTM a env E1 none)
    let S12 ← lift (applyEdge env E12)
    let E00 ← lift (applyTM a env E0 none)
    let S00 ← lift (applyEdge env E00)
    let (v, E0, E1) ← Corrf.entry S12 S00 E0 E1
    let vs ← loopH svd a env op2 n (r + 1) E0 E1
    return v :: vs

/-- L666-L737 `corrf_2sOH2sOH_E1`. -/
noncomputable def corrfH (svd : Tensor K → Nat → Svd K) (a : Tensor K) (env : C4v.Env K) (op1 : Tensor K) (op2 : Nat → Tensor K) (dist : Nat) : Except Err (List K) := do
  let E ← lift (getEdge env)
  let E1 ← lift (applyTM2 svd a env E (some op1))
  let E0 ← lift (applyTM2 svd a env E none)
  loopH svd a env op2 (dist + 1) 0 E0 E1

/-- L783-L806, the loop of `corrf_2sOV2sOV_E2`. -/
noncomputable def loopV (svd : Tensor K → Nat → Svd K) (a : Tensor K) (env : C4v.Env K) (op2 : Nat → Tensor K) : Nat → Nat → Tensor K → Tensor K → Except Err (List K)
  | 0, _, _, _ => .ok []
  | n + 1, r, E0, E1 => do
    let E12 ← lift (applyTMW svd a env E1 (some (op2 r)))
    let E0 ← lift (applyTMW svd a env E0 none)
    let E1 ← lift (applyTMW svd a env E1 none)
    let S12 ← lift (applyEdgeL env E12)
    let S00 ← lift (applyEdgeL env E0)
    let (v, E0, E1) ← Corrf.entry S12 S00 E0 E1
    let vs ← loopV svd a env op2 n (r + 1) E0 E1
    return v :: vs

/-- L739-L808 `corrf_2sOV2sOV_E2`. -/
noncomputable def corrfV (svd : Tensor K → Nat → Svd K) (a : Tensor K) (env : C4v.Env K) (op1 : Tensor K) (op2 : Nat → Tensor K) (dist : Nat) : Except Err (List K) := do
  let E ← lift (getEdgeL env 2)
  let E1 ← lift (applyTMW svd a env E (some op1))
  let E0 ← lift (applyTMW svd a env E none)
  loopV svd a env op2 (dist + 1) 0 E0 E1

end Verif.C4v
