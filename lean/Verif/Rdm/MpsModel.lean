import Verif.Rdm.PlaqModel
/-
Model of the expectation values of operators given as matrix-product states, /repo/ctm/generic/rdm.py: `_get_mps_tn` (L3026-L3049), `_get_id_tn`
(L3051-L3061), `eval_mpo_rdm2x1` (L571-L619), `eval_mpo_rdm1x2` (L904-L960), `eval_mpo_rdm2x2_NNN_1n1` (L1243-L1304). `contract_with_unroll` is `einsum`
(property C29). Dtypes are not modelled: the identities of `_get_id_tn` are real, which torch refuses to mix with complex tensors.
-/
namespace Verif.Rdm
open Tensor Ctm
variable {K : Type} [RCLike K]

/-- `squeeze(0)`. -/
def squeezeFirst (t : Tensor K) : Tensor K :=
  match t.shape with
  | 1 :: s => ⟨s, fun idx => t.val (0 :: idx)⟩
  | _ => t

/-- `squeeze(-1)`. -/
def squeezeLast (t : Tensor K) : Tensor K :=
  if t.shape.getLast? = some 1 then ⟨t.shape.dropLast, fun idx => t.val (idx ++ [0])⟩ else t

/-- L3042-L3048 with `offset=100`. -/
def getMpsTn (mps : List (Tensor K)) (phys : List Nat) : Option (List (Tensor K × List Nat)) := do
  let n := phys.length / 2
  let first ← mps.head?
  let p0 ← phys.head?
  let mid ← (List.range' 1 (mps.length - 2)).mapM (fun i => do
    let t ← mps[i]?
    let p ← phys[n * (i % 2) + i - 1]?
    return (t, [100 + i - 1, p, 100 + i]))
  let last ← mps.getLast?
  let pl ← phys.getLast?
  return (squeezeFirst first, [p0, 100]) :: mid ++ [(squeezeLast last, [100 + mps.length - 2, pl])]

/-- `torch.eye`. -/
def eye (n : Nat) : Tensor K := ⟨[n, n], fun idx => if idx.getD 0 0 = idx.getD 1 0 then 1 else 0⟩

/-- L3056-L3061. -/
def getIdTn (mps : List (Tensor K)) (phys : List Nat) : Option (List (Tensor K × List Nat)) :=
  (List.range ((mps.length + 1) / 2)).mapM (fun i => do
    let t ← mps[2 * i]?
    let d ← t.shape[1]?
    let p ← phys[i]?
    let q ← phys[i + phys.length / 2]?
    return (eye d, [p, q]))

open Classical in
/-- L592-L619: the network `tn` with the operator and with identities; the ratio and the norm. A vanishing norm is `Err.nan`. -/
noncomputable def evalMps (tn : List (Tensor K × List Nat) × List Nat) (mps : List (Tensor K)) : Except Err (K × K) := do
  let op ← lift (getMpsTn mps tn.2)
  let R ← lift (einsum (tn.1 ++ op) [])
  let id ← lift (getIdTn mps tn.2)
  let I ← lift (einsum (tn.1 ++ id) [])
  if I.val [] = 0 then .error .nan else .ok (R.val [] / I.val [], I.val [])

/-- L571-L619 `eval_mpo_rdm2x1`. -/
noncomputable def evalMps2x1 (st : State K) (env : Env K) (c : Coord) (mps : List (Tensor K)) : Except Err (K × K) := do
  let tn ← lift (do
    let (e, a, b) ← pairH st env c
    net2x1 e a b)
  evalMps tn mps

/-- L904-L960 `eval_mpo_rdm1x2`. -/
noncomputable def evalMps1x2 (st : State K) (env : Env K) (c : Coord) (mps : List (Tensor K)) : Except Err (K × K) := do
  let tn ← lift (do
    let (e, a, b) ← pairV st env c
    net1x2 e a b)
  evalMps tn mps

/-- L1243-L1304 `eval_mpo_rdm2x2_NNN_1n1`, with the network of `rdm1n1`. -/
noncomputable def evalMps1n1 (st : State K) (env : Env K) (c : Coord) (mps : List (Tensor K)) : Except Err (K × K) := do
  let tn ← lift (do
    let (e, s) ← plaq st env (c.1, c.2 - 1)
    let t ← e.split s
    return (t.operands s ([4, 4, 22, 25, 11, 14, 30, 30].getD · 0), [11, 22, 14, 25]))
  evalMps tn mps

end Verif.Rdm
