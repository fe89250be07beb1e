import Verif.Ctm.MoveModel
/-
Model of /repo/ctm/generic/corrf.py: edges, transfer matrices and correlation functions. The backend of the SVD is a parameter; logging is
not modelled. Directions other than the four unit vectors raise and are not representable.
-/
namespace Verif.Corrf
open Tensor Ctm
variable {K : Type} [RCLike K]

/-- `shift_c` (L1023-L1024, L1109-L1110). -/
def shift (c v : Coord) : Coord := (c.1 + v.1, c.2 + v.2)

/-- L1027 `rev_d = (-direction[0],-direction[1])`. -/
def rev : Dir → Dir
  | .up => .down
  | .left => .right
  | .down => .up
  | .right => .left

/-- L10-L103 `get_edge`. -/
def getEdge (st : State K) (env : Env K) (d : Dir) (c : Coord) : Option (Tensor K) := do
  let k := st.vts c
  let T ← env.T (k, d.vec)
  match d with
  | .up =>
    let C1 ← env.C (k, (1, -1))
    let E ← tensordot [2] [0] T C1
    let C2 ← env.C (k, (-1, -1))
    tensordot [1] [0] C2 E
  | .left =>
    let C1 ← env.C (k, (-1, -1))
    let E ← tensordot [0] [0] C1 T
    let C2 ← env.C (k, (-1, 1))
    tensordot [1] [0] E C2
  | .down =>
    let C1 ← env.C (k, (-1, 1))
    let E ← tensordot [1] [1] C1 T
    let C2 ← env.C (k, (1, 1))
    tensordot [2] [1] E C2
  | .right =>
    let C1 ← env.C (k, (1, 1))
    let E ← tensordot [2] [0] T C1
    let C2 ← env.C (k, (1, -1))
    tensordot [1] [0] C2 E

/-- L105-L232 `get_edge_2`. -/
def getEdge2 (st : State K) (env : Env K) (d : Dir) (c : Coord) : Option (Tensor K) := do
  let k := st.vts c
  let T ← env.T (k, d.vec)
  match d with
  | .up =>
    let C2 ← env.C (k, (-1, -1))
    let E ← tensordot [1] [0] C2 T
    let k' := st.vts (shift c (1, 0))
    let T' ← env.T (k', d.vec)
    let E ← tensordot [2] [0] E T'
    let C1 ← env.C (k', (1, -1))
    tensordot [3] [0] E C1
  | .left =>
    let C1 ← env.C (k, (-1, -1))
    let E ← tensordot [0] [0] C1 T
    let k' := st.vts (shift c (0, 1))
    let T' ← env.T (k', d.vec)
    let E ← tensordot [1] [0] E T'
    let C2 ← env.C (k', (-1, 1))
    tensordot [2] [0] E C2
  | .down =>
    let C1 ← env.C (k, (-1, 1))
    let E ← tensordot [1] [1] C1 T
    let k' := st.vts (shift c (1, 0))
    let T' ← env.T (k', d.vec)
    let E ← tensordot [2] [1] E T'
    let C2 ← env.C (k', (1, 1))
    tensordot [3] [1] E C2
  | .right =>
    let C2 ← env.C (k, (1, -1))
    let E ← tensordot [1] [0] C2 T
    let k' := st.vts (shift c (0, 1))
    let T' ← env.T (k', d.vec)
    let E ← tensordot [2] [0] E T'
    let C1 ← env.C (k', (1, 1))
    tensordot [3] [0] E C1

/-- L234-L276 `apply_edge`: the dot product with the edge. For other ranks `E` is unbound and the call raises. -/
def applyEdge (st : State K) (env : Env K) (d : Dir) (c : Coord) (v : Tensor K) : Option (Tensor K) := do
  let E ← if v.shape.length = 3 then getEdge st env d c else if v.shape.length = 4 then getEdge2 st env d c else none
  tensordot (List.range v.shape.length) (List.range v.shape.length) v E

/-- `view(t, sh + (-1,))`: the last size is inferred; ambiguous (raises) if another size is zero. -/
def viewInfer (sh : List Nat) (A : Tensor K) : Option (Tensor K) :=
  if sh.prod = 0 then none else view (sh ++ [A.shape.prod / sh.prod]) A

/-- L408-L452 and L739-L768 `get_aXa`; letters `n e f g h a b c d` are `0`-`8`, `m` is `9`, `l` is `10`, `k` is `11`. The second copy
(`apply_TM_2sO_2sChannel`) lacks the rank-four case, which does not occur there. For other ranks `A` is unbound. -/
def aXa (a : Tensor K) (op : Option (Tensor K)) : Option (Tensor K) :=
  let sh := [a.size 1 ^ 2, a.size 2 ^ 2, a.size 3 ^ 2, a.size 4 ^ 2]
  match op with
  | none => do
    let A ← einsum [(a, [0, 1, 2, 3, 4]), (a.conj, [0, 5, 6, 7, 8])] [1, 5, 2, 6, 3, 7, 4, 8]
    view sh A
  | some o =>
    if o.shape.length = 2 then do
      let b ← einsum [(a, [9, 1, 2, 3, 4]), (o, [9, 0])] [0, 1, 2, 3, 4]
      let A ← einsum [(b, [0, 1, 2, 3, 4]), (a.conj, [0, 5, 6, 7, 8])] [1, 5, 2, 6, 3, 7, 4, 8]
      view sh A
    else if o.shape.length = 3 then do
      let b ← einsum [(a, [9, 1, 2, 3, 4]), (o, [9, 0, 10])] [0, 1, 2, 3, 4, 10]
      let A ← einsum [(b, [0, 1, 2, 3, 4, 10]), (a.conj, [0, 5, 6, 7, 8])] [1, 5, 2, 6, 3, 7, 4, 8, 10]
      viewInfer sh A
    else if o.shape.length = 4 then do
      let b ← einsum [(a, [9, 1, 2, 3, 4]), (o, [9, 0, 10, 11])] [0, 1, 2, 3, 4, 10, 11]
      let A ← einsum [(b, [0, 1, 2, 3, 4, 10, 11]), (a.conj, [0, 5, 6, 7, 8])] [1, 5, 2, 6, 3, 7, 4, 8, 10, 11]
      view (sh ++ [o.size 2, o.size 3]) A
    else none

/-- The tensors and axes of one direction of `apply_TM_1sO`: keys of `T1` and `T2`, axes of `T1` with axis 0 of the edge, of the result with
`A`, and of the result with `T2`. -/
structure TmAxes where
  t1 : Coord
  t2 : Coord
  x0 : List Nat
  x1 : List Nat
  y1 : List Nat
  x2 : List Nat
  y2 : List Nat

/-- L455-L505 up, L506-L560 left, L561-L608 down, L609-L667 right. -/
def tmAxes : Dir → TmAxes
  | .up => ⟨(-1, 0), (1, 0), [1], [1, 2], [1, 2], [1, 3], [2, 1]⟩
  | .left => ⟨(0, -1), (0, 1), [2], [1, 2], [0, 3], [1, 3], [2, 0]⟩
  | .down => ⟨(-1, 0), (1, 0), [0], [1, 2], [1, 0], [1, 3], [0, 1]⟩
  | .right => ⟨(0, -1), (0, 1), [0], [0, 2], [0, 1], [1, 2], [1, 0]⟩

/-- The contractions of L455-L667. An edge of rank four carries an MPO index; a result of rank four gets it as its last index. -/
def tmCore (t : TmAxes) (T1 edge A T2 : Tensor K) : Option (Tensor K) := do
  let E ← tensordot t.x0 [0] T1 edge
  let E ← if edge.shape.length = 4 then tensordot (t.x1 ++ [4]) (t.y1 ++ [4]) E A else tensordot t.x1 t.y1 E A
  let E ← tensordot t.x2 t.y2 E T2
  if E.shape.length = 4 then permute [0, 1, 3, 2] E else some E

/-- L364-L669 `apply_TM_1sO`. -/
def applyTM (st : State K) (env : Env K) (d : Dir) (c : Coord) (edge : Tensor K) (op : Option (Tensor K)) : Option (Tensor K) := do
  let k := st.vts c
  let T1 ← env.T (k, (tmAxes d).t1)
  let a ← st.site k
  let A ← aXa a op
  let T2 ← env.T (k, (tmAxes d).t2)
  tmCore (tmAxes d) T1 edge A T2

/-- The SVD of a two-site operator (L720-L731, L959-L969): first factor, second factor with axes physical, physical, bond. `weighted`: the
singular values are multiplied into the second factor (L968), which `apply_TM_2sO_2sChannel` (L729-L730) does not do. -/
noncomputable def splitOp (svd : Tensor K → Nat → Svd K) (weighted : Bool) (op : Tensor K) : Option (Tensor K × Tensor K) := do
  if op.shape.length = 4 then
    let d := op.size 0
    let x ← permute [0, 2, 1, 3] op
    let M ← view [d ^ 2, d ^ 2] x
    let r := svd M (d ^ 2)
    let o1 ← view [d, d, r.S.length] r.U
    let y ← permute [1, 0] r.V
    let y := if weighted then ⟨y.shape, fun idx => star (y.val idx) * ((r.S.getD (idx.getD 0 0) 0 : ℝ) : K)⟩ else y.conj
    let z ← view [r.S.length, d, d] y
    let o2 ← permute [1, 2, 0] z
    return (o1, o2)
  else none

/-- L914-L978 `apply_TM_2sO_1sChannel`: two transfer matrices in a row. -/
noncomputable def applyTM1ch (svd : Tensor K → Nat → Svd K) (st : State K) (env : Env K) (d : Dir) (c : Coord) (edge : Tensor K) (op : Option (Tensor K)) :
    Option (Tensor K) :=
  match op with
  | none => do
    let E ← applyTM st env d c edge none
    applyTM st env d (shift c d.vec) E none
  | some op => do
    let (o1, o2) ← splitOp svd true op
    let E ← applyTM st env d c edge (some o1)
    applyTM st env d (shift c d.vec) E (some o2)

/-- The contractions of L777-L834 down, L835-L908 right; `plain`: no operator was given. -/
def wideCore (d : Dir) (plain : Bool) (T1 edge A B T2 : Tensor K) : Option (Tensor K) :=
  match d with
  | .up => none
  | .left => none
  | .down => do
    let E ← tensordot [0] [0] T1 edge
    let E ← tensordot [1, 2] [1, 0] E A
    let E ← if plain then tensordot [1, 4] [0, 1] E B else tensordot [1, 4, 5] [0, 1, 4] E B
    tensordot [1, 4] [0, 1] E T2
  | .right => do
    let E ← tensordot [0] [0] T1 edge
    let E ← tensordot [0, 2] [0, 1] E A
    let E ← if plain then tensordot [1, 3] [1, 0] E B else tensordot [1, 3, 5] [1, 0, 4] E B
    tensordot [1, 3] [1, 0] E T2

/-- The vertex at which the second site of the width-two transfer matrix sits: `dir_b` (L881) when growing to the right, `dir_r` (L813) when growing down. -/
def mate : Dir → Coord
  | .up | .down => (1, 0)
  | .left | .right => (0, 1)

/-- L671-L912 `apply_TM_2sO_2sChannel`: one transfer matrix of width two. Up and left raise. -/
noncomputable def applyTM2ch (svd : Tensor K → Nat → Svd K) (st : State K) (env : Env K) (d : Dir) (c : Coord) (edge : Tensor K) (op : Option (Tensor K)) :
    Option (Tensor K) := do
  let (o1, o2) ← match op with
    | none => some (none, none)
    | some op => (splitOp svd false op).map (fun p => (some p.1, some p.2))
  let k := st.vts c
  let T1 ← env.T (k, (tmAxes d).t1)
  let a ← st.site k
  let A ← aXa a o1
  let k' := st.vts (shift c (mate d))
  let b ← st.site k'
  let B ← aXa b o2
  let T2 ← env.T (k', (tmAxes d).t2)
  wideCore d op.isNone T1 edge A B T2

/-- `t / m` with a number. -/
noncomputable def divBy (m : ℝ) (A : Tensor K) : Tensor K := ⟨A.shape, fun idx => A.val idx / (m : K)⟩

/-- One entry of the result and the normalisation of the edges: L1060-L1065, L1149-L1154, L1232-L1237. A vanishing normalisation makes this and all
later entries not finite, which ends the call with `Err.nan`. -/
noncomputable def entry (S12 S00 E0 E1 : Tensor K) : Except Err (K × Tensor K × Tensor K) :=
  open Classical in
  if S00.val [] = 0 ∨ vecNorm true E0 = 0 then .error .nan
  else .ok (S12.val [] / S00.val [], divBy (vecNorm true E0) E0, divBy (vecNorm true E0) E1)

/-- L1039-L1065, the loop of `corrf_1sO1sO` from iteration `r` on, `n` iterations left. -/
noncomputable def loop11 (st : State K) (env : Env K) (d : Dir) (op2 : Nat → Tensor K) : Nat → Nat → Coord → Tensor K → Tensor K → Except Err (List K)
  | 0, _, _, _, _ => .ok []
  | n + 1, r, c, E0, E1 => do
    let c := shift c d.vec
    let E12 ← lift (applyTM st env d c E1 (some (op2 r)))
    let E0 ← lift (applyTM st env d c E0 none)
    let E1 ← lift (applyTM st env d c E1 none)
    let S12 ← lift (applyEdge st env d c E12)
    let S00 ← lift (applyEdge st env d c E0)
    let (v, E0, E1) ← entry S12 S00 E0 E1
    let vs ← loop11 st env d op2 n (r + 1) c E0 E1
    return v :: vs

/-- L980-L1067 `corrf_1sO1sO` with `rl_0=None`. -/
noncomputable def corrf11 (st : State K) (env : Env K) (d : Dir) (c : Coord) (op1 : Tensor K) (op2 : Nat → Tensor K) (dist : Nat) : Except Err (List K) := do
  let E ← lift (getEdge st env (rev d) c)
  let E1 ← lift (applyTM st env d c E (some op1))
  let E0 ← lift (applyTM st env d c E none)
  loop11 st env d op2 (dist + 1) 0 c E0 E1

/-- L1128-L1154, the loop of `corrf_2sOH2sOH_E1`. -/
noncomputable def loopH (svd : Tensor K → Nat → Svd K) (st : State K) (env : Env K) (d : Dir) (op2 : Nat → Tensor K) :
    Nat → Nat → Coord → Tensor K → Tensor K → Except Err (List K)
  | 0, _, _, _, _ => .ok []
  | n + 1, r, c, E0, E1 => do
    let E12 ← lift (applyTM1ch svd st env d c E1 (some (op2 r)))
    let E0 ← lift (applyTM st env d c E0 none)
    let E1 ← lift (applyTM st env d c E1 none)
    let c := shift c d.vec
    let S12 ← lift (applyEdge st env d c E12)
    let E00 ← lift (applyTM st env d c E0 none)
    let S00 ← lift (applyEdge st env d c E00)
    let (v, E0, E1) ← entry S12 S00 E0 E1
    let vs ← loopH svd st env d op2 n (r + 1) c E0 E1
    return v :: vs

/-- L1069-L1156 `corrf_2sOH2sOH_E1`. -/
noncomputable def corrfH (svd : Tensor K → Nat → Svd K) (st : State K) (env : Env K) (d : Dir) (c : Coord) (op1 : Tensor K) (op2 : Nat → Tensor K) (dist : Nat) :
    Except Err (List K) := do
  let E ← lift (getEdge st env (rev d) c)
  let E1 ← lift (applyTM1ch svd st env d c E (some op1))
  let E0 ← lift (applyTM1ch svd st env d c E none)
  loopH svd st env d op2 (dist + 1) 0 (shift (shift c d.vec) d.vec) E0 E1

/-- L1214-L1237, the loop of `corrf_2sOV2sOV_E2`. -/
noncomputable def loopV (svd : Tensor K → Nat → Svd K) (st : State K) (env : Env K) (d : Dir) (op2 : Nat → Tensor K) :
    Nat → Nat → Coord → Tensor K → Tensor K → Except Err (List K)
  | 0, _, _, _, _ => .ok []
  | n + 1, r, c, E0, E1 => do
    let c := shift c d.vec
    let E12 ← lift (applyTM2ch svd st env d c E1 (some (op2 r)))
    let E0 ← lift (applyTM2ch svd st env d c E0 none)
    let E1 ← lift (applyTM2ch svd st env d c E1 none)
    let S12 ← lift (applyEdge st env d c E12)
    let S00 ← lift (applyEdge st env d c E0)
    let (v, E0, E1) ← entry S12 S00 E0 E1
    let vs ← loopV svd st env d op2 n (r + 1) c E0 E1
    return v :: vs

/-- L1158-L1239 `corrf_2sOV2sOV_E2`. -/
noncomputable def corrfV (svd : Tensor K → Nat → Svd K) (st : State K) (env : Env K) (d : Dir) (c : Coord) (op1 : Tensor K) (op2 : Nat → Tensor K) (dist : Nat) :
    Except Err (List K) := do
  let E ← lift (getEdge2 st env (rev d) c)
  let E1 ← lift (applyTM2ch svd st env d c E (some op1))
  let E0 ← lift (applyTM2ch svd st env d c E none)
  loopV svd st env d op2 (dist + 1) 0 c E0 E1

end Verif.Corrf
