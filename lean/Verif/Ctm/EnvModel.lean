import Verif.Ctm.MoveModel
/-
Model of parts of /repo/ctm/generic/env.py: `ENV.extend` (L164-L202), `init_env` (L235-L267), `init_prod` (L276-L358),
`init_from_ipeps_pbc` (L360-L538) and `init_from_ipeps_obc` (L540-L719). dtype, device, gradient tracking and printing are not modelled.
-/
namespace Verif.Ctm
open Tensor
variable {K : Type} [RCLike K]

/-- `torch.zeros(sh)`. -/
def zeros (sh : List Nat) : Tensor K := ⟨sh, fun _ => 0⟩

/-- `A[:n0,:n1,...]` with one slice per axis; a slice beyond the size is cut at the size. -/
def slice (n : List Nat) (A : Tensor K) : Option (Tensor K) :=
  if n.length = A.shape.length then some ⟨List.zipWith min n A.shape, A.val⟩ else none

/-- torch's broadcasting rule for an assignment: every axis of the source has the size of the region or size 1. -/
def broadcasts (src region : List Nat) : Prop := List.Forall₂ (fun s r => s = r ∨ s = 1) src region

instance (src region : List Nat) : Decidable (broadcasts src region) := by unfold broadcasts; infer_instance

/-- `dst[:n0,:n1,...] = src`, source and destination of the same rank. -/
def assignBlock (n : List Nat) (src dst : Tensor K) : Option (Tensor K) :=
  let region := List.zipWith min n dst.shape
  if n.length = dst.shape.length ∧ broadcasts src.shape region then
    some ⟨dst.shape, fun idx => if InB region idx then src.val (List.zipWith (fun i s => if s = 1 then 0 else i) idx src.shape) else dst.val idx⟩
  else none

/-- env.py L183-L185, L186-L200: one tensor of `extend`; `true` marks the axes of the environment. The other axes are copied whole. -/
def extendTensor (mask : List Bool) (x new : Nat) (old : Tensor K) : Option (Tensor K) :=
  if mask.length = old.shape.length then
    let n := List.zipWith (fun b s => if b then x else s) mask old.shape
    do assignBlock n (← slice n old) (zeros (List.zipWith (fun b s => if b then new else s) mask old.shape))
  else none

/-- The environment axes of a half-row/column tensor in direction `v` (L186-L200); other directions raise. -/
def maskT (v : Coord) : Option (List Bool) :=
  if v = (0, -1) then some [true, false, true]
  else if v = (-1, 0) then some [true, true, false]
  else if v = (0, 1) then some [false, true, true]
  else if v = (1, 0) then some [true, false, true]
  else none

/-- The dictionaries of an `ENV` as lists of items. -/
structure EnvItems (K : Type) where
  chi : Nat
  C : List ((Coord × Coord) × Tensor K)
  T : List ((Coord × Coord) × Tensor K)

/-- env.py L164-L202 `ENV.extend`. -/
def extend (env : EnvItems K) (new : Nat) : Option (EnvItems K) := do
  let x := min env.chi new
  let C ← env.C.mapM (fun kt => do return (kt.1, ← extendTensor [true, true] x new kt.2))
  let T ← env.T.mapM (fun kt => do return (kt.1, ← extendTensor (← maskT kt.1.2) x new kt.2))
  return ⟨new, C, T⟩

/-- `a / a.abs().max()` (L363-L366 `_normalize_nograd`, L562). -/
noncomputable def normMax (a : Tensor K) : Except Err (Tensor K) := normalize true a

/-- One tensor of the initial environment: an axis is the leg of the site tensor to use, `true` for an environment axis (cut or padded
with zeros to `chi`). -/
structure Block where
  ket : List Nat
  bra : List Nat
  out : List Nat
  legs : List (Nat × Bool)

/-- L384-L388 and the like: contract ket and bra, fuse, normalise, copy into zeros. `cj` is false in `init_from_ipeps_obc`, where the
second factor is not conjugated. -/
noncomputable def initBlock (cj : Bool) (chi : Nat) (b : Block) (A : Tensor K) : Except Err (Tensor K) := do
  let a ← lift (einsum [(A, b.ket), (if cj then A.conj else A, b.bra)] b.out)
  let a ← lift (view (b.legs.map (fun l => A.size l.1 ^ 2)) a)
  let a ← normMax a
  let n := b.legs.map (fun l => if l.2 then min chi (A.size l.1 ^ 2) else A.size l.1 ^ 2)
  let a ← lift (slice n a)
  lift (assignBlock n a (zeros (b.legs.map (fun l => if l.2 then chi else A.size l.1 ^ 2))))

/-- L376-L538: `(vector, block)` for corners and half-row/column tensors. Letters: m=0, i=1, j=2, e=3, f=4, g=5, a=6, b=7, c=8. -/
def pbcC : List (Coord × Block) :=
  [((-1, -1), ⟨[0, 1, 2, 3, 4], [0, 1, 2, 6, 7], [3, 6, 4, 7], [(3, true), (4, true)]⟩),
   ((1, -1), ⟨[0, 1, 3, 4, 2], [0, 1, 6, 7, 2], [3, 6, 4, 7], [(2, true), (3, true)]⟩),
   ((1, 1), ⟨[0, 3, 4, 1, 2], [0, 6, 7, 1, 2], [3, 6, 4, 7], [(1, true), (2, true)]⟩),
   ((-1, 1), ⟨[0, 3, 1, 2, 4], [0, 6, 1, 2, 7], [3, 6, 4, 7], [(1, true), (4, true)]⟩)]

def pbcT : List (Coord × Block) :=
  [((0, -1), ⟨[0, 1, 3, 4, 5], [0, 1, 6, 7, 8], [3, 6, 4, 7, 5, 8], [(2, true), (3, false), (4, true)]⟩),
   ((-1, 0), ⟨[0, 3, 1, 4, 5], [0, 6, 1, 7, 8], [3, 6, 4, 7, 5, 8], [(1, true), (3, true), (4, false)]⟩),
   ((0, 1), ⟨[0, 3, 4, 1, 5], [0, 6, 7, 1, 8], [3, 6, 4, 7, 5, 8], [(1, false), (2, true), (4, true)]⟩),
   ((1, 0), ⟨[0, 3, 4, 5, 1], [0, 6, 7, 8, 1], [3, 6, 4, 7, 5, 8], [(1, true), (2, false), (3, true)]⟩)]

/-- L551-L719: the same with the outer legs of ket and bra summed separately; letters k=9, l=10. -/
def obcC : List (Coord × Block) :=
  [((-1, -1), ⟨[0, 1, 2, 3, 4], [0, 9, 10, 6, 7], [3, 6, 4, 7], [(3, true), (4, true)]⟩),
   ((1, -1), ⟨[0, 1, 3, 4, 2], [0, 9, 6, 7, 10], [3, 6, 4, 7], [(2, true), (3, true)]⟩),
   ((1, 1), ⟨[0, 3, 4, 1, 2], [0, 6, 7, 9, 10], [3, 6, 4, 7], [(1, true), (2, true)]⟩),
   ((-1, 1), ⟨[0, 3, 1, 2, 4], [0, 6, 9, 10, 7], [3, 6, 4, 7], [(1, true), (4, true)]⟩)]

def obcT : List (Coord × Block) :=
  [((0, -1), ⟨[0, 1, 3, 4, 5], [0, 9, 6, 7, 8], [3, 6, 4, 7, 5, 8], [(2, true), (3, false), (4, true)]⟩),
   ((-1, 0), ⟨[0, 3, 1, 4, 5], [0, 6, 9, 7, 8], [3, 6, 4, 7, 5, 8], [(1, true), (3, true), (4, false)]⟩),
   ((0, 1), ⟨[0, 3, 4, 1, 5], [0, 6, 7, 9, 8], [3, 6, 4, 7, 5, 8], [(1, false), (2, true), (4, true)]⟩),
   ((1, 0), ⟨[0, 3, 4, 5, 1], [0, 6, 7, 8, 9], [3, 6, 4, 7, 5, 8], [(1, true), (2, false), (3, true)]⟩)]

/-- `state.site((coord[0]+vec[0],coord[1]+vec[1]))` and the block built from it, stored under `(coord,vec)`. -/
noncomputable def initEntry (cj : Bool) (st : State K) (chi : Nat) (q : Coord × Coord × Block) : Except Err ((Coord × Coord) × Tensor K) := do
  let A ← lift (st.site (q.1.1 + q.2.1.1, q.1.2 + q.2.1.2))
  return ((q.1, q.2.1), ← initBlock cj chi q.2.2 A)

/-- All pairs of a site and an entry of a table, sites first. -/
def pairs (keys : List Coord) (t : List (Coord × Block)) : List (Coord × Coord × Block) := keys.flatMap (fun c => t.map (fun b => (c, b)))

/-- The dictionary updated with the items, in order. -/
def updates {κ α : Type} [DecidableEq κ] (l : List (κ × α)) (f : κ → Option α) : κ → Option α := l.foldl (fun f q => Function.update f q.1 (some q.2)) f

/-- L360-L538, L540-L719: the loop over all sites. Corners and half-row/column tensors are independent, so that they are collected
separately here. -/
noncomputable def initFrom (cj : Bool) (tC tT : List (Coord × Block)) (st : State K) (env : Env K) : Except Err (Env K) := do
  let cs ← (pairs st.keys tC).mapM (initEntry cj st env.chi)
  let ts ← (pairs st.keys tT).mapM (initEntry cj st env.chi)
  return { env with C := updates cs env.C, T := updates ts env.T }

/-- `ctm_env_init_type` (L260-L267) without RANDOM and PROD. -/
inductive InitType | pbc | obc | other

/-- env.py L235-L267 `init_env` on a state of rank-5 tensors: the documented option `"CONST"` falls in the last case. -/
noncomputable def initEnv (ty : InitType) (st : State K) (env : Env K) : Except Err (Env K) :=
  match ty with
  | .pbc => initFrom true pbcC pbcT st env
  | .obc => initFrom false obcC obcT st env
  | .other => .error .raise

end Verif.Ctm
