import Verif.Tensor.Core
import Mathlib.Algebra.Field.Defs
import Mathlib.Algebra.CharZero.Defs
/-
Model of /repo/groups/pg.py and of the symmetrisation in /repo/ipeps/ipeps_c4v.py.
-/
namespace Verif.Pg
variable {K : Type}

/-- Result size of one axis under torch broadcasting; `none`: sizes cannot be broadcast. -/
def bcastDim (a b : Nat) : Option Nat :=
  if a = b then some a else if a = 1 then some b else if b = 1 then some a else none

/-- Index into an axis that may have been broadcast. -/
def clampIdx (shape idx : List Nat) : List Nat :=
  List.zipWith (fun d i => if d = 1 then 0 else i) shape idx

/-- Element-wise binary operation of torch on two tensors of equal rank. Equal shapes act entry by
entry; axes of size one are broadcast; everything else raises (`none`).
Simplification: operands of different rank, which do not occur in pg.py, are an error. -/
def zipT (f : K → K → K) (A B : Tensor K) : Option (Tensor K) :=
  if A.shape = B.shape then some ⟨A.shape, fun idx => f (A.val idx) (B.val idx)⟩
  else if A.shape.length = B.shape.length then do
    let sh ← (A.shape.zip B.shape).mapM (fun p => bcastDim p.1 p.2)
    some ⟨sh, fun idx => f (A.val (clampIdx A.shape idx)) (B.val (clampIdx B.shape idx))⟩
  else none

/-- One line of the symmetrisers, e.g. pg.py L61 `A= 0.5*(A + A.permute(0,1,4,3,2))`; `ε` is the
sign in front of the permuted tensor. -/
def symStep [Field K] (ε : K) (perm : List Nat) (A : Tensor K) : Option (Tensor K) := do
  let B ← A.permute perm
  zipT (fun a b => 2⁻¹ * (a + ε * b)) A B

/-- pg.py L3-L13 `make_d2_symm`. -/
def makeD2Symm [Field K] (A : Tensor K) : Option (Tensor K) := symStep 1 [0, 1, 4, 3, 2] A

/-- pg.py L15-L25 `make_d2_antisymm`. -/
def makeD2Antisymm [Field K] (A : Tensor K) : Option (Tensor K) := symStep (-1) [0, 1, 4, 3, 2] A

/-- pg.py L50-L64 `make_c4v_symm_A1`. -/
def symmA1 [Field K] (A : Tensor K) : Option (Tensor K) := do
  let A ← symStep 1 [0, 1, 4, 3, 2] A
  let A ← symStep 1 [0, 3, 2, 1, 4] A
  let A ← symStep 1 [0, 4, 1, 2, 3] A
  symStep 1 [0, 2, 3, 4, 1] A

/-- pg.py L66-L79 `make_c4v_symm_A2`. -/
def symmA2 [Field K] (A : Tensor K) : Option (Tensor K) := do
  let A ← symStep (-1) [0, 1, 4, 3, 2] A
  let A ← symStep (-1) [0, 4, 3, 2, 1] A
  let A ← symStep 1 [0, 4, 1, 2, 3] A
  symStep 1 [0, 3, 4, 1, 2] A

/-- pg.py L81-L94 `make_c4v_symm_B1`. -/
def symmB1 [Field K] (A : Tensor K) : Option (Tensor K) := do
  let A ← symStep 1 [0, 1, 4, 3, 2] A
  let A ← symStep (-1) [0, 4, 3, 2, 1] A
  let A ← symStep (-1) [0, 4, 1, 2, 3] A
  symStep 1 [0, 3, 4, 1, 2] A

/-- pg.py L96-L109 `make_c4v_symm_B2`. -/
def symmB2 [Field K] (A : Tensor K) : Option (Tensor K) := do
  let A ← symStep (-1) [0, 1, 4, 3, 2] A
  let A ← symStep 1 [0, 4, 3, 2, 1] A
  let A ← symStep 1 [0, 4, 1, 2, 3] A
  symStep (-1) [0, 3, 4, 1, 2] A

/-- The names accepted by `make_c4v_symm`, pg.py L41-L42. -/
inductive Irrep | A1 | A2 | B1 | B2
  deriving DecidableEq

/-- `projections[irrep]`, pg.py L41-L42. -/
def projection [Field K] : Irrep → Tensor K → Option (Tensor K)
  | .A1 => symmA1
  | .A2 => symmA2
  | .B1 => symmB1
  | .B2 => symmB2

/-- Parsing of an irrep name; `none`: the assertion of pg.py L44 fails. -/
def irrepOfName : String → Option Irrep
  | "A1" => some .A1
  | "A2" => some .A2
  | "B1" => some .B1
  | "B2" => some .B2
  | _ => none

/-- pg.py L27-L48 `make_c4v_symm`. The names are first turned into a set: `dedup`; the order in which
a Python set is traversed is not fixed, here it is the order of last occurrence. -/
def makeC4vSymm [Field K] (A : Tensor K) (irreps : List String := ["A1"]) : Option (Tensor K) := do
  let irr ← irreps.mapM irrepOfName
  irr.dedup.foldlM (fun acc i => do
    let P ← projection i A
    zipT (· + ·) acc P) ⟨A.shape, fun _ => 0⟩

/-- Real or complex site tensor: a complex one is a tensor of pairs (real, imaginary part). -/
inductive Site (K : Type)
  | real (t : Tensor K)
  | cplx (t : Tensor (K × K))

/-- `A.real`, `A.imag` of a complex tensor. -/
def rePart (t : Tensor (K × K)) : Tensor K := ⟨t.shape, fun i => (t.val i).1⟩
def imPart (t : Tensor (K × K)) : Tensor K := ⟨t.shape, fun i => (t.val i).2⟩

/-- ipeps_c4v.py L89-L93, the body of `to_ipeps_c4v` with `normalize=False` for the tensor of the
single site. -/
def symmetrizeSite [Field K] : Site K → Option (Site K)
  | .real A => (makeC4vSymm A).map .real
  | .cplx A => do
    let R ← makeC4vSymm (rePart A)
    let I ← makeC4vSymm (imPart A) ["A2"]
    if R.shape = I.shape then some (.cplx ⟨R.shape, fun i => (R.val i, I.val i)⟩) else none

/-- ipeps_c4v.py L73-L96 `to_ipeps_c4v`: `none` when the state has not exactly one site (L88). -/
def toIpepsC4v [Field K] {V : Type} (sites : List (V × Site K)) : Option (Site K) :=
  match sites with
  | [(_, A)] => symmetrizeSite A
  | _ => none

end Verif.Pg
