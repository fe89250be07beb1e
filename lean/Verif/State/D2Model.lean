import Verif.State.BondModel
/-
Model of /repo/ipeps/ipeps_d2.py: states of coupled ladders given by one tensor (`IPEPS_D2SYM`, `extend_bond_dim`, `read_ipeps_d2`, `write_ipeps_d2`)
and of `make_d2_symm`, /repo/groups/pg.py L3-L13. The dtype of a state is that of its tensors.
-/
namespace Verif.D2
open Verif.State
open Verif.Lattice (Vertex)
variable {R : Type}

/-- A state: `parent_site` and the base class. -/
structure DState (R : Type) where
  parent : CTensor R
  base : State R

/-- ipeps_d2.py L65-L70 `build_onsite_tensors`. `none`: not a tensor of rank five. -/
def build (parent : CTensor R) : Option (List (Vertex × CTensor R)) := do
  let t ← parent.t.permute [0, 3, 2, 1, 4]
  some [((0, 0), parent), ((0, 1), ⟨parent.cplx, t⟩)]

/-- ipeps_d2.py L7-L51: the constructor with a site; the tiling is the closure L45-L48. -/
def mk (parent : CTensor R) : Option (DState R) := do
  let sites ← build parent
  match Lattice.mkGeometry (sites.map (·.1)) (some (Lattice.defaultVertexToSite 1 2)) ([] : List (List Nat)) (some 1) (some 2) with
  | .error _ => none
  | .ok g => some ⟨parent, ⟨g.lX, g.lY, sites, g.vertexToSite⟩⟩

/-- ipeps.py `IPEPS.site`. -/
def siteAt (st : State R) (v : Vertex) : Option (CTensor R) := (st.vts v).bind (fun w => dictFind st.sites w)

/-- ipeps_d2.py L56-L57 `get_checkpoint`. -/
def getCheckpoint (st : DState R) : CTensor R := st.parent

/-- ipeps_d2.py L59-L63 `load_checkpoint`; assigning `parent_site` and `sites` of the present state. -/
def load (ck : CTensor R) (st : DState R) : Option (DState R) := do
  let sites ← build ck
  some ⟨ck, { st.base with sites := sites }⟩

/-- pg.py L3-L13 `make_d2_symm`: `0.5*(A + A.permute(0,1,4,3,2))`. `none`: shapes that do not match (an axis of size one would be broadcast, which is not modelled). -/
def d2Symm [Field R] (A : CTensor R) : Option (CTensor R) := do
  let B ← A.t.permute [0, 1, 4, 3, 2]
  if A.t.shape = B.shape then
    some ⟨A.cplx, ⟨A.t.shape, fun idx => ((1 / 2) * ((A.t.val idx).1 + (B.val idx).1), (1 / 2) * ((A.t.val idx).2 + (B.val idx).2))⟩⟩
  else none

/-- ipeps_d2.py L73-L74: `parent_site + noise*rand_t`. -/
def perturb [Add R] (cplx : Bool) (rand : List Nat → R × R) (A : CTensor R) : CTensor R :=
  ⟨A.cplx || cplx, ⟨A.t.shape, fun idx => ((A.t.val idx).1 + (rand idx).1, (A.t.val idx).2 + (rand idx).2)⟩⟩

/-- ipeps_d2.py L76: division by the largest magnitude; `μ` is its inverse as a function of the tensor. -/
def rescale [Mul R] (μ : CTensor R → R) (A : CTensor R) : CTensor R :=
  ⟨A.cplx, ⟨A.t.shape, fun idx => (μ A * (A.t.val idx).1, μ A * (A.t.val idx).2)⟩⟩

/-- ipeps_d2.py L72-L77 `add_noise`; `rand` are the numbers drawn times `noise`. -/
def addNoise [Field R] (cplx : Bool) (rand : List Nat → R × R) (μ : CTensor R → R) (st : DState R) : Option (DState R) := do
  let t ← d2Symm (perturb cplx rand st.parent)
  let sites ← build (rescale μ t)
  some ⟨rescale μ t, { st.base with sites := sites }⟩

/-- ipeps_d2.py L79-L80 `get_aux_bond_dims`. -/
def auxDims (st : DState R) : List Nat := st.parent.t.shape.tail

/-- ipeps_d2.py L85-L105 `extend_bond_dim`; the body is that of `IPEPS.extend_bond_dim` for one tensor. -/
def extend [Zero R] (d : Nat) (st : DState R) : Option (DState R) := do
  let t ← extendSite d st.parent.t
  mk ⟨st.parent.cplx, t⟩

/-- ipeps_d2.py L116-L119 `write_ipeps_d2`, `normalize=False`. -/
def write (F : NumFmt R) (fm : Format) (st : DState R) (auxSeq : List Nat) : Option JState := do
  let tmp ← mk st.parent
  writeState F fm tmp.base auxSeq

/-- ipeps_d2.py L107-L114 `read_ipeps_d2`. -/
def read [Add R] [Zero R] (F : NumFmt R) (j : JState) (auxSeq : List Nat) (gc : Bool) : Option (DState R) := do
  let st ← readState F j none auxSeq gc
  if st.sites.length = 2 ∧ st.lX = 1 ∧ st.lY = 2 then do
    let X ← siteAt st (0, 0)
    mk X
  else none

end Verif.D2
