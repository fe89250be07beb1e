import Verif.State.BondModel
/-
Model of /repo/ipeps/ipeps_1s_Q.py: one-site states with a wave vector (`IPEPS_1S_Q`, `read_ipeps_1s_q`, `write_ipeps_1s_q`). `gen_3site` is modelled in `SpiralModel`.
-/
namespace Verif.Q1
open Verif.State
open Verif.Lattice (Vertex)
variable {R : Type}

/-- A state: the base class, its `dtype` attribute (is it complex?) and the wave vector, a tensor of any kind. A state without sites has the empty dictionary here. -/
structure QState (R : Type) where
  base : State R
  dt : Bool
  q : CTensor R

/-- ipeps_1s_Q.py L19-L63: the constructor; `gc`: is the global dtype complex? `none`: AssertionError. -/
def mk (sites : List (Vertex × CTensor R)) (q : CTensor R) (gc : Bool) : Option (QState R) :=
  if sites.length ≤ 1 then
    match Lattice.mkGeometry (sites.map (·.1)) none ([] : List (List Nat)) (some 1) (some 1) with
    | .error _ => none
    | .ok g => some ⟨⟨g.lX, g.lY, sites, g.vertexToSite⟩, ((sites.head?).map (fun e => e.2.cplx)).getD gc, q⟩
  else none

/-- ipeps.py `IPEPS.site`. -/
def siteAt (st : QState R) (v : Vertex) : Option (CTensor R) := (st.base.vts v).bind (fun w => dictFind st.base.sites w)

/-- ipeps_1s_Q.py L74-L82 `get_checkpoint`. -/
def getCheckpoint (st : QState R) : List (Vertex × CTensor R) × CTensor R := (st.base.sites, st.q)

/-- ipeps_1s_Q.py L84-L101 `load_checkpoint`; the `dtype` attribute is only ever raised to complex. -/
def load (ck : List (Vertex × CTensor R) × CTensor R) (st : QState R) : QState R :=
  ⟨{ st.base with sites := ck.1 }, st.dt || ck.1.any (fun e => e.2.cplx), ck.2⟩

/-- ipeps_1s_Q.py L109-L131 `extend_bond_dim` for one entry: the new tensor has the dtype of the state. -/
def extendEntry [Zero R] (d : Nat) (dt : Bool) (e : Vertex × CTensor R) : Option (Vertex × CTensor R) := do
  let t ← extendSite d e.2.t
  some (e.1, ⟨dt, t⟩)

/-- ipeps_1s_Q.py L109-L131 `extend_bond_dim`; the caller's state is changed and returned. -/
def extend [Zero R] (d : Nat) (st : QState R) : Option (QState R) := do
  let sites ← st.base.sites.mapM (extendEntry d st.dt)
  some { st with base := { st.base with sites := sites } }

/-- A file: the file of the base class and the entry "q". -/
structure JQ where
  js : JState
  q : Option JTensor

/-- ipeps_1s_Q.py L184-L218 `write_ipeps_1s_q`, `normalize=False`. -/
def write (F : NumFmt R) (fm : Format) (st : QState R) (auxSeq : List Nat) : Option JQ := do
  let js ← writeState F fm st.base auxSeq
  some ⟨js, some (serializeLegacy F [] st.q)⟩

/-- ipeps_1s_Q.py L169-L176: every exception leads to the argument `q`. -/
def readQ [Add R] [Zero R] (F : NumFmt R) (j : JQ) (q : CTensor R) : CTensor R := ((j.q).bind (readLegacy F)).getD q

/-- ipeps_1s_Q.py L165-L182 `read_ipeps_1s_q`. -/
def read [Add R] [Zero R] (F : NumFmt R) (j : JQ) (q : CTensor R) (vts : Option (Vertex → Option Vertex)) (auxSeq : List Nat) (gc : Bool) : Option (QState R) := do
  let st ← readState F j.js vts auxSeq gc
  mk st.sites (readQ F j q) gc

end Verif.Q1
