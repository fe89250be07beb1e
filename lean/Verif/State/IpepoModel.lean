import Verif.State.IOModel
import Mathlib.Algebra.BigOperators.Group.Finset.Basic
/-
Model of operators in the form of tensor networks, /repo/ipeps/ipeps.py L764-L962: `IPEPO`, `read_ipepo`, `write_ipepo`.
Not modelled: `to_fused_ipeps`, which adds a list and a `torch.Size`; whether that is an error depends on the version of PyTorch.
-/
namespace Verif.Ipepo
open Verif.State
open Verif.Lattice (Vertex)
variable {R K : Type}

/-- The sites of an operator over any kind of entries (ancilla, physical, up, left, down, right), with its tiling. -/
structure OState (K : Type) where
  lX : Int
  lY : Int
  sites : List (Vertex × Tensor K)
  vts : Vertex → Option Vertex

/-- ipeps.py `IPEPS.site`. -/
def OState.siteAt (st : OState K) (v : Vertex) : Option (Tensor K) := (st.vts v).bind (fun w => (st.sites.find? (fun e => decide (e.1 = w))).map (·.2))

/-- ipeps.py L800-L801 `get_aux_bond_dims`. -/
def auxDims (st : OState K) : List Nat := st.sites.flatMap (fun e => e.2.shape.drop 2)

/-- ipeps.py L825: `einsum('iiuldr->uldr', t)`. `none`: the ancilla and the physical index differ in size or the tensor is not of rank six. -/
def nophysSite [AddCommMonoid K] (t : Tensor K) : Option (Tensor K) :=
  match t.shape with
  | [a, s, u, l, d, r] => if a = s then some ⟨[u, l, d, r], fun idx => ∑ i ∈ Finset.range a, t.val (i :: i :: idx)⟩ else none
  | _ => none

/-- One entry of the dictionary, ipeps.py L825. -/
def nophysEntry [AddCommMonoid K] (e : Vertex × Tensor K) : Option (Vertex × Tensor K) := (nophysSite e.2).map (fun t => (e.1, t))

/-- ipeps.py L816-L828 `to_nophys_ipeps`; the constructor is given tiling and cell size and keeps them. -/
def toNophys [AddCommMonoid K] (st : OState K) : Option (OState K) := do
  let sites ← st.sites.mapM nophysEntry
  some ⟨st.lX, st.lY, sites, st.vts⟩

/-- ipeps.py L932-L962 `write_ipepo`, `normalize=False`; no order of indices is handed on. -/
def write (F : NumFmt R) (fm : Format) (st : State R) : Option JState := writeState F fm st [0, 1, 2, 3]

/-- One iteration of ipeps.py L876-L906. `none`: exception. -/
def readOne [Add R] [Zero R] (F : NumFmt R) (j : JState) (asq : List Nat) (gc : Bool) (acc : List (Vertex × CTensor R)) (ts : Str × Vertex) :
    Option (List (Vertex × CTensor R)) := do
  let t ← findSite j.sites ts.1
  let X ← readTensor F t
  let Y ← X.t.permute (0 :: 1 :: asq)
  some (dictSet ts.2 ⟨X.cplx || gc, Y⟩ acc)

/-- ipeps.py L865-L906: all sites of the file. -/
def readSites [Add R] [Zero R] (F : NumFmt R) (j : JState) (auxSeq : List Nat) (gc : Bool) : Option (List (Vertex × CTensor R)) :=
  j.map.foldlM (readOne F j ((j.auxIndSeq.getD auxSeq).map (· + 2)) gc) []

/-- ipeps.py L830-L930 `read_ipepo`: the pattern of the file is not looked at. -/
def read [Add R] [Zero R] (F : NumFmt R) (j : JState) (vts : Option (Vertex → Option Vertex)) (auxSeq : List Nat) (gc : Bool) : Option (State R) := do
  let sites ← readSites F j auxSeq gc
  match Lattice.mkGeometry (sites.map (·.1)) (some (vts.getD (Lattice.defaultVertexToSite j.lX j.lY))) ([] : List (List Nat)) (some j.lX) (some j.lY) with
  | .error _ => none
  | .ok g => some ⟨g.lX, g.lY, sites, g.vertexToSite⟩

end Verif.Ipepo
