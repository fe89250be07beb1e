import Verif.State.LcModel
/-
Model of /repo/ipeps/ipeps_lc_bp.py: bipartite states whose first site is a linear combination of elementary tensors and whose second site is the first one
with a matrix, itself a linear combination, attached to each auxiliary index (`IPEPS_LC_BP`, `read_ipeps_lc_bp`, `write_ipeps_lc_bp`).
-/
namespace Verif.LcBp
open Verif.State Verif.Lc
open Verif.Lattice (Vertex)
variable {R : Type}

/-- A state: `elem_tensors["site"]`, `elem_tensors["bond"]`, `coeffs["site"]`, `coeffs["bond"]`, the irreps recorded at construction, the site tensors and
the geometry of the base class. -/
structure BState (R : Type) where
  irreps : List Str
  site : List (Elem R)
  bond : List (Elem R)
  cSite : CTensor R
  cBond : CTensor R
  sites : List (Vertex × CTensor R)
  lX : Int
  lY : Int
  vts : Vertex → Option Vertex

/-- L34-L37 `lattice_to_site`. Python's `%` with a positive modulus is `Int.emod`. -/
def latticeToSite (c : Vertex) : Vertex :=
  let vx := (c.1 + |c.1| * 2) % 2
  let vy := |c.2|
  ((vx + vy) % 2, 0)

/-- L118-L120: `c*(1.0+0.j)` if the stack of site tensors is complex. -/
def promote (cplx : Bool) (c : CTensor R) : CTensor R := ⟨c.cplx || cplx, c.t⟩

/-- L123 `torch.einsum('i,ilr->lr',c_b,ts_b)`. Axes of size one are broadcast; operands of different dtype are an error. -/
def combineBond [CommRing R] (c ts : CTensor R) : Option (CTensor R) :=
  if c.cplx ≠ ts.cplx then none
  else match c.t.shape, ts.t.shape with
    | [n], [m, l, r] => do
      let N ← Pg.bcastDim n m
      some ⟨ts.cplx, ⟨[l, r], fun idx => ∑ k ∈ Finset.range N,
        cmul (c.t.val [if n = 1 then 0 else k]) (ts.t.val ((if m = 1 then 0 else k) :: idx))⟩⟩
    | _, _ => none

/-- L133 `torch.einsum('um,ln,dx,ry,pmnxy->puldr',b_T,b_T,b_T,b_T,A)`. The contracted axes must have equal length (broadcasting of axes of length one is not
modelled); operands of different dtype are an error. -/
def dress [CommRing R] (b A : CTensor R) : Option (CTensor R) :=
  if b.cplx ≠ A.cplx then none
  else match b.t.shape, A.t.shape with
    | [a, e], [p, m, n, x, y] =>
      if m = e ∧ n = e ∧ x = e ∧ y = e then
        some ⟨A.cplx, ⟨[p, a, a, a, a], fun idx => match idx with
          | [s, u, l, d, r] => ∑ i ∈ Finset.range e, ∑ j ∈ Finset.range e, ∑ k ∈ Finset.range e, ∑ o ∈ Finset.range e,
              cmul (cmul (cmul (b.t.val [u, i]) (b.t.val [l, j])) (cmul (b.t.val [d, k]) (b.t.val [r, o]))) (A.t.val [s, i, j, k, o])
          | _ => (0, 0)⟩⟩
      else none
    | _, _ => none

/-- L102-L136 `build_onsite_tensors`. -/
def buildSites [CommRing R] (irreps : List Str) (site bond : List (Elem R)) (cSite cBond : CTensor R) : Option (List (Vertex × CTensor R)) := do
  let ts ← stackElems irreps site
  let tb ← stack (bond.map (·.t))
  let A ← combine cSite ts
  let b ← combineBond (promote ts.cplx cBond) tb
  let B ← dress b A
  some [((0, 0), A), ((1, 0), B)]

/-- L11-L41 and ipeps_lc.py L12-L43: `IPEPS_LC_BP({"site": site, "bond": bond}, {"site": cSite, "bond": cBond})`. -/
def mk [CommRing R] (site bond : List (Elem R)) (cSite cBond : CTensor R) : Option (BState R) := do
  let irreps ← pgIrreps site
  let sites ← buildSites irreps site bond cSite cBond
  match Lattice.mkGeometry (sites.map (·.1)) (some (fun v => some (latticeToSite v))) ([] : List (List Nat)) none none with
  | .error _ => none
  | .ok g => some ⟨irreps, site, bond, cSite, cBond, sites, g.lX, g.lY, g.vertexToSite⟩

/-- ipeps.py `IPEPS.site`: the tensor of the site a vertex is mapped to. `none`: KeyError. -/
def siteAt (st : BState R) (v : Vertex) : Option (CTensor R) := (st.vts v).bind (fun w => (st.sites.find? (fun e => decide (e.1 = w))).map (·.2))

/-- `max(t[1].size()[1:])`, L147: the slice `t[1]` along the physical axis exists only if that axis is longer than one; `none`: IndexError. -/
def auxDim (X : CTensor R) : Option Nat :=
  match X.t.shape with
  | p :: _ :: l :: ls => if 1 < p then some ((l :: ls).foldl max 0) else none
  | _ => none

/-- L146-L147 `get_aux_bond_dims`. -/
def auxBondDims (st : BState R) : Option (List Nat) := st.sites.mapM (fun e => auxDim e.2)

/-- L138-L144 `add_noise`: `pertS`, `pertB` add the random vectors, `scaleS` divides by the largest magnitude, `scaleB` is the division in L143, which may depend
on the rescaled site coefficients. The sites are built anew. -/
def addNoise [CommRing R] (pertS pertB scaleS : CTensor R → CTensor R) (scaleB : CTensor R → CTensor R → CTensor R) (st : BState R) : Option (BState R) := do
  let cS := scaleS (pertS st.cSite)
  let cB := scaleB cS (pertB st.cBond)
  let sites ← buildSites st.irreps st.site st.bond cS cB
  some { st with cSite := cS, cBond := cB, sites := sites }

/-- L152-L165 `clone`: a new state from copies of the elementary tensors and of the coefficients. -/
def clone [CommRing R] (st : BState R) : Option (BState R) :=
  mk (st.site.map (fun e => ⟨e.pg, e.info, e.t⟩)) (st.bond.map (fun e => ⟨e.pg, e.info, e.t⟩)) ⟨st.cSite.cplx, st.cSite.t⟩ ⟨st.cBond.cplx, st.cBond.t⟩

/-- Keys used to index the dictionary `elem_tensors`. -/
inductive Key | site | bond | int (n : Int)
  deriving DecidableEq

/-- `self.elem_tensors[k]`; `none`: KeyError. -/
def elemsAt (st : BState R) : Key → Option (List (Elem R))
  | .site => some st.site
  | .bond => some st.bond
  | .int _ => none

/-- `self.elem_tensors[0][1]= mt[1].to(device)`, L170: looks up the key 0, then assigns to the element 1 of what it finds. -/
def moveOne (dev : CTensor R → CTensor R) (st : BState R) (mt : Elem R) : Option (BState R) := do
  let l ← elemsAt st (.int 0)
  if 1 < l.length then some { st with site := l.set 1 ⟨mt.pg, mt.info, dev mt.t⟩ } else none

/-- L167-L172 `move_to`; the transfer to the device is `dev`. -/
def moveTo (dev : CTensor R → CTensor R) (st : BState R) : Option (BState R) := do
  let st ← (st.site ++ st.bond).foldlM (moveOne dev) st
  some { st with cSite := dev st.cSite, cBond := dev st.cBond }

/-- `coeff_t.values()`, L94: `values` of a dense tensor raises RuntimeError. -/
def tensorValues (_ : CTensor R) : Option (List (CTensor R)) := none

/-- `for m,t in self.elem_tensors`, L99: iterates over the keys of the dictionary and unpacks each, a string, into two characters. `none`: ValueError. -/
def unpackKey (k : Str) : Option (Char × Char) :=
  match k with
  | [a, b] => some (a, b)
  | _ => none

/-- L80-L83 `get_checkpoint`, the part of it that `load_checkpoint` uses. -/
structure Ckpt (R : Type) where
  cSite : CTensor R
  cBond : CTensor R
  elems : Option (List (Elem R) × List (Elem R))

def getCheckpoint (st : BState R) : Ckpt R := ⟨st.cSite, st.cBond, some (st.site, st.bond)⟩

/-- L95-L98: the elementary tensors to use. -/
def ckptElems (st : BState R) (ck : Ckpt R) : List (Elem R) × List (Elem R) := ck.elems.getD (st.site, st.bond)

/-- L85-L100 `load_checkpoint`. A character is no dictionary: `m["meta"]` raises TypeError after a successful unpacking, hence the last line. -/
def loadCheckpoint (st : BState R) (ck : Ckpt R) : Option (BState R) := do
  let _ ← tensorValues ck.cSite
  let _ ← tensorValues ck.cBond
  let _ := ckptElems st ck
  let _ ← [['s', 'i', 't', 'e'], ['b', 'o', 'n', 'd']].mapM unpackKey
  none

/-! ### Files -/

/-- JSON object of a bond tensor, L354-L371. -/
structure JBond where
  pg : Option Str
  info : Str
  cplx : Bool
  auxDim : Nat
  entries : List Str

/-- JSON object of a state, L329-L330. -/
structure JBp where
  lX : Int
  lY : Int
  site : List JElem
  bond : List JBond
  cSite : JCoeff
  cBond : JCoeff

/-- L369: the text of one entry. `none`: IndexError. -/
def bondEntry (F : NumFmt R) (X : CTensor R) (ei : List Nat) : Option Str := do
  let i ← ei[0]?; let j ← ei[1]?
  some (join ([i, j].map F.encN) ++ ' ' :: encNum F X.cplx (X.t.val ei))

/-- L354-L371: one bond tensor, only nonzero entries (row-major); the dimension is that of the first axis. `none`: IndexError (less than two axes). -/
def writeBond [DecidableEq R] [Zero R] (F : NumFmt R) (e : Elem R) : Option JBond :=
  match e.t.t.shape with
  | a :: _ :: _ => do
    let entries ← ((Tensor.indices e.t.t.shape).filter (fun ei => decide (e.t.t.val ei ≠ (0, 0)))).mapM (bondEntry F e.t)
    some ⟨e.pg, e.info, e.t.cplx, a, entries⟩
  | _ => none

/-- L296-L392 `write_ipeps_lc_bp` with `normalize=False`; `tol` has no effect. The site part L333-L352 and the coefficients L373-L389 are
textually those of ipeps_lc.py L457-L499, modelled by `Lc.writeElem` and `Lc.writeCoeff`; the name stored with a coefficient vector is its key, which is
represented here by the position in the record and by the number 0 or 1. -/
def writeBp [DecidableEq R] [Zero R] (F : NumFmt R) (st : BState R) (auxSeq : List Nat) : Option JBp := do
  let site ← st.site.mapM (writeElem F (auxSeq.map (· + 1)))
  let bond ← st.bond.mapM (writeBond F)
  let cS ← writeCoeff F 0 st.cSite
  let cB ← writeCoeff F 1 st.cBond
  some ⟨st.lX, st.lY, site, bond, cS, cB⟩

/-- One step of the loop L240-L243 (complex) or L245-L248 (real). -/
def readBondEntry [Zero R] (F : NumFmt R) (cplx : Bool) (dims : List Nat) (val : List Nat → R × R) (entry : Str) :
    Option (List Nat → R × R) := do
  let tokens := splitSp entry
  let inds ← (tokens.take 2).mapM F.decN
  let re ← (tokens[2]?).bind F.decR
  let im ← if cplx then (tokens[3]?).bind F.decR else some 0
  if Tensor.InB dims inds then some (setAt val inds (re, im)) else none

/-- L234-L252: one bond tensor. -/
def readBond [Zero R] (F : NumFmt R) (j : JBond) : Option (Elem R) := do
  let dims := [j.auxDim, j.auxDim]
  let val ← j.entries.foldlM (readBondEntry F j.cplx dims) (fun _ => (0, 0))
  some ⟨j.pg, j.info, ⟨j.cplx, ⟨dims, val⟩⟩⟩

/-- L174-L294 `read_ipeps_lc_bp`. As in ipeps_lc.py the argument `aux_seq` only enters the local `asq`, which is not used. The site part and the
coefficients are textually those of ipeps_lc.py, modelled by `Lc.readElem` and `Lc.readCoeff`. A missing "dtype" is not distinguished from "float64". -/
def readBp [CommRing R] (F : NumFmt R) (j : JBp) (auxSeq : List Nat) : Option (BState R) := do
  let _asq := auxSeq.map (· + 1)
  let site ← j.site.mapM (readElem F)
  let bond ← j.bond.mapM (readBond F)
  let cS ← readCoeff F j.cSite
  let cB ← readCoeff F j.cBond
  mk site bond cS cB

/-- L395-L409 `load_checkpoint_lc_1site_pg` of this file: after the assertions it calls `IPEPS_LC_1SITE_PG`, a name the file neither defines nor imports
(L1-L7). -/
def importedNames : List String := ["torch", "OrderedDict", "json", "warnings", "math", "cfg", "IPEPS_LC", "IPEPS_LC_BP", "read_ipeps_lc_bp",
  "write_ipeps_lc_bp", "load_checkpoint_lc_1site_pg"]

def loadFunction (asserts : Bool) (build : Option (BState R)) : Option (BState R) :=
  if asserts then (if "IPEPS_LC_1SITE_PG" ∈ importedNames then build else none) else none

end Verif.LcBp
