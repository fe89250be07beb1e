import Verif.State.IOModel
import Verif.Group.PgModel
/-
Model of /repo/ipeps/ipeps_lc.py: states whose site tensors are linear combinations of elementary tensors
(`IPEPS_LC_1SITE_PG`, `from_json_str`, `write_ipeps_lc_1site_pg`, checkpoints).
-/
namespace Verif.Lc
open Verif.State
open Verif.Lattice (Vertex)
variable {R : Type}

/-- One elementary tensor with its meta data, L98-L104 `({"meta": {"pg": "A_1"}, ...}, torch.Tensor)`. `pg` is `None` when
the key is missing; the remaining meta data are carried along verbatim as `info`. -/
structure Elem (R : Type) where
  pg   : Option Str
  info : Str
  t    : CTensor R

/-- A state: elementary tensors, coefficient vectors by coordinate, the set of irreps found at construction, the site
tensors built from them and the geometry of the base class. -/
structure LState (R : Type) where
  irreps : List Str
  elems  : List (Elem R)
  coeffs : List (Vertex × CTensor R)
  sites  : List (Vertex × CTensor R)
  lX : Int
  lY : Int
  vts : Vertex → Option Vertex

/-- The names of the two supported irreps, L191, L193. -/
def nameA1 : Str := ['A', '_', '1']
def nameA2 : Str := ['A', '_', '2']

/-- Product of complex numbers stored as pairs. -/
def cmul [Mul R] [Sub R] [Add R] (a b : R × R) : R × R := (a.1 * b.1 - a.2 * b.2, a.1 * b.2 + a.2 * b.1)

/-- `1.0j*t`, L196. -/
def timesI [Neg R] (X : CTensor R) : CTensor R := ⟨true, ⟨X.t.shape, fun i => (-(X.t.val i).2, (X.t.val i).1)⟩⟩

/-- `torch.stack`, L192, L196: at least one tensor, equal shapes; the result is complex if one of them is. -/
def stack [Zero R] : List (CTensor R) → Option (CTensor R)
  | [] => none
  | X :: Xs =>
    if ∀ Y ∈ Xs, Y.t.shape = X.t.shape then
      some ⟨(X :: Xs).any (·.cplx), ⟨(Xs.length + 1) :: X.t.shape, fun i => match i with
        | k :: is => (((X :: Xs)[k]?).map (fun Y => Y.t.val is)).getD (0, 0)
        | [] => (0, 0)⟩⟩
    else none

/-- L109, L181: `set([m["meta"]["pg"] for m,t in elem_tensors])`; the set is kept as a list with repetitions, it is only used
through membership. `none`: KeyError. -/
def pgIrreps (elems : List (Elem R)) : Option (List Str) := elems.mapM (·.pg)

/-- L191-L198: the stack of tensors to be combined. First the `A_1` tensors, then `1j` times the `A_2` tensors. -/
def stackElems [Zero R] [Neg R] (irreps : List Str) (elems : List (Elem R)) : Option (CTensor R) :=
  if irreps ≠ [] ∧ ∀ x ∈ irreps, x = nameA1 then stack (elems.map (·.t))
  else if nameA1 ∈ irreps ∧ nameA2 ∈ irreps ∧ ∀ x ∈ irreps, x = nameA1 ∨ x = nameA2 then
    stack ((elems.filter (fun e => e.pg = some nameA1)).map (·.t) ++
      (elems.filter (fun e => e.pg = some nameA2)).map (fun e => timesI e.t))
  else none

/-- L202-L203: `c*(1.0+0.j)` if the stack is complex, then `torch.einsum('i,ipuldr->puldr',c,ts)`. Axes of size one are
broadcast by `einsum`; operands of different dtype are an error. -/
def combine [CommRing R] (c ts : CTensor R) : Option (CTensor R) :=
  if c.cplx && !ts.cplx then none
  else match c.t.shape, ts.t.shape with
    | [n], [m, p, u, l, d, r] => do
      let N ← Pg.bcastDim n m
      some ⟨ts.cplx, ⟨[p, u, l, d, r], fun idx => ∑ k ∈ Finset.range N,
        cmul (c.t.val [if n = 1 then 0 else k]) (ts.t.val ((if m = 1 then 0 else k) :: idx))⟩⟩
    | _, _ => none

/-- L184-L205 `build_onsite_tensors`. -/
def buildSites [CommRing R] (irreps : List Str) (elems : List (Elem R)) (coeffs : List (Vertex × CTensor R)) :
    Option (List (Vertex × CTensor R)) := do
  let ts ← stackElems irreps elems
  coeffs.mapM (fun e => do
    let s ← combine e.2 ts
    some (e.1, s))

/-- L71-L111 and L12-L43: `IPEPS_LC_1SITE_PG(elem_tensors, coeffs)`. The geometry is derived by the base class from the coordinates
of the sites: neither `lX`, `lY` nor a tiling is forwarded. -/
def mk [CommRing R] (elems : List (Elem R)) (coeffs : List (Vertex × CTensor R)) : Option (LState R) := do
  let irreps ← pgIrreps elems
  let sites ← buildSites irreps elems coeffs
  match Lattice.mkGeometry (coeffs.map (·.1)) none ([] : List (List Nat)) none none with
  | .error _ => none
  | .ok g => some ⟨irreps, elems, coeffs, sites, g.lX, g.lY, g.vertexToSite⟩

/-- JSON object of an elementary tensor, L457-L475. -/
structure JElem where
  pg : Option Str
  info : Str
  cplx : Bool
  physDim : Nat
  auxDim : Nat
  entries : List Str

/-- JSON object of a coefficient vector, L480-L499. -/
structure JCoeff where
  siteId : Str
  cplx : Bool
  numEntries : Nat
  entries : List Str

/-- JSON object of a state, L454, L501-L502. -/
structure JLc where
  lX : Int
  lY : Int
  elems : List JElem
  coeffs : List JCoeff
  map : List (Str × Vertex)

/-- `f"{x}"` for an element of a tensor: Python prints a float or a complex number. -/
def encNum (F : NumFmt R) (cplx : Bool) (z : R × R) : Str := if cplx then F.encC z else F.encR z.1

/-- L471-L474: the text of one nonzero entry, with the auxiliary indices in the order `asq`. `none`: IndexError. -/
def elemEntry (F : NumFmt R) (asq : List Nat) (X : CTensor R) (ei : List Nat) : Option Str := do
  let s ← ei[0]?
  let k0 ← asq[0]?; let k1 ← asq[1]?; let k2 ← asq[2]?; let k3 ← asq[3]?
  let i0 ← ei[k0]?; let i1 ← ei[k1]?; let i2 ← ei[k2]?; let i3 ← ei[k3]?
  some (join ([s, i0, i1, i2, i3].map F.encN) ++ ' ' :: encNum F X.cplx (X.t.val ei))

/-- L457-L476: one elementary tensor, only nonzero entries (`t.nonzero()`, row-major); the auxiliary dimension is that of axis 1. -/
def writeElem [DecidableEq R] [Zero R] (F : NumFmt R) (asq : List Nat) (e : Elem R) : Option JElem :=
  match e.t.t.shape with
  | p :: a :: _ :: _ :: _ :: _ => do
    let entries ← ((Tensor.indices e.t.t.shape).filter (fun ei => decide (e.t.t.val ei ≠ (0, 0)))).mapM (elemEntry F asq e.t)
    some ⟨e.pg, e.info, e.t.cplx, p, a, entries⟩
  | _ => none

/-- L480-L499: one coefficient vector with `normalize=False`. -/
def writeCoeff (F : NumFmt R) (nid : Nat) (c : CTensor R) : Option JCoeff :=
  match c.t.shape with
  | [n] => some ⟨siteName F nid, c.cplx, n,
      (List.range n).map (fun i => F.encN i ++ ' ' :: encNum F c.cplx (c.t.val [i]))⟩
  | _ => none

/-- L423-L505 `write_ipeps_lc_1site_pg` with `normalize=False`; `tol` has no effect in the code and is omitted. -/
def writeLc [DecidableEq R] [Zero R] (F : NumFmt R) (st : LState R) (auxSeq : List Nat) : Option JLc := do
  let asq := auxSeq.map (· + 1)
  let elems ← st.elems.mapM (writeElem F asq)
  let coeffs ← st.coeffs.zipIdx.mapM (fun e => writeCoeff F e.2 e.1.2)
  some ⟨st.lX, st.lY, elems, coeffs, st.coeffs.zipIdx.map (fun e => (siteName F e.2, e.1.1))⟩

/-- `elem.split(' ')`, L363, L368: split at every single blank. -/
def splitSpGo : Str → Str → List Str
  | [], cur => [cur.reverse]
  | c :: cs, cur => if c = ' ' then cur.reverse :: splitSpGo cs [] else splitSpGo cs (c :: cur)

def splitSp (s : Str) : List Str := splitSpGo s []

/-- One step of the loop L362-L365 (complex) or L367-L370 (real). -/
def readElemEntry [Zero R] (F : NumFmt R) (cplx : Bool) (dims : List Nat) (val : List Nat → R × R) (entry : Str) :
    Option (List Nat → R × R) := do
  let tokens := splitSp entry
  let inds ← (tokens.take 5).mapM F.decN
  let re ← (tokens[5]?).bind F.decR
  let im ← if cplx then (tokens[6]?).bind F.decR else some 0
  if Tensor.InB dims inds then some (setAt val inds (re, im)) else none

/-- L343-L372: one elementary tensor. -/
def readElem [Zero R] (F : NumFmt R) (j : JElem) : Option (Elem R) := do
  let dims := [j.physDim, j.auxDim, j.auxDim, j.auxDim, j.auxDim]
  let val ← j.entries.foldlM (readElemEntry F j.cplx dims) (fun _ => (0, 0))
  some ⟨j.pg, j.info, ⟨j.cplx, ⟨dims, val⟩⟩⟩

/-- One step of the loop L409-L411 (complex) or L413-L415 (real). -/
def readCoeffEntry [Zero R] (F : NumFmt R) (cplx : Bool) (n : Nat) (val : List Nat → R × R) (entry : Str) :
    Option (List Nat → R × R) := do
  let tokens := split entry
  let i ← (tokens[0]?).bind F.decN
  let re ← (tokens[1]?).bind F.decR
  let im ← if cplx then (tokens[2]?).bind F.decR else some 0
  if i < n then some (setAt val [i] (re, im)) else none

/-- L387-L415: one coefficient vector. -/
def readCoeff [Zero R] (F : NumFmt R) (j : JCoeff) : Option (CTensor R) := do
  let val ← j.entries.foldlM (readCoeffEntry F j.cplx j.numEntries) (fun _ => (0, 0))
  some ⟨j.cplx, ⟨[j.numEntries], val⟩⟩

/-- The search loop L381-L384: the last vector with that id. -/
def findCoeff (cs : List JCoeff) (id : Str) : Option JCoeff :=
  cs.foldl (fun acc s => if s.siteId = id then some s else acc) none

/-- L376-L417: one coordinate. -/
def readOne [Zero R] (F : NumFmt R) (j : JLc) (acc : List (Vertex × CTensor R)) (ts : Str × Vertex) :
    Option (List (Vertex × CTensor R)) := do
  let t ← findCoeff j.coeffs ts.1
  let X ← readCoeff F t
  some (dictSet ts.2 X acc)

/-- L295-L421 `from_json_str` / `read_ipeps_lc_1site_pg`. `auxSeq` is an argument, as in the code, and is used exactly as there: only to
build the local `asq`, which is never read again. A missing "dtype" (taken as float64) is not distinguished from "float64". -/
def readLc [CommRing R] (F : NumFmt R) (j : JLc) (auxSeq : List Nat) : Option (LState R) := do
  let _asq := auxSeq.map (· + 1)
  let elems ← j.elems.mapM (readElem F)
  let coeffs ← j.map.foldlM (readOne F j) []
  mk elems coeffs

/-- L160-L163 `get_checkpoint`: what the optimiser stores under "parameters". `elems` is `none` in legacy checkpoints (L168-L172),
which hold the coefficients only. -/
structure Ckpt (R : Type) where
  elems  : Option (List (Elem R))
  coeffs : List (Vertex × CTensor R)

def getCheckpoint (st : LState R) : Ckpt R := ⟨some st.elems, st.coeffs⟩

/-- `coeff_t.numel()` of a vector. -/
def numel (c : CTensor R) : Nat := c.t.shape.prod

/-- L174-L180: the elementary tensors to use, with the length check. -/
def ckptElems (st : LState R) (ck : Ckpt R) : Option (List (Elem R)) :=
  match ck.elems with
  | some es => if ck.coeffs.any (fun e => numel e.2 == es.length) then some es else none
  | none => some st.elems

/-- L165-L182 `load_checkpoint`. The geometry of the receiving object is kept. -/
def loadCheckpoint [CommRing R] (st : LState R) (ck : Ckpt R) : Option (LState R) := do
  let elems ← ckptElems st ck
  let irreps ← pgIrreps elems
  let sites ← buildSites irreps elems ck.coeffs
  some { st with irreps := irreps, elems := elems, coeffs := ck.coeffs, sites := sites }

/-- L231-L242 `clone`: a new state from copies of the elementary tensors and of the coefficients. -/
def clone [CommRing R] (st : LState R) : Option (LState R) := mk (st.elems.map (fun e => ⟨e.pg, e.info, e.t⟩)) (st.coeffs.map (fun e => (e.1, e.2)))

/-- L207-L220 `add_noise`: `pert` is the random vector added to each coefficient vector, `scale` the division by the largest
magnitude. The coefficients are replaced and the sites are built anew. -/
def addNoise [CommRing R] (pert : Vertex → CTensor R → CTensor R) (scale : CTensor R → CTensor R) (st : LState R) : Option (LState R) := do
  let coeffs := st.coeffs.map (fun e => (e.1, scale (pert e.1 e.2)))
  let sites ← buildSites st.irreps st.elems coeffs
  some { st with coeffs := coeffs, sites := sites }

/-- The elements of `elem_tensors` are Python tuples or lists (the constructor documents and `from_json_str` L372 builds tuples). -/
inductive Pair | tuple | list
  deriving DecidableEq

/-- `self.elem_tensors[0][1]= ...`, L247, L252: item assignment into a pair. `none`: IndexError on an empty list, TypeError on a
tuple. -/
def assignFirst (kind : Pair) (elems : List (Elem R)) (t : CTensor R) : Option (List (Elem R)) :=
  match elems, kind with
  | [], _ => none
  | e :: es, .list => some (⟨e.pg, e.info, t⟩ :: es)
  | _ :: _, .tuple => none

/-- L244-L256 `move_to`; the transfer to the device is `dev`. Enumeration runs over the list whose first element is overwritten. -/
def moveTo (kind : Pair) (dev : CTensor R → CTensor R) (st : LState R) : Option (LState R) := do
  let elems ← (List.range st.elems.length).foldlM (fun acc i => do
    let mt ← acc[i]?
    assignFirst kind acc (dev mt.t)) st.elems
  some { st with elems := elems, coeffs := st.coeffs.map (fun e => (e.1, dev e.2)) }

/-- The keyword arguments `IPEPS_LC_1SITE_PG.__init__` accepts, L71-L72. -/
def initKeywords : List String := ["elem_tensors", "coeffs", "peps_args", "global_args"]

/-- L509-L523 `load_checkpoint_lc_1site_pg`: the three assertions on presence are the type `Ckpt` with `elems` given, then the length check and the
call of the constructor with the keywords of L521-L522. `none`: an exception (AssertionError, TypeError for an unknown keyword). -/
def loadCheckpointFile [CommRing R] (ck : Ckpt R) : Option (LState R) := do
  let elems ← ck.elems
  if ck.coeffs.any (fun e => numel e.2 == elems.length) then
    if ∀ k ∈ ["vertexToSite", "lX", "lY", "peps_args", "global_args"], k ∈ initKeywords then mk elems ck.coeffs else none
  else none

end Verif.Lc
