import Verif.Tensor.Core
import Verif.Lattice.Model
/-
Model of writing and reading states: /repo/ipeps/ipeps.py (`_write_ipeps_json`, `read_ipeps`) and
/repo/ipeps/tensor_io.py.
-/
namespace Verif.State
open Verif.Lattice (Vertex)

/-- Strings are lists of characters. -/
abbrev Str := List Char

/-- Text representation of numbers by the Python runtime: `f"{i}"`/`int`, `f"{x}"`/`float` and
`f"{z}"`/`numpy.complex128`.  Trusted (not modelled): the float formatting itself; what is
assumed about it is `NumFmt.Lawful`. -/
structure NumFmt (R : Type) where
  encN : Nat → Str
  decN : Str → Option Nat
  encR : R → Str
  decR : Str → Option R
  encC : R × R → Str
  decC : Str → Option (R × R)

/-- Whitespace as understood by `str.split()` (blank, tab, newline, carriage return). -/
def ws (c : Char) : Bool := c == ' ' || c == '\t' || c == '\n' || c == '\r'

/-- A printable token: not empty and without whitespace. -/
def IsToken (s : Str) : Prop := s ≠ [] ∧ ∀ c ∈ s, ws c = false

/-- Printing then parsing gives back the number, and printed numbers are single tokens. -/
structure NumFmt.Lawful {R : Type} (F : NumFmt R) : Prop where
  decN_encN : ∀ n, F.decN (F.encN n) = some n
  decR_encR : ∀ x, F.decR (F.encR x) = some x
  decC_encC : ∀ z, F.decC (F.encC z) = some z
  tokN : ∀ n, IsToken (F.encN n)
  tokR : ∀ x, IsToken (F.encR x)

/-- `str.split()` with the current (reversed) word as accumulator. -/
def splitGo : Str → Str → List Str
  | [], cur => if cur.isEmpty then [] else [cur.reverse]
  | c :: cs, cur =>
    if ws c then (if cur.isEmpty then splitGo cs [] else cur.reverse :: splitGo cs [])
    else splitGo cs (c :: cur)

/-- `entry.split()`, tensor_io.py L84, L88. -/
def split (s : Str) : List Str := splitGo s []

/-- `" ".join(words)`, tensor_io.py L239, L243. -/
def join : List Str → Str
  | [] => []
  | [w] => w
  | w :: ws => w ++ ' ' :: join ws

/-- A torch tensor with its dtype: complex128 or float64. Entries are (real, imaginary) pairs;
a float64 tensor has imaginary part 0 everywhere (`RealOk`). -/
structure CTensor (R : Type) where
  cplx : Bool
  t    : Tensor (R × R)

/-- The two on-disk formats selected by `global_args.tensor_io_format`. -/
inductive Format | legacy | flat
  deriving DecidableEq

/-- The JSON object of one tensor (fields "dtype", "dims", "siteId" and "entries" or "data"). -/
structure JTensor where
  siteId  : Str
  cplx    : Bool
  dims    : List Nat
  format  : Format
  payload : List Str

/-- The JSON object of a state. -/
structure JState where
  lX : Int
  lY : Int
  sites   : List JTensor
  map     : List (Str × Vertex)
  pattern : Option (List (List Str))
  auxIndSeq : Option (List Nat)

/-- A state: sites (ordered dictionary), tiling, cell size. -/
structure State (R : Type) where
  lX : Int
  lY : Int
  sites : List (Vertex × CTensor R)
  vts   : Vertex → Option Vertex

variable {R : Type}

/-- tensor_io.py L214-L248 `serialize_bare_tensor_legacy`: all entries in row-major order. -/
def serializeLegacy (F : NumFmt R) (siteId : Str) (X : CTensor R) : JTensor :=
  ⟨siteId, X.cplx, X.t.shape, .legacy,
    (Tensor.indices X.t.shape).map (fun ei =>
      if X.cplx then
        join (ei.map F.encN) ++ ' ' :: F.encR (X.t.val ei).1 ++ ' ' :: F.encR (X.t.val ei).2
      else join (ei.map F.encN) ++ ' ' :: F.encR (X.t.val ei).1)⟩

/-- tensor_io.py L186-L212 `serialize_bare_tensor_np`: `t.view(-1)` row-major. -/
def serializeFlat (F : NumFmt R) (siteId : Str) (X : CTensor R) : JTensor :=
  ⟨siteId, X.cplx, X.t.shape, .flat,
    (Tensor.indices X.t.shape).map (fun ei =>
      if X.cplx then F.encC (X.t.val ei) else F.encR (X.t.val ei).1)⟩

/-- The choice by `global_args.tensor_io_format`, ipeps.py L481-L487. -/
def serialize (F : NumFmt R) : Format → Str → CTensor R → JTensor
  | .legacy => serializeLegacy F
  | .flat => serializeFlat F

/-- `X[ei] = v`, functional update of one entry. -/
def setAt (val : List Nat → R × R) (ei : List Nat) (v : R × R) : List Nat → R × R :=
  fun idx => if idx = ei then v else val idx

/-- One step of the loop tensor_io.py L83-L85 (complex) or L87-L90 (real). `none` is an
exception (unparsable number, index out of range). Simplification: an entry with too few indices,
which numpy would broadcast over a slice, is treated as an error. -/
def readEntry [Add R] [Zero R] (F : NumFmt R) (cplx : Bool) (dims : List Nat)
    (val : List Nat → R × R) (entry : Str) : Option (List Nat → R × R) :=
  let l := split entry
  let k := if cplx then 2 else if l.length = dims.length + 1 then 1 else 2
  if l.length < k then none
  else do
    let ei ← (l.take (l.length - k)).mapM F.decN
    if Tensor.InB dims ei then
      if cplx then do
        let re ← F.decR (l.getD (l.length - 2) [])
        let im ← F.decR (l.getD (l.length - 1) [])
        some (setAt val ei (re, im))
      else do
        let re ← F.decR (l.getD (l.length - k) [])
        some (setAt val ei ((val ei).1 + re, 0))
    else none

/-- tensor_io.py L60-L92 `read_bare_json_tensor_np_legacy`. -/
def readLegacy [Add R] [Zero R] (F : NumFmt R) (j : JTensor) : Option (CTensor R) := do
  let val ← j.payload.foldlM (readEntry F j.cplx j.dims) (fun _ => (0, 0))
  some ⟨j.cplx, ⟨j.dims, val⟩⟩

/-- tensor_io.py L46-L58 `read_bare_json_tensor_np`: parse the data, then `reshape(dims)`. -/
def readFlat [Zero R] (F : NumFmt R) (j : JTensor) : Option (CTensor R) := do
  let data ← j.payload.mapM
    (fun s => if j.cplx then F.decC s else (F.decR s).map (fun x => (x, (0 : R))))
  if data.length = j.dims.prod then
    some ⟨j.cplx, ⟨j.dims, fun idx => data.getD (Tensor.ravel j.dims idx) (0, 0)⟩⟩
  else none

/-- The choice by the "format" key, ipeps.py L398-L403. -/
def readTensor [Add R] [Zero R] (F : NumFmt R) (t : JTensor) : Option (CTensor R) :=
  match t.format with
  | .flat => readFlat F t
  | .legacy => readLegacy F t

/-- `f"A{nid}"`, ipeps.py L478. -/
def siteName (F : NumFmt R) (nid : Nat) : Str := 'A' :: F.encN nid

/-- `ucoord_to_id[c]`, ipeps.py L495. -/
def coordId (m : List (Str × Vertex)) (c : Vertex) : Option Str :=
  (m.find? (fun e => decide (e.2 = c))).map (·.1)

/-- ipeps.py L467-L499 `_write_ipeps_json` with `normalize=False`; `tol` has no effect in the
code and is omitted. `auxSeq` is an argument, as in the code, and is used exactly as there: only
to build the local `asq`, which is never read again. -/
def writeState (F : NumFmt R) (fm : Format) (st : State R) (auxSeq : List Nat) :
    Option JState :=
  let _asq := auxSeq.map (· + 1)
  let ids := st.sites.zipIdx.map (fun e => (siteName F e.2, e.1))
  let jsites := ids.map (fun e => serialize F fm e.1 e.2.2)
  let m := ids.map (fun e => (e.1, e.2.1))
  do
    let pattern ← (List.range st.lY.toNat).mapM (fun (y : Nat) =>
      (List.range st.lX.toNat).mapM (fun (x : Nat) => do
        let s ← st.vts ((x : Int), (y : Int))
        coordId m s))
    some ⟨st.lX, st.lY, jsites, m, some pattern, none⟩

/-- `d[k] = v` on a Python dictionary (insertion ordered, an existing key keeps its place). -/
def dictSet {κ α : Type} [DecidableEq κ] (k : κ) (v : α) : List (κ × α) → List (κ × α)
  | [] => [(k, v)]
  | e :: es => if e.1 = k then (k, v) :: es else e :: dictSet k v es

/-- The search loop ipeps.py L390-L395: the last entry with that id. -/
def findSite (sites : List JTensor) (id : Str) : Option JTensor :=
  sites.foldl (fun acc s => if s.siteId = id then some s else acc) none

/-- One iteration of ipeps.py L384-L413. `none`: exception. -/
def readOne [Add R] [Zero R] (F : NumFmt R) (j : JState) (asq : List Nat) (globalCplx : Bool)
    (acc : List (Vertex × CTensor R)) (ts : Str × Vertex) : Option (List (Vertex × CTensor R)) := do
  let t ← findSite j.sites ts.1
  let X ← readTensor F t
  let Y ← X.t.permute (0 :: asq)
  some (dictSet ts.2 ⟨X.cplx || globalCplx, Y⟩ acc)

/-- ipeps.py L373-L413: all sites of the file. -/
def readSites [Add R] [Zero R] (F : NumFmt R) (j : JState) (auxSeq : List Nat)
    (globalCplx : Bool) : Option (List (Vertex × CTensor R)) :=
  let asq := (j.auxIndSeq.getD auxSeq).map (· + 1)
  j.map.foldlM (readOne F j asq globalCplx) []

/-- ipeps.py L339-L441 `read_ipeps`. -/
def readState [Add R] [Zero R] (F : NumFmt R) (j : JState)
    (vts : Option (Vertex → Option Vertex)) (auxSeq : List Nat) (globalCplx : Bool) :
    Option (State R) := do
  let sites ← readSites F j auxSeq globalCplx
  let pattern := if vts.isNone then j.pattern.getD [] else []
  let vts' := match vts with
    | some f => some f
    | none => match j.pattern with
      | some _ => none
      | none => some (Lattice.defaultVertexToSite j.lX j.lY)
  match Lattice.mkGeometry (sites.map (·.1)) vts' pattern (some j.lX) (some j.lY) with
  | .error _ => none
  | .ok g => some ⟨g.lX, g.lY, sites, g.vertexToSite⟩

end Verif.State
