import Verif.State.BondModel
import Verif.Tensor.Ops
import Mathlib.Analysis.Complex.Basic
/-
Model of /repo/ipeps/ipess_kagome.py: states on the Kagome lattice built from two trivalent tensors and three bond tensors
(`IPESS_KAGOME_GENERIC`, `IPESS_KAGOME_PG`, `IPESS_KAGOME_PG_LC`), their files and checkpoints.
Rounding is not modelled: entries are complex numbers, a float64 tensor has real ones. Autograd, devices and
`read_ipess_kagome_generic_legacy` are not modelled.
-/
namespace Verif.Kagome
open Verif.State
open Verif.Tensor
open Verif.Lattice (Vertex)

/-- How a call ends without a state: an exception, or a state whose tensors are filled with NaN. -/
inductive Err | raise | nan
  deriving DecidableEq

/-- The keys 'T_u','T_d','B_a','B_b','B_c' of the elementary tensors, L30. -/
inductive Name | Tu | Td | Ba | Bb | Bc
  deriving DecidableEq

/-- A torch tensor with its dtype (complex128 or float64). -/
structure Ten where
  cplx : Bool
  t    : Tensor ℂ

/-- `d[k]`; a missing key is a KeyError. -/
def look {κ α : Type} [DecidableEq κ] (d : List (κ × α)) (k : κ) : Except Err α :=
  match dictFind d k with
  | some v => .ok v
  | none => .error .raise

/-- A RuntimeError of torch. -/
def lift {α : Type} : Option α → Except Err α
  | some v => .ok v
  | none => .error .raise

/-- Key of the dictionary `ipess_tensors`: a coordinate, or the name of a tensor. -/
inductive Key | cell (c : Vertex) | name (n : Name)
  deriving DecidableEq

/-- Value of the dictionary `ipess_tensors`: the five tensors of a site, or a tensor. -/
inductive Item | sub (d : List (Name × Ten)) | ten (t : Ten)

/-! ### IPESS_KAGOME_GENERIC -/

/-- The einsum 'iab,uji,jkl,vkc,wld->uvwabcd' of L69-L71. Labels: i=0 a=1 b=2 u=3 j=4 k=5 l=6 v=7 c=8 w=9 d=10. -/
def contract (Tu Bc Td Bb Ba : Tensor ℂ) : Option (Tensor ℂ) :=
  einsum [(Tu, [0, 1, 2]), (Bc, [3, 4, 0]), (Td, [4, 5, 6]), (Bb, [7, 5, 8]), (Ba, [9, 6, 10])] [3, 7, 9, 1, 2, 8, 10]

/-- `A.abs().max()`, L77. -/
noncomputable def maxAbs (A : Tensor ℂ) : ℝ := ((indices A.shape).map (fun i => ‖A.val i‖)).foldr max 0

/-- `A/A.abs().max()`, L77: the maximum of an empty tensor raises, division by zero gives NaN. -/
noncomputable def normMax (A : Tensor ℂ) : Except Err (Tensor ℂ) :=
  if indices A.shape = [] then .error .raise
  else if maxAbs A = 0 then .error .nan
  else .ok ⟨A.shape, fun i => A.val i / ((maxAbs A : ℝ) : ℂ)⟩

/-- L69-L77: one site tensor. Tensors of different dtype cannot be contracted. -/
noncomputable def buildSite (d : List (Name × Ten)) : Except Err Ten := do
  let Tu ← look d .Tu
  let Bc ← look d .Bc
  let Td ← look d .Td
  let Bb ← look d .Bb
  let Ba ← look d .Ba
  if Bc.cplx = Tu.cplx ∧ Td.cplx = Tu.cplx ∧ Bb.cplx = Tu.cplx ∧ Ba.cplx = Tu.cplx then do
    let A ← lift (contract Tu.t Bc.t Td.t Bb.t Ba.t)
    let A ← lift (view [size Ba.t 0 * size Bb.t 0 * size Bc.t 0, size Tu.t 1, size Tu.t 2, size Bb.t 2, size Ba.t 2] A)
    let A ← normMax A
    .ok ⟨Tu.cplx, A⟩
  else .error .raise

/-- One iteration of L68-L78: `subdict['T_u']` of a tensor raises. A string is not a coordinate: the base class raises later. -/
noncomputable def buildOne (e : Key × Item) : Except Err (Vertex × Ten) :=
  match e.1, e.2 with
  | .cell c, .sub d => do
    let A ← buildSite d
    .ok (c, A)
  | _, _ => .error .raise

/-- L62-L79 `build_onsite_tensors`. -/
noncomputable def buildAll (ipess : List (Key × Item)) : Except Err (List (Vertex × Ten)) := ipess.mapM buildOne

/-- A state: the elementary tensors by site, the site tensors, the tiling. -/
structure GState where
  ipess : List (Key × Item)
  sites : List (Vertex × Ten)
  lX : Int
  lY : Int
  vts : Vertex → Option Vertex

/-- The five names as keys of a dictionary. -/
def fiveNames (ks : List Key) : Bool :=
  ks.all (fun k => match k with | .name _ => true | _ => false) &&
    [Name.Tu, .Td, .Ba, .Bb, .Bc].all (fun n => decide (Key.name n ∈ ks))

/-- The tensors of a dictionary keyed by names. -/
def namedTensors (d : List (Key × Item)) : List (Name × Ten) :=
  d.filterMap (fun e => match e.1, e.2 with
    | .name n, .ten t => some (n, t)
    | _, _ => none)

/-- L30-L33: a dictionary of five tensors stands for a single site. -/
def wrapSingle (ipess : List (Key × Item)) : List (Key × Item) :=
  if fiveNames (ipess.map (·.1)) then [(.cell (0, 0), .sub (namedTensors ipess))] else ipess

/-- The assertion "Mixed dtypes in sites", ipeps.py L188. -/
def uniform (sites : List (Vertex × Ten)) : Bool :=
  match sites with
  | [] => true
  | e :: es => es.all (fun f => f.2.cplx == e.2.cplx)

/-- L11-L37 the constructor, with the geometry of the base class (ipeps.py L195-L238). -/
noncomputable def mkG {L : Type} [DecidableEq L] (ipess : List (Key × Item)) (vts : Option (Vertex → Option Vertex))
    (pattern : List (List L)) (lX lY : Option Int) : Except Err GState := do
  let ip := wrapSingle ipess
  let sites ← buildAll ip
  if uniform sites then
    match Lattice.mkGeometry (sites.map (·.1)) vts pattern lX lY with
    | .error _ => .error .raise
    | .ok g => .ok ⟨ip, sites, g.lX, g.lY, g.vertexToSite⟩
  else .error .raise

/-- L81-L86 `add_noise`: every tensor `k` of site `c` is replaced by itself plus `ν c k` (the scaled random numbers). -/
def noisyItem (ν : Key → Name → List Nat → ℂ) (e : Key × Item) : Key × Item :=
  match e.2 with
  | .sub d => (e.1, .sub (d.map (fun f => (f.1, ⟨f.2.cplx, ⟨f.2.t.shape, fun i => f.2.t.val i + ν e.1 f.1 i⟩⟩))))
  | .ten t => (e.1, .ten t)

noncomputable def addNoiseG (ν : Key → Name → List Nat → ℂ) (s : GState) : Except Err GState :=
  if s.ipess.all (fun e => match e.2 with | .sub _ => true | .ten _ => false) then do
    let ip := s.ipess.map (noisyItem ν)
    let sites ← buildAll ip
    .ok { s with ipess := ip, sites := sites }
  else .error .raise

/-- L45-L60 `load_checkpoint`: the assertion of L55 for dictionaries by site. -/
noncomputable def loadG (ckpt : List (Key × Item)) (s : GState) : Except Err GState :=
  let ip := wrapSingle ckpt
  if ip.all (fun e => match e.2 with
      | .sub d => fiveNames (d.map (fun f => .name f.1))
      | .ten _ => false) then do
    let sites ← buildAll ip
    .ok { s with ipess := ip, sites := sites }
  else .error .raise

/-- L97-L103 `get_aux_bond_dims`: one common size of all axes of the trivalent tensors. -/
def auxDim (ipess : List (Key × Item)) : Except Err Nat := do
  let ds ← ipess.mapM (fun e => match e.2 with
    | .sub d => do
      let u ← look d .Tu
      let v ← look d .Td
      .ok (u.t.shape ++ v.t.shape)
    | .ten _ => .error .raise)
  match ds.flatten with
  | [] => .error .raise
  | n :: ns => if ns.all (· == n) then .ok n else .error .raise

/-- `new[:ad,:ad,:ad] = t` into zeros of size `d`, L114-L116. -/
def growT (d ad : Nat) (X : Ten) : Except Err Ten :=
  if X.t.shape = [ad, ad, ad] then .ok ⟨X.cplx, ⟨[d, d, d], fun i => if InB X.t.shape i then X.t.val i else 0⟩⟩
  else .error .raise

/-- `new[:,:ad,:ad] = t` into zeros, L117-L120. -/
def growB (d ad : Nat) (X : Ten) : Except Err Ten :=
  if X.t.shape.length = 3 ∧ X.t.shape = [size X.t 0, ad, ad] then
    .ok ⟨X.cplx, ⟨[size X.t 0, d, d], fun i => if InB X.t.shape i then X.t.val i else 0⟩⟩
  else .error .raise

/-- The attributes of a generic state that a method may read; every other name is an AttributeError. -/
inductive Attr | vertexToSite | lX | lY | ververtexToSite | pattern
  deriving DecidableEq

def hasAttr : Attr → Bool
  | .vertexToSite => true
  | .lX => true
  | .lY => true
  | .ververtexToSite => false
  | .pattern => false

/-- `getattr`. -/
def attr (a : Attr) : Except Err Unit := if hasAttr a then .ok () else .error .raise

/-- L108-L124 `extend_bond_dim`: builds the larger tensors, then reads `self.ververtexToSite` and `self.pattern`. -/
noncomputable def extendG (d : Nat) (s : GState) : Except Err GState := do
  let ad ← auxDim s.ipess
  if ad ≤ d then do
    let ip ← s.ipess.mapM (fun e => match e.2 with
      | .sub t => do
        let Tu ← (look t .Tu).bind (growT d ad)
        let Td ← (look t .Td).bind (growT d ad)
        let Ba ← (look t .Ba).bind (growB d ad)
        let Bb ← (look t .Bb).bind (growB d ad)
        let Bc ← (look t .Bc).bind (growB d ad)
        .ok (e.1, Item.sub [(.Tu, Tu), (.Td, Td), (.Ba, Ba), (.Bb, Bb), (.Bc, Bc)])
      | .ten _ => .error .raise)
    attr .ververtexToSite
    attr .pattern
    attr .lX
    attr .lY
    mkG ip (some s.vts) ([] : List (List Nat)) (some s.lX) (some s.lY)
  else .error .raise

/-! ### Files of generic states -/

/-- `str((x, y))` and `eval` of such a string. Trusted: see `CoordFmt.Lawful`. -/
structure CoordFmt where
  enc : Vertex → Str
  dec : Str → Option Vertex

/-- Evaluating the text of a coordinate gives the coordinate. -/
def CoordFmt.Lawful (C : CoordFmt) : Prop := ∀ c, C.dec (C.enc c) = some c

/-- The number that is printed. Floating-point numbers are rational; no other number occurs in a tensor that is written. -/
noncomputable def ratOf (x : ℝ) : ℚ := open Classical in if h : ∃ q : ℚ, (q : ℝ) = x then h.choose else 0

/-- The pair representation used by the file formats of `State.IOModel`. -/
noncomputable def toPairs (X : Ten) : CTensor ℚ := ⟨X.cplx, ⟨X.t.shape, fun i => (ratOf (X.t.val i).re, ratOf (X.t.val i).im)⟩⟩
noncomputable def ofPairs (X : CTensor ℚ) : Ten := ⟨X.cplx, ⟨X.t.shape, fun i => ⟨((X.t.val i).1 : ℝ), ((X.t.val i).2 : ℝ)⟩⟩⟩

/-- `t.to(dtype=...)`, L177, L180: converting complex numbers to float64 drops the imaginary part. -/
noncomputable def toDtype (cplx : Bool) (X : Ten) : Ten :=
  if cplx then ⟨true, X.t⟩ else ⟨false, ⟨X.t.shape, fun i => ((X.t.val i).re : ℂ)⟩⟩

/-- The tensors of a file: keys of the old format, one site, or several sites. -/
inductive GBody
  | elem (ts : List JTensor)
  | single (ts : List (Name × JTensor))
  | multi (ts : List (Str × List (Name × JTensor)))

structure GFile where
  lX : Int
  lY : Int
  body : GBody
  pattern : Option (List (List Str))

/-- L216-L222: the tensors of one cell. -/
noncomputable def writeCell (F : NumFmt ℚ) (C : CoordFmt) (e : Key × Item) : Except Err (Str × List (Name × JTensor)) :=
  match e.1, e.2 with
  | .cell c, .sub d => .ok (C.enc c, d.map (fun f => (f.1, serializeLegacy F [] (toPairs f.2))))
  | _, _ => .error .raise

/-- L229-L231: the label of a vertex. -/
def labelOf (C : CoordFmt) (s : GState) (v : Vertex) : Except Err Str := do
  let c ← lift (s.vts v)
  if Key.cell c ∈ s.ipess.map (·.1) then .ok (C.enc c) else .error .raise

/-- L198-L234 `write_ipess_kagome_generic` with `normalize=False` (`tol` has no effect in the code). The loop L216-L226 for
dictionaries keyed by coordinates, which is what every constructor leaves behind. -/
noncomputable def writeG (F : NumFmt ℚ) (C : CoordFmt) (s : GState) : Except Err GFile := do
  let body ← s.ipess.mapM (writeCell F C)
  let pattern ← (List.range s.lY.toNat).mapM (fun (y : Nat) => (List.range s.lX.toNat).mapM (fun (x : Nat) => labelOf C s ((x : Int), (y : Int))))
  .ok ⟨s.lX, s.lY, .multi body, some pattern⟩

/-- `torch.from_numpy(read_bare_json_tensor_np_legacy(t)).to(dtype)`. -/
noncomputable def readTen (F : NumFmt ℚ) (gc : Bool) (j : JTensor) : Except Err Ten := do
  let X ← lift (readLegacy F j)
  .ok (toDtype gc (ofPairs X))

/-- L167-L168, L178-L180 (and L652-L654 of the next class): one tensor with its name. -/
noncomputable def readNamed (F : NumFmt ℚ) (gc : Bool) (f : Name × JTensor) : Except Err (Name × Ten) := do
  let X ← readTen F gc f.2
  .ok (f.1, X)

/-- L164-L169: the tensors of one cell. -/
noncomputable def readCell (F : NumFmt ℚ) (C : CoordFmt) (gc : Bool) (f : Str × List (Name × JTensor)) : Except Err (Key × Item) := do
  let c ← lift (C.dec f.1)
  let d ← f.2.mapM (readNamed F gc)
  .ok (Key.cell c, Item.sub d)

/-- L160-L161: one tensor of a single-site file. -/
noncomputable def readSingle (F : NumFmt ℚ) (gc : Bool) (f : Name × JTensor) : Except Err (Key × Item) := do
  let X ← readTen F gc f.2
  .ok (Key.name f.1, Item.ten X)

/-- L146-L180: the dictionary read from the file. In the branch of the old format (L149-L154) the statement
`[keymap[key]]= tensor` unpacks the tensor along its first axis into a one-element list: it raises unless that axis has size one, and it
never touches the dictionary. -/
noncomputable def readBody (F : NumFmt ℚ) (C : CoordFmt) (gc : Bool) : GBody → Except Err (List (Key × Item))
  | .elem ts => do
    let xs ← ts.mapM (readTen F gc)
    if xs.all (fun x => size x.t 0 == 1) then .ok [] else .error .raise
  | .single ts => ts.mapM (readSingle F gc)
  | .multi ts => ts.mapM (readCell F C gc)

/-- L126-L196 `read_ipess_kagome_generic`. `vts` only decides whether the pattern of the file is used: it is not forwarded (L194). -/
noncomputable def readG (F : NumFmt ℚ) (C : CoordFmt) (gc : Bool) (j : GFile) (vts : Option (Vertex → Option Vertex)) : Except Err GState := do
  let ip ← readBody F C gc j.body
  let pattern := if vts.isNone then j.pattern.getD [] else []
  mkG ip none pattern (some j.lX) (some j.lY)

/-! ### IPESS_KAGOME_PG -/

/-- Names of irreps: "A_1", "A_2", "A", "B", or another string. -/
inductive Irrep | A1 | A2 | A | B | other
  deriving DecidableEq

/-- `x + y` and `x - y` of tensors of equal shape (torch's broadcasting of axes of size one is not modelled). -/
def addT (x y : Tensor ℂ) : Option (Tensor ℂ) := if x.shape = y.shape then some ⟨x.shape, fun i => x.val i + y.val i⟩ else none
def subT (x y : Tensor ℂ) : Option (Tensor ℂ) := if x.shape = y.shape then some ⟨x.shape, fun i => x.val i - y.val i⟩ else none
/-- multiplication by a number -/
def scaleT (z : ℂ) (x : Tensor ℂ) : Tensor ℂ := ⟨x.shape, fun i => z * x.val i⟩

/-- L554-L560, L570, L577: `0.5*(t ± t.permute(0,2,1).conj())`. -/
noncomputable def reflectPart (minus : Bool) (x : Tensor ℂ) : Option (Tensor ℂ) := do
  let y ← permute [0, 2, 1] x
  let z ← if minus then subT x (conj y) else addT x (conj y)
  some (scaleT (1 / 2) z)

/-- L567-L569: the average over cyclic permutations. -/
noncomputable def cyclicPart (x : Tensor ℂ) : Option (Tensor ℂ) := do
  let y ← permute [1, 2, 0] x
  let z ← permute [2, 0, 1] x
  let w ← addT x y
  let w ← addT w z
  some (scaleT (1 / 3) w)

/-- L551-L580, one tensor with its irrep. -/
noncomputable def symmOne (n : Name) (p : Irrep) (X : Ten) : Except Err Ten :=
  match n with
  | .Ba | .Bb | .Bc =>
    match p with
    | .A => do let t ← lift (reflectPart false X.t); .ok ⟨X.cplx, t⟩
    | .B => do let t ← lift (reflectPart true X.t); .ok ⟨X.cplx, t⟩
    | _ => .error .raise
  | .Tu | .Td =>
    match p with
    | .A1 => do let w ← lift (cyclicPart X.t); let t ← lift (reflectPart false w); .ok ⟨X.cplx, t⟩
    | .A2 => do let w ← lift (cyclicPart X.t); let t ← lift (reflectPart true w); .ok ⟨X.cplx, t⟩
    | _ => .error .raise

/-- One iteration of L549-L580: `None` and absent tensors are skipped; the tensor is read from the argument. -/
noncomputable def symmStep (elem : List (Name × Ten)) (acc : List (Name × Ten)) (e : Name × Option Irrep) : Except Err (List (Name × Ten)) :=
  match e.2 with
  | none => .ok acc
  | some p =>
    match dictFind elem e.1 with
    | none => .ok acc
    | some X => do
      let Y ← symmOne e.1 p X
      .ok (dictSet e.1 Y acc)

/-- L547-L581 `_to_PG_symmetric`. -/
noncomputable def symmAll (pgs : List (Name × Option Irrep)) (elem : List (Name × Ten)) : Except Err (List (Name × Ten)) :=
  pgs.foldlM (symmStep elem) elem

/-- A state with point-group symmetry: the flags, the irreps, the independent tensors and the parent state. -/
structure PState where
  symUD : Bool
  symB : Bool
  pgs : List (Name × Option Irrep)
  elem : List (Name × Ten)
  g : GState

/-- `X` if a symmetry makes the tensor redundant, else the tensor itself. -/
def unlessSame (same : Bool) (X : Ten) (y : Except Err Ten) : Except Err Ten := if same then .ok X else y

/-- Nothing if a symmetry makes the tensors redundant. -/
def unlessRedundant (same : Bool) (y : Except Err (List (Name × Ten))) : Except Err (List (Name × Ten)) := if same then .ok [] else y

/-- L404-L410, L462-L470, L489-L496: the five tensors from the independent ones. -/
def fiveOf (symUD symB : Bool) (elem : List (Name × Ten)) : Except Err (List (Name × Ten)) := do
  let Tu ← look elem .Tu
  let Bc ← look elem .Bc
  let Td ← unlessSame symUD Tu (look elem .Td)
  let Ba ← unlessSame symB Bc (look elem .Ba)
  let Bb ← unlessSame symB Bc (look elem .Bb)
  .ok [(.Tu, Tu), (.Td, Td), (.Bc, Bc), (.Ba, Ba), (.Bb, Bb)]

/-- L388-L397, L601-L611: the independent tensors. -/
def selectP (symUD symB : Bool) (elem : List (Name × Ten)) : Except Err (List (Name × Ten)) := do
  let Tu ← look elem .Tu
  let Bc ← look elem .Bc
  let up ← unlessRedundant symUD (do
    let Td ← look elem .Td
    Except.ok [(Name.Td, Td)])
  let bs ← unlessRedundant symB (do
    let Ba ← look elem .Ba
    let Bb ← look elem .Bb
    Except.ok [(Name.Ba, Ba), (Name.Bb, Bb)])
  .ok ([(Name.Tu, Tu), (Name.Bc, Bc)] ++ up ++ bs)

/-- L399: `symmetrize` of the constructor. -/
noncomputable def ifSymm (symmetrize : Bool) (pgs : List (Name × Option Irrep)) (es : List (Name × Ten)) : Except Err (List (Name × Ten)) :=
  if symmetrize then symmAll pgs es else .ok es

/-- L381-L413 the constructor. `elem` holds the given tensors; the tensors made redundant by a flag are dropped. -/
noncomputable def mkP (elem : List (Name × Ten)) (symUD symB : Bool) (pgs : List (Name × Option Irrep)) (symmetrize : Bool) :
    Except Err PState := do
  let es ← selectP symUD symB elem
  let es ← ifSymm symmetrize pgs es
  let five ← fiveOf symUD symB es
  let g ← mkG (five.map (fun f => (Key.name f.1, Item.ten f.2))) none ([] : List (List Nat)) none none
  .ok ⟨symUD, symB, pgs, es, g⟩

/-- The common tail of `load_checkpoint` (L462-L473) and `add_noise` (L489-L498). -/
noncomputable def rebuildP (s : PState) (es : List (Name × Ten)) : Except Err PState := do
  let five ← fiveOf s.symUD s.symB es
  let ip := [(Key.cell (0, 0), Item.sub five)]
  let sites ← buildAll ip
  .ok { s with elem := es, g := { s.g with ipess := ip, sites := sites } }

/-- Keys of a checkpoint: the current names and the old ones (L447-L457). -/
inductive CName | new (n : Name) | upT | downT | bondS | bondS1 | bondS2 | bondS3
  deriving DecidableEq

/-- L444-L459. In the second branch the name `SYM_BOND_S` is not defined: evaluating `... and not SYM_BOND_S` raises when both
"BOND_S2" and "BOND_S3" are present. In the last branch the dictionary is taken over; only its known keys matter. -/
def ckptElem (symUD : Bool) (ck : List (CName × Ten)) : Except Err (List (Name × Ten)) :=
  match dictFind ck .upT, dictFind ck .bondS, dictFind ck .bondS1 with
  | some u, some b, _ => .ok (match symUD, dictFind ck .downT with
    | false, some d => [(.Tu, u), (.Bc, b), (.Td, d)]
    | _, _ => [(.Tu, u), (.Bc, b)])
  | some u, none, some b =>
    if (dictFind ck .bondS2).isSome && (dictFind ck .bondS3).isSome then .error .raise
    else .ok (match symUD, dictFind ck .downT with
      | false, some d => [(.Tu, u), (.Bc, b), (.Td, d)]
      | _, _ => [(.Tu, u), (.Bc, b)])
  | _, _, _ => .ok (ck.filterMap (fun e => match e.1 with
    | .new n => some (n, e.2)
    | _ => none))

/-- L442-L473 `load_checkpoint`. -/
noncomputable def loadP (ck : List (CName × Ten)) (s : PState) : Except Err PState := do
  let es ← ckptElem s.symUD ck
  rebuildP s es

/-- L432-L440 `get_checkpoint`. -/
def checkpointP (s : PState) : List (CName × Ten) := s.elem.map (fun e => (.new e.1, e.2))

/-- L475-L498 `add_noise`; `ν k` are the scaled random numbers added to tensor `k`. -/
noncomputable def addNoiseP (ν : Name → List Nat → ℂ) (s : PState) : Except Err PState := do
  let es ← symmAll s.pgs (s.elem.map (fun e => (e.1, ⟨e.2.cplx, ⟨e.2.t.shape, fun i => e.2.t.val i + ν e.1 i⟩⟩)))
  rebuildP s es

/-- L508-L545 `extend_bond_dim`. -/
noncomputable def extendP (d : Nat) (s : PState) : Except Err PState := do
  let ad ← auxDim s.g.ipess
  if ad ≤ d then do
    let Tu ← (look s.elem .Tu).bind (growT d ad)
    let Bc ← (look s.elem .Bc).bind (growB d ad)
    let up ← unlessRedundant s.symUD (do
      let Td ← (look s.elem .Td).bind (growT d ad)
      Except.ok [(Name.Td, Td)])
    let bs ← unlessRedundant s.symB (do
      let Bb ← (look s.elem .Bb).bind (growB d ad)
      let Ba ← (look s.elem .Ba).bind (growB d ad)
      Except.ok [(Name.Ba, Ba), (Name.Bb, Bb)])
    mkP ([(Name.Tu, Tu), (Name.Bc, Bc)] ++ up ++ bs) s.symUD s.symB s.pgs false
  else .error .raise

/-- L583-L614 `to_PG_symmetric`. -/
noncomputable def symmetrizeP (s : PState) (symUD symB : Option Bool) (pgs : Option (List (Name × Option Irrep))) : Except Err PState := do
  let ud := symUD.getD s.symUD
  let b := symB.getD s.symB
  let ps := pgs.getD s.pgs
  let es ← symmAll ps s.elem
  let es ← selectP ud b es
  mkP es ud b ps false

/-- The file of a state with point-group symmetry, L713-L719. -/
structure PFile where
  symUD : Bool
  symB : Bool
  pgs : List (Name × Option Irrep)
  elem : List (Name × JTensor)

/-- L695-L722 `write_ipess_kagome_pg` with `normalize=False`. -/
noncomputable def writeP (F : NumFmt ℚ) (s : PState) (symmetrize : Bool) : Except Err PFile := do
  let s' ← if symmetrize then symmetrizeP s none none none else .ok s
  .ok ⟨s'.symUD, s'.symB, s'.pgs, s'.elem.map (fun e => (e.1, serializeLegacy F [] (toPairs e.2)))⟩

/-- L616-L693 `read_ipess_kagome_pg` for files of the current format: `gc` tells whether `global_args.torch_dtype` is complex. -/
noncomputable def readP (F : NumFmt ℚ) (gc : Bool) (j : PFile) : Except Err PState := do
  let es ← j.elem.mapM (readNamed F gc)
  mkP es j.symUD j.symB j.pgs false

/-! ### IPESS_KAGOME_PG_LC -/

/-- A state whose independent tensors are linear combinations: coefficients and basis tensors (with their irrep) by name. -/
structure LState where
  symUD : Bool
  symB : Bool
  pgs : List (Name × Option Irrep)
  coeffs : List (Name × Ten)
  basis : List (Name × List (Irrep × Ten))
  elem : List (Name × Ten)
  g : GState

/-- `1.0j*t`, L877. -/
def timesI (X : Ten) : Ten := ⟨true, ⟨X.t.shape, fun i => Complex.I * X.t.val i⟩⟩

/-- `torch.stack`: at least one tensor, equal shapes; complex if one of them is. -/
def stackT : List Ten → Option Ten
  | [] => none
  | X :: Xs =>
    if ∀ Y ∈ Xs, Y.t.shape = X.t.shape then
      some ⟨(X :: Xs).any (·.cplx), ⟨(Xs.length + 1) :: X.t.shape, fun i => match i with
        | k :: is => (((X :: Xs)[k]?).map (fun Y => Y.t.val is)).getD 0
        | [] => 0⟩⟩
    else none

/-- The tensors of one irrep. -/
def ofIrrep (p : Irrep) (b : List (Irrep × Ten)) : List Ten := (b.filter (fun e => e.1 = p)).map (·.2)

/-- L872-L895: the tensors that are combined, in the order in which the coefficients are applied. -/
def selected (n : Name) (p : Option Irrep) (b : List (Irrep × Ten)) : List Ten :=
  match n, p with
  | .Tu, some .A1 | .Td, some .A1 => ofIrrep .A1 b ++ (ofIrrep .A2 b).map timesI
  | .Tu, some .A2 | .Td, some .A2 => ofIrrep .A2 b ++ (ofIrrep .A1 b).map timesI
  | .Ba, some .A | .Bb, some .A | .Bc, some .A => ofIrrep .A b ++ (ofIrrep .B b).map timesI
  | .Ba, some .B | .Bb, some .B | .Bc, some .B => ofIrrep .B b ++ (ofIrrep .A b).map timesI
  | _, _ => b.map (·.2)

/-- L897-L899: `torch.einsum('i,iabc->abc',c,ts)`; a complex `c` and a real `ts` have different dtypes. -/
def combineT (c ts : Ten) : Except Err Ten :=
  if c.cplx && !ts.cplx then .error .raise
  else do
    let t ← lift (einsum [(c.t, [0]), (ts.t, [0, 1, 2, 3])] [1, 2, 3])
    .ok ⟨ts.cplx, t⟩

/-- One iteration of L871-L899. -/
def elemOne (pgs : List (Name × Option Irrep)) (basis : List (Name × List (Irrep × Ten))) (e : Name × Ten) : Except Err (Name × Ten) := do
  let b ← look basis e.1
  let ts ← lift (stackT (selected e.1 ((dictFind pgs e.1).join) b))
  let t ← combineT e.2 ts
  .ok (e.1, t)

/-- L863-L900 `build_elem_tensors`. -/
def buildElem (pgs : List (Name × Option Irrep)) (coeffs : List (Name × Ten)) (basis : List (Name × List (Irrep × Ten))) :
    Except Err (List (Name × Ten)) := coeffs.mapM (elemOne pgs basis)

/-- L782-L812 the constructor, for the coefficients and basis tensors by name; those made redundant by a flag are dropped. -/
noncomputable def mkL (coeffs : List (Name × Ten)) (basis : List (Name × List (Irrep × Ten))) (symUD symB : Bool)
    (pgs : List (Name × Option Irrep)) : Except Err LState := do
  let names := [Name.Tu, Name.Bc] ++ (if symUD then [] else [Name.Td]) ++ (if symB then [] else [Name.Ba, Name.Bb])
  let cs ← names.mapM (fun n => do
    let c ← look coeffs n
    Except.ok (n, c))
  let bs ← names.mapM (fun n => do
    let b ← look basis n
    Except.ok (n, b))
  let es ← buildElem pgs cs bs
  let p ← mkP es symUD symB pgs false
  .ok ⟨symUD, symB, pgs, cs, bs, p.elem, p.g⟩

/-- L909-L910. -/
def addDown (symUD : Bool) (es : List (Name × Ten)) (ip : List (Key × Item)) : Except Err (List (Key × Item)) :=
  if symUD then .ok ip else do
    let Td ← look es .Td
    .ok (dictSet (Key.name .Td) (Item.ten Td) ip)

/-- L911-L913. -/
def addBonds (symB : Bool) (es : List (Name × Ten)) (ip : List (Key × Item)) : Except Err (List (Key × Item)) :=
  if symB then .ok ip else do
    let Bb ← look es .Bb
    let Ba ← look es .Ba
    .ok (dictSet (Key.name .Ba) (Item.ten Ba) (dictSet (Key.name .Bb) (Item.ten Bb) ip))

/-- L902-L918 `update_`: the tensors of the missing symmetries are stored in the outer dictionary, next to the site. -/
noncomputable def updateL (s : LState) : Except Err LState := do
  let es ← buildElem s.pgs s.coeffs s.basis
  let Tu ← look es .Tu
  let Bc ← look es .Bc
  let ip0 := [(Key.cell (0, 0), Item.sub [(.Tu, Tu), (.Td, Tu), (.Ba, Bc), (.Bb, Bc), (.Bc, Bc)])]
  let ip1 ← addDown s.symUD es ip0
  let ip2 ← addBonds s.symB es ip1
  let sites ← buildAll ip2
  .ok { s with elem := es, g := { s.g with ipess := ip2, sites := sites } }

/-- L843-L847 `load_checkpoint`. -/
noncomputable def loadL (coeffs : List (Name × Ten)) (basis : List (Name × List (Irrep × Ten))) (s : LState) : Except Err LState :=
  updateL { s with coeffs := coeffs, basis := basis }

/-- L920-L930 `add_noise`; `ν k` are the scaled random numbers `noise * (rand - 1)`. -/
noncomputable def addNoiseL (ν : Name → List Nat → ℂ) (s : LState) : Except Err LState :=
  updateL { s with coeffs := s.coeffs.map (fun e => (e.1, ⟨e.2.cplx, ⟨e.2.t.shape, fun i => e.2.t.val i + ν e.1 i⟩⟩)) }

/-- A tensor of a file in the sparse format, with its metadata (the irrep; none for coefficients). -/
structure JBasis (μ : Type) where
  info : μ
  cplx : Bool
  dims : List Nat
  entries : List Str

/-- tensor_io.py L295-L317 `serialize_basis_t`: the non-zero entries in row-major order. -/
noncomputable def serializeBasis {μ : Type} (F : NumFmt ℚ) (m : μ) (X : CTensor ℚ) : JBasis μ :=
  ⟨m, X.cplx, X.t.shape, ((indices X.t.shape).filter (fun ei => decide (X.t.val ei ≠ (0, 0)))).map (fun ei =>
    if X.cplx then join (ei.map F.encN) ++ ' ' :: F.encR (X.t.val ei).1 ++ ' ' :: F.encR (X.t.val ei).2
    else join (ei.map F.encN) ++ ' ' :: F.encR (X.t.val ei).1)⟩

/-- One iteration of tensor_io.py L331-L339. -/
def readBasisEntry (F : NumFmt ℚ) (cplx : Bool) (dims : List Nat) (val : List Nat → ℚ × ℚ) (entry : Str) : Option (List Nat → ℚ × ℚ) := do
  let l := split entry
  let ei ← (l.take dims.length).mapM F.decN
  let re ← (l[dims.length]?).bind F.decR
  let im ← if cplx then (l[dims.length + 1]?).bind F.decR else some 0
  if InB dims ei then some (setAt val ei (re, im)) else none

/-- tensor_io.py L319-L344 `read_basis_t` without a requested dtype. -/
def readBasis {μ : Type} (F : NumFmt ℚ) (j : JBasis μ) : Option (μ × CTensor ℚ) := do
  let val ← j.entries.foldlM (readBasisEntry F j.cplx j.dims) (fun _ => (0, 0))
  some (j.info, ⟨j.cplx, ⟨j.dims, val⟩⟩)

/-- The file of a state of linear combinations, L956-L969. -/
structure LFile where
  symUD : Bool
  symB : Bool
  pgs : List (Name × Option Irrep)
  basis : List (Name × List (JBasis Irrep))
  coeffs : List (Name × JBasis Unit)

/-- L941-L970 `write_ipess_kagome_pg_lc` with `normalize=False`. -/
noncomputable def writeL (F : NumFmt ℚ) (s : LState) : LFile :=
  ⟨s.symUD, s.symB, s.pgs, s.basis.map (fun e => (e.1, e.2.map (fun m => serializeBasis F m.1 (toPairs m.2)))),
    s.coeffs.map (fun e => (e.1, serializeBasis F () (toPairs e.2)))⟩

/-- L1009-L1010: one basis tensor. -/
noncomputable def readMember (F : NumFmt ℚ) (j : JBasis Irrep) : Except Err (Irrep × Ten) := do
  let m ← lift (readBasis F j)
  .ok (m.1, ofPairs m.2)

/-- L1007-L1010: the basis of one tensor. -/
noncomputable def readMembers (F : NumFmt ℚ) (e : Name × List (JBasis Irrep)) : Except Err (Name × List (Irrep × Ten)) := do
  let ms ← e.2.mapM (readMember F)
  .ok (e.1, ms)

/-- L1012-L1013: the coefficients of one tensor. -/
noncomputable def readCoeffs (F : NumFmt ℚ) (e : Name × JBasis Unit) : Except Err (Name × Ten) := do
  let m ← lift (readBasis F e.2)
  .ok (e.1, ofPairs m.2)

/-- L972-L1020 `read_ipess_kagome_pg_lc` for files of the current format; L1015 raises if coefficients have no basis. -/
noncomputable def readL (F : NumFmt ℚ) (j : LFile) : Except Err LState := do
  let basis ← j.basis.mapM (readMembers F)
  let coeffs ← j.coeffs.mapM (readCoeffs F)
  let _ ← coeffs.mapM (fun e => look basis e.1)
  mkL coeffs basis j.symUD j.symB j.pgs

end Verif.Kagome
