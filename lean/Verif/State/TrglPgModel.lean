import Verif.State.KagomeModel
/-
Model of /repo/ipeps/ipeps_trgl_pg.py: one-site states on the triangular lattice with point-group symmetry
(`IPEPS_TRGL_1S_TTPHYS_PG`, `IPEPS_TRGL_1S_TBT_PG`), their checkpoints and files.
Rounding is not modelled: entries are complex numbers, a float64 tensor has real ones. Autograd and devices are not modelled. Broadcasting of
axes of size 1 in the sums of permuted tensors is not modelled: such sums are errors. States
constructed without tensors (`t_aux=None`) are not modelled. The cell is 1 x 1, the tiling is the default of the base class.
-/
namespace Verif.TrglPg
open Verif.State
open Verif.Tensor
open Verif.Kagome (Err Ten Irrep lift addT subT scaleT reflectPart cyclicPart normMax toPairs ofPairs)

/-- The two classes. -/
inductive Kind | ttphys | tbt
  deriving DecidableEq

/-- Keys of the dictionary of irreps: 't_aux', 't_phys', or another string. -/
inductive TName | aux | phys | other
  deriving DecidableEq

/-- `elem_tensors`, L40, L268. -/
structure Elem where
  aux  : Ten
  phys : Ten

abbrev Pgs := List (TName × Option Irrep)

/-! ### Projection onto irreps -/

/-- L133-L135, L140-L142 for `t_phys`: the average over cyclic permutations of the three auxiliary axes. -/
noncomputable def cyclicPart4 (x : Tensor ℂ) : Option (Tensor ℂ) := do
  let y ← permute [1, 2, 0, 3] x
  let z ← permute [2, 0, 1, 3] x
  let w ← addT x y
  let w ← addT w z
  some (scaleT (1 / 3) w)

/-- `x - y` or `x + y`. -/
def plusMinus (minus : Bool) (x y : Tensor ℂ) : Option (Tensor ℂ) := if minus then subT x y else addT x y

/-- L136, L143 for `t_phys`: `0.5*(t ± t.permute(0,2,1,3).conj())`. -/
noncomputable def reflectPart4 (minus : Bool) (x : Tensor ℂ) : Option (Tensor ℂ) := do
  let y ← permute [0, 2, 1, 3] x
  let z ← plusMinus minus x (conj y)
  some (scaleT (1 / 2) z)

/-- L358-L364: `0.5*(t ± t.permute(1,0,2).conj())`. -/
noncomputable def swapPart (minus : Bool) (x : Tensor ℂ) : Option (Tensor ℂ) := do
  let y ← permute [1, 0, 2] x
  let z ← plusMinus minus x (conj y)
  some (scaleT (1 / 2) z)

/-- L128-L146 and L368-L384, the tensor `t_aux` (`reflectPart`, `cyclicPart`: `0.5*(t ± t.permute(0,2,1).conj())` and the average over
`permute(1,2,0)`, `permute(2,0,1)`, State/KagomeModel.lean). -/
noncomputable def symmAux (p : Irrep) (X : Ten) : Except Err Ten :=
  match p with
  | .A1 => do let w ← lift (cyclicPart X.t); let t ← lift (reflectPart false w); .ok ⟨X.cplx, t⟩
  | .A2 => do let w ← lift (cyclicPart X.t); let t ← lift (reflectPart true w); .ok ⟨X.cplx, t⟩
  | _ => .error .raise

/-- L128-L146 (first class), L356-L366 (second class), the tensor `t_phys`. -/
noncomputable def symmPhys (k : Kind) (p : Irrep) (X : Ten) : Except Err Ten :=
  match k, p with
  | .ttphys, .A1 => do let w ← lift (cyclicPart4 X.t); let t ← lift (reflectPart4 false w); .ok ⟨X.cplx, t⟩
  | .ttphys, .A2 => do let w ← lift (cyclicPart4 X.t); let t ← lift (reflectPart4 true w); .ok ⟨X.cplx, t⟩
  | .tbt, .A => do let t ← lift (swapPart false X.t); .ok ⟨X.cplx, t⟩
  | .tbt, .B => do let t ← lift (swapPart true X.t); .ok ⟨X.cplx, t⟩
  | _, _ => .error .raise

/-- One iteration of L125-L146, L353-L384: `None` and unknown names are skipped, the tensor is read from the argument. -/
noncomputable def symmStep (k : Kind) (el acc : Elem) (e : TName × Option Irrep) : Except Err Elem :=
  match e.2, e.1 with
  | none, _ => .ok acc
  | some p, .aux => do let Y ← symmAux p el.aux; .ok { acc with aux := Y }
  | some p, .phys => do let Y ← symmPhys k p el.phys; .ok { acc with phys := Y }
  | some _, .other => .ok acc

/-- L122-L147, L350-L385 `_to_PG_symmetric`. -/
noncomputable def symmAll (k : Kind) (pgs : Pgs) (el : Elem) : Except Err Elem := pgs.foldlM (symmStep k el) el

/-! ### States -/

/-- L78-L80 and L306-L308 `build_onsite_tensors`: the einsums 'ldx,xurp->puldr' (labels l=0 d=1 x=2 u=3 r=4 p=5) and
'ldx,xyp,yur->puldr' (labels l=0 d=1 x=2 y=3 p=4 u=5 r=6). Tensors of different dtype cannot be contracted. -/
def build (k : Kind) (el : Elem) : Except Err Ten :=
  if el.phys.cplx = el.aux.cplx then
    match k with
    | .ttphys => do
      let A ← lift (einsum [(el.aux.t, [0, 1, 2]), (el.phys.t, [2, 3, 4, 5])] [5, 3, 0, 1, 4])
      .ok ⟨el.aux.cplx, A⟩
    | .tbt => do
      let A ← lift (einsum [(el.aux.t, [0, 1, 2]), (el.phys.t, [2, 3, 4]), (el.aux.t, [3, 5, 6])] [4, 5, 0, 1, 6])
      .ok ⟨el.aux.cplx, A⟩
  else .error .raise

/-- A state: its class, irreps, elementary tensors and the tensor of its site (0,0). -/
structure TState where
  kind : Kind
  pgs  : Pgs
  el   : Elem
  site : Ten

/-- The assertion "Invalid point-group specification", L43, L271. -/
def keysOk (pgs : Pgs) : Bool := pgs.all (fun e => decide (e.1 ≠ .other))

/-- L46-L47, L274-L275: `pg_symmetrize` of the constructor. -/
noncomputable def ifSymm (sy : Bool) (k : Kind) (pgs : Pgs) (el : Elem) : Except Err Elem := if sy then symmAll k pgs el else .ok el

/-- L12-L53, L240-L281 the constructors. -/
noncomputable def mk (k : Kind) (el : Elem) (pgs : Pgs) (sy : Bool) : Except Err TState :=
  if keysOk pgs then do
    let el' ← ifSymm sy k pgs el
    let A ← build k el'
    .ok ⟨k, pgs, el', A⟩
  else .error .raise

/-- L387-L394 `to_PG_symmetric`. -/
noncomputable def symmetrize (s : TState) (pgs : Option Pgs) : Except Err TState := do
  let ps := pgs.getD s.pgs
  let el ← symmAll s.kind ps s.el
  mk s.kind el ps false

/-- `t + noise * (rand - 0.5)`: `ν` are the scaled random numbers. -/
def plus (X : Ten) (ν : List Nat → ℂ) : Ten := ⟨X.cplx, ⟨X.t.shape, fun i => X.t.val i + ν i⟩⟩

/-- L82-L88, L310-L316 `add_noise`: the state itself afterwards, and what is returned. The assignment to `self.elem_tensors` does not
rebuild the sites. -/
noncomputable def addNoise (ν μ : List Nat → ℂ) (s : TState) : TState × Except Err TState :=
  let s' := { s with el := ⟨plus s.el.aux ν, plus s.el.phys μ⟩ }
  (s', symmetrize s' (some s.pgs))

/-- L118-L120, L346-L348 `normalize_`. -/
noncomputable def normalize (s : TState) : Except Err TState := do
  let a ← normMax s.el.aux.t
  let p ← normMax s.el.phys.t
  let el : Elem := ⟨⟨s.el.aux.cplx, a⟩, ⟨s.el.phys.cplx, p⟩⟩
  let A ← build s.kind el
  .ok { s with el := el, site := A }

/-- `new = zeros(shape); new[:n0,:n1,...] = t`: the tensor written into zeros. -/
def pad (shape : List Nat) (X : Ten) : Ten := ⟨X.cplx, ⟨shape, fun i => if InB X.t.shape i then X.t.val i else 0⟩⟩

/-- L90-L116, L318-L344 `extend_bond_dim`. The new tensors have shapes (d,d,d) and (d,d,d,p) or (d,d,p); the slices written to exist
only for tensors of that rank. The second class does not hand over the irreps. -/
noncomputable def extend (d : Nat) (s : TState) : Except Err TState :=
  if s.el.aux.t.shape.all (fun n => decide (n ≤ d)) && s.el.phys.t.shape.dropLast.all (fun n => decide (n ≤ d)) then
    match s.kind, s.el.aux.t.shape, s.el.phys.t.shape with
    | .ttphys, [_, _, _], [_, _, _, p] => mk .ttphys ⟨pad [d, d, d] s.el.aux, pad [d, d, d, p] s.el.phys⟩ s.pgs false
    | .tbt, [_, _, _], [_, _, p] => mk .tbt ⟨pad [d, d, d] s.el.aux, pad [d, d, p] s.el.phys⟩ [] false
    | _, _, _ => .error .raise
  else .error .raise

/-! ### Checkpoints -/

/-- Keys of the dictionary in a checkpoint file. -/
inductive CKey | parameters | elemTensors | epoch | loss | optimizerState
  deriving DecidableEq

/-- Values in a checkpoint file: elementary tensors, a dictionary with the single key 'elem_tensors', or something else. -/
inductive CVal | elem (el : Elem) | nested (el : Elem) | misc

/-- L58-L60, L286-L288 `get_checkpoint`: the dictionary {"elem_tensors": ...}. -/
def checkpoint (s : TState) : List (CKey × CVal) := [(.elemTensors, .elem s.el)]

/-- /repo/optim/ad_optim_lbfgs_mod.py L37-L41 `store_checkpoint` (the same in the other optimizers): the checkpoint of the state is the
value of the key 'parameters'. -/
def storeCheckpoint (s : TState) : List (CKey × CVal) :=
  [(.epoch, .misc), (.loss, .misc), (.parameters, .nested s.el), (.optimizerState, .misc)]

/-- L62-L68, L290-L296 `load_checkpoint`: reads the key 'elem_tensors' of the file. -/
def load (f : List (CKey × CVal)) (s : TState) : Except Err TState :=
  match dictFind f .elemTensors with
  | some (.elem el) => do
    let A ← build s.kind el
    .ok { s with el := el, site := A }
  | _ => .error .raise

/-! ### Files -/

/-- The JSON object: "pgs" and "elem_tensors". -/
structure TFile where
  pgs  : Option Pgs
  aux  : JTensor
  phys : JTensor

/-- `t/t.abs().max()` if `normalize`, L168-L169, L464. -/
noncomputable def ifNorm (normalize : Bool) (X : Ten) : Except Err Ten :=
  if normalize then do let t ← normMax X.t; .ok ⟨X.cplx, t⟩ else .ok X

/-- L164, L460: `to_PG_symmetric(state) if pg_symmetrize else state`. -/
noncomputable def symmState (sy : Bool) (s : TState) : Except Err TState := if sy then symmetrize s none else .ok s

/-- L150-L182 `write_ipeps_trgl_1s_ttphys_pg` and L446-L474 `write_ipeps_trgl_1s_tbt_pg` (`tol` has no effect). The latter serializes the
tensors of `state`, not of `sym_state`. -/
noncomputable def writeFile (F : NumFmt ℚ) (fm : Format) (k : Kind) (s : TState) (norm sy : Bool) : Except Err TFile := do
  let sym ← symmState sy s
  let el := match k with
    | .ttphys => sym.el
    | .tbt => s.el
  let a ← ifNorm norm el.aux
  let p ← ifNorm norm el.phys
  .ok ⟨some s.pgs, serialize F fm [] (toPairs a), serialize F fm [] (toPairs p)⟩

/-- L70-L76, L298-L304 `write_to_file`: the second class calls `write_ipeps_trgl_1s_pg`, a name defined nowhere. -/
noncomputable def writeMethod (F : NumFmt ℚ) (fm : Format) (s : TState) (norm sy : Bool) : Except Err TFile :=
  match s.kind with
  | .ttphys => writeFile F fm .ttphys s norm sy
  | .tbt => .error .raise

/-- L212-L226, L418-L432: one tensor; float64 is promoted if `global_args.torch_dtype` is complex (`gc`). -/
noncomputable def readOne (F : NumFmt ℚ) (gc : Bool) (j : JTensor) : Except Err Ten := do
  let X ← lift (readTensor F j)
  .ok ⟨(ofPairs X).cplx || gc, (ofPairs X).t⟩

/-- L206, L415-L416: the irreps; the second class asserts that "pgs" is present. -/
def readPgs (k : Kind) (pgs : Option Pgs) : Except Err Pgs :=
  match k, pgs with
  | _, some p => .ok p
  | .ttphys, none => .ok []
  | .tbt, none => .error .raise

/-- L184-L233 `read_ipeps_trgl_1s_ttphys_pg`, L396-L444 `read_ipeps_trgl_1s_tbt_pg`. -/
noncomputable def readFile (F : NumFmt ℚ) (gc : Bool) (k : Kind) (j : TFile) : Except Err TState := do
  let pgs ← readPgs k j.pgs
  let a ← readOne F gc j.aux
  let p ← readOne F gc j.phys
  mk k ⟨a, p⟩ pgs false

end Verif.TrglPg
