import Verif.Ctm.AbsorbModel
import Mathlib.Analysis.RCLike.Basic
import Mathlib.Analysis.SpecialFunctions.Pow.Real
/-
Model of one directional CTM move: /repo/ctm/generic/ctm_projectors.py, the wrappers of /repo/ctm/generic/ctm_components.py and
/repo/ctm/generic/ctmrg.py L179-L319 `ctm_MOVE`, the wrappers L324-L341, L433-L457, L565-L583, L681-L699, and `run` L18-L110.
The decomposition backend is a parameter. Checkpointing, offloading to another device, printing and timing are not modelled.
-/
namespace Verif.Ctm
open Tensor
variable {K : Type} [RCLike K]

abbrev Coord := Int × Int

/-- Up=(0,-1), Left=(-1,0), Down=(0,1), Right=(1,0) (ctmrg.py L182). Other directions raise ValueError and are not representable. -/
inductive Dir | up | left | down | right
deriving DecidableEq, Repr

def Dir.vec : Dir → Coord
  | .up => (0, -1)
  | .left => (-1, 0)
  | .down => (0, 1)
  | .right => (1, 0)

/-- How a call ends without a result: an exception (missing key, mismatched sizes), or a division by a vanishing norm, after
which the tensors hold NaN. -/
inductive Err | raise | nan
deriving DecidableEq

def lift {α : Type} : Option α → Except Err α
  | none => .error .raise
  | some a => .ok a

/-- The parts of `IPEPS` used by CTM: keys of `sites` in order, `sites`, `vertexToSite`, `lX`, `lY` (ipeps.py). -/
structure State (K : Type) where
  keys : List Coord
  sites : Coord → Option (Tensor K)
  vts : Coord → Coord
  lX : Nat
  lY : Nat

/-- ipeps.py `IPEPS.site`: `self.sites[self.vertexToSite(coord)]`. -/
def State.site (st : State K) (c : Coord) : Option (Tensor K) := st.sites (st.vts c)

/-- env.py L9-L108 `ENV`: dictionaries `C` and `T` keyed by (site, relative vector). -/
structure Env (K : Type) where
  chi : Nat
  C : Coord × Coord → Option (Tensor K)
  T : Coord × Coord → Option (Tensor K)

/-- The options of `CTMARGS` read by a move: `ctm_force_dl`, `projector_method == '4X4'`, `projector_svd_reltol`,
`projector_full_matrices`, `ctm_absorb_normalization == 'inf'`. -/
structure Args where
  dl : Bool
  m4x4 : Bool
  reltol : ℝ
  full : Bool
  inf : Bool

/-- A truncated decomposition `M = U diag(S) V^H`. -/
structure Svd (K : Type) where
  U : Tensor K
  S : List ℝ
  V : Tensor K

/-- The same tensor with the unobservable values outside its shape set to zero. -/
def canon (A : Tensor K) : Tensor K := ⟨A.shape, fun idx => if InB A.shape idx then A.val idx else 0⟩

/-- ctm_components.py L270-L319 `c2x2_LU`, `c2x2_LU_t`. -/
def c2x2LU (st : State K) (env : Env K) (sl : Bool) (c : Coord) : Option (Tensor K) := do
  let C ← env.C (st.vts c, (-1, -1))
  let T1 ← env.T (st.vts c, (0, -1))
  let T2 ← env.T (st.vts c, (-1, 0))
  let A ← st.site c
  if sl then Corner.luSl C T1 T2 A false else Corner.luDl C T1 T2 A false

/-- ctm_components.py L437-L485 `c2x2_RU`, `c2x2_RU_t`. -/
def c2x2RU (st : State K) (env : Env K) (sl : Bool) (c : Coord) : Option (Tensor K) := do
  let C ← env.C (st.vts c, (1, -1))
  let T1 ← env.T (st.vts c, (1, 0))
  let T2 ← env.T (st.vts c, (0, -1))
  let A ← st.site c
  if sl then Corner.ruSl C T1 T2 A false else Corner.ruDl C T1 T2 A false

/-- ctm_components.py L589-L637 `c2x2_RD`, `c2x2_RD_t`. -/
def c2x2RD (st : State K) (env : Env K) (sl : Bool) (c : Coord) : Option (Tensor K) := do
  let C ← env.C (st.vts c, (1, 1))
  let T1 ← env.T (st.vts c, (0, 1))
  let T2 ← env.T (st.vts c, (1, 0))
  let A ← st.site c
  if sl then Corner.rdSl C T1 T2 A false else Corner.rdDl C T1 T2 A false

/-- ctm_components.py L736-L784 `c2x2_LD`, `c2x2_LD_t`. -/
def c2x2LD (st : State K) (env : Env K) (sl : Bool) (c : Coord) : Option (Tensor K) := do
  let C ← env.C (st.vts c, (-1, 1))
  let T1 ← env.T (st.vts c, (-1, 0))
  let T2 ← env.T (st.vts c, (0, 1))
  let A ← st.site c
  if sl then Corner.ldSl C T1 T2 A false else Corner.ldDl C T1 T2 A false

/-- ctm_components.py L10-L265: `halves_of_4x4_CTM_MOVE_UP/LEFT/DOWN/RIGHT`. -/
def halves (st : State K) (env : Env K) (sl : Bool) : Dir → Coord → Option (Tensor K × Tensor K)
  | .up, c => do
    let r ← tensordot [1] [0] (← c2x2RU st env sl c) (← c2x2RD st env sl (c.1, c.2 + 1))
    let rt ← tensordot [0] [0] (← c2x2LU st env sl (c.1 - 1, c.2)) (← c2x2LD st env sl (c.1 - 1, c.2 + 1))
    return (r, rt)
  | .left, c => do
    let r ← tensordot [1] [0] (← c2x2LU st env sl c) (← c2x2RU st env sl (c.1 + 1, c.2))
    let rt ← tensordot [1] [1] (← c2x2LD st env sl (c.1, c.2 + 1)) (← c2x2RD st env sl (c.1 + 1, c.2 + 1))
    return (r, rt)
  | .down, c => do
    let r ← tensordot [0] [0] (← c2x2LD st env sl c) (← c2x2LU st env sl (c.1, c.2 - 1))
    let rt ← tensordot [0] [1] (← c2x2RD st env sl (c.1 + 1, c.2)) (← c2x2RU st env sl (c.1 + 1, c.2 - 1))
    return (r, rt)
  | .right, c => do
    let r ← tensordot [1] [1] (← c2x2RD st env sl c) (← c2x2LD st env sl (c.1 - 1, c.2))
    let rt ← tensordot [0] [1] (← c2x2RU st env sl (c.1, c.2 - 1)) (← c2x2LU st env sl (c.1 - 1, c.2 - 1))
    return (r, rt)

/-- ctm_projectors.py L115-L133: the matrices of `ctm_get_projectors_4x2`. -/
def halves2 (st : State K) (env : Env K) (sl : Bool) : Dir → Coord → Option (Tensor K × Tensor K)
  | .up, c => do
    let r ← c2x2RU st env sl c
    let rt ← permute [1, 0] (← c2x2LU st env sl (c.1 - 1, c.2))
    return (r, rt)
  | .left, c => do
    let r ← c2x2LU st env sl c
    let rt ← c2x2LD st env sl (c.1, c.2 + 1)
    return (r, rt)
  | .down, c => do
    let r ← permute [1, 0] (← c2x2LD st env sl c)
    let rt ← permute [1, 0] (← c2x2RD st env sl (c.1 + 1, c.2))
    return (r, rt)
  | .right, c => do
    let r ← c2x2RD st env sl c
    let rt ← permute [1, 0] (← c2x2RU st env sl (c.1, c.2 - 1))
    return (r, rt)

/-- ctm_projectors.py L263-L265: `nz_count` and `S_nz`. Outside its use with a sorted spectrum, 0/0 is `NaN > reltol`, false;
here it is 0. -/
noncomputable def nonzero (reltol : ℝ) (S : List ℝ) : List ℝ :=
  open Classical in S.filter (fun s => decide (s / S.headD 0 > reltol))

/-- ctm_projectors.py L266-L267: `S_sqrt`: reciprocal roots of the kept values, then zeros. -/
noncomputable def recipRoots (reltol : ℝ) (S : List ℝ) : List ℝ :=
  (nonzero reltol S).map (fun s => 1 / Real.sqrt s) ++ List.replicate (S.length - (nonzero reltol S).length) 0

/-- `A[:,:n]`. -/
def firstCols (n : Nat) (A : Tensor K) : Option (Tensor K) :=
  match A.shape with
  | [m, k] => some ⟨[m, min n k], A.val⟩
  | _ => none

/-- `A * s[None,:]`: column `j` times `s[j]`. -/
def scaleCols (s : List ℝ) (A : Tensor K) : Option (Tensor K) :=
  match A.shape with
  | [m, k] => if s.length = k then some ⟨[m, k], fun idx => A.val idx * ((s.getD (idx.getD 1 0) 0 : ℝ) : K)⟩ else none
  | _ => none

/-- ctm_projectors.py L142-L293 `ctm_get_projectors_from_matrices`. -/
noncomputable def projectorsFrom (args : Args) (svd : Tensor K → Nat → Svd K) (R Rt : Tensor K) (chi : Nat) :
    Option (Tensor K × Tensor K) :=
  if R.shape = Rt.shape ∧ R.shape.length = 2 then do
    let M ← tensordot [1] [0] (← permute [1, 0] R) Rt
    let d := svd (canon M) chi
    if d.S = [] then none
    else
      let n := if args.full then d.S.length else (nonzero args.reltol d.S).length
      let s := (recipRoots args.reltol d.S).take n
      let p ← scaleCols s (← tensordot [1] [0] R (← firstCols n d.U).conj)
      let pt ← scaleCols s (← tensordot [1] [0] Rt (← firstCols n d.V))
      return (p, pt)
  else none

/-- ctmrg.py L199-L204, ctm_projectors.py L50-L60, L114-L133: the matrices of the configured method. -/
def mats (args : Args) (st : State K) (env : Env K) (d : Dir) (c : Coord) : Option (Tensor K × Tensor K) :=
  if args.m4x4 then halves st env (!args.dl) d c else halves2 st env (!args.dl) d c

/-- ctm_projectors.py L14-L63, L65-L136 `ctm_get_projectors_4x4/4x2`. -/
noncomputable def projectors (args : Args) (svd : Tensor K → Nat → Svd K) (st : State K) (env : Env K) (d : Dir) (c : Coord) :
    Option (Tensor K × Tensor K) := do
  let (R, Rt) ← mats args st env d c
  let (p, pt) ← projectorsFrom args svd R Rt env.chi
  return (canon p, canon pt)

/-- `view(P, (a, b, -1))`. -/
def view3 (a b : Nat) (P : Tensor K) : Option (Tensor K) :=
  if 0 < a * b ∧ P.shape.prod % (a * b) = 0 then view [a, b, P.shape.prod / (a * b)] P else none

/-- `state.site(c).size(i+mode)**(mode+1)` with `mode = not ctm_force_dl` (e.g. ctmrg.py L332). -/
def siteSize (st : State K) (dl : Bool) (c : Coord) (i : Nat) : Option Nat := do
  let A ← st.site c
  return if dl then A.size i else A.size (i + 1) ^ 2

/-- A dictionary of projectors. -/
abbrev Proj (K : Type) := Coord → Option (Tensor K × Tensor K)

/-- ctmrg.py L324-L341 and L343-L436 `absorb_truncate_CTM_MOVE_UP`. -/
def absorbUp (st : State K) (env : Env K) (dl : Bool) (P : Proj K) (c : Coord) : Option (Tensor K × Tensor K × Tensor K) := do
  let l := st.vts (c.1 - 1, c.2)
  let r := st.vts (c.1 + 1, c.2)
  let C1 ← env.C (c, (1, -1))
  let T1 ← env.T (c, (1, 0))
  let T ← env.T (c, (0, -1))
  let T2 ← env.T (c, (-1, 0))
  let C2 ← env.C (c, (-1, -1))
  let A ← st.site c
  let P2 ← view3 (C2.size 1) (← siteSize st dl l 3) (← P c).1
  let Pt2 ← view3 (T.size 0) (← siteSize st dl c 1) (← P c).2
  let P1 ← view3 (T.size 2) (← siteSize st dl c 3) (← P r).1
  let Pt1 ← view3 (C1.size 0) (← siteSize st dl r 1) (← P r).2
  let n1 ← Absorb.upC1 C1 T1 Pt1
  let n2 ← Absorb.upC2 C2 T2 P2
  let nT ← if dl then Absorb.upTdl T A Pt2 P1 else Absorb.upTsl T A Pt2 P1
  return (n1, n2, nT)

/-- ctmrg.py L440-L457 and L459-L563 `absorb_truncate_CTM_MOVE_LEFT`. -/
def absorbLeft (st : State K) (env : Env K) (dl : Bool) (P : Proj K) (c : Coord) : Option (Tensor K × Tensor K × Tensor K) := do
  let u := st.vts (c.1, c.2 - 1)
  let d := st.vts (c.1, c.2 + 1)
  let C1 ← env.C (c, (-1, -1))
  let T1 ← env.T (c, (0, -1))
  let T ← env.T (c, (-1, 0))
  let T2 ← env.T (c, (0, 1))
  let C2 ← env.C (c, (-1, 1))
  let A ← st.site c
  let P2 ← view3 (C2.size 0) (← siteSize st dl d 0) (← P c).1
  let Pt2 ← view3 (T.size 1) (← siteSize st dl c 2) (← P c).2
  let P1 ← view3 (T.size 0) (← siteSize st dl c 0) (← P u).1
  let Pt1 ← view3 (C1.size 0) (← siteSize st dl u 2) (← P u).2
  let n1 ← Absorb.leftC1 C1 T1 Pt1
  let n2 ← Absorb.leftC2 C2 T2 P2
  let nT ← if dl then Absorb.leftTdl T A Pt2 P1 else Absorb.leftTsl T A Pt2 P1
  return (n1, n2, nT)

/-- ctmrg.py L566-L583 and L585-L681 `absorb_truncate_CTM_MOVE_DOWN`. -/
def absorbDown (st : State K) (env : Env K) (dl : Bool) (P : Proj K) (c : Coord) : Option (Tensor K × Tensor K × Tensor K) := do
  let r := st.vts (c.1 + 1, c.2)
  let l := st.vts (c.1 - 1, c.2)
  let C1 ← env.C (c, (-1, 1))
  let T1 ← env.T (c, (-1, 0))
  let T ← env.T (c, (0, 1))
  let T2 ← env.T (c, (1, 0))
  let C2 ← env.C (c, (1, 1))
  let A ← st.site c
  let P2 ← view3 (C2.size 1) (← siteSize st dl r 1) (← P c).1
  let Pt2 ← view3 (T.size 2) (← siteSize st dl c 3) (← P c).2
  let P1 ← view3 (T.size 1) (← siteSize st dl c 1) (← P l).1
  let Pt1 ← view3 (C1.size 1) (← siteSize st dl l 3) (← P l).2
  let n1 ← Absorb.downC1 C1 T1 Pt1
  let n2 ← Absorb.downC2 C2 T2 P2
  let nT ← if dl then Absorb.downTdl T A Pt2 P1 else Absorb.downTsl T A Pt2 P1
  return (n1, n2, nT)

/-- ctmrg.py L683-L699 and L701-L804 `absorb_truncate_CTM_MOVE_RIGHT`. -/
def absorbRight (st : State K) (env : Env K) (dl : Bool) (P : Proj K) (c : Coord) : Option (Tensor K × Tensor K × Tensor K) := do
  let d := st.vts (c.1, c.2 + 1)
  let u := st.vts (c.1, c.2 - 1)
  let C1 ← env.C (c, (1, 1))
  let T1 ← env.T (c, (0, 1))
  let T ← env.T (c, (1, 0))
  let T2 ← env.T (c, (0, -1))
  let C2 ← env.C (c, (1, -1))
  let A ← st.site c
  let P2 ← view3 (C2.size 1) (← siteSize st dl u 2) (← P c).1
  let Pt2 ← view3 (T.size 0) (← siteSize st dl c 0) (← P c).2
  let P1 ← view3 (T.size 2) (← siteSize st dl c 2) (← P d).1
  let Pt1 ← view3 (C1.size 0) (← siteSize st dl d 0) (← P d).2
  let n1 ← Absorb.rightC1 C1 T1 Pt1
  let n2 ← Absorb.rightC2 C2 T2 P2
  let nT ← if dl then Absorb.rightTdl T A Pt2 P1 else Absorb.rightTsl T A Pt2 P1
  return (n1, n2, nT)

/-- ctmrg.py L264-L274: choice of the absorption. -/
def absorb (st : State K) (env : Env K) (dl : Bool) (P : Proj K) : Dir → Coord → Option (Tensor K × Tensor K × Tensor K)
  | .up => absorbUp st env dl P
  | .left => absorbLeft st env dl P
  | .down => absorbDown st env dl P
  | .right => absorbRight st env dl P

/-- `torch.linalg.vector_norm` with `ord=2` or `inf`. -/
noncomputable def vecNorm (inf : Bool) (A : Tensor K) : ℝ :=
  let xs := (indices A.shape).map (fun i => ‖A.val i‖)
  if inf then xs.foldr max 0 else Real.sqrt ((xs.map (· ^ 2)).sum)

/-- ctmrg.py L207-L230 `move_normalize_c`, one tensor. -/
noncomputable def normalize (inf : Bool) (A : Tensor K) : Except Err (Tensor K) :=
  if vecNorm inf A = 0 then .error .nan
  else .ok (canon ⟨A.shape, fun idx => A.val idx / ((vecNorm inf A : ℝ) : K)⟩)

/-- The keys of the new corners relative to the site, ctmrg.py L301-L311 `rel_CandT_vecs`. -/
def Dir.c1 : Dir → Coord
  | .up => (1, -1)
  | .left => (-1, -1)
  | .down => (-1, 1)
  | .right => (1, 1)

def Dir.c2 : Dir → Coord
  | .up => (-1, -1)
  | .left => (-1, 1)
  | .down => (1, 1)
  | .right => (1, -1)

/-- Dictionary with the given entries, the last one wins. -/
def ofList {α : Type} (l : List (Coord × α)) (c : Coord) : Option α := (l.reverse.find? (fun p => p.1 = c)).map Prod.snd

/-- ctmrg.py L249-L256: the projectors of one site. -/
noncomputable def projStep (args : Args) (svd : Tensor K → Nat → Svd K) (d : Dir) (st : State K) (env : Env K) (c : Coord) :
    Except Err (Coord × Tensor K × Tensor K) := do
  let p ← lift (projectors args svd st env d c)
  return (c, p)

/-- ctmrg.py L263-L275: absorption and normalisation for one site. -/
noncomputable def siteStep (args : Args) (d : Dir) (st : State K) (env : Env K) (P : Proj K) (c : Coord) :
    Except Err (Coord × Tensor K × Tensor K × Tensor K) := do
  let (a, b, t) ← lift (absorb st env args.dl P d c)
  let a ← normalize args.inf a
  let b ← normalize args.inf b
  let t ← normalize args.inf t
  return (c, a, b, t)

/-- ctmrg.py L233-L284 `ctm_MOVE_c`: projectors of all sites from the old environment, then absorption for all sites. -/
noncomputable def newTensors (args : Args) (svd : Tensor K → Nat → Svd K) (d : Dir) (st : State K) (env : Env K) :
    Except Err (List (Coord × Tensor K × Tensor K × Tensor K)) := do
  let Ps ← st.keys.mapM (projStep args svd d st env)
  st.keys.mapM (siteStep args d st env (ofList Ps))

/-- ctmrg.py L313-L319: assignment of the tensors of one site. -/
def assign (st : State K) (d : Dir) (env : Env K) (n : Coord × Tensor K × Tensor K × Tensor K) : Env K :=
  let s := st.vts (n.1.1 - d.vec.1, n.1.2 - d.vec.2)
  { env with
    C := Function.update (Function.update env.C (s, d.c1) (some n.2.1)) (s, d.c2) (some n.2.2.1)
    T := Function.update env.T (s, d.vec) (some n.2.2.2) }

/-- ctmrg.py L179-L319 `ctm_MOVE`. -/
noncomputable def ctmMove (args : Args) (svd : Tensor K → Nat → Svd K) (d : Dir) (st : State K) (env : Env K) : Except Err (Env K) := do
  let ns ← newTensors args svd d st env
  return ns.foldl (assign st d) env

/-- ctmrg.py L49-L61: the double-layer state used with `ctm_force_dl`. -/
def State.dl (st : State K) : State K := { st with sites := fun c => (st.sites c).bind Corner.doubleLayer }

end Verif.Ctm
