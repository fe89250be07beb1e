import Verif.Energy.CorrModel
/-
Model of the observables of the J1-J2 model, /repo/models/j1j2.py: `J1J2.eval_obs` (L427-L474), `J1J2.eval_obs_1site_BP` (L386-L425) and
`J1J2_C4V_BIPARTITE.eval_obs` (L722-L781). The formatted labels `f"sz{coord}"` are values of a type, the dictionary `obs` is a function from labels
to stored values. The dtype is complex.
-/
namespace Verif.Energy
open Tensor Ctm

/-- The keys of the dictionary `obs`. -/
inductive Label
  | avgM
  | m (c : Coord)
  | sz (c : Coord)
  | sp (c : Coord)
  | sm (c : Coord)
  | ss2x1 (c : Coord)
  | ss1x2 (c : Coord)
  deriving DecidableEq

/-- L450: the dictionary; `none` for a missing key. -/
abbrev Obs (L : Type) := L → Option ℂ

/-- `obs[l]= v`. -/
def Obs.put {L : Type} [DecidableEq L] (o : Obs L) (l : L) (v : ℂ) : Obs L := Function.update o l (some v)

/-- L456: `sqrt(abs(sz**2 + sp*sm))`. -/
noncomputable def magnitude (z p m : ℂ) : ℂ := (Real.sqrt ‖z ^ 2 + p * m‖ : ℝ)

/-- L452-L457: the body of the loop over the sites, `rdm1x1` with its defaults. -/
noncomputable def siteObs (eigh : Tensor ℂ → List ℝ × Tensor ℂ) (st : State ℂ) (env : Env ℂ) (o : Obs Label) (c : Coord) : Except Err (Obs Label) := do
  let r ← Rdm.rdm1x1 eigh true false st env c none
  let z ← lift (traceMul r (opT (Su2.SZ 2)))
  let p ← lift (traceMul r (opT (Su2.SP 2)))
  let m ← lift (traceMul r (opT (Su2.SM 2)))
  let o := ((o.put (.sz c) z).put (.sp c) p).put (.sm c) m
  let o := o.put (.m c) (magnitude z p m)
  let t ← lift (o .avgM)
  return o.put .avgM (t + magnitude z p m)

/-- L460-L466: the body of the second loop; `ss` is `SS` or `SS_rot`. -/
noncomputable def bondObs (eigh : Tensor ℂ → List ℝ × Tensor ℂ) (ss : Tensor ℂ) (st : State ℂ) (env : Env ℂ) (o : Obs Label) (c : Coord) : Except Err (Obs Label) := do
  let r ← Rdm.rdm2x1 eigh true false st env c
  let r' ← Rdm.rdm1x2 eigh true false st env c
  let x ← lift (full4 r ss)
  let y ← lift (full4 r' ss)
  return (o.put (.ss2x1 c) (x.re : ℂ)).put (.ss1x2 c) (y.re : ℂ)

/-- L469-L472: the labels; the product runs over the sites and, for each site, over the operators. -/
def obsLabels (keys : List Coord) : List Label :=
  [.avgM] ++ keys.map .m ++ keys.flatMap (fun c => [.sz c, .sp c, .sm c]) ++ keys.map .ss2x1 ++ keys.map .ss1x2

/-- L458: the division of the average by the number of sites; without sites Python raises. -/
noncomputable def average (n : Nat) (o : Obs Label) : Except Err (Obs Label) :=
  if n = 0 then .error .raise else do
    let t ← lift (o .avgM)
    return o.put .avgM (t / (n : ℂ))

/-- L427-L474 with `ss` in the place of `self.SS`. -/
noncomputable def obsWith (eigh : Tensor ℂ → List ℝ × Tensor ℂ) (ss : Tensor ℂ) (st : State ℂ) (env : Env ℂ) : Except Err (List ℂ × List Label) := do
  let o ← st.keys.foldlM (siteObs eigh st env) (Obs.put (fun _ => none) .avgM 0)
  let o ← average st.keys.length o
  let o ← st.keys.foldlM (bondObs eigh ss st env) o
  let vs ← lift ((obsLabels st.keys).mapM o)
  return (vs, obsLabels st.keys)

/-- L427-L474 `eval_obs`. -/
noncomputable def evalObs (eigh : Tensor ℂ → List ℝ × Tensor ℂ) (st : State ℂ) (env : Env ℂ) : Except Err (List ℂ × List Label) := obsWith eigh (ssT (1, 1, 1)) st env

/-- L386-L425 `eval_obs_1site_BP`, with `SS_rot` of L114. -/
noncomputable def evalObs1siteBP (eigh : Tensor ℂ → List ℝ × Tensor ℂ) (st : State ℂ) (env : Env ℂ) : Except Err (List ℂ × List Label) := do
  let ss ← lift (rotFirst (ssT (1, 1, 1)))
  obsWith eigh ss st env

/-- The labels of the one-site state. -/
inductive Label4
  | m
  | sz
  | sp
  | sm
  | ss2x1
  | ssNnn
  | ss3x1
  | chiralT
  deriving DecidableEq

/-- L769-L770: `einsum('ijaj->ia', rdm2x1)` over its trace. -/
noncomputable def reduceSite (r : Tensor ℂ) : Except Err (Tensor ℂ) := do
  let x ← lift (einsum [(r, [0, 1, 2, 1])] [0, 2])
  let t ← lift (einsum [(x, [0, 0])] [])
  if t.val [] = 0 then .error .nan else return ⟨x.shape, fun idx => x.val idx / t.val []⟩

open Classical in
/-- L748-L751. -/
noncomputable def obsThird (eigh : Tensor ℂ → List ℝ × Tensor ℂ) (m : J1J2) (a : Tensor ℂ) (env : C4v.Env ℂ) (o : Obs Label4) : Except Err (Obs Label4) :=
  if m.j3 = 0 then .ok o else do
    let r ← C4v.rdm3x1 eigh false false a env
    let x ← lift (full4 r (ssT (1, 1, 1)))
    return o.put .ss3x1 x

open Classical in
/-- L753-L756; `chiral_term_rot` carries no coupling. -/
noncomputable def obsChiral (eigh : Tensor ℂ → List ℝ × Tensor ℂ) (m : J1J2) (a : Tensor ℂ) (env : C4v.Env ℂ) (o : Obs Label4) : Except Err (Obs Label4) :=
  if m.lmbd = 0 then .ok o else do
    let r ← C4v.rdm2x2 eigh false a env
    let t ← lift chiral
    let t ← lift (rotBC t)
    let x ← lift (full r t)
    return o.put .chiralT x

open Classical in
/-- L758-L761. -/
noncomputable def obsDiagonal (eigh : Tensor ℂ → List ℝ × Tensor ℂ) (m : J1J2) (a : Tensor ℂ) (env : C4v.Env ℂ) (o : Obs Label4) : Except Err (Obs Label4) :=
  if m.j2 = 0 then .ok o else do
    let r ← C4v.rdmNNN eigh true false a env
    let x ← lift (full4 r (ssT (1, 1, 1)))
    return o.put .ssNnn x

open Classical in
/-- L776-L779. -/
noncomputable def obsLabels4 (m : J1J2) : List Label4 :=
  [.m] ++ [.sz, .sp, .sm] ++ [.ss2x1] ++ (if m.j2 = 0 then [] else [.ssNnn]) ++ (if m.j3 = 0 then [] else [.ss3x1]) ++ (if m.lmbd = 0 then [] else [.chiralT])

/-- L722-L781 `eval_obs` of `J1J2_C4V_BIPARTITE`. -/
noncomputable def evalObsC4v (eigh : Tensor ℂ → List ℝ × Tensor ℂ) (m : J1J2) (a : Tensor ℂ) (env : C4v.Env ℂ) : Except Err (List ℂ × List Label4) := do
  let o ← obsThird eigh m a env (fun _ => none)
  let o ← obsChiral eigh m a env o
  let o ← obsDiagonal eigh m a env o
  let r ← C4v.rdm2x1 eigh true false a env
  let ss ← lift (rotFirst (ssT (1, 1, 1)))
  let x ← lift (full4 r ss)
  let o := o.put .ss2x1 (x.re : ℂ)
  let r ← reduceSite r
  let z ← lift (traceMul r (opT (Su2.SZ 2)))
  let p ← lift (traceMul r (opT (Su2.SP 2)))
  let s ← lift (traceMul r (opT (Su2.SM 2)))
  let o := ((o.put .sz z).put .sp p).put .sm s
  let o := o.put .m (magnitude z p s)
  let vs ← lift ((obsLabels4 m).mapM o)
  return (vs, obsLabels4 m)

end Verif.Energy
