import Verif.Trgl.Model
import Verif.Energy.ObsModel
import Verif.Rdm.PlaqModel
/-
Model of `eval_obs` of spin_triangular.py, L680-L788. The labels are values of a type. The keys of the dictionary of observables are different, it is replaced by lists.
-/
namespace Verif.Trgl
open Tensor Ctm Rdm Models

/-- L773-L780: the labels. -/
inductive Label
  | avgM | m (c : Coord) | sz (c : Coord) | sp (c : Coord) | sm (c : Coord) | row (c : Coord) | column (c : Coord) | anti (c : Coord) | qx | qy
deriving DecidableEq

/-- L735-L739: the values `sz`, `sp`, `sm`, `m` of a site. -/
noncomputable def siteValues (eigh : Tensor ℂ → List ℝ × Tensor ℂ) (p : Nat) (st : State ℂ) (env : Env ℂ) (c : Coord) : Except Err (ℂ × ℂ × ℂ × ℂ) := do
  let r ← rdm1x1 eigh true false st env c none
  let z ← lift (Energy.traceMul r (opP p (Su2.SZ p)))
  let u ← lift (Energy.traceMul r (opP p (Su2.SP p)))
  let d ← lift (Energy.traceMul r (opP p (Su2.SM p)))
  return (z, u, d, Energy.magnitude z u d)

/-- L744-L771: the values `SS2x1AB`, `SS1x2AC`, `SS2x2_NNN_1n1` of a site. -/
noncomputable def pairValues (eigh : Tensor ℂ → List ℝ × Tensor ℂ) (p : Nat) (R Rinv : Su2.Op p) (st : State ℂ) (env : Env ℂ) (c : Coord) : Except Err (ℝ × ℝ × ℝ) := do
  let v ← rdm1x2 eigh true false st env c
  let h ← rdm2x1 eigh true false st env c
  let d ← rdm1n1 eigh false st env c
  let a ← lift (do full4 h (← rotSecond p (ssP p) R))
  let b ← lift (do full4 v (← rotSecond p (ssP p) Rinv))
  let e ← lift (do full4 d (← rotSecond p (ssP p) (R * R)))
  return (a.re, b.re, e.re)

/-- L680-L783 `eval_obs`: labels and values. Without sites the average raises. -/
noncomputable def evalObs (eigh : Tensor ℂ → List ℝ × Tensor ℂ) (p : Nat) (q : ℝ × ℝ) (st : State ℂ) (env : Env ℂ) : Except Err (List (Label × ℂ)) := do
  let s ← st.keys.mapM (siteValues eigh p st env)
  if st.keys = [] then .error .raise else do
    let t ← st.keys.mapM (pairValues eigh p (rotation p q.1) (rotation p q.1).conjTranspose st env)
    let S := st.keys.zip s
    let T := st.keys.zip t
    return [(.avgM, (s.map fun x => x.2.2.2).sum / (st.keys.length : ℂ))] ++ S.map (fun x => (.m x.1, x.2.2.2.2)) ++
      S.flatMap (fun x => [(.sz x.1, x.2.1), (.sp x.1, x.2.2.1), (.sm x.1, x.2.2.2.1)]) ++ T.map (fun x => (.row x.1, (x.2.1 : ℂ))) ++ T.map (fun x => (.column x.1, (x.2.2.1 : ℂ))) ++
      T.map (fun x => (.anti x.1, (x.2.2.2 : ℂ))) ++ [(.qx, (q.1 : ℂ)), (.qy, (q.2 : ℂ))]

end Verif.Trgl
