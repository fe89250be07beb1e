import Verif.Trgl.RingModel
import Verif.Rdm.ManualModel
/-
Model of the terms of /repo/models/spin_triangular.py with the interaction on rhombi without index unrolling: `eval_j1j2j4jX_per_site_legacy` (L265-L349, `compressed <= 0`, `unroll` the empty
dictionary), `energy_per_site` (L505-L616) for `unroll=False`, the default.
-/
namespace Verif.Trgl
open Tensor Ctm Rdm Models

/-- L265-L349 `eval_j1j2j4jX_per_site_legacy` with `unroll={}`: L280-L281 and L313-L314 instead of L283-L292 and L316-L323. -/
noncomputable def ringPerSiteManual (eigh : Tensor ℂ → List ℝ × Tensor ℂ) (p : Nat) (o : RingOps) (st : State ℂ) (env : Env ℂ) (R Rinv : Su2.Op p) (c : Coord) : Except Err Terms := do
  let r ← rdm23Manual eigh false st env c
  let a ← lift (slanted p o r R (R * R * R) (R * R))
  let s ← rdm32Manual eigh false st env c
  let b ← lift (slanted p o s (R * R) (R * R * R) R)
  let t ← rdm2x2 eigh false st env c [0, 1, 2, 3]
  let t ← lift (permute [0, 1, 3, 2, 4, 5, 7, 6] t)
  let d ← lift (upright p o t R Rinv)
  return ⟨(a.nn + b.nn + d.nn) / 4, a.nnn + b.nnn + d.nnn, (a.chi + b.chi + d.chi) / 3, a.p + b.p + d.p⟩

/-- L568-L579: the loop over the cell. -/
noncomputable def cellRingManual (eigh : Tensor ℂ → List ℝ × Tensor ℂ) (p : Nat) (o : RingOps) (R Rinv : Su2.Op p) (st : State ℂ) (env : Env ℂ) : Except Err Terms :=
  st.keys.foldlM (fun e c => do
    let z ← ringPerSiteManual eigh p o st env R Rinv c
    return ⟨e.nn + z.nn, e.nnn + z.nnn, e.chi + z.chi, e.p + z.p⟩) ⟨0, 0, 0, 0⟩

open Classical in
/-- L505-L616 `energy_per_site` with `unroll=False` (L561-L562, L572: `unroll.get('j4',{})` is the empty dictionary) for all couplings. Without `j4` index unrolling changes no values. -/
noncomputable def energyDefault (eigh : Tensor ℂ → List ℝ × Tensor ℂ) (m : Couplings) (j2 j4 : ℝ) (q : ℝ × ℝ) (st : State ℂ) (env : Env ℂ) : Except Err ℝ :=
  if j4 ≠ 0 ∧ m.diag ≠ 1 then .error .raise
  else if j4 ≠ 0 then do
    let o ← lift (ringOps m.p)
    let e ← cellRingManual eigh m.p o (rotation m.p q.1) (rotation m.p q.1).conjTranspose st env
    if st.keys = [] then .error .raise
    else .ok (((m.j1 : ℂ) * (e.nn + m.diag * 0) + j2 * e.nnn + j4 * e.p + m.jchi * e.chi) / (st.keys.length : ℂ)).re
  else energyJ2 eigh m j2 q st env

end Verif.Trgl
