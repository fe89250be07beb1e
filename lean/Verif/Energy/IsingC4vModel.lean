import Verif.Energy.C4vModel
/-
Model of /repo/models/ising.py class `ISING_C4V` (L156-L330): `get_h` (L205-L219, the operators of class `ISING`, see `isingHp`), `energy_1x1_nn` (L229-L253),
`energy_1x1_plaqette` (L255-L283). The dtype is complex; nothing is cast to real. `eval_obs` and `eval_corrf_SS` are not modelled.
-/
namespace Verif.Energy
open Tensor Ctm

/-- ising.py L209: `4*einsum('ij,ab->iajb', SZ, SZ)`. -/
noncomputable def isingZz : Option (Tensor ℂ) := do
  let x ← kron (opT (Su2.SZ 2)) (opT (Su2.SZ 2))
  return comb4 [(4, x)]

/-- ising.py L250: `einsum('ijaj,ia', rdm, op)`. -/
def firstSite (r h : Tensor ℂ) : Option ℂ := do
  let x ← einsum [(r, [0, 1, 2, 1]), (h, [0, 2])] []
  return x.val []

open Classical in
/-- ising.py L229-L253 `energy_1x1_nn`, with the assertion L247. -/
noncomputable def isingNn (eigh : Tensor ℂ → List ℝ × Tensor ℂ) (hx q : ℝ) (a : Tensor ℂ) (env : C4v.Env ℂ) : Except Err ℂ :=
  if q = 0 then do
    let r ← C4v.rdm2x1 eigh true false a env
    let x ← lift (firstSite r (opT (Su2.SP 2 + Su2.SM 2)))
    let h ← lift isingZz
    let z ← lift (full4 r h)
    return -2 * z - hx * x
  else .error .raise

/-- ising.py L255-L283 `energy_1x1_plaqette`. -/
noncomputable def isingPlaquette (eigh : Tensor ℂ → List ℝ × Tensor ℂ) (hx q : ℝ) (a : Tensor ℂ) (env : C4v.Env ℂ) : Except Err ℂ := do
  let r ← C4v.rdm2x2 eigh false a env
  let h ← lift (isingHp hx q)
  let e ← lift (full r h)
  return e

end Verif.Energy
