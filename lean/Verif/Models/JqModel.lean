import Verif.Models.PlaqModel
import Verif.Energy.C4vModel
/-
Model of /repo/models/jq.py: the Hamiltonians and energies of `JQ`, `JQ_C4V` and `JQ_C4V_BIPARTITE`. The dtype is complex, couplings are real.
-/
namespace Verif.Models
open Tensor Ctm
open Energy (ssT idT comb comb4 pairOp rotFirst)

/-- jq.py L65, L359, L527: `SS - 0.25*id2`. -/
noncomputable def lessQuarter (o : Tensor ℂ) : Option (Tensor ℂ) := do
  let i ← idT 2
  return comb4 [(1, o), (-(1 / 4), i)]

/-- jq.py L66-L67, L360-L361, L528-L529: `einsum('ijab,klcd->ijklabcd', x, x)` and the same with the two middle sites exchanged. -/
noncomputable def ringOp (x : Tensor ℂ) : Option (Tensor ℂ) := do
  let y ← einsum [(x, [0, 1, 4, 5]), (x, [2, 3, 6, 7])] [0, 1, 2, 3, 4, 5, 6, 7]
  let z ← permute [0, 2, 1, 3, 4, 6, 5, 7] y
  return comb [(1, y), (1, z)]

/-- jq.py L69-L70: the horizontal bonds of the plaquette and the ring. -/
noncomputable def jqH (j q : ℝ) (ss ring : Tensor ℂ) : Option (Tensor ℂ) := do
  let x ← pairOp ss
  let y ← permute [2, 3, 0, 1, 6, 7, 4, 5] x
  return comb [(j, x), (j, y), (-q, ring)]

/-- jq.py L69, L71-L72: the vertical bonds of the plaquette and the ring. -/
noncomputable def jqV (j q : ℝ) (ss ring : Tensor ℂ) : Option (Tensor ℂ) := do
  let x ← pairOp ss
  let y ← permute [0, 2, 1, 3, 4, 6, 5, 7] x
  let z ← permute [2, 0, 3, 1, 6, 4, 7, 5] x
  return comb [(j, y), (j, z), (-q, ring)]

/-- jq.py L362-L370, L530-L538: the upper and the left bond of the plaquette and the ring. -/
noncomputable def jqC (j q : ℝ) (ss ring : Tensor ℂ) : Option (Tensor ℂ) := do
  let x ← pairOp ss
  let y ← permute [0, 2, 1, 3, 4, 6, 5, 7] x
  return comb [(j, x), (j, y), (-q, ring)]

/-- jq.py L83-L139 `JQ.energy_2x2_4site` with the operators of L58-L73. -/
noncomputable def jq4 (eigh : Tensor ℂ → List ℝ × Tensor ℂ) (j q : ℝ) (st : State ℂ) (env : Env ℂ) : Except Err ℝ := do
  let o ← lift (lessQuarter (ssT (1, 1, 1)))
  let ring ← lift (ringOp o)
  let hH ← lift (jqH j q (ssT (1, 1, 1)) ring)
  let hV ← lift (jqV j q (ssT (1, 1, 1)) ring)
  let e ← cell4 eigh hH hV st env
  return (e / 4).re

/-- jq.py L381-L411 `JQ_C4V.energy_1x1` with the operators of L352-L371. -/
noncomputable def jqC4v (eigh : Tensor ℂ → List ℝ × Tensor ℂ) (j q : ℝ) (a : Tensor ℂ) (env : C4v.Env ℂ) : Except Err ℂ := do
  let o ← lift (lessQuarter (ssT (1, 1, 1)))
  let ring ← lift (ringOp o)
  let h ← lift (jqC j q (ssT (1, 1, 1)) ring)
  let r ← C4v.rdm2x2 eigh false a env
  lift (Energy.full r h)

/-- jq.py L549-L581 `JQ_C4V_BIPARTITE.energy_1x1` with the operators of L517-L539. -/
noncomputable def jqBP (eigh : Tensor ℂ → List ℝ × Tensor ℂ) (j q : ℝ) (a : Tensor ℂ) (env : C4v.Env ℂ) : Except Err ℂ := do
  let ss ← lift (rotFirst (ssT (1, 1, 1)))
  let o ← lift (lessQuarter ss)
  let ring ← lift (ringOp o)
  let h ← lift (jqC j q ss ring)
  let r ← C4v.rdm2x2 eigh false a env
  lift (Energy.full r h)

end Verif.Models
