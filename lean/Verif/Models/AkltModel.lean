import Verif.Models.PairModel
import Verif.C4v.RdmModel
/-
Model of /repo/models/akltS2.py, class `AKLTS2_C4V_BIPARTITE`: the Hamiltonian and the energy.
-/
namespace Verif.Models
open Tensor Ctm

/-- akltS2.py L203, L207: `einsum('jl,ilak,kb->ijab', rot, O, rot)`. -/
def rot2 (p : Nat) (O : Tensor ℂ) : Option (Tensor ℂ) :=
  let r := opP p (Su2.rotOp p)
  einsum [(r, [1, 10]), (O, [0, 10, 2, 11]), (r, [11, 3])] [0, 1, 2, 3]

/-- akltS2.py L219-L247 `energy_1x1` with `h2_rot` of L193-L209 and `_cast_to_real`; default arguments of the density matrix. -/
noncomputable def akltC4v (eigh : Tensor ℂ → List ℝ × Tensor ℂ) (a : Tensor ℂ) (env : C4v.Env ℂ) : Except Err ℝ := do
  let h ← lift akltH
  let h ← lift (rot2 5 h)
  let r ← C4v.rdm2x1 eigh false false a env
  let e ← lift (Energy.full4 r h)
  return e.re

end Verif.Models
