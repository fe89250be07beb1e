import Verif.Energy.C4vModel
/-
Model of /repo/models/j1j2lambda.py: the operators of the constructor of `J1J2LAMBDA_C4V_BIPARTITE` (L64-L122) and `energy_1x1` (L132-L155).
The class has the couplings of `J1J2` without the uniform field, so `hUni` of the record is not read. The dtype is complex, the couplings are real.
`eval_obs` and the correlation functions are not modelled.
-/
namespace Verif.Energy
open Tensor Ctm

/-- j1j2lambda.py L92: `einsum('ia,jb,kc,ld->ijklabcd', SZ, -SZ, -SZ, SZ)`. -/
noncomputable def szFour : Option (Tensor ℂ) :=
  einsum [(opT (Su2.SZ 2), [0, 4]), (opT (-Su2.SZ 2), [1, 5]), (opT (-Su2.SZ 2), [2, 6]), (opT (Su2.SZ 2), [3, 7])] [0, 1, 2, 3, 4, 5, 6, 7]

/-- j1j2lambda.py L85-L92: `hp` before the rotation. -/
noncomputable def lambdaHp (m : J1J2) : Option (Tensor ℂ) := do
  let nn ← pairOp (ssT (m.deltaZz, 1, 1))
  let ss ← pairOp (ssT (1, 1, 1))
  let nn1 ← permute [0, 2, 1, 3, 4, 6, 5, 7] nn
  let nn2 ← permute [2, 3, 0, 1, 6, 7, 4, 5] nn
  let nn3 ← permute [3, 1, 2, 0, 7, 5, 6, 4] nn
  let ss0 ← permute [0, 3, 2, 1, 4, 7, 6, 5] ss
  let ss1 ← permute [2, 1, 0, 3, 6, 5, 4, 7] ss
  let z ← szFour
  let j : ℂ := 1 / 2 * m.j1
  return comb [(j, nn), (j, nn1), (j, nn2), (j, nn3), (m.j2, ss0), (m.j2, ss1), (-(1 / 4 * m.hzStag), z)]

/-- j1j2lambda.py L132-L155 `energy_1x1`: the plaquette density matrix is not made positive, `hp + hp_chiral` (L93-L94, L118-L122) is contracted at once.
The construction of `chiral_term` (L98-L118) is that of j1j2.py. -/
noncomputable def lambdaEnergy (eigh : Tensor ℂ → List ℝ × Tensor ℂ) (m : J1J2) (a : Tensor ℂ) (env : C4v.Env ℂ) : Except Err ℝ := do
  let r ← C4v.rdm2x2 eigh false a env
  let hp ← lift (lambdaHp m)
  let hp ← lift (rotBC hp)
  let t ← lift chiral
  let t ← lift (rotBC t)
  let e ← lift (full r (comb [(1, hp), ((m.lmbd : ℂ), t)]))
  let n ← c4vThird eigh false m a env
  return (e + n).re

end Verif.Energy
