import Verif.Energy.Model
import Verif.C4v.RdmModel
import Verif.C4v.CorrfModel
/-
Model of the energies of one-site C4v states, /repo/models/j1j2.py: the two-site operators of the constructor of `J1J2` (L105-L117) and
the class `J1J2_C4V_BIPARTITE` (`energy_1x1` L591-L640, `energy_1x1_lowmem` L642-L685). The dtype is complex. Couplings are
real. `a` is the site tensor. The correlations are in `CorrModel`. `energy_1x1_tiled`, `eval_obs_tiled` and the dimer correlations are not modelled.
-/
namespace Verif.Energy
open Tensor Ctm

/-- A linear combination of tensors on two sites. -/
def comb4 (l : List (ℂ × Tensor ℂ)) : Tensor ℂ := ⟨[2, 2, 2, 2], fun idx => (l.map (fun p => p.1 * p.2.val idx)).sum⟩

/-- L103, L108-L111: `einsum('ij,ab->iajb', A, B)`. -/
def kron (A B : Tensor ℂ) : Option (Tensor ℂ) := einsum [(A, [0, 2]), (B, [1, 3])] [0, 1, 2, 3]

/-- L114-L117: `einsum('ki,kjcb,ca->ijab', rot, O, rot)`. -/
def rotFirst (O : Tensor ℂ) : Option (Tensor ℂ) :=
  let r := opT (Su2.rotOp 2)
  einsum [(r, [10, 0]), (O, [10, 1, 11, 3]), (r, [11, 2])] [0, 1, 2, 3]

/-- L108-L109 `hz_2x1_nn`. -/
noncomputable def hz2x1 : Option (Tensor ℂ) := do
  let x ← kron (opT (Su2.SZ 2)) (opT 1)
  let y ← kron (opT 1) (opT (-Su2.SZ 2))
  return comb4 [(1, x), (1, y)]

/-- L110-L111 `huni_2x1_nn`. -/
noncomputable def huni2x1 (m : J1J2) : Option (Tensor ℂ) := do
  let x ← kron (huni1x1 m) (opT 1)
  let y ← kron (opT 1) (huni1x1 m)
  return comb4 [(1, x), (1, y)]

/-- `einsum('ijab,ijab', rdm, op)`. -/
def full4 (r h : Tensor ℂ) : Option ℂ := do
  let x ← einsum [(r, [0, 1, 2, 3]), (h, [0, 1, 2, 3])] []
  return x.val []

open Classical in
/-- L633-L637 and L679-L683: `if abs(j3)>0`, two third-neighbour bonds per site. -/
noncomputable def c4vThird (eigh : Tensor ℂ → List ℝ × Tensor ℂ) (sl : Bool) (m : J1J2) (a : Tensor ℂ) (env : C4v.Env ℂ) : Except Err ℂ :=
  if m.j3 = 0 then .ok 0 else do
    let r ← C4v.rdm3x1 eigh sl true a env
    let x ← lift (full4 r (ssT (1, 1, 1)))
    return 2 * m.j3 * x

/-- L591-L640 `energy_1x1`. -/
noncomputable def energy1x1 (eigh : Tensor ℂ → List ℝ × Tensor ℂ) (m : J1J2) (a : Tensor ℂ) (env : C4v.Env ℂ) : Except Err ℝ := do
  let r ← C4v.rdm2x2 eigh true a env
  let hp ← lift (getHp m (0, 0))
  let h ← lift (rotBC hp)
  let e ← lift (full r h)
  let e' ← chiralTermRot m r
  let n ← c4vThird eigh false m a env
  return (e + e' + n).re

open Classical in
/-- L671-L672: `if abs(h_uni.norm())>0`. -/
noncomputable def lowUniform (m : J1J2) (r : Tensor ℂ) : Except Err ℂ :=
  if m.hUni = 0 then .ok 0 else do
    let h ← lift (huni2x1 m)
    let h ← lift (rotFirst h)
    let x ← lift (full4 r h)
    return 1 / 2 * x

open Classical in
/-- L673-L678: `if abs(j2)>0`. -/
noncomputable def lowDiagonal (eigh : Tensor ℂ → List ℝ × Tensor ℂ) (m : J1J2) (a : Tensor ℂ) (env : C4v.Env ℂ) : Except Err ℂ :=
  if m.j2 = 0 then .ok 0 else do
    let r ← C4v.rdmNNN eigh true true a env
    let x ← lift (full4 r (ssT (1, 1, 1)))
    return 2 * m.j2 * x

open Classical in
/-- L642-L685 `energy_1x1_lowmem`, with the assertion L666. -/
noncomputable def energy1x1Lowmem (eigh : Tensor ℂ → List ℝ × Tensor ℂ) (m : J1J2) (a : Tensor ℂ) (env : C4v.Env ℂ) : Except Err ℝ :=
  if m.lmbd = 0 then do
    let r ← C4v.rdmNN eigh true true a env
    let ss ← lift (rotFirst (ssT (m.deltaZz, 1, 1)))
    let hz ← lift hz2x1
    let hz ← lift (rotFirst hz)
    let x ← lift (full4 r ss)
    let y ← lift (full4 r hz)
    let u ← lowUniform m r
    let d ← lowDiagonal eigh m a env
    let n ← c4vThird eigh true m a env
    return (2 * m.j1 * x - 1 / 2 * m.hzStag * y + u + d + n).re
  else .error .raise

end Verif.Energy
