import Verif.Models.PairModel
/-
Model of the energies of the models with interactions between neighbours, evaluated on plaquettes: /repo/models/hb.py and /repo/models/hb_anisotropy.py `energy_2x2_4site`. The dtype is
complex, couplings are real.
-/
namespace Verif.Models
open Tensor Ctm

/-- `torch.eye(pd**2).view(pd,pd,pd,pd)`. -/
def idP (p : Nat) : Option (Tensor ℂ) := view [p, p, p, p] ⟨[p * p, p * p], fun idx => if idx.getD 0 0 = idx.getD 1 0 then 1 else 0⟩

/-- hb.py L45, hb_anisotropy.py L80-L81: `einsum('ijab,klcd->ijklabcd', h, idp)`. -/
def pairOpP (p : Nat) (h : Tensor ℂ) : Option (Tensor ℂ) := do
  let i ← idP p
  einsum [(h, [0, 1, 4, 5]), (i, [2, 3, 6, 7])] [0, 1, 2, 3, 4, 5, 6, 7]

/-- hb.py L50, hb_anisotropy.py L86: the horizontal bonds of the plaquette. -/
def hpH (p : Nat) (h : Tensor ℂ) : Option (Tensor ℂ) := do
  let x ← pairOpP p h
  let y ← permute [2, 3, 0, 1, 6, 7, 4, 5] x
  return lin (List.replicate 8 p) [(1, x), (1, y)]

/-- hb.py L52, hb_anisotropy.py L88: the vertical bonds of the plaquette. -/
def hpV (p : Nat) (h : Tensor ℂ) : Option (Tensor ℂ) := do
  let x ← pairOpP p h
  let y ← permute [0, 2, 1, 3, 4, 6, 5, 7] x
  let z ← permute [2, 0, 3, 1, 6, 4, 7, 5] x
  return lin (List.replicate 8 p) [(1, y), (1, z)]

/-- hb.py L140-L147, hb_anisotropy.py L183-L190: the four plaquettes. -/
noncomputable def cell4 (eigh : Tensor ℂ → List ℝ × Tensor ℂ) (hH hV : Tensor ℂ) (st : State ℂ) (env : Env ℂ) : Except Err ℂ := do
  let r00 ← Rdm.rdm2x2 eigh false st env (0, 0) [0, 1, 2, 3]
  let r10 ← Rdm.rdm2x2 eigh false st env (1, 0) [0, 1, 2, 3]
  let r01 ← Rdm.rdm2x2 eigh false st env (0, 1) [0, 1, 2, 3]
  let r11 ← Rdm.rdm2x2 eigh false st env (1, 1) [0, 1, 2, 3]
  let a ← lift (Energy.full r00 hH)
  let b ← lift (Energy.full r10 hV)
  let c ← lift (Energy.full r01 hV)
  let d ← lift (Energy.full r11 hH)
  return a + b + c + d

/-- hb.py L105-L150 `HB.energy_2x2_4site`; L149 divides by four, L150 returns the sum before the division. -/
noncomputable def hb4 (eigh : Tensor ℂ → List ℝ × Tensor ℂ) (p : Nat) (j k : ℝ) (st : State ℂ) (env : Env ℂ) : Except Err ℂ := do
  let h ← lift (h2 p j k)
  let hH ← lift (hpH p h)
  let hV ← lift (hpV p h)
  cell4 eigh hH hV st env

/-- hb_anisotropy.py L149-L193 `COUPLEDCHAINS.energy_2x2_4site`. -/
noncomputable def chains4 (eigh : Tensor ℂ → List ℝ × Tensor ℂ) (p : Nat) (jx jy kx ky : ℝ) (st : State ℂ) (env : Env ℂ) : Except Err ℂ := do
  let hx ← lift (h2 p jx kx)
  let hy ← lift (h2 p jy ky)
  let hH ← lift (hpH p hx)
  let hV ← lift (hpV p hy)
  let e ← cell4 eigh hH hV st env
  return e / 8

end Verif.Models
