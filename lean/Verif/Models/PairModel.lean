import Verif.Energy.ObsModel
/-
Model of the energies of the models with interactions between neighbours, for a spin of any size: /repo/models/hb.py (class `HB`), /repo/models/hb_anisotropy.py (class
`COUPLEDCHAINS`), /repo/models/akltS2.py (class `AKLTS2`) and /repo/models/coupledLadders.py (both classes). The dtype is complex, couplings are real.
-/
namespace Verif.Models
open Tensor Ctm

/-- A matrix of groups/su2.py as a tensor; `p` is the dimension of the spin. -/
def opP (p : Nat) (O : Su2.Op p) : Tensor ℂ :=
  ⟨[p, p], fun idx => if h : idx.getD 0 0 < p ∧ idx.getD 1 0 < p then O ⟨idx.getD 0 0, h.1⟩ ⟨idx.getD 1 0, h.2⟩ else 0⟩

/-- su2.py L94-L110 `SS()`; akltS2.py L41-L42 and coupledLadders.py L72-L73 write the same sum. -/
noncomputable def ssP (p : Nat) : Tensor ℂ :=
  ⟨[p, p, p, p], fun idx => if h : (idx.getD 0 0 < p ∧ idx.getD 1 0 < p) ∧ (idx.getD 2 0 < p ∧ idx.getD 3 0 < p) then
    Su2.SS p (1, 1, 1) ⟨idx.getD 0 0, h.1.1⟩ ⟨idx.getD 1 0, h.1.2⟩ ⟨idx.getD 2 0, h.2.1⟩ ⟨idx.getD 3 0, h.2.2⟩ else 0⟩

/-- `x.view(pd**2, pd**2)` and back. -/
def toMat (p : Nat) (T : Tensor ℂ) : Option (Tensor ℂ) := view [p * p, p * p] T
def toTen (p : Nat) (T : Tensor ℂ) : Option (Tensor ℂ) := view [p, p, p, p] T

/-- `A @ B`. -/
def mm (A B : Tensor ℂ) : Option (Tensor ℂ) := einsum [(A, [0, 1]), (B, [1, 2])] [0, 2]

/-- A linear combination of matrices. -/
def lin (s : List Nat) (l : List (ℂ × Tensor ℂ)) : Tensor ℂ := ⟨s, fun idx => (l.map (fun q => q.1 * q.2.val idx)).sum⟩

/-- hb.py L33-L43 and hb_anisotropy.py L63-L77: `j1*SS + k1*SS@SS`. The factor of the product is written in front of it. -/
noncomputable def h2 (p : Nat) (j k : ℝ) : Option (Tensor ℂ) := do
  let s ← toMat p (ssP p)
  let ss ← mm s s
  toTen p (lin [p * p, p * p] [((j : ℂ), s), ((k : ℂ), ss)])

/-- akltS2.py L37-L47 `get_h`: `(1/14)*(SS + 7/10 SS@SS + 7/45 SS@SS@SS + 1/90 SS@SS@SS@SS)`; products from left to right, their factors in front. -/
noncomputable def akltH : Option (Tensor ℂ) := do
  let s ← toMat 5 (ssP 5)
  let s2 ← mm s s
  let s3 ← mm s2 s
  let s4 ← mm s3 s
  toTen 5 (lin [25, 25] [(1 / 14, s), (1 / 14 * (7 / 10), s2), (1 / 14 * (7 / 45), s3), (1 / 14 * (1 / 90), s4)])

/-- One pass of hb.py L96-L100, hb_anisotropy.py L140-L144, akltS2.py L109-L113: `hx` on `rdm2x1`, `hy` on `rdm1x2`, default arguments of the density matrices. -/
noncomputable def bondStep (eigh : Tensor ℂ → List ℝ × Tensor ℂ) (hx hy : Coord → Tensor ℂ) (st : State ℂ) (env : Env ℂ) (acc : ℂ) (c : Coord) : Except Err ℂ := do
  let r ← Rdm.rdm2x1 eigh true false st env c
  let r' ← Rdm.rdm1x2 eigh true false st env c
  let x ← lift (Energy.full4 r (hx c))
  let y ← lift (Energy.full4 r' (hy c))
  return acc + x + y

/-- The sum over the sites of the cell divided by `len(state.sites.items())`; without sites the division raises. -/
noncomputable def bondEnergy (eigh : Tensor ℂ → List ℝ × Tensor ℂ) (hx hy : Coord → Tensor ℂ) (st : State ℂ) (env : Env ℂ) : Except Err ℂ := do
  let acc ← st.keys.foldlM (bondStep eigh hx hy st env) 0
  if st.keys = [] then .error .raise else .ok (acc / (st.keys.length : ℂ))

/-- hb.py L94-L103 `HB.energy_2x1_1x2`. -/
noncomputable def hbEnergy (eigh : Tensor ℂ → List ℝ × Tensor ℂ) (p : Nat) (j k : ℝ) (st : State ℂ) (env : Env ℂ) : Except Err ℂ := do
  let h ← lift (h2 p j k)
  bondEnergy eigh (fun _ => h) (fun _ => h) st env

/-- hb_anisotropy.py L92-L147 `COUPLEDCHAINS.energy_2x1_1x2`. -/
noncomputable def chainsEnergy (eigh : Tensor ℂ → List ℝ × Tensor ℂ) (p : Nat) (jx jy kx ky : ℝ) (st : State ℂ) (env : Env ℂ) : Except Err ℂ := do
  let hx ← lift (h2 p jx kx)
  let hy ← lift (h2 p jy ky)
  bondEnergy eigh (fun _ => hx) (fun _ => hy) st env

/-- akltS2.py L57-L119 `AKLTS2.energy_2x1_1x2` with `_cast_to_real`. -/
noncomputable def akltEnergy (eigh : Tensor ℂ → List ℝ × Tensor ℂ) (st : State ℂ) (env : Env ℂ) : Except Err ℝ := do
  let h ← lift akltH
  let e ← bondEnergy eigh (fun _ => h) (fun _ => h) st env
  return e.re

/-- coupledLadders.py L17-L25 `StaggeredLocalField`. -/
def staggered (B : ℝ) (c : Coord) : ℝ := B * (if (c.1 + c.2) % 2 = 0 then 1 else -1)

/-- coupledLadders.py L127-L140: one pass of the loop of `COUPLEDLADDERS.energy_2x1_1x2`. `alpha*h2` and `bz(coord)*h1` are scaled tensors. -/
noncomputable def ladderStep (eigh : Tensor ℂ → List ℝ × Tensor ℂ) (alpha bz : ℝ) (h1 : Tensor ℂ) (st : State ℂ) (env : Env ℂ) (acc : ℂ) (c : Coord) : Except Err ℂ := do
  let r ← Rdm.rdm2x1 eigh true false st env c
  let r' ← Rdm.rdm1x2 eigh true false st env c
  let x ← lift (Energy.full4 r (ssP 2))
  let y ← lift (Energy.full4 r' (if c.2 % 2 = 0 then ssP 2 else lin [2, 2, 2, 2] [((alpha : ℂ), ssP 2)]))
  let z ← lift (Energy.full4 r' (lin [2, 2, 2, 2] [((staggered bz c : ℂ), h1)]))
  return acc + x + y + z

/-- coupledLadders.py L85-L146 `COUPLEDLADDERS.energy_2x1_1x2`, with `h1` of L74. -/
noncomputable def ladderEnergy (eigh : Tensor ℂ → List ℝ × Tensor ℂ) (alpha bz : ℝ) (st : State ℂ) (env : Env ℂ) : Except Err ℝ := do
  let h1 ← lift (Energy.kron (opP 2 (Su2.SZ 2)) (opP 2 1))
  let acc ← st.keys.foldlM (ladderStep eigh alpha bz h1 st env) 0
  if st.keys = [] then .error .raise else .ok (acc / (st.keys.length : ℂ)).re

/-- coupledLadders.py L359: `einsum('ki,kjcb,ca->ijab', rot, O, rot)`. -/
def rot1 (p : Nat) (O : Tensor ℂ) : Option (Tensor ℂ) :=
  let r := opP p (Su2.rotOp p)
  einsum [(r, [10, 0]), (O, [10, 1, 11, 3]), (r, [11, 2])] [0, 1, 2, 3]

/-- coupledLadders.py L424: `einsum('ijab,jiba', rdm, op)`. -/
def full4rev (r h : Tensor ℂ) : Option ℂ := do
  let x ← einsum [(r, [0, 1, 2, 3]), (h, [1, 0, 3, 2])] []
  return x.val []

/-- coupledLadders.py L414-L425: one pass of the loop of `COUPLEDLADDERS_D2_BIPARTITE.energy_2x1_1x2`; `h` is `h2_rot`. -/
noncomputable def d2Step (eigh : Tensor ℂ → List ℝ × Tensor ℂ) (alpha : ℝ) (h : Tensor ℂ) (st : State ℂ) (env : Env ℂ) (acc : ℂ) (c : Coord) : Except Err ℂ := do
  let r ← Rdm.rdm2x1 eigh true false st env c
  let r' ← Rdm.rdm1x2 eigh true false st env c
  let x ← lift (Energy.full4 r h)
  let y ← lift (if c.2 % 2 = 0 then Energy.full4 r' h else full4rev r' (lin [2, 2, 2, 2] [((alpha : ℂ), h)]))
  return acc + x + y

/-- coupledLadders.py L370-L431 `COUPLEDLADDERS_D2_BIPARTITE.energy_2x1_1x2`, with `SS_rot` of L359. -/
noncomputable def d2Energy (eigh : Tensor ℂ → List ℝ × Tensor ℂ) (alpha : ℝ) (st : State ℂ) (env : Env ℂ) : Except Err ℝ := do
  let h ← lift (rot1 2 (ssP 2))
  let acc ← st.keys.foldlM (d2Step eigh alpha h st env) 0
  if st.keys = [] then .error .raise else .ok (acc / (st.keys.length : ℂ)).re

end Verif.Models
