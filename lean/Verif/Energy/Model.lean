import Verif.Rdm.PlaqModel
import Verif.Corrf.Model
import Verif.Group.Su2Model
/-
Model of the energies of /repo/models/j1j2.py (class `J1J2`: the constructor L46-L176, `eval_nnnn_per_site` L27-L44,
`energy_2x2_1site_BP` L189-L225, `energy_per_site` L227-L271; `energy_2x2_2site`, `energy_2x2_4site` and `energy_2x2_8site` only call it) and
/repo/models/ising.py (class `ISING`: `get_h` L61-L75, `energy_1x1` L85-L117). The dtype is complex. Couplings are real.
-/
namespace Verif.Energy
open Tensor Ctm

/-- A matrix of groups/su2.py as a tensor. -/
def opT (O : Su2.Op 2) : Tensor ℂ := ⟨[2, 2], fun idx => O (Fin.ofNat 2 (idx.getD 0 0)) (Fin.ofNat 2 (idx.getD 1 0))⟩

/-- su2.py L94-L110 `SS(xyz)` for spin 1/2, index order `[i,a,j,b]`. -/
noncomputable def ssT (xyz : ℂ × ℂ × ℂ) : Tensor ℂ :=
  ⟨[2, 2, 2, 2], fun idx => Su2.SS 2 xyz (Fin.ofNat 2 (idx.getD 0 0)) (Fin.ofNat 2 (idx.getD 1 0)) (Fin.ofNat 2 (idx.getD 2 0)) (Fin.ofNat 2 (idx.getD 3 0))⟩

/-- su2.py L38-L47 `I_N`: the identity matrix on `2^N` viewed with `2 N` indices. -/
def idT (N : Nat) : Option (Tensor ℂ) := view (List.replicate (2 * N) 2) ⟨[2 ^ N, 2 ^ N], fun idx => if idx.getD 0 0 = idx.getD 1 0 then 1 else 0⟩

/-- j1j2.py L47-L103: the parameters of the model; `hUni` is `[h^z, h^x, h^y]`. -/
structure J1J2 where
  j1 : ℝ
  j2 : ℝ
  j3 : ℝ
  hzStag : ℝ
  deltaZz : ℝ
  lmbd : ℝ
  hUni : Fin 3 → ℝ

/-- The shape of an operator on a plaquette. -/
def eight : List Nat := [2, 2, 2, 2, 2, 2, 2, 2]

/-- A linear combination of tensors on a plaquette; `a*(x+y)` is written `a*x + a*y`. -/
def comb (l : List (ℂ × Tensor ℂ)) : Tensor ℂ := ⟨eight, fun idx => (l.map (fun p => p.1 * p.2.val idx)).sum⟩

/-- j1j2.py L119 and L120: `einsum('ijab,klcd->ijklabcd', O, id2)`. -/
def pairOp (O : Tensor ℂ) : Option (Tensor ℂ) := do
  let id2 ← idT 2
  einsum [(O, [0, 1, 4, 5]), (id2, [2, 3, 6, 7])] [0, 1, 2, 3, 4, 5, 6, 7]

/-- j1j2.py L121 and L122: `einsum('ia,jklbcd->ijklabcd', O, id3)`. -/
def siteOp (O : Tensor ℂ) : Option (Tensor ℂ) := do
  let id3 ← idT 3
  einsum [(O, [0, 4]), (id3, [1, 2, 3, 5, 6, 7])] [0, 1, 2, 3, 4, 5, 6, 7]

/-- j1j2.py L107: `einsum('x,xia->ia', h_uni, S)`. -/
noncomputable def huni1x1 (m : J1J2) : Tensor ℂ := opT (Matrix.of fun i a => ∑ x : Fin 3, (m.hUni x : ℂ) * Su2.Svec 2 x i a)

/-- `(-1)**(coord[0]+coord[1])`. -/
def sgn (c : Coord) : ℂ := if (c.1 + c.2) % 2 = 0 then 1 else -1

/-- j1j2.py L129-L140 `get_hp`. -/
noncomputable def getHp (m : J1J2) (c : Coord) : Option (Tensor ℂ) := do
  let nn ← pairOp (ssT (m.deltaZz, 1, 1))
  let nn1 ← permute [0, 2, 1, 3, 4, 6, 5, 7] nn
  let nn2 ← permute [2, 3, 0, 1, 6, 7, 4, 5] nn
  let nn3 ← permute [3, 1, 2, 0, 7, 5, 6, 4] nn
  let ss ← pairOp (ssT (1, 1, 1))
  let ss0 ← permute [0, 3, 2, 1, 4, 7, 6, 5] ss
  let ss1 ← permute [2, 1, 0, 3, 6, 5, 4, 7] ss
  let hz ← siteOp (opT (Su2.SZ 2))
  let hz1 ← permute [3, 0, 1, 2, 7, 4, 5, 6] hz
  let hz2 ← permute [2, 3, 0, 1, 6, 7, 4, 5] hz
  let hz3 ← permute [1, 2, 3, 0, 5, 6, 7, 4] hz
  let hu ← siteOp (huni1x1 m)
  let hu2 ← permute [2, 3, 0, 1, 6, 7, 4, 5] hu
  let hu1 ← permute [3, 0, 1, 2, 7, 4, 5, 6] hu
  let hu3 ← permute [1, 2, 3, 0, 5, 6, 7, 4] hu
  let j : ℂ := 1 / 2 * m.j1
  let g : ℂ := 1 / 4 * m.hzStag * sgn c
  return comb [(j, nn), (j, nn1), (j, nn2), (j, nn3), (m.j2, ss0), (m.j2, ss1), (-g, hz), (g, hz1), (g, hz2), (-g, hz3),
    (1 / 4, hu), (1 / 4, hu2), (1 / 4, hu1), (1 / 4, hu3)]

/-- j1j2.py L153-L155: the exchange of two spins. -/
def p12 : Option (Tensor ℂ) := view [2, 2, 2, 2] ⟨[4, 4], fun idx => if idx ∈ [[0, 0], [1, 2], [2, 1], [3, 3]] then 1 else 0⟩

/-- j1j2.py L158-L172 `chiral_term`. `P4.view(16,16).t().view(...)` is written as the permutation that exchanges the two halves of the axes. -/
def chiral : Option (Tensor ℂ) := do
  let p ← p12
  let id2 ← idT 2
  let p12II ← einsum [(p, [0, 1, 4, 5]), (id2, [2, 3, 6, 7])] [0, 1, 2, 3, 4, 5, 6, 7]
  let pI12I ← permute [3, 0, 1, 2, 7, 4, 5, 6] p12II
  let pII12 ← permute [2, 3, 0, 1, 6, 7, 4, 5] p12II
  let p4 ← tensordot [4, 5, 6, 7] [0, 1, 2, 3] pI12I p12II
  let p4 ← tensordot [4, 5, 6, 7] [0, 1, 2, 3] pII12 p4
  let p4t ← permute [4, 5, 6, 7, 0, 1, 2, 3] p4
  permute [0, 1, 3, 2, 4, 5, 7, 6] (comb [(Complex.I, p4), (-Complex.I, p4t)])

/-- `einsum('ijklabcd,ijklabcd', rdm, op)`. -/
def full (r h : Tensor ℂ) : Option ℂ := do
  let x ← einsum [(r, [0, 1, 2, 3, 4, 5, 6, 7]), (h, [0, 1, 2, 3, 4, 5, 6, 7])] []
  return x.val []

/-- One call of `corrf_1sO1sO(coord, dir, state, env, op1, lambda r: op2, 2)` and its entry 1. -/
noncomputable def corr2 (st : State ℂ) (env : Env ℂ) (d : Dir) (c : Coord) (o1 o2 : Su2.Op 2) : Except Err ℂ := do
  let l ← Corrf.corrf11 st env d c (opT o1) (fun _ => opT o2) 2
  match l[1]? with
  | some z => .ok z
  | none => .error .raise

/-- j1j2.py L27-L44 `eval_nnnn_per_site`. -/
noncomputable def nnnn (st : State ℂ) (env : Env ℂ) (c : Coord) : Except Err ℂ := do
  let szszX ← corr2 st env .right c (Su2.SZ 2) (Su2.SZ 2)
  let smspX ← corr2 st env .right c (Su2.SM 2) (Su2.SP 2)
  let spsmX ← corr2 st env .right c (Su2.SP 2) (Su2.SM 2)
  let szszY ← corr2 st env .down c (Su2.SZ 2) (Su2.SZ 2)
  let spsmY ← corr2 st env .down c (Su2.SP 2) (Su2.SM 2)
  let smspY ← corr2 st env .down c (Su2.SM 2) (Su2.SP 2)
  return szszX + szszY + 1 / 2 * (spsmX + spsmY + smspX + smspY)

open Classical in
/-- j1j2.py L260-L261: `if abs(lmbd)>0: energy += lmbd*einsum(rdm, chiral_term)`. -/
noncomputable def chiralTerm (m : J1J2) (r : Tensor ℂ) : Except Err ℂ :=
  if m.lmbd = 0 then .ok 0 else do
    let t ← lift chiral
    let x ← lift (full r t)
    return (m.lmbd : ℂ) * x

open Classical in
/-- j1j2.py L262-L263 and L218-L220: `if abs(j3)>0: energy += j3*eval_nnnn_per_site((0,0), ...)`. -/
noncomputable def thirdTerm (m : J1J2) (st : State ℂ) (env : Env ℂ) : Except Err ℂ :=
  if m.j3 = 0 then .ok 0 else do
    let x ← nnnn st env (0, 0)
    return (m.j3 : ℂ) * x

/-- j1j2.py L257-L268: one pass of the loop of `energy_per_site`; the two accumulators. -/
noncomputable def cellStep (eigh : Tensor ℂ → List ℝ × Tensor ℂ) (m : J1J2) (st : State ℂ) (env : Env ℂ) (acc : ℂ × ℂ) (c : Coord) : Except Err (ℂ × ℂ) := do
  let r ← Rdm.rdm2x2 eigh false st env c [0, 1, 2, 3]
  let h ← lift (getHp m c)
  let e ← lift (full r h)
  let e' ← chiralTerm m r
  let n ← thirdTerm m st env
  return (acc.1 + e + e', acc.2 + n)

/-- j1j2.py L227-L271 `energy_per_site`. Without sites the division by `len(state.sites)` raises. -/
noncomputable def energyPerSite (eigh : Tensor ℂ → List ℝ × Tensor ℂ) (m : J1J2) (st : State ℂ) (env : Env ℂ) : Except Err ℝ := do
  let acc ← st.keys.foldlM (cellStep eigh m st env) (0, 0)
  if st.keys = [] then .error .raise else .ok ((acc.1 + acc.2) / (st.keys.length : ℂ)).re

/-- j1j2.py L144-L145 and L173: `einsum('xj,yk,ixylauvd,ub,vc->ijklabcd', rot, rot, O, rot, rot)`. -/
def rotBC (O : Tensor ℂ) : Option (Tensor ℂ) :=
  let r := opT (Su2.rotOp 2)
  einsum [(r, [10, 1]), (r, [11, 2]), (O, [0, 10, 11, 3, 4, 12, 13, 7]), (r, [12, 5]), (r, [13, 6])] [0, 1, 2, 3, 4, 5, 6, 7]

open Classical in
/-- j1j2.py L216-L217: `if abs(lmbd)>0: energy += einsum(rdm, lmbd*chiral_term_rot)`. -/
noncomputable def chiralTermRot (m : J1J2) (r : Tensor ℂ) : Except Err ℂ :=
  if m.lmbd = 0 then .ok 0 else do
    let t ← lift chiral
    let t ← lift (rotBC t)
    lift (full r (comb [((m.lmbd : ℂ), t)]))

open Classical in
/-- j1j2.py L189-L225 `energy_2x2_1site_BP`, with the assertion L211. -/
noncomputable def energy1siteBP (eigh : Tensor ℂ → List ℝ × Tensor ℂ) (m : J1J2) (st : State ℂ) (env : Env ℂ) : Except Err ℝ :=
  if m.hUni 0 = 0 ∧ m.hUni 1 = 0 then do
    let r ← Rdm.rdm2x2 eigh false st env (0, 0) [0, 1, 2, 3]
    let hp ← lift (getHp m (0, 0))
    let h ← lift (rotBC hp)
    let e ← lift (full r h)
    let e' ← chiralTermRot m r
    let n ← thirdTerm m st env
    return (e + e' + n).re
  else .error .raise

/-- ising.py L61-L75 `get_h`: the operator `hp`. `torch.eye(4).view(2,2,2,2)` is `idT 2`. -/
noncomputable def isingHp (hx q : ℝ) : Option (Tensor ℂ) := do
  let id2 ← idT 2
  let szsz : Tensor ℂ := ⟨[2, 2, 2, 2], fun idx => 4 * (Su2.SZ 2 (Fin.ofNat 2 (idx.getD 0 0)) (Fin.ofNat 2 (idx.getD 2 0)) *
    Su2.SZ 2 (Fin.ofNat 2 (idx.getD 1 0)) (Fin.ofNat 2 (idx.getD 3 0)))⟩
  let zz ← einsum [(szsz, [0, 1, 4, 5]), (id2, [2, 3, 6, 7])] [0, 1, 2, 3, 4, 5, 6, 7]
  let zz1 ← permute [0, 2, 1, 3, 4, 6, 5, 7] zz
  let zzzz ← einsum [(szsz, [0, 1, 4, 5]), (szsz, [2, 3, 6, 7])] [0, 1, 2, 3, 4, 5, 6, 7]
  let sx : Tensor ℂ := opT (Su2.SP 2 + Su2.SM 2)
  let i1 : Tensor ℂ := opT 1
  let sx ← einsum [(sx, [0, 4]), (i1, [1, 5]), (i1, [2, 6]), (i1, [3, 7])] [0, 1, 2, 3, 4, 5, 6, 7]
  return comb [(-1, zz), (-1, zz1), (-q, zzzz), (-hx, sx)]

/-- ising.py L85-L117 `energy_1x1`. -/
noncomputable def isingEnergy (eigh : Tensor ℂ → List ℝ × Tensor ℂ) (hx q : ℝ) (st : State ℂ) (env : Env ℂ) : Except Err ℝ := do
  let r ← Rdm.rdm2x2 eigh false st env (0, 0) [0, 1, 2, 3]
  let h ← lift (isingHp hx q)
  let e ← lift (full r h)
  return e.re

end Verif.Energy
