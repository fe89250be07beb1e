import Verif.Kagome.TriModel
import Verif.Kagome.HamSpec
import Verif.Models.PairModel
/-
Model of /repo/models/spin_half_kagome.py: the operators of the constructor (L50-L120) and the energies of the triangles (L133-L222). Complex dtype.
-/
namespace Verif.KagomeRdm
open Tensor Ctm Rdm

/-- su2.py L94-L110 `SS(xyz)`. -/
noncomputable def ssXyz (p : Nat) (xyz : ℂ × ℂ × ℂ) : Tensor ℂ :=
  ⟨[p, p, p, p], fun idx => if h : (idx.getD 0 0 < p ∧ idx.getD 1 0 < p) ∧ (idx.getD 2 0 < p ∧ idx.getD 3 0 < p) then
    Su2.SS p xyz ⟨idx.getD 0 0, h.1.1⟩ ⟨idx.getD 1 0, h.1.2⟩ ⟨idx.getD 2 0, h.2.1⟩ ⟨idx.getD 3 0, h.2.2⟩ else 0⟩

/-- L72, L77: `einsum('ijkl,ab->ijaklb', x, Id1)`. -/
def pairId (p : Nat) (x : Tensor ℂ) : Option (Tensor ℂ) := einsum [(x, [0, 1, 3, 4]), (Models.opP p 1, [2, 5])] [0, 1, 2, 3, 4, 5]

/-- L73, L78, L82: `x + x.permute(1,2,0, 4,5,3) + x.permute(2,0,1, 5,3,4)`. -/
def threeTurns (p : Nat) (x : Tensor ℂ) : Option (Tensor ℂ) := do
  let y ← permute [1, 2, 0, 4, 5, 3] x
  let z ← permute [2, 0, 1, 5, 3, 4] x
  return Models.lin [p, p, p, p, p, p] [(1, x), (1, y), (1, z)]

/-- L71: `SS_JD`. -/
noncomputable def ssJD (m : Couplings) : Tensor ℂ :=
  open Classical in if m.JD = 0 then Models.lin [m.p, m.p, m.p, m.p] [((m.j1 : ℂ), ssXyz m.p (1, 1, 1))]
  else ssXyz m.p ((m.j1 : ℂ), m.j1 + Complex.I * m.JD, m.j1 - Complex.I * m.JD)

/-- L72 `SSnnId`. -/
noncomputable def ssnnId (m : Couplings) : Option (Tensor ℂ) := pairId m.p (ssJD m)

/-- L81, L111-L113: `einsum('ij,kl,ab->ikajlb', o, Id1, Id1)`. -/
def siteId (p : Nat) (o : Su2.Op p) : Option (Tensor ℂ) := einsum [(Models.opP p o, [0, 3]), (Models.opP p 1, [1, 4]), (Models.opP p 1, [2, 5])] [0, 1, 2, 3, 4, 5]

/-- L87 and su2.py L82-L91: the components z, x, y of the spin in one tensor. -/
noncomputable def svecT (p : Nat) : Tensor ℂ :=
  ⟨[3, p, p], fun idx => if h : idx.getD 0 0 < 3 ∧ idx.getD 1 0 < p ∧ idx.getD 2 0 < p then Su2.Svec p ⟨idx.getD 0 0, h.1⟩ ⟨idx.getD 1 0, h.2.1⟩ ⟨idx.getD 2 0, h.2.2⟩ else 0⟩

/-- L88-L90 `levicivit3`. -/
def levi : Tensor ℂ :=
  ⟨[3, 3, 3], fun idx => if idx = [0, 1, 2] ∨ idx = [1, 2, 0] ∨ idx = [2, 0, 1] then 1 else if idx = [0, 2, 1] ∨ idx = [2, 1, 0] ∨ idx = [1, 0, 2] then -1 else 0⟩

/-- L91: `einsum('abc,bij,ckl,amn->ikmjln', levicivit3, Svec, Svec, Svec)`. -/
noncomputable def tripleT (p : Nat) : Option (Tensor ℂ) :=
  einsum [(levi, [6, 7, 8]), (svecT p, [7, 0, 3]), (svecT p, [8, 1, 4]), (svecT p, [6, 2, 5])] [0, 1, 2, 3, 4, 5]

/-- L93-L105: `P_triangle[i, j, k, j, k, i] = 1`. -/
def permT (p : Nat) : Tensor ℂ :=
  ⟨[p, p, p, p, p, p], fun idx => if idx.getD 3 0 = idx.getD 1 0 ∧ idx.getD 4 0 = idx.getD 2 0 ∧ idx.getD 5 0 = idx.getD 0 0 then 1 else 0⟩

/-- L107: `P_triangle_inv[i, j, k, k, i, j] = 1`. -/
def permInvT (p : Nat) : Tensor ℂ :=
  ⟨[p, p, p, p, p, p], fun idx => if idx.getD 3 0 = idx.getD 2 0 ∧ idx.getD 4 0 = idx.getD 0 0 ∧ idx.getD 5 0 = idx.getD 1 0 then 1 else 0⟩

/-- L70-L109 `h_triangle`. -/
noncomputable def hTriangle (m : Couplings) : Option (Tensor ℂ) := do
  let nn ← threeTurns m.p (← ssnnId m)
  let ss2 ← einsum [(ssXyz m.p (1, 1, 1), [0, 1, 4, 5]), (ssXyz m.p (1, 1, 1), [4, 5, 2, 3])] [0, 1, 2, 3]
  let nn2 ← threeTurns m.p (← pairId m.p ss2)
  let mag ← threeTurns m.p (← siteId m.p (Su2.SZ m.p))
  let chi ← tripleT m.p
  return Models.lin [m.p, m.p, m.p, m.p, m.p, m.p] [(1, nn), ((m.j1sq : ℂ), nn2), ((m.jtrip : ℂ), chi), (m.jperm, permT m.p), (star m.jperm, permInvT m.p), ((m.h : ℂ), mag)]

/-- L133-L155 `energy_triangle_dn`: the real parts of the energies and the norms, by site. -/
noncomputable def energyDn (m : Couplings) (st : State ℂ) (env : Env ℂ) : Except Err (List (Coord × ℝ × ℝ)) := do
  let h ← lift (hTriangle m)
  st.keys.mapM fun c => do
    let q ← dnTriangle st env c h
    return (c, q.1.re, q.2)

/-- L180-L203 `energy_triangle_up`. -/
noncomputable def energyUp (eigh : Tensor ℂ → List ℝ × Tensor ℂ) (m : Couplings) (st : State ℂ) (env : Env ℂ) : Except Err (List (Coord × ℝ × ℂ)) := do
  let h ← lift (hTriangle m)
  st.keys.mapM fun c => do
    let r ← rdmUp eigh false st env c
    let n ← lift (norm6 r)
    let v ← lift (full6 r h)
    return (c, v.re, n)

end Verif.KagomeRdm
