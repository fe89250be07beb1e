import Verif.Kagome.ObsModel
import Verif.Group.Su3
import Verif.Kagome.Su3Spec
/-
Model of /repo/models/su3_kagome.py. `phys_dim` is 3 (other values do not fit the operators of L79); complex dtype. `_cast_to_real` with its default arguments takes the real
part. Dictionaries are lists of labels and values.
-/
namespace Verif.KagomeRdm
open Tensor Ctm Rdm

/-- `torch.eye(n)`. -/
def eyeT (n : Nat) : Tensor ℂ := ⟨[n, n], fun idx => if idx.getD 0 0 = idx.getD 1 0 then 1 else 0⟩

/-- su3.py L149-L160 `C1` as a tensor. -/
noncomputable def c1T : Tensor ℂ :=
  ⟨[3, 3, 3, 3], fun idx => if h : (idx.getD 0 0 < 3 ∧ idx.getD 1 0 < 3) ∧ (idx.getD 2 0 < 3 ∧ idx.getD 3 0 < 3) then
    Su3.C1 ⟨idx.getD 0 0, h.1.1⟩ ⟨idx.getD 1 0, h.1.2⟩ ⟨idx.getD 2 0, h.2.1⟩ ⟨idx.getD 3 0, h.2.2⟩ else 0⟩

/-- su3.py L162-L185 `C2` as a tensor. -/
noncomputable def c2T : Tensor ℂ :=
  ⟨[3, 3, 3, 3, 3, 3], fun idx => if h : (idx.getD 0 0 < 3 ∧ idx.getD 1 0 < 3 ∧ idx.getD 2 0 < 3) ∧ (idx.getD 3 0 < 3 ∧ idx.getD 4 0 < 3 ∧ idx.getD 5 0 < 3) then
    Su3.C2 ⟨idx.getD 0 0, h.1.1⟩ ⟨idx.getD 1 0, h.1.2.1⟩ ⟨idx.getD 2 0, h.1.2.2⟩ ⟨idx.getD 3 0, h.2.1⟩ ⟨idx.getD 4 0, h.2.2.1⟩ ⟨idx.getD 5 0, h.2.2.2⟩ else 0⟩

/-- L79 `perm2`. -/
noncomputable def perm2 : Option (Tensor ℂ) := do
  let e ← view [3, 3, 3, 3] (eyeT 9)
  return Models.lin [3, 3, 3, 3] [(2, c1T), (1 / 3, e)]

/-- L80: `einsum('ijal,lkbc->ijkabc', perm2, perm2)`. -/
noncomputable def permL : Option (Tensor ℂ) := do
  let P ← perm2
  einsum [(P, [0, 1, 3, 6]), (P, [6, 2, 4, 5])] [0, 1, 2, 3, 4, 5]

/-- L81: `einsum('ijal,klbc->ikjabc', perm2, perm2)`. -/
noncomputable def permR : Option (Tensor ℂ) := do
  let P ← perm2
  einsum [(P, [0, 2, 3, 6]), (P, [1, 6, 4, 5])] [0, 1, 2, 3, 4, 5]

/-- L83, L352: `einsum('ijab,kc->ijkabc', x, idp)`. -/
def on01 (x : Tensor ℂ) : Option (Tensor ℂ) := einsum [(x, [0, 1, 3, 4]), (eyeT 3, [2, 5])] [0, 1, 2, 3, 4, 5]
/-- L84, L356: `einsum('ikac,jb->ijkabc', x, idp)`. -/
def on02 (x : Tensor ℂ) : Option (Tensor ℂ) := einsum [(x, [0, 2, 3, 5]), (eyeT 3, [1, 4])] [0, 1, 2, 3, 4, 5]
/-- L85, L354: `einsum('jkbc,ia->ijkabc', x, idp)`. -/
def on12 (x : Tensor ℂ) : Option (Tensor ℂ) := einsum [(x, [1, 2, 4, 5]), (eyeT 3, [0, 3])] [0, 1, 2, 3, 4, 5]

/-- L83-L86 `perm2_tri`. -/
noncomputable def perm2Tri : Option (Tensor ℂ) := do
  let P ← perm2
  return Models.lin [3, 3, 3, 3, 3, 3] [(1, ← on01 P), (1, ← on02 P), (1, ← on12 P)]

/-- L88-L90 `h_tri`. -/
noncomputable def su3H (m : Su3Couplings) : Option (Tensor ℂ) := do
  return Models.lin [3, 3, 3, 3, 3, 3] [((m.j : ℂ), ← perm2Tri), (m.k + m.h * Complex.I, ← permL), (m.k - m.h * Complex.I, ← permR)]

/-- L147, L192: `1j * (perm3_l - perm3_r)`. -/
noncomputable def su3Chirality : Option (Tensor ℂ) := do
  return Models.lin [3, 3, 3, 3, 3, 3] [(Complex.I, ← permL), (-Complex.I, ← permR)]

/-- L158, L160: `einsum('ijlabc,ijlabc', rdm, o)`. -/
def full6T (r o : Tensor ℂ) : Option ℂ := do
  let x ← einsum [(r, [0, 1, 2, 3, 4, 5]), (o, [0, 1, 2, 3, 4, 5])] []
  return x.val []

/-- L244-L274 `energy_triangles_2x2subsystem`. -/
noncomputable def su3Energies (eigh : Tensor ℂ → List ℝ × Tensor ℂ) (m : Su3Couplings) (st : State ℂ) (env : Env ℂ) : Except Err (ℝ × ℝ) := do
  let h ← lift (su3H m)
  let d ← dnTriangle st env (0, 0) h
  let r ← rdm2x2Kagome eigh false st env (0, 0) [] ['B'] ['A'] ['C']
  let u ← lift (full6 r h)
  return (d.1.re, u.re)

/-- L276-L292 `energy_per_site_2x2subsystem`. -/
noncomputable def su3PerSite (eigh : Tensor ℂ → List ℝ × Tensor ℂ) (m : Su3Couplings) (st : State ℂ) (env : Env ℂ) : Except Err ℝ := do
  let e ← su3Energies eigh m st env
  return (e.1 + e.2) / 3

/-- A real part divided by a real number; zero gives values that are not finite. -/
noncomputable def reRatio (v : ℂ) (n : ℝ) : Except Err ℝ := open Classical in if n = 0 then .error .nan else .ok (v.re / n)

/-- L221-L242 `energy_down_t_1x1subsystem`. -/
noncomputable def su3Dn1x1 (m : Su3Couplings) (st : State ℂ) (env : Env ℂ) : Except Err ℝ := do
  let n ← lift (trace1x1 st env (0, 0) (id3 3))
  let v ← lift (do trace1x1 st env (0, 0) (← su3H m))
  reRatio v n.re

/-- L296, L298: `idp2`. -/
def idp2 : Option (Tensor ℂ) := view [3, 3, 3, 3] (eyeT 9)

/-- L313-L321: the generator on the spin of the label `A`, `B`, `C`: `einsum('ab,ijkl->aijbkl')`, `einsum('ab,ijkl->iajkbl')`, `einsum('ab,ijkl->ijaklb')`. -/
def genOp (J : Su3.Op) : Fin 3 → Option (Tensor ℂ)
  | 0 => do einsum [(Models.opP 3 J, [0, 3]), (← idp2, [1, 2, 4, 5])] [0, 1, 2, 3, 4, 5]
  | 1 => do einsum [(Models.opP 3 J, [1, 4]), (← idp2, [0, 2, 3, 5])] [0, 1, 2, 3, 4, 5]
  | 2 => do einsum [(Models.opP 3 J, [2, 5]), (← idp2, [0, 1, 3, 4])] [0, 1, 2, 3, 4, 5]

/-- L313-L321: the values of the eight generators on one spin. -/
noncomputable def genValues (st : State ℂ) (env : Env ℂ) (n : ℝ) (x : Fin 3) : Except Err (List ℝ) :=
  (List.finRange 8).mapM fun k => do
    let v ← lift (do trace1x1 st env (0, 0) (← genOp (Su3.gellMann k) x))
    reRatio v n

/-- L294-L324 `eval_generators`: the values for `A`, `B`, `C` and their squared lengths. -/
noncomputable def evalGenerators (st : State ℂ) (env : Env ℂ) : Except Err (List (List ℝ) × List ℝ) := do
  let n ← lift (trace1x1 st env (0, 0) (id3 3))
  let g ← [(0 : Fin 3), 1, 2].mapM (genValues st env n.re)
  return (g, g.map fun l => (l.map fun x => x * x).sum)

/-- L125-L169 `eval_obs`: values in the order of the labels. -/
noncomputable def su3Obs (eigh : Tensor ℂ → List ℝ × Tensor ℂ) (st : State ℂ) (env : Env ℂ) : Except Err (List (String × ℝ)) := do
  let x ← lift su3Chirality
  let b ← lift perm2Tri
  let n ← lift (trace1x1 st env (0, 0) (id3 3))
  let cd ← ratio (← lift (trace1x1 st env (0, 0) x)) n
  let bd ← ratio (← lift (trace1x1 st env (0, 0) b)) n
  let r ← rdmUp eigh false st env (0, 0)
  let cu ← lift (full6T r x)
  let bu ← lift (full6T r b)
  let g ← evalGenerators st env
  return [("avg_bonds_dn", bd.re / 3), ("avg_bonds_up", bu.re / 3), ("chirality_dn", cd.re), ("chirality_up", cu.re)] ++ ["m2_A", "m2_B", "m2_C"].zip g.2

/-- L171-L219 `eval_obs_2x2subsystem`. -/
noncomputable def su3Obs2x2 (eigh : Tensor ℂ → List ℝ × Tensor ℂ) (m : Su3Couplings) (st : State ℂ) (env : Env ℂ) : Except Err (List (String × ℝ)) := do
  let x ← lift su3Chirality
  let b ← lift perm2Tri
  let h ← lift (su3H m)
  let cd ← dnTriangle st env (0, 0) x
  let ed ← dnTriangle st env (0, 0) h
  let bd ← dnTriangle st env (0, 0) b
  let r ← rdmUp eigh false st env (0, 0)
  let cu ← lift (full6 r x)
  let eu ← lift (full6 r h)
  let bu ← lift (full6 r b)
  let g ← evalGenerators st env
  return [("e_t_dn", ed.1.re), ("e_t_up", eu.re), ("avg_bonds_dn", bd.1.re / 3), ("avg_bonds_up", bu.re / 3), ("chirality_dn", cd.1.re), ("chirality_up", cu.re)] ++
    ["m2_A", "m2_B", "m2_C"].zip g.2

/-- L94-L123 `energy_1site`: `einsum('ijlabd,lijdab', rdm2x2_ring, h_tri)` with the letters `i j l a b d` as `0 1 2 3 4 5`. -/
noncomputable def su3OneSite (eigh : Tensor ℂ → List ℝ × Tensor ℂ) (m : Su3Couplings) (st : State ℂ) (env : Env ℂ) : Except Err ℝ := do
  let h ← lift (su3H m)
  let i3 ← lift (einsum [(eyeT 3, [0, 3]), (eyeT 3, [1, 4]), (eyeT 3, [2, 5])] [0, 1, 2, 3, 4, 5])
  let n ← lift (trace1x1 st env (0, 0) i3)
  let d ← ratio (← lift (trace1x1 st env (0, 0) h)) n
  let r ← rdm2x2Kagome eigh false st env (0, 0) ['B'] ['C'] [] ['A']
  let u ← lift (einsum [(r, [0, 1, 2, 3, 4, 5]), (h, [2, 0, 1, 5, 3, 4])] [])
  return (d + u.val []).re / (st.keys.length * 3)

/-- L326-L339 `eval_C2`. -/
noncomputable def evalC2 (eigh : Tensor ℂ → List ℝ × Tensor ℂ) (st : State ℂ) (env : Env ℂ) : Except Err (ℂ × ℂ) := do
  let n ← lift (trace1x1 st env (0, 0) (id3 3))
  let d ← ratio (← lift (trace1x1 st env (0, 0) c2T)) n
  let r ← rdm2x2Kagome eigh false st env (0, 0) [] ['B'] ['A'] ['C']
  let u ← lift (full6 r c2T)
  return (d, u)

/-- L360, L363, L366: `einsum('ijab,ijab', rdm, c1)`. -/
def full4T (r o : Tensor ℂ) : Option ℂ := do
  let x ← einsum [(r, [0, 1, 2, 3]), (o, [0, 1, 2, 3])] []
  return x.val []

/-- L341-L372 `eval_C1`. -/
noncomputable def evalC1 (eigh : Tensor ℂ → List ℝ × Tensor ℂ) (st : State ℂ) (env : Env ℂ) : Except Err (List (String × ℂ)) := do
  let n ← lift (trace1x1 st env (0, 0) (id3 3))
  let ab ← ratio (← lift (do trace1x1 st env (0, 0) (← on01 c1T))) n
  let bc ← ratio (← lift (do trace1x1 st env (0, 0) (← on12 c1T))) n
  let ac ← ratio (← lift (do trace1x1 st env (0, 0) (← on02 c1T))) n
  let r1 ← rdm2x2Kagome eigh false st env (0, 0) [] ['B'] ['A'] []
  let ab' ← lift (full4T r1 c1T)
  let r2 ← rdm1x2Kagome eigh false st env (0, 0) ['B'] ['C']
  let bc' ← lift (full4T r2 c1T)
  let r3 ← rdm2x1Kagome eigh false st env (0, 0) ['A'] ['C']
  let ac' ← lift (full4T r3 c1T)
  return [("C1_AB_dn", ab), ("C1_BC_dn", bc), ("C1_AC_dn", ac), ("C1_AB_up", ab'), ("C1_BC_up", bc'), ("C1_AC_up", ac'), ("total_C1_dn", ab + bc + ac), ("total_C1_up", ab' + bc' + ac')]

end Verif.KagomeRdm
