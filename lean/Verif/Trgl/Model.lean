import Verif.Trgl.Spec
import Verif.Models.PairModel
import Verif.Rdm.PlaqModel
import Verif.Kagome.HamModel
/-
Model of /repo/models/spin_triangular.py. Complex dtype; `_cast_to_real` takes the real part. Matrices are multiplied and exponentiated exactly. The options that choose the way of
a contraction (`unroll`, `checkpoint_*`, `force_cpu`) do not change its value.
-/
namespace Verif.Trgl
open Tensor Ctm Rdm Models

/-- L457, L565, L718: `matrix_exp((pi*x) * (SP - SM))`. -/
noncomputable def rotation (p : Nat) (x : ℝ) : Su2.Op p := NormedSpace.exp (((Real.pi * x : ℝ) : ℂ) • (Su2.SP p - Su2.SM p))

/-- `einsum('ijab,abij', x, y)`. -/
def full4 (x y : Tensor ℂ) : Option ℂ := do
  let z ← einsum [(x, [0, 1, 2, 3]), (y, [2, 3, 0, 1])] []
  return z.val []

/-- L26, L37: `einsum('ixay,xj,yb->ijab', op, R, R)`. -/
def rotSecond (p : Nat) (op : Tensor ℂ) (R : Su2.Op p) : Option (Tensor ℂ) := einsum [(op, [0, 4, 2, 5]), (opP p R, [4, 1]), (opP p R, [5, 3])] [0, 1, 2, 3]

/-- L48: `einsum('xjyb,xi,ya->ijab', op, R, R)`. -/
def rotFirst (p : Nat) (op : Tensor ℂ) (R : Su2.Op p) : Option (Tensor ℂ) := einsum [(op, [4, 1, 5, 3]), (opP p R, [4, 0]), (opP p R, [5, 2])] [0, 1, 2, 3]

/-- L14-L51 `eval_nn_per_site`. -/
noncomputable def nnPerSite (eigh : Tensor ℂ → List ℝ × Tensor ℂ) (p : Nat) (st : State ℂ) (env : Env ℂ) (R Rinv : Su2.Op p) (op opd : Tensor ℂ) (c : Coord) : Except Err (ℂ × ℂ) := do
  let h ← rdm2x1 eigh true false st env c
  let e1 ← lift (do full4 (← rotSecond p op R) h)
  let v ← rdm1x2 eigh true false st env c
  let e2 ← lift (do full4 (← rotSecond p op Rinv) v)
  let d ← rdm2x2 eigh false st env c [1, 2]
  let e3 ← lift (do full4 (← rotFirst p opd (R * R)) d)
  return (e1 + e2, e3)

/-- L240-L241, L362-L363: `einsum(rdm, [10,12,4, 11,13,5], R, [0,10], R, [1,11], Rinv, [2,12], Rinv, [3,13], [0,2,4, 1,3,5])`. -/
def rot01 (p : Nat) (r : Tensor ℂ) (R Rinv : Su2.Op p) : Option (Tensor ℂ) :=
  einsum [(r, [10, 12, 4, 11, 13, 5]), (opP p R, [0, 10]), (opP p R, [1, 11]), (opP p Rinv, [2, 12]), (opP p Rinv, [3, 13])] [0, 2, 4, 1, 3, 5]

/-- L254-L255, L371-L372: `einsum(rdm, [0,10,12, 1,11,13], R, [2,10], R, [3,11], Rinv, [4,12], Rinv, [5,13], [0,2,4, 1,3,5])`. -/
def rot12 (p : Nat) (r : Tensor ℂ) (R Rinv : Su2.Op p) : Option (Tensor ℂ) :=
  einsum [(r, [0, 10, 12, 1, 11, 13]), (opP p R, [2, 10]), (opP p R, [3, 11]), (opP p Rinv, [4, 12]), (opP p Rinv, [5, 13])] [0, 2, 4, 1, 3, 5]

/-- L242, L258: `einsum('ijab,nabnij', op, rdm)`. -/
def last2 (op r : Tensor ℂ) : Option ℂ := do return (← einsum [(op, [0, 1, 2, 3]), (r, [4, 2, 3, 4, 0, 1])] []).val []
/-- L243, L257: `einsum('ijab,anbinj', op, rdm)`. -/
def outer2 (op r : Tensor ℂ) : Option ℂ := do return (← einsum [(op, [0, 1, 2, 3]), (r, [2, 4, 3, 0, 4, 1])] []).val []
/-- L244, L256: `einsum('ijab,abnijn', op, rdm)`. -/
def first2 (op r : Tensor ℂ) : Option ℂ := do return (← einsum [(op, [0, 1, 2, 3]), (r, [2, 3, 4, 0, 1, 4])] []).val []
/-- L245, L364: `einsum('ijkabc,abcijk', op, rdm)`. -/
def all3 (op r : Tensor ℂ) : Option ℂ := do return (← einsum [(op, [0, 1, 2, 3, 4, 5]), (r, [3, 4, 5, 0, 1, 2])] []).val []
/-- L259, L373: `einsum('ijkabc,cbakji', op, rdm)`. -/
def all3rev (op r : Tensor ℂ) : Option ℂ := do return (← einsum [(op, [0, 1, 2, 3, 4, 5]), (r, [5, 4, 3, 2, 1, 0])] []).val []

/-- L223-L262 `eval_nn_and_chirality_per_site`. -/
noncomputable def nnChiPerSite (eigh : Tensor ℂ → List ℝ × Tensor ℂ) (p : Nat) (st : State ℂ) (env : Env ℂ) (R Rinv : Su2.Op p) (op opd chi : Tensor ℂ) (c : Coord) :
    Except Err (ℂ × ℂ × ℂ) := do
  let r ← rdm2x2 eigh false st env c [1, 2, 3]
  let r ← lift (rot01 p r R Rinv)
  let a1 ← lift (last2 op r)
  let a2 ← lift (outer2 op r)
  let d1 ← lift (first2 opd r)
  let x1 ← lift (all3 chi r)
  let s ← rdm2x2 eigh false st env c [0, 1, 2]
  let s ← lift (rot12 p s R Rinv)
  let b1 ← lift (first2 op s)
  let b2 ← lift (outer2 op s)
  let d2 ← lift (last2 opd s)
  let x2 ← lift (all3rev chi s)
  return ((a1 + a2 + (b1 + b2)) / 2, (d1 + d2) / 2, x1 + x2)

/-- L351-L375 `eval_obs_chirality`. -/
noncomputable def obsChirality (eigh : Tensor ℂ → List ℝ × Tensor ℂ) (p : Nat) (st : State ℂ) (env : Env ℂ) (R Rinv : Su2.Op p) (chi : Tensor ℂ) (c : Coord) : Except Err (ℂ × ℂ) := do
  let r ← rdm2x2 eigh false st env c [1, 2, 3]
  let r ← lift (rot01 p r R Rinv)
  let x1 ← lift (all3 chi r)
  let s ← rdm2x2 eigh false st env c [0, 1, 2]
  let s ← lift (rot12 p s R Rinv)
  let x2 ← lift (all3rev chi s)
  return (x1, x2)

/-- L378-L424: the couplings; `phys_dim` is `p`. -/
structure Couplings where
  p : Nat
  j1 : ℝ
  jchi : ℝ
  diag : ℝ

/-- L593-L602, one pass of the loop for `jchi != 0`. -/
noncomputable def chiStep (eigh : Tensor ℂ → List ℝ × Tensor ℂ) (p : Nat) (R Rinv : Su2.Op p) (chi : Tensor ℂ) (st : State ℂ) (env : Env ℂ) (e : ℂ × ℂ × ℂ) (c : Coord) :
    Except Err (ℂ × ℂ × ℂ) := do
  let z ← nnChiPerSite eigh p st env R Rinv (ssP p) (ssP p) chi c
  return (e.1 + z.1, e.2.1 + z.2.1, e.2.2 + z.2.2)

/-- L604-L609, one pass of the loop for `jchi = 0`. -/
noncomputable def nnStep (eigh : Tensor ℂ → List ℝ × Tensor ℂ) (p : Nat) (R Rinv : Su2.Op p) (st : State ℂ) (env : Env ℂ) (e : ℂ × ℂ × ℂ) (c : Coord) :
    Except Err (ℂ × ℂ × ℂ) := do
  let z ← nnPerSite eigh p st env R Rinv (ssP p) (ssP p) c
  return (e.1 + z.1, e.2.1 + z.2, e.2.2)

open Classical in
/-- L548-L552, L592-L609: the sums of the energies of the bonds, of the diagonal bonds and of the triangles over the cell. -/
noncomputable def cellNN (eigh : Tensor ℂ → List ℝ × Tensor ℂ) (m : Couplings) (R Rinv : Su2.Op m.p) (st : State ℂ) (env : Env ℂ) : Except Err (ℂ × ℂ × ℂ) := do
  let chi ← lift (KagomeRdm.tripleT m.p)
  if m.jchi ≠ 0 then st.keys.foldlM (chiStep eigh m.p R Rinv chi st env) (0, 0, 0) else st.keys.foldlM (nnStep eigh m.p R Rinv st env) (0, 0, 0)

/-- L505-L616 `energy_per_site` for `j2 = j4 = 0`; `q` is the argument, the pitch vector of the model or that of the state. Without sites the division raises. -/
noncomputable def energyNN (eigh : Tensor ℂ → List ℝ × Tensor ℂ) (m : Couplings) (q : ℝ × ℝ) (st : State ℂ) (env : Env ℂ) : Except Err ℝ := do
  let e ← cellNN eigh m (rotation m.p q.1) (rotation m.p q.1).conjTranspose st env
  if st.keys = [] then .error .raise
  else .ok (((m.j1 : ℂ) * (e.1 + m.diag * e.2.1) + m.jchi * e.2.2) / (st.keys.length : ℂ)).re

end Verif.Trgl
