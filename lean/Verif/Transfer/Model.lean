import Verif.Corrf.Model
import Verif.C4v.CorrfModel
import Mathlib.Analysis.Complex.Basic
/-
Model of /repo/ctm/generic/transferops.py and /repo/ctm/one_site_c4v/transferops_c4v.py: spectra of transfer operators and of the boundary
Hamiltonian. scipy's `eigs` and numpy's `argsort` are parameters. Real tensors are complex tensors with vanishing imaginary part. The conversions
between torch and numpy, devices and messages are not modelled. `get_full_EH_spec_Ttensor` (L374-L530) is not modelled: it calls `torch.eig`, which raises in the
version of PyTorch (2) the README asks for.
-/
namespace Verif.Transfer
open Tensor Ctm Corrf

/-- `scipy.sparse.linalg.eigs(LinearOperator((n,n), matvec=f), k, return_eigenvectors=b)`: arguments `b`, `n`, `f`, `k`; the values and, if `b`, the
columns of the matrix of vectors. `none`: it raises. -/
abbrev Eigs := Bool → Nat → (Tensor ℂ → Option (Tensor ℂ)) → Nat → Option (List ℂ × List (Tensor ℂ))

/-- `numpy.argsort`. -/
abbrev Argsort := List ℝ → List Nat

/-- transferops.py L12-L42 `_get_chis` with width 0 (the only value used): the sizes of the environment bonds in front of `coord`. -/
def getChis (st : State ℂ) (env : Env ℂ) (c : Coord) (d : Dir) : Option (Nat × Nat) := do
  let k := st.vts c
  match d with
  | .up =>
    let T1 ← env.T (k, (-1, 0))
    let T2 ← env.T (st.vts k, (1, 0))
    return (T1.size 1, T2.size 2)
  | .down =>
    let T1 ← env.T (k, (-1, 0))
    let T2 ← env.T (st.vts k, (1, 0))
    return (T1.size 0, T2.size 0)
  | .left =>
    let T1 ← env.T (k, (0, -1))
    let T2 ← env.T (st.vts k, (0, 1))
    return (T1.size 2, T2.size 2)
  | .right =>
    let T1 ← env.T (k, (0, -1))
    let T2 ← env.T (st.vts k, (0, 1))
    return (T1.size 0, T2.size 1)

/-- transferops.py L76-L81, L157-L162: the length of the unit cell in direction `d`. -/
def cellLen (st : State ℂ) : Dir → Nat
  | .right | .left => st.lX
  | .down | .up => st.lY

/-- corrf.py L278-L362 `apply_TM_0sO`. L311-L312: right is replaced by left and down by up. -/
def applyTM0 (st : State ℂ) (env : Env ℂ) (d : Dir) (coord : Coord) (edge : Tensor ℂ) : Option (Tensor ℂ) := do
  let c := st.vts coord
  match d with
  | .up | .down =>
    let T1 ← env.T (c, (-1, 0))
    let E ← tensordot [1] [0] T1 edge
    let T2 ← env.T (st.vts (c.1 - 1, c.2), (1, 0))
    tensordot [1, 2] [1, 2] E T2
  | .left | .right =>
    let T1 ← env.T (c, (0, -1))
    let E ← tensordot [2] [0] T1 edge
    let T2 ← env.T (st.vts (c.1, c.2 - 1), (0, 1))
    tensordot [1, 2] [0, 2] E T2

/-- The loops of L96-L98 and L175-L177: `n` applications of a transfer matrix, moving on by `d` after each. -/
def iter (f : Coord → Tensor ℂ → Option (Tensor ℂ)) (d : Dir) : Nat → Coord → Tensor ℂ → Option (Tensor ℂ)
  | 0, _, V => some V
  | n + 1, c, V => do
    let V ← f c V
    iter f d n (shift c d.vec) V

/-- transferops.py L92-L101, `_mv` of `get_Top_w0_spec`. -/
def mv0 (st : State ℂ) (env : Env ℂ) (d : Dir) (c : Coord) (x1 x2 : Nat) (v : Tensor ℂ) : Option (Tensor ℂ) := do
  let V ← view [x1, x2] v
  let V ← iter (applyTM0 st env d) d (cellLen st d) c V
  view [x1 * x2] V

/-- transferops.py L171-L180, `_mv` of `get_Top_spec`. -/
noncomputable def mv1 (st : State ℂ) (env : Env ℂ) (d : Dir) (c : Coord) (x1 ad x2 : Nat) (v : Tensor ℂ) : Option (Tensor ℂ) := do
  let V ← view [x1, ad * ad, x2] v
  let V ← iter (fun c V => applyTM st env d c V none) d (cellLen st d) c V
  view [x1 * ad * ad * x2] V

/-- `vals[inds]` of numpy. -/
def pickAll {α : Type} (l : List α) (inds : List Nat) : Option (List α) := inds.mapM (fun i => l[i]?)

/-- `np.argsort(np.abs(vals))[::-1]`. -/
noncomputable def descending (argsort : Argsort) (vals : List ℂ) : List Nat := (argsort (vals.map (fun v => ‖v‖))).reverse

/-- `vals= (1.0/np.abs(vals[0])) * vals`. Without values it raises, if the first one is zero the result is not a number. -/
noncomputable def normalise : List ℂ → Except Err (List ℂ)
  | [] => .error .raise
  | v :: vs => if ‖v‖ = 0 then .error .nan else .ok ((v :: vs).map (fun w => ((1 / ‖v‖ : ℝ) : ℂ) * w))

/-- `L= zeros((n,2)); L[:,0]= real(vals); L[:,1]= imag(vals)`; raises unless there are `n` values. That one value would be broadcast is not modelled. -/
def columns (n : Nat) (vals : List ℂ) : Except Err (List (ℝ × ℝ)) :=
  if vals.length = n then .ok (vals.map (fun v => (v.re, v.im))) else .error .raise

/-- transferops.py L107-L117, L187-L203 and transferops_c4v.py L51-L68: leading values sorted by modulus and, if `normal`, divided by the largest modulus; the
vectors in the same order. -/
noncomputable def sorted (eigs : Eigs) (argsort : Argsort) (b normal : Bool) (n dim : Nat) (f : Tensor ℂ → Option (Tensor ℂ)) :
    Except Err (List (ℝ × ℝ) × List (Tensor ℂ)) := do
  let (vals, vecs) ← lift (eigs b dim f n)
  let inds := descending argsort vals
  let vals ← lift (pickAll vals inds)
  let vals ← if normal then normalise vals else .ok vals
  let L ← columns n vals
  if b then do
    let vecs ← lift (pickAll vecs inds)
    return (L, vecs)
  else return (L, [])

/-- transferops.py L365-L372, transferops_c4v.py L107-L117, L214-L222: the values in the reverse of the order in which the solver returns them. -/
noncomputable def reversed (eigs : Eigs) (n dim : Nat) (f : Tensor ℂ → Option (Tensor ℂ)) : Except Err (List (ℝ × ℝ)) := do
  let (vals, _) ← lift (eigs false dim f n)
  let vals ← normalise vals.reverse
  columns n vals

/-- transferops.py L44-L120 `get_Top_w0_spec`. -/
noncomputable def topSpec0 (eigs : Eigs) (argsort : Argsort) (n : Nat) (c : Coord) (d : Dir) (st : State ℂ) (env : Env ℂ) : Except Err (List (ℝ × ℝ)) := do
  let (x1, x2) ← lift (getChis st env c d)
  let r ← sorted eigs argsort false true n (x1 * x2) (mv0 st env d c x1 x2)
  return r.1

/-- L153 `state.site(coord).size(dir_to_ind[(-direction[0],-direction[1])])`: the axis of the bond the strip starts from. -/
def axisOf : Dir → Nat
  | .up => 1
  | .left => 2
  | .down => 3
  | .right => 4

/-- transferops.py L122-L207 `get_Top_spec`. -/
noncomputable def topSpec (eigs : Eigs) (argsort : Argsort) (b : Bool) (n : Nat) (c : Coord) (d : Dir) (st : State ℂ) (env : Env ℂ) :
    Except Err (List (ℝ × ℝ) × List (Tensor ℂ)) := do
  let (x1, x2) ← lift (getChis st env c d)
  let a ← lift (st.site c)
  let ad := a.size (axisOf (rev d))
  sorted eigs argsort b true n (x1 * ad * ad * x2) (mv1 st env d c x1 ad x2)

/-! ### The boundary Hamiltonian -/

/-- L271 `d_grow`: the direction around the cylinder. -/
def growDir : Dir → Dir
  | .up => .right
  | .left => .up
  | .down => .left
  | .right => .down

/-- The permutations of L280-L304: environment bonds first. -/
def orient (d : Dir) (T : Tensor ℂ) : Option (Tensor ℂ) :=
  match d with
  | .up => permute [0, 2, 1] T
  | .left => some T
  | .down => permute [1, 2, 0] T
  | .right => permute [0, 2, 1] T

/-- L280-L304 and L446-L474 `_get_and_transform_T`: half-row tensor with the environment bonds first (up, down or left, right) and the double bond
opened. `c` is a site of the cell. -/
def getT (st : State ℂ) (env : Env ℂ) (d : Dir) (c : Coord) : Option (Tensor ℂ) := do
  let T ← env.T (c, d.vec)
  let a ← st.site c
  let ad := a.size (axisOf d)
  let x ← orient d T
  view [env.chi, env.chi, ad, ad] x

/-- `vertexToSite(coord)` and the sites reached from it by repeated `vertexToSite((c[0]+d_grow[0],c[1]+d_grow[1]))` (L312, L328, L346). -/
def walk (st : State ℂ) (g : Dir) : Nat → Coord → List Coord
  | 0, _ => []
  | n + 1, c => st.vts c :: walk st g n (shift (st.vts c) g.vec)

/-- The tensors around the cylinder. -/
def ringT (st : State ℂ) (env : Env ℂ) (d g : Dir) (L : Nat) (c : Coord) : Option (List (Tensor ℂ)) := (walk st g L c).mapM (getT st env d)

/-- The steps `i`, ..., `L-2` of L317-L330 (transferops_c4v.py L181-L192). -/
def mvMid : Nat → List (Tensor ℂ) → Tensor ℂ → Option (Tensor ℂ)
  | _, [], V => some V
  | i, t :: ts, V => do
    let V ← tensordot [0, 3] [0, i + 1] t V
    mvMid (i + 1) ts V

/-- transferops.py L306-L349 `mv_sigma`, transferops_c4v.py L172-L208: the ring of tensors applied to `V`, which has one index per tensor. For fewer than
two tensors the code is not reached. -/
def mvSigma (ts : List (Tensor ℂ)) (V : Tensor ℂ) : Option (Tensor ℂ) :=
  match ts with
  | [] => none
  | [_] => none
  | t :: t' :: ts => do
    let L := ts.length + 2
    let V ← tensordot [3] [0] t V
    let V ← permute ([1, 2] ++ (List.range (L - 1)).map (· + 3) ++ [0]) V
    let V ← mvMid 1 ((t' :: ts).dropLast) V
    let V ← tensordot [0, 3, 1] [0, L, L + 1] ((t' :: ts).getLast (by simp)) V
    permute (List.range L).reverse V

/-- L273-L274 `ads`: the sizes of the bonds cut by the boundary. -/
def cutDims (st : State ℂ) (d g : Dir) (L : Nat) (c : Coord) : Option (List Nat) :=
  (List.range L).mapM (fun i : Nat => (st.site (c.1 + (i : Int) * g.vec.1, c.2 + (i : Int) * g.vec.2)).map (fun a => a.size (axisOf d)))

/-- L351-L357, `_mv` of `get_EH_spec_Ttensor`. -/
def mvEH (st : State ℂ) (env : Env ℂ) (d : Dir) (L : Nat) (c : Coord) (ads : List Nat) (v : Tensor ℂ) : Option (Tensor ℂ) := do
  let V ← view ads v
  let ts ← ringT st env d (growDir d) L c
  let V ← mvSigma ts V
  let ts ← ringT st env (rev d) (growDir d) L c
  let V ← mvSigma ts V
  view [ads.prod] V

/-- transferops.py L209-L372 `get_EH_spec_Ttensor`. `ok none` is the value `None` returned (with a warning) if too many values are asked for. -/
noncomputable def specEH (eigs : Eigs) (n L : Nat) (c : Coord) (d : Dir) (st : State ℂ) (env : Env ℂ) : Except Err (Option (List (ℝ × ℝ))) :=
  if ¬ 1 < L then .error .raise
  else if ¬ (st.lX = 1 ∧ st.lY = 1) then .error .raise
  else do
    let ads ← lift (cutDims st d (growDir d) L c)
    if ads.prod ≤ n then return none
    else do
      let r ← reversed eigs n ads.prod (mvEH st env d L c ads)
      return some r

/-! ### One-site C4v states -/

/-- transferops_c4v.py L41-L46. -/
noncomputable def mvC4v (a : Tensor ℂ) (env : C4v.Env ℂ) (v : Tensor ℂ) : Option (Tensor ℂ) := do
  let ad := a.size 1
  let V ← view [env.chi, ad * ad, env.chi] v
  let V ← C4v.applyTM a env V none
  view [env.chi * ad * ad * env.chi] V

/-- transferops_c4v.py L10-L68 `get_Top_spec_c4v`; `state.get_aux_bond_dims()[0]` is the size of the first auxiliary axis of the site
(ipeps_c4v.py). -/
noncomputable def topC4v (eigs : Eigs) (argsort : Argsort) (normal b : Bool) (n : Nat) (a : Tensor ℂ) (env : C4v.Env ℂ) : Except Err (List (ℝ × ℝ) × List (Tensor ℂ)) :=
  let ad := a.size 1
  sorted eigs argsort b normal n (env.chi * ad * ad * env.chi) (mvC4v a env)

/-- transferops_c4v.py L99-L104. No operator is passed, so the SVD of `applyTMW` is not used. -/
noncomputable def mvC4v2 (a : Tensor ℂ) (env : C4v.Env ℂ) (v : Tensor ℂ) : Option (Tensor ℂ) := do
  let ad := a.size 1
  let V ← view [env.chi, ad * ad, ad * ad, env.chi] v
  let V ← C4v.applyTMW (fun M _ => ⟨M, [], M⟩) a env V none
  view [env.chi * ad ^ 4 * env.chi] V

/-- transferops_c4v.py L70-L117 `get_Top2_spec_c4v`. -/
noncomputable def top2C4v (eigs : Eigs) (n : Nat) (a : Tensor ℂ) (env : C4v.Env ℂ) : Except Err (List (ℝ × ℝ)) :=
  let ad := a.size 1
  reversed eigs n (env.chi * ad ^ 4 * env.chi) (mvC4v2 a env)

/-- transferops_c4v.py L168-L209; scipy flattens the result. -/
def mvC4vEH (ad L : Nat) (T : Tensor ℂ) (v : Tensor ℂ) : Option (Tensor ℂ) := do
  let V ← view (List.replicate L ad) v
  let V ← mvSigma (List.replicate L T) V
  view [ad ^ L] V

/-- transferops_c4v.py L119-L222 `get_EH_spec_Ttensor`. -/
noncomputable def specC4vEH (eigs : Eigs) (n L : Nat) (a : Tensor ℂ) (env : C4v.Env ℂ) : Except Err (List (ℝ × ℝ)) :=
  if ¬ 1 < L then .error .raise
  else do
    let ad := a.size 4
    let T ← lift (view [env.chi, env.chi, ad, ad] env.T)
    reversed eigs n (ad ^ L) (mvC4vEH ad L T)

end Verif.Transfer
