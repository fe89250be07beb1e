import Verif.Trgl.Model
import Verif.Rdm.SixModel
/-
Model of the next-nearest neighbour terms of /repo/models/spin_triangular.py: `eval_nnn_per_site_semimanual` (L53-L113) and `eval_nnn_per_site` (L183-L221), for `compressed <= 0`,
and of `energy_per_site` (L505-L616) for `j4 = 0`.
-/
namespace Verif.Trgl
open Tensor Ctm Rdm Models

/-- The two routines; they differ in the contraction of the six-site density matrices. -/
inductive NnnMode
  | semimanual
  | plain

/-- L74-L76, L193-L197: the density matrix on a patch of three columns and two rows. -/
noncomputable def NnnMode.wide (eigh : Tensor ℂ → List ℝ × Tensor ℂ) (st : State ℂ) (env : Env ℂ) (c : Coord) : NnnMode → Except Err (Tensor ℂ)
  | .semimanual => rdm2x3Semi eigh false st env c [2, 3]
  | .plain => rdm2x3 eigh false st env c [2, 3]

/-- L95-L97, L204-L208: the density matrix on a patch of two columns and three rows. -/
noncomputable def NnnMode.tall (eigh : Tensor ℂ → List ℝ × Tensor ℂ) (st : State ℂ) (env : Env ℂ) (c : Coord) : NnnMode → Except Err (Tensor ℂ)
  | .semimanual => rdm3x2Semi eigh false st env c [2, 3]
  | .plain => rdm3x2 eigh false st env c [2, 3]

/-- L53-L113 `eval_nnn_per_site_semimanual`, L183-L221 `eval_nnn_per_site`: `einsum('iajb,jbia', rdm, einsum('jxiy,xb,ya->jbia', op, R@R@R, R@R@R))` twice and
`einsum('iajb,jbia', rdm, op)`. -/
noncomputable def nnnPerSite (eigh : Tensor ℂ → List ℝ × Tensor ℂ) (mode : NnnMode) (p : Nat) (st : State ℂ) (env : Env ℂ) (R : Su2.Op p) (op : Tensor ℂ) (c : Coord) : Except Err ℂ := do
  let r ← mode.wide eigh st env c
  let x ← lift (do full4 r (← rotSecond p op (R * R * R)))
  let s ← mode.tall eigh st env c
  let y ← lift (do full4 s (← rotSecond p op (R * R * R)))
  let t ← rdm2x2 eigh false st env c [0, 3]
  let z ← lift (full4 t op)
  return x + y + z

/-- L581-L591: the loop over the cell for `j2 != 0`. -/
noncomputable def cellNnn (eigh : Tensor ℂ → List ℝ × Tensor ℂ) (p : Nat) (R : Su2.Op p) (st : State ℂ) (env : Env ℂ) : Except Err ℂ :=
  st.keys.foldlM (fun e c => do return e + (← nnnPerSite eigh .semimanual p st env R (ssP p) c)) 0

open Classical in
/-- L505-L616 `energy_per_site` for `j4 = 0`. -/
noncomputable def energyJ2 (eigh : Tensor ℂ → List ℝ × Tensor ℂ) (m : Couplings) (j2 : ℝ) (q : ℝ × ℝ) (st : State ℂ) (env : Env ℂ) : Except Err ℝ := do
  let n ← if j2 ≠ 0 then cellNnn eigh m.p (rotation m.p q.1) st env else .ok 0
  let e ← cellNN eigh m (rotation m.p q.1) (rotation m.p q.1).conjTranspose st env
  if st.keys = [] then .error .raise
  else .ok (((m.j1 : ℂ) * (e.1 + m.diag * e.2.1) + j2 * n + m.jchi * e.2.2) / (st.keys.length : ℂ)).re

end Verif.Trgl
