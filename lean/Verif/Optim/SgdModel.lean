import Mathlib.Analysis.Normed.Module.Basic
import Mathlib.Algebra.BigOperators.Group.Finset.Basic
/-
Model of /repo/optim/sgd_modified.py `SGD_MOD.step_2c` (direction, momentum buffer and its aliasing) and of
/repo/optim/fd_optim_lbfgs_mod.py `grad_fd`.
-/
namespace Verif.Sgd

variable {V : Type} [AddCommGroup V] [Module ℝ V]

/-- `param_groups[0]`. `lineSearch`: `line_search_fn == "backtracking"`. -/
structure Cfg where
  lr : ℝ
  momentum : ℝ
  dampening : ℝ
  weightDecay : ℝ
  nesterov : Bool
  lineSearch : Bool

/-- Parameters and `_momentum_buffer`. -/
structure St (V : Type) where
  x : V
  buf : Option V

/-- The array `d_p` and whether it is the same object as the momentum buffer. -/
structure Dir (V : Type) where
  d : V
  aliased : Bool

/-- sgd_modified.py L191-L205: direction and buffer from the gradient `g`. -/
noncomputable def direction (cfg : Cfg) (st : St V) (g : V) : Dir V × Option V :=
  open Classical in
  let d := if cfg.weightDecay ≠ 0 then g + cfg.weightDecay • st.x else g
  if cfg.momentum ≠ 0 then
    let buf := match st.buf with
      | none => d
      | some b => cfg.momentum • b + (1 - cfg.dampening) • d
    if cfg.nesterov then (⟨d + cfg.momentum • buf, false⟩, some buf) else (⟨buf, true⟩, some buf)
  else (⟨d, false⟩, st.buf)

/-- sgd_modified.py L168-L236 `step_2c`. `ls x d` is the step length found by the Armijo search along `d` from `x` (L213-L226,
modelled in `Verif.Armijo`); `none`: the search failed and the step raises. `d_p.mul_(-1)` acts in place, so it changes the
buffer when `d_p` is the buffer. Returns the direction of motion too. -/
noncomputable def step (cfg : Cfg) (grad : V → V) (ls : V → V → Option ℝ) (st : St V) : Option (St V × V) :=
  let (dp, buf) := direction cfg st (grad st.x)
  if cfg.lineSearch then
    let d := (-1 : ℝ) • dp.d
    let buf := if dp.aliased then some d else buf
    match ls st.x d with
    | none => none
    | some t => some (⟨st.x + t • d, buf⟩, d)
  else some (⟨st.x + (-cfg.lr) • dp.d, buf⟩, dp.d)

/-- `n` steps. -/
noncomputable def run (cfg : Cfg) (grad : V → V) (ls : V → V → Option ℝ) (x : V) : Nat → Option (St V)
  | 0 => some ⟨x, none⟩
  | n + 1 => do
    let st ← run cfg grad ls x n
    let r ← step cfg grad ls st
    some r.1

/-! ### Finite differences -/

/-- `state.coeffs`: a dictionary of one-dimensional tensors. -/
abbrev Coeffs := List (String × List ℝ)

/-- `state.coeffs[k] = v` for an existing key. -/
def setKey (c : Coeffs) (k : String) (v : List ℝ) : Coeffs :=
  c.map (fun p => if p.1 = k then (p.1, v) else p)

/-- fd_optim_lbfgs_mod.py L133-L143: the loop over the entries of one tensor. `is` are the entries left. The environment is
cloned before every evaluation (L138), so `loss` depends on the parameters only. Result: the entries computed so far, or
`none` if the loss function raised, and the parameters afterwards. -/
noncomputable def entries (loss : Coeffs → Option ℝ) (loss0 eps : ℝ) (k : String) (orig : List ℝ) :
    List Nat → Coeffs → Option (List ℝ) × Coeffs
  | [], c => (some [], c)
  | i :: is, c =>
    let cur := (c.lookup k).getD []
    let c := setKey c k (cur.zipIdx.map (fun p => p.1 + if p.2 = i then eps else 0))
    match loss c with
    | none => (none, c)
    | some l =>
      let c := setKey c k orig
      match entries loss loss0 eps k orig is c with
      | (none, c) => (none, c)
      | (some gs, c) => (some ((l - loss0) / eps :: gs), c)

/-- fd_optim_lbfgs_mod.py L116-L146 `grad_fd`: the loop over the keys. `eps = 0` divides by zero and is excluded by the
theorems. -/
noncomputable def gradFd (loss : Coeffs → Option ℝ) (loss0 eps : ℝ) : List String → Coeffs → Option Coeffs × Coeffs
  | [], c => (some [], c)
  | k :: ks, c =>
    let orig := (c.lookup k).getD []
    match entries loss loss0 eps k orig (List.range orig.length) c with
    | (none, c) => (none, c)
    | (some g, c) =>
      match gradFd loss loss0 eps ks c with
      | (none, c) => (none, c)
      | (some gs, c) => (some ((k, g) :: gs), c)

end Verif.Sgd
