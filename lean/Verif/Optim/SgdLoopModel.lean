import Verif.Optim.LoopModel
/-
Model of /repo/optim/ad_optim_sgd_mod.py `optimize_state` with torch's own SGD: closure, best-state file, checkpoints, resume and the loop over epochs.
Logging and observables are not modelled; `closure_linesearch` is never called (L198-L200). `closure` does the same as the one of ad_optim_lbfgs_mod.py (`Loop.closure`).
-/
namespace Verif.SgdLoop
open Loop

/-- The entries of `param_groups[0]` that act on a step. -/
structure Hyper where
  lr : ℝ
  momentum : ℝ
  dampening : ℝ

/-- opt_args as far as they are used. -/
structure Args where
  lr : ℝ
  momentum : ℝ
  dampening : ℝ
  tolChange : ℝ

/-- L27-L31 `store_checkpoint`: epoch, loss, parameters, optimizer (momentum buffer and parameter group). -/
structure Ckpt (V : Type) where
  epoch : Nat
  loss : ℝ
  x : V
  buf : Option V
  hyper : Hyper

/-- Local variables between two epochs, and the checkpoints written so far, oldest first (each overwrites the file). -/
structure Run (V E : Type) where
  x : V
  buf : Option V
  hyper : Hyper
  w : World V E
  ckpts : List (Ckpt V)

/-- L77: `sgd.SGD(parameters, lr=..., momentum=...)`; dampening keeps its default 0. -/
def fresh (a : Args) : Hyper := ⟨a.lr, a.momentum, 0⟩

/-- L67-L77: a new run; `file` is what is on disk already. -/
noncomputable def start {V E : Type} (a : Args) (x : V) (env : E) (file : Option V) : Run V E := ⟨x, none, fresh a, World.init env file, []⟩

/-- L80-L95: a run resumed from a checkpoint, whose parameters the caller has loaded. -/
noncomputable def resume {V E : Type} (a : Args) (override : Bool) (c : Ckpt V) (env : E) (file : Option V) : Run V E :=
  ⟨c.x, c.buf, if override then ⟨a.lr, a.momentum, a.dampening⟩ else c.hyper, World.init env file, []⟩

variable {V E : Type}

/-- L193-L194, L214-L216: a checkpoint; `none`: IndexError of `t_data["loss"][-1]`. -/
def store (k : Nat) (r : Run V E) : Option (Run V E) :=
  match r.w.loss.getLast? with
  | none => none
  | some l => some { r with ckpts := r.ckpts ++ [⟨k, l, r.x, r.buf, r.hyper⟩] }

variable [AddCommGroup V] [Module ℝ V]

open Classical in
/-- torch.optim.SGD, one step with gradient `g`, called at L200: direction and new buffer (weight decay 0, no Nesterov). -/
noncomputable def direction (h : Hyper) (buf : Option V) (g : V) : V × Option V :=
  if h.momentum = 0 then (g, buf)
  else match buf with
    | none => (g, some g)
    | some b => (h.momentum • b + (1 - h.dampening) • g, some (h.momentum • b + (1 - h.dampening) • g))

/-- How the loop goes on; `raised`: the loss function or the access to the loss raises. -/
inductive Flow
  | cont
  | brk
  | raised

open Classical in
/-- L210-L212: the last two losses are close. -/
noncomputable def stopFlow (tol : ℝ) (loss : List ℝ) : Flow :=
  match loss.reverse with
  | b :: a :: _ => if |b - a| < tol then .brk else .cont
  | _ => .cont

/-- L189-L212: one epoch. -/
noncomputable def epoch (tol : ℝ) (P : Problem V E) (k : Nat) (r : Run V E) : Run V E × Flow :=
  match (if k > 0 then store k r else some r) with
  | none => (r, .raised)
  | some r =>
    match Loop.closure P r.x r.w with
    | (none, w) => ({ r with w := w }, .raised)
    | (some (_, g), w) =>
      let d := direction r.hyper r.buf g
      let r := { r with x := r.x - r.hyper.lr • d.1, buf := d.2, w := { w with lossLs := [], minLossLs := 10 ^ 16 } }
      (r, stopFlow tol r.w.loss)

/-- L189-L212: the loop; `n` epochs left, `k` the current one. -/
noncomputable def epochs (tol : ℝ) (P : Problem V E) : Nat → Nat → Run V E → Run V E × Flow
  | 0, _, r => (r, .cont)
  | n + 1, k, r =>
    match epoch tol P k r with
    | (r, .cont) => epochs tol P n (k + 1) r
    | (r, f) => (r, f)

/-- L189-L216 with `opt_max_iter = n`. -/
noncomputable def optimize (a : Args) (P : Problem V E) (n : Nat) (r : Run V E) : Run V E × Flow :=
  match epochs a.tolChange P n 0 r with
  | (r, .raised) => (r, .raised)
  | (r, f) =>
    match store n r with
    | none => (r, .raised)
    | some r => (r, f)

end Verif.SgdLoop
