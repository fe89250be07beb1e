import Verif.Optim.LbfgsModel
/-
Model of /repo/optim/ad_optim_lbfgs_mod.py `optimize_state`: the two closures, best-state file, checkpoints and the loop over
epochs. Logging, observables and `post_proc` are not modelled. The state is its flattened parameters; the file holds the
parameters of the written state (normalised on writing by the code, here as they are). Only `NoFixedPointError` is raised by
the loss function; `EnvError` and the `STATUS` entry of the context are not modelled.
-/
namespace Verif.Loop
open Lbfgs

/-- What the closures change: `current_env`, `t_data`, the state file. `log` is a ghost: every evaluation so far, oldest
first, with a flag for line-search evaluations. -/
structure World (V E : Type) where
  env : E
  loss : List ℝ
  minLoss : ℝ
  lossLs : List ℝ
  minLossLs : ℝ
  file : Option V
  log : List (Bool × V × ℝ)

/-- ad_optim_lbfgs_mod.py L163-L164: start of `optimize_state`; `file` is what is on disk already. -/
noncomputable def World.init {V E : Type} (env : E) (file : Option V) : World V E :=
  ⟨env, [], 10 ^ 16, [], 10 ^ 16, file, []⟩

/-- The loss functions: `grad` evaluates with gradient, `ls` in a line search (its configuration may differ, L259-L267). The
environment is state. `none`: `NoFixedPointError`. -/
structure Problem (V E : Type) where
  grad : V → E → Option (ℝ × V) × E
  ls : V → E → Option ℝ × E
  noise : Nat → V → V

variable {V E : Type}

/-- L178-L218 `closure(linesearching=False)`. -/
noncomputable def closure (P : Problem V E) (x : V) (w : World V E) : Option (ℝ × V) × World V E :=
  match P.grad x w.env with
  | (none, e) => (none, { w with env := e })
  | (some (l, g), e) =>
    let w := { w with env := e, loss := w.loss ++ [l], log := w.log ++ [(false, x, l)] }
    (some (l, g), if w.minLoss > l then { w with minLoss := l, file := some x } else w)

/-- L254-L284 `closure_linesearch`. -/
noncomputable def closureLs (P : Problem V E) (x : V) (w : World V E) : Option ℝ × World V E :=
  match P.ls x w.env with
  | (none, e) => (none, { w with env := e })
  | (some l, e) =>
    let w := { w with env := e, lossLs := w.lossLs ++ [l], log := w.log ++ [(true, x, l)] }
    (some l, if w.minLossLs > l then
        (let w := { w with minLossLs := l }
         if w.minLoss > l then { w with file := some x } else w)
      else w)

noncomputable def closures (P : Problem V E) : Closures V (World V E) := ⟨closure P, closureLs P⟩

/-- A checkpoint: epoch, parameters, loss, optimizer state. -/
structure Ckpt (V : Type) where
  epoch : Nat
  x : V
  loss : ℝ
  st : St V

/-- Local variables of `optimize_state` between two epochs. -/
structure Run (V E : Type) where
  x : V
  st : St V
  nl : Option ℝ
  ng : Option V
  w : World V E
  ckpts : List (Ckpt V)

variable [NormedAddCommGroup V] [InnerProductSpace ℝ V]

/-- A fresh run, L163-L174 without resume. -/
noncomputable def Run.init (x : V) (env : E) (file : Option V) : Run V E := ⟨x, St.init, none, none, World.init env file, []⟩

/-- A run resumed from a checkpoint (state loaded by the caller through `load_checkpoint`, optimizer state loaded L172-L174,
without `opt_resume_override_params`). -/
noncomputable def Run.resume (c : Ckpt V) (env : E) (file : Option V) : Run V E :=
  ⟨c.x, c.st, none, none, World.init env file, []⟩

/-- L44-L47, L294-L295, L352-L354 `store_checkpoint` guarded by a non-empty loss history. -/
def store (k : Nat) (r : Run V E) : Run V E :=
  match r.w.loss.getLast? with
  | none => r
  | some l => { r with ckpts := r.ckpts ++ [⟨k, r.x, l, r.st⟩] }

/-- How one pass of the epoch loop ends. -/
inductive Flow
  | cont
  | brk
  | raised (why : String)

/-- L331-L341: the stopping conditions. -/
def Stop (cfg : Cfg) (maxAbs : V → ℝ) (r : Run V E) : Prop :=
  (∃ pre a b, r.w.loss = pre ++ [a, b] ∧ |b - a| < cfg.tolChange) ∨
  (∃ g, r.ng = some g ∧ maxAbs g ≤ cfg.tolGrad) ∨
  (∃ d t, r.st.d = some d ∧ r.st.t = some t ∧ maxAbs (t • d) ≤ cfg.tolChange)

/-- L331-L341. -/
noncomputable def stopFlow (cfg : Cfg) (maxAbs : V → ℝ) (r : Run V E) : Flow :=
  open Classical in if Stop cfg maxAbs r then .brk else .cont

/-- L289-L346: one epoch. `none`: out of fuel of the line search. -/
noncomputable def epoch (cfg : Cfg) (maxAbs sumAbs : V → ℝ) (P : Problem V E) (fuel k : Nat) (r : Run V E) :
    Option (Run V E × Flow) :=
  open Classical in
  let r := if k > 0 then store k r else r
  match step2c cfg maxAbs sumAbs (closures P) fuel r.nl r.ng r.st (r.x, r.w) with
  | none => none
  | some (.raised why, (x, w)) =>
    if why = "NoFixedPointError" then
      some ({ r with x := P.noise k x, st := St.init, nl := none, ng := none, w := w }, .cont)
    else some ({ r with x := x, w := w }, .raised why)
  | some (.done st _ nl ng, (x, w)) =>
    let r := { r with x := x, st := st, nl := nl, ng := ng, w := { w with lossLs := [], minLossLs := 10 ^ 16 } }
    some (r, stopFlow cfg maxAbs r)

/-- L288-L346: `for epoch in range(opt_max_iter)`; `n` epochs left, `k` the current one. Returns the number of epochs run. -/
noncomputable def epochs (cfg : Cfg) (maxAbs sumAbs : V → ℝ) (P : Problem V E) (fuel : Nat) :
    Nat → Nat → Run V E → Option (Run V E × Flow)
  | 0, _, r => some (r, .cont)
  | n + 1, k, r =>
    match epoch cfg maxAbs sumAbs P fuel k r with
    | none => none
    | some (r, .cont) => epochs cfg maxAbs sumAbs P fuel n (k + 1) r
    | some (r, f) => some (r, f)

/-- L132-L354 `optimize_state` from a given start. An exception skips the final checkpoint. -/
noncomputable def optimize (cfg : Cfg) (maxAbs sumAbs : V → ℝ) (P : Problem V E) (fuel n : Nat) (r : Run V E) :
    Option (Run V E × Flow) :=
  match epochs cfg maxAbs sumAbs P fuel n 0 r with
  | none => none
  | some (r, .raised why) => some (r, .raised why)
  | some (r, f) => some (store n r, f)

end Verif.Loop
