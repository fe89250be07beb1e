import Verif.Optim.ArmijoModel
import Mathlib.Analysis.InnerProductSpace.Basic
/-
Model of /repo/optim/lbfgs_modified.py `LBFGS_MOD` and of the history handling on resume in
/repo/optim/ad_optim_lbfgs_mod.py and /repo/optim/ad_optim.py.

The flattened parameters live in a real inner product space `V`: the code uses the real part of the complex dot product,
so for complex parameters `V` is the complex vector space with its real inner product. `maxAbs`, `sumAbs` stand for
`x.abs().max()` and `x.abs().sum()`. `strong_wolfe` (a function of the torch library) is not modelled.
-/
namespace Verif.Lbfgs

variable {V W : Type} [NormedAddCommGroup V] [InnerProductSpace ℝ V]

/-- The entries of `optimizer.state`; entries that are `None` before the first step are options. -/
structure St (V : Type) where
  nIter : Nat
  d : Option V
  t : Option ℝ
  oldDirs : List V
  oldStps : List V
  ro : List ℝ
  hdiag : ℝ
  prevGrad : Option V
  prevLoss : Option ℝ
  al : Option (List (Option ℝ))

/-- State of a fresh optimizer, lbfgs_modified.py L187-L190, L210-L217. -/
def St.init : St V := ⟨0, none, none, [], [], [], 1, none, none, none⟩

/-- L235-L254: memory update. `pop(0)` of an empty list raises (`none`). -/
noncomputable def updateMemory (hs : Nat) (y s : V) (st : St V) : Option (St V) :=
  let ys := inner ℝ y s
  if ys > 1 / 10 ^ 10 then
    if st.oldDirs.length = hs then
      match st.oldDirs, st.oldStps, st.ro with
      | _ :: ds, _ :: ss, _ :: rs =>
        some { st with oldDirs := ds ++ [y], oldStps := ss ++ [s], ro := rs ++ [1 / ys], hdiag := ys / inner ℝ y y }
      | _, _, _ => none
    else
      some { st with oldDirs := st.oldDirs ++ [y], oldStps := st.oldStps ++ [s], ro := st.ro ++ [1 / ys],
                     hdiag := ys / inner ℝ y y }
  else some st

/-- L267-L273: body of the first loop at index `i`. An index out of range raises (`none`). -/
noncomputable def body1 (st : St V) (qa : V × List (Option ℝ)) (i : Nat) : Option (V × List (Option ℝ)) := do
  let s ← st.oldStps[i]?
  let r ← st.ro[i]?
  let y ← st.oldDirs[i]?
  let a := inner ℝ s qa.1 * r
  if i < qa.2.length then some (qa.1 - a • y, qa.2.set i (some a)) else none

/-- L279-L285: body of the second loop at index `i`. -/
noncomputable def body2 (st : St V) (al : List (Option ℝ)) (r : V) (i : Nat) : Option V := do
  let y ← st.oldDirs[i]?
  let s ← st.oldStps[i]?
  let ro ← st.ro[i]?
  let a ← (← al[i]?)
  let be := inner ℝ y r * ro
  some (r + (a - be) • s)

/-- L256-L285: two-loop recursion; returns the direction and the buffer `al`. -/
noncomputable def twoLoop (hs : Nat) (st : St V) (g : V) : Option (V × List (Option ℝ)) := do
  let n := st.oldDirs.length
  let al := st.al.getD (List.replicate hs none)
  let (q, al) ← (List.range n).reverse.foldlM (body1 st) (-g, al)
  let r ← (List.range n).foldlM (body2 st al) (st.hdiag • q)
  some (r, al)

/-- L226-L292: one direction update. -/
noncomputable def direction (hs : Nat) (st : St V) (g : V) (loss : ℝ) : Option (St V) :=
  let st := { st with nIter := st.nIter + 1 }
  if st.nIter = 1 then
    some { st with d := some (-g), oldDirs := [], oldStps := [], ro := [], hdiag := 1, prevGrad := some g, prevLoss := some loss }
  else do
    let pg ← st.prevGrad
    let d ← st.d
    let t ← st.t
    let st ← updateMemory hs (g - pg) (t • d) st
    let (r, al) ← twoLoop hs st g
    some { st with d := some r, al := some al, prevGrad := some g, prevLoss := some loss }

/-- The configuration of the optimizer (`param_groups[0]`). -/
structure Cfg where
  lr : ℝ
  maxIter : Nat
  maxEval : Nat
  tolGrad : ℝ
  tolChange : ℝ
  histSize : Nat
  backtracking : Bool
  lsEps : ℝ

/-- The two closures of the caller. `none`: `NoFixedPointError`. `W` is whatever the closures change. -/
structure Closures (V W : Type) where
  main : V → W → Option (ℝ × V) × W
  ls : V → W → Option ℝ × W

/-- L137-L143 `_directional_evaluate_derivative_free`: parameters are moved, the loss evaluated, and, unless the evaluation
raised, the parameters set to `x`. -/
def dirEval (c : Closures V W) (x d : V) (t : ℝ) (pw : V × W) : Option ℝ × (V × W) :=
  let p := pw.1 + t • d
  match c.ls p pw.2 with
  | (none, w) => (none, (p, w))
  | (some v, w) => (some v, (x, w))

/-- Outcome of L321-L329. -/
inductive LsOut
  | step (t : ℝ) (newLoss : Option ℝ)
  | failed

/-- L321-L327: `while t > line_search_eps` around the Armijo search; `newLoss` is the last value assigned to `new_loss`.
`none`: out of fuel. -/
noncomputable def lsLoop (c : Closures V W) (x d : V) (loss gtd eps : ℝ) (fuelIn : Nat) :
    Nat → ℝ → Option ℝ → V × W → Option (LsOut × (V × W))
  | 0, t, nl, pw => if t > eps then none else some (.step t nl, pw)
  | n + 1, t, nl, pw =>
    if t > eps then
      match Armijo.search (dirEval c x d) loss gtd (1 / 10 ^ 4) t (1 / 10 ^ 8) fuelIn pw with
      | none => none
      | some ⟨.ok a v, pw', _⟩ => some (.step a (some v), pw')
      | some ⟨.fail, pw', _⟩ => some (.failed, pw')
      | some ⟨.err a, pw', _⟩ => lsLoop c x d loss gtd eps fuelIn n (a / 2) none pw'
    else some (.step t nl, pw)

/-- Result of one pass through the loop body. -/
inductive Pass (V : Type)
  | stop (st : St V) (newLoss : Option ℝ) (newGrad : Option V)
  | next (st : St V) (newLoss : Option ℝ) (newGrad : Option V) (evals : Nat)
  | raised (why : String)

/-- L297-L301: the starting step length, after the iteration counter was advanced. -/
noncomputable def initStep (cfg : Cfg) (sumAbs : V → ℝ) (st : St V) (g : V) : ℝ :=
  if st.nIter = 1 then min 1 (1 / sumAbs g) * cfg.lr else cfg.lr

/-- L374-L397: how a pass ends after the step `t • d`: the checks of `max_iter`, `max_eval`, optimality, and lack of progress.
`loss` is both `loss` and `prev_loss`: neither is updated in the loop. -/
noncomputable def finish (cfg : Cfg) (maxAbs : V → ℝ) (loss : ℝ) (d : V) (st : St V) (nIter evals : Nat) (t : ℝ) (nl : Option ℝ)
    (ng : Option V) (lsEvals : Nat) (opt : Prop) : Pass V :=
  open Classical in
  let stT := { st with t := some t }
  if nIter = cfg.maxIter then .stop stT nl ng
  else if cfg.maxEval ≤ evals + lsEvals then .stop stT nl ng
  else if opt then .stop stT nl ng
  else if maxAbs (t • d) ≤ cfg.tolChange then .stop stT nl ng
  else if |loss - loss| < cfg.tolChange then .stop stT nl ng
  else .next stT nl ng (evals + lsEvals)

/-- L221-L397: one pass of `while n_iter < max_iter`; `nIter` counts from 1. `nl`, `ng` are the values of `new_loss`,
`new_flat_grad` before the pass. Exceptions are outcomes; the parameters and the world are returned with them. -/
noncomputable def pass (cfg : Cfg) (maxAbs sumAbs : V → ℝ) (c : Closures V W) (fuel : Nat) (nIter evals : Nat)
    (loss : ℝ) (g : V) (nl : Option ℝ) (ng : Option V) (optCond : Prop)
    (st : St V) (xw : V × W) : Option (Pass V × (V × W)) :=
  open Classical in
  match direction cfg.histSize st g loss with
  | none => some (.raised "IndexError", xw)
  | some st =>
    match st.d with
    | none => some (.raised "direction", xw)
    | some d =>
      let t := initStep cfg sumAbs st g
      let gtd := inner ℝ g d
      let stT := { st with t := some t }
      if gtd > -cfg.tolChange then some (.stop stT nl ng, xw)
      else
        if cfg.backtracking then
          match lsLoop c xw.1 d loss gtd cfg.lsEps fuel fuel t none xw with
          | none => none
          | some (.failed, xw') => some (.raised "minimize_scalar failed", xw')
          | some (.step t nl, (x, w)) => some (finish cfg maxAbs loss d st nIter evals t nl none 0 optCond, (x + t • d, w))
        else
          let x := xw.1 + t • d
          if nIter = cfg.maxIter then some (finish cfg maxAbs loss d st nIter evals t none none 0 optCond, (x, xw.2))
          else
            match c.main x xw.2 with
            | (none, w) => some (.raised "NoFixedPointError", (x, w))
            | (some (l, g'), w) => some (finish cfg maxAbs loss d st nIter evals t (some l) (some g') 1 (maxAbs g' ≤ cfg.tolGrad), (x, w))

/-- L219-L397: the loop; `fuelIt` is the number of passes still allowed by `max_iter`. -/
noncomputable def passes (cfg : Cfg) (maxAbs sumAbs : V → ℝ) (c : Closures V W) (fuel : Nat) (loss : ℝ) (g : V) :
    Nat → Nat → Nat → Option ℝ → Option V → St V → V × W → Option (Pass V × (V × W))
  | 0, _, _, nl, ng, st, xw => some (.stop st nl ng, xw)
  | k + 1, nIter, evals, nl, ng, st, xw =>
    open Classical in
    match pass cfg maxAbs sumAbs c fuel (nIter + 1) evals loss g nl ng (maxAbs g ≤ cfg.tolGrad) st xw with
    | some (.next st nl ng evals, xw) => passes cfg maxAbs sumAbs c fuel loss g k (nIter + 1) evals nl ng st xw
    | r => r

/-- What `step_2c` returns, or the exception leaving it. -/
inductive StepOut (V : Type)
  | done (st : St V) (origLoss : ℝ) (newLoss : Option ℝ) (newGrad : Option V)
  | raised (why : String)

/-- L202-L408: `step_2c` after loss `l` and gradient `g` are known, with `e` evaluations so far. -/
noncomputable def afterEval (cfg : Cfg) (maxAbs sumAbs : V → ℝ) (c : Closures V W) (fuel : Nat)
    (newLoss : Option ℝ) (newGrad : Option V) (st : St V) (l : ℝ) (g : V) (e : Nat) (xw : V × W) : Option (StepOut V × (V × W)) :=
  open Classical in
  if maxAbs g ≤ cfg.tolGrad then some (.done st l none none, xw)
  else
    match passes cfg maxAbs sumAbs c fuel l g cfg.maxIter 0 e newLoss newGrad st xw with
    | none => none
    | some (.stop st nl ng, xw) => some (.done st l nl ng, xw)
    | some (.next st nl ng _, xw) => some (.done st l nl ng, xw)
    | some (.raised why, xw) => some (.raised why, xw)

/-- L153-L408 `step_2c`. The closure is called unless both `new_loss` and `new_flat_grad` are given (L193-L200).
`none`: out of fuel. -/
noncomputable def step2c (cfg : Cfg) (maxAbs sumAbs : V → ℝ) (c : Closures V W) (fuel : Nat)
    (newLoss : Option ℝ) (newGrad : Option V) (st : St V) (xw : V × W) : Option (StepOut V × (V × W)) :=
  match newLoss, newGrad with
  | some l, some g => afterEval cfg maxAbs sumAbs c fuel newLoss newGrad st l g 0 xw
  | _, _ =>
    match c.main xw.1 xw.2 with
    | (none, w) => some (.raised "NoFixedPointError", (xw.1, w))
    | (some (l, g), w) => afterEval cfg maxAbs sumAbs c fuel newLoss newGrad st l g 1 (xw.1, w)

/-! ### History on resume -/

/-- `l[-n:]` -/
def lastN {α : Type} (n : Nat) (l : List α) : List α := if n = 0 then l else l.drop (l.length - n)

/-- `list(filter(None, l))`: `None` and zero entries are dropped. -/
noncomputable def filterNone (l : List (Option ℝ)) : List (Option ℝ) :=
  open Classical in l.filter (fun x => match x with | none => false | some v => decide (v ≠ 0))

/-- ad_optim_lbfgs_mod.py L82-L95 (also fd_optim_lbfgs_mod.py L96-L110): history of an optimizer state when resuming with
`opt_resume_override_params`. `cpHs` is the stored history size. `none`: KeyError (`al` missing) or the assertion. -/
noncomputable def resumeMod (cpHs hs : Nat) (st : St V) : Option (St V) := do
  let st ← if hs < cpHs ∧ hs < st.oldDirs.length then
      (if st.oldDirs.length = st.oldStps.length ∧ st.oldStps.length = st.ro.length then
        some { st with oldDirs := lastN hs st.oldDirs, oldStps := lastN hs st.oldStps, ro := lastN hs st.ro }
      else none)
    else some st
  let al ← st.al
  let f := filterNone al
  some { st with al := some (if hs < f.length then lastN hs f else f ++ List.replicate (hs - f.length) none) }

/-- ad_optim.py L89-L106: the same in the driver of the original `torch.optim.LBFGS`. `ro` becomes a list that may contain
`None`. -/
noncomputable def resumeAd (cpHs hs : Nat) (st : St V) : Option (List V × List V × List (Option ℝ) × List (Option ℝ)) := do
  let (ds, ss) := if hs < cpHs ∧ hs < st.oldDirs.length then (lastN hs st.oldDirs, lastN hs st.oldStps)
    else (st.oldDirs, st.oldStps)
  let fr := filterNone (st.ro.map some)
  let al ← st.al
  let fa := filterNone al
  if hs < fr.length then some (ds, ss, lastN hs fr, lastN hs fa)
  else some (ds, ss, fr ++ List.replicate (hs - fr.length) none, fa ++ List.replicate (hs - fr.length) none)

end Verif.Lbfgs
