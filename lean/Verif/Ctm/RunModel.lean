import Verif.Ctm.MoveModel
/-
Model of /repo/ctm/generic/ctmrg.py `run` L18-L110 and `run_overlap` L112-L175: the loops around `ctm_MOVE`. Timing, logging and
printing are not modelled. `E` is the type of environments, `H` of histories, `mv` performs one move.
-/
namespace Verif.Ctm
variable {E H : Type}

/-- ctmrg.py L64-L71 `_ctmrg_iter`: for every direction of `ctm_move_sequence`, `lX` or `lY` moves. -/
def ctmrgIter (mv : Dir → E → Except Err E) (lX lY : Nat) (seq : List Dir) (env : E) : Except Err E :=
  seq.foldlM (fun env d => (List.range (if d = .left ∨ d = .right then lX else lY)).foldlM (fun env _ => mv d env) env) env

/-- ctmrg.py L137-L140: one iteration of `run_overlap`, one move per direction. -/
def overlapIter (mv : Dir → E → Except Err E) (seq : List Dir) (env : E) : Except Err E :=
  seq.foldlM (fun env d => mv d env) env

/-- ctmrg.py L82-L88: `n` warm-up iterations. -/
def warmup (it : E → Except Err E) (n : Nat) (env : E) : Except Err E :=
  (List.range n).foldlM (fun env _ => it env) env

/-- ctmrg.py L90-L110: the main loop with `fuel` iterations left. `conv` is `conv_check` on environment and history
(`none`: no history yet). -/
def mainLoop (it : E → Except Err E) (conv : Option (E → Option H → Bool × H)) : Nat → E → Option H → Except Err (E × Option H)
  | 0, env, h => .ok (env, h)
  | n + 1, env, h => do
    let env ← it env
    match conv with
    | none => mainLoop it conv n env h
    | some f =>
      let (c, h') := f env h
      if c then return (env, some h') else mainLoop it conv n env (some h')

/-- What `run` reads from `CTMARGS`: `ctm_move_sequence`, `ctm_max_iter`, `ctm_warmup_iter`. -/
structure RunArgs where
  seq : List Dir
  maxIter : Nat
  warm : Int

/-- L83: `max(ctm_warmup_iter, ceil(chi/maxD**2))`; `maxD > 0`. -/
def warmIters (w : Int) (chi maxD : Nat) : Nat := max w.toNat ((chi + maxD ^ 2 - 1) / maxD ^ 2)

/-- ctmrg.py L18-L110 `run`; `mvW` moves with the warm-up decomposition. -/
def run (mv mvW : Dir → E → Except Err E) (a : RunArgs) (lX lY chi maxD : Nat) (conv : Option (E → Option H → Bool × H)) (env : E) :
    Except Err (E × Option H) := do
  let env ← if 0 ≤ a.warm then warmup (ctmrgIter mvW lX lY a.seq) (warmIters a.warm chi maxD) env else .ok env
  mainLoop (ctmrgIter mv lX lY a.seq) conv a.maxIter env none

/-- ctmrg.py L112-L175 `run_overlap`. -/
def runOverlap (mv : Dir → E → Except Err E) (a : RunArgs) (conv : Option (E → Option H → Bool × H)) (env : E) : Except Err (E × Option H) :=
  mainLoop (overlapIter mv a.seq) conv a.maxIter env none

end Verif.Ctm
