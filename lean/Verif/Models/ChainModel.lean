import Verif.Models.PairModel
/-
Model of /repo/models/hb_anisotropy.py, class `COUPLEDCHAINS`: `eval_dimer_operator` and the dictionary of `eval_obs`.
-/
namespace Verif.Models
open Tensor Ctm

/-- `einsum('ijab,abij', rdm, op)`. -/
def trace4 (r h : Tensor ℂ) : Option ℂ := do
  let x ← einsum [(r, [0, 1, 2, 3]), (h, [2, 3, 0, 1])] []
  return x.val []

/-- hb_anisotropy.py L300-L308: one pass of the loop; `horizontal` is `direction == (1,0)`, otherwise the direction is `(0,1)`. -/
noncomputable def dimerTerm (eigh : Tensor ℂ → List ℝ × Tensor ℂ) (p : Nat) (horizontal : Bool) (st : State ℂ) (env : Env ℂ) (c : Coord) : Except Err ℂ := do
  let r ← if horizontal then Rdm.rdm2x1 eigh true false st env c else Rdm.rdm1x2 eigh true false st env c
  lift (trace4 r (ssP p))

/-- hb_anisotropy.py L279-L311 `eval_dimer_operator`: `abs(ss[0] - ss[1])`; with fewer than two sites the indexing raises. -/
noncomputable def dimerOp (eigh : Tensor ℂ → List ℝ × Tensor ℂ) (p : Nat) (horizontal : Bool) (st : State ℂ) (env : Env ℂ) : Except Err ℝ := do
  match ← st.keys.mapM (dimerTerm eigh p horizontal st env) with
  | a :: b :: _ => .ok ‖a - b‖
  | _ => .error .raise

/-- The keys of the dictionary of `eval_obs`. -/
inductive ChainKey
  | avgM | avgIIQ | avgIIIQ | antiFm | dimer
  | sz (c : Coord) | sp (c : Coord) | sm (c : Coord) | m (c : Coord) | q (c : Coord) | iiQ (c : Coord) | iiiQ (c : Coord)
  | ss2x1 (c : Coord) | ss1x2 (c : Coord) | sq2x1 (c : Coord) | sq1x2 (c : Coord)
  deriving DecidableEq

/-- A dictionary: the last assignment to a key counts. -/
abbrev Dict (α : Type) := List (ChainKey × α)

/-- `obs[label]`; a missing key raises. -/
def Dict.get {α : Type} (d : Dict α) (k : ChainKey) : Except Err α :=
  match d.find? (·.1 = k) with
  | some x => .ok x.2
  | none => .error .raise

/-- hb_anisotropy.py L217-L254 `eval_obs`. The numbers are parameters: `site c` are the values computed for a site in the first loop in the order in which they are stored (`sz`, `sp`, `sm`, `m`, `Q`, and the two
moments), `bond c` those of the second loop, `avg` the three averages, `dim` the value of `eval_dimer_operator`; each of them may raise. Modelled are the keys that are stored and the labels that are looked up. -/
def chainsObs {α : Type} (site : Coord → Except Err (α × α × α × α × α × α × α)) (avg : Except Err (α × α × α)) (bond : Coord → Except Err (α × α × α × α)) (dim : Except Err α) (keys : List Coord) :
    Except Err (List α × List ChainKey) := do
  let d ← keys.foldlM (fun (d : Dict α) c => do
    let (z, p, m, l, q, q2, q3) ← site c
    return (.iiiQ c, q3) :: (.iiQ c, q2) :: (.q c, q) :: (.m c, l) :: (.sm c, m) :: (.sp c, p) :: (.sz c, z) :: d) []
  let (a, b, c) ← avg
  let d : Dict α := (.avgIIIQ, c) :: (.avgIIQ, b) :: (.avgM, a) :: d
  let d ← keys.foldlM (fun (d : Dict α) c => do
    let (h, v, h2, v2) ← bond c
    return (.sq1x2 c, v2) :: (.sq2x1 c, h2) :: (.ss1x2 c, v) :: (.ss2x1 c, h) :: d) d
  let x ← dim
  let d : Dict α := (.dimer, x) :: d
  let labels := [.avgM, .avgIIQ, .avgIIIQ, .antiFm, .dimer] ++ keys.flatMap fun c => [ChainKey.ss2x1 c, .sq2x1 c, .ss1x2 c, .sq1x2 c]
  let values ← labels.mapM d.get
  return (values, labels)

end Verif.Models
