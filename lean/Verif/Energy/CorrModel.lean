import Verif.Energy.C4vModel
/-
Model of the spin correlation functions of /repo/models/j1j2.py: `_conjugate_op` (L19-L25), `J1J2.eval_corrf_SS` (L476-L508), `J1J2.eval_corrf_SpSm` (L510-L529) and
`J1J2_C4V_BIPARTITE.eval_corrf_SS` (L803-L862, `rl_0=None`). The dtype is complex. The dictionary that is returned is a structure. Not modelled: the dimer correlations
L864-L930 (see `C4v` for the functions they call).
-/
namespace Verif.Energy
open Tensor Ctm

/-- The four entries of the dictionary, L507 and L861. -/
structure SpinCorr where
  ss : List ℂ
  szsz : List ℂ
  sxsx : List ℂ
  sysy : List ℂ

/-- `A + B`, `A - B`, `-A` of one-dimensional tensors. -/
def addL (x y : List ℂ) : List ℂ := List.zipWith (· + ·) x y
def subL (x y : List ℂ) : List ℂ := List.zipWith (· - ·) x y
def negL (x : List ℂ) : List ℂ := x.map (- ·)

/-- L497, L825: `0.5*(sp + sm)`. -/
noncomputable def opSx : Tensor ℂ := opT ((1 / 2 : ℂ) • (Su2.SP 2 + Su2.SM 2))
/-- L498, L826: `-0.5*(sp - sm)`. -/
noncomputable def opIsy : Tensor ℂ := opT ((-(1 / 2) : ℂ) • (Su2.SP 2 - Su2.SM 2))

/-- L22, L849: `einsum('ki,kl,lj->ij', rot, op, rot)`. -/
def conjOp (o : Tensor ℂ) : Option (Tensor ℂ) :=
  let r := opT (Su2.rotOp 2)
  einsum [(r, [2, 0]), (o, [2, 3]), (r, [3, 1])] [0, 1]

/-- L23-L25, L850-L852: the operator at distance `r + 1`, rotated for even `r`. -/
def alternate (o : Tensor ℂ) : Option (Nat → Tensor ℂ) := do
  let x ← conjOp o
  return fun r => if r % 2 = 0 then x else o

/-- L500: `conjugate_op`. -/
def opAt (conjugate : Bool) (o : Tensor ℂ) : Option (Nat → Tensor ℂ) := if conjugate then alternate o else some fun _ => o

/-- L507, L861. -/
def spinCorr (z x y : List ℂ) : SpinCorr := ⟨subL (addL z x) y, z, x, negL y⟩

/-- L502-L505: one call of `corrf_1sO1sO`. -/
noncomputable def spinCall (st : State ℂ) (env : Env ℂ) (d : Dir) (c : Coord) (o1 o2 : Tensor ℂ) (dist : Nat) (conjugate : Bool) : Except Err (List ℂ) := do
  let f ← lift (opAt conjugate o2)
  Corrf.corrf11 st env d c o1 f dist

/-- L476-L508 `J1J2.eval_corrf_SS`. -/
noncomputable def evalCorrfSS (st : State ℂ) (env : Env ℂ) (d : Dir) (c : Coord) (dist : Nat) (conjugate : Bool) : Except Err SpinCorr := do
  let z ← spinCall st env d c (opT (Su2.SZ 2)) (opT (Su2.SZ 2)) dist conjugate
  let x ← spinCall st env d c opSx opSx dist conjugate
  let y ← spinCall st env d c opIsy opIsy dist conjugate
  return spinCorr z x y

/-- L510-L529 `J1J2.eval_corrf_SpSm`: the entries `spsm`, `smsp`. -/
noncomputable def evalCorrfSpSm (st : State ℂ) (env : Env ℂ) (d : Dir) (c : Coord) (dist : Nat) (conjugate : Bool) : Except Err (List ℂ × List ℂ) := do
  let x ← spinCall st env d c (opT (Su2.SP 2)) (opT (Su2.SM 2)) dist conjugate
  let y ← spinCall st env d c (opT (Su2.SM 2)) (opT (Su2.SP 2)) dist conjugate
  return (x, y)

/-- L823-L826: the operators `Sop_zxy`. -/
noncomputable def sops : Fin 3 → Tensor ℂ
  | 0 => opT (Su2.SZ 2)
  | 1 => opSx
  | 2 => opIsy

/-- `torch.trace(rdm@op)`. -/
def traceMul (r o : Tensor ℂ) : Option ℂ := do
  let x ← einsum [(r, [0, 1]), (o, [1, 0])] []
  return x.val []

/-- L830-L838: the components of the vector of magnetisation `[sz, (sp+sm)/2, (sp-sm)/2]`. -/
noncomputable def magnetisation (eigh : Tensor ℂ → List ℝ × Tensor ℂ) (a : Tensor ℂ) (env : C4v.Env ℂ) : Except Err (Fin 3 → ℂ) := do
  let r ← C4v.rdm1x1 eigh false false a env
  let z ← lift (traceMul r (opT (Su2.SZ 2)))
  let p ← lift (traceMul r (opT (Su2.SP 2)))
  let m ← lift (traceMul r (opT (Su2.SM 2)))
  return ![z, 1 / 2 * (p + m), 1 / 2 * (p - m)]

open Classical in
/-- L838: `s/torch.norm(s)`; not finite if the norm is zero. -/
noncomputable def unitVec (s : Fin 3 → ℂ) : Except Err (Fin 3 → ℂ) :=
  let n := Real.sqrt (∑ i, ‖s i‖ ^ 2)
  if n = 0 then .error .nan else .ok fun i => s i / (n : ℂ)

/-- L840-L841: the rotation matrix, with its `.t()`. -/
def rotMatrix (s : Fin 3 → ℂ) : Matrix (Fin 3) (Fin 3) ℂ := (!![s 0, -s 1, 0; s 1, s 0, 0; 0, 0, 1]).transpose

/-- L843: `einsum('ab,bij->aij', R, Sop)`; the sum is written out. -/
noncomputable def rotOps (R : Matrix (Fin 3) (Fin 3) ℂ) (S : Fin 3 → Tensor ℂ) (x : Fin 3) : Tensor ℂ := ⟨[2, 2], fun idx => ∑ y, R x y * (S y).val idx⟩

/-- L828-L843: the operators, in the frame of the magnetisation if `canonical`. -/
noncomputable def frameOps (eigh : Tensor ℂ → List ℝ × Tensor ℂ) (canonical : Bool) (a : Tensor ℂ) (env : C4v.Env ℂ) : Except Err (Fin 3 → Tensor ℂ) :=
  if canonical then do
    let s ← magnetisation eigh a env
    let s ← unitVec s
    return rotOps (rotMatrix s) sops
  else .ok sops

/-- L845-L859: one call of `corrf_c4v.corrf_1sO1sO`. -/
noncomputable def spinCallC4v (a : Tensor ℂ) (env : C4v.Env ℂ) (o : Tensor ℂ) (dist : Nat) : Except Err (List ℂ) := do
  let f ← lift (alternate o)
  C4v.corrf11 a env o f dist

/-- L803-L862 `J1J2_C4V_BIPARTITE.eval_corrf_SS`. -/
noncomputable def evalCorrfSSC4v (eigh : Tensor ℂ → List ℝ × Tensor ℂ) (a : Tensor ℂ) (env : C4v.Env ℂ) (dist : Nat) (canonical : Bool) : Except Err SpinCorr := do
  let S ← frameOps eigh canonical a env
  let z ← spinCallC4v a env (S 0) dist
  let x ← spinCallC4v a env (S 1) dist
  let y ← spinCallC4v a env (S 2) dist
  return spinCorr z x y

end Verif.Energy
