import Verif.Ctm.RunModel
/-
Model of the CTM algorithm for one-site C4v symmetric states: /repo/ctm/one_site_c4v/ctm_components_c4v.py, /repo/ctm/one_site_c4v/ctmrg_c4v.py and the class
`ENV_C4V` of /repo/ctm/one_site_c4v/env_c4v.py. Eigendecomposition and QR are parameters. Devices, checkpointing, logging and the acceleration by FPCM (off unless
`fpcm_freq > 0`) are not modelled.
-/
namespace Verif.C4v
open Tensor Ctm
variable {K : Type} [RCLike K]

/-- env_c4v.py L7-L77 `ENV_C4V`: one corner and one half-row tensor. -/
structure Env (K : Type) where
  chi : Nat
  C : Tensor K
  T : Tensor K

/-- ctm_components_c4v.py L9-L51 `c2x2_dl`. -/
def c2x2Dl (A C T : Tensor K) : Option (Tensor K) := do
  let x ← tensordot [1] [1] C T
  let x ← tensordot [0] [0] x T
  let x ← tensordot [1, 3] [0, 1] x A
  let x ← permute [1, 2, 0, 3] x
  view [T.size 1 * A.size 3, T.size 1 * A.size 2] x

/-- ctm_components_c4v.py L53-L130 `c2x2_sl`. -/
def c2x2Sl (a C T : Tensor K) : Option (Tensor K) := do
  let x ← tensordot [1] [1] C T
  let x ← tensordot [0] [0] x T
  let x ← view [x.size 0, a.size 1, a.size 1, x.size 2, a.size 2, a.size 2] x
  let x ← tensordot [1, 4] [1, 2] x a
  let x ← tensordot [1, 3, 4] [1, 2, 0] x a.conj
  let y ← permute [1, 2, 4, 0, 3, 5] x
  view [x.size 1 * a.size 3 * a.size 3, x.size 0 * a.size 4 * a.size 4] y

/-- `torch.diag(D)`, as a tensor of the same type as the environment (L266). -/
def diag (D : List ℝ) : Tensor K := ⟨[D.length, D.length], fun idx => if idx.getD 0 0 = idx.getD 1 0 then ((D.getD (idx.getD 0 0) 0 : ℝ) : K) else 0⟩

/-- ctmrg_c4v.py L268-L302: absorption into the half-row tensor, double-layer. `P` is already viewed with three indices. -/
def absorbDl (A T P : Tensor K) : Option (Tensor K) := do
  let x ← tensordot [0] [0] P T
  let x ← tensordot [0, 3] [0, 1] x A
  let x ← tensordot [1, 2] [0, 1] x P.conj
  permute [0, 2, 1] x

/-- ctmrg_c4v.py L376-L443 (and L514-L582): absorption into the half-row tensor, layer by layer. -/
def absorbSl (a T P : Tensor K) : Option (Tensor K) := do
  let x ← tensordot [0] [0] P T
  let x ← view [a.size 1, a.size 1, x.size 1, x.size 2, a.size 2, a.size 2] x
  let x ← tensordot [0, 4] [1, 2] x a
  let x ← tensordot [0, 3, 4] [1, 2, 0] x a.conj
  let y ← permute [0, 1, 2, 4, 3, 5] x
  let x ← view [x.size 0, x.size 1, a.size 3 ^ 2, a.size 4 ^ 2] y
  let x ← tensordot [1, 2] [0, 1] x P.conj
  permute [0, 2, 1] x

/-- ctmrg_c4v.py L305, L446: `0.5*(nT + nT.conj().permute(1,0,2))`. Sums of tensors of different shape raise. -/
noncomputable def symm (x : Tensor K) : Option (Tensor K) := do
  let y ← permute [1, 0, 2] x.conj
  if y.shape = x.shape then some ⟨x.shape, fun idx => (1 / 2 : K) * (x.val idx + y.val idx)⟩ else none

/-- ctmrg_c4v.py L178-L197 `_move_normalize_c`, the corner: divided by the magnitude of its first element. -/
noncomputable def normalizeC (x : Tensor K) : Except Err (Tensor K) :=
  if ¬ InB x.shape [0, 0] then .error .raise
  else if ‖x.val [0, 0]‖ = 0 then .error .nan
  else .ok (canon ⟨x.shape, fun idx => x.val idx / ((‖x.val [0, 0]‖ : ℝ) : K)⟩)

/-- ctmrg_c4v.py L224-L231: the double-layer tensor, unless it is one already. -/
def layers (a : Tensor K) : Option (Tensor K) := if a.shape.length = 4 then some a else Corner.doubleLayer a

/-- ctmrg_c4v.py L200-L322 `ctm_MOVE_dl`. `eig M chi` returns the leading values and vectors. -/
noncomputable def moveDl (inf : Bool) (eig : Tensor K → Nat → List ℝ × Tensor K) (a : Tensor K) (env : Env K) : Except Err (Env K) := do
  let A ← lift (layers a)
  let M ← lift (c2x2Dl A env.C env.T)
  let (D, P) := eig (canon M) env.chi
  let P ← lift (view [env.chi, env.T.size 2, env.chi] P)
  let nT ← lift (absorbDl A env.T P)
  let nT ← lift (symm nT)
  let C ← normalizeC (diag D)
  let T ← normalize inf nT
  return ⟨env.chi, C, T⟩

/-- ctmrg_c4v.py L325-L463 `ctm_MOVE_sl`. -/
noncomputable def moveSl (inf : Bool) (eig : Tensor K → Nat → List ℝ × Tensor K) (a : Tensor K) (env : Env K) : Except Err (Env K) := do
  let M ← lift (c2x2Sl a env.C env.T)
  let (D, P) := eig (canon M) env.chi
  let P ← lift (view [env.chi, env.T.size 2, env.chi] P)
  let nT ← lift (absorbSl a env.T P)
  let nT ← lift (symm nT)
  let C ← normalizeC (diag D)
  let T ← normalize inf nT
  return ⟨env.chi, C, T⟩

/-- ctmrg_c4v.py L465-L602 `ctm_MOVE_QR_sl`. `qr M` returns the first factor. L498: the columns of `C T`; L510: `P.t() @ C2X2 @ P`. -/
noncomputable def moveQr (inf : Bool) (qr : Tensor K → Tensor K) (a : Tensor K) (env : Env K) : Except Err (Env K) := do
  let M ← lift (c2x2Sl a env.C env.T)
  let H ← lift (do
    let x ← tensordot [1] [1] env.C env.T
    let x ← permute [0, 2, 1] x
    if 0 < env.chi ∧ x.shape.prod % env.chi = 0 then view [x.shape.prod / env.chi, env.chi] x else none)
  let P := qr (canon H)
  let Pt ← lift (permute [1, 0] P)
  let M ← lift (tensordot [1] [0] Pt M)
  let M ← lift (tensordot [1] [0] M P)
  let P ← lift (view [env.chi, env.T.size 2, env.chi] P)
  let nT ← lift (absorbSl a env.T P)
  let nT ← lift (symm nT)
  let C ← normalizeC M
  let T ← normalize inf nT
  return ⟨env.chi, C, T⟩

/-- ctmrg_c4v.py L76-L107: the loop of `run` with `fuel` iterations left, starting with iteration `i`. -/
def loop {E H : Type} (mv : Nat → E → Except Err E) (conv : Option (E → Option H → Bool × H)) : Nat → Nat → E → Option H → Except Err (E × Option H)
  | 0, _, env, h => .ok (env, h)
  | n + 1, i, env, h => do
    let env ← mv i env
    match conv with
    | none => loop mv conv n (i + 1) env h
    | some f =>
      let (c, h') := f env h
      if c then return (env, some h') else loop mv conv n (i + 1) env (some h')

/-- ctmrg_c4v.py L16-L108 `run` without FPCM; `qr` is given if `projector_svd_method == 'QR'`, L86: it is used after the iteration `fpcm_init_iter`. -/
noncomputable def run {H : Type} (inf : Bool) (eig : Tensor K → Nat → List ℝ × Tensor K) (qr : Option (Tensor K → Tensor K)) (init maxIter : Nat) (a : Tensor K)
    (conv : Option (Env K → Option H → Bool × H)) (env : Env K) : Except Err (Env K × Option H) :=
  loop (fun i env => match qr with
    | none => moveSl inf eig a env
    | some q => if init < i then moveQr inf q a env else moveSl inf eig a env) conv maxIter 0 env none

/-- ctmrg_c4v.py L110-L172 `run_dl` without FPCM. -/
noncomputable def runDl {H : Type} (inf : Bool) (eig : Tensor K → Nat → List ℝ × Tensor K) (maxIter : Nat) (a : Tensor K)
    (conv : Option (Env K → Option H → Bool × H)) (env : Env K) : Except Err (Env K × Option H) :=
  loop (fun _ env => moveDl inf eig a env) conv maxIter 0 env none

end Verif.C4v
