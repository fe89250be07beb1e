import Verif.Kagome.Su3Model
import Verif.Corrf.Model
/-
Model of /repo/models/SU3_chiral.py (SU3_CHIRAL), of /repo/models/SU3_AKLT.py (SU3_AKLT: operators, energies, observables) and of the functions S1_KAGOME adds in
/repo/models/spin1_kagome.py. Complex dtype throughout (SU3_AKLT stores real numbers). `rdm1x1` is called with its default mode `sl`.
-/
namespace Verif.KagomeRdm
open Tensor Ctm Rdm

/-- SU3_chiral.py L34-L87, SU3_AKLT.py L31-L36: `T[k] = v` for the listed keys, in this order. -/
def assign (T : Tensor ℂ) (l : List (List Nat × ℂ)) : Tensor ℂ := l.foldl (fun T q => ⟨T.shape, Function.update T.val q.1 q.2⟩) T

/-- `torch.zeros(s)`. -/
def zerosT (s : List Nat) : Tensor ℂ := ⟨s, fun _ => 0⟩

/-- The three nested loops `for i in range(3)`, `for j in range(3)`, `for k in range(3)`. -/
def triples : List (Nat × Nat × Nat) := (List.range 3).flatMap fun i => (List.range 3).flatMap fun j => (List.range 3).map fun k => (i, j, k)

/-- SU3_chiral.py L22-L23 and SU3_AKLT.py L14-L15 `fmap`. -/
def fmap (n1 n2 n3 : Nat) : Nat := n3 + 3 * n2 + 9 * n1

/-- SU3_chiral.py L27-L31 and SU3_AKLT.py L18-L22 `fmap_inv`. -/
def fmapInv (s : Nat) : Nat × Nat × Nat := (s / 9, (s - 9 * (s / 9)) / 3, s - 9 * (s / 9) - 3 * ((s - 9 * (s / 9)) / 3))

/-- SU3_chiral.py L39-L48 `exchange_bond_triangle`. -/
def exchTri : Tensor ℂ :=
  assign (zerosT [3, 3, 3, 3, 3, 3]) (triples.flatMap fun (i, j, k) => [([i, j, k, j, i, k], 1), ([i, j, k, i, k, j], 1), ([i, j, k, k, j, i], 1)])

/-- SU3_chiral.py L50-L56 `permute_triangle`. -/
def permTri : Tensor ℂ := assign (zerosT [3, 3, 3, 3, 3, 3]) (triples.map fun (i, j, k) => ([i, j, k, j, k, i], 1))

/-- SU3_chiral.py L51-L58 `permute_triangle_inv`. -/
def permTriInv : Tensor ℂ := assign (zerosT [3, 3, 3, 3, 3, 3]) (triples.map fun (i, j, k) => ([i, j, k, k, i, j], 1))

/-- SU3_chiral.py L61 and SU3_AKLT.py L39 `lambda_3`. -/
def lambda3 : Su3.Op := !![1, 0, 0; 0, -1, 0; 0, 0, 0]
/-- SU3_chiral.py L62 and SU3_AKLT.py L40 `lambda_8`. -/
noncomputable def lambda8 : Su3.Op := (1 / ((Real.sqrt 3 : ℝ) : ℂ)) • !![1, 0, 0; 0, 1, 0; 0, 0, -2]

/-- SU3_chiral.py L63-L76 and SU3_AKLT.py L41-L54: `lambda_3_1`, ..., `lambda_8_3`: the identity with the diagonal replaced. -/
noncomputable def lamSite (l : Su3.Op) (x : Fin 3) : Tensor ℂ :=
  assign (eyeT 27) ((List.range 27).map fun s =>
    let n := match x with | 0 => (fmapInv s).1 | 1 => (fmapInv s).2.1 | 2 => (fmapInv s).2.2
    ([s, s], (Models.opP 3 l).val [n, n]))

/-- SU3_chiral.py L78-L86 `su3_gens[:,:,x]`. -/
noncomputable def gens : Fin 8 → Su3.Op :=
  ![!![0, 1, 0; 1, 0, 0; 0, 0, 0], !![0, -Complex.I, 0; Complex.I, 0, 0; 0, 0, 0], lambda3, !![0, 0, 1; 0, 0, 0; 1, 0, 0], !![0, 0, -Complex.I; 0, 0, 0; Complex.I, 0, 0],
    !![0, 0, 0; 0, 0, 1; 0, 1, 0], !![0, 0, 0; 0, 0, -Complex.I; 0, Complex.I, 0], lambda8]

/-- SU3_chiral.py L90: the couplings `Kr`, `Ki`, `j1`, `j2`. -/
structure ChiralCouplings where
  Kr : ℝ
  Ki : ℝ
  j1 : ℝ
  j2 : ℝ

/-- SU3_chiral.py L104 `h_triangle`. -/
noncomputable def chiralH (m : ChiralCouplings) : Tensor ℂ :=
  Models.lin [3, 3, 3, 3, 3, 3] [(m.Kr + m.Ki * Complex.I, permTri), (m.Kr - m.Ki * Complex.I, permTriInv), ((m.j1 : ℂ), exchTri)]

/-- SU3_chiral.py L11-L15 `_cast_to_real`: an AssertionError for an imaginary part of `1e-8` or more. -/
noncomputable def castReal (v : ℂ) : Except Err ℝ := open Classical in if |v.im| < 1 / 10 ^ 8 then .ok v.re else .error .raise

/-- SU3_chiral.py L112-L115 `energy_triangle_dn`: the value is a pair (rdm_kagome.py L1284), which has no `is_complex`, an AttributeError. -/
noncomputable def chiralDn (m : ChiralCouplings) (st : State ℂ) (env : Env ℂ) : Except Err ℝ := do
  let _ ← dnTriangle st env (0, 0) (chiralH m)
  .error .raise

/-- SU3_chiral.py L117-L121 `energy_triangle_up`. -/
noncomputable def chiralUp (eigh : Tensor ℂ → List ℝ × Tensor ℂ) (m : ChiralCouplings) (st : State ℂ) (env : Env ℂ) : Except Err ℝ := do
  let r ← rdmUp eigh false st env (0, 0)
  let v ← lift (full6 r (chiralH m))
  castReal v

/-- SU3_chiral.py L142-L150 `P_bonds_nnn`: `rdm2x2_nnn_1` (rdm_kagome.py L1423-L1477) passes the unknown argument `csites` to `enlarged_corner`, a TypeError. -/
noncomputable def chiralNnnBonds (st : State ℂ) (env : Env ℂ) : Except Err (List ℝ) := do
  let _ ← dnTriangle st env (0, 0) (eyeT 27)
  .error .raise

/-- SU3_chiral.py L123-L128 `energy_nnn`. -/
noncomputable def chiralNnn (m : ChiralCouplings) (st : State ℂ) (env : Env ℂ) : Except Err ℝ := open Classical in
  if m.j2 = 0 then .ok 0 else do
    let v ← chiralNnnBonds st env
    return m.j2 * v.sum

/-- SU3_chiral.py L132-L135 `P_dn`: the operator is passed as `operator`, which the function swallows in `**kwargs`; its parameter `op` is missing, a TypeError. -/
def chiralPdn (_st : State ℂ) (_env : Env ℂ) : Except Err ℂ := .error .raise

/-- SU3_chiral.py L137-L140 `P_up`. -/
noncomputable def chiralPup (eigh : Tensor ℂ → List ℝ × Tensor ℂ) (st : State ℂ) (env : Env ℂ) : Except Err ℂ := do
  let r ← rdmUp eigh false st env (0, 0)
  lift (full6 r permTri)

/-- `rdm.rdm1x1((0,0), state, env, operator=o)`, a number. -/
noncomputable def op1x1 (eigh : Tensor ℂ → List ℝ × Tensor ℂ) (st : State ℂ) (env : Env ℂ) (o : Tensor ℂ) : Except Err ℂ := do
  let r ← rdm1x1 eigh true false st env (0, 0) (some o)
  return r.val []

/-- SU3_chiral.py L155-L174: `bond_op[fmap(i,j,k), fmap(*f(i,j,k))] = 1.`. -/
def bondOp (f : Nat → Nat → Nat → Nat) : Tensor ℂ := assign (zerosT [27, 27]) (triples.map fun (i, j, k) => ([fmap i j k, f i j k], 1))

/-- SU3_chiral.py L152-L176 `P_bonds_nn`: the bonds 23, 13 and 12. -/
noncomputable def chiralBonds (eigh : Tensor ℂ → List ℝ × Tensor ℂ) (st : State ℂ) (env : Env ℂ) : Except Err (ℝ × ℝ × ℝ) := do
  let n ← op1x1 eigh st env (eyeT 27)
  let a ← ratio (← op1x1 eigh st env (bondOp fun i j k => fmap i k j)) n
  let b ← ratio (← op1x1 eigh st env (bondOp fun i j k => fmap k j i)) n
  let c ← ratio (← op1x1 eigh st env (bondOp fun i j k => fmap j i k)) n
  return (a.re, b.re, c.re)

/-- SU3_chiral.py L178-L188 `eval_lambdas`. -/
noncomputable def chiralLambdas (eigh : Tensor ℂ → List ℝ × Tensor ℂ) (st : State ℂ) (env : Env ℂ) : Except Err ((ℂ × ℂ × ℂ) × (ℂ × ℂ × ℂ)) := do
  let n ← op1x1 eigh st env (eyeT 27)
  let a1 ← ratio (← op1x1 eigh st env (lamSite lambda3 0)) n
  let a2 ← ratio (← op1x1 eigh st env (lamSite lambda3 1)) n
  let a3 ← ratio (← op1x1 eigh st env (lamSite lambda3 2)) n
  let b1 ← ratio (← op1x1 eigh st env (lamSite lambda8 0)) n
  let b2 ← ratio (← op1x1 eigh st env (lamSite lambda8 1)) n
  let b3 ← ratio (← op1x1 eigh st env (lamSite lambda8 2)) n
  return ((a1, a2, a3), (b1, b2, b3))

/-- SU3_chiral.py L196, L203, L210: `einsum('ijx,klmn->ikmjlnx', gens, id2)`, `'ijx,klmn->kimljnx'`, `'ijx,klmn->kmilnjx'`, each with the last index fixed; then (L197) matrices of size 27. -/
noncomputable def genMat (J : Su3.Op) : Fin 3 → Option (Tensor ℂ)
  | 0 => do view [27, 27] (← einsum [(Models.opP 3 J, [0, 3]), (← idp2, [1, 4, 2, 5])] [0, 1, 2, 3, 4, 5])
  | 1 => do view [27, 27] (← einsum [(Models.opP 3 J, [1, 4]), (← idp2, [0, 3, 2, 5])] [0, 1, 2, 3, 4, 5])
  | 2 => do view [27, 27] (← einsum [(Models.opP 3 J, [2, 5]), (← idp2, [0, 3, 1, 4])] [0, 1, 2, 3, 4, 5])

/-- SU3_chiral.py L190-L214 `eval_su3_gens`: the printed values, for the sites 0, 1, 2. -/
noncomputable def chiralGens (eigh : Tensor ℂ → List ℝ × Tensor ℂ) (st : State ℂ) (env : Env ℂ) : Except Err (List (List ℂ)) := do
  let n ← op1x1 eigh st env (eyeT 27)
  (List.finRange 3).mapM fun x => (List.finRange 8).mapM fun k => do
    let o ← lift (genMat (gens k) x)
    ratio (← op1x1 eigh st env o) n

/-- SU3_chiral.py L216-L238 `eval_obs`: labels and values. -/
noncomputable def chiralObs (eigh : Tensor ℂ → List ℝ × Tensor ℂ) (st : State ℂ) (env : Env ℂ) : Except Err (List (String × ℂ)) := do
  let n ← op1x1 eigh st env (eyeT 27)
  [("l3_1", lamSite lambda3 0), ("l3_2", lamSite lambda3 1), ("l3_3", lamSite lambda3 2), ("l8_1", lamSite lambda8 0), ("l8_2", lamSite lambda8 1), ("l8_3", lamSite lambda8 2)].mapM
    fun q => do return (q.1, ← ratio (← op1x1 eigh st env q.2) n)

/-! ### spin1_kagome.py -/

/-- spin1_kagome.py L33-L43 `energy_nnn` with the coupling `j2`: neither S1_KAGOME nor S_HALF_KAGOME has an attribute `id_downT`, an AttributeError. -/
noncomputable def s1Nnn (j2 : ℝ) (_st : State ℂ) (_env : Env ℂ) : Except Err ℝ := open Classical in if j2 = 0 then .ok 0 else .error .raise

/-- spin1_kagome.py L51-L60 `P_bonds_nn`: `fmap` is not defined in the module, a NameError. -/
noncomputable def s1Bonds (eigh : Tensor ℂ → List ℝ × Tensor ℂ) (st : State ℂ) (env : Env ℂ) : Except Err (ℝ × ℝ × ℝ) := do
  let _ ← op1x1 eigh st env (eyeT 27)
  .error .raise

/-! ### SU3_AKLT.py -/

/-- SU3_AKLT.py L25-L36: `matP[s, fmap(...)] = 1.` with the digits of `s`. -/
def matP (f : Nat → Nat → Nat → Nat) : Tensor ℂ :=
  assign (zerosT [27, 27]) ((List.range 27).map fun s => let n := fmapInv s; ([s, f n.1 n.2.1 n.2.2], 1))

/-- SU3_AKLT.py L75, L138: `P123 + P123m`. -/
def aklt3 : Tensor ℂ := Models.lin [27, 27] [(1, matP fun a b c => fmap b c a), (1, matP fun a b c => fmap c a b)]

/-- SU3_AKLT.py L73-L80 `energy_triangle`. -/
noncomputable def akltDn (eigh : Tensor ℂ → List ℝ × Tensor ℂ) (st : State ℂ) (env : Env ℂ) : Except Err ℂ := do
  let r ← rdm1x1 eigh true false st env (0, 0) none
  let x ← lift (Models.mm r aklt3)
  let y ← lift (einsum [(x, [0, 0])] [])
  return 2 / 3 * y.val []

/-- SU3_AKLT.py L82-L105 `energy_triangle_up`: the module `rdm` has no `rdm2x2_id`, an AttributeError. -/
def akltUp (_st : State ℂ) (_env : Env ℂ) : Except Err ℂ := .error .raise

/-- SU3_AKLT.py L112-L117: `einsum('ii,ii->', rho, o)`. -/
def diag2 (r o : Tensor ℂ) : Option ℂ := do
  let x ← einsum [(r, [0, 0]), (o, [0, 0])] []
  return x.val []

/-- SU3_AKLT.py L108-L118 `eval_lambdas`. -/
noncomputable def akltLambdas (eigh : Tensor ℂ → List ℝ × Tensor ℂ) (st : State ℂ) (env : Env ℂ) : Except Err ((ℂ × ℂ × ℂ) × (ℂ × ℂ × ℂ)) := do
  let r ← rdm1x1 eigh true false st env (0, 0) none
  let a1 ← lift (diag2 r (lamSite lambda3 0))
  let a2 ← lift (diag2 r (lamSite lambda3 1))
  let a3 ← lift (diag2 r (lamSite lambda3 2))
  let b1 ← lift (diag2 r (lamSite lambda8 0))
  let b2 ← lift (diag2 r (lamSite lambda8 1))
  let b3 ← lift (diag2 r (lamSite lambda8 2))
  return ((a1, a2, a3), (b1, b2, b3))

/-- SU3_AKLT.py L120-L133 `eval_corrf_LL`. -/
noncomputable def akltLL (d : Dir) (st : State ℂ) (env : Env ℂ) (dist : Nat) : Except Err (List ℂ × List ℂ) := do
  let a ← Corrf.corrf11 st env d (0, 0) (lamSite lambda3 0) (fun _ => lamSite lambda3 0) dist
  let b ← Corrf.corrf11 st env d (0, 0) (lamSite lambda8 0) (fun _ => lamSite lambda8 0) dist
  return (a, b)

/-- SU3_AKLT.py L135-L143 `eval_corrf_PP`. -/
noncomputable def akltPP (eigh : Tensor ℂ → List ℝ × Tensor ℂ) (d : Dir) (st : State ℂ) (env : Env ℂ) (dist : Nat) : Except Err (List ℂ) := do
  let a ← Corrf.corrf11 st env d (0, 0) aklt3 (fun _ => aklt3) dist
  let e ← akltDn eigh st env
  return a.map fun x => x - (3 / 2 * e) ^ 2

end Verif.KagomeRdm
