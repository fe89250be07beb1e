import Verif.C4v.Model
import Verif.Ctm.EnvModel
/-
Model of /repo/ctm/one_site_c4v/env_c4v.py: `ENV_C4V.extend` (L133-L154), `init_env` (L166-L213), `init_prod` (L215-L246), `init_random` (L249-L254),
`init_from_ipeps_pbc` (L257-L311), `init_from_ipeps_obc` (L315-L355), `init_from_ipeps_obc_sl` (L357-L386) and `compute_multiplets` (L401-L417).
Eigendecomposition and random numbers are parameters. dtype, device, gradient tracking and printing are not modelled.
-/
namespace Verif.C4v
open Tensor Ctm
variable {K : Type} [RCLike K]

/-- env_c4v.py L276, letters m=0, i=1, j=2, e=3, f=4, a=6, b=7: the corner with its outer legs traced. -/
def cornerBlk : Block := ⟨[0, 1, 2, 3, 4], [0, 1, 2, 6, 7], [3, 6, 4, 7], [(3, true), (4, true)]⟩

/-- env_c4v.py L300, letters m=0, i=1, e=3, f=4, g=5, a=6, b=7, c=8: the half-row tensor with its outer leg traced. -/
def halfBlk : Block := ⟨[0, 3, 1, 4, 5], [0, 6, 1, 7, 8], [3, 6, 4, 7, 5, 8], [(1, true), (3, true), (4, false)]⟩

/-- env_c4v.py L331, L349: the same with the outer legs of ket and bra summed separately; k=9, l=10. -/
def cornerObc : Block := ⟨[0, 1, 2, 3, 4], [0, 9, 10, 6, 7], [3, 6, 4, 7], [(3, true), (4, true)]⟩

def halfObc : Block := ⟨[0, 3, 1, 4, 5], [0, 6, 9, 7, 8], [3, 6, 4, 7, 5, 8], [(1, true), (3, true), (4, false)]⟩

/-- env_c4v.py L276-L279, L300-L303: contract ket and bra, fuse, divide by the largest modulus. -/
noncomputable def traced (b : Block) (A : Tensor K) : Except Err (Tensor K) := do
  let a ← lift (einsum [(A, b.ket), (A.conj, b.bra)] b.out)
  let a ← lift (view (b.legs.map (fun l => A.size l.1 ^ 2)) a)
  normMax a

/-- env_c4v.py L239-L240, L281-L282, L306-L307: `(y-x).norm()/x.abs().max() < 1.0e-8`, asserted; `0/0` is not less than anything. -/
noncomputable def checkSym (x y : Tensor K) : Except Err Unit :=
  if x.shape = y.shape ∧ vecNorm true x ≠ 0 ∧ vecNorm false (⟨x.shape, fun idx => y.val idx - x.val idx⟩ : Tensor K) / vecNorm true x < 1 / 10 ^ 8 then .ok ()
  else .error .raise

/-- env_c4v.py L286-L288, L309-L311: `dst= zeros(sh); dst[:n0,:n1,...]= a[:n0,:n1,...]`. -/
def put (sh n : List Nat) (a : Tensor K) : Except Err (Tensor K) := do
  let a ← lift (slice n a)
  lift (assignBlock n a (zeros sh))

/-- env_c4v.py L262-L311 `_init_from_ipeps_pbc` with the bra the conjugate of the ket (L257-L260). -/
noncomputable def initPbc (eig : Tensor K → Nat → List ℝ × Tensor K) (A : Tensor K) (chi : Nat) : Except Err (Env K) := do
  let c ← traced cornerBlk A
  let ct ← lift (permute [1, 0] c.conj)
  checkSym c ct
  let C ← put [chi, chi] [min chi (A.size 3 ^ 2), min chi (A.size 4 ^ 2)] (diag (eig c (c.size 0)).1)
  let t ← traced halfBlk A
  let t ← lift (einsum [((eig c (c.size 0)).2, [0, 3]), (t, [0, 1, 2]), ((eig c (c.size 0)).2.conj, [1, 4])] [3, 4, 2])
  let tt ← lift (permute [1, 0, 2] t.conj)
  checkSym t tt
  let T ← put [chi, chi, A.size 4 ^ 2] [min chi (A.size 1 ^ 2), min chi (A.size 3 ^ 2), A.size 4 ^ 2] t
  return ⟨chi, C, T⟩

/-- env_c4v.py L315-L355 `init_from_ipeps_obc`. -/
noncomputable def initObc (A : Tensor K) (chi : Nat) : Except Err (Env K) := do
  let C ← initBlock true chi cornerObc A
  let T ← initBlock true chi halfObc A
  return ⟨chi, C, T⟩

/-- env_c4v.py L357-L386 `init_from_ipeps_obc_sl`: a site without physical index. -/
noncomputable def initObcSl (A : Tensor K) (chi : Nat) : Except Err (Env K) := do
  if A.shape.length = 4 then
    let a ← lift (einsum [(A, [0, 1, 2, 3])] [2, 3])
    let a ← normMax a
    let C ← put [chi, chi] [min chi (A.size 2), min chi (A.size 3)] a
    let a ← lift (einsum [(A, [0, 1, 2, 3])] [0, 2, 3])
    let a ← normMax a
    let T ← put [chi, chi, A.size 3] [min chi (A.size 0), min chi (A.size 2), A.size 3] a
    return ⟨chi, C, T⟩
  else .error .raise

/-- env_c4v.py L231-L236: the transfer matrix of `init_prod`. -/
noncomputable def prodMatrix (A : Tensor K) : Option (Tensor K) :=
  if A.shape.length = 4 then einsum [(A, [0, 1, 2, 3])] [0, 2]
  else do
    let a ← einsum [(A, [0, 3, 1, 4, 2]), (A.conj, [0, 6, 1, 7, 2])] [3, 6, 4, 7]
    view [A.size 1 ^ 2, A.size 3 ^ 2] a

/-- env_c4v.py L243: `D[1]` has to exist and to differ from `D[0]`. -/
noncomputable def checkGap (D : List ℝ) : Except Err Unit :=
  if 2 ≤ D.length ∧ 1 / 10 ^ 8 < |D.getD 0 0 - D.getD 1 0| then .ok () else .error .raise

/-- env_c4v.py L245-L246: `T[0,0,:]= v` in a tensor of zeros of shape `sh`. -/
def putVec (sh : List Nat) (v : Nat → K) (n : Nat) : Except Err (Tensor K) :=
  match sh with
  | [k, l, m] => if 0 < k ∧ 0 < l ∧ (n = m ∨ n = 1) then
      .ok ⟨sh, fun idx => if idx.getD 0 0 = 0 ∧ idx.getD 1 0 = 0 then v (if n = 1 then 0 else idx.getD 2 0) else 0⟩ else .error .raise
  | _ => .error .raise

/-- env_c4v.py L217-L218: zeros with a one in the corner. -/
def unitCorner (sh : List Nat) : Except Err (Tensor K) :=
  if InB sh [0, 0] then .ok ⟨sh, fun idx => if idx.getD 0 0 = 0 ∧ idx.getD 1 0 = 0 then 1 else 0⟩ else .error .raise

/-- env_c4v.py L215-L246 `init_prod`; the shapes are those of the tensors in `env`. -/
noncomputable def initProd (eig : Tensor K → Nat → List ℝ × Tensor K) (A : Tensor K) (env : Env K) : Except Err (Env K) := do
  let C ← unitCorner env.C.shape
  let a ← lift (prodMatrix A)
  let a ← normMax a
  let at' ← lift (permute [1, 0] a.conj)
  checkSym a at'
  checkGap (eig a 2).1
  let T ← putVec env.T.shape (fun i => (eig a 2).2.val [i, 0]) ((eig a 2).2.size 0)
  return ⟨env.chi, C, T⟩

/-- env_c4v.py L249-L254 `init_random`; `rC`, `rT` are the values returned by `torch.rand`. -/
noncomputable def initRandom (rC rT : List Nat → K) (env : Env K) : Env K :=
  ⟨env.chi, ⟨env.C.shape, fun idx => (1 / 2 : K) * (rC [idx.getD 0 0, idx.getD 1 0] + star (rC [idx.getD 1 0, idx.getD 0 0]))⟩, ⟨env.T.shape, rT⟩⟩

/-- env_c4v.py L185-L195: `C_and_T`, a pair of tensors of rank two and three. The corner is written into the present one. -/
def initGiven (C T : Tensor K) (env : Env K) : Except Err (Env K) := do
  let C' ← lift (assignBlock [C.size 0, C.size 0] C env.C)
  let T' ← lift (assignBlock [C.size 0, C.size 0, T.size 2] T (zeros [env.chi, env.chi, T.size 2]))
  return ⟨env.chi, C', T'⟩

/-- `ctm_env_init_type`; `random` with the numbers that are drawn. -/
inductive InitKind (K : Type)
  | prod
  | random (rC rT : List Nat → K)
  | ctmrg
  | ctmrgObc
  | ctmrgObcSl
  | other

/-- env_c4v.py L197-L213. -/
noncomputable def initKind (eig : Tensor K → Nat → List ℝ × Tensor K) (k : InitKind K) (A : Tensor K) (env : Env K) : Except Err (Env K) :=
  match k with
  | .prod => initProd eig A env
  | .random rC rT => .ok (initRandom rC rT env)
  | .ctmrg => if A.shape.length = 4 then .error .raise else initPbc eig A env.chi
  | .ctmrgObc => if A.shape.length = 4 then .error .raise else initObc A env.chi
  | .ctmrgObcSl => initObcSl A env.chi
  | .other => .error .raise

/-- env_c4v.py L166-L213 `init_env`. -/
noncomputable def initEnv (eig : Tensor K → Nat → List ℝ × Tensor K) (k : InitKind K) (given : Option (Tensor K × Tensor K)) (A : Tensor K) (env : Env K) :
    Except Err (Env K) :=
  match given with
  | some (C, T) => initGiven C T env
  | none => initKind eig k A env

/-- env_c4v.py L53-L76 `ENV_C4V.__init__`: zeros. -/
def emptyEnv (chi bond : Nat) : Env K := ⟨chi, zeros [chi, chi], zeros [chi, chi, bond ^ 2]⟩

/-- env_c4v.py L133-L154 `ENV_C4V.extend`; `bond` is the attribute `bond_dim`. -/
def extendEnv (bond new : Nat) (env : Env K) : Except Err (Env K) := do
  let C ← lift (slice [min env.chi new, min env.chi new] env.C)
  let C ← lift (assignBlock [min env.chi new, min env.chi new] C (emptyEnv new bond : Env K).C)
  let T ← lift (slice [min env.chi new, min env.chi new, bond ^ 2] env.T)
  let T ← lift (assignBlock [min env.chi new, min env.chi new, bond ^ 2] T (emptyEnv new bond : Env K).T)
  return ⟨new, C, T⟩

/-- env_c4v.py L408-L416: the loop over the gaps of the sorted magnitudes; `l` counts the values since the last gap. -/
noncomputable def multLoop (eps : ℝ) : List ℝ → Nat → List Nat
  | x :: y :: ds, l => if eps < x - y then (l + 1) :: multLoop eps (y :: ds) 0 else multLoop eps (y :: ds) (l + 1)
  | _, _ => []

/-- env_c4v.py L401-L417 `compute_multiplets`; `ev` are the eigenvalues of the corner. A zero is appended, then magnitudes are sorted. -/
noncomputable def multiplets (eps : ℝ) (ev : List ℝ) : List Nat :=
  multLoop eps ((ev.map abs ++ [0]).mergeSort (fun a b => decide (b ≤ a))) 0

end Verif.C4v
