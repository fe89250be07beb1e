import Verif.Kagome.Model
import Verif.Energy.Model
/-
Model of /repo/ctm/pess_kagome/rdm_kagome.py: `trace1x1_dn_kagome` (L312-L462), `_old_rdm1x1_kagome` (L625-L763) and `rdm2x2_dn_triangle_with_operator` (L1132-L1284),
and of the expectation values of three-spin operators in /repo/models/spin_half_kagome.py. `force_cpu`, `verbosity` and devices are not modelled.
-/
namespace Verif.KagomeRdm
open Tensor Ctm Rdm
variable {K : Type} [RCLike K]

/-- L341 and L364-L365, L1180-L1182: an operator of rank six with equal sizes is fused to a matrix; another rank than two or six fails the assertion. -/
def fuseOp (o : Tensor K) : Option (Tensor K) :=
  if o.shape.length = 2 ∨ o.shape.length = 6 then
    if o.shape.length = 6 ∧ o.shape.dedup.length = 1 then view [o.size 0 ^ 3, o.size 0 ^ 3] o else some o
  else none

/-- L1198-L1199: `einsum('mefgh,mabcd->eafbgchd', a, conj(a))` with fused pairs. -/
def dlClosed (a : Tensor K) : Option (Tensor K) := do
  let x ← einsum [(a, [0, 1, 2, 3, 4]), (a.conj, [0, 5, 6, 7, 8])] [1, 5, 2, 6, 3, 7, 4, 8]
  view [a.size 1 ^ 2, a.size 2 ^ 2, a.size 3 ^ 2, a.size 4 ^ 2] x

/-- L1185-L1278 of `rdm2x2_dn_triangle_with_operator`: the network with the operator in the upper left tensor and the network without. The contractions of
L1204-L1230 are those of `enlarged_corner`; `a_op` and `a` have equal sizes. -/
def rawDn (st : State K) (env : Env K) (c : Coord) (o : Tensor K) : Option (K × K) := do
  let o ← fuseOp o
  let C ← env.C (st.vts c, (-1, -1))
  let T1 ← env.T (st.vts c, (0, -1))
  let T2 ← env.T (st.vts c, (-1, 0))
  let A ← st.site c
  let LU ← lu C T1 T2 (← dlClosed A) false
  let LUo ← lu C T1 T2 (← dlOp A o) false
  let p ← physDim st
  let RU ← cornerRU st env p (st.vts (c.1 + 1, c.2)) []
  let upo ← tensordot [1] [0] LUo RU
  let up ← tensordot [1] [0] LU RU
  let RD ← cornerRD st env p (st.vts (c.1 + 1, c.2 + 1)) []
  let LD ← cornerLD st env p (st.vts (c.1, c.2 + 1)) []
  let lo ← tensordot [1] [1] LD RD
  let x ← tensordot [0, 1] [0, 1] upo lo
  let y ← tensordot [0, 1] [0, 1] up lo
  return (x.val [], y.val [])

/-- L1277-L1284: the norm is made real (`_cast_to_real`); a vanishing norm gives values that are not finite. -/
noncomputable def quotient (q : K × K) : Except Err (K × ℝ) :=
  open Classical in if RCLike.re q.2 = 0 then .error .nan else .ok (q.1 / ((RCLike.re q.2 : ℝ) : K), RCLike.re q.2)

/-- L1132-L1284 `rdm2x2_dn_triangle_with_operator`: the normalised value and the norm. -/
noncomputable def dnTriangle (st : State K) (env : Env K) (c : Coord) (o : Tensor K) : Except Err (K × ℝ) := do
  quotient (← lift (rawDn st env c o))

/-- L341-L457 of `trace1x1_dn_kagome`. The contractions are those of `rdm1x1_dl` (rdm.py L116-L251) with the same orders of indices; `T1`-`T4`, `C2`, `C4` are named
differently. The last corner is read with `coord` itself as key (L457). -/
def trace1x1 (st : State K) (env : Env K) (c : Coord) (o : Tensor K) : Option K := do
  if ¬ (o.shape.length = 2 ∨ o.shape.length = 6) then none
  let e ← siteEnv env (st.vts c)
  let A ← st.site c
  let o ← fuseOp o
  let a ← dlOp A o
  let C ← env.C (c, (1, 1))
  let x ← dl1x1 { e with C3 := C } a
  return x.val []

/-- L640-L759 of `_old_rdm1x1_kagome`, with numbers for `sites_to_keep`; same contractions. -/
def rawOld1x1 (st : State K) (env : Env K) (c : Coord) (ks : List Nat) : Option (Tensor K) := do
  let e ← siteEnv env (st.vts c)
  let p ← physDim st
  let a ← doubleLayer p (← st.site c) ks
  let x ← dl1x1 e a
  view (List.replicate (2 * ks.length) p) x

/-- L625-L763 `_old_rdm1x1_kagome`. -/
noncomputable def old1x1 (eigh : Tensor K → List ℝ × Tensor K) (spd : Bool) (st : State K) (env : Env K) (c : Coord) (keep : List Char) : Except Err (Tensor K) := do
  let x ← lift (do rawOld1x1 st env c (← abc012 keep))
  symRdm eigh spd x

/-- spin_half_kagome.py L183, L206, L219, L242: `einsum('ijkmno,mnoijk', rdm, op)`. -/
def full6 (r o : Tensor K) : Option K := do
  let x ← einsum [(r, [0, 1, 2, 3, 4, 5]), (o, [3, 4, 5, 0, 1, 2])] []
  return x.val []

/-- spin_half_kagome.py L181, L205, L218, L241: `einsum('ijkijk', rdm)`. -/
def norm6 (r : Tensor K) : Option K := do
  let x ← einsum [(r, [0, 1, 2, 0, 1, 2])] []
  return x.val []

end Verif.KagomeRdm
