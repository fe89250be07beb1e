import Verif.Kagome.TriModel
/-
Model of /repo/ctm/pess_kagome/rdm_kagome.py L467-L623 `rdm1x1_kagome`. `force_cpu`, `verbosity` and devices are not modelled.
-/
namespace Verif.KagomeRdm
open Tensor Ctm Rdm
variable {K : Type} [RCLike K]

/-- L516-L615: the contractions. The tensors the code calls `C2`, `C4`, `T1`, `T2`, `T3`, `T4` are `C4`, `C2`, `T4`, `T3`, `T2`, `T1` of `siteEnv`. The permuted tensor of
L541 is not used: L542 takes a view of the site tensor itself, which is contiguous. -/
def net1x1 (e : SiteEnv K) (p : Nat) (A : Tensor K) (ks : List Nat) : Option (Tensor K) := do
  let x ← tensordot [1] [0] e.C1 e.T1
  let y ← tensordot [0] [1] e.C4 e.T4
  let y ← tensordot [0] [1] y e.T3
  let B ← view (A.shape.drop 1 ++ [p, p, p]) A
  let y ← view [e.T4.size 0, B.size 1, B.size 1, B.size 2, B.size 2, e.T3.size 2] y
  let y ← tensordot [1, 3] [1, 2] y B
  let tc := [0, 1, 2].filter (· ∉ ks)
  let y ← tensordot ([1, 2] ++ tc.map (6 + ·)) ([1, 2] ++ tc.map (4 + ·)) y B.conj
  let n := ks.length
  let y ← permute ([0, 2, 3 + n + 1, 1, 3, 3 + n + 2] ++ (List.range n).map (4 + ·) ++ (List.range n).map (3 + n + 2 + 1 + ·)) y
  let y ← view [e.T4.size 0, B.size 0 ^ 2, e.T3.size 2, B.size 3 ^ 2, p ^ (2 * n)] y
  let z ← tensordot [0, 1] [0, 1] x y
  let w ← tensordot [1] [0] e.C2 e.T2
  let z ← tensordot [0, 1] [0, 2] w z
  let z ← tensordot [0, 1] [0, 1] z e.C3
  view (List.replicate (2 * n) p) z

/-- L496-L617. -/
def rawNew1x1 (st : State K) (env : Env K) (c : Coord) (ks : List Nat) : Option (Tensor K) := do
  let e ← siteEnv env (st.vts c)
  let A ← st.site c
  net1x1 e (← physDim st) A ks

/-- L467-L623 `rdm1x1_kagome`. -/
noncomputable def new1x1 (eigh : Tensor K → List ℝ × Tensor K) (spd : Bool) (st : State K) (env : Env K) (c : Coord) (keep : List Char) : Except Err (Tensor K) := do
  let x ← lift (do rawNew1x1 st env c (← abc012 keep))
  symRdm eigh spd x

end Verif.KagomeRdm
