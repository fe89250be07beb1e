import Verif.Models.JqModel
/-
Model of /repo/models/jq.py, class `JQ_C4V_PLAQUETTE`: every tensor holds the four spins of a plaquette. The dtype is complex, couplings are real.
-/
namespace Verif.Models
open Tensor Ctm
open Energy (ssT idT comb pairOp)

/-- jq.py L765-L767 `bk`. -/
def bk (l : List Nat) : List Nat := l ++ l.map (· + l.length)

/-- jq.py L772-L773 `id3`. -/
def idT3 : Option (Tensor ℂ) := view [2, 2, 2, 2, 2, 2] ⟨[8, 8], fun idx => if idx.getD 0 0 = idx.getD 1 0 then 1 else 0⟩

/-- jq.py L777, L782-L784: the on-site term. -/
noncomputable def plaqSite (j q : ℝ) (ss ring : Tensor ℂ) : Option (Tensor ℂ) := do
  let x ← pairOp ss
  let y ← permute (bk [2, 3, 0, 1]) x
  let z ← permute (bk [0, 2, 1, 3]) x
  let w ← permute (bk [2, 0, 3, 1]) x
  view [16, 16] (comb [(j, x), (j, y), (j, z), (j, w), (-q, ring)])

/-- jq.py L796: `einsum('ijab,efgmno,qrsxyz->eifgjqrsmanobxyz', SS, id3, id3)`. -/
def plaqBond (ss : Tensor ℂ) : Option (Tensor ℂ) := do
  let i ← idT3
  einsum [(ss, [0, 1, 2, 3]), (i, [4, 5, 6, 7, 8, 9]), (i, [10, 11, 12, 13, 14, 15])] [4, 0, 5, 6, 1, 10, 11, 12, 7, 2, 8, 9, 3, 13, 14, 15]

/-- jq.py L803: `einsum('ijklabcd,efmn,ghxy->eifjkglhmanbcxdy', SSpSSp, id2, id2)`. -/
def plaqRing (ring : Tensor ℂ) : Option (Tensor ℂ) := do
  let i ← idT 2
  einsum [(ring, [0, 1, 2, 3, 4, 5, 6, 7]), (i, [8, 9, 10, 11]), (i, [12, 13, 14, 15])] [8, 0, 9, 1, 2, 12, 3, 13, 10, 4, 11, 5, 6, 14, 7, 15]

/-- jq.py L796-L807 and L812: the term of two neighbouring tensors. The two views of L807 and L812 are one. -/
noncomputable def plaqPair (j q : ℝ) (ss ring : Tensor ℂ) : Option (Tensor ℂ) := do
  let x ← plaqBond ss
  let r ← plaqRing ring
  let x1 ← permute (bk [0, 3, 2, 1, 6, 5, 4, 7]) x
  let x2 ← permute (bk [0, 2, 1, 3, 4, 5, 6, 7]) x
  let x3 ← permute (bk [0, 3, 2, 1, 5, 4, 6, 7]) x
  let r1 ← permute (bk [0, 2, 1, 3, 4, 6, 5, 7]) r
  view [16, 16, 16, 16] (lin (List.replicate 16 2) [(j, x), (j, x1), (-q, r), (j, x2), (j, x3), (-q, r1)])

/-- `einsum('ij,ij', rdm, op)`. -/
def full2 (r h : Tensor ℂ) : Option ℂ := do
  let x ← einsum [(r, [0, 1]), (h, [0, 1])] []
  return x.val []

/-- jq.py L824-L849 `JQ_C4V_PLAQUETTE.energy_1x1` with the operators of L762-L813; default arguments of the density matrices. -/
noncomputable def jqPlaq (eigh : Tensor ℂ → List ℝ × Tensor ℂ) (j q qi : ℝ) (a : Tensor ℂ) (env : C4v.Env ℂ) : Except Err ℂ := do
  let o ← lift (lessQuarter (ssT (1, 1, 1)))
  let ring ← lift (ringOp o)
  let h1 ← lift (plaqSite j q (ssT (1, 1, 1)) ring)
  let h2 ← lift (plaqPair j qi (ssT (1, 1, 1)) ring)
  let r1 ← C4v.rdm1x1 eigh false false a env
  let r2 ← C4v.rdm2x1 eigh false false a env
  let e1 ← lift (full2 r1 h1)
  let e2 ← lift (Energy.full4 r2 h2)
  return (e1 + e2) / 4

/-- jq.py L893-L897: `einsum(expr, rdm1x1, op)` for spin `r`; the labels `a b c` are 0 1 2, `i` is 3 and `j` is 4. -/
def plaqMeasure (rho op : Tensor ℂ) (r : Nat) : Option ℂ := do
  let x ← einsum [(rho, ([0, 1, 2] : List Nat).insertIdx r 3 ++ ([0, 1, 2] : List Nat).insertIdx r 4), (op, [3, 4])] []
  return x.val []

/-- The values that `JQ_C4V_PLAQUETTE.eval_obs` returns under the labels `avg_m`, `m{r}`, `sz{r}`, `sp{r}`, `sm{r}`. -/
structure PlaqObs where
  avg : ℝ
  m : List ℝ
  ops : List (ℂ × ℂ × ℂ)

/-- jq.py L889-L900 of `eval_obs`: the four spins. -/
noncomputable def plaqObs (eigh : Tensor ℂ → List ℝ × Tensor ℂ) (a : Tensor ℂ) (env : C4v.Env ℂ) : Except Err PlaqObs := do
  let rho ← C4v.rdm1x1 eigh false false a env
  let rho ← lift (view [2, 2, 2, 2, 2, 2, 2, 2] rho)
  let ops ← lift (([0, 1, 2, 3] : List Nat).mapM fun r => do
    let z ← plaqMeasure rho (Energy.opT (Su2.SZ 2)) r
    let p ← plaqMeasure rho (Energy.opT (Su2.SP 2)) r
    let m ← plaqMeasure rho (Energy.opT (Su2.SM 2)) r
    return (z, p, m))
  let ms := ops.map fun o => Real.sqrt ‖o.1 ^ 2 + o.2.1 * o.2.2‖
  return ⟨ms.sum / 4, ms, ops⟩

end Verif.Models
