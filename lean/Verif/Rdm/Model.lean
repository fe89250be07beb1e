import Verif.Ctm.MoveModel
/-
Model of /repo/ctm/generic/rdm.py: the symmetrisation L26-L69, `rdm1x1` (L71-L301), `rdm2x1` and `rdm1x2` (L304-L568, L622-L902).
`contract_with_unroll` and `oe.contract` are `einsum`; devices (`force_cpu`), logging, checkpointing and the autograd effect of
`torch.no_grad` are not modelled.
-/
namespace Verif.Rdm
open Tensor Ctm
variable {K : Type} [RCLike K]

/-- L38-L57 `_sym_pos_def_matrix`. `eigh` is the backend: eigenvalues and matrix of eigenvectors. A vanishing norm gives entries that are
not finite, `Err.nan`. Non-square matrices raise (torch would broadcast a single row or column). -/
noncomputable def symMatrix (eigh : Tensor K → List ℝ × Tensor K) (spd : Bool) (M : Tensor K) : Except Err (Tensor K) :=
  match M.shape with
  | [n, m] =>
    if n = m then
      let H : Tensor K := canon ⟨[n, n], fun idx => (1 / 2) * (M.val [idx.getD 0 0, idx.getD 1 0] + star (M.val [idx.getD 1 0, idx.getD 0 0]))⟩
      let D := (eigh H).1
      let U := (eigh H).2
      let P : Tensor K := canon ⟨[n, n], fun idx =>
        ∑ k ∈ Finset.range n, U.val [idx.getD 0 0, k] * ((max (D.getD k 0) 0 : ℝ) : K) * star (U.val [idx.getD 1 0, k])⟩
      let R := open Classical in if spd = true ∧ ∃ d ∈ D, d < 0 then P else H
      let norm : ℝ := RCLike.re (∑ k ∈ Finset.range n, R.val [k, k])
      open Classical in if norm = 0 then .error .nan else .ok ⟨[n, n], fun idx => R.val idx / (norm : K)⟩
    else .error .raise
  | _ => .error .raise

/-- L60-L69 `_sym_pos_def_rdm`: the first half of the axes are the rows. `reshape(m,-1)` with `m = 0` raises. -/
noncomputable def symRdm (eigh : Tensor K → List ℝ × Tensor K) (spd : Bool) (T : Tensor K) : Except Err (Tensor K) :=
  if T.shape.length % 2 = 0 then do
    let m := (T.shape.take (T.shape.length / 2)).prod
    if m = 0 then .error .raise
    else
      let M ← lift (view [m, T.shape.prod / m] T)
      let R ← symMatrix eigh spd M
      lift (view T.shape R)
  else .error .raise

/-- L199-L201: `einsum('mefgh,nabcd->eafbgchdmn',a,conj(a))` viewed with fused pairs. Letters `m e f g h a b c d n` are `0`-`9`. -/
def dlOpen (a : Tensor K) : Option (Tensor K) := do
  let x ← einsum [(a, [0, 1, 2, 3, 4]), (a.conj, [9, 5, 6, 7, 8])] [1, 5, 2, 6, 3, 7, 4, 8, 0, 9]
  view [a.size 1 ^ 2, a.size 2 ^ 2, a.size 3 ^ 2, a.size 4 ^ 2, a.size 0, a.size 0] x

/-- L203-L204: `einsum('mefgh,nm,nabcd->eafbgchd',a,operator,conj(a))`. -/
def dlOp (a o : Tensor K) : Option (Tensor K) := do
  let x ← einsum [(a, [0, 1, 2, 3, 4]), (o, [9, 0]), (a.conj, [9, 5, 6, 7, 8])] [1, 5, 2, 6, 3, 7, 4, 8]
  view [a.size 1 ^ 2, a.size 2 ^ 2, a.size 3 ^ 2, a.size 4 ^ 2] x

/-- The environment of one site in the order of env.py L211-L233 `get_site_env_t`. -/
structure SiteEnv (K : Type) where
  C1 : Tensor K
  C2 : Tensor K
  C3 : Tensor K
  C4 : Tensor K
  T1 : Tensor K
  T2 : Tensor K
  T3 : Tensor K
  T4 : Tensor K

/-- env.py L225-L233 with `k` the key of the site; rdm1x1_dl reads the same entries one by one. -/
def siteEnv (env : Env K) (k : Coord) : Option (SiteEnv K) := do
  let C1 ← env.C (k, (-1, -1))
  let C2 ← env.C (k, (1, -1))
  let C3 ← env.C (k, (1, 1))
  let C4 ← env.C (k, (-1, 1))
  let T1 ← env.T (k, (0, -1))
  let T2 ← env.T (k, (1, 0))
  let T3 ← env.T (k, (0, 1))
  let T4 ← env.T (k, (-1, 0))
  return ⟨C1, C2, C3, C4, T1, T2, T3, T4⟩

/-- L116-L251 of `rdm1x1_dl`: the contractions, with `A` the double-layer tensor. -/
def dl1x1 (e : SiteEnv K) (A : Tensor K) : Option (Tensor K) := do
  let x ← tensordot [0] [0] e.C1 e.T4
  let x ← tensordot [1] [0] x e.C4
  let x ← tensordot [2] [1] x e.T3
  let x ← tensordot [1, 2] [1, 2] x A
  let x ← tensordot [0, 1] [0, 2] e.T1 x
  let x ← tensordot [0] [0] e.C2 x
  let x ← tensordot [0, 1] [0, 2] e.T2 x
  tensordot [0, 1] [0, 1] x e.C3

/-- L260-L296 of `rdm1x1_sl`: the contraction. -/
def sl1x1 (e : SiteEnv K) (a : Tensor K) (o : Option (Tensor K)) : Option (Tensor K) := do
  let aop ← match o with
    | none => some a
    | some o => tensordot [1] [0] o a
  let T1 ← view [e.T1.size 0, a.size 1, a.size 1, e.T1.size 2] e.T1
  let T2 ← view [e.T2.size 0, a.size 4, a.size 4, e.T2.size 2] e.T2
  let T3 ← view [a.size 3, a.size 3, e.T3.size 1, e.T3.size 2] e.T3
  let T4 ← view [e.T4.size 0, e.T4.size 1, a.size 2, a.size 2] e.T4
  let env := [(e.C1, [0, 1]), (T1, [1, 2, 5, 9]), (T4, [0, 14, 3, 6]), (e.C2, [9, 8]), (T2, [8, 10, 11, 17]), (e.C3, [17, 13]),
    (T3, [15, 16, 12, 13]), (e.C4, [14, 12])]
  match o with
  | none => einsum (env ++ [(aop, [4, 2, 3, 15, 10]), (a.conj, [7, 5, 6, 16, 11])]) [4, 7]
  | some _ => einsum (env ++ [(aop, [4, 2, 3, 15, 10]), (a.conj, [4, 5, 6, 16, 11])]) []

/-- The un-normalised result of `rdm1x1`. The double-layer mode uses `coord` itself as a key (L116-L245), the single-layer mode
`vertexToSite(coord)`. -/
def raw1x1 (sl : Bool) (st : State K) (env : Env K) (c : Coord) (o : Option (Tensor K)) : Option (Tensor K) := do
  if sl then
    let e ← siteEnv env (st.vts c)
    sl1x1 e (← st.site c) o
  else
    let e ← siteEnv env c
    let a ← st.site c
    dl1x1 e (← match o with
      | none => dlOpen a
      | some o => dlOp a o)

/-- L71-L301 `rdm1x1`: symmetrised and normalised only without an operator. -/
noncomputable def rdm1x1 (eigh : Tensor K → List ℝ × Tensor K) (sl spd : Bool) (st : State K) (env : Env K) (c : Coord)
    (o : Option (Tensor K)) : Except Err (Tensor K) := do
  let x ← lift (raw1x1 sl st env c o)
  match o with
  | none => symRdm eigh spd x
  | some _ => return x

/-- The tensors of a two-site network, named as in `_get_rdm2x1_sl_tn` (L502-L546) and `_get_rdm1x2_sl_tn` (L828-L879): `b` is the second
site and `Cib`, `Tib` belong to it. `Ti` and `Tib` sit on the long sides, `S` and `Sb` on the short ones. -/
structure PairEnv (K : Type) where
  C1 : Tensor K
  C2 : Tensor K
  C3 : Tensor K
  C4 : Tensor K
  T1 : Tensor K
  T1b : Tensor K
  T3 : Tensor K
  T3b : Tensor K
  S : Tensor K
  Sb : Tensor K

/-- The entries read by `rdm2x1_dl` and `rdm2x1_sl` (L354-L471; L519-L533). -/
def pairH (st : State K) (env : Env K) (c : Coord) : Option (PairEnv K × Tensor K × Tensor K) := do
  let d := (c.1 + 1, c.2)
  let C1 ← env.C (st.vts c, (-1, -1))
  let C2 ← env.C (st.vts d, (1, -1))
  let C3 ← env.C (st.vts d, (1, 1))
  let C4 ← env.C (st.vts c, (-1, 1))
  let T1 ← env.T (st.vts c, (0, -1))
  let T1b ← env.T (st.vts d, (0, -1))
  let T3 ← env.T (st.vts c, (0, 1))
  let T3b ← env.T (st.vts d, (0, 1))
  let S ← env.T (st.vts c, (-1, 0))
  let Sb ← env.T (st.vts d, (1, 0))
  return (⟨C1, C2, C3, C4, T1, T1b, T3, T3b, S, Sb⟩, ← st.site c, ← st.site d)

/-- The entries read by `rdm1x2_dl` and `rdm1x2_sl`: `T1`, `T1b` are the left column, `T3`, `T3b` the right one. -/
def pairV (st : State K) (env : Env K) (c : Coord) : Option (PairEnv K × Tensor K × Tensor K) := do
  let d := (c.1, c.2 + 1)
  let C1 ← env.C (st.vts c, (-1, -1))
  let C2 ← env.C (st.vts c, (1, -1))
  let C3 ← env.C (st.vts d, (1, 1))
  let C4 ← env.C (st.vts d, (-1, 1))
  let T1 ← env.T (st.vts c, (-1, 0))
  let T1b ← env.T (st.vts d, (-1, 0))
  let T3 ← env.T (st.vts c, (1, 0))
  let T3b ← env.T (st.vts d, (1, 0))
  let S ← env.T (st.vts c, (0, -1))
  let Sb ← env.T (st.vts d, (0, 1))
  return (⟨C1, C2, C3, C4, T1, T1b, T3, T3b, S, Sb⟩, ← st.site c, ← st.site d)

/-- L352-L500 `rdm2x1_dl` without the symmetrisation. -/
def dl2x1 (e : PairEnv K) (a b : Tensor K) : Option (Tensor K) := do
  let A ← dlOpen a
  let x ← tensordot [1] [0] e.C1 e.T1
  let x ← tensordot [0] [0] x e.S
  let x ← tensordot [0, 3] [0, 1] x A
  let x ← permute [1, 2, 0, 3, 4, 5] x
  let lu ← view [e.S.size 1 * A.size 2, e.T1.size 2 * A.size 3, a.size 0, a.size 0] x
  let x ← tensordot [1] [1] e.C4 e.T3
  let ld ← view [e.C4.size 0 * e.T3.size 0, e.T3.size 2] x
  let left ← tensordot [0] [0] ld lu
  let B ← dlOpen b
  let x ← tensordot [1] [0] e.C2 e.Sb
  let x ← tensordot [0] [2] x e.T1b
  let x ← tensordot [0, 3] [3, 0] x B
  let x ← permute [1, 2, 0, 3, 4, 5] x
  let ru ← view [e.T1b.size 0 * B.size 1, e.Sb.size 2 * B.size 2, b.size 0, b.size 0] x
  let x ← tensordot [1] [2] e.C3 e.T3b
  let rd ← view [e.C3.size 0 * e.T3b.size 0, e.T3b.size 1] x
  let right ← tensordot [0] [1] rd ru
  let x ← tensordot [0, 1] [0, 1] left right
  permute [0, 2, 1, 3] x

/-- L534-L546 `_get_rdm2x1_sl_tn`: tensors with their labels, and the labels of the result. -/
def net2x1 (e : PairEnv K) (a b : Tensor K) : Option (List (Tensor K × List Nat) × List Nat) := do
  let T1 ← view [e.T1.size 0, a.size 1, a.size 1, e.T1.size 2] e.T1
  let T1x ← view [e.T1b.size 0, b.size 1, b.size 1, e.T1b.size 2] e.T1b
  let T2x ← view [e.Sb.size 0, b.size 4, b.size 4, e.Sb.size 2] e.Sb
  let T3 ← view [a.size 3, a.size 3, e.T3.size 1, e.T3.size 2] e.T3
  let T3x ← view [b.size 3, b.size 3, e.T3b.size 1, e.T3b.size 2] e.T3b
  let T4 ← view [e.S.size 0, e.S.size 1, a.size 2, a.size 2] e.S
  return ([(e.C1, [0, 1]), (T1, [1, 2, 5, 24]), (T4, [0, 9, 3, 6]), (a, [4, 2, 3, 10, 26]), (a.conj, [7, 5, 6, 11, 27]),
    (e.C4, [9, 8]), (T3, [10, 11, 8, 25]), (T1x, [24, 14, 17, 12]), (e.C2, [12, 13]), (T2x, [13, 15, 18, 21]),
    (b, [16, 14, 26, 22, 15]), (b.conj, [19, 17, 27, 23, 18]), (e.C3, [21, 20]), (T3x, [22, 23, 25, 20])], [4, 16, 7, 19])

/-- The contraction L562-L564. -/
def sl2x1 (e : PairEnv K) (a b : Tensor K) : Option (Tensor K) := do
  let tn ← net2x1 e a b
  einsum tn.1 tn.2

/-- L672-L826 `rdm1x2_dl` without the symmetrisation. -/
def dl1x2 (e : PairEnv K) (a b : Tensor K) : Option (Tensor K) := do
  let A ← dlOpen a
  let x ← tensordot [1] [0] e.C1 e.S
  let x ← tensordot [0] [0] x e.T1
  let x ← tensordot [0, 3] [0, 1] x A
  let x ← permute [1, 2, 0, 3, 4, 5] x
  let lu ← view [e.T1.size 1 * A.size 2, e.S.size 2 * A.size 3, a.size 0, a.size 0] x
  let x ← tensordot [1] [0] e.C2 e.T3
  let ru ← view [e.C2.size 0 * e.T3.size 1, e.T3.size 2] x
  let upper ← tensordot [0] [1] ru lu
  let B ← dlOpen b
  let x ← tensordot [0] [1] e.C4 e.T1b
  let x ← tensordot [0] [1] x e.Sb
  let x ← tensordot [1, 2] [1, 2] x B
  let x ← permute [0, 2, 1, 3, 4, 5] x
  let ld ← view [e.T1b.size 0 * B.size 0, e.Sb.size 2 * B.size 3, b.size 0, b.size 0] x
  let x ← tensordot [2] [0] e.T3b e.C3
  let x ← permute [0, 2, 1] x
  let rd ← view [e.T3b.size 0, e.C3.size 1 * e.T3b.size 1] x
  let lower ← tensordot [1] [1] rd ld
  let x ← tensordot [0, 1] [0, 1] upper lower
  permute [0, 2, 1, 3] x

/-- L867-L879 `_get_rdm1x2_sl_tn`. -/
def net1x2 (e : PairEnv K) (a b : Tensor K) : Option (List (Tensor K × List Nat) × List Nat) := do
  let T1 ← view [e.S.size 0, a.size 1, a.size 1, e.S.size 2] e.S
  let T2 ← view [e.T3.size 0, a.size 4, a.size 4, e.T3.size 2] e.T3
  let T2y ← view [e.T3b.size 0, b.size 4, b.size 4, e.T3b.size 2] e.T3b
  let T3y ← view [b.size 3, b.size 3, e.Sb.size 1, e.Sb.size 2] e.Sb
  let T4 ← view [e.T1.size 0, e.T1.size 1, a.size 2, a.size 2] e.T1
  let T4y ← view [e.T1b.size 0, e.T1b.size 1, b.size 2, b.size 2] e.T1b
  return ([(e.C1, [0, 1]), (T1, [1, 2, 5, 9]), (T4, [0, 24, 3, 6]), (a, [4, 2, 3, 25, 10]), (a.conj, [7, 5, 6, 26, 11]),
    (T2, [8, 10, 11, 27]), (e.C2, [9, 8]), (T4y, [24, 13, 14, 17]), (e.C4, [13, 12]), (T3y, [15, 18, 12, 21]),
    (b, [16, 25, 14, 15, 22]), (b.conj, [19, 26, 17, 18, 23]), (e.C3, [20, 21]), (T2y, [27, 22, 23, 20])], [4, 16, 7, 19])

/-- Its contraction L895-L897. -/
def sl1x2 (e : PairEnv K) (a b : Tensor K) : Option (Tensor K) := do
  let tn ← net1x2 e a b
  einsum tn.1 tn.2

/-- L304-L568 `rdm2x1`. -/
noncomputable def rdm2x1 (eigh : Tensor K → List ℝ × Tensor K) (sl spd : Bool) (st : State K) (env : Env K) (c : Coord) : Except Err (Tensor K) := do
  let (e, a, b) ← lift (pairH st env c)
  symRdm eigh spd (← lift (if sl then sl2x1 e a b else dl2x1 e a b))

/-- L622-L902 `rdm1x2`. -/
noncomputable def rdm1x2 (eigh : Tensor K → List ℝ × Tensor K) (sl spd : Bool) (st : State K) (env : Env K) (c : Coord) : Except Err (Tensor K) := do
  let (e, a, b) ← lift (pairV st env c)
  symRdm eigh spd (← lift (if sl then sl1x2 e a b else dl1x2 e a b))

end Verif.Rdm
