import Verif.Rdm.PlaqModel
import Mathlib.Data.List.Sort
/-
Model of /repo/ctm/pess_kagome/rdm_kagome.py: the double-layer tensors (L30-L90), the enlarged corners (L92-L309), `rdm2x1_kagome`
(L767-L889), `rdm1x2_kagome` (L891-L1004), `rdm2x2_up_triangle_open` (L1008-L1130) and `rdm2x2_kagome` (L1286-L1417), and of
ipeps/ipeps_kagome.py L41-L54 `get_physical_dim`. `force_cpu`, `verbosity` and devices are not modelled. A size `-1` passed to `view` is
written as the size it stands for; torch refuses it when the other sizes multiply to zero.
-/
namespace Verif.KagomeRdm
open Tensor Ctm Rdm
variable {K : Type} [RCLike K]

/-- ipeps_kagome.py L49-L51: the integer whose cube is `n`. The code rounds the floating-point cube root and compares its cube with `n`;
here the rounding is exact. -/
def cubeRoot (n : Nat) : Option Nat := (List.range (n + 1)).find? (fun p => p ^ 3 = n)

/-- ipeps_kagome.py L41-L54 `get_physical_dim`: all site tensors must agree. -/
def physDim (st : State K) : Option Nat := do
  let ds ← st.keys.mapM (fun k => do cubeRoot ((← st.sites k).size 0))
  match ds.dedup with
  | [p] => some p
  | _ => none

/-- L12-L18 `_abc_to_012_site`: letters to numbers, sorted. Other letters raise a KeyError. -/
def abc012 (keep : List Char) : Option (List Nat) := do
  let l ← keep.mapM (fun ch => [('A', 2), ('B', 1), ('C', 0)].lookup ch)
  return l.insertionSort (· ≤ ·)

/-- L20-L28 `_expand_perm`, the loop: `c` is `c_sum`. -/
def expandGo (c : Nat) : List Nat → List Nat × List Nat
  | [] => ([], [])
  | n :: ns =>
    if n = 0 then expandGo c ns
    else (List.range' (2 * c) n ++ (expandGo (c + n) ns).1, List.range' (2 * c + n) n ++ (expandGo (c + n) ns).2)

/-- L20-L28 `_expand_perm`. -/
def expandPerm (ns : List Nat) : List Nat := (expandGo 0 ns).1 ++ (expandGo 0 ns).2

/-- L72-L87: for each list of open sites the physical labels of the bra and the trailing labels of the result. Letters: `m i k` are `0 1 2`,
`n j l` are `3 4 5`. Any other list leaves `contraction` undefined (UnboundLocalError). -/
def dlLabels : List Nat → Option (List Nat × List Nat)
  | [0, 1, 2] => some ([3, 4, 5], [0, 1, 2, 3, 4, 5])
  | [1, 2] => some ([0, 4, 5], [1, 2, 4, 5])
  | [0, 2] => some ([3, 1, 5], [0, 2, 3, 5])
  | [0, 1] => some ([3, 4, 2], [0, 1, 3, 4])
  | [0] => some ([3, 1, 2], [0, 3])
  | [1] => some ([0, 4, 2], [1, 4])
  | [2] => some ([0, 1, 5], [2, 5])
  | [] => some ([0, 1, 2], [])
  | _ => none

/-- L66-L90 of `double_layer_a`; `p` is `get_physical_dim`. Letters: `e f g h` are `6 7 8 9`, `a b c d` are `10 11 12 13`. -/
def doubleLayer (p : Nat) (A : Tensor K) (os : List Nat) : Option (Tensor K) := do
  let B ← view [p, p, p, A.size 1, A.size 2, A.size 3, A.size 4] A
  let (bra, out) ← dlLabels os
  let a ← einsum [(B, [0, 1, 2, 6, 7, 8, 9]), (B.conj, bra ++ [10, 11, 12, 13])] ([6, 10, 7, 11, 8, 12, 9, 13] ++ out)
  view ([A.size 1 ^ 2, A.size 2 ^ 2, A.size 3 ^ 2, A.size 4 ^ 2] ++ if os = [] then [] else [p ^ (2 * os.length)]) a

/-- The trailing axis of the permutations of `enlarged_corner`, `[4]*pleg`. -/
def leg (o : Bool) : List Nat := if o then [4] else []

/-- The trailing `[-1]*pleg` of the shapes of `enlarged_corner`. -/
def legSize (o : Bool) (a : Tensor K) : List Nat := if o then [a.size 4] else []

/-- L150-L176: the corner `LU` of the given tensors. -/
def lu (C T1 T2 a : Tensor K) (o : Bool) : Option (Tensor K) := do
  let x ← tensordot [1] [0] C T1
  let x ← tensordot [0] [0] x T2
  let x ← tensordot [0, 3] [0, 1] x a
  let x ← permute ([1, 2, 0, 3] ++ leg o) x
  view ([T2.size 1 * a.size 2, T1.size 2 * a.size 3] ++ legSize o a) x

/-- L194-L221: the corner `RU`. -/
def ru (C T1 T2 a : Tensor K) (o : Bool) : Option (Tensor K) := do
  let x ← tensordot [1] [0] C T1
  let x ← tensordot [0] [2] x T2
  let x ← tensordot [0, 3] [3, 0] x a
  let x ← permute ([1, 2, 0, 3] ++ leg o) x
  view ([T2.size 0 * a.size 1, T1.size 2 * a.size 2] ++ legSize o a) x

/-- L236-L263: the corner `RD`. -/
def rd (C T1 T2 a : Tensor K) (o : Bool) : Option (Tensor K) := do
  let x ← tensordot [1] [2] C T1
  let x ← tensordot [0] [2] x T2
  let x ← tensordot [0, 3] [2, 3] x a
  let x ← permute ([1, 2, 0, 3] ++ leg o) x
  view ([T2.size 0 * a.size 0, T1.size 1 * a.size 1] ++ legSize o a) x

/-- L281-L309: the corner `LD`. -/
def ld (C T1 T2 a : Tensor K) (o : Bool) : Option (Tensor K) := do
  let x ← tensordot [0] [1] C T1
  let x ← tensordot [0] [1] x T2
  let x ← tensordot [1, 2] [1, 2] x a
  let x ← permute ([0, 2, 1, 3] ++ leg o) x
  view ([T1.size 0 * a.size 0, T2.size 2 * a.size 3] ++ legSize o a) x

/-- `pleg= len(open_sites)>0`. -/
def pleg (os : List Nat) : Bool := decide (os ≠ [])

/-- L137-L176 `enlarged_corner(coord, ..., 'LU')`. -/
def cornerLU (st : State K) (env : Env K) (p : Nat) (k : Coord) (os : List Nat) : Option (Tensor K) := do
  let a ← doubleLayer p (← st.site k) os
  lu (← env.C (st.vts k, (-1, -1))) (← env.T (st.vts k, (0, -1))) (← env.T (st.vts k, (-1, 0))) a (pleg os)

/-- L178-L221 `enlarged_corner(coord, ..., 'RU')`: `coord` itself is the key. -/
def cornerRU (st : State K) (env : Env K) (p : Nat) (k : Coord) (os : List Nat) : Option (Tensor K) := do
  let a ← doubleLayer p (← st.site k) os
  ru (← env.C (k, (1, -1))) (← env.T (k, (1, 0))) (← env.T (k, (0, -1))) a (pleg os)

/-- L223-L263 `enlarged_corner(coord, ..., 'RD')`. -/
def cornerRD (st : State K) (env : Env K) (p : Nat) (k : Coord) (os : List Nat) : Option (Tensor K) := do
  let a ← doubleLayer p (← st.site k) os
  rd (← env.C (k, (1, 1))) (← env.T (k, (0, 1))) (← env.T (k, (1, 0))) a (pleg os)

/-- L265-L309 `enlarged_corner(coord, ..., 'LD')`. -/
def cornerLD (st : State K) (env : Env K) (p : Nat) (k : Coord) (os : List Nat) : Option (Tensor K) := do
  let a ← doubleLayer p (← st.site k) os
  ld (← env.C (k, (-1, 1))) (← env.T (k, (-1, 0))) (← env.T (k, (0, 1))) a (pleg os)

/-- L1358-L1361 and L1388-L1391: the permutation of a half, if any. -/
def halfPerm (o1 o2 : Bool) (x : Tensor K) : Option (Tensor K) :=
  if o1 && o2 then permute [0, 2, 1, 3] x else if o1 then permute [0, 2, 1] x else some x

/-- L1357-L1400 of `rdm2x2_kagome`: the four corners to the network with one fused index per corner that has open spins. -/
def join2x2 (LU RU RD LD : Tensor K) (o00 o10 o01 o11 : Bool) : Option (Tensor K) := do
  let up ← halfPerm o00 o10 (← tensordot [1] [0] LU RU)
  let lo ← halfPerm o01 o11 (← tensordot [1] [1] LD RD)
  tensordot [0, 1] [0, 1] up lo

/-- L1406-L1410: one index per spin, kets first. `ls` are the numbers of open spins. -/
def unfuse (p : Nat) (ls : List Nat) (x : Tensor K) : Option (Tensor K) := do
  let x ← view (List.replicate (2 * ls.sum) p) x
  permute (expandPerm ls) x

/-- L1335-L1410 of `rdm2x2_kagome`, with lists of numbers for `sites_to_keep`. -/
def raw2x2 (st : State K) (env : Env K) (c : Coord) (k00 k10 k01 k11 : List Nat) : Option (Tensor K) := do
  let p ← physDim st
  let LU ← cornerLU st env p c k00
  let RU ← cornerRU st env p (st.vts (c.1 + 1, c.2)) k10
  let RD ← cornerRD st env p (st.vts (c.1 + 1, c.2 + 1)) k11
  let LD ← cornerLD st env p (st.vts (c.1, c.2 + 1)) k01
  let x ← join2x2 LU RU RD LD (pleg k00) (pleg k10) (pleg k01) (pleg k11)
  unfuse p [k00.length, k10.length, k01.length, k11.length] x

/-- L1286-L1417 `rdm2x2_kagome`. -/
noncomputable def rdm2x2Kagome (eigh : Tensor K → List ℝ × Tensor K) (spd : Bool) (st : State K) (env : Env K) (c : Coord)
    (k00 k10 k01 k11 : List Char) : Except Err (Tensor K) := do
  let x ← lift (do raw2x2 st env c (← abc012 k00) (← abc012 k10) (← abc012 k01) (← abc012 k11))
  symRdm eigh spd x

/-- L1045-L1124 of `rdm2x2_up_triangle_open`. -/
def rawUp (st : State K) (env : Env K) (c : Coord) : Option (Tensor K) := do
  let p ← physDim st
  let LU ← cornerLU st env p c []
  let RU ← cornerRU st env p (st.vts (c.1 + 1, c.2)) [1]
  let up ← tensordot [1] [0] LU RU
  let RD ← cornerRD st env p (st.vts (c.1 + 1, c.2 + 1)) [0]
  let LD ← cornerLD st env p (st.vts (c.1, c.2 + 1)) [2]
  let x ← tensordot [1] [1] LD RD
  let lo ← permute [0, 2, 1, 3] x
  let x ← tensordot [0, 1] [0, 1] up lo
  let x ← view [p, p, p, p, p, p] x
  permute [0, 2, 4, 1, 3, 5] x

/-- L1008-L1130 `rdm2x2_up_triangle_open`. -/
noncomputable def rdmUp (eigh : Tensor K → List ℝ × Tensor K) (spd : Bool) (st : State K) (env : Env K) (c : Coord) : Except Err (Tensor K) := do
  symRdm eigh spd (← lift (rawUp st env c))

/-- L800-L883 of `rdm2x1_kagome`. -/
def raw2x1 (st : State K) (env : Env K) (c : Coord) (k00 k10 : List Nat) : Option (Tensor K) := do
  let p ← physDim st
  let LU ← cornerLU st env p c k00
  let C ← env.C (st.vts c, (-1, 1))
  let T2 ← env.T (st.vts c, (0, 1))
  let x ← tensordot [1] [1] C T2
  let LD ← view [C.size 0 * T2.size 0, T2.size 2] x
  let left ← tensordot [0] [0] LD LU
  let k := st.vts (c.1 + 1, c.2)
  let RU ← cornerRU st env p k k10
  let C ← env.C (k, (1, 1))
  let T1 ← env.T (k, (0, 1))
  let x ← tensordot [1] [2] C T1
  let RD ← view [C.size 0 * T1.size 0, T1.size 1] x
  let right ← tensordot [0] [1] RD RU
  let x ← tensordot [0, 1] [0, 1] left right
  unfuse p [k00.length, k10.length] x

/-- L767-L889 `rdm2x1_kagome`. -/
noncomputable def rdm2x1Kagome (eigh : Tensor K → List ℝ × Tensor K) (spd : Bool) (st : State K) (env : Env K) (c : Coord)
    (k00 k10 : List Char) : Except Err (Tensor K) := do
  let x ← lift (do raw2x1 st env c (← abc012 k00) (← abc012 k10))
  symRdm eigh spd x

/-- L915-L998 of `rdm1x2_kagome`. -/
def raw1x2 (st : State K) (env : Env K) (c : Coord) (k00 k01 : List Nat) : Option (Tensor K) := do
  let p ← physDim st
  let LU ← cornerLU st env p c k00
  let C ← env.C (st.vts c, (1, -1))
  let T1 ← env.T (st.vts c, (1, 0))
  let x ← tensordot [1] [0] C T1
  let RU ← view [C.size 0 * T1.size 1, T1.size 2] x
  let up ← tensordot [0] [1] RU LU
  let k := st.vts (c.1, c.2 + 1)
  let LD ← cornerLD st env p k k01
  let C ← env.C (k, (1, 1))
  let T2 ← env.T (k, (1, 0))
  let x ← tensordot [2] [0] T2 C
  let x ← permute [0, 2, 1] x
  let RD ← view [T2.size 0, C.size 1 * T2.size 1] x
  let lo ← tensordot [1] [1] RD LD
  let x ← tensordot [0, 1] [0, 1] up lo
  unfuse p [k00.length, k01.length] x

/-- L891-L1004 `rdm1x2_kagome`. -/
noncomputable def rdm1x2Kagome (eigh : Tensor K → List ℝ × Tensor K) (spd : Bool) (st : State K) (env : Env K) (c : Coord)
    (k00 k01 : List Char) : Except Err (Tensor K) := do
  let x ← lift (do raw1x2 st env c (← abc012 k00) (← abc012 k01))
  symRdm eigh spd x

end Verif.KagomeRdm
