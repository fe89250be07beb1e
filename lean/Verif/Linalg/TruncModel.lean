import Mathlib.Algebra.Order.Field.Basic
import Mathlib.Data.List.Basic
/-
Model of the truncation logic of /repo/linalg/custom_svd.py and /repo/linalg/custom_eig.py.
A matrix of singular vectors is the list of its columns; `α` and `β` are the types of columns.
The decompositions themselves (LAPACK, ARPACK, PROPACK, LOBPCG) are inputs.
-/
namespace Verif.Trunc
variable {K α β : Type} [Field K] [LinearOrder K]

/-- custom_svd.py L14 `gaps[gaps < abs_tol]= 0.`, one entry. -/
def regul (tol x : K) : K := if x < tol then 0 else x

/-- custom_svd.py L17-L18, one entry: `a` is the larger of two consecutive values. -/
def gap (tol a b : K) : K :=
  let g := (regul tol a - b) / (regul tol a + 1 / 10 ^ 16)
  if 1 < g then 0 else g

/-- custom_svd.py L12-L18: `gaps[:chi]-S[1:chi+1]` ... -/
def gaps (tol : K) (S : List K) (chi : Nat) : List K :=
  List.zipWith (gap tol) (S.take chi) ((S.drop 1).take chi)

/-- custom_svd.py L23-L26: `for i in range(n-1,-1,-1): if gaps[i] > eps: ...; break`. The first hit. -/
def searchDown (gs : List K) (eps : K) : Nat → Option Nat
  | 0 => none
  | n + 1 =>
    match gs[n]? with
    | none => none
    | some g => if eps < g then some n else searchDown gs eps n

/-- custom_svd.py L10, L20-L26: the value of `chi_new`. `none`: `gaps[chi-1]` raises IndexError. -/
def chiNew (eps : K) (gs : List K) (chi : Nat) : Option Nat :=
  match gs[chi - 1]? with
  | none => none
  | some g => some (if g < eps then (searchDown gs eps chi).getD chi else chi)

/-- `t[n:]= 0.` on a vector, `t[:, n:]= 0.` on a matrix of columns. -/
def zeroFrom {γ : Type} [Zero γ] (n : Nat) (l : List γ) : List γ :=
  l.take n ++ List.replicate (l.length - n) 0

/-- custom_svd.py L8-L35 `_keep_multiplets`; the same lines occur as L70-L93 (`truncated_svd_gesdd`) and
L182-L205 (`truncated_svd_symeig`). -/
def keepMultiplets [Zero α] [Zero β] (U : List α) (S : List K) (V : List β) (chi : Nat) (eps tol : K) :
    Option (List α × List K × List β) := do
  let cn ← chiNew eps (gaps tol S chi) chi
  let St := S.take chi
  some (zeroFrom (cn + 1) (U.take St.length), zeroFrom (cn + 1) St, zeroFrom (cn + 1) (V.take St.length))

/-- custom_svd.py L38-L100 `truncated_svd_gesdd` after the call of the decomposition; identical code in
`truncated_svd_af` L102-L142, `truncated_svd_symeig` L144-L211 and `truncated_svd_rsvd` L385-L425. -/
def truncSvd [Zero α] [Zero β] (keep : Bool) (U : List α) (S : List K) (V : List β) (chi : Nat) (eps tol : K) :
    Option (List α × List K × List β) :=
  if keep && decide (chi < S.length) then keepMultiplets U S V chi eps tol
  else
    let St := S.take (min chi S.length)
    some (U.take St.length, St, V.take St.length)

/-- custom_svd.py L341-L383 `truncated_svd_propack` after the decomposition, which is asked for
`chi + max(chi_extra,1)` triples. The truncated tensors of L379-L381 are computed, then `U, S, V` are
returned. -/
def truncSvdPropack [Zero α] [Zero β] (keep : Bool) (U : List α) (S : List K) (V : List β) (chi : Nat) (eps tol : K) :
    Option (List α × List K × List β) :=
  if keep && decide (chi < S.length) then keepMultiplets U S V chi eps tol
  else some (U, S, V)

/-- custom_svd.py L258-L283 `truncated_svd_symarnoldi` and L314-L339 `truncated_svd_arnoldi` after the
decomposition, which is asked for `chi + int(keep_multiplets)` triples. Here the gaps run over all
returned values. -/
def truncSvdArnoldi [Zero α] [Zero β] (keep : Bool) (U : List α) (S : List K) (V : List β) (chi : Nat) (eps tol : K) :
    Option (List α × List K × List β) :=
  if keep then do
    let cn ← chiNew eps (gaps tol S (S.length - 1)) chi
    let St := S.take chi
    some (zeroFrom (cn + 1) (U.take St.length), zeroFrom (cn + 1) St, zeroFrom (cn + 1) (V.take St.length))
  else some (U, S, V)

/-- custom_eig.py L7-L67 `truncated_eig_sym` after the decomposition: gaps of the magnitudes. -/
def truncEig [Zero α] (keep : Bool) (D : List K) (U : List α) (chi : Nat) (eps tol : K) :
    Option (List K × List α) :=
  if keep && decide (chi < D.length) then do
    let cn ← chiNew eps (gaps tol (D.map (fun x => |x|)) chi) chi
    let Dt := D.take chi
    some (zeroFrom (cn + 1) Dt, zeroFrom (cn + 1) (U.take Dt.length))
  else
    let Dt := D.take (min chi D.length)
    some (Dt, U.take Dt.length)

/-- custom_eig.py L69-L127 `truncated_eig_symarnoldi` after the decomposition, which is asked for
`chi + int(keep_multiplets)` pairs. -/
def truncEigArnoldi [Zero α] (keep : Bool) (D : List K) (U : List α) (chi : Nat) (eps tol : K) :
    Option (List K × List α) :=
  if keep then do
    let cn ← chiNew eps (gaps tol (D.map (fun x => |x|)) (D.length - 1)) chi
    let Dt := D.take chi
    some (zeroFrom (cn + 1) Dt, zeroFrom (cn + 1) (U.take Dt.length))
  else some (D, U)

end Verif.Trunc
