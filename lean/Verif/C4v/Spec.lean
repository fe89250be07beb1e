import Verif.C4v.Model
import Verif.Ctm.CornerSpec
/-
Specification of the C4v environment. Labels as in `Ctm/CornerSpec`: `0`-`3` environment bonds; `4, 6, 8, 10` bonds of the ket (up, left, down, right), `5, 7, 9, 11`
of the bra, `12` the physical index; `14`, `15` are the new environment bonds.
-/
namespace Verif.C4v
open Tensor
variable {K : Type} [RCLike K]

/-- Environment bonds have size `chi`, virtual bonds size `D`, the physical index size `p`. -/
def Spec.dim (chi D p : Nat) (l : Nat) : Nat := if l < 4 ∨ 14 ≤ l then chi else if l = 12 ∨ l = 13 then p else D

/-- Sizes of a site tensor and an environment that belong together. -/
structure Spec.Fits (chi D p : Nat) (a : Tensor K) (env : Env K) : Prop where
  site : a.shape = [p, D, D, D, D]
  bond : env.chi = chi
  corner : env.C.shape = [chi, chi]
  half : env.T.shape = [chi, chi, D * D]

/-- The enlarged corner: corner, half-row tensor above and to the left of the site, the site. All of them read as in the documentation of `ENV_C4V`. -/
def Spec.corner (dim : Nat → Nat) (C T a : Tensor K) (σ : Nat → Nat) : K :=
  C.val [σ 0, σ 1] * T.val [σ 2, σ 1, Corner.Spec.fused dim σ 4 5] * T.val [σ 0, σ 3, Corner.Spec.fused dim σ 6 7] * Corner.Spec.site a 12 σ

/-- The enlarged half-row: half-row tensor and site between the projector (above) and its conjugate (below). -/
def Spec.half (dim : Nat → Nat) (P T a : Tensor K) (σ : Nat → Nat) : K :=
  P.val [ravel [dim 0, dim 4, dim 5] [σ 0, σ 4, σ 5], σ 14] * T.val [σ 0, σ 3, Corner.Spec.fused dim σ 6 7] * Corner.Spec.site a 12 σ
    * star (P.val [ravel [dim 3, dim 8, dim 9] [σ 3, σ 8, σ 9], σ 15])

/-- `C_{ij} = conj C_{ji}` and `T_{ija} = conj T_{jia}` (env_c4v.py L49-L50). -/
def Spec.Hermitian (env : Env K) : Prop :=
  (∀ i j, i < env.chi → j < env.chi → env.C.val [i, j] = star (env.C.val [j, i])) ∧
  (∀ i j s, i < env.chi → j < env.chi → s < env.T.size 2 → env.T.val [i, j, s] = star (env.T.val [j, i, s]))

def Spec.Diagonal (env : Env K) : Prop := ∀ i j, i < env.chi → j < env.chi → i ≠ j → env.C.val [i, j] = 0

/-- The site tensor is invariant under the reflection that exchanges up with left and down with right, combined with complex conjugation. -/
def Spec.Reflected (D p : Nat) (a : Tensor K) : Prop :=
  ∀ s u l d r, s < p → u < D → l < D → d < D → r < D → a.val [s, u, l, d, r] = star (a.val [s, l, u, r, d])

/-- What is asked of an eigendecomposition that is to return `chi` values: the shapes. -/
def Spec.EigShape (eig : Tensor K → Nat → List ℝ × Tensor K) : Prop :=
  ∀ M n chi, M.shape = [n, n] → chi ≤ n → (eig M chi).1.length = chi ∧ (eig M chi).2.shape = [n, chi]

/-- Eigenvectors and eigenvalues: `M P = P diag(D)`, orthogonal columns, normalised where the value is not zero (those of a multiplet that was cut are zero). -/
structure Spec.IsEig (M P : Tensor K) (D : List ℝ) (n chi : Nat) : Prop where
  eig : ∀ x i, x < n → i < chi → ∑ y ∈ Finset.range n, M.val [x, y] * P.val [y, i] = P.val [x, i] * ((D.getD i 0 : ℝ) : K)
  orth : ∀ i j, i < chi → j < chi → i ≠ j → ∑ x ∈ Finset.range n, star (P.val [x, i]) * P.val [x, j] = 0
  norm : ∀ i, i < chi → D.getD i 0 ≠ 0 → ∑ x ∈ Finset.range n, star (P.val [x, i]) * P.val [x, i] = 1

/-- First factor of a QR decomposition with orthonormal columns. -/
def Spec.IsQr (qr : Tensor K → Tensor K) : Prop :=
  ∀ M m n, M.shape = [m, n] → n ≤ m → (qr M).shape = [m, n] ∧
    (∀ i j, i < n → j < n → ∑ x ∈ Finset.range m, star ((qr M).val [x, i]) * (qr M).val [x, j] = if i = j then 1 else 0) ∧
    ∃ R : Nat → Nat → K, (∀ i j, j < i → R i j = 0) ∧ ∀ x j, x < m → j < n → M.val [x, j] = ∑ i ∈ Finset.range n, (qr M).val [x, i] * R i j

end Verif.C4v
