import Verif.C4v.InitModel
import Verif.C4v.Spec
import Verif.Ctm.InitProps
/-
Specification of the initial C4v environments. Labels as in `Ctm.Spec.ketBra`: `0`-`4` are the axes `p, u, l, d, r` of the ket, `5`-`9` those of the bra.
-/
namespace Verif.C4v
open Tensor Corner.Spec
variable {K : Type} [RCLike K]

/-- The site tensor is invariant under the reflection that exchanges up with down, combined with complex conjugation. -/
def Spec.Flipped (D p : Nat) (a : Tensor K) : Prop :=
  ∀ s u l d r, s < p → u < D → l < D → d < D → r < D → a.val [s, u, l, d, r] = star (a.val [s, d, l, u, r])

structure Spec.Unitary (U : Nat → Nat → K) (n : Nat) : Prop where
  cols : ∀ i j, i < n → j < n → ∑ x ∈ Finset.range n, star (U x i) * U x j = if i = j then 1 else 0
  rows : ∀ x y, x < n → y < n → ∑ i ∈ Finset.range n, U x i * star (U y i) = if x = y then 1 else 0

/-- The double-layer tensor with legs up and left traced (each leg of the ket with that of the bra), divided by the largest modulus: axes (down, right). -/
def Spec.TracedCorner (a c : Tensor K) : Prop :=
  ∃ c0, IsNetwork (Ctm.Spec.legDim a) c0 [[3, 8], [4, 9]] [0, 1, 2] (Ctm.Spec.ketBra [0, 1, 2] a) ∧ Ctm.Spec.Normalised true c0 c

/-- The double-layer tensor with leg left traced: axes (up, down, right). -/
def Spec.TracedHalf (a t : Tensor K) : Prop :=
  ∃ t0, IsNetwork (Ctm.Spec.legDim a) t0 [[1, 6], [3, 8], [4, 9]] [0, 2] (Ctm.Spec.ketBra [0, 2] a) ∧ Ctm.Spec.Normalised true t0 t

/-- The same, with the legs of ket and bra summed separately. -/
def Spec.OpenCorner (a c0 : Tensor K) : Prop := IsNetwork (Ctm.Spec.legDim a) c0 [[3, 8], [4, 9]] [0, 1, 6, 2, 7] (Ctm.Spec.ketBra [0] a)

def Spec.OpenHalf (a t0 : Tensor K) : Prop := IsNetwork (Ctm.Spec.legDim a) t0 [[1, 6], [3, 8], [4, 9]] [0, 2, 7] (Ctm.Spec.ketBra [0] a)

/-- The full eigendecomposition of a Hermitian matrix: `M U = U diag(D)` with orthonormal columns. -/
def Spec.FullEig (eig : Tensor K → Nat → List ℝ × Tensor K) : Prop :=
  ∀ M n, M.shape = [n, n] → (∀ x y, x < n → y < n → M.val [x, y] = star (M.val [y, x])) →
    (eig M n).1.length = n ∧ (eig M n).2.shape = [n, n] ∧
    (∀ x i, x < n → i < n → ∑ y ∈ Finset.range n, M.val [x, y] * (eig M n).2.val [y, i] = (eig M n).2.val [x, i] * (((eig M n).1.getD i 0 : ℝ) : K)) ∧
    ∀ i j, i < n → j < n → ∑ x ∈ Finset.range n, star ((eig M n).2.val [x, i]) * (eig M n).2.val [x, j] = if i = j then 1 else 0

/-- An eigendecomposition returns no more values than there are, and vectors of the size of the matrix. -/
def Spec.EigSize (eig : Tensor K → Nat → List ℝ × Tensor K) : Prop :=
  ∀ M n k, M.shape = [n, n] → (eig M k).1.length ≤ n ∧ (eig M k).2.size 0 = n

/-- The double-layer tensor with legs left and right traced, divided by the largest modulus: axes (up, down). -/
def Spec.TracedColumn (a m : Tensor K) : Prop :=
  ∃ m0, IsNetwork (Ctm.Spec.legDim a) m0 [[1, 6], [3, 8]] [0, 2, 4] (Ctm.Spec.ketBra [0, 2, 4] a) ∧ Ctm.Spec.Normalised true m0 m

/-- Where the blocks of the given sizes end. -/
def Spec.ends : List Nat → List Nat
  | [] => []
  | x :: xs => x :: (Spec.ends xs).map (x + ·)

end Verif.C4v
