import Verif.Tensor.Core
import Mathlib.Algebra.BigOperators.Ring.Finset
import Mathlib.Data.Fintype.BigOperators
import Mathlib.Data.Fintype.Pi
/-
Independent specification of the amplitude of a finite patch of rank-5 site tensors.
-/
namespace Verif.State.Spec
variable {K : Type} [CommSemiring K] {n : Nat} {B : Type} [Fintype B] [DecidableEq B]

/-- Amplitude of a finite arrangement of site tensors: tensor `i` carries physical index `phys i`,
its up, left, down and right axes sit on bonds `bond i 0 .. bond i 3`, and all bonds are summed
over their dimension. `extra` multiplies the summand by a factor depending on the bond indices. -/
def amplitude (T : Fin n → Tensor K) (phys : Fin n → Nat) (bond : Fin n → Fin 4 → B) (D : B → Nat)
    (extra : (B → Nat) → K) : K :=
  ∑ σ ∈ Fintype.piFinset (fun b => Finset.range (D b)),
    (∏ i, (T i).val [phys i, σ (bond i 0), σ (bond i 1), σ (bond i 2), σ (bond i 3)]) * extra σ

/-- The arrangement fits: each axis has the dimension of its bond. -/
def Fits (T : Fin n → Tensor K) (phys : Fin n → Nat) (bond : Fin n → Fin 4 → B) (D : B → Nat) : Prop :=
  ∀ i, ∃ p, phys i < p ∧ (T i).shape = [p, D (bond i 0), D (bond i 1), D (bond i 2), D (bond i 3)]

end Verif.State.Spec
