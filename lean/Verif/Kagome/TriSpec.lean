import Verif.Kagome.Spec
import Mathlib.LinearAlgebra.Matrix.Trace
/-
Specification for operators on three spins.
-/
namespace Verif.KagomeRdm
open Tensor
variable {K : Type}

/-- The configurations of three spins of dimension `p`. -/
abbrev Spec.Spins (p : Nat) := Fin 3 → Fin p

/-- Operators on three spins; rows are the results. -/
abbrev Spec.Op3 (K : Type) (p : Nat) := Matrix (Spec.Spins p) (Spec.Spins p) K

/-- The index of a site tensor with spins `s`; the first spin is the slowest. -/
def Spec.index {p : Nat} (s : Spec.Spins p) : Nat := s 0 * p ^ 2 + s 1 * p + s 2

/-- The tensor `o` holds the operator `O` with one index per spin, rows first. -/
def Spec.Holds {p : Nat} (o : Tensor K) (O : Spec.Op3 K p) : Prop :=
  o.shape = [p, p, p, p, p, p] ∧ ∀ t s : Spec.Spins p, o.val [t 0, t 1, t 2, s 0, s 1, s 2] = O t s

/-- The tensor `o` holds the operator `O`: with one index per spin or as a matrix. -/
def Spec.Represents {p : Nat} (o : Tensor K) (O : Spec.Op3 K p) : Prop :=
  Spec.Holds o O ∨
  (o.shape = [p ^ 3, p ^ 3] ∧ ∀ t s : Spec.Spins p, o.val [Spec.index t, Spec.index s] = O t s)

/-- Spins `x`, `y`, `z` of a block take the values `s`. -/
def Spec.put {p : Nat} (x y : Nat) (s : Spec.Spins p) (i : Nat) : Nat := if i = x then s 0 else if i = y then s 1 else s 2

/-- The density matrix of the spins `x`, `y`, `z` of a block of `n` site tensors with the density matrix `R`: rows are kets, columns are bras. -/
def Spec.reduced [AddCommMonoid K] (p n : Nat) (R : Tensor K) (x y z : Nat) : Spec.Op3 K p :=
  Matrix.of fun s t => Spec.marginal p n R [x, y, z] (Spec.put x y s) (Spec.put x y t)

end Verif.KagomeRdm
