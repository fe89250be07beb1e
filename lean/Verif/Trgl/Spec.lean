import Verif.Group.Su2Props
import Verif.Ctm.EnvModel
import Mathlib.Analysis.Normed.Algebra.MatrixExponential
import Mathlib.Analysis.Complex.Basic
import Mathlib.LinearAlgebra.Matrix.Trace
/-
Specification of the spiral states of the triangular lattice and of their energies: spin_triangular.py L399-L414 (Hamiltonian) and L527-L542 (tiling).

The lattice is the square lattice with the diagonal from the lower left to the upper right; `y` grows downwards. Operators on `n` spins of dimension `p` are matrices, rows are
results. A density matrix has the ket as row, so that the expectation value of `O` is `Tr(rho O)`.
-/
namespace Verif.Trgl
open Tensor Ctm

namespace Spec

/-- Operators on `n` spins. -/
abbrev OpN (n p : Nat) := Matrix (Fin n → Fin p) (Fin n → Fin p) ℂ

variable {n p : Nat}

/-- The product of operators on the spins. -/
def prod (A : Fin n → Su2.Op p) : OpN n p := Matrix.of fun t s => ∏ x, A x (t x) (s x)

/-- The operator `A` on spin `x`. -/
def on (x : Fin n) (A : Su2.Op p) : OpN n p := prod (Function.update (fun _ => 1) x A)

/-- The components x, y, z of the spin. -/
noncomputable def spin (p : Nat) : Fin 3 → Su2.Op p
  | 0 => Su2.Spec.Sx p
  | 1 => Su2.Spec.Sy p
  | 2 => Su2.SZ p

/-- `S_x . S_y`. -/
noncomputable def dot (n p : Nat) (x y : Fin n) : OpN n p := ∑ a, on x (spin p a) * on y (spin p a)

/-- `S_x . (S_y × S_z)`. -/
noncomputable def triple (n p : Nat) (x y z : Fin n) : OpN n p :=
  ∑ a : Fin 3, on x (spin p a) * (on y (spin p (a + 1)) * on z (spin p (a + 2)) - on y (spin p (a + 2)) * on z (spin p (a + 1)))

/-- The rotation of a spin around the y-axis by the angle `φ`. -/
noncomputable def turn (p : Nat) (φ : ℝ) : Su2.Op p := NormedSpace.exp ((-(φ : ℂ) * Complex.I) • Su2.Spec.Sy p)

/-- The rotations of the spins at the vertices `r` of the lattice that take the periodic state to the spiral with the pitch vector `q`, in units of `2 pi`: by `2 pi q . r`. -/
noncomputable def spiral (p : Nat) (q : ℝ × ℝ) (r : Fin n → Coord) : OpN n p := prod fun i => turn p (2 * Real.pi * (q.1 * (r i).1 + q.2 * (r i).2))

/-- The density matrix held by a tensor with the ket indices first. -/
def dens (n p : Nat) (R : Tensor ℂ) : OpN n p := Matrix.of fun s t => R.val (List.ofFn (fun i => (s i : Nat)) ++ List.ofFn (fun i => (t i : Nat)))

/-- The expectation value of `O` in the spiral state; `R` is the density matrix of the periodic state at the vertices `r`. -/
noncomputable def expect (q : ℝ × ℝ) (r : Fin n → Coord) (R : Tensor ℂ) (O : OpN n p) : ℂ :=
  Matrix.trace (spiral p q r * dens n p R * (spiral p q r).conjTranspose * O)

end Spec
end Verif.Trgl
