import Verif.Corrf.Spec
import Mathlib.Data.Complex.Basic
/-
Specification of the energy per site of a Hamiltonian with interactions between neighbours. An operator on two spins is a matrix whose rows and columns are pairs; row first.
-/
namespace Verif.Models.Spec
open Ctm Ctm.Spec

/-- Operators on two spins of dimension `p`. -/
abbrev Op2 (p : Nat) := Matrix (Fin p × Fin p) (Fin p × Fin p) ℂ

/-- The strip of the sites `c` and `c + d` with the operator `H` on them: `H` is expanded in products of matrices with a single entry. -/
noncomputable def bondNet (N : Corrf.Spec.Tensors ℂ) (D : Dims) (d : Dir) (c : Coord) {p : Nat} (H : Op2 p) : ℂ :=
  ∑ r, ∑ s, H r s * Corrf.Spec.twoPoint N D d c (Corrf.Spec.unit r.1 s.1) (Corrf.Spec.unit r.2 s.2) 0

/-- The expectation value of a Hermitian operator on `c` and `c + d`. -/
noncomputable def bond (N : Corrf.Spec.Tensors ℂ) (D : Dims) (d : Dir) (c : Coord) {p : Nat} (H : Op2 p) : ℝ :=
  (bondNet N D d c H).re / (Corrf.Spec.norm N D d c 2).re

/-- The energy per site: every site of the cell owns the bonds to the right and down. -/
noncomputable def energy (N : Corrf.Spec.Tensors ℂ) (D : Dims) (keys : List Coord) {p : Nat} (hx hy : Coord → Op2 p) : ℝ :=
  (keys.map fun c => bond N D .right c (hx c) + bond N D .down c (hy c)).sum / keys.length

end Verif.Models.Spec
