import Verif.Kagome.HamSpec
import Verif.Group.Su3Props
/-
Specification: the Hamiltonian of a triangle in KAGOME_SU3 (su3_kagome.py L19-L45): `J sum P_ij + K sum (P_ijk + P_ijk^-1) + i h sum (P_ijk - P_ijk^-1)` with three-level spins.
-/
namespace Verif.KagomeRdm

/-- su3_kagome.py L17: the couplings `j`, `k`, `h`. -/
structure Su3Couplings where
  j : ℝ
  k : ℝ
  h : ℝ

namespace Spec

/-- The exchange of the states of the spins `x` and `y`. -/
def swap (p : Nat) (x y : Fin 3) : Op3 ℂ p := Matrix.of fun t s => if t = s ∘ Equiv.swap x y then 1 else 0

/-- The sum of the exchanges on the three bonds. -/
def swaps (p : Nat) : Op3 ℂ p := swap p 0 1 + swap p 1 2 + swap p 2 0

/-- The Hamiltonian of a triangle. -/
noncomputable def su3Triangle (m : Su3Couplings) : Op3 ℂ 3 :=
  (m.j : ℂ) • swaps 3 + (m.k : ℂ) • (cyclic 3 + (cyclic 3).conjTranspose) + (Complex.I * m.h) • (cyclic 3 - (cyclic 3).conjTranspose)

/-- The chirality `i (P - P^-1)`. -/
noncomputable def su3Chi : Op3 ℂ 3 := Complex.I • (cyclic 3 - (cyclic 3).conjTranspose)

/-- `sum_k F_k F_k` of the spins `x` and `y`, with the generators `F_k` of SU(3). -/
noncomputable def casimir1 (x y : Fin 3) : Op3 ℂ 3 := ∑ k, at' x (Su3.Spec.F k) * at' y (Su3.Spec.F k)

/-- `sum_abc d_abc F_a F_b F_c` of the three spins, with the symmetric structure constants. -/
noncomputable def casimir2 : Op3 ℂ 3 := ∑ a, ∑ b, ∑ c, Su3.Spec.d a b c • (at' 0 (Su3.Spec.F a) * at' 1 (Su3.Spec.F b) * at' 2 (Su3.Spec.F c))

end Spec
end Verif.KagomeRdm
