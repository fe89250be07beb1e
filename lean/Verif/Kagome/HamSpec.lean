import Verif.Kagome.TriSpec
import Verif.Group.Su2Props
/-
Specification: the Hamiltonian of a triangle of the Kagome lattice (spin_half_kagome.py L20-L48).
-/
namespace Verif.KagomeRdm
open Tensor

/-- The couplings `j1`, `JD`, `j1sq`, `jtrip`, `h`, `jperm` of spin_half_kagome.py L18-L19; `j2`, `j2sq` have no effect in the code. `p` is `phys_dim`. -/
structure Couplings where
  p : Nat
  j1 : ℝ
  JD : ℝ
  j1sq : ℝ
  jtrip : ℝ
  h : ℝ
  jperm : ℂ

namespace Spec
variable {p : Nat}

/-- The product of operators on the three spins. -/
def tensor (A : Fin 3 → Su2.Op p) : Op3 ℂ p := Matrix.of fun t s => ∏ x, A x (t x) (s x)

/-- The operator `A` acts on spin `x`. -/
def at' (x : Fin 3) (A : Su2.Op p) : Op3 ℂ p := tensor (Function.update (fun _ => 1) x A)

/-- The components x, y, z of the spin. -/
noncomputable def spins (p : Nat) : Fin 3 → Su2.Op p
  | 0 => Su2.Spec.Sx p
  | 1 => Su2.Spec.Sy p
  | 2 => Su2.SZ p

/-- `S_x . S_y`. -/
noncomputable def dot (p : Nat) (x y : Fin 3) : Op3 ℂ p := ∑ a, at' x (spins p a) * at' y (spins p a)

/-- Component `a` of `S_x × S_y`. -/
noncomputable def cross (p : Nat) (x y a : Fin 3) : Op3 ℂ p :=
  at' x (spins p (a + 1)) * at' y (spins p (a + 2)) - at' x (spins p (a + 2)) * at' y (spins p (a + 1))

/-- `(S_0 × S_1) . S_2`. -/
noncomputable def chirality (p : Nat) : Op3 ℂ p := ∑ a, cross p 0 1 a * at' 2 (spins p a)

/-- The states of the spins 0, 1, 2 move to the spins 1, 2, 0. -/
def cyclic (p : Nat) : Op3 ℂ p := Matrix.of fun t s => if t 1 = s 0 ∧ t 2 = s 1 ∧ t 0 = s 2 then 1 else 0

/-- Exchange, Dzyaloshinskii-Moriya and quadratic exchange on the bonds 01, 12, 20, the chirality with the factor `χ`, the cyclic exchange and its inverse, and the field. -/
noncomputable def triangle (m : Couplings) (χ : ℝ) : Op3 ℂ m.p :=
  ∑ x : Fin 3, ((m.j1 : ℂ) • dot m.p x (x + 1) + (m.JD : ℂ) • cross m.p x (x + 1) 2 + (m.j1sq : ℂ) • (dot m.p x (x + 1) * dot m.p x (x + 1)) + (m.h : ℂ) • at' x (Su2.SZ m.p)) +
    (χ : ℂ) • chirality m.p + (m.jperm • cyclic m.p + star m.jperm • (cyclic m.p).conjTranspose)

/-- The Hamiltonian of the documentation: `- J_trip (S_1 × S_2) . S_3`. -/
noncomputable def documented (m : Couplings) : Op3 ℂ m.p := triangle m (-m.jtrip)

end Spec
end Verif.KagomeRdm
