import Verif.Tensor.Core
import Mathlib.Algebra.Field.Defs
import Mathlib.Algebra.BigOperators.Fin
/-
Independent specification: the point group of the square and its one-dimensional irreps.
Directions are numbered anti-clockwise: 0 = up, 1 = left, 2 = down, 3 = right.
-/
namespace Verif.Pg.Spec
variable {K : Type}

/-- An element of the point group: rotation by `k` quarter turns, or the reflection `i ↦ k - i`.
`k = 0` exchanges left and right, `k = 2` up and down, odd `k` are the two diagonal mirrors. -/
inductive G | rot (k : Fin 4) | refl (k : Fin 4)

/-- Action on directions. -/
def G.act : G → Fin 4 → Fin 4
  | .rot k, i => i + k
  | .refl k, i => k - i

/-- The four one-dimensional irreps by their characters on rotations by `k` quarter turns and on the
mirrors `i ↦ k - i`: A1 is trivial; A2 is odd under all mirrors; B1 is odd under quarter turns and
even under the axis mirrors; B2 is odd under quarter turns and odd under the axis mirrors. -/
structure Character where
  onRot : Fin 4 → Int
  onRefl : Fin 4 → Int

def Character.at (χ : Character) : G → Int
  | .rot k => χ.onRot k
  | .refl k => χ.onRefl k

def chA1 : Character := ⟨fun _ => 1, fun _ => 1⟩
def chA2 : Character := ⟨fun _ => 1, fun _ => -1⟩
def chB1 : Character := ⟨fun k => if k.val % 2 = 0 then 1 else -1, fun k => if k.val % 2 = 0 then 1 else -1⟩
def chB2 : Character := ⟨fun k => if k.val % 2 = 0 then 1 else -1, fun k => if k.val % 2 = 0 then -1 else 1⟩

/-- The entry of a site tensor with physical index `s` and index `f i` in direction `i`. -/
def entry (A : Tensor K) (s : Nat) (f : Fin 4 → Nat) : K := A.val [s, f 0, f 1, f 2, f 3]

/-- `A` transforms with the character `χ`: moving the indices around by any lattice symmetry
multiplies every entry by the character. -/
def Transforms [Ring K] (χ : Character) (p D : Nat) (A : Tensor K) : Prop :=
  A.shape = [p, D, D, D, D] ∧
  ∀ (g : G) (s : Nat) (f : Fin 4 → Nat), s < p → (∀ i, f i < D) →
    entry A s (fun i => f (g.act i)) = (χ.at g : K) * entry A s f

/-- The projector of representation theory: average over the group weighted by the character. -/
def average [Field K] (χ : Character) (A : Tensor K) (s : Nat) (f : Fin 4 → Nat) : K :=
  8⁻¹ * ((∑ k : Fin 4, (χ.at (.rot k) : K) * entry A s (fun i => f ((G.rot k).act i))) +
    ∑ k : Fin 4, (χ.at (.refl k) : K) * entry A s (fun i => f ((G.refl k).act i)))

end Verif.Pg.Spec
