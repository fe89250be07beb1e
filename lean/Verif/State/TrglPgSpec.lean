import Verif.State.KagomeSpec
/-
Independent specification of symmetric states on the triangular lattice: nothing here refers to the model of the code.

The sites of the triangular lattice are the points `r` of a torus; the second coordinate grows downwards. A trivalent tensor sits on
the triangle of `r`, `r - (1, 0)` and `r + (0, 1)`; with the sites these triangles form a honeycomb lattice.
-/
namespace Verif.TrglPg.Spec
open Verif.Tensor
open Verif.Kagome.Spec (Cyclic Mirror squareAmplitude)

/-- The tensor of the three auxiliary legs at the physical index `s` (the last axis). -/
def slice (T : Tensor ℂ) (s : Nat) : Tensor ℂ := ⟨T.shape.take 3, fun i => T.val (i ++ [s])⟩

/-- A trivalent tensor of bond dimension `D` with the symmetry of a triangle: cyclic, and a reflection gives `ε` times the complex
conjugate. -/
def Trivalent (D : Nat) (ε : ℂ) (T : Tensor ℂ) : Prop := T.shape = [D, D, D] ∧ Cyclic D T ∧ Mirror D D ε T

/-- The same for a tensor with a physical index: it holds for every value of that index. -/
def TrivalentPhys (D q : Nat) (ε : ℂ) (T : Tensor ℂ) : Prop :=
  T.shape = [D, D, D, q] ∧ ∀ s, s < q → Cyclic D (slice T s) ∧ Mirror D D ε (slice T s)

/-- A bond with a physical index: exchanging its ends gives `ε` times the complex conjugate. -/
def Bond (D q : Nat) (ε : ℂ) (T : Tensor ℂ) : Prop :=
  T.shape = [D, D, q] ∧ ∀ a b s, a < D → b < D → s < q → T.val [b, a, s] = ε * star (T.val [a, b, s])

/-- The site tensor made of a triangle and a physical trivalent tensor: axes physical, up, left, down, right. -/
noncomputable def siteTT (aux phys : Tensor ℂ) (nx p u l d r : Nat) : ℂ :=
  ∑ x ∈ Finset.range nx, aux.val [l, d, x] * phys.val [x, u, r, p]

/-- The site tensor made of two triangles and a bond. -/
noncomputable def siteTBT (aux phys : Tensor ℂ) (nx ny p u l d r : Nat) : ℂ :=
  ∑ x ∈ Finset.range nx, ∑ y ∈ Finset.range ny, aux.val [l, d, x] * phys.val [x, y, p] * aux.val [y, u, r]

variable {n m : Nat}

/-- Amplitude of the configuration `σ` in the simplex state: `b e r` is the index on the bond from the site `r` to the triangle
`e = 0` of `r` itself, `e = 1` above, `e = 2` to the right. -/
noncomputable def simplexAmplitude [NeZero n] [NeZero m] (D : Nat) (aux phys : Tensor ℂ) (σ : ZMod n × ZMod m → Nat) : ℂ :=
  ∑ b : Fin 3 → ZMod n × ZMod m → Fin D, ∏ r,
    (phys.val [b 0 r, b 1 r, b 2 r, σ r] * aux.val [b 2 (r - (1, 0)), b 1 (r + (0, 1)), b 0 r])

/-- The rotation by 120 degrees about the site 0 that permutes its three triangles. -/
def turn (r : ZMod n × ZMod n) : ZMod n × ZMod n := (-r.2, r.1 - r.2)

/-- The reflection about the line through the site 0 and the middle of its own triangle. -/
def mirror (r : ZMod n × ZMod n) : ZMod n × ZMod n := (-r.2, -r.1)

/-- The rotation by 120 degrees about the site 0 of the triangular lattice whose nearest neighbours are the ones coupled by the models
of spin_triangular.py: along (1, 0), (0, 1) and (1, -1). -/
def modelTurn (r : ZMod n × ZMod n) : ZMod n × ZMod n := (-r.1 - r.2, r.1)

/-- The pairs of nearest neighbours of the models: `r` and `r + (1, 0)`, `r + (0, 1)`, `r + (1, -1)`. -/
def ModelNeighbours (r s : ZMod n × ZMod n) : Prop :=
  s - r = (1, 0) ∨ s - r = (0, 1) ∨ s - r = (1, -1) ∨ r - s = (1, 0) ∨ r - s = (0, 1) ∨ r - s = (1, -1)

end Verif.TrglPg.Spec
