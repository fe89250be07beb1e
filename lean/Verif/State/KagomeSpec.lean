import Verif.Tensor.Core
import Mathlib.Analysis.Complex.Basic
import Mathlib.Data.ZMod.Basic
import Mathlib.Data.Fintype.BigOperators
import Mathlib.Algebra.BigOperators.Fin
/-
Independent specification of simplex states on the Kagome lattice: nothing here refers to the model of the code.

Up triangles and down triangles form a honeycomb lattice. Cells are labelled by points `r` of a torus. The down triangle of cell
`r` is joined by its leg `e = 0, 1, 2` to the up triangle of the cell `r + offset e`; the Kagome site `(e, r)` sits on that bond.
-/
namespace Verif.Kagome.Spec
open Verif.Tensor

/-- The sizes of the five tensors of a site fit together. -/
structure Fit (Tu Bc Td Bb Ba : Tensor ℂ) (pC pB pA nI nJ nK nL nA nB nC nD : Nat) : Prop where
  tu : Tu.shape = [nI, nA, nB]
  bc : Bc.shape = [pC, nJ, nI]
  td : Td.shape = [nJ, nK, nL]
  bb : Bb.shape = [pB, nK, nC]
  ba : Ba.shape = [pA, nL, nD]

/-- The network of one site: the up triangle, the bond inside the cell, the down triangle and the bonds leaving it. -/
noncomputable def site (Tu Bc Td Bb Ba : Tensor ℂ) (nI nJ nK nL u v w a b c d : Nat) : ℂ :=
  ∑ i ∈ Finset.range nI, ∑ j ∈ Finset.range nJ, ∑ k ∈ Finset.range nK, ∑ l ∈ Finset.range nL,
    Tu.val [i, a, b] * Bc.val [u, j, i] * Td.val [j, k, l] * Bb.val [v, k, c] * Ba.val [w, l, d]

variable {n m : Nat}

/-- The cell of the up triangle reached from the down triangle of cell 0 by its leg `e`. -/
def offset : Fin 3 → ZMod n × ZMod m
  | 0 => (0, 0)
  | 1 => (0, 1)
  | 2 => (1, 0)

/-- Amplitude of the configuration `σ` on the torus: bond `(e, r)` carries the index `x e r` on the side of the down triangle and
`y e r` on the side of the up triangle; all are summed. -/
noncomputable def amplitude [NeZero n] [NeZero m] (D : Nat) (Tu Td : Tensor ℂ) (B : Fin 3 → Tensor ℂ) (σ : Fin 3 → ZMod n × ZMod m → Nat) : ℂ :=
  ∑ x : Fin 3 → ZMod n × ZMod m → Fin D, ∑ y : Fin 3 → ZMod n × ZMod m → Fin D, ∏ r,
    (Td.val [x 0 r, x 1 r, x 2 r] * Tu.val [y 0 (r - offset 0), y 1 (r - offset 1), y 2 (r - offset 2)] *
      ∏ e, (B e).val [σ e r, x e r, y e r])

/-- Amplitude of a square-lattice state with the rank-5 tensor `A` (axes: physical, up, left, down, right) on every vertex. -/
noncomputable def squareAmplitude [NeZero n] [NeZero m] (D : Nat) (A : Tensor ℂ) (τ : ZMod n × ZMod m → Nat) : ℂ :=
  ∑ v : ZMod n × ZMod m → Fin D, ∑ h : ZMod n × ZMod m → Fin D, ∏ r,
    A.val [τ r, v (r - (0, 1)), h (r - (1, 0)), v r, h r]

/-- The physical index of a vertex of the square lattice: its three Kagome sites, the last one running fastest. -/
def fused (p : Nat) (σ : Fin 3 → ZMod n × ZMod m → Nat) (r : ZMod n × ZMod m) : Nat := (σ 0 r * p + σ 1 r) * p + σ 2 r

/-- A trivalent tensor invariant under cyclic permutations. -/
def Cyclic (D : Nat) (T : Tensor ℂ) : Prop := ∀ a b c, a < D → b < D → c < D → T.val [b, c, a] = T.val [a, b, c]

/-- A rank-3 tensor that exchanging its last two axes turns into `ε` times its complex conjugate. -/
def Mirror (p D : Nat) (ε : ℂ) (T : Tensor ℂ) : Prop :=
  ∀ s a b, s < p → a < D → b < D → T.val [s, b, a] = ε * star (T.val [s, a, b])

/-- A bond tensor that exchanging its ends multiplies by `ε`. -/
def Even (p D : Nat) (ε : ℂ) (T : Tensor ℂ) : Prop := ∀ s a b, s < p → a < D → b < D → T.val [s, b, a] = ε * T.val [s, a, b]

/-- The configuration turned by 120 degrees about the down triangle of cell 0: leg `e` goes to leg `e + 1`. -/
def rotated (σ : Fin 3 → ZMod n × ZMod n → Nat) : Fin 3 → ZMod n × ZMod n → Nat :=
  fun e r => σ (e - 1) (-r.1 - r.2, r.1)

/-- Legs 1 and 2 exchanged. -/
def swapLeg : Fin 3 → Fin 3
  | 0 => 0
  | 1 => 2
  | 2 => 1

/-- The configuration reflected at the perpendicular bisector of the bond `(0, 0)`: up and down triangles, and legs 1 and 2, are
exchanged. -/
def mirrored (σ : Fin 3 → ZMod n × ZMod n → Nat) : Fin 3 → ZMod n × ZMod n → Nat :=
  fun e r => σ (swapLeg e) (-(r + offset e).2, -(r + offset e).1)

/-- The configuration inverted about the middle of the bond `(0, 0)`: up and down triangles are exchanged. -/
def inverted (σ : Fin 3 → ZMod n × ZMod m → Nat) : Fin 3 → ZMod n × ZMod m → Nat := fun e r => σ e (-(r + offset e))

end Verif.Kagome.Spec
