import Verif.C4v.RdmModel
import Verif.C4v.Spec
import Verif.Ctm.MoveSpec
import Verif.Rdm.TripleSpec
/-
Specification of the C4v density matrices: the corner `C` and the half-row `T` are unfolded into the eight environment tensors of the general code, by rotating the
lattice. Index order of the general code (env.py L57-L71): corners `lu[down,right]`, `ru[left,down]`, `rd[up,left]`, `ld[up,right]`; half-rows
`up[left,down,right]`, `left[up,down,right]`, `down[up,left,right]`, `right[up,left,down]`.
-/
namespace Verif.C4v
open Tensor Ctm
variable {K : Type}

/-- The state with the one site `a`. -/
def Spec.cell (a : Tensor K) : State K := { keys := [(0, 0)], sites := fun _ => some a, vts := fun _ => (0, 0), lX := 1, lY := 1 }

/-- The transposed matrix. -/
def Spec.turn2 (x : Tensor K) : Tensor K := ⟨[x.size 1, x.size 0], fun idx => x.val [idx.getD 1 0, idx.getD 0 0]⟩

/-- The environment of that state. `C` is the upper left corner read as `[down,right]` and `T` the left half-row read as `[up,down,right]`; turning the drawing
by 90, 180 and 270 degrees maps up to right, right to down, down to left and left to up, so that for instance the upper half-row is
`[left,down,right] ↦ T[right,left,down]`. -/
def Spec.unfold (env : Env K) : Ctm.Env K where
  chi := env.chi
  C := fun k =>
    if k.2 = (-1, -1) then some env.C
    else if k.2 = (1, -1) then some env.C
    else if k.2 = (1, 1) then some env.C
    else if k.2 = (-1, 1) then some (Spec.turn2 env.C)
    else none
  T := fun k =>
    if k.2 = (-1, 0) then some env.T
    else if k.2 = (0, -1) then some ⟨[env.T.size 1, env.T.size 2, env.T.size 0], fun i => env.T.val [i.getD 2 0, i.getD 0 0, i.getD 1 0]⟩
    else if k.2 = (1, 0) then some ⟨[env.T.size 1, env.T.size 2, env.T.size 0], fun i => env.T.val [i.getD 2 0, i.getD 0 0, i.getD 1 0]⟩
    else if k.2 = (0, 1) then some ⟨[env.T.size 2, env.T.size 0, env.T.size 1], fun i => env.T.val [i.getD 1 0, i.getD 2 0, i.getD 0 0]⟩
    else none

variable [RCLike K]

/-- Turning the site tensor by 90 degrees multiplies it by a phase (by 1 for the irreps `A1`, `A2`, by -1 for `B1`, `B2`). -/
def Spec.Rotated (D p : Nat) (a : Tensor K) : Prop :=
  ∃ s : K, star s * s = 1 ∧ ∀ i u l d r, i < p → u < D → l < D → d < D → r < D → a.val [i, r, u, l, d] = s * a.val [i, u, l, d, r]

/-- `C_{ij} = C_{ji}`. -/
def Spec.CSymm (chi : Nat) (env : Env K) : Prop := ∀ i j, i < chi → j < chi → env.C.val [i, j] = env.C.val [j, i]

/-- `T_{ija} = T_{jia}`. -/
def Spec.TSymm (chi D : Nat) (env : Env K) : Prop := ∀ i j s, i < chi → j < chi → s < D * D → env.T.val [i, j, s] = env.T.val [j, i, s]

/-- All bonds of the unfolded environment have size `chi`, those of the site `D`. -/
def Spec.dims (chi D p : Nat) : Ctm.Spec.Dims := ⟨fun _ => p, fun _ => D, fun _ => D, fun _ => chi, fun _ => chi, fun _ => chi, fun _ => chi⟩

/-- Three sites in a row with open physical indices of the first (ket 100, bra 101) and the third (104, 105); that of the second is summed. -/
def Spec.rho3 (dim : Nat → Nat) (e : Rdm.Row3 K) (σ : Nat → Nat) : K :=
  e.C1.val [σ 0, σ 1] * e.T1.val [σ 1, Corner.Spec.fused dim σ 2 3, σ 4] * e.T1x.val [σ 4, Corner.Spec.fused dim σ 5 6, σ 7] *
    e.T1z.val [σ 7, Corner.Spec.fused dim σ 8 9, σ 10] * e.C2.val [σ 10, σ 11] * e.T4.val [σ 0, σ 26, Corner.Spec.fused dim σ 12 16] *
    e.T2.val [σ 11, Corner.Spec.fused dim σ 15 19, σ 27] * e.C4.val [σ 26, σ 28] * e.T3.val [Corner.Spec.fused dim σ 20 21, σ 28, σ 29] *
    e.T3x.val [Corner.Spec.fused dim σ 22 23, σ 29, σ 30] * e.T3z.val [Corner.Spec.fused dim σ 24 25, σ 30, σ 31] * e.C3.val [σ 27, σ 31] *
    (e.a.val [σ 100, σ 2, σ 12, σ 20, σ 13] * star (e.a.val [σ 101, σ 3, σ 16, σ 21, σ 17])) *
    (e.ax.val [σ 102, σ 5, σ 13, σ 22, σ 14] * star (e.ax.val [σ 102, σ 6, σ 17, σ 23, σ 18])) *
    (e.az.val [σ 104, σ 8, σ 14, σ 24, σ 15] * star (e.az.val [σ 105, σ 9, σ 18, σ 25, σ 19]))

/-- The summed labels. -/
def Spec.inner3 : List Nat := List.range 32 ++ [102]

end Verif.C4v
