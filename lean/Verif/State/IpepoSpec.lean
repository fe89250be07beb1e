import Verif.State.IpepoModel
import Mathlib.Algebra.BigOperators.Ring.Finset
import Mathlib.Algebra.BigOperators.Group.Finset.Sigma
/-
Specification of operators in the form of tensor networks on finite periodic pieces of the lattice.
-/
namespace Verif.Ipepo.Spec
open Verif.State
open Verif.Lattice (Vertex)
variable {K R V : Type}

/-- A bond index below the size of the bond at every vertex. -/
def Bonds [Fintype V] [DecidableEq V] (dim : V → Nat) : Finset (V → Nat) := Fintype.piFinset (fun v => Finset.range (dim v))

/-- Matrix element of an operator between two configurations on a piece of the lattice with `right` and `down` neighbours: `h v` is the index of the bond to the right of `v`,
`w v` that of the bond below. -/
def element [CommSemiring K] [Fintype V] [DecidableEq V] (right down : Equiv.Perm V) (A : V → Tensor K) (c c' : V → Nat) : K :=
  ∑ h ∈ Bonds (fun v => (A v).shape.getD 5 0), ∑ w ∈ Bonds (fun v => (A v).shape.getD 4 0),
    ∏ v, (A v).val [c v, c' v, w (down.symm v), h (right.symm v), w v, h v]

/-- Its trace: ancilla and physical configuration agree. -/
def trace [CommSemiring K] [Fintype V] [DecidableEq V] (right down : Equiv.Perm V) (A : V → Tensor K) : K :=
  ∑ c ∈ Bonds (fun v => (A v).shape.getD 0 0), element right down A c c

/-- Contraction of a network of tensors without physical index. -/
def network [CommSemiring K] [Fintype V] [DecidableEq V] (right down : Equiv.Perm V) (B : V → Tensor K) : K :=
  ∑ h ∈ Bonds (fun v => (B v).shape.getD 3 0), ∑ w ∈ Bonds (fun v => (B v).shape.getD 2 0),
    ∏ v, (B v).val [w (down.symm v), h (right.symm v), w v, h v]

/-- States with a cell, as the constructor requires, of tensors of rank six; float64 tensors are real. -/
structure WellFormed [Zero R] (st : State R) : Prop where
  cellX : st.lX ≠ 0
  cellY : st.lY ≠ 0
  nodup : (st.sites.map (·.1)).Nodup
  rank6 : ∀ e ∈ st.sites, e.2.t.shape.length = 6
  real : ∀ e ∈ st.sites, e.2.cplx = false → ∀ idx, Tensor.InB e.2.t.shape idx → (e.2.t.val idx).2 = 0

end Verif.Ipepo.Spec
