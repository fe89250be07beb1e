import Verif.State.D2Model
/-
Specification of the states of coupled ladders.
-/
namespace Verif.D2.Spec
open Verif.State
open Verif.Lattice (Vertex)
variable {R : Type}

/-- `B` is `A` with up and down exchanged. -/
def FlipUD (A B : CTensor R) : Prop := A.cplx = B.cplx ∧ ∃ p u l d r, A.t.shape = [p, u, l, d, r] ∧ B.t.shape = [p, d, l, u, r] ∧
  ∀ s i j k o, B.t.val [s, i, j, k, o] = A.t.val [s, k, j, i, o]

/-- Left and right may be exchanged. -/
def LeftRight (A : CTensor R) : Prop := ∃ p u l d, A.t.shape = [p, u, l, d, l] ∧
  ∀ s i j k o, s < p → i < u → j < l → k < d → o < l → A.t.val [s, i, j, k, o] = A.t.val [s, i, o, k, j]

/-- States produced by the library. -/
inductive Reachable [Field R] (F : NumFmt R) : DState R → Prop
  | new {p st} : mk p = some st → Reachable F st
  | load {ck st st'} : Reachable F st → load ck st = some st' → Reachable F st'
  | noise {c rand μ st st'} : Reachable F st → addNoise c rand μ st = some st' → Reachable F st'
  | extend {d st st'} : Reachable F st → extend d st = some st' → Reachable F st'
  | file {j aux gc st} : read F j aux gc = some st → Reachable F st

end Verif.D2.Spec
