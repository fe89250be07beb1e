import Mathlib.Data.Int.ModEq
/-
Independent specification of tilings: nothing here refers to the model of the code.
-/
namespace Verif.Lattice.Spec

/-- Euclidean reduction of a vertex into the `w × h` cell. -/
def reduce (w h : Int) (c : Int × Int) : Int × Int := (c.1 % w, c.2 % h)

/-- The table is a non-empty list of rows that all have the width of the first. -/
def Rectangular {L : Type} (rows : List (List L)) (w h : Nat) : Prop :=
  rows.length = h ∧ 0 < h ∧ ∀ row ∈ rows, row.length = w

/-- Label seen at an arbitrary lattice vertex when the table is repeated periodically. -/
def labelAt {L : Type} (rows : List (List L)) (w h : Nat) (c : Int × Int) : Option L :=
  (rows[(c.2 % h).toNat]?).bind (fun row => row[(c.1 % w).toNat]?)

/-- Equal labels have equal labels to the left, above, to the right and below. -/
def SameNeighbours {L : Type} (rows : List (List L)) (w h : Nat) : Prop :=
  ∀ c c' : Int × Int, labelAt rows w h c = labelAt rows w h c' →
    labelAt rows w h (c.1 - 1, c.2) = labelAt rows w h (c'.1 - 1, c'.2) ∧
    labelAt rows w h (c.1, c.2 - 1) = labelAt rows w h (c'.1, c'.2 - 1) ∧
    labelAt rows w h (c.1 + 1, c.2) = labelAt rows w h (c'.1 + 1, c'.2) ∧
    labelAt rows w h (c.1, c.2 + 1) = labelAt rows w h (c'.1, c'.2 + 1)

/-- Lexicographic order on cell coordinates. -/
def LexLe (a b : Nat × Nat) : Prop := a.1 < b.1 ∨ (a.1 = b.1 ∧ a.2 ≤ b.2)
def LexLt (a b : Nat × Nat) : Prop := a.1 < b.1 ∨ (a.1 = b.1 ∧ a.2 < b.2)

/-- `c` is the lexicographically smallest cell position carrying its label. -/
def IsRepresentative {L : Type} (rows : List (List L)) (w h : Nat) (c : Nat × Nat) : Prop :=
  c.1 < w ∧ c.2 < h ∧
  ∀ c' : Nat × Nat, c'.1 < w → c'.2 < h →
    labelAt rows w h (c'.1, c'.2) = labelAt rows w h (c.1, c.2) → LexLe c c'

end Verif.Lattice.Spec
