import Mathlib.Data.List.Basic
/-
Model of /repo/groups/permutations.py.
-/
namespace Verif.Permut

/-- The inner loop permutations.py L24-L44: it walks `thisCycle` while appending to it. `cyc` is
`thisCycle`, `step` its last element, `fund` is `fundSet`. The loop ends when the cycle closes
(L33). `none`: IndexError (L33) or ValueError (L43). `fuel` bounds the number of steps; running out
of it stands for a loop that does not end (shown not to happen). -/
def innerLoop (sigma : List Nat) (start : Nat) :
    Nat → Nat → List Nat → List Nat → Option (List Nat × List Nat)
  | 0, _, _, _ => none
  | fuel + 1, step, cyc, fund =>
    match sigma[step]? with
    | none => none
    | some nx =>
      if nx = start then some (cyc, fund)
      else if nx ∈ fund then innerLoop sigma start fuel nx (cyc ++ [nx]) (fund.erase nx)
      else none

/-- The outer loop permutations.py L21-L53. Python iterates over `fundSet` by position while the body
removes elements from it: `pos` is that position. -/
def outerLoop (sigma : List Nat) :
    Nat → Nat → List Nat → List (List Nat) → Int → Option (List (List Nat) × Int)
  | 0, _, _, _, _ => none
  | fuel + 1, pos, fund, cycles, parity =>
    match fund[pos]? with
    | none => some (cycles, parity)
    | some start =>
      match innerLoop sigma start (sigma.length + 1) start [start] fund with
      | none => none
      | some (cyc, fund') =>
        outerLoop sigma fuel (pos + 1) fund' (cycles ++ [cyc]) (parity * (-1) ^ (cyc.length - 1))

/-- permutations.py L6-L55 `cycleDecomp`. L8 raises unless every `i < len(sigma)` occurs. -/
def cycleDecomp (sigma : List Nat) : Option (List (List Nat) × Int) :=
  if ∀ i ∈ List.range sigma.length, i ∈ sigma then
    outerLoop sigma (sigma.length + 1) 0 (List.range sigma.length) [] 1
  else none

/-- permutations.py L58-L63 `levi_civita_3D`: zero, except at permutations of (0,1,2) where it is the
parity. -/
def leviCivita3 (i j k : Fin 3) : Option Int :=
  if [i.val, j.val, k.val].Nodup then (cycleDecomp [i.val, j.val, k.val]).map (·.2) else some 0

end Verif.Permut
