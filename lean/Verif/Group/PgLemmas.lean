import Verif.Group.PgModel
import Verif.Group.PgSpec
import Mathlib.Tactic.Ring
import Mathlib.Tactic.FinCases
import Mathlib.Algebra.Field.Basic
namespace Verif.Pg
open Spec
variable {K : Type}

/-- The index seen by a permuted rank-5 tensor. -/
def pv (perm idx : List Nat) : List Nat := (List.range 5).map (fun j => idx.getD (perm.idxOf j) 0)

/-- The six axis permutations used in pg.py. -/
def usedPerms : List (List Nat) :=
  [[0, 1, 4, 3, 2], [0, 3, 2, 1, 4], [0, 4, 1, 2, 3], [0, 2, 3, 4, 1], [0, 4, 3, 2, 1], [0, 3, 4, 1, 2]]

theorem symStep_eq [Field K] (ε : K) (perm : List Nat) (hp : perm ∈ usedPerms) (p D : Nat)
    (v : List Nat → K) :
    symStep ε perm ⟨[p, D, D, D, D], v⟩ =
      some ⟨[p, D, D, D, D], fun idx => 2⁻¹ * (v idx + ε * v (pv perm idx))⟩ := by
  simp only [usedPerms, List.mem_cons, List.not_mem_nil, or_false] at hp
  rcases hp with rfl | rfl | rfl | rfl | rfl | rfl <;>
    simp [symStep, Tensor.permute, zipT, pv]

/-- Average over the group of a function of the four direction indices. -/
def avg [Field K] (χ : Character) (ψ : Nat → Nat → Nat → Nat → K) (u l d r : Nat) : K :=
  8⁻¹ * (((χ.onRot 0 : K) * ψ u l d r + (χ.onRot 1 : K) * ψ l d r u + (χ.onRot 2 : K) * ψ d r u l
    + (χ.onRot 3 : K) * ψ r u l d) +
    ((χ.onRefl 0 : K) * ψ u r d l + (χ.onRefl 1 : K) * ψ l u r d + (χ.onRefl 2 : K) * ψ d l u r
    + (χ.onRefl 3 : K) * ψ r d l u))

theorem average_eq [Field K] (χ : Character) (A : Tensor K) (s : Nat) (f : Fin 4 → Nat) :
    average χ A s f = avg χ (fun u l d r => A.val [s, u, l, d, r]) (f 0) (f 1) (f 2) (f 3) := by
  unfold average avg
  rw [Fin.sum_univ_four, Fin.sum_univ_four]
  rfl

theorem pv_eqs (s u l d r : Nat) :
    pv [0, 1, 4, 3, 2] [s, u, l, d, r] = [s, u, r, d, l] ∧
    pv [0, 3, 2, 1, 4] [s, u, l, d, r] = [s, d, l, u, r] ∧
    pv [0, 4, 1, 2, 3] [s, u, l, d, r] = [s, l, d, r, u] ∧
    pv [0, 2, 3, 4, 1] [s, u, l, d, r] = [s, r, u, l, d] ∧
    pv [0, 4, 3, 2, 1] [s, u, l, d, r] = [s, r, d, l, u] ∧
    pv [0, 3, 4, 1, 2] [s, u, l, d, r] = [s, d, r, u, l] :=
  ⟨rfl, rfl, rfl, rfl, rfl, rfl⟩

/-- The character belonging to an irrep name. -/
def Spec.chOf : Irrep → Character
  | .A1 => chA1
  | .A2 => chA2
  | .B1 => chB1
  | .B2 => chB2

theorem projection_eq [Field K] [CharZero K] (i : Irrep) (hi : i ≠ .B2) (p D : Nat) (v : List Nat → K) :
    ∃ w, projection i ⟨[p, D, D, D, D], v⟩ = some ⟨[p, D, D, D, D], w⟩ ∧
      ∀ s u l d r, w [s, u, l, d, r] = avg (chOf i) (fun u l d r => v [s, u, l, d, r]) u l d r := by
  have m1 : [0, 1, 4, 3, 2] ∈ usedPerms := by decide
  have m2 : [0, 3, 2, 1, 4] ∈ usedPerms := by decide
  have m3 : [0, 4, 1, 2, 3] ∈ usedPerms := by decide
  have m4 : [0, 2, 3, 4, 1] ∈ usedPerms := by decide
  have m5 : [0, 4, 3, 2, 1] ∈ usedPerms := by decide
  have m6 : [0, 3, 4, 1, 2] ∈ usedPerms := by decide
  cases i with
  | B2 => exact absurd rfl hi
  | A1 =>
    simp only [projection, symmA1, symStep_eq _ _ m1, symStep_eq _ _ m2, symStep_eq _ _ m3,
      symStep_eq _ _ m4, Option.bind_eq_bind, Option.bind_some]
    refine ⟨_, rfl, ?_⟩
    intro s u l d r
    simp only [(pv_eqs _ _ _ _ _).1, (pv_eqs _ _ _ _ _).2.1, (pv_eqs _ _ _ _ _).2.2.1,
      (pv_eqs _ _ _ _ _).2.2.2.1, avg, chOf, chA1]
    push_cast
    ring
  | A2 =>
    simp only [projection, symmA2, symStep_eq _ _ m1, symStep_eq _ _ m5, symStep_eq _ _ m3,
      symStep_eq _ _ m6, Option.bind_eq_bind, Option.bind_some]
    refine ⟨_, rfl, ?_⟩
    intro s u l d r
    simp only [(pv_eqs _ _ _ _ _).1, (pv_eqs _ _ _ _ _).2.2.2.2.1, (pv_eqs _ _ _ _ _).2.2.1,
      (pv_eqs _ _ _ _ _).2.2.2.2.2, avg, chOf, chA2]
    push_cast
    ring
  | B1 =>
    simp only [projection, symmB1, symStep_eq _ _ m1, symStep_eq _ _ m5, symStep_eq _ _ m3,
      symStep_eq _ _ m6, Option.bind_eq_bind, Option.bind_some]
    refine ⟨_, rfl, ?_⟩
    intro s u l d r
    simp only [(pv_eqs _ _ _ _ _).1, (pv_eqs _ _ _ _ _).2.2.2.2.1, (pv_eqs _ _ _ _ _).2.2.1,
      (pv_eqs _ _ _ _ _).2.2.2.2.2, avg, chOf, chB1]
    norm_num
    ring

/-- What the B2 routine really computes: the group element combination below, which contains only
the two-dimensional irrep. -/
theorem projection_B2_eq [Field K] [CharZero K] (p D : Nat) (v : List Nat → K) :
    ∃ w, projection .B2 ⟨[p, D, D, D, D], v⟩ = some ⟨[p, D, D, D, D], w⟩ ∧
      ∀ s u l d r, w [s, u, l, d, r] =
        8⁻¹ * (v [s, r, d, l, u] - v [s, r, u, l, d] + v [s, l, d, r, u] - v [s, l, u, r, d]) := by
  have m1 : [0, 1, 4, 3, 2] ∈ usedPerms := by decide
  have m3 : [0, 4, 1, 2, 3] ∈ usedPerms := by decide
  have m5 : [0, 4, 3, 2, 1] ∈ usedPerms := by decide
  have m6 : [0, 3, 4, 1, 2] ∈ usedPerms := by decide
  simp only [projection, symmB2, symStep_eq _ _ m1, symStep_eq _ _ m5, symStep_eq _ _ m3,
      symStep_eq _ _ m6, Option.bind_eq_bind, Option.bind_some]
  refine ⟨_, rfl, ?_⟩
  intro s u l d r
  simp only [(pv_eqs _ _ _ _ _).1, (pv_eqs _ _ _ _ _).2.2.2.2.1, (pv_eqs _ _ _ _ _).2.2.1,
      (pv_eqs _ _ _ _ _).2.2.2.2.2]
  ring

end Verif.Pg
