import Verif.Corrf.Spec
import Verif.Transfer.Model
import Mathlib.LinearAlgebra.Matrix.Charpoly.Basic
import Mathlib.LinearAlgebra.Matrix.Trace
import Mathlib.Algebra.Polynomial.Roots
/-
Specification of transfer operators and boundary Hamiltonians as matrices, of their leading eigenvalues, and what is asked of the solvers.
-/
namespace Verif.Transfer.Spec
open Tensor Ctm Ctm.Spec Corrf.Spec

/-- `n` leading eigenvalues of a matrix: with multiplicity, and no other eigenvalue has a larger modulus. -/
def Leading {ι : Type} [Fintype ι] [DecidableEq ι] (M : Matrix ι ι ℂ) (n : Nat) (vals : List ℂ) : Prop :=
  vals.length = n ∧ ∃ rest : Multiset ℂ, M.charpoly.roots = (vals : Multiset ℂ) + rest ∧ ∀ r ∈ rest, ∀ v ∈ vals, ‖r‖ ≤ ‖v‖

/-- `f` multiplies vectors by the matrix `M`. -/
def Multiplies {n : Nat} (f : Tensor ℂ → Option (Tensor ℂ)) (M : Matrix (Fin n) (Fin n) ℂ) : Prop :=
  ∀ v : Tensor ℂ, v.shape = [n] → ∃ w, f v = some w ∧ w.shape = [n] ∧ ∀ i : Fin n, w.val [i.1] = ∑ j : Fin n, M i j * v.val [j.1]

/-- `v` is an eigenvector of `M`. -/
def Eigenvector {n : Nat} (M : Matrix (Fin n) (Fin n) ℂ) (x : ℂ) (v : Tensor ℂ) : Prop :=
  v.shape = [n] ∧ (∃ i : Fin n, v.val [i.1] ≠ 0) ∧ ∀ i : Fin n, ∑ j : Fin n, M i j * v.val [j.1] = x * v.val [i.1]

/-- The iterative solver: whenever it returns, the values are `k` leading eigenvalues, in any order, and the vectors belong to them. -/
def Solves (eigs : Eigs) : Prop :=
  ∀ b n f k vals vecs, eigs b n f k = some (vals, vecs) → ∀ M : Matrix (Fin n) (Fin n) ℂ, Multiplies f M →
    Leading M k vals ∧ (b = true → List.Forall₂ (Eigenvector M) vals vecs)

/-- The order returned by `argsort`: a permutation after which the values do not decrease. -/
def Sorts (argsort : Argsort) : Prop :=
  ∀ l : List ℝ, (argsort l).Perm (List.range l.length) ∧ ((argsort l).map (fun i => l.getD i 0)).Pairwise (· ≤ ·)

/-- The complex number whose real and imaginary part are a row of the result. -/
def row (p : ℝ × ℝ) : ℂ := ⟨p.1, p.2⟩

/-- The rows of the result are in order of decreasing modulus, the first one has modulus one. -/
def Normalised (L : List (ℝ × ℝ)) : Prop :=
  (L.map (fun p => ‖row p‖)).Pairwise (· ≥ ·) ∧ ∃ p, L.head? = some p ∧ ‖row p‖ = 1

/-- `L` lists `n` leading eigenvalues of `M` by decreasing modulus, divided by the largest modulus. -/
def Spectrum {ι : Type} [Fintype ι] [DecidableEq ι] (M : Matrix ι ι ℂ) (n : Nat) (L : List (ℝ × ℝ)) : Prop :=
  Normalised L ∧ ∃ s : ℝ, 0 < s ∧ Leading M n (L.map (fun p => (s : ℂ) * row p))

/-- The tiling repeats after the unit cell. -/
def Periodic (st : State ℂ) : Prop := ∀ c : Coord, st.vts (c.1 + st.lX, c.2) = st.vts c ∧ st.vts (c.1, c.2 + st.lY) = st.vts c

/-! ### Strips of width one -/

/-- Values of the three indices at a cut of given sizes. -/
abbrev Idx (s : Nat × Nat × Nat) := Fin s.1 × Fin s.2.1 × Fin s.2.2

/-- The edge with a single nonzero entry. -/
def single {s : Nat × Nat × Nat} (j : Idx s) : Vec ℂ := fun x y z => if x = j.1.1 ∧ y = j.2.1.1 ∧ z = j.2.2.1 then 1 else 0

/-- The strip of the sites `c`, `c + d`, ..., `n` of them, without operators, as a matrix from the bonds before the first (sizes `t`) to those behind the last (sizes `s`). -/
noncomputable def strip (N : Tensors ℂ) (D : Dims) (d : Dir) (c : Coord) (n : Nat) (s t : Nat × Nat × Nat) : Matrix (Idx s) (Idx t) ℂ := fun i j =>
  grow N D d c (List.replicate n one) (single j) i.1 i.2.1 i.2.2

/-- The transfer operator of one period in direction `d`, starting in front of `c`. -/
noncomputable def period (st : State ℂ) (N : Tensors ℂ) (D : Dims) (d : Dir) (c : Coord) : Matrix (Idx (cut D d c)) (Idx (cut D d c)) ℂ :=
  strip N D d c (cellLen st d) (cut D d c) (cut D d c)

/-! ### Strips of width zero: two environment rows (columns) facing each other, the one above (left of) `c` and its counterpart -/

/-- The neighbour above `c` (strips to the right and left) or left of it (down, up). -/
def across (d : Dir) (c : Coord) : Coord :=
  match d with
  | .right | .left => (c.1, c.2 - 1)
  | .down | .up => (c.1 - 1, c.2)

/-- Sizes of the two bonds in front of `c`. -/
def cut0 (D : Dims) (d : Dir) (c : Coord) : Nat × Nat := ((cut D d c).1, (cut D d (across d c)).2.2)

abbrev Vec2 := Nat → Nat → ℂ

/-- One more pair of half-row tensors. -/
def step0 (N : Tensors ℂ) (D : Dims) (d : Dir) (c : Coord) (E : Vec2) : Vec2 := fun x' z' =>
  ∑ x ∈ Finset.range (cut0 D d c).1, ∑ z ∈ Finset.range (cut0 D d c).2, ∑ m ∈ Finset.range (sides D d c).1,
    E x z * first N d c x m x' * second N d (across d c) z m z'

def grow0 (N : Tensors ℂ) (D : Dims) (d : Dir) : Coord → Nat → Vec2 → Vec2
  | _, 0, E => E
  | c, n + 1, E => grow0 N D d (ahead d c 1) n (step0 N D d c E)

abbrev Idx2 (s : Nat × Nat) := Fin s.1 × Fin s.2

/-- The strip of width zero as a matrix. -/
def strip0 (N : Tensors ℂ) (D : Dims) (d : Dir) (c : Coord) (n : Nat) (s t : Nat × Nat) : Matrix (Idx2 s) (Idx2 t) ℂ := fun i j =>
  grow0 N D d c n (fun x z => if x = j.1.1 ∧ z = j.2.1 then 1 else 0) i.1 i.2

def period0 (st : State ℂ) (N : Tensors ℂ) (D : Dims) (d : Dir) (c : Coord) : Matrix (Idx2 (cut0 D d c)) (Idx2 (cut0 D d c)) ℂ :=
  strip0 N D d c (cellLen st d) (cut0 D d c) (cut0 D d c)

/-! ### Rings around a cylinder -/

/-- The matrix between environment bonds of a half-row tensor with values `k`, `j` of its two other indices. -/
def block (chi : Nat) (t : Nat → Nat → Nat → Nat → ℂ) (k j : Nat) : Matrix (Fin chi) (Fin chi) ℂ := fun a b => t a b k j

/-- Matrix element of the ring of tensors `ts`: the trace of the product of their matrices. -/
def ring (chi : Nat) (ts : List (Nat → Nat → Nat → Nat → ℂ)) (k j : List Nat) : ℂ :=
  (List.zipWith (fun t kj => block chi t kj.1 kj.2) ts (k.zip j)).prod.trace

/-- The ring as a matrix; the indices of the sites are enumerated in row-major order. -/
def ringMatrix (chi : Nat) (ts : List (Nat → Nat → Nat → Nat → ℂ)) (ads : List Nat) : Matrix (Fin ads.prod) (Fin ads.prod) ℂ := fun i j =>
  ring chi ts (unravel ads i) (unravel ads j)

/-- The half-row tensor at `c` that faces direction `d`: left (upper) environment bond, right (lower) one, the two indices of the double bond. -/
def half (N : Tensors ℂ) (D : Dims) (d : Dir) (c : Coord) (a b k j : Nat) : ℂ :=
  match d with
  | .up => (N.tu c).val [a, k * D.U c + j, b]
  | .left => (N.tl c).val [a, b, k * D.L c + j]
  | .down => (N.td c).val [k * D.U (dn c) + j, a, b]
  | .right => (N.tr c).val [a, k * D.L (rt c) + j, b]

/-- The same with the environment bonds in the order in which one passes them when moving in direction `g`. -/
def along (N : Tensors ℂ) (D : Dims) (d g : Dir) (c : Coord) (a b k j : Nat) : ℂ :=
  match g with
  | .right | .down => half N D d c a b k j
  | .left | .up => half N D d c b a k j

/-- The size of the bond of the ket at `c` in direction `d`. -/
def bond (D : Dims) (d : Dir) (c : Coord) : Nat :=
  match d with
  | .up => D.U c
  | .left => D.L c
  | .down => D.U (dn c)
  | .right => D.L (rt c)

/-- The bonds cut by the boundary of a cylinder of circumference `L`: the sites are `c`, `c + g`, ... -/
def cutBonds (D : Dims) (d g : Dir) (c : Coord) (L : Nat) : List Nat := (List.range L).map (fun i => bond D d (ahead g c i))

/-- The boundary operator of a cylinder of circumference `L`, formed by the half-row tensors facing `d` at the sites `c`, `c + g`, ...; neighbouring
tensors share the bond between them and the last is joined to the first. -/
def boundary (N : Tensors ℂ) (D : Dims) (chi : Nat) (d g : Dir) (c : Coord) (L : Nat) (ads : List Nat) : Matrix (Fin ads.prod) (Fin ads.prod) ℂ :=
  ringMatrix chi ((List.range L).map (fun i => along N D d g (ahead g c i))) ads

/-- All bonds of the environment have size `chi`. -/
def Uniform (D : Dims) (chi : Nat) : Prop := ∀ c, D.eu c = chi ∧ D.el c = chi ∧ D.ed c = chi ∧ D.er c = chi

/-! ### Strips of width two -/

abbrev Idx4 (s : Nat × Nat × Nat × Nat) := Fin s.1 × Fin s.2.1 × Fin s.2.2.1 × Fin s.2.2.2

/-- One column of the strip of width two (the sites `c` and its neighbour beside it) as a matrix. -/
noncomputable def wideStrip (N : Tensors ℂ) (D : Dims) (d : Dir) (c : Coord) (s t : Nat × Nat × Nat × Nat) : Matrix (Idx4 s) (Idx4 t) ℂ := fun i j =>
  wide N D d c one one (fun x y w z => if x = j.1.1 ∧ y = j.2.1.1 ∧ w = j.2.2.1.1 ∧ z = j.2.2.2.1 then 1 else 0) i.1 i.2.1 i.2.2.1 i.2.2.2

end Verif.Transfer.Spec
