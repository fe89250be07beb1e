import Verif.State.GaugeModel
/-
Specification of the wavefunction of a weighted state, independent of the gauge routine.
-/
namespace Verif.Gauge.Spec
open Verif.Lattice (Vertex)
open Verif.State (Mat)
variable {K : Type} [RCLike K]

/-- The tiling: representatives are fixed, every vertex has one, and translations respect it; both ends of a bond have the same size. -/
structure Tiling (g : Cell) : Prop where
  fix : ∀ c ∈ g.keys, g.vts c = c
  mem : ∀ v, g.vts v ∈ g.keys
  shift : ∀ (v : Vertex) (e : Int × Int), g.vts ((g.vts v).1 + e.1, (g.vts v).2 + e.2) = g.vts (v.1 + e.1, v.2 + e.2)
  dims : ∀ c ∈ g.keys, ∀ d : Dir, g.dim c d = g.dim (g.vts (c.1 + d.delta.1, c.2 + d.delta.2)) d.neg

/-- A finite periodic piece of the lattice (a torus of any shape): every vertex lies on a site of the cell and has a right and a lower neighbour. -/
structure Patch (g : Cell) (V : Type) where
  at' : V → Vertex
  right : Equiv.Perm V
  down : Equiv.Perm V
  mem : ∀ v, at' v ∈ g.keys
  onRight : ∀ v, at' (right v) = g.vts ((at' v).1 + 1, (at' v).2)
  onDown : ∀ v, at' (down v) = g.vts ((at' v).1, (at' v).2 + 1)

/-- The amplitude of the physical configuration `s`: sum over all bond indices of sites times weights. -/
noncomputable def amp {g : Cell} {V : Type} [Fintype V] [DecidableEq V] (P : Patch g V) (st : Weighted K) (s : V → Nat) : K :=
  ∑ i ∈ Fintype.piFinset (fun v => Fintype.piFinset (fun d => Finset.range (g.dim (P.at' v) d))),
    (∏ v, st.site (P.at' v) (s v) (i v)) *
    ∏ v, (((st.wt (P.at' v, .right) (i v .right) (i (P.right v) .left) : ℝ) : K) * ((st.wt (P.at' v, .down) (i v .down) (i (P.down v) .up) : ℝ) : K))

/-- Backend contract: eigenvectors of a Hermitian matrix form a unitary matrix, eigenvalues ascend. -/
def IsEigh (eig : Eigh K) : Prop := ∀ n (M : Mat K), (∀ x < n, ∀ y < n, M x y = star (M y x)) →
  (∀ x < n, ∀ y < n, ∑ k ∈ Finset.range n, (eig n M).2 x k * star ((eig n M).2 y k) = if x = y then 1 else 0) ∧
  (∀ x < n, ∀ k < n, ∑ y ∈ Finset.range n, M x y * (eig n M).2 y k = (((eig n M).1 k : ℝ) : K) * (eig n M).2 x k) ∧
  (∀ j k, j ≤ k → k < n → (eig n M).1 j ≤ (eig n M).1 k)

/-- Backend contract: the matrix is the product of the factors, singular values are non-negative. -/
def IsSvd (svd : Svd K) : Prop := ∀ n (M : Mat K),
  (∀ x < n, ∀ y < n, M x y = ∑ k ∈ Finset.range n, (svd n M).1 x k * (((svd n M).2.1 k : ℝ) : K) * (svd n M).2.2 k y) ∧
  ∀ k, 0 ≤ (svd n M).2.1 k

/-- Weights: the same matrix at both ends of a bond, up to transposition. -/
def Shared (g : Cell) (w : Key → Mat ℝ) : Prop := ∀ c ∈ g.keys, ∀ d x y, w (c, d) x y = w (g.rev (c, d)) y x

/-- Weights: diagonal matrices, as `IPEPS_WEIGHTED` documents. -/
def Diagonal (g : Cell) (w : Key → Mat ℝ) : Prop := ∀ c ∈ g.keys, ∀ d x y, x ≠ y → w (c, d) x y = 0

/-- No eigenvalue of a bond is cut: all are positive and not below `1e-14` of the first. -/
def Regular (g : Cell) (eig : Eigh K) (st : Weighted K) : Prop := ∀ c ∈ g.keys, ∀ d, ∀ i < g.dim c d,
  0 < (spec g eig st (c, d)).1 i ∧ 1 / 10 ^ 14 ≤ (spec g eig st (c, d)).1 i / (spec g eig st (c, d)).1 0

/-- States from which a further round starts, when at most `n` rounds are allowed. -/
inductive Visited (g : Cell) (eig : Eigh K) (svd : Svd K) (st : Weighted K) : Nat → Weighted K → Prop
  | start : Visited g eig svd st 0 st
  | next {n st1 st2} : Visited g eig svd st n st1 → round g eig svd st1 = some st2 → Visited g eig svd st (n + 1) st2

end Verif.Gauge.Spec
