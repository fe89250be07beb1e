import Verif.Group.PgSpec
/-
Independent specification for /repo/u1sym/basis.py: bases of spaces of on-site tensors with a given
symmetry. Lattice symmetries and their action on tensor entries are those of PgSpec.
-/
namespace Verif.SymBasis.Spec
open Pg.Spec
variable {K : Type}

/-- The index tuple `b` is the image of `a` under a symmetry of the square lattice. -/
def Image (a b : Fin 4 → Nat) : Prop := ∃ g : G, b = fun i => a (g.act i)

/-- The charge carried by the physical index `s` and the auxiliary indices `f`; the list holds the
charges of the `p` physical states followed by those of the auxiliary states. -/
def charge (charges : List Int) (p s : Nat) (f : Fin 4 → Nat) : Int :=
  charges.getD s 0 + ∑ i : Fin 4, charges.getD (p + f i) 0

/-- Every non-zero entry of the tensor carries the given total charge. -/
def Conserves [Zero K] (charges : List Int) (total : Int) (p D : Nat) (A : Tensor K) : Prop :=
  ∀ s f, s < p → (∀ i, f i < D) → entry A s f ≠ 0 → charge charges p s f = total

/-- The tensors `bs` form an orthogonal basis of the space of `[p, D, D, D, D]` tensors described by
`P`: all lie in the space, no two are non-zero at the same entry (in particular they are orthogonal),
and every tensor of the space is a linear combination of them with unique coefficients. -/
structure IsBasis [Ring K] (p D : Nat) (P : Tensor K → Prop) (bs : List (Tensor K)) : Prop where
  inSpace : ∀ b ∈ bs, P b
  disjoint : bs.Pairwise fun b b' => ∀ s f, s < p → (∀ i, f i < D) → entry b s f * entry b' s f = 0
  expand : ∀ A, P A → ∃! c : Fin bs.length → K, ∀ s f, s < p → (∀ i, f i < D) →
    entry A s f = ∑ k, c k * entry (bs.get k) s f

/-- Sum of the squared entries, and scalar product, of `[p, D, D, D, D]` tensors. -/
def inner [Ring K] (p D : Nat) (A B : Tensor K) : K :=
  ∑ s ∈ Finset.range p, ∑ u ∈ Finset.range D, ∑ l ∈ Finset.range D, ∑ d ∈ Finset.range D,
    ∑ r ∈ Finset.range D, A.val [s, u, l, d, r] * B.val [s, u, l, d, r]

/-- The entry of the tensor with coefficients `c` in the basis `bs`. -/
def combined [Ring K] (c : List K) (bs : List (Tensor K)) (idx : List Nat) : K :=
  (List.zipWith (fun x b => x * b.val idx) c bs).sum

/-- Entry of a tensor of bond dimension `D0` embedded into larger tensors by zeros. -/
def embedded [Zero K] (D0 : Nat) (v : List Nat → K) (s : Nat) (f : Fin 4 → Nat) : K :=
  if ∀ i, f i < D0 then v [s, f 0, f 1, f 2, f 3] else 0

/-- `basis0` (bond dimension `D0`) is a subset of `basis` (bond dimension `D1`) up to order and
rescaling: element `x` is `scale x` times element `pos x`, which vanishes outside the smaller tensor. -/
structure SubsetOf [Field K] (p D0 D1 : Nat) (basis0 basis : List (Tensor K))
    (pos : Fin basis0.length → Fin basis.length) (scale : Fin basis0.length → K) : Prop where
  inj : ∀ x y, pos x = pos y → x = y
  same : ∀ x s f, s < p → (∀ i, f i < D1) →
    embedded D0 (basis0.get x).val s f = scale x * entry (basis.get (pos x)) s f
  scale_ne : ∀ x, scale x ≠ 0

end Verif.SymBasis.Spec
