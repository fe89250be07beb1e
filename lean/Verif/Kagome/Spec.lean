import Verif.Tensor.Ops
import Mathlib.Algebra.BigOperators.Group.Finset.Basic
/-
Specification for the Kagome density matrices. A site tensor carries three spins of dimension `p` in one index of size `p^3`; the first spin is the
slowest (ipeps_kagome.py L41-L46, rdm_kagome.py L47-L55). A block of `n` site tensors carries the spins `0 .. 3 n - 1`, spin `3 i + x` being spin
`x` of tensor `i`.
-/
namespace Verif.KagomeRdm
open Tensor

/-- The value of spin `x` in the configuration `s` of a block (one index per site tensor). -/
def Spec.spin (p : Nat) (s : List Nat) (x : Nat) : Nat := s.getD (x / 3) 0 / p ^ (2 - x % 3) % p

/-- The configurations `s` (kets) and `t` (bras) of `n` site tensors take the values `k` and `b` on the kept spins `ks` and agree on all
other spins. -/
def Spec.Agree (p n : Nat) (ks : List Nat) (k b : Nat → Nat) (s t : List Nat) : Prop :=
  ∀ x < 3 * n, if x ∈ ks then Spec.spin p s x = k x ∧ Spec.spin p t x = b x else Spec.spin p s x = Spec.spin p t x

instance (p n : Nat) (ks : List Nat) (k b : Nat → Nat) (s t : List Nat) : Decidable (Spec.Agree p n ks k b s t) := by
  unfold Spec.Agree; infer_instance

/-- The entry of the partial trace of `R`, an operator on `n` site tensors with indices kets, bras, over all spins that are not in `ks`. -/
def Spec.marginal {K : Type} [AddCommMonoid K] (p n : Nat) (R : Tensor K) (ks : List Nat) (k b : Nat → Nat) : K :=
  sumIdx (List.replicate n (p ^ 3)) fun s => sumIdx (List.replicate n (p ^ 3)) fun t => if Spec.Agree p n ks k b s t then R.val (s ++ t) else 0

/-- `R'` is the partial trace of `R`: one index of size `p` per kept spin, kets in the order of `ks`, then bras. -/
structure Spec.IsMarginal {K : Type} [AddCommMonoid K] (p n : Nat) (R R' : Tensor K) (ks : List Nat) : Prop where
  shape : R'.shape = List.replicate ks.length p ++ List.replicate ks.length p
  val : ∀ k b : Nat → Nat, (∀ x, k x < p) → (∀ x, b x < p) → R'.val (ks.map k ++ ks.map b) = Spec.marginal p n R ks k b

/-- The kept spins of a tensor: `C`, `B`, `A` are the spins 0, 1, 2. -/
def Spec.letters (keep : List Char) : List Nat := ([('C', 0), ('B', 1), ('A', 2)].filter (fun y => y.1 ∈ keep)).map Prod.snd

/-- A legal argument `sites_to_keep`: some of the letters `A`, `B`, `C`, each at most once, in any order. -/
def Spec.Keep (keep : List Char) : Prop := keep.Nodup ∧ ∀ ch ∈ keep, ch = 'A' ∨ ch = 'B' ∨ ch = 'C'

/-- The kept spins of a block of tensors: tensor by tensor. -/
def Spec.kept (keeps : List (List Nat)) : List Nat := (List.range keeps.length).flatMap (fun i => (keeps.getD i []).map (fun x => 3 * i + x))

end Verif.KagomeRdm
