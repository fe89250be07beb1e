import Verif.Kagome.Layer
import Verif.Kagome.Marginal
/-
A double-layer tensor with open spins is a sum over the configurations of its three spins, the networks are linear in each of them, and the
final `view` and `permute` give one index per spin.
-/
namespace Verif.KagomeRdm
open Tensor Rdm
variable {K : Type} [RCLike K]

/-- Spin `x` of the index `v` of a single tensor. -/
def sp (p v x : Nat) : Nat := v / p ^ (2 - x) % p

theorem sp_enc {p s0 s1 s2 : Nat} (h0 : s0 < p) (h1 : s1 < p) (h2 : s2 < p) :
    sp p (enc p s0 s1 s2) 0 = s0 ∧ sp p (enc p s0 s1 s2) 1 = s1 ∧ sp p (enc p s0 s1 s2) 2 = s2 := by
  have hp : 0 < p := by omega
  have hlt : s1 * p + s2 < p * p := by
    calc s1 * p + s2 < s1 * p + p := by omega
      _ = (s1 + 1) * p := by ring
      _ ≤ p * p := Nat.mul_le_mul_right p h1
  refine ⟨?_, ?_, ?_⟩
  · simp only [sp, enc, pow_two, Nat.sub_zero]
    rw [Nat.mul_comm s0, Nat.mul_add_div (by positivity), Nat.div_eq_of_lt hlt, Nat.add_zero, Nat.mod_eq_of_lt h0]
  · simp only [sp, enc, show 2 - 1 = 1 from rfl, pow_one]
    have : s0 * (p * p) + (s1 * p + s2) = p * (s0 * p + s1) + s2 := by ring
    rw [this, Nat.mul_add_div hp, Nat.div_eq_of_lt h2, Nat.add_zero, Nat.mul_comm s0, Nat.mul_add_mod, Nat.mod_eq_of_lt h1]
  · simp only [sp, enc, show 2 - 2 = 0 from rfl, pow_zero, Nat.div_one]
    have : s0 * (p * p) + (s1 * p + s2) = p * (s0 * p + s1) + s2 := by ring
    rw [this, Nat.mul_add_mod, Nat.mod_eq_of_lt h2]

/-- Agreement of one spin. -/
def Ag (o : Option (Nat × Nat)) (s t : Nat) : Prop :=
  match o with
  | none => s = t
  | some (k, b) => s = k ∧ t = b

instance (o : Option (Nat × Nat)) (s t : Nat) : Decidable (Ag o s t) := by
  unfold Ag; split <;> infer_instance

theorem pair_single (p : Nat) (o : Option (Nat × Nat)) (ho : ∀ q ∈ o, q.1 < p ∧ q.2 < p) (g : Nat → Nat → K) :
    ∑ s ∈ Finset.range p, ∑ t ∈ Finset.range p, (if Ag o s t then (1 : K) else 0) * g s t = pairSum p o g := by
  cases o with
  | none =>
    have e : ∀ s t, Ag none s t ↔ s = t := fun _ _ => Iff.rfl
    simp only [pairSum, e]
    refine Finset.sum_congr rfl fun s hs => ?_
    simp only [ite_mul, one_mul, zero_mul]
    rw [Finset.sum_ite_eq, if_pos hs]
  | some q =>
    obtain ⟨k, b⟩ := q
    obtain ⟨hk, hb⟩ := ho _ rfl
    have e : ∀ s t, Ag (some (k, b)) s t ↔ (s = k ∧ t = b) := fun _ _ => Iff.rfl
    simp only [pairSum, e]
    rw [Finset.sum_eq_single k, Finset.sum_eq_single b]
    · simp
    · intro t _ ht; simp [ht]
    · intro h; exact absurd (Finset.mem_range.2 hb) h
    · intro s _ hs; simp [hs]
    · intro h; exact absurd (Finset.mem_range.2 hk) h

/-- Agreement of the three spins of a tensor. -/
def Ag3 (p : Nat) (o : Nat → Option (Nat × Nat)) (s t : Nat) : Prop := ∀ x < 3, Ag (o x) (sp p s x) (sp p t x)

instance (p : Nat) (o : Nat → Option (Nat × Nat)) (s t : Nat) : Decidable (Ag3 p o s t) := by
  unfold Ag3; infer_instance

/-- Indicator. -/
def ind (q : Prop) [Decidable q] : K := if q then 1 else 0

theorem ind_and (q r : Prop) [Decidable q] [Decidable r] : (ind (q ∧ r) : K) = ind q * ind r := by
  unfold ind; by_cases hq : q <;> by_cases hr : r <;> simp [hq, hr]

theorem ind_congr {q r : Prop} [Decidable q] [Decidable r] (h : q ↔ r) : (ind q : K) = ind r := by
  unfold ind; simp only [h]

theorem sum_cube (p : Nat) (g : Nat → K) :
    ∑ s ∈ Finset.range (p ^ 3), g s = ∑ s0 ∈ Finset.range p, ∑ s1 ∈ Finset.range p, ∑ s2 ∈ Finset.range p, g (enc p s0 s1 s2) := by
  rw [show p ^ 3 = p * (p * p) by ring, sum_range_mul]
  refine Finset.sum_congr rfl fun s0 _ => ?_
  rw [sum_range_mul]
  rfl

theorem ind_ag3 {p : Nat} (o : Nat → Option (Nat × Nat)) {s0 s1 s2 t0 t1 t2 : Nat} (h0 : s0 < p) (h1 : s1 < p) (h2 : s2 < p) (k0 : t0 < p) (k1 : t1 < p)
    (k2 : t2 < p) : (ind (Ag3 p o (enc p s0 s1 s2) (enc p t0 t1 t2)) : K) = ind (Ag (o 0) s0 t0) * (ind (Ag (o 1) s1 t1) * ind (Ag (o 2) s2 t2)) := by
  rw [← ind_and, ← ind_and]
  apply ind_congr
  obtain ⟨a0, a1, a2⟩ := sp_enc h0 h1 h2
  obtain ⟨b0, b1, b2⟩ := sp_enc k0 k1 k2
  unfold Ag3
  constructor
  · intro h
    refine ⟨?_, ?_, ?_⟩
    · simpa only [a0, b0] using h 0 (by omega)
    · simpa only [a1, b1] using h 1 (by omega)
    · simpa only [a2, b2] using h 2 (by omega)
  · rintro ⟨g0, g1, g2⟩ x hx
    have : x = 0 ∨ x = 1 ∨ x = 2 := by omega
    rcases this with rfl | rfl | rfl
    · rwa [a0, b0]
    · rwa [a1, b1]
    · rwa [a2, b2]

theorem three_spins (p : Nat) (o : Nat → Option (Nat × Nat)) (ho : ∀ x, ∀ q ∈ o x, q.1 < p ∧ q.2 < p) (g : Nat → Nat → K) :
    ∑ s ∈ Finset.range (p ^ 3), ∑ t ∈ Finset.range (p ^ 3), ind (Ag3 p o s t) * g s t =
      pairSum p (o 0) (fun s0 t0 => pairSum p (o 1) (fun s1 t1 => pairSum p (o 2) (fun s2 t2 => g (enc p s0 s1 s2) (enc p t0 t1 t2)))) := by
  simp only [sum_cube]
  rw [← pair_single p (o 0) (ho 0)]
  refine Finset.sum_congr rfl fun s0 h0 => ?_
  have c1 : ∀ F : Nat → Nat → Nat → Nat → Nat → K,
      ∑ s1 ∈ Finset.range p, ∑ s2 ∈ Finset.range p, ∑ t0 ∈ Finset.range p, ∑ t1 ∈ Finset.range p, ∑ t2 ∈ Finset.range p, F s1 s2 t0 t1 t2 =
      ∑ t0 ∈ Finset.range p, ∑ s1 ∈ Finset.range p, ∑ t1 ∈ Finset.range p, ∑ s2 ∈ Finset.range p, ∑ t2 ∈ Finset.range p, F s1 s2 t0 t1 t2 := by
    intro F
    rw [Finset.sum_congr rfl fun s1 _ => Finset.sum_comm, Finset.sum_comm]
    refine Finset.sum_congr rfl fun t0 _ => Finset.sum_congr rfl fun s1 _ => ?_
    exact Finset.sum_comm
  rw [c1]
  refine Finset.sum_congr rfl fun t0 k0 => ?_
  rw [← pair_single p (o 1) (ho 1), Finset.mul_sum]
  refine Finset.sum_congr rfl fun s1 h1 => ?_
  rw [Finset.mul_sum]
  refine Finset.sum_congr rfl fun t1 k1 => ?_
  rw [← pair_single p (o 2) (ho 2), Finset.mul_sum, Finset.mul_sum]
  refine Finset.sum_congr rfl fun s2 h2 => ?_
  rw [Finset.mul_sum, Finset.mul_sum]
  refine Finset.sum_congr rfl fun t2 k2 => ?_
  simp only [Finset.mem_range] at h0 k0 h1 k1 h2 k2
  rw [ind_ag3 o h0 h1 h2 k0 k1 k2]
  simp only [ind]
  ring

theorem pairOf_lt {p : Nat} (os : List Nat) {k b : Nat → Nat} (hk : ∀ x, k x < p) (hb : ∀ x, b x < p) (x : Nat) : ∀ q ∈ pairOf os k b x, q.1 < p ∧ q.2 < p := by
  intro q hq
  unfold pairOf at hq
  split at hq
  · simp at hq; subst hq; exact ⟨hk x, hb x⟩
  · simp at hq

/-! ### Linearity of the networks -/

/-- A functional of a double-layer tensor that is linear. -/
def Lin (Φ : (Nat → Nat → Nat → Nat → K) → K) : Prop :=
  ∀ (P : Nat) (w : Nat → Nat → K) (f : Nat → Nat → Nat → Nat → Nat → Nat → K),
    Φ (fun U L D R => ∑ s ∈ Finset.range P, ∑ t ∈ Finset.range P, w s t * f s t U L D R) =
      ∑ s ∈ Finset.range P, ∑ t ∈ Finset.range P, w s t * Φ (f s t)

theorem sumOver_sum {ι : Type} (dim : Nat → Nat) (ls : List Nat) (S : Finset ι) (f : ι → (Nat → Nat) → K) (σ : Nat → Nat) :
    sumOver dim ls (fun τ => ∑ i ∈ S, f i τ) σ = ∑ i ∈ S, sumOver dim ls (f i) σ := by
  induction ls generalizing σ with
  | nil => rfl
  | cons a ls ih => simp only [sumOver, ih]; exact Finset.sum_comm

theorem lin_sumOver (dim : Nat → Nat) (ls : List Nat) (c : (Nat → Nat) → K) (i1 i2 i3 i4 : Nat) (σ : Nat → Nat) :
    Lin (fun f => sumOver dim ls (fun τ => c τ * f (τ i1) (τ i2) (τ i3) (τ i4)) σ) := by
  intro P w f
  simp only [Finset.mul_sum, sumOver_sum]
  refine Finset.sum_congr rfl fun s _ => Finset.sum_congr rfl fun t _ => ?_
  rw [mul_sumOver]
  congr 1
  funext τ
  ring

end Verif.KagomeRdm
