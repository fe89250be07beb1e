import Verif.State.KagomeSpec
import Mathlib.Tactic.FinCases
/-
Symmetries of simplex states on the torus.
-/
namespace Verif.Kagome
open Spec
variable {n m D : Nat} [NeZero n] [NeZero m]

theorem amplitude_rotated (Tu Td : Tensor ℂ) (B : Tensor ℂ) (hu : Cyclic D Tu) (hd : Cyclic D Td)
    (σ : Fin 3 → ZMod n × ZMod n → Nat) :
    amplitude D Tu Td (fun _ => B) (rotated σ) = amplitude D Tu Td (fun _ => B) σ := by
  let ρ : ZMod n × ZMod n ≃ ZMod n × ZMod n :=
    ⟨fun r => (r.2, -r.1 - r.2), fun r => (-r.1 - r.2, r.1), fun r => by ext <;> simp <;> ring, fun r => by ext <;> simp⟩
  let φ : (Fin 3 → ZMod n × ZMod n → Fin D) ≃ (Fin 3 → ZMod n × ZMod n → Fin D) :=
    ⟨fun x e r => x (e - 1) (ρ.symm r), fun x e r => x (e + 1) (ρ r), fun x => by funext e r; simp, fun x => by funext e r; simp⟩
  unfold amplitude
  symm
  apply Fintype.sum_equiv φ
  intro x
  apply Fintype.sum_equiv φ
  intro y
  have key : ∀ (f g h f' g' h' : ZMod n × ZMod n → ℂ), (∀ r, f' (ρ r) = f r) → (∀ r, g' (ρ r + (0, 1)) = g r) →
      (∀ r, h' (ρ r) = h r) → ∏ r, (f r * g r * h r) = ∏ r, (f' r * g' r * h' r) := by
    intro f g h f' g' h' h1 h2 h3
    simp only [Finset.prod_mul_distrib]
    congr 1
    · congr 1
      · exact Fintype.prod_equiv ρ _ _ (fun r => (h1 r).symm)
      · exact Fintype.prod_equiv (ρ.trans (Equiv.addRight (0, 1))) _ _ (fun r => (h2 r).symm)
    · exact Fintype.prod_equiv ρ _ _ (fun r => (h3 r).symm)
  apply key
  · intro r
    show Td.val [x (0 - 1) (ρ.symm (ρ r)), x (1 - 1) (ρ.symm (ρ r)), x (2 - 1) (ρ.symm (ρ r))] = _
    rw [Equiv.symm_apply_apply]
    have := hd (x 2 r) (x 0 r) (x 1 r) (x 2 r).2 (x 0 r).2 (x 1 r).2
    exact this.symm
  · intro r
    have e0 : ρ.symm (ρ r + (0, 1) - offset 0) = r - offset 2 := by ext <;> simp [ρ, offset] <;> ring
    have e1 : ρ.symm (ρ r + (0, 1) - offset 1) = r - offset 0 := by ext <;> simp [ρ, offset] <;> ring
    have e2 : ρ.symm (ρ r + (0, 1) - offset 2) = r - offset 1 := by ext <;> simp [ρ, offset] <;> ring
    show Tu.val [y (0 - 1) (ρ.symm (ρ r + (0, 1) - offset 0)), y (1 - 1) (ρ.symm (ρ r + (0, 1) - offset 1)),
      y (2 - 1) (ρ.symm (ρ r + (0, 1) - offset 2))] = _
    rw [e0, e1, e2]
    have := hu (y 2 (r - offset 2)) (y 0 (r - offset 0)) (y 1 (r - offset 1)) (Fin.isLt _) (Fin.isLt _) (Fin.isLt _)
    exact this.symm
  · intro r
    apply Fintype.prod_equiv (Equiv.subRight (1 : Fin 3))
    intro e
    show B.val [σ (e - 1) (ρ.symm (ρ r)), x (e - 1) (ρ.symm (ρ r)), y (e - 1) (ρ.symm (ρ r))] = _
    rw [Equiv.symm_apply_apply]
    rfl

theorem prod_exchange {R : Type} [Fintype R] (μ : R ≃ R) (f g h f' g' h' : R → ℂ) (a b c : ℂ) (h1 : ∀ r, f' r = a * g (μ r))
    (h2 : ∀ r, g' r = a * f (μ r)) (h3 : ∏ r, h' r = c * b * ∏ r, h r) :
    ∏ r, (f' r * g' r * h' r) = ((a * a) ^ Fintype.card R * (c * b)) * ∏ r, (f r * g r * h r) := by
  simp only [Finset.prod_mul_distrib, h3]
  rw [Fintype.prod_congr f' (fun r => a * g (μ r)) h1, Fintype.prod_congr g' (fun r => a * f (μ r)) h2]
  simp only [Finset.prod_mul_distrib, Finset.prod_const, Finset.card_univ]
  rw [Equiv.prod_comp μ g, Equiv.prod_comp μ f, mul_pow]
  ring

theorem amplitude_mirrored (p : Nat) (ε δ : ℂ) (T B : Tensor ℂ) (hε : ε * ε = 1) (hT : Mirror D D ε T) (hB : Mirror p D δ B)
    (σ : Fin 3 → ZMod n × ZMod n → Nat) (hσ : ∀ e r, σ e r < p) :
    amplitude D T T (fun _ => B) (mirrored σ) = δ ^ (3 * (n * n)) * star (amplitude D T T (fun _ => B) σ) := by
  let μ : ZMod n × ZMod n ≃ ZMod n × ZMod n := ⟨fun r => (-r.2, -r.1), fun r => (-r.2, -r.1), fun r => by ext <;> simp, fun r => by ext <;> simp⟩
  have hs : ∀ e, swapLeg (swapLeg e) = e := by decide
  have hμo : ∀ (e : Fin 3) (r : ZMod n × ZMod n), μ (r + offset e) = μ r - offset (swapLeg e) := by
    intro e r
    fin_cases e <;> ext <;> simp [μ, offset, swapLeg] <;> ring
  have hμm : ∀ (e : Fin 3) (r : ZMod n × ZMod n), μ (r - offset e) = μ r + offset (swapLeg e) := by
    intro e r
    fin_cases e <;> ext <;> simp [μ, offset, swapLeg] <;> ring
  have hμμ : ∀ r, μ (μ r) = r := fun r => by ext <;> simp [μ]
  let φ : (Fin 3 → ZMod n × ZMod n → Fin D) ≃ (Fin 3 → ZMod n × ZMod n → Fin D) :=
    ⟨fun x e r => x (swapLeg e) (μ (r + offset e)), fun x e r => x (swapLeg e) (μ (r + offset e)),
      fun x => by funext e r; simp only [hs, hμo, sub_add_cancel, hμμ],
      fun x => by funext e r; simp only [hs, hμo, sub_add_cancel, hμμ]⟩
  let κ : Fin 3 × (ZMod n × ZMod n) ≃ Fin 3 × (ZMod n × ZMod n) :=
    ⟨fun q => (swapLeg q.1, μ (q.2 + offset q.1)), fun q => (swapLeg q.1, μ (q.2 + offset q.1)),
      fun q => by ext1 <;> simp only [hs, hμo, sub_add_cancel, hμμ], fun q => by ext1 <;> simp only [hs, hμo, sub_add_cancel, hμμ]⟩
  unfold amplitude
  rw [Finset.sum_comm]
  symm
  rw [star_sum, Finset.mul_sum]
  apply Fintype.sum_equiv φ
  intro x
  rw [star_sum, Finset.mul_sum]
  apply Fintype.sum_equiv φ
  intro y
  symm
  rw [star_prod]
  simp only [star_mul']
  have e := prod_exchange μ (fun r => star (T.val [x 0 r, x 1 r, x 2 r]))
    (fun r => star (T.val [y 0 (r - offset 0), y 1 (r - offset 1), y 2 (r - offset 2)]))
    (fun r => star (∏ e, B.val [σ e r, x e r, y e r]))
    (fun r => T.val [φ y 0 r, φ y 1 r, φ y 2 r]) (fun r => T.val [φ x 0 (r - offset 0), φ x 1 (r - offset 1), φ x 2 (r - offset 2)])
    (fun r => ∏ e, B.val [mirrored σ e r, φ y e r, φ x e r]) ε 1 (δ ^ (3 * (n * n))) ?_ ?_ ?_
  · rw [hε, one_pow, one_mul, mul_one] at e
    exact e
  · intro r
    have := hT (y 0 (μ r - offset 0)) (y 1 (μ r - offset 1)) (y 2 (μ r - offset 2)) (Fin.isLt _) (Fin.isLt _) (Fin.isLt _)
    show T.val [y 0 (μ (r + offset 0)), y 2 (μ (r + offset 1)), y 1 (μ (r + offset 2))] = _
    rw [hμo, hμo, hμo]
    exact this
  · intro r
    have := hT (x 0 (μ r)) (x 1 (μ r)) (x 2 (μ r)) (Fin.isLt _) (Fin.isLt _) (Fin.isLt _)
    show T.val [x 0 (μ (r - offset 0 + offset 0)), x 2 (μ (r - offset 1 + offset 1)), x 1 (μ (r - offset 2 + offset 2))] = _
    rw [sub_add_cancel, sub_add_cancel, sub_add_cancel]
    exact this
  · have h1 : ∀ (e : Fin 3) (r : ZMod n × ZMod n), B.val [mirrored σ e r, φ y e r, φ x e r] =
        δ * star (B.val [σ (κ (e, r)).1 (κ (e, r)).2, x (κ (e, r)).1 (κ (e, r)).2, y (κ (e, r)).1 (κ (e, r)).2]) := by
      intro e r
      exact hB (σ (κ (e, r)).1 (κ (e, r)).2) (x (κ (e, r)).1 (κ (e, r)).2) (y (κ (e, r)).1 (κ (e, r)).2) (hσ _ _) (Fin.isLt _) (Fin.isLt _)
    have h2 : ∀ g : Fin 3 × (ZMod n × ZMod n) → ℂ, ∏ r : ZMod n × ZMod n, ∏ e : Fin 3, g (e, r) = ∏ q, g q := by
      intro g
      rw [Finset.prod_comm, Fintype.prod_prod_type]
    simp only [h1, star_prod]
    rw [h2 (fun q => δ * star (B.val [σ (κ q).1 (κ q).2, x (κ q).1 (κ q).2, y (κ q).1 (κ q).2])),
      h2 (fun q => star (B.val [σ q.1 q.2, x q.1 q.2, y q.1 q.2])), Finset.prod_mul_distrib, Finset.prod_const, Finset.card_univ,
      Fintype.card_prod, Fintype.card_prod, Fintype.card_fin, ZMod.card,
      Equiv.prod_comp κ (fun q => star (B.val [σ q.1 q.2, x q.1 q.2, y q.1 q.2])), mul_one]

theorem amplitude_inverted (p : Nat) (δ : ℂ) (T B : Tensor ℂ) (hB : Even p D δ B)
    (σ : Fin 3 → ZMod n × ZMod m → Nat) (hσ : ∀ e r, σ e r < p) :
    amplitude D T T (fun _ => B) (inverted σ) = δ ^ (3 * (n * m)) * amplitude D T T (fun _ => B) σ := by
  let μ : ZMod n × ZMod m ≃ ZMod n × ZMod m := Equiv.neg _
  let φ : (Fin 3 → ZMod n × ZMod m → Fin D) ≃ (Fin 3 → ZMod n × ZMod m → Fin D) :=
    ⟨fun x e r => x e (-(r + offset e)), fun x e r => x e (-(r + offset e)), fun x => by funext e r; simp, fun x => by funext e r; simp⟩
  let κ : Fin 3 × (ZMod n × ZMod m) ≃ Fin 3 × (ZMod n × ZMod m) :=
    ⟨fun q => (q.1, -(q.2 + offset q.1)), fun q => (q.1, -(q.2 + offset q.1)), fun q => by ext1 <;> simp, fun q => by ext1 <;> simp⟩
  unfold amplitude
  rw [Finset.sum_comm]
  symm
  rw [Finset.mul_sum]
  apply Fintype.sum_equiv φ
  intro x
  rw [Finset.mul_sum]
  apply Fintype.sum_equiv φ
  intro y
  symm
  have e := prod_exchange μ (fun r => T.val [x 0 r, x 1 r, x 2 r])
    (fun r => T.val [y 0 (r - offset 0), y 1 (r - offset 1), y 2 (r - offset 2)])
    (fun r => ∏ e, B.val [σ e r, x e r, y e r])
    (fun r => T.val [φ y 0 r, φ y 1 r, φ y 2 r]) (fun r => T.val [φ x 0 (r - offset 0), φ x 1 (r - offset 1), φ x 2 (r - offset 2)])
    (fun r => ∏ e, B.val [inverted σ e r, φ y e r, φ x e r]) 1 1 (δ ^ (3 * (n * m))) ?_ ?_ ?_
  · rw [one_mul, one_pow, one_mul, mul_one] at e
    exact e
  · intro r
    rw [one_mul]
    show T.val [y 0 (-(r + offset 0)), y 1 (-(r + offset 1)), y 2 (-(r + offset 2))] = T.val [y 0 (-r - offset 0), y 1 (-r - offset 1), y 2 (-r - offset 2)]
    rw [neg_add', neg_add', neg_add']
  · intro r
    rw [one_mul]
    show T.val [x 0 (-(r - offset 0 + offset 0)), x 1 (-(r - offset 1 + offset 1)), x 2 (-(r - offset 2 + offset 2))] = _
    rw [sub_add_cancel, sub_add_cancel, sub_add_cancel]
    rfl
  · have h1 : ∀ (e : Fin 3) (r : ZMod n × ZMod m), B.val [inverted σ e r, φ y e r, φ x e r] =
        δ * (B.val [σ (κ (e, r)).1 (κ (e, r)).2, x (κ (e, r)).1 (κ (e, r)).2, y (κ (e, r)).1 (κ (e, r)).2]) := by
      intro e r
      exact hB (σ (κ (e, r)).1 (κ (e, r)).2) (x (κ (e, r)).1 (κ (e, r)).2) (y (κ (e, r)).1 (κ (e, r)).2) (hσ _ _) (Fin.isLt _) (Fin.isLt _)
    have h2 : ∀ g : Fin 3 × (ZMod n × ZMod m) → ℂ, ∏ r : ZMod n × ZMod m, ∏ e : Fin 3, g (e, r) = ∏ q, g q := by
      intro g
      rw [Finset.prod_comm, Fintype.prod_prod_type]
    simp only [h1]
    rw [h2 (fun q => δ * (B.val [σ (κ q).1 (κ q).2, x (κ q).1 (κ q).2, y (κ q).1 (κ q).2])),
      h2 (fun q => (B.val [σ q.1 q.2, x q.1 q.2, y q.1 q.2])), Finset.prod_mul_distrib, Finset.prod_const, Finset.card_univ,
      Fintype.card_prod, Fintype.card_prod, Fintype.card_fin, ZMod.card, ZMod.card,
      Equiv.prod_comp κ (fun q => (B.val [σ q.1 q.2, x q.1 q.2, y q.1 q.2])), mul_one]

end Verif.Kagome
