import Verif.State.TrglPgSpec
import Mathlib.Tactic.FinCases
import Mathlib.Tactic.Ring
/-
Symmetric triangular states on the torus.
-/
namespace Verif.TrglPg
open Verif.Tensor
open Verif.Kagome.Spec (Cyclic Mirror squareAmplitude)
open Spec
variable {n m D : Nat} [NeZero n] [NeZero m]

/-- The amplitudes of the square-lattice state are those of the simplex state. -/
theorem square_simplex {aux phys A : Tensor ℂ} {q : Nat}
    (hA : ∀ p u l d r, p < q → u < D → l < D → d < D → r < D → A.val [p, u, l, d, r] = siteTT aux phys D p u l d r)
    (σ : ZMod n × ZMod m → Nat) (hσ : ∀ r, σ r < q) : squareAmplitude D A σ = simplexAmplitude D aux phys σ := by
  unfold squareAmplitude simplexAmplitude
  have h1 : ∀ (v h : ZMod n × ZMod m → Fin D), ∏ r, A.val [σ r, v (r - (0, 1)), h (r - (1, 0)), v r, h r] =
      ∑ x : ZMod n × ZMod m → Fin D, ∏ r, (aux.val [h (r - (1, 0)), v r, x r] * phys.val [x r, v (r - (0, 1)), h r, σ r]) := by
    intro v h
    have h2 : ∀ r, A.val [σ r, v (r - (0, 1)), h (r - (1, 0)), v r, h r] =
        ∑ x : Fin D, aux.val [h (r - (1, 0)), v r, x] * phys.val [x, v (r - (0, 1)), h r, σ r] := by
      intro r
      rw [hA _ _ _ _ _ (hσ r) (Fin.isLt _) (Fin.isLt _) (Fin.isLt _) (Fin.isLt _), siteTT, Finset.sum_range]
    rw [Fintype.prod_congr _ _ h2, Finset.prod_univ_sum, Fintype.piFinset_univ]
  simp only [h1]
  have h3 : ∀ F : (ZMod n × ZMod m → Fin D) → (ZMod n × ZMod m → Fin D) → (ZMod n × ZMod m → Fin D) → ℂ,
      ∑ v, ∑ h, ∑ q, F v h q = ∑ z : (ZMod n × ZMod m → Fin D) × (ZMod n × ZMod m → Fin D) × (ZMod n × ZMod m → Fin D), F z.1 z.2.1 z.2.2 := by
    intro F
    simp only [Fintype.sum_prod_type]
  rw [h3]
  let φ : (ZMod n × ZMod m → Fin D) × (ZMod n × ZMod m → Fin D) × (ZMod n × ZMod m → Fin D) ≃ (Fin 3 → ZMod n × ZMod m → Fin D) :=
    ⟨fun z => ![z.2.2, fun r => z.1 (r - (0, 1)), z.2.1], fun b => (fun r => b 1 (r + (0, 1)), b 2, b 0),
      fun z => by
        refine Prod.ext ?_ (Prod.ext rfl rfl)
        funext r
        show z.1 (r + (0, 1) - (0, 1)) = z.1 r
        rw [add_sub_cancel_right],
      fun b => by
        funext e
        fin_cases e
        · rfl
        · funext r
          show b 1 (r - (0, 1) + (0, 1)) = b 1 r
          rw [sub_add_cancel]
        · rfl⟩
  apply Fintype.sum_equiv φ
  intro z
  apply Fintype.prod_congr
  intro r
  show _ = phys.val [z.2.2 r, z.1 (r - (0, 1)), z.2.1 r, σ r] * aux.val [z.2.1 (r - (1, 0)), z.1 (r + (0, 1) - (0, 1)), z.2.2 r]
  rw [add_sub_cancel_right, mul_comm]

theorem simplex_turn {aux phys : Tensor ℂ} {q : Nat} (ha : Cyclic D aux) (hp : ∀ s, s < q → Cyclic D (slice phys s))
    (σ : ZMod n × ZMod n → Nat) (hσ : ∀ r, σ r < q) :
    simplexAmplitude D aux phys (fun r => σ (turn r)) = simplexAmplitude D aux phys σ := by
  let ρ : ZMod n × ZMod n ≃ ZMod n × ZMod n :=
    ⟨turn, fun r => (r.2 - r.1, -r.1), fun r => by ext <;> simp [turn], fun r => by ext <;> simp [turn]⟩
  -- the triangle `e` of `r` is turned into the triangle `e + 1` of `turn r`
  let φ : (Fin 3 → ZMod n × ZMod n → Fin D) ≃ (Fin 3 → ZMod n × ZMod n → Fin D) :=
    ⟨fun x e r => x (e + 1) (ρ r), fun x e r => x (e - 1) (ρ.symm r), fun x => by funext e r; simp, fun x => by funext e r; simp⟩
  unfold simplexAmplitude
  symm
  apply Fintype.sum_equiv φ
  intro b
  simp only [Finset.prod_mul_distrib]
  congr 1
  · symm
    apply Fintype.prod_equiv ρ
    intro r
    exact hp (σ (turn r)) (hσ _) (b 0 (ρ r)) (b 1 (ρ r)) (b 2 (ρ r)) (Fin.isLt _) (Fin.isLt _) (Fin.isLt _)
  · symm
    apply Fintype.prod_equiv (ρ.trans (Equiv.addRight (0, -1)))
    intro r
    have e0 : ρ (r - (1, 0)) = ρ r + (0, -1) := by ext <;> simp [ρ, turn] <;> ring
    have e1 : ρ (r + (0, 1)) = ρ r + (0, -1) - (1, 0) := by ext <;> simp [ρ, turn] <;> ring
    have e2 : ρ r = ρ r + (0, -1) + (0, 1) := by ext <;> simp
    have := ha (b 2 (ρ r + (0, -1) - (1, 0))) (b 1 (ρ r + (0, -1) + (0, 1))) (b 0 (ρ r + (0, -1))) (Fin.isLt _) (Fin.isLt _) (Fin.isLt _)
    have := ha (b 0 (ρ r + (0, -1))) (b 2 (ρ r + (0, -1) - (1, 0))) (b 1 (ρ r + (0, -1) + (0, 1))) (Fin.isLt _) (Fin.isLt _) (Fin.isLt _)
    show aux.val [b (2 + 1) (ρ (r - (1, 0))), b (1 + 1) (ρ (r + (0, 1))), b (0 + 1) (ρ r)] =
      aux.val [b 2 (ρ r + (0, -1) - (1, 0)), b 1 (ρ r + (0, -1) + (0, 1)), b 0 (ρ r + (0, -1))]
    rw [e0, e1, this, ← e2]
    rfl

theorem simplex_mirror {aux phys : Tensor ℂ} {q : Nat} {ε δ : ℂ} (ha : Cyclic D aux) (ha' : Mirror D D ε aux)
    (hp : ∀ s, s < q → Mirror D D δ (slice phys s)) (σ : ZMod n × ZMod n → Nat) (hσ : ∀ r, σ r < q) :
    simplexAmplitude D aux phys (fun r => σ (mirror r)) = (ε * δ) ^ (n * n) * star (simplexAmplitude D aux phys σ) := by
  let ρ : ZMod n × ZMod n ≃ ZMod n × ZMod n := ⟨mirror, mirror, fun r => by ext <;> simp [mirror], fun r => by ext <;> simp [mirror]⟩
  let sw : Fin 3 ≃ Fin 3 := ⟨![0, 2, 1], ![0, 2, 1], by decide, by decide⟩
  let φ : (Fin 3 → ZMod n × ZMod n → Fin D) ≃ (Fin 3 → ZMod n × ZMod n → Fin D) :=
    ⟨fun x e r => x (sw e) (ρ r), fun x e r => x (sw.symm e) (ρ.symm r), fun x => by funext e r; simp, fun x => by funext e r; simp⟩
  unfold simplexAmplitude
  rw [star_sum, Finset.mul_sum]
  symm
  apply Fintype.sum_equiv φ
  intro b
  have h1 : ∀ r, phys.val [φ b 0 r, φ b 1 r, φ b 2 r, σ (mirror r)] = δ * star (phys.val [b 0 (ρ r), b 1 (ρ r), b 2 (ρ r), σ (ρ r)]) := by
    intro r
    exact hp (σ (mirror r)) (hσ _) (b 0 (ρ r)) (b 1 (ρ r)) (b 2 (ρ r)) (Fin.isLt _) (Fin.isLt _) (Fin.isLt _)
  have h2 : ∀ r, aux.val [φ b 2 (r - (1, 0)), φ b 1 (r + (0, 1)), φ b 0 r] =
      ε * star (aux.val [b 2 (ρ r - (1, 0)), b 1 (ρ r + (0, 1)), b 0 (ρ r)]) := by
    intro r
    have e0 : ρ (r - (1, 0)) = ρ r + (0, 1) := by ext <;> simp [ρ, mirror] <;> ring
    have e1 : ρ (r + (0, 1)) = ρ r - (1, 0) := by ext <;> simp [ρ, mirror] <;> ring
    show aux.val [b 1 (ρ (r - (1, 0))), b 2 (ρ (r + (0, 1))), b 0 (ρ r)] = _
    rw [e0, e1]
    have c1 := ha (b 0 (ρ r)) (b 1 (ρ r + (0, 1))) (b 2 (ρ r - (1, 0))) (Fin.isLt _) (Fin.isLt _) (Fin.isLt _)
    have c2 := ha (b 0 (ρ r)) (b 2 (ρ r - (1, 0))) (b 1 (ρ r + (0, 1))) (Fin.isLt _) (Fin.isLt _) (Fin.isLt _)
    rw [c1, c2]
    exact ha' (b 0 (ρ r)) (b 2 (ρ r - (1, 0))) (b 1 (ρ r + (0, 1))) (Fin.isLt _) (Fin.isLt _) (Fin.isLt _)
  simp only [h1, h2, Finset.prod_mul_distrib, Finset.prod_const, Finset.card_univ, Fintype.card_prod, ZMod.card, star_mul', star_prod]
  rw [Equiv.prod_comp ρ (fun r => star (phys.val [b 0 r, b 1 r, b 2 r, σ r])),
    Equiv.prod_comp ρ (fun r => star (aux.val [b 2 (r - (1, 0)), b 1 (r + (0, 1)), b 0 r])), mul_pow]
  ring

/-- A site tensor that the inversion turns into `ε` times its conjugate gives such a wavefunction. -/
theorem square_inverted {A : Tensor ℂ} {q : Nat} {ε : ℂ}
    (hA : ∀ p u l d r, p < q → u < D → l < D → d < D → r < D → A.val [p, d, r, u, l] = ε * star (A.val [p, u, l, d, r]))
    (σ : ZMod n × ZMod m → Nat) (hσ : ∀ r, σ r < q) :
    squareAmplitude D A (fun r => σ (-r)) = ε ^ (n * m) * star (squareAmplitude D A σ) := by
  let φv : (ZMod n × ZMod m → Fin D) ≃ (ZMod n × ZMod m → Fin D) :=
    ⟨fun v r => v (-r - (0, 1)), fun v r => v (-r - (0, 1)), fun v => by funext r; simp, fun v => by funext r; simp⟩
  let φh : (ZMod n × ZMod m → Fin D) ≃ (ZMod n × ZMod m → Fin D) :=
    ⟨fun v r => v (-r - (1, 0)), fun v r => v (-r - (1, 0)), fun v => by funext r; simp, fun v => by funext r; simp⟩
  unfold squareAmplitude
  rw [star_sum, Finset.mul_sum]
  symm
  apply Fintype.sum_equiv φv
  intro v
  rw [star_sum, Finset.mul_sum]
  apply Fintype.sum_equiv φh
  intro h
  have h1 : ∀ r, A.val [σ (-r), φv v (r - (0, 1)), φh h (r - (1, 0)), φv v r, φh h r] =
      ε * star (A.val [σ (-r), v (-r - (0, 1)), h (-r - (1, 0)), v (-r), h (-r)]) := by
    intro r
    have e0 : -(r - (0, 1)) - (0, 1) = -r := by ext <;> simp
    have e1 : -(r - (1, 0)) - (1, 0) = -r := by ext <;> simp
    show A.val [σ (-r), v (-(r - (0, 1)) - (0, 1)), h (-(r - (1, 0)) - (1, 0)), v (-r - (0, 1)), h (-r - (1, 0))] = _
    rw [e0, e1]
    exact hA _ _ _ _ _ (hσ _) (Fin.isLt _) (Fin.isLt _) (Fin.isLt _) (Fin.isLt _)
  simp only [h1, Finset.prod_mul_distrib, Finset.prod_const, Finset.card_univ, Fintype.card_prod, ZMod.card, star_prod]
  congr 1
  exact (Equiv.prod_comp (Equiv.neg _) (fun r => star (A.val [σ r, v (r - (0, 1)), h (r - (1, 0)), v r, h r]))).symm

end Verif.TrglPg
