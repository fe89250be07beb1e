import Verif.Tensor.Net
/-
Substitution of a computed tensor by its own network inside a larger network.
-/
namespace Verif.Tensor
variable {K : Type} [CommRing K]

/-- If one factor of a network is a tensor with a network of its own, the two networks merge. -/
theorem Denotes.subst {dim : Nat → Nat} {x R : Tensor K} {O1 O : List (List Nat)} {L1 S1 L S SG : List Nat} {F1 G : (Nat → Nat) → K}
    (h1 : Denotes dim x O1 L1 S1 F1) (q : Denotes dim R O L S (fun σ => x.val (O1.map (gidx dim σ)) * G σ))
    (hG : ∀ σ τ, (∀ l ∈ SG, σ l = τ l) → G σ = G τ) (hd : ∀ l ∈ L1, l ∉ SG) (hO : ∀ l ∈ O1.flatten, l ∈ L ∨ l ∈ O.flatten) :
    Denotes dim R O (L ++ L1) (S1 ++ SG) (fun σ => F1 σ * G σ) := by
  refine ⟨q.shape, fun σ τ h => ?_, fun σ hσ => ?_⟩
  · show F1 σ * G σ = F1 τ * G τ
    rw [h1.loc σ τ (fun l hl => h l (by simp [hl])), hG σ τ (fun l hl => h l (by simp [hl]))]
  · rw [q.val σ hσ, sumOver_append]
    apply sumOver_congr
    intro τ h2 h3
    rw [h1.val τ, sumOver_mul]
    · apply sumOver_congr
      intro ρ _ hρ
      rw [hG τ ρ]
      intro l hl
      exact (hρ l (fun h => hd l h hl)).symm
    · intro l hl
      by_cases hL : l ∈ L
      · exact h2 l hL
      · rw [h3 l hL]
        exact hσ l ((hO l hl).resolve_left hL)

theorem unravel_append (s1 s2 : List Nat) (i j : Nat) (hi : i < s1.prod) (hj : j < s2.prod) :
    unravel (s1 ++ s2) (i * s2.prod + j) = unravel s1 i ++ unravel s2 j := by
  obtain ⟨a1, a2⟩ := inB_unravel s1 i hi
  obtain ⟨b1, b2⟩ := inB_unravel s2 j hj
  have hin : InB (s1 ++ s2) (unravel s1 i ++ unravel s2 j) := List.rel_append a1 b1
  have : ravel (s1 ++ s2) (unravel s1 i ++ unravel s2 j) = i * s2.prod + j := by
    rw [ravel_append _ _ _ _ a1.length, a2, b2]
  rw [← this, unravel_ravel hin]

end Verif.Tensor
