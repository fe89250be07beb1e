import Verif.Tensor.Einsum
/-
Traces of pairs of axes, and comparison of networks on indices within bounds.
-/
namespace Verif.Tensor
variable {K : Type}

/-- As `Denotes.same`; the summands need to agree only where all labels are within bounds. -/
theorem Denotes.same_bounded [AddCommMonoid K] {dim : Nat → Nat} {T T' : Tensor K} {O : List (List Nat)} {L L' S S' : List Nat}
    {F F' : (Nat → Nat) → K} (h : Denotes dim T O L S F) (h' : Denotes dim T' O L' S' F') (hO : O.flatten.Nodup) (hL : L.Perm L')
    (hF : ∀ σ, (∀ l ∈ O.flatten ++ L', σ l < dim l) → F σ = F' σ) : Same T T' := by
  refine ⟨h.shape.trans h'.shape.symm, fun idx hidx => ?_⟩
  rw [h.shape] at hidx
  obtain ⟨σ, s1, rfl⟩ := exists_groups dim O hO idx hidx
  rw [h.val σ s1, h'.val σ s1, sumOver_perm dim hL]
  apply sumOver_congr
  intro τ h1 h2
  apply hF
  intro l hl
  by_cases hl' : l ∈ L'
  · exact h1 l hl'
  · rw [h2 l hl']
    exact s1 l ((List.mem_append.1 hl).resolve_right hl')

/-- A change of labels that maps only the summed labels to summed labels commutes with the sum. -/
theorem sumOver_reindex [AddCommMonoid K] (dim : Nat → Nat) (r : Nat → Nat) (ls : List Nat) (hr : ∀ a ∈ ls, ∀ l, r l = a ↔ l = a) (F : (Nat → Nat) → K)
    (σ : Nat → Nat) : sumOver dim ls (fun τ => F (fun l => τ (r l))) σ = sumOver dim ls F (fun l => σ (r l)) := by
  induction ls generalizing σ with
  | nil => rfl
  | cons a ls ih =>
    simp only [sumOver]
    refine Finset.sum_congr rfl (fun i _ => ?_)
    rw [ih (fun b hb => hr b (by simp [hb]))]
    congr 1
    funext l
    by_cases h : l = a
    · subst h
      have := (hr l (by simp) l).2 rfl
      rw [this]; simp
    · have h2 : r l ≠ a := fun hc => h ((hr a (by simp) l).1 hc)
      rw [Function.update_of_ne h2, Function.update_of_ne h]

variable [CommRing K]

/-- `einsum('...ii->...')`: the trace over the last two axes. -/
theorem Denotes.trace {dim : Nat → Nat} {x : Tensor K} {O : List (List Nat)} {m n : Nat} {L S : List Nat} {F : (Nat → Nat) → K}
    (h : Denotes dim x (O ++ [[m], [n]]) L S F) (hd : dim n = dim m)
    (hc : decide (m ≠ n ∧ m ∉ L ∧ n ∉ L ∧ m ∉ O.flatten ∧ n ∉ O.flatten) = true) :
    ∃ R, Tensor.einsum [(x, List.range O.length ++ [O.length, O.length])] (List.range O.length) = some R ∧
      Denotes dim R O (m :: L) (m :: S) (fun σ => F (fun l => σ (if l = n then m else l))) := by
  rw [decide_eq_true_eq] at hc
  obtain ⟨hmn, hmL, hnL, hmO, hnO⟩ := hc
  obtain ⟨d, hdd⟩ : ∃ d : Nat → Nat, ∀ l, d l = if l < O.length then gdim dim (O.getD l []) else dim m := ⟨_, fun _ => rfl⟩
  have hO : (List.range O.length).map d = O.map (gdim dim) := by
    rw [← range_map_getD' O [] (gdim dim)]
    apply List.map_congr_left
    intro l hl
    rw [hdd, if_pos (List.mem_range.1 hl)]
  have hlast : d O.length = dim m := by rw [hdd, if_neg (lt_irrefl _)]
  have hs : ∀ p ∈ [(x, List.range O.length ++ [O.length, O.length])], p.1.shape = p.2.map d := by
    intro p hp
    rw [List.mem_singleton] at hp
    subst hp
    rw [h.shape, List.map_append, List.map_append, hO]
    simp [hlast, hd]
  obtain ⟨R, e, hR, hv⟩ := einsum_ok d [(x, List.range O.length ++ [O.length, O.length])] (List.range O.length) hs List.nodup_range
    (by intro l hl; simp only [List.flatMap_cons, List.flatMap_nil, List.append_nil]; exact List.mem_append_left _ hl)
  refine ⟨R, e, by rw [hR, hO], ?_, fun σ hσ => ?_⟩
  · intro σ τ hh
    apply h.loc
    intro l hl
    by_cases hln : l = n
    · rw [if_pos hln]; exact hh m (by simp)
    · rw [if_neg hln]; exact hh l (by simp [hl])
  · have hsum : (([(x, List.range O.length ++ [O.length, O.length])].flatMap Prod.snd).dedup.filter (fun l => l ∉ List.range O.length)).Perm [O.length] := by
      rw [List.perm_ext_iff_of_nodup ((List.nodup_dedup _).filter _) (by simp)]
      intro l
      simp only [List.mem_filter, List.mem_dedup, List.flatMap_cons, List.flatMap_nil, List.append_nil, List.mem_append, List.mem_range, List.mem_cons,
        List.not_mem_nil, or_false, decide_not, Bool.not_eq_true', decide_eq_false_iff_not, or_self]
      omega
    obtain ⟨ρ, hρ⟩ : ∃ ρ : Nat → Nat, ∀ l, ρ l = gidx dim σ (O.getD l []) := ⟨_, fun _ => rfl⟩
    have hmap : (List.range O.length).map ρ = O.map (gidx dim σ) := by
      rw [← range_map_getD' O [] (gidx dim σ)]
      exact List.map_congr_left (fun l _ => hρ l)
    have hb : ∀ l ∈ List.range O.length, ρ l < d l := by
      intro l hl
      rw [List.mem_range] at hl
      rw [hρ, hdd, if_pos hl]
      apply gidx_lt
      intro k hk
      apply hσ
      have : O.getD l [] = O[l] := by simp [List.getD_eq_getElem?_getD, hl]
      rw [this] at hk
      exact List.mem_flatten.2 ⟨_, List.getElem_mem hl, hk⟩
    have h1 := hv ρ hb
    rw [hmap, sumOver_perm d hsum] at h1
    rw [h1]
    simp only [sumOver]
    rw [hlast]
    refine Finset.sum_congr rfl (fun k hk => ?_)
    rw [sumOver_reindex dim (fun l => if l = n then m else l) L ?_ F]
    · rw [← h.val _ ?_]
      · simp only [termOf, List.map_cons, List.map_nil, List.prod_cons, List.prod_nil, mul_one, List.map_append]
        congr 1
        congr 1
        · have e1 : (List.range O.length).map (Function.update ρ O.length k) = O.map (gidx dim σ) := by
            rw [← hmap]
            apply List.map_congr_left
            intro l hl
            rw [Function.update_of_ne (by rw [List.mem_range] at hl; omega)]
          rw [e1]
          apply gidx_map_congr
          intro l hl
          have l1 : l ≠ n := fun hc => hnO (hc ▸ hl)
          have l2 : l ≠ m := fun hc => hmO (hc ▸ hl)
          simp only [if_neg l1]
          rw [Function.update_of_ne l2]
        · simp [hmn, Function.update_self, gidx_single]
      · intro l hl
        rw [List.flatten_append, List.mem_append] at hl
        rcases hl with hl | hl
        · have l1 : l ≠ n := fun hc => hnO (hc ▸ hl)
          have l2 : l ≠ m := fun hc => hmO (hc ▸ hl)
          simp only [if_neg l1]
          rw [Function.update_of_ne l2]
          exact hσ l hl
        · simp only [List.flatten_cons, List.flatten_nil, List.append_nil, List.mem_append, List.mem_singleton] at hl
          rcases hl with rfl | rfl
          · simp only [if_neg hmn, Function.update_self]
            exact Finset.mem_range.1 hk
          · simp only [if_true, Function.update_self, hd]
            exact Finset.mem_range.1 hk
    · intro a ha l
      by_cases hln : l = n
      · rw [if_pos hln]
        constructor
        · rintro rfl; exact absurd ha hmL
        · rintro rfl; exact absurd ha (hln ▸ hnL)
      · rw [if_neg hln]

end Verif.Tensor
