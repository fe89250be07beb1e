import Verif.Group.PermModel
import Mathlib.GroupTheory.Perm.List
import Mathlib.GroupTheory.Perm.Sign
import Mathlib.Tactic.Ring
import Mathlib.Tactic.LinearCombination
/-
Property C16: cycle decomposition and parity of permutations.
-/
namespace Verif.Permut
open Equiv

variable {n : Nat}

/-- The list form of a permutation of `0..n-1`: position `i` holds the image of `i`. -/
def Spec.word (σ : Perm (Fin n)) : List Nat := List.ofFn (fun i => (σ i).val)
open Spec

theorem word_get (σ : Perm (Fin n)) (x : Fin n) : (word σ)[x.val]? = some (σ x).val := by
  simp [word]

theorem word_length (σ : Perm (Fin n)) : (word σ).length = n := by simp [word]

theorem sign_formPerm (l : List (Fin n)) (hl : l.Nodup) (h0 : l ≠ []) :
    ((Perm.sign l.formPerm : ℤˣ) : Int) = (-1) ^ (l.length - 1) := by
  induction l with
  | nil => exact absurd rfl h0
  | cons x l ih =>
    cases l with
    | nil => simp
    | cons y l =>
      rw [List.formPerm_cons_cons, Perm.sign_mul, Perm.sign_swap]
      · rw [List.nodup_cons] at hl
        push_cast
        rw [ih hl.2 (by simp)]
        simp only [List.length_cons, Nat.add_sub_cancel]
        ring
      · rintro rfl
        simp at hl

/-- A path of the permutation: every element is followed by its image. -/
def IsPath (σ : Perm (Fin n)) (l : List (Fin n)) : Prop := List.IsChain (fun a b => σ a = b) l

theorem innerLoop_spec (σ : Perm (Fin n)) (start : Fin n) (pre : List (Fin n)) :
    ∀ (fuel : Nat) (l : List (Fin n)) (step : Fin n) (rem : List (Fin n)),
      l.head? = some start → l.getLast? = some step → l.Nodup → IsPath σ l → rem.Nodup →
      (∀ x, x ∈ rem → x ∉ l) → (∀ x, x ∈ pre → x ∉ l) → start ∉ pre →
      (∀ x, x ∈ l ∨ x ∈ rem → σ x ∈ l ∨ σ x ∈ rem) → (∀ x, x ∈ rem → x ∉ pre) →
      rem.length < fuel →
      ∃ l' rem', innerLoop (word σ) start fuel step (l.map (·.val))
          ((pre ++ start :: rem).map (·.val)) = some (l'.map (·.val), (pre ++ start :: rem').map (·.val)) ∧
        l'.head? = some start ∧ l'.Nodup ∧ IsPath σ l' ∧
        (∀ y, l'.getLast? = some y → σ y = start) ∧ rem'.Nodup ∧
        (∀ x, x ∈ rem' → x ∉ l') ∧ (∀ x, (x ∈ l' ∨ x ∈ rem') ↔ (x ∈ l ∨ x ∈ rem)) := by
  intro fuel
  induction fuel with
  | zero => intro l step rem _ _ _ _ _ _ _ _ _ _ h; omega
  | succ fuel ih =>
    intro l step rem hh hlast hnd hp hrn hdis hpre hsp hclosed hrp hf
    unfold innerLoop
    rw [word_get]
    simp only []
    by_cases hc : (σ step).val = start.val
    · rw [if_pos hc]
      refine ⟨l, rem, rfl, hh, hnd, hp, ?_, hrn, hdis, fun x => Iff.rfl⟩
      intro y hy
      rw [hlast, Option.some.injEq] at hy
      rw [← hy]
      exact Fin.ext hc
    · rw [if_neg hc]
      have hc' : σ step ≠ start := fun h => hc (by rw [h])
      have hstepl : step ∈ l := List.mem_of_getLast? hlast
      -- the image is not on the path yet
      have hnot : σ step ∉ l := by
        intro hmem
        obtain ⟨k, hk, e⟩ := List.getElem_of_mem hmem
        rcases k with _ | k
        · apply hc'
          rw [← e]
          cases l with
          | nil => simp at hk
          | cons a l => simpa using hh
        · have hchain := List.isChain_iff_getElem.1 hp k (by omega)
          rw [e] at hchain
          have : l[k] = step := σ.injective hchain
          have hlast' : l[l.length - 1]? = some step := by
            rw [← List.getLast?_eq_getElem?]; exact hlast
          rw [List.getElem?_eq_getElem (by omega), Option.some.injEq] at hlast'
          have := (List.Nodup.getElem_inj_iff hnd (hi := by omega) (hj := by omega)).1 (this.trans hlast'.symm)
          omega
      have hmem : σ step ∈ rem := by
        rcases hclosed step (Or.inl hstepl) with h | h
        · exact absurd h hnot
        · exact h
      have hin : (σ step).val ∈ (pre ++ start :: rem).map (·.val) := by
        apply List.mem_map.2
        exact ⟨σ step, by simp [hmem], rfl⟩
      rw [if_pos hin]
      have herase : ((pre ++ start :: rem).map (·.val)).erase (σ step).val =
          (pre ++ start :: rem.erase (σ step)).map (·.val) := by
        rw [← List.map_erase Fin.val_injective, List.erase_append_right _ (hrp _ hmem),
          List.erase_cons_tail]
        simpa using Ne.symm hc'
      have hmap : l.map (·.val) ++ [(σ step).val] = (l ++ [σ step]).map (·.val) := by simp
      rw [herase, hmap]
      obtain ⟨l', rem', h1, h2, h3, h4, h5, h6, h7, h8⟩ := ih (l ++ [σ step]) (σ step) (rem.erase (σ step))
        (by cases l with
            | nil => simp at hh
            | cons a l => simpa using hh)
        (by simp)
        (by
          rw [List.nodup_append]
          refine ⟨hnd, by simp, ?_⟩
          intro a ha b hb
          simp only [List.mem_singleton] at hb
          subst hb
          rintro rfl
          exact hnot ha)
        (by
          unfold IsPath
          rw [List.isChain_append]
          refine ⟨hp, by simp, ?_⟩
          intro x hx y hy
          rw [hlast] at hx
          simp only [Option.mem_def, Option.some.injEq] at hx
          subst hx
          simpa using hy)
        (hrn.erase _)
        (by
          intro x hx
          have hx' := (List.Nodup.mem_erase_iff hrn).1 hx
          simp only [List.mem_append, List.mem_singleton, not_or]
          exact ⟨hdis x hx'.2, hx'.1⟩)
        (by
          intro x hx
          simp only [List.mem_append, List.mem_singleton, not_or]
          refine ⟨hpre x hx, ?_⟩
          rintro rfl
          exact hrp _ hmem hx)
        hsp
        (by
          intro x hx
          have hx' : x ∈ l ∨ x ∈ rem := by
            rcases hx with hx | hx
            · simp only [List.mem_append, List.mem_singleton] at hx
              rcases hx with hx | rfl
              · exact Or.inl hx
              · exact Or.inr hmem
            · exact Or.inr (List.mem_of_mem_erase hx)
          rcases hclosed x hx' with h | h
          · left; simp [h]
          · by_cases e : σ x = σ step
            · left; simp [e]
            · right; exact (List.Nodup.mem_erase_iff hrn).2 ⟨e, h⟩)
        (fun x hx => hrp x (List.mem_of_mem_erase hx))
        (by
          rw [List.length_erase_of_mem hmem]
          have : 0 < rem.length := List.length_pos_of_mem hmem
          omega)
      refine ⟨l', rem', h1, h2, h3, h4, h5, h6, h7, ?_⟩
      intro x
      rw [h8]
      simp only [List.mem_append, List.mem_singleton, List.Nodup.mem_erase_iff hrn]
      constructor
      · rintro ((h | rfl) | h)
        · exact Or.inl h
        · exact Or.inr hmem
        · exact Or.inr h.2
      · rintro (h | h)
        · exact Or.inl (Or.inl h)
        · by_cases e : x = σ step
          · exact Or.inl (Or.inr e)
          · exact Or.inr ⟨e, h⟩

theorem formPerm_path (σ : Perm (Fin n)) (l : List (Fin n)) (start : Fin n) (hh : l.head? = some start)
    (hnd : l.Nodup) (hp : IsPath σ l) (hl : ∀ y, l.getLast? = some y → σ y = start) :
    ∀ x ∈ l, l.formPerm x = σ x := by
  intro x hx
  obtain ⟨k, hk, rfl⟩ := List.getElem_of_mem hx
  rw [List.formPerm_apply_getElem _ hnd k hk]
  by_cases h : k + 1 < l.length
  · simp only [Nat.mod_eq_of_lt h]
    exact (List.isChain_iff_getElem.1 hp k h).symm
  · have e : k + 1 = l.length := by omega
    have h2 : σ l[k] = start := by
      apply hl
      rw [List.getLast?_eq_getElem?, ← e, Nat.add_sub_cancel, List.getElem?_eq_getElem hk]
    have h3 : l[0]'(by omega) = start := by
      cases l with
      | nil => simp at hk
      | cons a l => simpa using hh
    rw [h2, ← h3]
    congr 1
    rw [e, Nat.mod_self]

/-- One cycle returned by the decomposition: a non-empty duplicate-free list in which every element
is followed by its image and the last one is mapped to the first. -/
def Spec.IsCycleList (σ : Perm (Fin n)) (l : List (Fin n)) : Prop :=
  l.Nodup ∧ ∃ h : 0 < l.length, ∀ k (hk : k < l.length), σ l[k] = l[(k + 1) % l.length]'(Nat.mod_lt _ h)

theorem outerLoop_spec (σ : Perm (Fin n)) :
    ∀ (fuel : Nat) (pre rem vis : List (Fin n)) (cycles : List (List (Fin n))) (parity : Int) (τ : Perm (Fin n)),
      rem.length < fuel → rem.Nodup → pre.Nodup → (∀ x ∈ pre, x ∈ vis) → (∀ x, x ∈ vis ↔ x ∉ rem) →
      (∀ x, x ∈ vis → σ x ∈ vis) →
      (∀ x ∈ vis, τ x = x) → (∀ x, x ∉ vis → τ x = σ x) →
      ((Perm.sign σ : ℤˣ) : Int) = parity * ((Perm.sign τ : ℤˣ) : Int) →
      (∀ c ∈ cycles, IsCycleList σ c) → cycles.flatten.Nodup → (∀ x, x ∈ cycles.flatten ↔ x ∈ vis) →
      ∃ cycles' : List (List (Fin n)),
        outerLoop (word σ) fuel pre.length ((pre ++ rem).map (·.val)) (cycles.map (·.map (·.val))) parity =
          some (cycles'.map (·.map (·.val)), ((Perm.sign σ : ℤˣ) : Int)) ∧
        (∀ c ∈ cycles', IsCycleList σ c) ∧ cycles'.flatten.Nodup ∧ ∀ x, x ∈ cycles'.flatten := by
  intro fuel
  induction fuel with
  | zero => intro _ rem _ _ _ _ h; omega
  | succ fuel ih =>
    intro pre rem vis cycles parity τ hf hrn hpn hpv hvis hclosed hτ1 hτ2 hsign hcyc hcn hcv
    unfold outerLoop
    cases rem with
    | nil =>
      have hτ : τ = 1 := by
        ext x
        rw [hτ1 x ((hvis x).2 (by simp))]
        rfl
      refine ⟨cycles, ?_, hcyc, hcn, fun x => (hcv x).2 ((hvis x).2 (by simp))⟩
      have : ((pre ++ ([] : List (Fin n))).map Fin.val)[pre.length]? = none := by simp
      rw [this]
      simp only [hsign, hτ, Perm.sign_one, Units.val_one, mul_one]
    | cons start rem =>
      have hget : ((pre ++ start :: rem).map (·.val))[pre.length]? = some start.val := by simp
      rw [hget]
      simp only [word_length]
      have hstart : start ∉ vis := by rw [hvis]; simp
      have hrv : ∀ x, x ∈ rem → x ∉ vis := by intro x hx; rw [hvis]; simp [hx]
      rw [List.nodup_cons] at hrn
      have hnvis : ∀ x, x ∉ vis → σ x ∉ vis := by
        -- vis is finite and closed, so its complement is closed as well
        intro x hx hs
        have hmap : ∀ y ∈ vis.toFinset, σ y ∈ vis.toFinset := by
          intro y hy; rw [List.mem_toFinset] at *; exact hclosed y hy
        have himg : vis.toFinset.image σ = vis.toFinset := by
          apply Finset.eq_of_subset_of_card_le
          · intro y hy
            obtain ⟨z, hz, rfl⟩ := Finset.mem_image.1 hy
            exact hmap z hz
          · rw [Finset.card_image_of_injective _ σ.injective]
        have : σ x ∈ vis.toFinset.image σ := by rw [himg, List.mem_toFinset]; exact hs
        obtain ⟨z, hz, e⟩ := Finset.mem_image.1 this
        rw [σ.injective e, List.mem_toFinset] at hz
        exact hx hz
      obtain ⟨l, rem', h1, h2, h3, h4, h5, h6, h7, h8⟩ := innerLoop_spec σ start pre (n + 1) [start] start rem
        rfl rfl (by simp) (by unfold IsPath; simp) hrn.2
        (by intro x hx; simp only [List.mem_singleton]; rintro rfl; exact hrn.1 hx)
        (by intro x hx; simp only [List.mem_singleton]; rintro rfl; exact hstart (hpv _ hx))
        (fun h => hstart (hpv _ h))
        (by
          intro x hx
          have hx' : x ∉ vis := by
            rcases hx with hx | hx
            · simp only [List.mem_singleton] at hx; rw [hx]; exact hstart
            · exact hrv x hx
          have := hnvis x hx'
          rw [hvis, not_not, List.mem_cons] at this
          rcases this with h | h
          · left; simp [h]
          · right; exact h)
        (fun x hx h => hrv x hx (hpv x h))
        (by
          have : rem.toFinset.card ≤ (Finset.univ : Finset (Fin n)).card := Finset.card_le_univ _
          rw [List.toFinset_card_of_nodup hrn.2, Finset.card_univ, Fintype.card_fin] at this
          omega)
      have h1' : innerLoop (word σ) start.val (n + 1) start.val [start.val] ((pre ++ start :: rem).map (·.val)) =
          some (l.map (·.val), (pre ++ start :: rem').map (·.val)) := h1
      rw [h1']
      simp only [List.length_map]
      have hlne : l ≠ [] := by rintro rfl; simp at h2
      have hform := formPerm_path σ l start h2 h3 h4 h5
      have hlv : ∀ x ∈ l, x ∉ vis := by
        intro x hx
        rcases (h8 x).1 (Or.inl hx) with h | h
        · simp only [List.mem_singleton] at h; rw [h]; exact hstart
        · exact hrv x h
      have hstartl : start ∈ l := List.mem_of_mem_head? h2
      have hlclosed : ∀ x ∈ l, σ x ∈ l := by
        intro x hx
        rw [← hform x hx]
        exact List.formPerm_apply_mem_of_mem hx
      have hlclosed' : ∀ x, x ∉ l → σ x ∉ l := by
        intro x hx hs
        have hmap : ∀ y ∈ l.toFinset, σ y ∈ l.toFinset := by
          intro y hy; rw [List.mem_toFinset] at *; exact hlclosed y hy
        have himg : l.toFinset.image σ = l.toFinset := by
          apply Finset.eq_of_subset_of_card_le
          · intro y hy
            obtain ⟨z, hz, rfl⟩ := Finset.mem_image.1 hy
            exact hmap z hz
          · rw [Finset.card_image_of_injective _ σ.injective]
        have : σ x ∈ l.toFinset.image σ := by rw [himg, List.mem_toFinset]; exact hs
        obtain ⟨z, hz, e⟩ := Finset.mem_image.1 this
        rw [σ.injective e, List.mem_toFinset] at hz
        exact hx hz
      have hvis' : ∀ x, x ∈ vis ++ l ↔ x ∉ rem' := by
        intro x
        rw [List.mem_append, hvis]
        have hs := h8 x
        simp only [List.mem_cons, List.mem_singleton] at hs ⊢
        by_cases a : x ∈ rem'
        · have := hs.1 (Or.inr a)
          have := h7 x a
          tauto
        · tauto
      have hcat : cycles.map (·.map (·.val)) ++ [l.map (·.val)] = (cycles ++ [l]).map (·.map (·.val)) := by simp
      have hpre' : (pre ++ start :: rem').map (·.val) = ((pre ++ [start]) ++ rem').map Fin.val := by simp
      have hlen' : pre.length + 1 = (pre ++ [start]).length := by simp
      rw [hcat, hpre', hlen']
      have hremlen : rem'.length < fuel := by
        have hsub : rem' ⊆ rem := by
          intro x hx
          rcases (h8 x).1 (Or.inr hx) with h | h
          · simp only [List.mem_singleton] at h
            rw [h] at hx
            exact absurd hstartl (h7 _ hx)
          · exact h
        have := (List.subperm_of_subset h6 hsub).length_le
        simp only [List.length_cons] at hf
        omega
      apply ih (pre ++ [start]) rem' (vis ++ l) (cycles ++ [l]) _ (l.formPerm⁻¹ * τ) hremlen h6
      · rw [List.nodup_append]
        refine ⟨hpn, by simp, ?_⟩
        intro a ha b hb
        simp only [List.mem_singleton] at hb
        rintro rfl
        rw [hb] at ha
        exact hstart (hpv _ ha)
      · intro x hx
        rw [List.mem_append] at hx ⊢
        rcases hx with hx | hx
        · exact Or.inl (hpv x hx)
        · simp only [List.mem_singleton] at hx; rw [hx]; exact Or.inr hstartl
      · exact hvis'
      · intro x hx
        rw [List.mem_append] at hx ⊢
        rcases hx with hx | hx
        · exact Or.inl (hclosed x hx)
        · exact Or.inr (hlclosed x hx)
      · intro x hx
        rw [List.mem_append] at hx
        rw [Perm.mul_apply, Perm.inv_eq_iff_eq]
        by_cases a : x ∈ vis
        · rw [hτ1 x a, List.formPerm_apply_of_notMem (fun h => hlv x h a)]
        · have : x ∈ l := by tauto
          rw [hτ2 x a, hform x this]
      · intro x hx
        rw [List.mem_append, not_or] at hx
        rw [Perm.mul_apply, Perm.inv_eq_iff_eq, hτ2 x hx.1,
          List.formPerm_apply_of_notMem (hlclosed' x hx.2)]
      · rw [hsign, Perm.sign_mul, Perm.sign_inv]
        push_cast
        rw [sign_formPerm l h3 hlne]
        have : ((-1 : Int) ^ (l.length - 1)) * (-1) ^ (l.length - 1) = 1 := by
          rw [← mul_pow]; simp
        linear_combination (-parity * ((Perm.sign τ : ℤˣ) : Int)) * this
      · intro c hc
        rw [List.mem_append, List.mem_singleton] at hc
        rcases hc with hc | rfl
        · exact hcyc c hc
        · refine ⟨h3, List.length_pos_of_ne_nil hlne, ?_⟩
          intro k hk
          rw [← hform _ (List.getElem_mem hk), List.formPerm_apply_getElem _ h3 k hk]
      · rw [List.flatten_append, List.nodup_append]
        refine ⟨hcn, by simpa using h3, ?_⟩
        intro a ha b hb
        rintro rfl
        simp only [List.flatten_cons, List.flatten_nil, List.append_nil] at hb
        exact hlv a hb ((hcv a).1 ha)
      · intro x
        rw [List.flatten_append, List.mem_append, hcv]
        simp

/-- C16. For every permutation of `0..n-1`, of any length, the decomposition succeeds, its parity is
the sign of the permutation, and its cycles are the cycles of the permutation, covering every element
exactly once. -/
theorem C16_parity (n : Nat) (σ : Perm (Fin n)) : ∃ cycles : List (List (Fin n)),
    cycleDecomp (word σ) = some (cycles.map (·.map (·.val)), ((Perm.sign σ : ℤˣ) : Int)) ∧
    (∀ c ∈ cycles, IsCycleList σ c) ∧ cycles.flatten.Nodup ∧ ∀ x, x ∈ cycles.flatten := by
  have hall : ∀ i ∈ List.range (word σ).length, i ∈ word σ := by
    intro i hi
    rw [word_length, List.mem_range] at hi
    rw [word, List.mem_ofFn]
    exact ⟨σ.symm ⟨i, hi⟩, by simp⟩
  unfold cycleDecomp
  rw [if_pos hall, word_length]
  have hr : (List.range n) = (([] : List (Fin n)) ++ List.finRange n).map (·.val) := by
    simp
  rw [hr]
  exact outerLoop_spec σ (n + 1) [] (List.finRange n) [] [] 1 σ (by simp) (List.nodup_finRange n)
    (by simp) (by simp) (by simp) (by simp) (by simp) (by simp) (by simp) (by simp) (by simp) (by simp)

/-- C16. The input is accepted exactly when it is a permutation of `0..n-1`. -/
theorem C16_accepts (sigma : List Nat) :
    (cycleDecomp sigma).isSome ↔ ∃ σ : Perm (Fin sigma.length), sigma = word σ := by
  constructor
  · intro h
    unfold cycleDecomp at h
    split at h
    · rename_i hall
      have hsub : (List.range sigma.length) ⊆ sigma := fun i hi => hall i hi
      have hp : (List.range sigma.length).Perm sigma :=
        (List.subperm_of_subset List.nodup_range hsub).perm_of_length_le (by simp)
      have hnd : sigma.Nodup := hp.nodup_iff.1 List.nodup_range
      have hlt : ∀ i (hi : i < sigma.length), sigma[i] < sigma.length := by
        intro i hi
        have := hp.mem_iff.2 (List.getElem_mem hi)
        exact List.mem_range.1 this
      let f : Fin sigma.length → Fin sigma.length := fun i => ⟨sigma[i.val], hlt i.val i.isLt⟩
      have hf : Function.Injective f := by
        intro a b e
        have e' : sigma[a.val] = sigma[b.val] := by simpa [f] using e
        exact Fin.ext ((List.Nodup.getElem_inj_iff hnd).1 e')
      refine ⟨Equiv.ofBijective f (Finite.injective_iff_bijective.1 hf), ?_⟩
      apply List.ext_getElem
      · simp [word]
      · intro i h1 h2
        simp [word, f]
    · cases h
  · rintro ⟨σ, h⟩
    obtain ⟨c, hc, _⟩ := C16_parity sigma.length σ
    rw [← h] at hc
    rw [hc]; rfl

/-- C16. The parity is multiplicative. -/
theorem C16_multiplicative (n : Nat) (σ τ : Perm (Fin n)) (c₁ c₂ c₃ : List (List Nat)) (p₁ p₂ p₃ : Int)
    (h1 : cycleDecomp (word σ) = some (c₁, p₁)) (h2 : cycleDecomp (word τ) = some (c₂, p₂))
    (h3 : cycleDecomp (word (σ * τ)) = some (c₃, p₃)) : p₃ = p₁ * p₂ := by
  obtain ⟨_, a, _⟩ := C16_parity n σ
  obtain ⟨_, b, _⟩ := C16_parity n τ
  obtain ⟨_, c, _⟩ := C16_parity n (σ * τ)
  rw [h1, Option.some.injEq, Prod.mk.injEq] at a
  rw [h2, Option.some.injEq, Prod.mk.injEq] at b
  rw [h3, Option.some.injEq, Prod.mk.injEq] at c
  rw [a.2, b.2, c.2, Perm.sign_mul]
  push_cast; rfl

/-- C16. The three-index tensor is totally antisymmetric with ε(0,1,2) = 1 (all 27 entries). -/
theorem C16_leviCivita : leviCivita3 0 1 2 = some 1 ∧ ∀ i j k : Fin 3, ∃ e, leviCivita3 i j k = some e ∧
    leviCivita3 j i k = some (-e) ∧ leviCivita3 i k j = some (-e) ∧ leviCivita3 k j i = some (-e) := by
  refine ⟨by decide, ?_⟩
  intro i j k
  have h : ∀ i j k : Fin 3, (leviCivita3 i j k).isSome ∧
      leviCivita3 j i k = (leviCivita3 i j k).map (- ·) ∧ leviCivita3 i k j = (leviCivita3 i j k).map (- ·) ∧
      leviCivita3 k j i = (leviCivita3 i j k).map (- ·) := by decide
  obtain ⟨h0, h1, h2, h3⟩ := h i j k
  obtain ⟨e, he⟩ := Option.isSome_iff_exists.1 h0
  exact ⟨e, he, by rw [h1, he]; rfl, by rw [h2, he]; rfl, by rw [h3, he]; rfl⟩

/-- Non-vacuity: a permutation of five elements with a 3-cycle and a 2-cycle. -/
example : cycleDecomp [2, 3, 4, 1, 0] = some ([[0, 2, 4], [1, 3]], -1) := by decide
example : cycleDecomp [0, 0, 1] = none := by decide

end Verif.Permut
