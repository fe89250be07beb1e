import Verif.Transfer.Spec
import Mathlib.Data.List.Sort
import Mathlib.LinearAlgebra.Matrix.ToLinearEquiv
import Mathlib.LinearAlgebra.Matrix.Charpoly.Coeff
import Mathlib.Analysis.Complex.Polynomial.Basic
import Mathlib.LinearAlgebra.Matrix.Charpoly.Eigs
/-
Sorting and normalising the values of the solver; leading eigenvalues are unique up to the phases of values of equal modulus; a solver meeting the specification exists.
-/
namespace Verif.Transfer
open Tensor Ctm Spec

theorem bind_ok' {ε α β : Type} {x : Except ε α} {f : α → Except ε β} {b : β} : (x >>= f) = .ok b ↔ ∃ a, x = .ok a ∧ f a = .ok b := by
  cases x with
  | error e => constructor
               · intro h; cases h
               · rintro ⟨a, h, _⟩; cases h
  | ok a => constructor
            · intro h; exact ⟨a, rfl, h⟩
            · rintro ⟨a', h, h'⟩; cases h; exact h'

theorem lift_ok' {α : Type} {x : Option α} {a : α} : Ctm.lift x = .ok a ↔ x = some a := by
  cases x with
  | none => simp [Ctm.lift]
  | some b => simp [Ctm.lift]

theorem pickAll_ok {α : Type} (l : List α) (inds : List Nat) (h : ∀ i ∈ inds, i < l.length) (d : α) :
    pickAll l inds = some (inds.map (fun i => l.getD i d)) := by
  unfold pickAll
  induction inds with
  | nil => rfl
  | cons i is ih =>
    have hi := h i (by simp)
    rw [List.mapM_cons, ih (fun j hj => h j (by simp [hj]))]
    simp [List.getElem?_eq_getElem hi]

theorem map_getD_range {α : Type} (l : List α) (d : α) : (List.range l.length).map (fun i => l.getD i d) = l := by
  refine List.ext_getElem (by simp) (fun i h1 h2 => ?_)
  simp at h1
  simp [h1]

theorem perm_desc {argsort : Argsort} (hs : Sorts argsort) (vals : List ℂ) : (descending argsort vals).Perm (List.range vals.length) := by
  have := (hs (vals.map (fun v => ‖v‖))).1
  rw [List.length_map] at this
  exact (List.reverse_perm _).trans this

theorem lt_desc {argsort : Argsort} (hs : Sorts argsort) (vals : List ℂ) : ∀ i ∈ descending argsort vals, i < vals.length := fun _ hi =>
  List.mem_range.1 ((perm_desc hs vals).mem_iff.1 hi)

theorem sort_ok {argsort : Argsort} (hs : Sorts argsort) (vals : List ℂ) :
    ∃ ws, pickAll vals (descending argsort vals) = some ws ∧ ws = (descending argsort vals).map (fun i => vals.getD i 0) ∧ ws.Perm vals ∧
      (ws.map (fun v => ‖v‖)).Pairwise (· ≥ ·) := by
  refine ⟨_, pickAll_ok vals _ (lt_desc hs vals) 0, rfl, ?_, ?_⟩
  · have := (perm_desc hs vals).map (fun i => vals.getD i 0)
    rwa [map_getD_range] at this
  · have h := (hs (vals.map (fun v => ‖v‖))).2
    have hl := lt_desc hs vals
    simp only [descending, List.map_reverse, List.map_map, List.pairwise_reverse]
    have e : List.map ((fun v => ‖v‖) ∘ fun i => vals.getD i 0) (argsort (vals.map (fun v => ‖v‖))) =
        List.map (fun i => (vals.map (fun v => ‖v‖)).getD i 0) (argsort (vals.map (fun v => ‖v‖))) := by
      refine List.map_congr_left (fun i hi => ?_)
      have : i < vals.length := hl i (by simpa [descending] using hi)
      simp [this]
    rw [e]
    exact h

theorem Leading.perm {ι : Type} [Fintype ι] [DecidableEq ι] {M : Matrix ι ι ℂ} {n : Nat} {vals ws : List ℂ} (h : Leading M n vals) (hp : ws.Perm vals) :
    Leading M n ws := by
  obtain ⟨hl, rest, hr, hm⟩ := h
  refine ⟨by rw [hp.length_eq, hl], rest, ?_, fun r h1 v h2 => hm r h1 v (hp.mem_iff.1 h2)⟩
  rw [hr, Multiset.coe_eq_coe.2 hp]

theorem row_re_im (v : ℂ) : row (v.re, v.im) = v := rfl

/-- What normalisation and splitting into columns make of sorted leading eigenvalues. -/
theorem spectrum_of {ι : Type} [Fintype ι] [DecidableEq ι] {M : Matrix ι ι ℂ} {n : Nat} {ws us : List ℂ} {L : List (ℝ × ℝ)} (hM : Leading M n ws)
    (hd : (ws.map (fun v => ‖v‖)).Pairwise (· ≥ ·)) (hn : normalise ws = .ok us) (hc : columns n us = .ok L) :
    Spectrum M n L ∧ ∃ s : ℝ, 0 < s ∧ ws = L.map (fun p => (s : ℂ) * row p) := by
  cases ws with
  | nil => cases hn
  | cons v vs =>
    rw [normalise] at hn
    by_cases hv : ‖v‖ = 0
    · rw [if_pos hv] at hn; cases hn
    · rw [if_neg hv] at hn
      cases Except.ok.inj hn
      have hpos : 0 < ‖v‖ := lt_of_le_of_ne (norm_nonneg v) (Ne.symm hv)
      rw [columns] at hc
      by_cases hl : (List.map (fun w => ((1 / ‖v‖ : ℝ) : ℂ) * w) (v :: vs)).length = n
      · rw [if_pos hl] at hc
        cases Except.ok.inj hc
        have e : List.map (fun p => (‖v‖ : ℂ) * row p) (List.map (fun v => (v.re, v.im)) (List.map (fun w => ((1 / ‖v‖ : ℝ) : ℂ) * w) (v :: vs))) = v :: vs := by
          rw [List.map_map, List.map_map]
          conv_rhs => rw [← List.map_id (v :: vs)]
          refine List.map_congr_left (fun w _ => ?_)
          simp only [Function.comp, row_re_im, id]
          rw [← mul_assoc, ← Complex.ofReal_mul, mul_one_div_cancel hv]
          simp
        refine ⟨⟨⟨?_, (_, _), rfl, ?_⟩, ‖v‖, hpos, by rw [e]; exact hM⟩, ‖v‖, hpos, e.symm⟩
        · rw [List.map_map, List.map_map]
          have h2 : ((fun p => ‖row p‖) ∘ (fun v : ℂ => (v.re, v.im))) ∘ (fun w => ((1 / ‖v‖ : ℝ) : ℂ) * w) = fun w : ℂ => (1 / ‖v‖) * ‖w‖ := by
            funext w
            simp only [Function.comp, row_re_im, norm_mul, Complex.norm_real, Real.norm_eq_abs]
            rw [abs_of_pos (by positivity)]
          rw [h2, List.pairwise_map]
          rw [List.pairwise_map] at hd
          exact hd.imp (fun h => mul_le_mul_of_nonneg_left h (by positivity))
        · simp only [row_re_im, norm_mul, Complex.norm_real, Real.norm_eq_abs]
          rw [abs_of_pos (by positivity), one_div, inv_mul_cancel₀ hv]
      · rw [if_neg hl] at hc; cases hc

/-! ### Leading moduli are unique -/

/-- Two matrices with the same nonzero eigenvalues, with multiplicity. -/
def SameNonzero {ι κ : Type} [Fintype ι] [DecidableEq ι] [Fintype κ] [DecidableEq κ] (M : Matrix ι ι ℂ) (M' : Matrix κ κ ℂ) : Prop :=
  M.charpoly.roots.filter (· ≠ 0) = M'.charpoly.roots.filter (· ≠ 0)

theorem desc_unique : ∀ (a b : List ℝ), a.length = b.length → a.Pairwise (· ≥ ·) → b.Pairwise (· ≥ ·) → (∀ x ∈ a, 0 ≤ x) → (∀ x ∈ b, 0 ≤ x) →
    (∀ t : ℝ, 0 < t → a.countP (fun x => decide (t ≤ x)) = b.countP (fun x => decide (t ≤ x))) → a = b
  | [], [], _, _, _, _, _, _ => rfl
  | [], _ :: _, h, _, _, _, _, _ => by simp at h
  | _ :: _, [], h, _, _, _, _, _ => by simp at h
  | x :: a, y :: b, hl, ha, hb, na, nb, hc => by
    have key : ∀ (x y : ℝ) (a b : List ℝ), (x :: a).Pairwise (· ≥ ·) → 0 ≤ x →
        (∀ t : ℝ, 0 < t → (x :: a).countP (fun x => decide (t ≤ x)) = (y :: b).countP (fun x => decide (t ≤ x))) → y ≤ x := by
      intro x y a b ha hx hc
      by_contra hlt
      push Not at hlt
      have h0 := hc y (lt_of_le_of_lt hx hlt)
      have h1 : (x :: a).countP (fun x => decide (y ≤ x)) = 0 := by
        rw [List.countP_eq_zero]
        intro z hz
        have : z ≤ x := by
          rcases List.mem_cons.1 hz with rfl | hz
          · exact le_refl _
          · exact (List.pairwise_cons.1 ha).1 z hz
        simp only [decide_eq_true_eq, not_le]
        exact lt_of_le_of_lt this hlt
      rw [h1, List.countP_cons_of_pos (by simp)] at h0
      omega
    have e : x = y := le_antisymm (key y x b a hb (nb y (by simp)) (fun t ht => (hc t ht).symm)) (key x y a b ha (na x (by simp)) hc)
    subst e
    congr 1
    refine desc_unique a b (by simpa using hl) (List.pairwise_cons.1 ha).2 (List.pairwise_cons.1 hb).2 (fun z hz => na z (by simp [hz])) (fun z hz => nb z (by simp [hz])) ?_
    intro t ht
    have := hc t ht
    rw [List.countP_cons, List.countP_cons] at this
    omega

theorem count_leading {ι : Type} [Fintype ι] [DecidableEq ι] {M : Matrix ι ι ℂ} {n : Nat} {vals : List ℂ} (h : Leading M n vals) (t : ℝ) :
    vals.countP (fun v => decide (t ≤ ‖v‖)) = min n (M.charpoly.roots.countP (fun v => t ≤ ‖v‖)) := by
  obtain ⟨hl, rest, hr, hm⟩ := h
  rw [hr, Multiset.countP_add, Multiset.coe_countP]
  by_cases hall : ∀ v ∈ vals, t ≤ ‖v‖
  · have : vals.countP (fun v => decide (t ≤ ‖v‖)) = n := by
      rw [List.countP_eq_length.2 (by simpa using hall), hl]
    omega
  · push Not at hall
    obtain ⟨v, hv, hlt⟩ := hall
    have h0 : rest.countP (fun v => t ≤ ‖v‖) = 0 := by
      rw [Multiset.countP_eq_zero]
      intro r hr' hle
      exact absurd (lt_of_le_of_lt hle (lt_of_le_of_lt (hm r hr' v hv) hlt)) (lt_irrefl _)
    have : vals.countP (fun v => decide (t ≤ ‖v‖)) ≤ n := hl ▸ List.countP_le_length
    rw [h0]
    omega

theorem countP_nonzero (s : Multiset ℂ) (t : ℝ) (ht : 0 < t) : s.countP (fun v => t ≤ ‖v‖) = (s.filter (· ≠ 0)).countP (fun v => t ≤ ‖v‖) := by
  rw [Multiset.countP_filter]
  refine Multiset.countP_congr rfl (fun v _ => ?_)
  simp only [eq_iff_iff]
  constructor
  · intro h
    refine ⟨h, fun h0 => ?_⟩
    rw [h0, norm_zero] at h
    exact absurd (lt_of_lt_of_le ht h) (lt_irrefl _)
  · exact fun h => h.1

theorem moduli_unique {ι κ : Type} [Fintype ι] [DecidableEq ι] [Fintype κ] [DecidableEq κ] {M : Matrix ι ι ℂ} {M' : Matrix κ κ ℂ} {n : Nat}
    {vals vals' : List ℂ} (h : Leading M n vals) (h' : Leading M' n vals') (hs : SameNonzero M M') (hd : (vals.map (fun v => ‖v‖)).Pairwise (· ≥ ·))
    (hd' : (vals'.map (fun v => ‖v‖)).Pairwise (· ≥ ·)) : vals.map (fun v => ‖v‖) = vals'.map (fun v => ‖v‖) := by
  refine desc_unique _ _ (by simp [h.1, h'.1]) hd hd' (by simp) (by simp) ?_
  intro t ht
  rw [List.countP_map, List.countP_map]
  have e := count_leading h t
  have e' := count_leading h' t
  rw [countP_nonzero _ t ht, hs, ← countP_nonzero _ t ht] at e
  rw [← e'] at e
  exact e

/-- Normalised leading moduli of matrices with the same nonzero eigenvalues agree. -/
theorem spectrum_unique {ι κ : Type} [Fintype ι] [DecidableEq ι] [Fintype κ] [DecidableEq κ] {M : Matrix ι ι ℂ} {M' : Matrix κ κ ℂ} {n : Nat}
    {L L' : List (ℝ × ℝ)} (h : Spectrum M n L) (h' : Spectrum M' n L') (hs : SameNonzero M M') : L.map (fun p => ‖row p‖) = L'.map (fun p => ‖row p‖) := by
  obtain ⟨⟨hd, p, hp, hp1⟩, s, s0, hM⟩ := h
  obtain ⟨⟨hd', p', hp', hp1'⟩, s', s0', hM'⟩ := h'
  have scale : ∀ (s : ℝ) (L : List (ℝ × ℝ)), 0 < s → (L.map (fun p => (s : ℂ) * row p)).map (fun v => ‖v‖) = (L.map (fun p => ‖row p‖)).map (fun x => s * x) := by
    intro s L hs0
    rw [List.map_map, List.map_map]
    refine List.map_congr_left (fun q _ => ?_)
    simp [abs_of_pos hs0]
  have desc : ∀ (s : ℝ) (L : List (ℝ × ℝ)), 0 < s → (L.map (fun p => ‖row p‖)).Pairwise (· ≥ ·) → ((L.map (fun p => ‖row p‖)).map (fun x => s * x)).Pairwise (· ≥ ·) := by
    intro s L hs0 hL
    rw [List.pairwise_map]
    exact hL.imp (fun h => mul_le_mul_of_nonneg_left h hs0.le)
  have e := moduli_unique hM hM' hs (by rw [scale s L s0]; exact desc s L s0 hd) (by rw [scale s' L' s0']; exact desc s' L' s0' hd')
  rw [scale s L s0, scale s' L' s0'] at e
  cases L with
  | nil => simp at hp
  | cons q L =>
    cases L' with
    | nil => simp at hp'
    | cons q' L' =>
      simp only [List.head?_cons, Option.some.injEq] at hp hp'
      subst hp hp'
      simp only [List.map_cons, List.cons.injEq] at e
      rw [hp1, hp1'] at e
      have es : s = s' := by linarith [e.1]
      subst es
      simp only [List.map_cons, hp1, hp1']
      congr 1
      have := e.2
      exact (List.map_injective_iff.2 (mul_right_injective₀ (ne_of_gt s0))) this

theorem sameNonzero_of_charpoly {ι κ : Type} [Fintype ι] [DecidableEq ι] [Fintype κ] [DecidableEq κ] {M : Matrix ι ι ℂ} {M' : Matrix κ κ ℂ}
    (h : M.charpoly = M'.charpoly) : SameNonzero M M' := by rw [SameNonzero, h]

theorem filter_zeros (n : Nat) (s : Multiset ℂ) : (n • ({0} : Multiset ℂ) + s).filter (· ≠ 0) = s.filter (· ≠ 0) := by
  rw [Multiset.filter_add, Multiset.nsmul_singleton]
  have : (Multiset.replicate n (0 : ℂ)).filter (· ≠ 0) = 0 := by
    rw [Multiset.filter_eq_nil]
    intro a ha
    simp [Multiset.eq_of_mem_replicate ha]
  rw [this, zero_add]

theorem sameNonzero_mul_comm {ι κ : Type} [Fintype ι] [DecidableEq ι] [Fintype κ] [DecidableEq κ] (A : Matrix ι κ ℂ) (B : Matrix κ ι ℂ) :
    SameNonzero (A * B) (B * A) := by
  have h := congrArg Polynomial.roots (Matrix.charpoly_mul_comm' A B)
  rw [Polynomial.roots_mul (mul_ne_zero (pow_ne_zero _ Polynomial.X_ne_zero) (Matrix.charpoly_monic _).ne_zero),
    Polynomial.roots_mul (mul_ne_zero (pow_ne_zero _ Polynomial.X_ne_zero) (Matrix.charpoly_monic _).ne_zero), Polynomial.roots_X_pow, Polynomial.roots_X_pow] at h
  have := congrArg (Multiset.filter (· ≠ 0)) h
  rwa [filter_zeros, filter_zeros] at this

theorem SameNonzero.symm {ι κ : Type} [Fintype ι] [DecidableEq ι] [Fintype κ] [DecidableEq κ] {M : Matrix ι ι ℂ} {M' : Matrix κ κ ℂ} (h : SameNonzero M M') :
    SameNonzero M' M := Eq.symm h

theorem SameNonzero.trans {ι κ ν : Type} [Fintype ι] [DecidableEq ι] [Fintype κ] [DecidableEq κ] [Fintype ν] [DecidableEq ν] {M : Matrix ι ι ℂ} {M' : Matrix κ κ ℂ}
    {M'' : Matrix ν ν ℂ} (h : SameNonzero M M') (h' : SameNonzero M' M'') : SameNonzero M M'' := Eq.trans h h'

theorem Leading.congr {ι κ : Type} [Fintype ι] [DecidableEq ι] [Fintype κ] [DecidableEq κ] {M : Matrix ι ι ℂ} {M' : Matrix κ κ ℂ} (h : M.charpoly = M'.charpoly)
    {n : Nat} {vals : List ℂ} (hM : Leading M n vals) : Leading M' n vals := by
  rw [Leading, ← h]; exact hM

theorem Spectrum.congr {ι κ : Type} [Fintype ι] [DecidableEq ι] [Fintype κ] [DecidableEq κ] {M : Matrix ι ι ℂ} {M' : Matrix κ κ ℂ} (h : M.charpoly = M'.charpoly)
    {n : Nat} {L : List (ℝ × ℝ)} (hM : Spectrum M n L) : Spectrum M' n L := by
  obtain ⟨h1, s, s0, h2⟩ := hM
  exact ⟨h1, s, s0, Leading.congr h h2⟩

/-! ### The whole post-processing -/

theorem sorted_ok {eigs : Eigs} {argsort : Argsort} (he : Solves eigs) (ha : Sorts argsort) {b : Bool} {n dim : Nat} {f : Tensor ℂ → Option (Tensor ℂ)}
    {M : Matrix (Fin dim) (Fin dim) ℂ} (hf : Multiplies f M) {r : List (ℝ × ℝ) × List (Tensor ℂ)} (h : sorted eigs argsort b true n dim f = .ok r) :
    Spectrum M n r.1 ∧ (b = true → ∃ s : ℝ, 0 < s ∧ List.Forall₂ (fun p v => Eigenvector M ((s : ℂ) * row p) v) r.1 r.2) := by
  unfold sorted at h
  obtain ⟨⟨vals, vecs⟩, h1, h⟩ := bind_ok'.1 h
  rw [lift_ok'] at h1
  obtain ⟨ws, h2, h⟩ := bind_ok'.1 h
  rw [lift_ok'] at h2
  obtain ⟨us, h3, h⟩ := bind_ok'.1 h
  obtain ⟨L, h4, h⟩ := bind_ok'.1 h
  obtain ⟨hM, hv⟩ := he b dim f n vals vecs h1 M hf
  obtain ⟨ws', e1, e2, e3, e4⟩ := sort_ok ha vals
  rw [e1] at h2
  cases Option.some.inj h2
  obtain ⟨q1, s, s0, q2⟩ := spectrum_of (Leading.perm hM e3) e4 h3 h4
  cases b with
  | false => cases Except.ok.inj h; exact ⟨q1, by simp⟩
  | true =>
    obtain ⟨vs, h5, h⟩ := bind_ok'.1 h
    rw [lift_ok'] at h5
    cases Except.ok.inj h
    refine ⟨q1, fun _ => ⟨s, s0, ?_⟩⟩
    have hv := hv rfl
    have hlen := hv.length_eq
    rw [pickAll_ok vecs _ (fun i hi => hlen ▸ lt_desc ha vals i hi) ⟨[], fun _ => 0⟩] at h5
    cases Option.some.inj h5
    have : List.Forall₂ (Eigenvector M) (L.map (fun p => (s : ℂ) * row p)) (List.map (fun i => vecs.getD i ⟨[], fun _ => 0⟩) (descending argsort vals)) := by
      rw [← q2, e2]
      rw [List.forall₂_map_left_iff, List.forall₂_map_right_iff, List.forall₂_same]
      intro i hi
      have hi' := lt_desc ha vals i hi
      have hi'' : i < vecs.length := hlen ▸ hi'
      have hg := hv.get hi' hi''
      simpa [hi', hi''] using hg
    rw [List.forall₂_map_left_iff] at this
    exact this

/-- Without normalisation. -/
theorem sorted_plain {eigs : Eigs} {argsort : Argsort} (he : Solves eigs) (ha : Sorts argsort) {b : Bool} {n dim : Nat} {f : Tensor ℂ → Option (Tensor ℂ)}
    {M : Matrix (Fin dim) (Fin dim) ℂ} (hf : Multiplies f M) {r : List (ℝ × ℝ) × List (Tensor ℂ)} (h : sorted eigs argsort b false n dim f = .ok r) :
    (r.1.map (fun p => ‖row p‖)).Pairwise (· ≥ ·) ∧ Leading M n (r.1.map row) ∧ (b = true → List.Forall₂ (fun p v => Eigenvector M (row p) v) r.1 r.2) := by
  unfold sorted at h
  obtain ⟨⟨vals, vecs⟩, h1, h⟩ := bind_ok'.1 h
  rw [lift_ok'] at h1
  obtain ⟨ws, h2, h⟩ := bind_ok'.1 h
  rw [lift_ok'] at h2
  obtain ⟨us, h3, h⟩ := bind_ok'.1 h
  cases h3
  obtain ⟨L, h4, h⟩ := bind_ok'.1 h
  obtain ⟨hM, hv⟩ := he b dim f n vals vecs h1 M hf
  obtain ⟨ws', e1, e2, e3, e4⟩ := sort_ok ha vals
  rw [e1] at h2
  cases Option.some.inj h2
  have hM' := Leading.perm hM e3
  rw [columns, if_pos hM'.1] at h4
  cases Except.ok.inj h4
  have hrow : (ws.map (fun v => (v.re, v.im))).map row = ws := by rw [List.map_map]; exact (List.map_congr_left (fun _ _ => rfl)).trans (List.map_id ws)
  have hnorm : (ws.map (fun v => (v.re, v.im))).map (fun p => ‖row p‖) = ws.map (fun v => ‖v‖) := by rw [List.map_map]; rfl
  cases b with
  | false => cases Except.ok.inj h; exact ⟨by rw [hnorm]; exact e4, by rw [hrow]; exact hM', by simp⟩
  | true =>
    obtain ⟨vs, h5, h⟩ := bind_ok'.1 h
    rw [lift_ok'] at h5
    cases Except.ok.inj h
    refine ⟨by rw [hnorm]; exact e4, by rw [hrow]; exact hM', fun _ => ?_⟩
    have hv := hv rfl
    have hlen := hv.length_eq
    rw [pickAll_ok vecs _ (fun i hi => hlen ▸ lt_desc ha vals i hi) ⟨[], fun _ => 0⟩] at h5
    cases Option.some.inj h5
    have : List.Forall₂ (Eigenvector M) ((ws.map (fun v => (v.re, v.im))).map row) (List.map (fun i => vecs.getD i ⟨[], fun _ => 0⟩) (descending argsort vals)) := by
      rw [hrow, e2]
      rw [List.forall₂_map_left_iff, List.forall₂_map_right_iff, List.forall₂_same]
      intro i hi
      have hi' := lt_desc ha vals i hi
      have hi'' : i < vecs.length := hlen ▸ hi'
      have hg := hv.get hi' hi''
      simpa [hi', hi''] using hg
    rw [List.forall₂_map_left_iff] at this
    exact this

/-- The result is defined if the solver returns and some eigenvalue is not zero. -/
theorem sorted_defined {eigs : Eigs} {argsort : Argsort} (he : Solves eigs) (ha : Sorts argsort) {b : Bool} {n dim : Nat} {f : Tensor ℂ → Option (Tensor ℂ)}
    {M : Matrix (Fin dim) (Fin dim) ℂ} (hf : Multiplies f M) (hn : 0 < n) (hz : ∃ x ∈ M.charpoly.roots, x ≠ 0) (hs : (eigs b dim f n).isSome) :
    ∃ r, sorted eigs argsort b true n dim f = .ok r := by
  obtain ⟨⟨vals, vecs⟩, h1⟩ := Option.isSome_iff_exists.1 hs
  obtain ⟨hM, hv⟩ := he b dim f n vals vecs h1 M hf
  obtain ⟨ws, e1, e2, e3, e4⟩ := sort_ok ha vals
  have hl : ws.length = n := by rw [e3.length_eq, hM.1]
  obtain ⟨x, hx, hx0⟩ := hz
  obtain ⟨us, hu, hul⟩ : ∃ us, normalise ws = .ok us ∧ us.length = n := by
    cases ws with
    | nil => simp at hl; omega
    | cons v vs =>
      have hv0 : ‖v‖ ≠ 0 := by
        intro h0
        obtain ⟨_, rest, hr, hm⟩ := Leading.perm hM e3
        rw [hr, Multiset.mem_add] at hx
        have hle : ‖x‖ ≤ ‖v‖ := by
          rcases hx with hx | hx
          · rcases List.mem_cons.1 (Multiset.mem_coe.1 hx) with rfl | hx
            · exact le_refl _
            · simp only [List.map_cons, List.pairwise_cons] at e4
              exact e4.1 _ (List.mem_map_of_mem hx)
          · exact hm x hx v (by simp)
        rw [h0] at hle
        exact hx0 (norm_le_zero_iff.1 hle)
      exact ⟨_, by rw [normalise, if_neg hv0], by simpa using hl⟩
  have hc : columns n us = .ok (us.map (fun v => (v.re, v.im))) := by rw [columns, if_pos hul]
  cases b with
  | false =>
    refine ⟨(us.map (fun v => (v.re, v.im)), []), ?_⟩
    unfold sorted
    refine bind_ok'.2 ⟨_, lift_ok'.2 h1, bind_ok'.2 ⟨ws, lift_ok'.2 e1, bind_ok'.2 ⟨us, hu, bind_ok'.2 ⟨_, hc, rfl⟩⟩⟩⟩
  | true =>
    have hlen := (hv rfl).length_eq
    refine ⟨(us.map (fun v => (v.re, v.im)), (descending argsort vals).map (fun i => vecs.getD i ⟨[], fun _ => 0⟩)), ?_⟩
    unfold sorted
    refine bind_ok'.2 ⟨_, lift_ok'.2 h1, bind_ok'.2 ⟨ws, lift_ok'.2 e1, bind_ok'.2 ⟨us, hu, bind_ok'.2 ⟨_, hc,
      bind_ok'.2 ⟨_, lift_ok'.2 (pickAll_ok vecs _ (fun i hi => hlen ▸ lt_desc ha vals i hi) ⟨[], fun _ => 0⟩), rfl⟩⟩⟩⟩⟩

/-- A solver that returns the values by increasing modulus; then reversing them is sorting them. -/
def Ascending (eigs : Eigs) : Prop := ∀ b n f k vals vecs, eigs b n f k = some (vals, vecs) → (vals.map (fun v => ‖v‖)).Pairwise (· ≤ ·)

theorem reversed_ok {eigs : Eigs} (he : Solves eigs) (ho : Ascending eigs) {n dim : Nat} {f : Tensor ℂ → Option (Tensor ℂ)}
    {M : Matrix (Fin dim) (Fin dim) ℂ} (hf : Multiplies f M) {L : List (ℝ × ℝ)} (h : reversed eigs n dim f = .ok L) : Spectrum M n L := by
  unfold reversed at h
  obtain ⟨⟨vals, vecs⟩, h1, h⟩ := bind_ok'.1 h
  rw [lift_ok'] at h1
  obtain ⟨us, h3, h4⟩ := bind_ok'.1 h
  obtain ⟨hM, _⟩ := he false dim f n vals vecs h1 M hf
  refine (spectrum_of (Leading.perm hM (List.reverse_perm vals)) ?_ h3 h4).1
  rw [List.map_reverse, List.pairwise_reverse]
  exact ho _ _ _ _ _ _ h1

/-- Whatever the order of the solver. -/
theorem reversed_values {eigs : Eigs} (he : Solves eigs) {n dim : Nat} {f : Tensor ℂ → Option (Tensor ℂ)}
    {M : Matrix (Fin dim) (Fin dim) ℂ} (hf : Multiplies f M) {L : List (ℝ × ℝ)} (h : reversed eigs n dim f = .ok L) :
    (∃ s : ℝ, 0 < s ∧ Leading M n (L.map (fun p => (s : ℂ) * row p))) ∧ ∃ p, L.head? = some p ∧ ‖row p‖ = 1 := by
  unfold reversed at h
  obtain ⟨⟨vals, vecs⟩, h1, h⟩ := bind_ok'.1 h
  rw [lift_ok'] at h1
  obtain ⟨us, h3, h4⟩ := bind_ok'.1 h
  obtain ⟨hM, _⟩ := he false dim f n vals vecs h1 M hf
  have hM := Leading.perm hM (List.reverse_perm vals)
  generalize vals.reverse = ws at hM h3
  unfold columns at h4
  by_cases hl : us.length = n
  swap
  · rw [if_neg hl] at h4; cases h4
  rw [if_pos hl] at h4
  cases h4
  cases ws with
  | nil => cases h3
  | cons v vs =>
    rw [normalise] at h3
    by_cases hv : ‖v‖ = 0
    · rw [if_pos hv] at h3; cases h3
    rw [if_neg hv] at h3
    cases h3
    have hne : ((‖v‖ : ℝ) : ℂ) ≠ 0 := by exact_mod_cast hv
    refine ⟨⟨‖v‖, lt_of_le_of_ne (norm_nonneg v) (Ne.symm hv), ?_⟩, ?_⟩
    · have e : List.map (fun p => ((‖v‖ : ℝ) : ℂ) * row p) (List.map (fun v => (v.re, v.im)) (List.map (fun w => ((1 / ‖v‖ : ℝ) : ℂ) * w) (v :: vs))) = v :: vs := by
        rw [List.map_map, List.map_map]
        conv_rhs => rw [← List.map_id (v :: vs)]
        refine List.map_congr_left (fun w _ => ?_)
        simp only [Function.comp, row_re_im, id]
        rw [← mul_assoc, Complex.ofReal_div, Complex.ofReal_one, mul_one_div_cancel hne, one_mul]
      rw [e]
      exact hM
    · refine ⟨_, rfl, ?_⟩
      rw [row_re_im, norm_mul, Complex.norm_real, Real.norm_eq_abs, abs_of_nonneg (by positivity)]
      field_simp

theorem reversed_defined {eigs : Eigs} (he : Solves eigs) (ho : Ascending eigs) {n dim : Nat} {f : Tensor ℂ → Option (Tensor ℂ)}
    {M : Matrix (Fin dim) (Fin dim) ℂ} (hf : Multiplies f M) (hn : 0 < n) (hz : ∃ x ∈ M.charpoly.roots, x ≠ 0) (hs : (eigs false dim f n).isSome) :
    ∃ r, reversed eigs n dim f = .ok r := by
  obtain ⟨⟨vals, vecs⟩, h1⟩ := Option.isSome_iff_exists.1 hs
  obtain ⟨hM, _⟩ := he false dim f n vals vecs h1 M hf
  have e4 : (vals.reverse.map (fun v => ‖v‖)).Pairwise (· ≥ ·) := by
    rw [List.map_reverse, List.pairwise_reverse]
    exact ho _ _ _ _ _ _ h1
  have hM := Leading.perm hM (List.reverse_perm vals)
  obtain ⟨x, hx, hx0⟩ := hz
  obtain ⟨us, hu, hul⟩ : ∃ us, normalise vals.reverse = .ok us ∧ us.length = n := by
    have hl := hM.1
    generalize vals.reverse = ws at hM e4 hl
    cases ws with
    | nil => simp at hl; omega
    | cons v vs =>
      have hv0 : ‖v‖ ≠ 0 := by
        intro h0
        obtain ⟨_, rest, hr, hm⟩ := hM
        rw [hr, Multiset.mem_add] at hx
        have hle : ‖x‖ ≤ ‖v‖ := by
          rcases hx with hx | hx
          · rcases List.mem_cons.1 (Multiset.mem_coe.1 hx) with rfl | hx
            · exact le_refl _
            · simp only [List.map_cons, List.pairwise_cons] at e4
              exact e4.1 _ (List.mem_map_of_mem hx)
          · exact hm x hx v (by simp)
        rw [h0] at hle
        exact hx0 (norm_le_zero_iff.1 hle)
      exact ⟨_, by rw [normalise, if_neg hv0], by simpa using hl⟩
  refine ⟨us.map (fun v => (v.re, v.im)), ?_⟩
  unfold reversed
  exact bind_ok'.2 ⟨_, lift_ok'.2 h1, bind_ok'.2 ⟨us, hu, by rw [columns, if_pos hul]⟩⟩

/-! ### A solver -/

theorem multiplies_unique {n : Nat} {f : Tensor ℂ → Option (Tensor ℂ)} {M M' : Matrix (Fin n) (Fin n) ℂ} (h : Multiplies f M) (h' : Multiplies f M') : M = M' := by
  ext i j
  obtain ⟨w, e, _, hw⟩ := h ⟨[n], fun idx => if idx.getD 0 0 = j.1 then 1 else 0⟩ rfl
  obtain ⟨w', e', _, hw'⟩ := h' ⟨[n], fun idx => if idx.getD 0 0 = j.1 then 1 else 0⟩ rfl
  rw [e] at e'
  cases Option.some.inj e'
  have a := hw i
  have b := hw' i
  simp only [List.getD_cons_zero, mul_ite, mul_one, mul_zero, Fin.val_inj, Finset.sum_ite_eq', Finset.mem_univ, if_true] at a b
  rw [← a, ← b]

theorem exists_eigenvector {n : Nat} (M : Matrix (Fin n) (Fin n) ℂ) (x : ℂ) (h : x ∈ M.charpoly.roots) : ∃ v, Eigenvector M x v := by
  have hr := (Polynomial.mem_roots (Matrix.charpoly_monic M).ne_zero).1 h
  rw [Polynomial.IsRoot.def, Matrix.eval_charpoly] at hr
  obtain ⟨v, hv, hv0⟩ := Matrix.exists_mulVec_eq_zero_iff.2 hr
  refine ⟨⟨[n], fun idx => if h : idx.getD 0 0 < n then v ⟨idx.getD 0 0, h⟩ else 0⟩, rfl, ?_, ?_⟩
  · obtain ⟨i, hi⟩ := Function.ne_iff.1 hv
    exact ⟨i, by simpa using hi⟩
  · intro i
    have := congrFun hv0 i
    rw [Matrix.sub_mulVec] at this
    simp only [Matrix.scalar_apply, Pi.sub_apply, Matrix.mulVec_diagonal, Pi.zero_apply, sub_eq_zero] at this
    simp only [List.getD_cons_zero, Fin.is_lt, dite_true, Fin.eta]
    rw [this]
    rfl

/-- The roots by increasing modulus. -/
theorem exists_ascending (s : Multiset ℂ) : ∃ l : List ℂ, (l : Multiset ℂ) = s ∧ (l.map (fun v => ‖v‖)).Pairwise (· ≤ ·) := by
  refine ⟨s.toList.mergeSort (fun a b => decide (‖a‖ ≤ ‖b‖)), ?_, ?_⟩
  · rw [Multiset.coe_eq_coe.2 (List.mergeSort_perm _ _), Multiset.coe_toList]
  · rw [List.pairwise_map]
    have := List.pairwise_mergeSort (le := fun a b : ℂ => decide (‖a‖ ≤ ‖b‖)) (by intro a b c h1 h2; simp only [decide_eq_true_eq] at *; exact le_trans h1 h2)
      (by intro a b; simp only [Bool.or_eq_true, decide_eq_true_eq]; exact le_total _ _) s.toList
    exact this.imp (fun h => by simpa using h)

open Classical in
/-- The leading values by increasing modulus, if `f` is multiplication by a matrix and it has that many eigenvalues. -/
noncomputable def ideal : Eigs := fun _ n f k =>
  if h : ∃ M : Matrix (Fin n) (Fin n) ℂ, Multiplies f M then
    if k ≤ n then
      let l := (exists_ascending (Classical.choose h).charpoly.roots).choose
      let vals := l.drop (n - k)
      some (vals, vals.map (fun x => if hv : ∃ v, Eigenvector (Classical.choose h) x v then hv.choose else ⟨[], fun _ => 0⟩))
    else none
  else none

theorem card_roots {n : Nat} (M : Matrix (Fin n) (Fin n) ℂ) : Multiset.card M.charpoly.roots = n := by
  have := IsAlgClosed.card_roots_eq_natDegree (p := M.charpoly)
  rw [this, Matrix.charpoly_natDegree_eq_dim, Fintype.card_fin]

theorem ideal_some {n k : Nat} {f : Tensor ℂ → Option (Tensor ℂ)} {M : Matrix (Fin n) (Fin n) ℂ} (h : Multiplies f M) (hk : k ≤ n) (b : Bool) :
    (ideal b n f k).isSome := by
  unfold ideal
  rw [dif_pos ⟨M, h⟩, if_pos hk]
  rfl

theorem ideal_ascending : Ascending ideal := by
  intro b n f k vals vecs h
  unfold ideal at h
  by_cases hM : ∃ M : Matrix (Fin n) (Fin n) ℂ, Multiplies f M
  · rw [dif_pos hM] at h
    by_cases hk : k ≤ n
    · rw [if_pos hk] at h
      simp only [Option.some.injEq, Prod.mk.injEq] at h
      rw [← h.1, List.map_drop]
      exact (exists_ascending (Classical.choose hM).charpoly.roots).choose_spec.2.drop
    · rw [if_neg hk] at h; cases h
  · rw [dif_neg hM] at h; cases h

theorem ideal_solves : Solves ideal := by
  intro b n f k vals vecs h M hf
  unfold ideal at h
  have hM : ∃ M : Matrix (Fin n) (Fin n) ℂ, Multiplies f M := ⟨M, hf⟩
  rw [dif_pos hM] at h
  have eM : Classical.choose hM = M := multiplies_unique (Classical.choose_spec hM) hf
  by_cases hk : k ≤ n
  · rw [if_pos hk] at h
    simp only [Option.some.injEq, Prod.mk.injEq] at h
    obtain ⟨hl1, hl2⟩ := (exists_ascending (Classical.choose hM).charpoly.roots).choose_spec
    generalize (exists_ascending (Classical.choose hM).charpoly.roots).choose = l at h hl1 hl2
    rw [eM] at h hl1
    obtain ⟨h1, h2⟩ := h
    subst h1
    have hlen : l.length = n := by rw [← Multiset.coe_card, hl1, card_roots]
    refine ⟨⟨by rw [List.length_drop, hlen]; omega, (l.take (n - k) : List ℂ), ?_, ?_⟩, fun _ => ?_⟩
    · rw [← hl1, add_comm, Multiset.coe_add, List.take_append_drop]
    · intro r hr v hv
      rw [← List.take_append_drop (n - k) l, List.map_append, List.pairwise_append] at hl2
      exact hl2.2.2 _ (List.mem_map_of_mem (Multiset.mem_coe.1 hr)) _ (List.mem_map_of_mem hv)
    · rw [← h2, List.forall₂_map_right_iff, List.forall₂_same]
      intro x hx
      have : ∃ v, Eigenvector M x v := exists_eigenvector M x (by rw [← hl1]; exact Multiset.mem_coe.2 (List.mem_of_mem_drop hx))
      rw [dif_pos this]
      exact this.choose_spec
  · rw [if_neg hk] at h; cases h

open Classical in
/-- A sorting order. -/
noncomputable def idealSort : Argsort := fun l => (List.range l.length).mergeSort (fun i j => decide (l.getD i 0 ≤ l.getD j 0))

theorem idealSort_sorts : Sorts idealSort := by
  intro l
  refine ⟨List.mergeSort_perm _ _, ?_⟩
  rw [List.pairwise_map]
  have := List.pairwise_mergeSort (le := fun i j : Nat => decide (l.getD i 0 ≤ l.getD j 0)) (by intro a b c h1 h2; simp only [decide_eq_true_eq] at *; exact le_trans h1 h2)
    (by intro a b; simp only [Bool.or_eq_true, decide_eq_true_eq]; exact le_total _ _) (List.range l.length)
  exact this.imp (fun h => by simpa using h)

end Verif.Transfer
