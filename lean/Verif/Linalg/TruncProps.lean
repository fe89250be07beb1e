import Verif.Linalg.TruncModel
import Mathlib.Algebra.Order.Field.Rat
import Mathlib.Tactic.Linarith
import Mathlib.Tactic.NormNum
import Mathlib.Tactic.FieldSimp
import Mathlib.Tactic.FinCases
/-
Properties C17 and C18: truncation of spectra.
-/
namespace Verif.Trunc
variable {K α β : Type} [Field K] [LinearOrder K]

/-! ### Specification -/

/-- Consecutive values `a ≥ b` of a spectrum belong to different multiplets: their spacing, relative to
the larger one, exceeds `eps` (1e-16 is the code's guard against division by zero), and the larger one
is not negligible. -/
def Spec.Separated (eps tol a b : K) : Prop := tol ≤ a ∧ eps * (a + 1 / 10 ^ 16) < a - b

/-- As `Separated`, but the spacing may equal the tolerance. -/
def Spec.WeaklySeparated (eps tol a b : K) : Prop := tol ≤ a ∧ eps * (a + 1 / 10 ^ 16) ≤ a - b

/-- A cut after the first `n` values (`1 ≤ n < length`) is at a boundary between multiplets. -/
def Spec.BoundaryAt (eps tol : K) (S : List K) (n : Nat) : Prop :=
  ∃ a b, 1 ≤ n ∧ S[n - 1]? = some a ∧ S[n]? = some b ∧ Separated eps tol a b

/-- The cut after the first `chi` values is at a boundary, up to equality with the tolerance. -/
def Spec.WeakBoundaryAt (eps tol : K) (S : List K) (n : Nat) : Prop :=
  ∃ a b, 1 ≤ n ∧ S[n - 1]? = some a ∧ S[n]? = some b ∧ WeaklySeparated eps tol a b

/-- Keep the first `n` of the first `chi` entries, zero the others. -/
def Spec.keepFirst {γ : Type} [Zero γ] (n chi : Nat) (l : List γ) : List γ :=
  l.take n ++ List.replicate (chi - n) 0

open Spec

/-! ### Lemmas -/

section lemmas
variable [IsStrictOrderedRing K]

theorem tiny_pos : (0 : K) < 1 / 10 ^ 16 := by positivity

theorem gap_sep {eps tol a b : K} (he : 0 < eps) (ha : 0 ≤ a) (hb : 0 ≤ b) :
    eps < gap tol a b ↔ Separated eps tol a b := by
  have ht := tiny_pos (K := K)
  unfold gap regul Separated
  by_cases h : a < tol
  · simp only [h, if_true]
    have h1 : (0 - b) / (0 + 1 / 10 ^ 16) ≤ (0 : K) := div_nonpos_of_nonpos_of_nonneg (by linarith) (by linarith)
    rw [if_neg (by linarith)]
    constructor
    · intro h2; exact absurd h2 (by linarith)
    · intro h2; exact absurd h2.1 (not_le.2 h)
  · simp only [h, if_false]
    have hp : 0 < a + 1 / 10 ^ 16 := by linarith
    have h1 : (a - b) / (a + 1 / 10 ^ 16) ≤ 1 := by
      rw [div_le_one hp]; linarith
    rw [if_neg (not_lt.2 h1), lt_div_iff₀ hp]
    exact ⟨fun h2 => ⟨not_lt.1 h, h2⟩, fun h2 => h2.2⟩

theorem gap_weak {eps tol a b : K} (he : 0 < eps) (ha : 0 ≤ a) (hb : 0 ≤ b) :
    gap tol a b < eps ↔ ¬ WeaklySeparated eps tol a b := by
  have ht := tiny_pos (K := K)
  unfold gap regul WeaklySeparated
  by_cases h : a < tol
  · simp only [h, if_true]
    have h1 : (0 - b) / (0 + 1 / 10 ^ 16) ≤ (0 : K) := div_nonpos_of_nonpos_of_nonneg (by linarith) (by linarith)
    rw [if_neg (by linarith)]
    constructor
    · intro _ h2; exact absurd h2.1 (not_le.2 h)
    · intro _; linarith
  · simp only [h, if_false]
    have hp : 0 < a + 1 / 10 ^ 16 := by linarith
    have h1 : (a - b) / (a + 1 / 10 ^ 16) ≤ 1 := by
      rw [div_le_one hp]; linarith
    rw [if_neg (not_lt.2 h1), div_lt_iff₀ hp]
    constructor
    · intro h2 h3; linarith [h3.2]
    · intro h2
      by_contra h3
      exact h2 ⟨not_lt.1 h, not_lt.1 h3⟩

omit [IsStrictOrderedRing K] in
theorem gaps_get (tol : K) (S : List K) (chi i : Nat) :
    (gaps tol S chi)[i]? = if i < chi then
      (match S[i]?, S[i + 1]? with | some a, some b => some (gap tol a b) | _, _ => none) else none := by
  unfold gaps
  rw [List.getElem?_zipWith]
  by_cases h : i < chi
  · rw [if_pos h, List.getElem?_take_of_lt h, List.getElem?_take_of_lt h, List.getElem?_drop, add_comm 1 i]
    rcases S[i]? with _ | a <;> rcases S[i + 1]? with _ | b <;> rfl
  · rw [if_neg h, List.getElem?_take_eq_none (not_lt.1 h)]

omit [IsStrictOrderedRing K] in
theorem searchDown_some (gs : List K) (eps : K) (n i : Nat) (h : searchDown gs eps n = some i) :
    i < n ∧ (∃ g, gs[i]? = some g ∧ eps < g) ∧ ∀ k, i < k → k < n → ∀ g, gs[k]? = some g → ¬ eps < g := by
  induction n with
  | zero => cases h
  | succ n ih =>
    unfold searchDown at h
    split at h
    · cases h
    · rename_i g hg
      split at h
      · rename_i hlt
        simp only [Option.some.injEq] at h
        subst h
        exact ⟨by omega, ⟨g, hg, hlt⟩, fun k h1 h2 => by omega⟩
      · rename_i hlt
        obtain ⟨h1, h2, h3⟩ := ih h
        refine ⟨by omega, h2, ?_⟩
        intro k hk1 hk2 g' hg'
        by_cases e : k = n
        · subst e
          rw [hg, Option.some.injEq] at hg'
          rw [← hg']; exact hlt
        · exact h3 k hk1 (by omega) g' hg'

omit [IsStrictOrderedRing K] in
theorem searchDown_none (gs : List K) (eps : K) (n : Nat) (hn : n ≤ gs.length) (h : searchDown gs eps n = none) :
    ∀ k, k < n → ∀ g, gs[k]? = some g → ¬ eps < g := by
  induction n with
  | zero => intro k hk; omega
  | succ n ih =>
    unfold searchDown at h
    split at h
    · rename_i hg
      rw [List.getElem?_eq_none_iff] at hg
      omega
    · rename_i g hg
      split at h
      · cases h
      · rename_i hlt
        intro k hk g' hg'
        by_cases e : k = n
        · subst e
          rw [hg, Option.some.injEq] at hg'
          rw [← hg']; exact hlt
        · exact ih (by omega) h k (by omega) g' hg'

/-- What `chi_new + 1` is, capped at `chi`. -/
theorem chiNew_spec (eps tol : K) (S : List K) (chi : Nat) (he : 0 < eps) (hpos : ∀ x ∈ S, 0 ≤ x)
    (h0 : 0 < chi) (h1 : chi < S.length) : ∃ cn, chiNew eps (gaps tol S chi) chi = some cn ∧
    ∃ n, 1 ≤ n ∧ n ≤ chi ∧ min (cn + 1) chi = n ∧
      ((WeakBoundaryAt eps tol S chi ∧ n = chi) ∨
       (¬ WeakBoundaryAt eps tol S chi ∧ BoundaryAt eps tol S n ∧ ∀ k, n < k → k ≤ chi → ¬ BoundaryAt eps tol S k) ∨
       (¬ WeakBoundaryAt eps tol S chi ∧ n = chi ∧ ∀ k, k ≤ chi → ¬ BoundaryAt eps tol S k)) := by
  have hget : ∀ i, i < chi → (gaps tol S chi)[i]? = some (gap tol (S[i]?.getD 0) (S[i + 1]?.getD 0)) := by
    intro i hi
    rw [gaps_get, if_pos hi, List.getElem?_eq_getElem (by omega), List.getElem?_eq_getElem (by omega)]
    rfl
  have hS : ∀ i, i < S.length → S[i]? = some (S[i]?.getD 0) ∧ 0 ≤ S[i]?.getD 0 := by
    intro i hi
    rw [List.getElem?_eq_getElem hi]
    exact ⟨rfl, hpos _ (List.getElem_mem hi)⟩
  have hB : ∀ i, i < chi → (BoundaryAt eps tol S (i + 1) ↔ eps < gap tol (S[i]?.getD 0) (S[i + 1]?.getD 0)) := by
    intro i hi
    rw [gap_sep he (hS i (by omega)).2 (hS (i + 1) (by omega)).2]
    constructor
    · rintro ⟨a, b, _, ha, hb, hs⟩
      rw [Nat.add_sub_cancel] at ha
      rw [ha, hb]; exact hs
    · intro hs
      exact ⟨_, _, by omega, by rw [Nat.add_sub_cancel]; exact (hS i (by omega)).1, (hS (i + 1) (by omega)).1, hs⟩
  have hW : (¬ WeakBoundaryAt eps tol S chi) ↔ gap tol (S[chi - 1]?.getD 0) (S[chi]?.getD 0) < eps := by
    rw [gap_weak he (hS (chi - 1) (by omega)).2 (hS chi (by omega)).2]
    apply not_congr
    constructor
    · rintro ⟨a, b, _, ha, hb, hs⟩
      rw [ha, hb]; exact hs
    · intro hs
      exact ⟨_, _, by omega, (hS (chi - 1) (by omega)).1, (hS chi (by omega)).1, hs⟩
  have hlen : (gaps tol S chi).length = chi := by
    unfold gaps; simp; omega
  unfold chiNew
  rw [hget (chi - 1) (by omega)]
  simp only [show chi - 1 + 1 = chi by omega]
  by_cases hw : WeakBoundaryAt eps tol S chi
  · have : ¬ gap tol (S[chi - 1]?.getD 0) (S[chi]?.getD 0) < eps := fun h => (hW.2 h) hw
    rw [if_neg this]
    exact ⟨chi, rfl, chi, by omega, le_refl _, by omega, Or.inl ⟨hw, rfl⟩⟩
  · rw [if_pos (hW.1 hw)]
    cases hs : searchDown (gaps tol S chi) eps chi with
    | none =>
      refine ⟨chi, rfl, chi, by omega, le_refl _, by omega, Or.inr (Or.inr ⟨hw, rfl, ?_⟩)⟩
      intro k hk hb
      have hk1 : 1 ≤ k := by obtain ⟨_, _, h, _⟩ := hb; exact h
      obtain ⟨i, rfl⟩ : ∃ i, k = i + 1 := ⟨k - 1, by omega⟩
      exact searchDown_none _ _ _ (by omega) hs i (by omega) _ (hget i (by omega)) ((hB i (by omega)).1 hb)
    | some i =>
      obtain ⟨g1, ⟨g, g2, g3⟩, g4⟩ := searchDown_some _ _ _ _ hs
      refine ⟨i, rfl, i + 1, by omega, by omega, by omega, Or.inr (Or.inl ⟨hw, ?_, ?_⟩)⟩
      · rw [hget i g1, Option.some.injEq] at g2
        rw [hB i g1, g2]; exact g3
      · intro k h1 h2 hb
        obtain ⟨j, rfl⟩ : ∃ j, k = j + 1 := ⟨k - 1, by omega⟩
        exact g4 j (by omega) (by omega) _ (hget j (by omega)) ((hB j (by omega)).1 hb)

omit [Field K] [LinearOrder K] [IsStrictOrderedRing K] in
theorem zeroFrom_take {γ : Type} [Zero γ] (m n chi : Nat) (l : List γ) (hl : chi ≤ l.length)
    (h : min m chi = n) : zeroFrom m (l.take chi) = keepFirst n chi l := by
  unfold zeroFrom keepFirst
  rw [List.take_take, h, List.length_take]
  congr 2
  omega

/-! ### C17 -/

/-- C17, complete description: with `keep_multiplets` and more than `chi` values available, the result is
the first `n` singular triples padded with zeros to `chi`, where `n = chi` if `chi` is a multiplet
boundary, otherwise `n` is the last multiplet boundary before `chi`; if there is no boundary at all up to
`chi`, everything up to `chi` is kept. -/
theorem C17_result [Zero α] [Zero β] (U : List α) (S : List K) (V : List β) (chi : Nat) (eps tol : K)
    (he : 0 < eps) (hpos : ∀ x ∈ S, 0 ≤ x) (h0 : 0 < chi) (h1 : chi < S.length)
    (hU : S.length ≤ U.length) (hV : S.length ≤ V.length) :
    ∃ n, 1 ≤ n ∧ n ≤ chi ∧
      truncSvd true U S V chi eps tol = some (keepFirst n chi U, keepFirst n chi S, keepFirst n chi V) ∧
      ((WeakBoundaryAt eps tol S chi ∧ n = chi) ∨
       (¬ WeakBoundaryAt eps tol S chi ∧ BoundaryAt eps tol S n ∧ ∀ k, n < k → k ≤ chi → ¬ BoundaryAt eps tol S k) ∨
       (¬ WeakBoundaryAt eps tol S chi ∧ n = chi ∧ ∀ k, k ≤ chi → ¬ BoundaryAt eps tol S k)) := by
  obtain ⟨cn, hcn, n, a1, a2, a3, a4⟩ := chiNew_spec eps tol S chi he hpos h0 h1
  refine ⟨n, a1, a2, ?_, a4⟩
  unfold truncSvd keepMultiplets
  rw [hcn]
  simp only [h1, decide_true, Bool.and_self, if_true, Option.bind_eq_bind, Option.bind_some, List.length_take,
    Nat.min_eq_left (le_of_lt h1)]
  rw [zeroFrom_take _ n chi U (by omega) a3, zeroFrom_take _ n chi S (by omega) a3,
    zeroFrom_take _ n chi V (by omega) a3]

/-- C17. If some boundary between multiplets lies at or before `chi`, the cut is at a boundary (of the
kept prefix), and no complete multiplet that fits is dropped. What is missing for the full claim: the
case of a spectrum whose first `chi + 1` values form a single multiplet, see `C17_violated`. -/
theorem C17_complete_multiplets_partial [Zero α] [Zero β] (U : List α) (S : List K) (V : List β) (chi : Nat) (eps tol : K)
    (he : 0 < eps) (hpos : ∀ x ∈ S, 0 ≤ x) (h0 : 0 < chi) (h1 : chi < S.length)
    (hU : S.length ≤ U.length) (hV : S.length ≤ V.length) (hb : ∃ k ≤ chi, BoundaryAt eps tol S k) :
    ∃ n, 1 ≤ n ∧ n ≤ chi ∧
      truncSvd true U S V chi eps tol = some (keepFirst n chi U, keepFirst n chi S, keepFirst n chi V) ∧
      WeakBoundaryAt eps tol S n ∧ ∀ k, n < k → k ≤ chi → ¬ BoundaryAt eps tol S k := by
  obtain ⟨n, a1, a2, a3, a4⟩ := C17_result U S V chi eps tol he hpos h0 h1 hU hV
  refine ⟨n, a1, a2, a3, ?_⟩
  rcases a4 with ⟨h, rfl⟩ | ⟨_, ⟨a, b, e1, e2, e3, e4⟩, h⟩ | ⟨_, _, h⟩
  · exact ⟨h, fun k h1 h2 => by omega⟩
  · exact ⟨⟨a, b, e1, e2, e3, e4.1, le_of_lt e4.2⟩, h⟩
  · obtain ⟨k, hk, hk'⟩ := hb
    exact absurd hk' (h k hk)

/-- C17. The same holds for the symmetric eigenvalue decomposition, with boundaries in the magnitudes. -/
theorem C17_eig [Zero α] (D : List K) (U : List α) (chi : Nat) (eps tol : K)
    (he : 0 < eps) (h0 : 0 < chi) (h1 : chi < D.length) (hU : D.length ≤ U.length) :
    ∃ n, 1 ≤ n ∧ n ≤ chi ∧
      truncEig true D U chi eps tol = some (keepFirst n chi D, keepFirst n chi U) ∧
      ((WeakBoundaryAt eps tol (D.map (fun x => |x|)) chi ∧ n = chi) ∨
       (¬ WeakBoundaryAt eps tol (D.map (fun x => |x|)) chi ∧ BoundaryAt eps tol (D.map (fun x => |x|)) n ∧
          ∀ k, n < k → k ≤ chi → ¬ BoundaryAt eps tol (D.map (fun x => |x|)) k) ∨
       (¬ WeakBoundaryAt eps tol (D.map (fun x => |x|)) chi ∧ n = chi ∧
          ∀ k, k ≤ chi → ¬ BoundaryAt eps tol (D.map (fun x => |x|)) k)) := by
  obtain ⟨cn, hcn, n, a1, a2, a3, a4⟩ := chiNew_spec eps tol (D.map (fun x => |x|)) chi he
    (by intro x hx; obtain ⟨y, _, rfl⟩ := List.mem_map.1 hx; exact abs_nonneg y) h0 (by simpa using h1)
  refine ⟨n, a1, a2, ?_, a4⟩
  unfold truncEig
  rw [hcn]
  simp only [h1, decide_true, Bool.and_self, if_true, Option.bind_eq_bind, Option.bind_some, List.length_take,
    Nat.min_eq_left (le_of_lt h1)]
  rw [zeroFrom_take _ n chi U (by omega) a3, zeroFrom_take _ n chi D (by omega) a3]

omit [IsStrictOrderedRing K] in
/-- C17. The Arnoldi variants, which are handed `chi + 1` values, agree with the full decomposition
truncated in the same way. -/
theorem C17_arnoldi [Zero α] [Zero β] (U : List α) (S : List K) (V : List β) (D : List K) (chi : Nat) (eps tol : K)
    (hS : S.length = chi + 1) (hD : D.length = chi + 1) :
    truncSvdArnoldi true U S V chi eps tol = truncSvd true U S V chi eps tol ∧
    truncEigArnoldi true D U chi eps tol = truncEig true D U chi eps tol := by
  unfold truncSvdArnoldi truncSvd keepMultiplets truncEigArnoldi truncEig
  simp [hS, hD]

end lemmas

/-- C17 as listed fails: a spectrum that is degenerate from the first value on is cut inside the
multiplet. -/
theorem C17_violated : ∃ (S : List ℚ) (chi : Nat) (eps tol : ℚ), 0 < eps ∧ 0 < chi ∧ chi < S.length ∧
    (∀ x ∈ S, 0 ≤ x) ∧
    ∃ U S' V, truncSvd (α := ℚ) (β := ℚ) true [1, 1, 1] S [1, 1, 1] chi eps tol = some (U, S', V) ∧
      S'[chi - 1]? = S[chi]? ∧ S[chi]? = some 1 := by
  refine ⟨[1, 1, 1], 2, 1 / 10, 1 / 10, by norm_num, by norm_num, by norm_num, ?_, [1, 1], [1, 1], [1, 1], ?_, rfl, rfl⟩
  · intro x hx; simp at hx; rw [hx]; norm_num
  · decide +kernel

/-- Non-vacuity of `C17_complete_multiplets_partial`: 5, 3, 3, 3 cut at 3 keeps only the value 5. -/
example : truncSvd (K := ℚ) (α := ℚ) (β := ℚ) true [1, 1, 1, 1] [5, 3, 3, 3] [1, 1, 1, 1] 3 (1 / 10) (1 / 10) =
    some ([1, 0, 0], [5, 0, 0], [1, 0, 0]) := by decide +kernel
example : BoundaryAt (1 / 10) (1 / 10) ([5, 3, 3, 3] : List ℚ) 1 := by
  refine ⟨5, 3, by norm_num, rfl, rfl, ?_, ?_⟩ <;> norm_num
/-- A degenerate pair of opposite eigenvalues counts as one multiplet. -/
example : truncEig (K := ℚ) (α := ℚ) true [5, -3, 3, 1] [1, 1, 1, 1] 2 (1 / 10) (1 / 10) = some ([5, 0], [1, 0]) := by
  decide +kernel

/-! ### C18 -/

theorem zeroFrom_length {γ : Type} [Zero γ] (n : Nat) (l : List γ) : (zeroFrom n l).length = l.length := by
  unfold zeroFrom; simp; omega

/-- C18. For every backend except PROPACK at most `chi` values are returned, with as many left and right
vectors. The first line covers gesdd, af, symeig and rsvd, the second symarnoldi and arnoldi. -/
theorem C18_svd_partial [Zero α] [Zero β] (keep : Bool) (U : List α) (S : List K) (V : List β) (chi : Nat) (eps tol : K)
    (hU : S.length ≤ U.length) (hV : S.length ≤ V.length) :
    (∀ U' S' V', truncSvd keep U S V chi eps tol = some (U', S', V') →
      S'.length = min chi S.length ∧ U'.length = S'.length ∧ V'.length = S'.length) ∧
    (∀ U' S' V', U.length = S.length → V.length = S.length → S.length = chi + keep.toNat →
      truncSvdArnoldi keep U S V chi eps tol = some (U', S', V') →
      S'.length = chi ∧ U'.length = chi ∧ V'.length = chi) := by
  constructor
  · intro U' S' V' h
    unfold truncSvd keepMultiplets at h
    split at h
    · cases hc : chiNew eps (gaps tol S chi) chi with
      | none => rw [hc] at h; simp at h
      | some cn =>
        rw [hc] at h
        simp only [Option.bind_eq_bind, Option.bind_some, Option.some.injEq, Prod.mk.injEq] at h
        obtain ⟨rfl, rfl, rfl⟩ := h
        simp only [zeroFrom_length, List.length_take]
        refine ⟨trivial, ?_, ?_⟩ <;> omega
    · simp only [Option.some.injEq, Prod.mk.injEq] at h
      obtain ⟨rfl, rfl, rfl⟩ := h
      simp only [List.length_take]
      omega
  · intro U' S' V' e1 e2 e3 h
    unfold truncSvdArnoldi at h
    split at h
    · rename_i hk
      rw [hk] at e3
      simp only [Bool.toNat_true] at e3
      cases hc : chiNew eps (gaps tol S (S.length - 1)) chi with
      | none => rw [hc] at h; simp at h
      | some cn =>
        rw [hc] at h
        simp only [Option.bind_eq_bind, Option.bind_some, Option.some.injEq, Prod.mk.injEq] at h
        obtain ⟨rfl, rfl, rfl⟩ := h
        simp only [zeroFrom_length, List.length_take]
        omega
    · rename_i hk
      rw [Bool.not_eq_true] at hk
      rw [hk] at e3
      simp only [Bool.toNat_false, add_zero] at e3
      simp only [Option.some.injEq, Prod.mk.injEq] at h
      obtain ⟨rfl, rfl, rfl⟩ := h
      omega

/-- C18 for the symmetric eigenvalue decompositions. -/
theorem C18_eig [Zero α] (keep : Bool) (D : List K) (U : List α) (chi : Nat) (eps tol : K) (hU : D.length ≤ U.length) :
    (∀ D' U', truncEig keep D U chi eps tol = some (D', U') →
      D'.length = min chi D.length ∧ U'.length = D'.length) ∧
    (∀ D' U', U.length = D.length → D.length = chi + keep.toNat →
      truncEigArnoldi keep D U chi eps tol = some (D', U') → D'.length = chi ∧ U'.length = chi) := by
  constructor
  · intro D' U' h
    unfold truncEig at h
    split at h
    · cases hc : chiNew eps (gaps tol (D.map (fun x => |x|)) chi) chi with
      | none => rw [hc] at h; simp at h
      | some cn =>
        rw [hc] at h
        simp only [Option.bind_eq_bind, Option.bind_some, Option.some.injEq, Prod.mk.injEq] at h
        obtain ⟨rfl, rfl⟩ := h
        simp only [zeroFrom_length, List.length_take]
        refine ⟨trivial, ?_⟩; omega
    · simp only [Option.some.injEq, Prod.mk.injEq] at h
      obtain ⟨rfl, rfl⟩ := h
      simp only [List.length_take]
      omega
  · intro D' U' e1 e3 h
    unfold truncEigArnoldi at h
    split at h
    · rename_i hk
      rw [hk] at e3
      simp only [Bool.toNat_true] at e3
      cases hc : chiNew eps (gaps tol (D.map (fun x => |x|)) (D.length - 1)) chi with
      | none => rw [hc] at h; simp at h
      | some cn =>
        rw [hc] at h
        simp only [Option.bind_eq_bind, Option.bind_some, Option.some.injEq, Prod.mk.injEq] at h
        obtain ⟨rfl, rfl⟩ := h
        simp only [zeroFrom_length, List.length_take]
        omega
    · rename_i hk
      rw [Bool.not_eq_true] at hk
      rw [hk] at e3
      simp only [Bool.toNat_false, add_zero] at e3
      simp only [Option.some.injEq, Prod.mk.injEq] at h
      obtain ⟨rfl, rfl⟩ := h
      omega

/-- C18. Without `keep_multiplets`, the kept values and vectors are the leading ones, unchanged. -/
theorem C18_leading [Zero α] [Zero β] (U : List α) (S : List K) (V : List β) (chi : Nat) (eps tol : K) :
    ∃ U' S' V', truncSvd false U S V chi eps tol = some (U', S', V') ∧
      ∀ i, i < min chi S.length → S'[i]? = S[i]? ∧ U'[i]? = U[i]? ∧ V'[i]? = V[i]? := by
  refine ⟨_, _, _, rfl, ?_⟩
  intro i hi
  refine ⟨List.getElem?_take_of_lt hi, ?_, ?_⟩ <;>
  · rw [List.getElem?_take_of_lt]
    rw [List.length_take]; omega

/-- C18 fails for PROPACK: without `keep_multiplets` all `chi + max(chi_extra,1)` triples come back, which
is more than `chi` for every input. -/
theorem C18_propack_violated [Zero α] [Zero β] (U : List α) (S : List K) (V : List β) (chi chiExtra : Nat) (eps tol : K)
    (hS : S.length = chi + max chiExtra 1) : ∃ U' S' V',
    truncSvdPropack false U S V chi eps tol = some (U', S', V') ∧ chi < S'.length :=
  ⟨U, S, V, rfl, by omega⟩

example : ∃ U' S' V', truncSvdPropack (α := ℚ) (β := ℚ) false [1, 1, 1] [3, 2, 1] [1, 1, 1] 2 (1 / 10 : ℚ) 0 =
    some (U', S', V') ∧ 2 < S'.length := C18_propack_violated _ _ _ 2 1 _ _ rfl
example : truncSvd (K := ℚ) (α := ℚ) (β := ℚ) false [1, 1, 1] [3, 2, 1] [1, 1, 1] 2 (1 / 10 : ℚ) 0 =
    some ([1, 1], [3, 2], [1, 1]) := by decide +kernel

end Verif.Trunc
