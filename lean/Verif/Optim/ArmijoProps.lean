import Verif.Optim.ArmijoModel
import Mathlib.Tactic.Linarith
import Mathlib.Tactic.Ring
import Mathlib.Tactic.FieldSimp
import Mathlib.Tactic.NormNum
import Mathlib.Tactic.Positivity
/-
Property C39: the backtracking search returns a sufficiently decreasing step or reports failure, after a
bounded number of evaluations.
-/
namespace Verif.Armijo

variable {σ : Type}

/-! ### Specification -/

/-- Step `alpha` with loss `v` decreases sufficiently from `phi0` along slope `d` (Armijo rule). -/
def Spec.Sufficient (phi0 d c1 alpha v : ℝ) : Prop := v ≤ phi0 + c1 * alpha * d

/-- `v` is what the objective answers at `alpha` in some state satisfying `I`. -/
def Spec.Answered (phi : ℝ → σ → Option ℝ × σ) (I : σ → Prop) (alpha : ℝ) (v : Option ℝ) : Prop :=
  ∃ s, I s ∧ (phi alpha s).1 = v

open Spec

/-! ### Lemmas -/

/-- Positive root of the derivative of the cubic interpolant, leading coefficient positive. -/
theorem root_pos {a b D C : ℝ} (ha : 0 < a) (hD : 0 < D) (hC : 0 < C) (h : D ≤ 3 * a * C ^ 2 + 2 * b * C) :
    0 < (-b + Real.sqrt |b ^ 2 - 3 * a * (-D)|) / (3 * a) ∧ (-b + Real.sqrt |b ^ 2 - 3 * a * (-D)|) / (3 * a) ≤ C := by
  have haD : 0 < a * D := mul_pos ha hD
  have h0 : 0 ≤ b ^ 2 - 3 * a * (-D) := by nlinarith [sq_nonneg b]
  rw [abs_of_nonneg h0]
  have h1 : b < Real.sqrt (b ^ 2 - 3 * a * (-D)) := by
    apply Real.lt_sqrt_of_sq_lt
    nlinarith
  constructor
  · apply div_pos _ (by positivity)
    linarith
  · rw [div_le_iff₀ (by positivity)]
    have h2 : 0 ≤ 3 * a * C + b := by
      by_contra hn
      push Not at hn
      have haC : 0 < a * C := mul_pos ha hC
      have hb : b < 0 := by nlinarith
      have : 3 * a * C ^ 2 + 2 * b * C = C * (3 * a * C + b) + C * b := by ring
      nlinarith
    have h3 : Real.sqrt (b ^ 2 - 3 * a * (-D)) ≤ 3 * a * C + b := by
      rw [Real.sqrt_le_left h2]
      nlinarith
    nlinarith

/-- The same with negative leading coefficient. -/
theorem root_neg {a b D C : ℝ} (ha : a < 0) (hD : 0 < D) (hb : 0 < b) (hC : D ≤ b * C) (h : -(3 * a * D) ≤ b ^ 2) :
    0 < (-b + Real.sqrt |b ^ 2 - 3 * a * (-D)|) / (3 * a) ∧ (-b + Real.sqrt |b ^ 2 - 3 * a * (-D)|) / (3 * a) ≤ C := by
  have haD : a * D < 0 := mul_neg_of_neg_of_pos ha hD
  have h0 : 0 ≤ b ^ 2 - 3 * a * (-D) := by nlinarith
  rw [abs_of_nonneg h0]
  have h1 : Real.sqrt (b ^ 2 - 3 * a * (-D)) < b := by
    rw [Real.sqrt_lt' hb]
    nlinarith
  constructor
  · apply div_pos_of_neg_of_neg <;> linarith
  · rw [div_le_iff_of_neg (by linarith)]
    -- `3 a C ≤ -b + sqrt`
    have h3 : b + 3 * a * D / b ≤ Real.sqrt (b ^ 2 - 3 * a * (-D)) := by
      apply Real.le_sqrt_of_sq_le
      have e : (b + 3 * a * D / b) ^ 2 = b ^ 2 + 6 * (a * D) + 9 * (a * D) ^ 2 / b ^ 2 := by
        field_simp; ring
      have e2 : 9 * (a * D) ^ 2 / b ^ 2 ≤ -(3 * (a * D)) := by
        rw [div_le_iff₀ (by positivity)]
        nlinarith
      rw [e]; linarith
    have h4 : 3 * a * C ≤ 3 * a * D / b := by
      rw [le_div_iff₀ hb]
      nlinarith
    linarith

/-- The coefficients through the scaled increments `u = q0/a0^2`, `w = q1/a1^2`. -/
theorem coef_eq {phi0 d a0 a1 f0 f1 a : ℝ} (h0 : 0 < a0) (h1 : 0 < a1) (hne : a1 ≠ a0)
    (h : coefA phi0 d a0 a1 f0 f1 = some a) :
    a * (a1 - a0) = (f1 - phi0 - d * a1) / a1 ^ 2 - (f0 - phi0 - d * a0) / a0 ^ 2 ∧
    coefB phi0 d a0 a1 f0 f1 = (f0 - phi0 - d * a0) / a0 ^ 2 - a * a0 := by
  have hs : a1 - a0 ≠ 0 := sub_ne_zero.2 hne
  have hf : a0 ^ 2 * a1 ^ 2 * (a1 - a0) ≠ 0 := by positivity
  unfold coefA at h
  rw [if_neg hf, Option.some_inj] at h
  subst h
  unfold coefB
  constructor
  · field_simp
  · field_simp; ring

theorem cubicStep_some {phi0 d a0 a1 f0 f1 a2 : ℝ} (h : cubicStep phi0 d a0 a1 f0 f1 = some a2) :
    ∃ a, coefA phi0 d a0 a1 f0 f1 = some a ∧ a ≠ 0 ∧
      a2 = (-coefB phi0 d a0 a1 f0 f1 + Real.sqrt |coefB phi0 d a0 a1 f0 f1 ^ 2 - 3 * a * d|) / (3 * a) := by
  unfold cubicStep at h
  split at h
  · exact absurd h (by simp)
  · rename_i a ha
    split at h
    · exact absurd h (by simp)
    · rename_i hne
      exact ⟨a, ha, hne, by simpa using h.symm⟩

/-- First pass of the loop: `a1` is the quadratic interpolant. -/
theorem cubic_first {phi0 d c1 a0 a1 f0 f1 a2 : ℝ} (hd : d < 0) (hc : 0 < c1) (hc' : c1 ≤ 1 / 12) (h0 : 0 < a0) (h1 : 0 < a1)
    (hq : (f0 - phi0 - d * a0) * (2 * a1) = -d * a0 ^ 2) (hr : 3 / 2 * a1 ≤ a0)
    (hf1 : phi0 + c1 * a1 * d < f1) (h : cubicStep phi0 d a0 a1 f0 f1 = some a2) : 0 < a2 ∧ a2 ≤ 2 * a1 := by
  obtain ⟨a, ha, hane, rfl⟩ := cubicStep_some h
  have hne : a1 ≠ a0 := by intro e; linarith
  obtain ⟨e1, e2⟩ := coef_eq h0 h1 hne ha
  set b := coefB phi0 d a0 a1 f0 f1
  have hu : (f0 - phi0 - d * a0) / a0 ^ 2 = -d / (2 * a1) := by
    field_simp; linarith
  have hw : -d / (2 * a1) < (f1 - phi0 - d * a1) / a1 ^ 2 := by
    rw [div_lt_div_iff₀ (by positivity) (by positivity)]
    have : (1 - c1) * (-d * a1) < f1 - phi0 - d * a1 := by nlinarith
    have h3 : 0 < -d * a1 := mul_pos (by linarith) h1
    have h4 : 11 / 12 * (-d * a1) < f1 - phi0 - d * a1 := by nlinarith
    have h5 := mul_lt_mul_of_pos_right h4 h1
    nlinarith
  rw [hu] at e1 e2
  have haneg : a < 0 := by
    by_contra hn
    push Not at hn
    nlinarith
  have hD : 0 < -d := by linarith
  have hu0 : 0 < -d / (2 * a1) := by positivity
  have hb : 0 < b := by rw [e2]; nlinarith
  have := root_neg (a := a) (b := b) (D := -d) (C := 2 * a1) haneg hD hb
    (by
      have : -d / (2 * a1) * (2 * a1) = -d := by field_simp
      rw [e2]; nlinarith [mul_pos (neg_pos.2 haneg) h0])
    (by
      have e3 : -(3 * a * -d) = 3 * (-a) * ((-d / (2 * a1)) * (2 * a1)) := by field_simp
      rw [e3, e2]
      have h5 : 0 < -a := by linarith
      have h6 : 0 < (-a) * (-d / (2 * a1)) := mul_pos h5 hu0
      nlinarith [sq_nonneg (-d / (2 * a1) - (-a) * a0)])
  simpa using this

/-- Later passes: `a0 = 2 a1` and the increments are bounded below. -/
theorem cubic_later {phi0 d a1 f0 f1 a2 : ℝ} (hd : d < 0) (h1 : 0 < a1)
    (hq0 : 2 / 3 * (-d * (2 * a1)) ≤ f0 - phi0 - d * (2 * a1)) (hq1 : 2 / 3 * (-d * a1) ≤ f1 - phi0 - d * a1)
    (h : cubicStep phi0 d (2 * a1) a1 f0 f1 = some a2) : 0 < a2 ∧ a2 ≤ 2 * a1 := by
  obtain ⟨a, ha, hane, rfl⟩ := cubicStep_some h
  have hne : a1 ≠ 2 * a1 := by intro e; linarith
  obtain ⟨e1, e2⟩ := coef_eq (by linarith) h1 hne ha
  set b := coefB phi0 d (2 * a1) a1 f0 f1
  set D := -d with hDdef
  have hD : 0 < D := by rw [hDdef]; linarith
  -- scaled unknowns
  set A := a * (2 * a1 ^ 2) / D with hA
  set B := b * (2 * a1) / D with hB
  have ha' : a = A * D / (2 * a1 ^ 2) := by rw [hA]; field_simp
  have hb' : b = B * D / (2 * a1) := by rw [hB]; field_simp
  have hr0 : f0 - phi0 - d * (2 * a1) = (2 * A + B) * D * (2 * a1) := by
    have : (f0 - phi0 - d * (2 * a1)) = (b + a * (2 * a1)) * (2 * a1) ^ 2 := by rw [e2]; field_simp; ring
    rw [this, ha', hb']; field_simp; ring
  have hr1 : f1 - phi0 - d * a1 = (A + B) / 2 * D * a1 := by
    have e3 : (f1 - phi0 - d * a1) / a1 ^ 2 = a * (a1 - 2 * a1) + (f0 - phi0 - d * (2 * a1)) / (2 * a1) ^ 2 := by
      rw [e1]; ring
    have e4 : (f1 - phi0 - d * a1) = (a * (a1 - 2 * a1) + (f0 - phi0 - d * (2 * a1)) / (2 * a1) ^ 2) * a1 ^ 2 := by
      rw [← e3]; field_simp
    rw [e4, hr0, ha']; field_simp; ring
  have hDa : 0 < D * a1 := mul_pos hD h1
  have k0 : 2 / 3 ≤ 2 * A + B := by
    rw [hr0] at hq0
    by_contra hn
    push Not at hn
    nlinarith
  have k1 : 4 / 3 ≤ A + B := by
    rw [hr1] at hq1
    by_contra hn
    push Not at hn
    nlinarith
  have hscale : 0 < 2 * a1 ^ 2 := by positivity
  rcases lt_or_gt_of_ne hane with hneg | hpos
  · have hAn : A < 0 := by rw [hA]; exact div_neg_of_neg_of_pos (by nlinarith) hD
    have hBp : 0 < B := by linarith
    have hBsq : -(6 * A) ≤ B ^ 2 := by nlinarith [sq_nonneg (A + 2 / 3), sq_nonneg (B + 2 * A - 2 / 3)]
    have := root_neg (a := a) (b := b) (D := D) (C := 2 * a1) hneg hD (by rw [hb']; positivity)
      (by rw [hb']; field_simp; linarith)
      (by
        rw [hb', ha']
        have : -(3 * (A * D / (2 * a1 ^ 2)) * D) = -(6 * A) * (D / (2 * a1)) ^ 2 := by field_simp; ring
        rw [this]
        have e : (B * D / (2 * a1)) ^ 2 = B ^ 2 * (D / (2 * a1)) ^ 2 := by ring
        rw [e]
        exact mul_le_mul_of_nonneg_right hBsq (by positivity))
    simpa [hDdef] using this
  · have hAp : 0 < A := by rw [hA]; positivity
    have := root_pos (a := a) (b := b) (D := D) (C := 2 * a1) hpos hD (by linarith)
      (by
        rw [hb', ha']
        have : 3 * (A * D / (2 * a1 ^ 2)) * (2 * a1) ^ 2 + 2 * (B * D / (2 * a1)) * (2 * a1) = (6 * A + 2 * B) * D := by
          field_simp; ring
        rw [this]
        nlinarith)
    simpa [hDdef] using this

/-- The next `alpha1` is always half the previous one. -/
theorem halve {a1 a2 : ℝ} (h1 : 0 < a1) :
    (if a1 - a2 > a1 / 2 ∨ 1 - a2 / a1 < 96 / 100 then a1 / 2 else a2) = a1 / 2 := by
  rw [if_pos]
  by_contra hn
  push Not at hn
  obtain ⟨h2, h3⟩ := hn
  have : a2 / a1 ≤ 4 / 100 := by linarith
  rw [div_le_iff₀ h1] at this
  linarith

/-- What a search result must satisfy, relative to the trials already made. -/
structure Good (phi : ℝ → σ → Option ℝ × σ) (I : σ → Prop) (phi0 d c1 amax : ℝ) (o : Out σ) : Prop where
  ok : ∀ α v, o.res = .ok α v → 0 < α ∧ Sufficient phi0 d c1 α v ∧ o.trials.getLast? = some α ∧ ∃ s, I s ∧ phi α s = (some v, o.state)
  fail : o.res = .fail → ∀ α ∈ o.trials, ∃ v, Answered phi I α (some v) ∧ ¬ Sufficient phi0 d c1 α v
  err : ∀ α, o.res = .err α → o.trials.getLast? = some α ∧ ∃ s, I s ∧ phi α s = (none, o.state)
  before : ∀ α ∈ o.trials.dropLast, ∃ v, Answered phi I α (some v) ∧ ¬ Sufficient phi0 d c1 α v
  pos : ∀ α ∈ o.trials, 0 < α ∧ α ≤ amax

theorem errStep_some {x : ℝ} (y a0 : ℝ) (hx : 0 < x) : errStep (some x) (some y) a0 = x := by
  simp [errStep, hx.ne']

theorem loop_good (phi : ℝ → σ → Option ℝ × σ) (I : σ → Prop)
    (hI : ∀ a s v s', I s → phi a s = (some v, s') → I s') {phi0 d c1 amin amax : ℝ} (hd : d < 0) (hc : 0 < c1) (hc' : c1 ≤ 1 / 12) :
    ∀ (n : Nat) (a0 a1 f0 f1 : ℝ) (s : σ) (tr : List ℝ) (o : Out σ), I s → 0 < a1 → 2 * a1 ≤ amax →
      (∀ a2, cubicStep phi0 d a0 a1 f0 f1 = some a2 → 0 < a2 ∧ a2 ≤ 2 * a1) →
      2 / 3 * (-d * a1) ≤ f1 - phi0 - d * a1 →
      (∀ α ∈ tr, ∃ v, Answered phi I α (some v) ∧ ¬ Sufficient phi0 d c1 α v) →
      (∀ α ∈ tr, 0 < α ∧ α ≤ amax) →
      loop phi phi0 d c1 amin n a0 a1 f0 f1 s tr = some o → Good phi I phi0 d c1 amax o := by
  intro n
  induction n with
  | zero =>
    intro a0 a1 f0 f1 s tr o _ _ _ _ _ htr hpos h
    unfold loop at h
    split at h
    · exact absurd h (by simp)
    · obtain rfl : _ = o := by simpa using h
      exact ⟨by simp, fun _ => htr, by simp, fun α hα => htr α (List.mem_of_mem_dropLast hα), hpos⟩
  | succ n ih =>
    intro a0 a1 f0 f1 s tr o hs h1 hmax hcub hq1 htr hpos h
    unfold loop at h
    split at h
    swap
    · obtain rfl : _ = o := by simpa using h
      exact ⟨by simp, fun _ => htr, by simp, fun α hα => htr α (List.mem_of_mem_dropLast hα), hpos⟩
    split at h
    · obtain rfl : _ = o := by simpa using h
      exact ⟨by simp, fun _ => htr, by simp, fun α hα => htr α (List.mem_of_mem_dropLast hα), hpos⟩
    rename_i a2 ha2
    obtain ⟨h2, h2'⟩ := hcub a2 ha2
    have hpos' : ∀ α ∈ tr ++ [a2], 0 < α ∧ α ≤ amax := by
      intro α hα
      rcases List.mem_append.1 hα with hα | hα
      · exact hpos α hα
      · rw [List.mem_singleton.1 hα]; exact ⟨h2, by linarith⟩
    split at h
    · rename_i s' hphi
      obtain rfl : _ = o := by simpa using h
      refine ⟨by simp, by simp, ?_, ?_, hpos'⟩
      · intro α hα
        simp only [Res.err.injEq] at hα
        rw [errStep_some _ _ h2] at hα
        subst hα
        exact ⟨by simp, s, hs, hphi⟩
      · intro α hα; rw [List.dropLast_concat] at hα; exact htr α hα
    · rename_i f2 s' hphi
      split at h
      · rename_i hle
        obtain rfl : _ = o := by simpa using h
        refine ⟨?_, by simp, by simp, ?_, hpos'⟩
        · intro α v hα
          simp only [Res.ok.injEq] at hα
          obtain ⟨rfl, rfl⟩ := hα
          exact ⟨h2, hle, by simp, s, hs, hphi⟩
        · intro α hα; rw [List.dropLast_concat] at hα; exact htr α hα
      · rename_i hnle
        rw [halve h1] at h
        push Not at hnle
        have hq : 2 / 3 * (-d * (a1 / 2)) ≤ f2 - phi0 - d * (a1 / 2) := by
          have hDa : 0 < -d * a1 := mul_pos (by linarith) h1
          have : -d * a2 ≤ -d * (2 * a1) := mul_le_mul_of_nonneg_left h2' (by linarith)
          nlinarith
        refine ih a1 (a1 / 2) f1 f2 s' (tr ++ [a2]) o (hI _ _ _ _ hs hphi) (by linarith) (by linarith) ?_ hq ?_ hpos' h
        · intro x hx
          have e : a1 = 2 * (a1 / 2) := by ring
          rw [e] at hx hq1
          have hx' : cubicStep phi0 d (2 * (a1 / 2)) (a1 / 2) f1 f2 = some x := by
            have e2 : 2 * (a1 / 2) / 2 = a1 / 2 := by ring
            rwa [e2] at hx
          exact cubic_later hd (by linarith) hq1 hq hx'
        · intro α hα
          rcases List.mem_append.1 hα with hα | hα
          · exact htr α hα
          · rw [List.mem_singleton.1 hα]
            exact ⟨f2, ⟨s, hs, by rw [hphi]⟩, by unfold Sufficient; linarith⟩

/-- First interpolation step. -/
theorem quad_bounds {phi0 d c1 a0 f0 : ℝ} (hd : d < 0) (hc : 0 < c1) (hc' : c1 ≤ 1 / 12) (h0 : 0 < a0)
    (h : ¬ f0 ≤ phi0 + c1 * a0 * d) :
    0 < f0 - phi0 - d * a0 ∧ 0 < -d * a0 ^ 2 / 2 / (f0 - phi0 - d * a0) ∧
    3 / 2 * (-d * a0 ^ 2 / 2 / (f0 - phi0 - d * a0)) ≤ a0 ∧
    (f0 - phi0 - d * a0) * (2 * (-d * a0 ^ 2 / 2 / (f0 - phi0 - d * a0))) = -d * a0 ^ 2 := by
  push Not at h
  have hda : 0 < -d * a0 := mul_pos (by linarith) h0
  have hq : (1 - c1) * (-d * a0) < f0 - phi0 - d * a0 := by nlinarith
  have hq0 : 0 < f0 - phi0 - d * a0 := by nlinarith
  refine ⟨hq0, ?_, ?_, ?_⟩
  · apply div_pos _ hq0
    have : -d * a0 ^ 2 = (-d * a0) * a0 := by ring
    rw [this]; positivity
  · rw [div_div, ← mul_div_assoc, div_le_iff₀ (by positivity)]
    have h4 : 11 / 12 * (-d * a0) < f0 - phi0 - d * a0 := by nlinarith
    have h5 := mul_lt_mul_of_pos_right h4 h0
    nlinarith
  · field_simp

/-! ### Property C39 -/

/-- For every objective (a state transformer that may raise), every start loss `phi0`, slope `d < 0`, first step `a0 > 0`,
smallest step `amin` and every `0 < c1 <= 1/12` (the code uses `1e-4`): whatever the search returns,
* an accepted step is positive, is the step evaluated last, its loss is what the objective answered, it satisfies the
  Armijo rule and is below `phi0`;
* on failure, every step evaluated violates the rule;
* a reported exception comes from the step evaluated last, and all earlier steps violate the rule;
* every evaluated step lies in `(0, 4/3 a0]`.
`I` is any property of the objective's state that holds at the start and is kept by evaluations that do not raise. -/
theorem C39_armijo (phi : ℝ → σ → Option ℝ × σ) (phi0 d c1 a0 amin : ℝ) (fuel : Nat) (s : σ) (o : Out σ)
    (I : σ → Prop) (hs : I s) (hI : ∀ a s v s', I s → phi a s = (some v, s') → I s') (hd : d < 0) (hc : 0 < c1) (hc' : c1 ≤ 1 / 12) (ha : 0 < a0)
    (h : search phi phi0 d c1 a0 amin fuel s = some o) :
    (∀ α v, o.res = .ok α v → 0 < α ∧ Sufficient phi0 d c1 α v ∧ v < phi0 ∧ o.trials.getLast? = some α ∧
      ∃ s, I s ∧ phi α s = (some v, o.state)) ∧
    (o.res = .fail → ∀ α ∈ o.trials, ∃ v, Answered phi I α (some v) ∧ ¬ Sufficient phi0 d c1 α v) ∧
    (∀ α, o.res = .err α → o.trials.getLast? = some α ∧ ∃ s, I s ∧ phi α s = (none, o.state)) ∧
    (∀ α ∈ o.trials.dropLast, ∃ v, Answered phi I α (some v) ∧ ¬ Sufficient phi0 d c1 α v) ∧
    (∀ α ∈ o.trials, 0 < α ∧ α ≤ 4 / 3 * a0) := by
  have key : Good phi I phi0 d c1 (4 / 3 * a0) o := by
    unfold search at h
    split at h
    · rename_i s' hphi
      obtain rfl : _ = o := by simpa using h
      refine ⟨by simp, by simp, ?_, by simp, ?_⟩
      · intro α hα
        simp only [errStep, Res.err.injEq] at hα
        subst hα
        exact ⟨by simp, s, hs, hphi⟩
      · simp only [List.mem_singleton, forall_eq]; exact ⟨ha, by linarith⟩
    · rename_i f0 s' hphi
      have hs' := hI _ _ _ _ hs hphi
      split at h
      · rename_i hle
        obtain rfl : _ = o := by simpa using h
        refine ⟨?_, by simp, by simp, by simp, ?_⟩
        · intro α v hα
          simp only [Res.ok.injEq] at hα
          obtain ⟨rfl, rfl⟩ := hα
          exact ⟨ha, hle, by simp, s, hs, hphi⟩
        · simp only [List.mem_singleton, forall_eq]; exact ⟨ha, by linarith⟩
      · rename_i hnle
        obtain ⟨q0, q1, q2, q3⟩ := quad_bounds hd hc hc' ha hnle
        rw [if_neg q0.ne'] at h
        have t0 : ∃ v, Answered phi I a0 (some v) ∧ ¬ Sufficient phi0 d c1 a0 v := ⟨f0, ⟨s, hs, by rw [hphi]⟩, hnle⟩
        simp only at h
        generalize ha1 : -d * a0 ^ 2 / 2 / (f0 - phi0 - d * a0) = a1 at *
        split at h
        · rename_i s'' hphi1
          obtain rfl : _ = o := by simpa using h
          refine ⟨by simp, by simp, ?_, ?_, ?_⟩
          · intro α hα
            simp only [errStep, q1.ne', ne_eq, not_false_eq_true, if_true, Res.err.injEq] at hα
            subst hα
            exact ⟨by simp, s', hs', hphi1⟩
          · intro α hα
            simp at hα
            subst hα; exact t0
          · intro α hα
            simp at hα
            rcases hα with rfl | rfl
            · exact ⟨ha, by linarith⟩
            · exact ⟨q1, by linarith⟩
        · rename_i f1 s'' hphi1
          split at h
          · rename_i hle
            obtain rfl : _ = o := by simpa using h
            refine ⟨?_, by simp, by simp, ?_, ?_⟩
            · intro α v hα
              simp only [Res.ok.injEq] at hα
              obtain ⟨rfl, rfl⟩ := hα
              exact ⟨q1, hle, by simp, s', hs', hphi1⟩
            · intro α hα
              simp at hα
              subst hα; exact t0
            · intro α hα
              simp at hα
              rcases hα with rfl | rfl
              · exact ⟨ha, by linarith⟩
              · exact ⟨q1, by linarith⟩
          · rename_i hnle1
            refine loop_good phi I hI hd hc hc' fuel a0 a1 f0 f1 s'' [a0, a1] o (hI _ _ _ _ hs' hphi1) q1 (by linarith) ?_ ?_ ?_ ?_ h
            · intro a2 h2
              exact cubic_first hd hc hc' ha q1 q3 q2 (not_le.1 hnle1) h2
            · push Not at hnle1
              have hDa : 0 < -d * a1 := mul_pos (by linarith) q1
              nlinarith
            · intro α hα
              simp at hα
              rcases hα with rfl | rfl
              · exact t0
              · exact ⟨f1, ⟨s', hs', by rw [hphi1]⟩, hnle1⟩
            · intro α hα
              simp at hα
              rcases hα with rfl | rfl
              · exact ⟨ha, by linarith⟩
              · exact ⟨q1, by linarith⟩
  refine ⟨?_, key.fail, key.err, key.before, key.pos⟩
  intro α v hα
  obtain ⟨k1, k2, k3, k4⟩ := key.ok α v hα
  refine ⟨k1, k2, ?_, k3, k4⟩
  unfold Sufficient at k2
  have : c1 * α * d < 0 := mul_neg_of_pos_of_neg (mul_pos hc k1) hd
  linarith

theorem loop_state (phi : ℝ → σ → Option ℝ × σ) (I : σ → Prop) (hI : ∀ a s, I s → I (phi a s).2) {phi0 d c1 amin : ℝ} :
    ∀ (n : Nat) (a0 a1 f0 f1 : ℝ) (s : σ) (tr : List ℝ) (o : Out σ), I s →
      loop phi phi0 d c1 amin n a0 a1 f0 f1 s tr = some o → I o.state := by
  intro n
  induction n with
  | zero =>
    intro a0 a1 f0 f1 s tr o hs h
    unfold loop at h
    split at h
    · exact absurd h (by simp)
    · obtain rfl : _ = o := by simpa using h
      exact hs
  | succ n ih =>
    intro a0 a1 f0 f1 s tr o hs h
    unfold loop at h
    split at h
    swap
    · obtain rfl : _ = o := by simpa using h
      exact hs
    split at h
    · obtain rfl : _ = o := by simpa using h
      exact hs
    rename_i a2 _
    have h2 := hI a2 s hs
    split at h
    · rename_i s' hphi
      obtain rfl : _ = o := by simpa using h
      rw [hphi] at h2
      exact h2
    · rename_i f2 s' hphi
      rw [hphi] at h2
      split at h
      · obtain rfl : _ = o := by simpa using h
        exact h2
      · exact ih _ _ _ _ _ _ _ h2 h

/-- A property of the objective's state kept by every evaluation holds after the search. -/
theorem search_state (phi : ℝ → σ → Option ℝ × σ) (I : σ → Prop) (hI : ∀ a s, I s → I (phi a s).2) {phi0 d c1 a0 amin : ℝ}
    {n : Nat} {s : σ} {o : Out σ} (hs : I s) (h : search phi phi0 d c1 a0 amin n s = some o) : I o.state := by
  unfold search at h
  have h0 := hI a0 s hs
  split at h
  · rename_i s' hphi
    obtain rfl : _ = o := by simpa using h
    rw [hphi] at h0; exact h0
  · rename_i f0 s' hphi
    rw [hphi] at h0
    split at h
    · obtain rfl : _ = o := by simpa using h
      exact h0
    · split at h
      · obtain rfl : _ = o := by simpa using h
        exact h0
      · simp only at h
        have h1 := hI (-d * a0 ^ 2 / 2 / (f0 - phi0 - d * a0)) s' h0
        split at h
        · rename_i s'' hphi1
          obtain rfl : _ = o := by simpa using h
          rw [hphi1] at h1; exact h1
        · rename_i f1 s'' hphi1
          rw [hphi1] at h1
          split at h
          · obtain rfl : _ = o := by simpa using h
            exact h1
          · exact loop_state phi I hI _ _ _ _ _ _ _ _ h1 h

theorem loop_terminates (phi : ℝ → σ → Option ℝ × σ) {phi0 d c1 amin : ℝ} (hm : 0 < amin) :
    ∀ (n : Nat) (a0 a1 f0 f1 : ℝ) (s : σ) (tr : List ℝ), a1 ≤ amin * 2 ^ n →
      ∃ o, loop phi phi0 d c1 amin n a0 a1 f0 f1 s tr = some o ∧ o.trials.length ≤ tr.length + n := by
  intro n
  induction n with
  | zero =>
    intro a0 a1 f0 f1 s tr h
    refine ⟨⟨.fail, s, tr⟩, ?_, by simp⟩
    unfold loop
    rw [if_neg (by simpa using h)]
  | succ n ih =>
    intro a0 a1 f0 f1 s tr h
    unfold loop
    split
    · rename_i hgt
      split
      · exact ⟨_, rfl, by simp⟩
      · rename_i a2 _
        split
        · exact ⟨_, rfl, by simp⟩
        · rename_i f2 s' _
          split
          · exact ⟨_, rfl, by simp⟩
          · rw [halve (lt_trans hm hgt)]
            obtain ⟨o, ho, hl⟩ := ih a1 (a1 / 2) f1 f2 s' (tr ++ [a2]) (by rw [pow_succ] at h; linarith)
            exact ⟨o, ho, by simp at hl; omega⟩
    · exact ⟨_, rfl, by simp⟩

/-- The search always ends: with `a0 <= amin * 2^n` it evaluates the objective at most `n + 2` times. No assumption on
the objective. -/
theorem C39_terminates (phi : ℝ → σ → Option ℝ × σ) (phi0 d c1 a0 amin : ℝ) (n : Nat) (s : σ)
    (hd : d < 0) (hc : 0 < c1) (hc' : c1 ≤ 1 / 12) (ha : 0 < a0) (hm : 0 < amin) (hn : a0 ≤ amin * 2 ^ n) :
    ∃ o, search phi phi0 d c1 a0 amin n s = some o ∧ o.trials.length ≤ n + 2 := by
  unfold search
  split
  · exact ⟨_, rfl, by simp⟩
  · split
    · exact ⟨_, rfl, by simp⟩
    · rename_i hnle
      obtain ⟨q0, q1, q2, q3⟩ := quad_bounds hd hc hc' ha hnle
      rename_i f0 s' hphi
      have hle : -d * a0 ^ 2 / 2 / (f0 - phi0 - d * a0) ≤ amin * 2 ^ n := by linarith
      rw [if_neg q0.ne']
      simp only
      split
      · exact ⟨_, rfl, by simp⟩
      · split
        · exact ⟨_, rfl, by simp⟩
        · obtain ⟨o, ho, hl⟩ := loop_terminates phi (phi0 := phi0) (d := d) (c1 := c1) hm n a0 _ _ _ _ _ hle
          exact ⟨o, ho, by simp at hl; omega⟩

/-- With the code's constants (`alpha0 = 1`, `amin = 1e-8`) at most 29 evaluations. -/
example (phi : ℝ → σ → Option ℝ × σ) (phi0 d : ℝ) (s : σ) (hd : d < 0) :
    ∃ o, search phi phi0 d (1 / 10000) 1 (1 / 10 ^ 8) 27 s = some o ∧ o.trials.length ≤ 29 :=
  C39_terminates phi phi0 d _ 1 _ 27 s hd (by norm_num) (by norm_num) (by norm_num) (by norm_num) (by norm_num)

/-- A case where the first step fails and the interpolated one is accepted: `(x-1)^2` from `x = 0` with first step 4. -/
example : search (σ := Unit) (fun t s => (some ((t - 1) ^ 2), s)) 1 (-2) (1 / 10000) 4 (1 / 10 ^ 8) 30 () =
    some ⟨.ok 1 0, (), [4, 1]⟩ := by
  norm_num [search]

/-- A case that fails: the objective jumps to a larger value at every positive step. -/
example : ∃ o, search (σ := Unit) (fun _ s => (some 2, s)) 1 (-2) (1 / 10000) 1 (1 / 10 ^ 8) 27 () = some o ∧ o.res = .fail := by
  obtain ⟨o, ho, -⟩ := C39_terminates (σ := Unit) (fun _ s => (some 2, s)) 1 (-2) (1 / 10000) 1 (1 / 10 ^ 8) 27 ()
    (by norm_num) (by norm_num) (by norm_num) (by norm_num) (by norm_num) (by norm_num)
  refine ⟨o, ho, ?_⟩
  obtain ⟨h1, -, h3, -⟩ := C39_armijo _ _ _ _ _ _ _ _ _ (fun _ => True) trivial (fun _ _ _ _ _ _ => trivial) (by norm_num) (by norm_num) (by norm_num) (by norm_num) ho
  cases hr : o.res with
  | fail => rfl
  | ok α v =>
    obtain ⟨-, -, hv, -, s, -, hs⟩ := h1 α v hr
    simp at hs
    exact absurd hv (by rw [← hs]; norm_num)
  | err α =>
    obtain ⟨-, s, -, hs⟩ := h3 α hr
    simp at hs

end Verif.Armijo
