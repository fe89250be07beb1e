import Verif.Linalg.DecompModel
import Mathlib.Tactic.Linarith
import Mathlib.Tactic.Positivity
import Mathlib.Tactic.FieldSimp
import Mathlib.Tactic.LinearCombination
import Mathlib.Tactic.FinCases
import Mathlib.Analysis.Real.Sqrt
import Mathlib.Algebra.Order.Chebyshev
/-
Properties C19 (sign fixing), C20 (SVD through eigendecomposition), C22 (regularised inverse) and
C55 (SVD of rectangular matrices).
-/
namespace Verif.Decomp
open Matrix

/-! ### C22 -/

/-- C22. `safe_inverse(x,eps)` is 1/x without regularisation, odd, and bounded by 1/(2 sqrt eps). -/
theorem C22_safe_inverse (x eps : ℝ) :
    (x ≠ 0 → safeInverse x 0 = 1 / x) ∧ safeInverse (-x) eps = - safeInverse x eps ∧
    (0 < eps → x ^ 2 + eps ≠ 0 ∧ |safeInverse x eps| ≤ 1 / (2 * Real.sqrt eps)) ∧
    (0 < eps → 0 < x → 0 < safeInverse x eps ∧ safeInverse x eps < 1 / x) := by
  refine ⟨?_, ?_, ?_, ?_⟩
  · intro h
    unfold safeInverse
    field_simp
    simp
  · unfold safeInverse
    rw [neg_sq, neg_div]
  · intro h
    have hp : 0 < x ^ 2 + eps := by positivity
    refine ⟨ne_of_gt hp, ?_⟩
    have hs : 0 < Real.sqrt eps := Real.sqrt_pos.2 h
    have hss : Real.sqrt eps * Real.sqrt eps = eps := Real.mul_self_sqrt (le_of_lt h)
    unfold safeInverse
    rw [abs_div, abs_of_pos hp, div_le_div_iff₀ hp (by positivity)]
    nlinarith [sq_nonneg (|x| - Real.sqrt eps), sq_abs x]
  · intro h hx
    have hp : 0 < x ^ 2 + eps := by positivity
    unfold safeInverse
    refine ⟨by positivity, ?_⟩
    rw [div_lt_div_iff₀ hp hx]
    nlinarith

/-- Non-vacuity and tightness: the bound is attained at `x = sqrt eps`. -/
example : |safeInverse 2 4| = 1 / (2 * Real.sqrt 4) := by
  have : Real.sqrt 4 = 2 := by rw [show (4 : ℝ) = 2 * 2 by norm_num]; exact Real.sqrt_mul_self (by norm_num)
  rw [this]; unfold safeInverse; norm_num

/-! ### C19 -/

theorem argmax_spec (l : List Nat) : (l = [] → argmax l = none) ∧
    (l ≠ [] → ∃ i, argmax l = some i ∧ i < l.length ∧ ∀ k, l.getD k 0 ≤ l.getD i 0) := by
  induction l with
  | nil => simp [argmax]
  | cons x l ih =>
    refine ⟨by simp, fun _ => ?_⟩
    by_cases hl : l = []
    · subst hl
      refine ⟨0, by simp [argmax], by simp, ?_⟩
      intro k
      cases k <;> simp
    · obtain ⟨i, h1, h2, h3⟩ := ih.2 hl
      simp only [argmax, h1]
      split
      · rename_i h
        refine ⟨i + 1, rfl, by simpa using h2, ?_⟩
        intro k
        cases k with
        | zero => simpa using le_of_lt h
        | succ k => simpa using h3 k
      · rename_i h
        refine ⟨0, rfl, by simp, ?_⟩
        intro k
        cases k with
        | zero => simp
        | succ k =>
          have := h3 k
          simp only [List.getD_cons_succ, List.getD_cons_zero]
          omega

theorem amps_getD {m : Nat} (u : Fin m → ℂ) (i : Nat) (h : i < m) :
    (amps u).getD i 0 = ⌊‖u ⟨i, h⟩‖ * 2 ^ 40⌋₊ := by
  unfold amps
  rw [List.getD_eq_getElem?_getD, List.getElem?_ofFn]
  simp [h]

/-- A column of norm one has an entry of magnitude at least 2^-40. -/
theorem exists_large {m : Nat} (hm : m ≤ 2 ^ 80) (u : Fin m → ℂ) (hu : ∑ i, ‖u i‖ ^ 2 = 1) (h0 : 0 < m) :
    ∃ k : Fin m, (1 : ℝ) ≤ ‖u k‖ * 2 ^ 40 := by
  by_contra hcon
  push Not at hcon
  have hlt : ∀ k : Fin m, ‖u k‖ ^ 2 < (1 / 2 ^ 80 : ℝ) := by
    intro k
    have h1 : ‖u k‖ < 1 / 2 ^ 40 := by
      rw [lt_div_iff₀ (by positivity)]; exact hcon k
    have : (1 / 2 ^ 80 : ℝ) = (1 / 2 ^ 40) ^ 2 := by norm_num
    rw [this]
    exact pow_lt_pow_left₀ h1 (norm_nonneg _) (by norm_num)
  have hsum : ∑ k, ‖u k‖ ^ 2 < ∑ _k : Fin m, (1 / 2 ^ 80 : ℝ) :=
    Finset.sum_lt_sum_of_nonempty (by
      rw [Finset.univ_nonempty_iff]; exact ⟨⟨0, h0⟩⟩) (fun k _ => hlt k)
  rw [hu, Finset.sum_const, Finset.card_univ, Fintype.card_fin, nsmul_eq_mul] at hsum
  have hmr : (m : ℝ) ≤ 2 ^ 80 := by exact_mod_cast hm
  have : (m : ℝ) * (1 / 2 ^ 80) ≤ 1 := by
    rw [mul_one_div, div_le_one (by positivity)]; exact hmr
  linarith

/-- The pivot of a column of norm one is one of its entries, not zero, and largest up to 2^-40. -/
theorem phase_some {m : Nat} (hm : m ≤ 2 ^ 80) (u : Fin m → ℂ) (hu : ∑ i, ‖u i‖ ^ 2 = 1) :
    ∃ i : Fin m, argmax (amps u) = some i.val ∧ u i ≠ 0 ∧ phase u = some (u i / (‖u i‖ : ℂ)) ∧
      ∀ k, ‖u k‖ ≤ ‖u i‖ + 1 / 2 ^ 40 := by
  have hm0 : 0 < m := by
    rcases Nat.eq_zero_or_pos m with rfl | h
    · simp at hu
    · exact h
  have hne : amps u ≠ [] := by
    intro h
    have := congrArg List.length h
    simp [amps] at this
    omega
  obtain ⟨i, h1, h2, h3⟩ := (argmax_spec (amps u)).2 hne
  have hi : i < m := by simpa [amps] using h2
  have hnz : u ⟨i, hi⟩ ≠ 0 := by
    intro h0
    obtain ⟨k, hk⟩ := exists_large hm u hu hm0
    have := h3 k.val
    rw [amps_getD u i hi, amps_getD u k.val k.isLt, h0] at this
    simp only [norm_zero, zero_mul, Nat.floor_zero, Nat.le_zero] at this
    rw [Nat.floor_eq_zero] at this
    exact absurd hk (not_le.2 this)
  refine ⟨⟨i, hi⟩, h1, hnz, ?_, ?_⟩
  · unfold phase
    rw [h1]
    simp only [hi, dif_pos]
    rw [if_neg hnz]
  · intro k
    have := h3 k.val
    rw [amps_getD u i hi, amps_getD u k.val k.isLt] at this
    have a1 : ‖u k‖ * 2 ^ 40 < ⌊‖u k‖ * 2 ^ 40⌋₊ + 1 := Nat.lt_floor_add_one _
    have a2 : (⌊‖u ⟨i, hi⟩‖ * 2 ^ 40⌋₊ : ℝ) ≤ ‖u ⟨i, hi⟩‖ * 2 ^ 40 := Nat.floor_le (by positivity)
    have a3 : (⌊‖u k‖ * 2 ^ 40⌋₊ : ℝ) ≤ ⌊‖u ⟨i, hi⟩‖ * 2 ^ 40⌋₊ := by exact_mod_cast this
    have a4 : ‖u k‖ * 2 ^ 40 ≤ (‖u ⟨i, hi⟩‖ + 1 / 2 ^ 40) * 2 ^ 40 := by
      have : (1 / 2 ^ 40 : ℝ) * 2 ^ 40 = 1 := by norm_num
      rw [add_mul, this]; linarith
    exact le_of_mul_le_mul_right a4 (by positivity)

/-- The phase used for column `u`; 1 if undefined. -/
noncomputable def phaseD {m : Nat} (u : Fin m → ℂ) : ℂ := (phase u).getD 1

theorem phase_eq {m : Nat} (hm : m ≤ 2 ^ 80) (u : Fin m → ℂ) (hu : ∑ i, ‖u i‖ ^ 2 = 1) :
    phase u = some (phaseD u) ∧ ‖phaseD u‖ = 1 := by
  obtain ⟨i, _, h0, h, _⟩ := phase_some hm u hu
  refine ⟨by rw [phaseD, h]; rfl, ?_⟩
  rw [phaseD, h]
  simp only [Option.getD_some, norm_div, Complex.norm_real, norm_norm]
  exact div_self (norm_ne_zero_iff.2 h0)

theorem phase_scale {m : Nat} (hm : m ≤ 2 ^ 80) (u : Fin m → ℂ) (hu : ∑ i, ‖u i‖ ^ 2 = 1) (c : ℂ) (hc : ‖c‖ = 1) :
    phaseD (fun i => u i * c) = phaseD u * c := by
  have hu' : ∑ i, ‖u i * c‖ ^ 2 = 1 := by simpa [norm_mul, hc] using hu
  obtain ⟨i, a, h0, h, _⟩ := phase_some hm u hu
  obtain ⟨j, b, h0', h', _⟩ := phase_some hm (fun i => u i * c) hu'
  have : amps (fun i => u i * c) = amps u := by
    unfold amps; simp [norm_mul, hc]
  rw [this, a, Option.some.injEq] at b
  have e : i = j := Fin.ext b
  subst e
  rw [phaseD, phaseD, h, h']
  simp only [Option.getD_some, norm_mul, hc, mul_one]
  ring

theorem fix_eq {m n : Nat} (hm : m ≤ 2 ^ 80) (U : List (Fin m → ℂ)) (V : List (Fin n → ℂ))
    (hl : V.length = U.length) (hU : ∀ u ∈ U, ∑ i, ‖u i‖ ^ 2 = 1) :
    fixSvdSigns U V = some (U.map (fun u => fun i => u i * (starRingEnd ℂ) (phaseD u)),
      List.zipWith (fun v u => fun i => v i * (starRingEnd ℂ) (phaseD u)) V U) := by
  have h1 : U.mapM phase = some (U.map phaseD) := by
    clear hl
    induction U with
    | nil => rfl
    | cons u U ih =>
      rw [List.mapM_cons, (phase_eq hm u (hU u (by simp))).1, ih (fun x hx => hU x (by simp [hx]))]
      rfl
  unfold fixSvdSigns
  rw [h1]
  simp only [Option.bind_eq_bind, Option.bind_some, scaleCols, List.length_map, hl, if_true, List.map_map,
    Option.some.injEq, Prod.mk.injEq]
  constructor
  · rw [List.zipWith_map_right, List.zipWith_self]
    rfl
  · rw [List.zipWith_map_right]
    rfl

/-- The matrix `U diag(S) V^dagger` of a factorisation given by columns, entry `(i,k)`. -/
noncomputable def Spec.product {m n : Nat} (U : List (Fin m → ℂ)) (S : List ℂ) (V : List (Fin n → ℂ))
    (i : Fin m) (k : Fin n) : ℂ :=
  ((U.zip (S.zip V)).map (fun t => t.1 i * t.2.1 * (starRingEnd ℂ) (t.2.2 k))).sum

/-- C19. For factors with as many columns on both sides and columns of `U` of norm one (as any SVD routine
returns them), sign fixing succeeds and leaves the product `U diag(S) V^dagger` unchanged for every `S`;
every column keeps its norm; and its largest entry (up to 2^-40) becomes real and positive. -/
theorem C19_fix_signs {m n : Nat} (hm : m ≤ 2 ^ 80) (U : List (Fin m → ℂ)) (V : List (Fin n → ℂ))
    (hl : V.length = U.length) (hU : ∀ u ∈ U, ∑ i, ‖u i‖ ^ 2 = 1) :
    ∃ U' V', fixSvdSigns U V = some (U', V') ∧ U'.length = U.length ∧ V'.length = V.length ∧
      (∀ S i k, Spec.product U' S V' i k = Spec.product U S V i k) ∧
      (∀ (j : Nat) u u', U[j]? = some u → U'[j]? = some u' → (∀ i, ‖u' i‖ = ‖u i‖) ∧
        ∃ i, 0 < (u' i).re ∧ (u' i).im = 0 ∧ ∀ k, ‖u' k‖ ≤ ‖u' i‖ + 1 / 2 ^ 40) ∧
      (∀ (j : Nat) v v', V[j]? = some v → V'[j]? = some v' → ∀ i, ‖v' i‖ = ‖v i‖) := by
  refine ⟨_, _, fix_eq hm U V hl hU, by simp, by simp [hl], ?_, ?_, ?_⟩
  · intro S i k
    unfold Spec.product
    congr 1
    induction U generalizing V S with
    | nil => simp
    | cons u U ih =>
      cases V with
      | nil => simp at hl
      | cons v V =>
        cases S with
        | nil => simp
        | cons s S =>
          simp only [List.map_cons, List.zipWith_cons_cons, List.zip_cons_cons, List.cons.injEq]
          refine ⟨?_, ih V (by simpa using hl) (fun x hx => hU x (by simp [hx])) S⟩
          have hp := (phase_eq hm u (hU u (by simp))).2
          have : (starRingEnd ℂ) (phaseD u) * phaseD u = 1 := by
            rw [mul_comm, Complex.mul_conj, Complex.normSq_eq_norm_sq, hp]; simp
          simp only [map_mul, Complex.conj_conj]
          linear_combination (u i * s * (starRingEnd ℂ) (v k)) * this
  · intro j u u' h1 h2
    have hu : u ∈ U := List.mem_of_getElem? h1
    rw [List.getElem?_map, h1] at h2
    simp only [Option.map_some, Option.some.injEq] at h2
    subst h2
    have hp := (phase_eq hm u (hU u hu)).2
    have hn : ∀ i, ‖u i * (starRingEnd ℂ) (phaseD u)‖ = ‖u i‖ := by
      intro i; rw [norm_mul, RCLike.norm_conj, hp, mul_one]
    refine ⟨hn, ?_⟩
    obtain ⟨i, _, h0, h, hmax⟩ := phase_some hm u (hU u hu)
    refine ⟨i, ?_⟩
    have hv : u i * (starRingEnd ℂ) (phaseD u) = ((‖u i‖ : ℝ) : ℂ) := by
      have hn0 : ((‖u i‖ : ℝ) : ℂ) ≠ 0 := by exact_mod_cast norm_ne_zero_iff.2 h0
      rw [phaseD, h, Option.getD_some, map_div₀, Complex.conj_ofReal, mul_div_assoc', Complex.mul_conj,
        Complex.normSq_eq_norm_sq, div_eq_iff hn0]
      push_cast; ring
    simp only [hv]
    refine ⟨by rw [Complex.ofReal_re]; exact norm_pos_iff.2 h0, Complex.ofReal_im _, ?_⟩
    intro k
    rw [hn, Complex.norm_real, norm_norm]
    exact hmax k
  · intro j v v' h1 h2 i
    rw [List.getElem?_zipWith, h1] at h2
    cases hu : U[j]? with
    | none => rw [hu] at h2; simp at h2
    | some u =>
      rw [hu] at h2
      simp only [Option.some.injEq] at h2
      subst h2
      rw [norm_mul, RCLike.norm_conj, (phase_eq hm u (hU u (List.mem_of_getElem? hu))).2, mul_one]

/-- C19. The result does not depend on the phases chosen by the SVD routine: multiplying the columns of
both factors by arbitrary phases before sign fixing gives the same output. -/
theorem C19_canonical {m n : Nat} (hm : m ≤ 2 ^ 80) (U : List (Fin m → ℂ)) (V : List (Fin n → ℂ)) (c : List ℂ)
    (hl : V.length = U.length) (hc : c.length = U.length) (hU : ∀ u ∈ U, ∑ i, ‖u i‖ ^ 2 = 1)
    (hcn : ∀ z ∈ c, ‖z‖ = 1) :
    fixSvdSigns (List.zipWith (fun u z => fun i => u i * z) U c) (List.zipWith (fun v z => fun i => v i * z) V c) =
      fixSvdSigns U V := by
  have hU' : ∀ u ∈ List.zipWith (fun (u : Fin m → ℂ) z => fun i => u i * z) U c, ∑ i, ‖u i‖ ^ 2 = 1 := by
    intro u hu
    obtain ⟨j, hj, rfl⟩ := List.getElem_of_mem hu
    rw [List.getElem_zipWith]
    have hj1 : j < U.length := by simp at hj; omega
    have hj2 : j < c.length := by simp at hj; omega
    have := hU U[j] (List.getElem_mem _)
    simpa [norm_mul, hcn c[j] (List.getElem_mem _)] using this
  rw [fix_eq hm U V hl hU, fix_eq hm _ _ (by simp [hl, hc]) hU']
  simp only [Option.some.injEq, Prod.mk.injEq]
  have key : ∀ u ∈ U, ∀ z ∈ c, ∀ w : ℂ, w * z * (starRingEnd ℂ) (phaseD (fun i => u i * z)) =
      w * (starRingEnd ℂ) (phaseD u) := by
    intro u hu z hz w
    rw [phase_scale hm u (hU u hu) z (hcn z hz), map_mul]
    have : z * (starRingEnd ℂ) z = 1 := by
      rw [Complex.mul_conj, Complex.normSq_eq_norm_sq, hcn z hz]; simp
    linear_combination (w * (starRingEnd ℂ) (phaseD u)) * this
  constructor
  · apply List.ext_getElem
    · simp [hc]
    · intro j h1 h2
      simp only [List.getElem_map, List.getElem_zipWith]
      funext i
      exact key _ (List.getElem_mem _) _ (List.getElem_mem _) _
  · apply List.ext_getElem
    · simp [hc, hl]
    · intro j h1 h2
      simp only [List.getElem_zipWith]
      funext i
      exact key _ (List.getElem_mem _) _ (List.getElem_mem _) _

/-- Non-vacuity: a one-column factorisation with a negative entry. -/
example : ∃ U' V', fixSvdSigns (m := 1) (n := 1) [fun _ => -1] [fun _ => 1] = some (U', V') := by
  obtain ⟨U', V', h, _⟩ := C19_fix_signs (m := 1) (n := 1) (by norm_num) [fun _ => -1] [fun _ => 1] rfl
    (by intro u hu; simp only [List.mem_singleton] at hu; subst hu; simp)
  exact ⟨U', V', h⟩

/-! ### C55 -/

/-- C55 as listed fails: `torch.linalg.svd` returns the full `m x m` and `n x n` factors, and for `m ≠ n`
(both at least two) sign fixing raises, whatever the factors are. -/
theorem C55_rectangular_raises {m n : Nat} (U : List (Fin m → ℂ)) (V : List (Fin n → ℂ))
    (hU : U.length = m) (hV : V.length = n) (hm : 2 ≤ m) (hn : 2 ≤ n) (hmn : m ≠ n) : fixSvdSigns U V = none := by
  unfold fixSvdSigns
  cases h : U.mapM phase with
  | none => rfl
  | some ph =>
    have hph : ph.length = U.length := by
      clear hU hV
      induction U generalizing ph with
      | nil => simp at h; simp [← h]
      | cons u U ih =>
        rw [List.mapM_cons] at h
        cases h1 : phase u with
        | none => rw [h1] at h; simp at h
        | some z =>
          cases h2 : U.mapM phase with
          | none => rw [h1, h2] at h; simp at h
          | some l =>
            rw [h1, h2] at h
            simp at h
            rw [← h]; simp [ih l h2]
    simp only [Option.bind_eq_bind, Option.bind_some]
    have hv : scaleCols V (ph.map (starRingEnd ℂ)) = none := by
      unfold scaleCols
      rw [List.length_map, hph, if_neg (by omega)]
      match V, ph.map (starRingEnd ℂ), (List.length_map (as := ph) (starRingEnd ℂ)) with
      | [], _, _ => simp at hV; omega
      | [v], _, _ => simp at hV; omega
      | _ :: _ :: _, [], _ => rfl
      | _ :: _ :: _, [c], h => simp at h; omega
      | _ :: _ :: _, _ :: _ :: _, _ => rfl
    rw [hv]
    cases scaleCols U (ph.map (starRingEnd ℂ)) <;> rfl

/-- C55. Square matrices are accepted (this is `C19_fix_signs` with `m = n`). -/
theorem C55_square_partial {n : Nat} (hn : n ≤ 2 ^ 80) (U V : List (Fin n → ℂ)) (hU : U.length = n) (hV : V.length = n)
    (hn1 : ∀ u ∈ U, ∑ i, ‖u i‖ ^ 2 = 1) : (fixSvdSigns U V).isSome := by
  rw [fix_eq hn U V (by omega) hn1]; rfl

/-- Non-vacuity: a 2 x 3 matrix. -/
example : fixSvdSigns (m := 2) (n := 3) [fun i => if i = 0 then 1 else 0, fun i => if i = 1 then 1 else 0]
    [fun i => if i = 0 then 1 else 0, fun i => if i = 1 then 1 else 0, fun i => if i = 2 then 1 else 0] = none :=
  C55_rectangular_raises _ _ rfl rfl (by norm_num) (by norm_num) (by norm_num)

/-! ### C20 -/

/-- C20, what holds for every eigendecomposition: with `A = U diag(D) U^T`, `U` orthogonal and `p` a
permutation sorting the magnitudes in descending order, the result multiplies back to `A`, the singular
values are non-negative and non-increasing, and the left factor is orthogonal. The right factor is
orthogonal exactly when no eigenvalue vanishes, so the full claim holds for non-singular `A` only. -/
theorem C20_svd_symeig_partial {n : Nat} (A U : Matrix (Fin n) (Fin n) ℝ) (D : Fin n → ℝ) (p : Equiv.Perm (Fin n))
    (hU : Uᵀ * U = 1) (hA : A = U * Matrix.diagonal D * Uᵀ) (hp : ∀ i j, i ≤ j → |D (p j)| ≤ |D (p i)|) :
    ∃ U' S V, svdSymeig D U p = (U', S, V) ∧ A = U' * Matrix.diagonal S * Vᵀ ∧ (∀ i, 0 ≤ S i) ∧ Antitone S ∧
      U'ᵀ * U' = 1 ∧ (Vᵀ * V = 1 ↔ ∀ i, D i ≠ 0) := by
  have hUp : (U.submatrix id p)ᵀ * U.submatrix id p = 1 := by
    have : (U.submatrix id p)ᵀ * U.submatrix id p = (Uᵀ * U).submatrix p p := by
      ext i j; simp [Matrix.mul_apply]
    rw [this, hU, Matrix.submatrix_one_equiv]
  refine ⟨_, _, _, rfl, ?_, fun i => abs_nonneg _, fun i j h => hp i j h, ?_, ?_⟩
  · rw [hA]
    ext i j
    simp only [Matrix.mul_apply, Matrix.transpose_apply, Matrix.diagonal_apply, Matrix.submatrix_apply, id,
      mul_ite, mul_zero, Finset.sum_ite_eq', Finset.mem_univ, if_true]
    rw [← Equiv.sum_comp p]
    apply Finset.sum_congr rfl
    intro x _
    have : |D (p x)| * (SignType.sign (D (p x)) : ℝ) = D (p x) := abs_mul_sign _
    linear_combination (-(U i (p x) * U j (p x))) * this
  · exact hUp
  · have hV : ((U.submatrix id p) * Matrix.diagonal (fun i => (SignType.sign (D (p i)) : ℝ)))ᵀ *
        ((U.submatrix id p) * Matrix.diagonal (fun i => (SignType.sign (D (p i)) : ℝ))) =
        Matrix.diagonal (fun i => (SignType.sign (D (p i)) : ℝ) * (SignType.sign (D (p i)) : ℝ)) := by
      rw [Matrix.transpose_mul, Matrix.diagonal_transpose, Matrix.mul_assoc, ← Matrix.mul_assoc _ (U.submatrix id p),
        hUp, Matrix.one_mul, Matrix.diagonal_mul_diagonal]
    rw [hV]
    constructor
    · intro h i h0
      have := congrFun (congrFun h (p.symm i)) (p.symm i)
      simp [h0] at this
    · intro h
      rw [← Matrix.diagonal_one]
      congr 1
      funext i
      rcases lt_or_gt_of_ne (h (p i)) with h1 | h1 <;> simp [h1]

/-- C20 as listed fails: for the zero matrix (and every singular one) the right factor is not an
isometry. -/
theorem C20_violated : ∃ (A U : Matrix (Fin 1) (Fin 1) ℝ) (D : Fin 1 → ℝ), Uᵀ * U = 1 ∧
    A = U * Matrix.diagonal D * Uᵀ ∧ ∃ U' S V, svdSymeig D U id = (U', S, V) ∧ V = 0 ∧ Vᵀ * V ≠ 1 := by
  refine ⟨0, 1, fun _ => 0, by simp, by ext; simp, _, _, _, rfl, ?_, ?_⟩
  · ext i j; simp
  · intro h
    have := congrFun (congrFun h 0) 0
    simp [Matrix.mul_apply] at this

/-- Non-vacuity of the partial theorem: diag(1,-2), sorted by swapping. -/
example : ∃ U' S V, svdSymeig (n := 2) ![1, -2] 1 (Equiv.swap 0 1) = (U', S, V) ∧
    Matrix.diagonal ![1, -2] = U' * Matrix.diagonal S * Vᵀ := by
  obtain ⟨U', S, V, h1, h2, _⟩ := C20_svd_symeig_partial (Matrix.diagonal ![1, -2]) 1 ![1, -2] (Equiv.swap 0 1)
    (by simp) (by simp) (by
      intro i j h
      fin_cases i <;> fin_cases j <;> simp at h ⊢)
  exact ⟨U', S, V, h1, h2⟩

end Verif.Decomp
