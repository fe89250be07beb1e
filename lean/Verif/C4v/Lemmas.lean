import Verif.C4v.Net
import Verif.Ctm.MoveProps
/-
Values of the tensors of a C4v move.
-/
namespace Verif.C4v
open Tensor Ctm
set_option linter.unusedSimpArgs false
variable {K : Type} [RCLike K]

theorem lift_some {α β : Type} (a : α) (f : α → Except Err β) : (lift (some a) >>= f) = f a := rfl
theorem lift_none {α β : Type} (f : α → Except Err β) : (lift (none : Option α) >>= f) = .error .raise := rfl

theorem inB2 {n m i j : Nat} (hi : i < n) (hj : j < m) : InB [n, m] [i, j] := .cons hi (.cons hj .nil)
theorem inB3 {n m k i j s : Nat} (hi : i < n) (hj : j < m) (hs : s < k) : InB [n, m, k] [i, j, s] := .cons hi (.cons hj (.cons hs .nil))

theorem inB2_iff {n m : Nat} {idx : List Nat} : InB [n, m] idx ↔ ∃ i j, idx = [i, j] ∧ i < n ∧ j < m := by
  constructor
  · intro h
    cases h with
    | cons h1 h2 => cases h2 with
      | cons h3 h4 => cases h4; exact ⟨_, _, rfl, h1, h3⟩
  · rintro ⟨i, j, rfl, h1, h2⟩; exact inB2 h1 h2

theorem inB3_iff {n m k : Nat} {idx : List Nat} : InB [n, m, k] idx ↔ ∃ i j s, idx = [i, j, s] ∧ i < n ∧ j < m ∧ s < k := by
  constructor
  · intro h
    cases h with
    | cons h1 h2 => cases h2 with
      | cons h3 h4 => cases h4 with
        | cons h5 h6 => cases h6; exact ⟨_, _, _, rfl, h1, h3, h5⟩
  · rintro ⟨i, j, s, rfl, h1, h2, h3⟩; exact inB3 h1 h2 h3

/-- The Hermitian part. -/
theorem symm_val {x : Tensor K} {n k : Nat} (hx : x.shape = [n, n, k]) :
    ∃ y, symm x = some y ∧ y.shape = [n, n, k] ∧ ∀ i j s, y.val [i, j, s] = (1 / 2 : K) * (x.val [i, j, s] + star (x.val [j, i, s])) := by
  have hp : permute [1, 0, 2] x.conj = some ⟨[n, n, k], fun idx => star (x.val ((List.range 3).map (fun j => idx.getD ([1, 0, 2].idxOf j) 0)))⟩ := by
    simp only [permute, conj, hx]
    rw [if_pos (by simp)]
    rfl
  refine ⟨_, by simp only [symm, hp, Option.bind_eq_bind, Option.bind_some, hx, if_true]; rfl, rfl, ?_⟩
  intro i j s
  rfl

theorem symm_same {x y : Tensor K} {n k : Nat} (hx : x.shape = [n, n, k]) (h : Same x y) :
    ∃ x' y', symm x = some x' ∧ symm y = some y' ∧ Same x' y' := by
  obtain ⟨x', ex, sx, vx⟩ := symm_val hx
  obtain ⟨y', ey, sy, vy⟩ := symm_val (h.1.symm.trans hx)
  refine ⟨x', y', ex, ey, sx.trans sy.symm, fun idx hi => ?_⟩
  rw [sx] at hi
  obtain ⟨i, j, s, rfl, hi, hj, hs⟩ := inB3_iff.1 hi
  rw [vx, vy, h.2 _ (by rw [hx]; exact inB3 hi hj hs), h.2 _ (by rw [hx]; exact inB3 hj hi hs)]

/-- Relabelling by an involution that preserves sizes. -/
theorem sumOver_relabel {M : Type} [AddCommMonoid M] (dim r : Nat → Nat) (hr : ∀ l, r (r l) = l) (hd : ∀ l, dim (r l) = dim l) (L : List Nat) (F : (Nat → Nat) → M) (σ : Nat → Nat) :
    sumOver dim L F (fun l => σ (r l)) = sumOver dim (L.map r) (fun τ => F (fun l => τ (r l))) σ := by
  induction L generalizing σ with
  | nil => rfl
  | cons a L ih =>
    simp only [sumOver, List.map_cons, hd]
    refine Finset.sum_congr rfl (fun i _ => ?_)
    rw [← ih]
    congr 1
    funext l
    by_cases h : l = a
    · subst h; simp
    · have : r l ≠ r a := fun e => h (by rw [← hr l, e, hr])
      simp [h, this]

theorem star_sumOver (d : Nat → Nat) (ls : List Nat) (F : (Nat → Nat) → K) (σ : Nat → Nat) :
    star (sumOver d ls F σ) = sumOver d ls (fun τ => star (F τ)) σ := by
  induction ls generalizing σ with
  | nil => rfl
  | cons a ls ih => simp only [sumOver, star_sum, ih]

section
variable {chi D p : Nat} {a : Tensor K} {env : Env K}

/-- The enlarged corner of the two modes. -/
theorem corner_both (h : Spec.Fits chi D p a env) :
    ∃ A M M', Corner.doubleLayer a = some A ∧ layers a = some A ∧ c2x2Dl A env.C env.T = some M ∧ c2x2Sl a env.C env.T = some M' ∧ Same M M' ∧
      Denotes (Spec.dim chi D p) M [[3, 8, 9], [2, 10, 11]] [0, 1, 4, 5, 6, 7, 12] [0, 1, 2, 3, 4, 5, 6, 7, 8, 9, 10, 11, 12] (Spec.corner (Spec.dim chi D p) env.C env.T a) ∧
      M.shape = [chi * (D * D), chi * (D * D)] := by
  obtain ⟨A, M, eA, eM, dM⟩ := c2x2Dl_net (dim := Spec.dim chi D p) rfl h.site h.corner h.half
  obtain ⟨M', eM', dM'⟩ := c2x2Sl_net (dim := Spec.dim chi D p) rfl h.site h.corner h.half
  refine ⟨A, M, M', eA, ?_, eM, eM', dM.same dM' (by decide) (List.Perm.refl _) (fun _ => rfl), dM, ?_⟩
  · rw [layers, if_neg (by rw [h.site]; simp), eA]
  · rw [dM.shape]; simp [gdim, Spec.dim]

/-- The absorbed half-row tensor of the two modes. -/
theorem half_both {P Pv A : Tensor K} (h : Spec.Fits chi D p a env) (hA : Corner.doubleLayer a = some A) (hP : P.shape = [chi * (D * D), chi]) (hv : view [chi, D * D, chi] P = some Pv) :
    ∃ N N', absorbDl A env.T Pv = some N ∧ absorbSl a env.T Pv = some N' ∧ Same N N' ∧
      Denotes (Spec.dim chi D p) N [[14], [15], [10, 11]] [0, 3, 4, 5, 6, 7, 8, 9, 12] [0, 3, 4, 5, 6, 7, 8, 9, 10, 11, 12, 14, 15] (Spec.half (Spec.dim chi D p) P env.T a) ∧
      N.shape = [chi, chi, D * D] := by
  obtain ⟨A', N, eA, eN, dN⟩ := absorbDl_net (dim := Spec.dim chi D p) rfl h.site h.half hP hv
  obtain ⟨N', eN', dN'⟩ := absorbSl_net (dim := Spec.dim chi D p) rfl h.site h.half hP hv
  rw [hA] at eA
  cases eA
  refine ⟨N, N', eN, eN', dN.same dN' (by decide) (List.Perm.refl _) (fun _ => rfl), dN, ?_⟩
  rw [dN.shape]; simp [gdim, Spec.dim]

omit [RCLike K] in
theorem view_P {P : Tensor K} (hP : P.shape = [chi * (D * D), chi]) : ∃ Pv, view [chi, D * D, chi] P = some Pv := by
  unfold view
  rw [if_pos (by rw [hP]; simp [mul_assoc])]
  exact ⟨_, rfl⟩

theorem normalizeC_ok {x y : Tensor K} {n : Nat} (hx : x.shape = [n, n]) (h : normalizeC x = .ok y) :
    y.shape = [n, n] ∧ ∃ s : ℝ, 0 < s ∧ s = ‖x.val [0, 0]‖ ∧ ∀ i j, i < n → j < n → y.val [i, j] = x.val [i, j] / (s : K) := by
  unfold normalizeC at h
  split at h
  · cases h
  split at h
  · cases h
  rename_i h0
  simp only [Except.ok.injEq] at h
  refine ⟨by rw [← h]; exact hx, ‖x.val [0, 0]‖, lt_of_le_of_ne (norm_nonneg _) (Ne.symm h0), rfl, fun i j hi hj => ?_⟩
  rw [← h]
  simp only [canon]
  rw [if_pos (by rw [hx]; exact inB2 hi hj)]

theorem normalize_val {inf : Bool} {x y : Tensor K} {n k : Nat} (hx : x.shape = [n, n, k]) (h : Ctm.normalize inf x = .ok y) :
    y.shape = [n, n, k] ∧ ∃ s : ℝ, 0 < s ∧ s = vecNorm inf x ∧ ∀ i j r, i < n → j < n → r < k → y.val [i, j, r] = x.val [i, j, r] / (s : K) := by
  unfold Ctm.normalize at h
  split at h
  · cases h
  rename_i h0
  simp only [Except.ok.injEq] at h
  refine ⟨by rw [← h]; exact hx, vecNorm inf x, lt_of_le_of_ne (vecNorm_nonneg _ _) (Ne.symm h0), rfl, fun i j r hi hj hr => ?_⟩
  rw [← h]
  simp only [canon]
  rw [if_pos (by rw [hx]; exact inB3 hi hj hr)]

theorem diag_val (L : List ℝ) (i j : Nat) : (diag L : Tensor K).val [i, j] = if i = j then ((L.getD i 0 : ℝ) : K) else 0 := rfl

theorem bind_ok {α β : Type} {x : Except Err α} {f : α → Except Err β} {b : β} (h : (x >>= f) = .ok b) : ∃ a, x = .ok a ∧ f a = .ok b := by
  cases x with
  | error e => cases h
  | ok a => exact ⟨a, rfl, h⟩
end

end Verif.C4v
