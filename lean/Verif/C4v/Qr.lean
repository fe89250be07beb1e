import Verif.C4v.Props
import Mathlib.Analysis.Complex.Basic
import Mathlib.Tactic.Linarith
/-
Property C48 for the moves by QR decomposition: preserved for real tensors, violated for complex ones.
-/
namespace Verif.C4v
open Tensor Ctm
set_option linter.unusedSimpArgs false
variable {K : Type} [RCLike K]

theorem sandwich {P M : Tensor K} {n c : Nat} (hP : P.shape = [n, c]) (hM : M.shape = [n, n]) :
    ∃ Pt X Y, permute [1, 0] P = some Pt ∧ tensordot [1] [0] Pt M = some X ∧ tensordot [1] [0] X P = some Y ∧ Y.shape = [c, c] ∧
      ∀ i j, i < c → j < c → Y.val [i, j] = ∑ x ∈ Finset.range n, ∑ y ∈ Finset.range n, P.val [x, i] * M.val [x, y] * P.val [y, j] := by
  obtain ⟨dim, hd⟩ : ∃ dim : Nat → Nat, dim = fun l => if l < 2 then n else c := ⟨_, rfl⟩
  have h0 : dim 0 = n := by rw [hd]; rfl
  have h1 : dim 1 = n := by rw [hd]; rfl
  have h2 : dim 2 = c := by rw [hd]; rfl
  have h3 : dim 3 = c := by rw [hd]; rfl
  have d1 := Denotes.leaf dim P [[0], [2]] (by simp [gdim, hP, h0, h2])
  have d2 := Denotes.leaf dim M [[0], [1]] (by simp [gdim, hM, h0, h1])
  have d3 := Denotes.leaf dim P [[1], [3]] (by simp [gdim, hP, h1, h3])
  obtain ⟨Pt, e1, q1⟩ := Denotes.permute d1 [1, 0] (by decide)
  obtain ⟨X, e2, q2⟩ := Denotes.tensordot q1 d2 [1] [0] (dotOK_iff (by decide))
  obtain ⟨Y, e3, q3⟩ := Denotes.tensordot q2 d3 [1] [0] (dotOK_iff (by decide))
  refine ⟨Pt, X, Y, e1, e2, e3, ?_, fun i j hi hj => ?_⟩
  · have sy : Y.shape = List.map (gdim dim) [[2], [3]] := q3.shape
    rw [sy]; simp [gdim, h2, h3]
  · have hv := q3.val (fun l => if l = 2 then i else j) (by
      intro l hl
      have hl : l ∈ [2, 3] := hl
      simp only [List.mem_cons, List.not_mem_nil, or_false] at hl
      rcases hl with rfl | rfl
      · rw [h2]; exact hi
      · rw [h3]; exact hj)
    have ei : List.map (gidx dim (fun l => if l = 2 then i else j)) [[2], [3]] = [i, j] := by simp
    have hL : ∀ F, sumOver dim [1, 0] F (fun l => if l = 2 then i else j) = (sumOver dim [0, 1] F (fun l => if l = 2 then i else j) : K) :=
      fun F => sumOver_perm dim (List.Perm.swap 0 1 []) F _
    refine (congrArg Y.val ei.symm).trans (hv.trans ((hL _).trans ?_))
    simp only [sumOver, h0, h1]
    refine Finset.sum_congr rfl (fun x _ => Finset.sum_congr rfl (fun y _ => ?_))
    simp

theorem half_enlarged {chi D p : Nat} {a : Tensor K} {env : Env K} (h : Spec.Fits chi D p a env) (hc : 0 < chi) :
    ∃ H, (do
      let x ← tensordot [1] [1] env.C env.T
      let x ← permute [0, 2, 1] x
      if 0 < env.chi ∧ x.shape.prod % env.chi = 0 then view [x.shape.prod / env.chi, env.chi] x else none) = some H ∧ H.shape = [chi * (D * D), chi] ∧
      ∀ x s j, x < chi → s < D * D → j < chi → H.val [x * (D * D) + s, j] = ∑ b ∈ Finset.range chi, env.C.val [x, b] * env.T.val [j, b, s] := by
  obtain ⟨dim, hd⟩ : ∃ dim : Nat → Nat, dim = fun l => if l = 3 then D * D else chi := ⟨_, rfl⟩
  have h0 : dim 0 = chi := by rw [hd]; rfl
  have h1 : dim 1 = chi := by rw [hd]; rfl
  have h2 : dim 2 = chi := by rw [hd]; rfl
  have h3 : dim 3 = D * D := by rw [hd]; rfl
  have d1 := Denotes.leaf dim env.C [[0], [1]] (by simp [gdim, h.corner, h0, h1])
  have d2 := Denotes.leaf dim env.T [[2], [1], [3]] (by simp [gdim, h.half, h1, h2, h3])
  obtain ⟨X, e1, q1⟩ := Denotes.tensordot d1 d2 [1] [1] (dotOK_iff (by decide))
  obtain ⟨Y, e2, q2⟩ := Denotes.permute q1 [0, 2, 1] (by decide)
  have sy' : Y.shape = List.map (gdim dim) [[0], [3], [2]] := q2.shape
  have sy : Y.shape = [chi, D * D, chi] := by rw [sy']; simp [gdim, h0, h2, h3]
  have hprod : Y.shape.prod = chi * (D * D) * chi := by rw [sy]; simp [mul_assoc]
  obtain ⟨H, e3, q3⟩ := Denotes.view q2 [[0, 3], [2]] [Y.shape.prod / env.chi, env.chi] (by decide) (by
    rw [hprod, h.bond, Nat.mul_div_cancel _ hc]; simp [gdim, h0, h2, h3])
  refine ⟨H, ?_, ?_, fun x s j hx hs hj => ?_⟩
  · simp only [e1, e2, Option.bind_eq_bind, Option.bind_some]
    rw [if_pos ⟨by rw [h.bond]; exact hc, by rw [hprod, h.bond]; exact Nat.mul_mod_left _ _⟩]
    exact e3
  · rw [q3.shape]; simp [gdim, h0, h2, h3]
  · have hv := q3.val (fun l => if l = 0 then x else if l = 3 then s else j) (by
      intro l hl
      have hl : l ∈ [0, 3, 2] := hl
      simp only [List.mem_cons, List.not_mem_nil, or_false] at hl
      rcases hl with rfl | rfl | rfl
      · rw [h0]; exact hx
      · rw [h3]; exact hs
      · rw [h2]; exact hj)
    have ei : List.map (gidx dim (fun l => if l = 0 then x else if l = 3 then s else j)) [[0, 3], [2]] = [x * (D * D) + s, j] := by
      simp [gidx, ravel, h3]
    refine (congrArg H.val ei.symm).trans (hv.trans ?_)
    have hL : ∀ F σ, sumOver dim (List.flatten (pick [[0], [1]] [1]) ++ ([] ++ [])) F σ = (sumOver dim [1] F σ : K) := fun F σ => rfl
    rw [hL]
    simp only [sumOver, h1]
    refine Finset.sum_congr rfl (fun b _ => ?_)
    simp

/-- What a move by QR decomposition computes. -/
theorem moveQr_eq {chi D p : Nat} {a : Tensor K} {env : Env K} {inf : Bool} {qr : Tensor K → Tensor K} (h : Spec.Fits chi D p a env) (hc : 0 < chi) (hD : 0 < D) (hq : Spec.IsQr qr) :
    ∃ H M Y N y, c2x2Sl a env.C env.T = some M ∧ H.shape = [chi * (D * D), chi] ∧
      (∀ x s j, x < chi → s < D * D → j < chi → H.val [x * (D * D) + s, j] = ∑ b ∈ Finset.range chi, env.C.val [x, b] * env.T.val [j, b, s]) ∧
      Y.shape = [chi, chi] ∧ (∀ i j, i < chi → j < chi → Y.val [i, j] = ∑ x ∈ Finset.range (chi * (D * D)), ∑ y ∈ Finset.range (chi * (D * D)), (qr H).val [x, i] * M.val [x, y] * (qr H).val [y, j]) ∧
      Corner.Spec.IsNetwork (Spec.dim chi D p) N [[14], [15], [10, 11]] [0, 3, 4, 5, 6, 7, 8, 9, 12] (Spec.half (Spec.dim chi D p) (qr H) env.T a) ∧
      y.shape = [chi, chi, D * D] ∧ (∀ i j r, i < chi → j < chi → r < D * D → y.val [i, j, r] = (1 / 2 : K) * (N.val [i, j, r] + star (N.val [j, i, r]))) ∧
      moveQr inf qr a env = (do let C ← normalizeC Y; let T ← Ctm.normalize inf y; return ⟨env.chi, C, T⟩) := by
  obtain ⟨A, M0, M, eA, -, -, eM, hsame, -, sM⟩ := corner_both h
  obtain ⟨H, eH, sH, vH⟩ := half_enlarged h hc
  obtain ⟨sP, -, -⟩ := hq (canon H) (chi * (D * D)) chi sH (chi_le hD)
  obtain ⟨Pt, X, Y, e1, e2, e3, sY, vY⟩ := sandwich sP (hsame.1.symm.trans sM)
  have hT2 : env.T.size 2 = D * D := by rw [size, h.half]; rfl
  obtain ⟨Pv, hv⟩ := view_P sP
  obtain ⟨N, N', eN, eN', hN, dN, sN⟩ := half_both h eA sP hv
  obtain ⟨y, ey, sy, vy⟩ := symm_val (hN.1.symm.trans sN)
  refine ⟨canon H, M, Y, N, y, eM, sH, fun x s j hx hs hj => ?_, sY, vY, Corner.isNetwork dN, sy, fun i j r hi hj hr => ?_, ?_⟩
  · rw [← vH x s j hx hs hj]
    refine ((canon_same H).2 _ ?_).symm
    rw [sH]
    refine inB2 ?_ hj
    calc x * (D * D) + s < x * (D * D) + D * D := by omega
      _ = (x + 1) * (D * D) := by ring
      _ ≤ chi * (D * D) := Nat.mul_le_mul_right _ hx
  · rw [vy, hN.2 _ (by rw [sN]; exact inB3 hi hj hr), hN.2 _ (by rw [sN]; exact inB3 hj hi hr)]
  · unfold moveQr
    rw [eM, eH]
    simp only [lift_some, e1, e2, e3, h.bond, hT2, hv, eN', ey]

section
variable {chi D p : Nat} {a : Tensor K} {env env' : Env K} {inf : Bool} {qr : Tensor K → Tensor K}

/-- After a move by QR decomposition the half-row tensor is Hermitian, and the corner is the enlarged corner between projector and transposed projector, up to a factor. -/
theorem moveQr_ok (h : Spec.Fits chi D p a env) (hc : 0 < chi) (hD : 0 < D) (hq : Spec.IsQr qr) (hok : moveQr inf qr a env = .ok env') :
    Spec.Fits chi D p a env' ∧
    (∀ i j s, i < env'.chi → j < env'.chi → s < env'.T.size 2 → env'.T.val [i, j, s] = star (env'.T.val [j, i, s])) ∧
    ∃ (M P : Tensor K) (s : ℝ), c2x2Sl a env.C env.T = some M ∧ 0 < s ∧ ∀ i j, i < chi → j < chi → env'.C.val [i, j] =
      (∑ x ∈ Finset.range (chi * (D * D)), ∑ y ∈ Finset.range (chi * (D * D)), P.val [x, i] * M.val [x, y] * P.val [y, j]) / (s : K) := by
  obtain ⟨H, M, Y, N, y, eM, -, -, sY, vY, -, sy, vy, e⟩ := moveQr_eq (inf := inf) h hc hD hq
  rw [e] at hok
  obtain ⟨C', eC, hok⟩ := bind_ok hok
  obtain ⟨T', eT, hok⟩ := bind_ok hok
  obtain ⟨sC, s, hs, -, vC⟩ := normalizeC_ok sY eC
  obtain ⟨sT, t, ht, -, vT⟩ := normalize_val sy eT
  simp only [pure, Except.pure, Except.ok.injEq] at hok
  subst hok
  refine ⟨⟨h.site, h.bond, sC, sT⟩, fun i j r hi hj hr => ?_, M, qr H, s, eM, hs, fun i j hi hj => by rw [vC i j hi hj, vY i j hi hj]⟩
  simp only [h.bond] at hi hj
  have hr : r < D * D := by rw [size] at hr; simp only [sT] at hr; exact hr
  simp only
  rw [vT i j r hi hj hr, vT j i r hj hi hr, vy i j r hi hj hr, vy j i r hj hi hr]
  simp only [star_div₀, star_mul', star_add, star_star, RCLike.star_def, RCLike.conj_ofReal, map_one, map_ofNat]
  rw [RCLike.conj_conj]
  ring
end

section
variable {chi D p : Nat} {a : Tensor ℝ} {env env' : Env ℝ} {inf : Bool} {qr : Tensor ℝ → Tensor ℝ} {eig : Tensor ℝ → Nat → List ℝ × Tensor ℝ}

/-- For real tensors a move by QR decomposition keeps the environment Hermitian (that is, symmetric). -/
theorem C48_qr_real_partial (h : Spec.Fits chi D p a env) (hc : 0 < chi) (hD : 0 < D) (hq : Spec.IsQr qr) (hh : Spec.Hermitian env) (ha : Spec.Reflected D p a)
    (hok : moveQr inf qr a env = .ok env') : Spec.Fits chi D p a env' ∧ Spec.Hermitian env' := by
  obtain ⟨hf, hT, M, P, s, eM, hs, hC⟩ := moveQr_ok h hc hD hq hok
  refine ⟨hf, ?_, hT⟩
  intro i j hi hj
  rw [hf.bond] at hi hj
  rw [hC i j hi hj, hC j i hj hi, star_trivial]
  congr 1
  rw [Finset.sum_comm]
  refine Finset.sum_congr rfl (fun y hy => Finset.sum_congr rfl (fun x hx => ?_))
  rw [C48_corner h hh ha eM x y (Finset.mem_range.1 hx) (Finset.mem_range.1 hy), star_trivial]
  ring

/-- For real tensors `run` keeps the environment Hermitian, by eigendecomposition or QR, for every number of iterations. -/
theorem C48_run_real_partial {H : Type} (h : Spec.Fits chi D p a env) (hc : 0 < chi) (hD : 0 < D) (he : Spec.EigShape eig) (hq : Spec.IsQr qr) (hh : Spec.Hermitian env) (ha : Spec.Reflected D p a)
    (init n : Nat) (conv : Option (Env ℝ → Option H → Bool × H)) (r : Env ℝ × Option H) (hr : run inf eig (some qr) init n a conv env = .ok r) :
    Spec.Fits chi D p a r.1 ∧ Spec.Hermitian r.1 := by
  refine loop_inv _ conv (fun e => Spec.Fits chi D p a e ∧ Spec.Hermitian e) ?_ n 0 env none r ⟨h, hh⟩ hr
  intro i e e' h1 h2
  simp only at h2
  split at h2
  · exact C48_qr_real_partial h1.1 hc hD hq h1.2 ha h2
  · exact ⟨(C48_move_partial h1.1 hD he (Or.inl h2)).1, (C48_move_partial h1.1 hD he (Or.inl h2)).2.1⟩
end

theorem vecNorm_zero {inf : Bool} {x : Tensor K} (h : vecNorm inf x = 0) : ∀ idx, InB x.shape idx → x.val idx = 0 := by
  intro idx hidx
  have hm : ‖x.val idx‖ ∈ (indices x.shape).map (fun i => ‖x.val i‖) := List.mem_map_of_mem (f := fun i => ‖x.val i‖) (mem_indices.2 hidx)
  unfold vecNorm at h
  simp only at h
  split at h
  · have h1 := le_foldr_max hm
    rw [h] at h1
    exact norm_eq_zero.1 (le_antisymm h1 (norm_nonneg _))
  · rw [Real.sqrt_eq_zero (List.sum_nonneg (by simp only [List.mem_map]; rintro _ ⟨i, -, rfl⟩; positivity))] at h
    have h1 : ‖x.val idx‖ ^ 2 ≤ _ := List.single_le_sum (by simp only [List.mem_map]; rintro _ ⟨i, -, rfl⟩; positivity) _ (List.mem_map_of_mem (f := fun r : ℝ => r ^ 2) hm)
    rw [h] at h1
    have h2 : ‖x.val idx‖ = 0 := by nlinarith [norm_nonneg (x.val idx)]
    exact norm_eq_zero.1 h2

/-! ### Complex tensors: the transpose is taken without conjugation -/

/-- The trivial site. -/
def qrSite : Tensor ℂ := ⟨[1, 1, 1, 1, 1], fun _ => 1⟩

/-- Corner: the identity; half-row tensor: `[[1, i], [-i, 0]]`. -/
noncomputable def qrEnv : Env ℂ := ⟨2, ⟨[2, 2], fun idx => if idx.getD 0 0 = idx.getD 1 0 then 1 else 0⟩,
  ⟨[2, 2, 1], fun idx => if idx.getD 0 0 = 0 then (if idx.getD 1 0 = 0 then 1 else Complex.I) else (if idx.getD 1 0 = 0 then -Complex.I else 0)⟩⟩

theorem qrFits : Spec.Fits 2 1 1 qrSite qrEnv := ⟨rfl, rfl, rfl, rfl⟩

theorem qrHermitian : Spec.Hermitian qrEnv := by
  refine ⟨fun i j hi hj => ?_, fun i j s hi hj hs => ?_⟩
  · simp only [qrEnv, List.getD_cons_zero, List.getD_cons_succ]
    by_cases h : i = j
    · subst h; simp
    · rw [if_neg h, if_neg (Ne.symm h)]; simp
  · have hi : i < 2 := hi
    have hj : j < 2 := hj
    obtain rfl | rfl : i = 0 ∨ i = 1 := by omega
    all_goals obtain rfl | rfl : j = 0 ∨ j = 1 := by omega
    all_goals simp [qrEnv]

theorem qrReflected : Spec.Reflected 1 1 qrSite := fun _ _ _ _ _ _ _ _ _ _ => by simp [qrSite]

/-- **C48** is violated with `projector_svd_method = 'QR'`: whichever QR decomposition is used, one move takes this Hermitian environment, of a reflection symmetric site,
to one whose corner is not Hermitian. -/
theorem C48_violated (inf : Bool) (qr : Tensor ℂ → Tensor ℂ) (hq : Spec.IsQr qr) :
    Spec.Fits 2 1 1 qrSite qrEnv ∧ Spec.Hermitian qrEnv ∧ Spec.Reflected 1 1 qrSite ∧ ∃ env', moveQr inf qr qrSite qrEnv = .ok env' ∧ ¬ Spec.Hermitian env' := by
  refine ⟨qrFits, qrHermitian, qrReflected, ?_⟩
  obtain ⟨H, M, Y, N, y, eM, sH, vH, sY, vY, hN, sy, vy, e⟩ := moveQr_eq (inf := inf) qrFits (by decide) (by decide) hq
  obtain ⟨A, M0, M', eA, -, -, eM', hsame, dM, sM⟩ := corner_both qrFits
  rw [eM] at eM'
  cases eM'
  obtain ⟨sQ, ho, R, hR, hQR⟩ := hq H 2 2 sH (by decide)
  obtain ⟨Q, hQd⟩ : ∃ Q : Nat → Nat → ℂ, Q = fun x j => (qr H).val [x, j] := ⟨_, rfl⟩
  have hQ : ∀ x j, (qr H).val [x, j] = Q x j := fun x j => by rw [hQd]
  -- the half-enlarged corner
  have H00 : H.val [0, 0] = 1 := by
    have := vH 0 0 0 (by decide) (by decide) (by decide)
    simpa [qrEnv, Finset.sum_range_succ] using this
  have H10 : H.val [1, 0] = Complex.I := by
    have := vH 1 0 0 (by decide) (by decide) (by decide)
    simpa [qrEnv, Finset.sum_range_succ] using this
  -- the enlarged corner
  have hM : ∀ x y, x < 2 → y < 2 → M.val [x, y] = ∑ s ∈ Finset.range 2, ∑ t ∈ Finset.range 2, qrEnv.C.val [s, t] * qrEnv.T.val [y, t, 0] * qrEnv.T.val [s, x, 0] := by
    intro x y hx hy
    rw [← hsame.2 [x, y] (by rw [sM]; exact inB2 hx hy)]
    have hv := dM.val (fun l => if l = 3 then x else if l = 2 then y else 0) (by
      intro l hl
      have hl : l ∈ [3, 8, 9, 2, 10, 11] := hl
      simp only [List.mem_cons, List.not_mem_nil, or_false] at hl
      rcases hl with rfl | rfl | rfl | rfl | rfl | rfl <;> simp [Spec.dim, hx, hy])
    have ei : List.map (gidx (Spec.dim 2 1 1) (fun l => if l = 3 then x else if l = 2 then y else 0)) [[3, 8, 9], [2, 10, 11]] = [x, y] := by
      simp [gidx, ravel, Spec.dim]
    refine (congrArg M0.val ei.symm).trans (hv.trans ?_)
    simp [sumOver, Spec.dim, Spec.corner, Corner.Spec.fused, Corner.Spec.site, qrSite]
  have M00 : M.val [0, 0] = 2 := by
    rw [hM 0 0 (by decide) (by decide)]; simp [qrEnv, Finset.sum_range_succ]; norm_num
  have M01 : M.val [0, 1] = -Complex.I := by
    rw [hM 0 1 (by decide) (by decide)]; simp [qrEnv, Finset.sum_range_succ]
  have M10 : M.val [1, 0] = Complex.I := by
    rw [hM 1 0 (by decide) (by decide)]; simp [qrEnv, Finset.sum_range_succ]
  have M11 : M.val [1, 1] = 1 := by
    rw [hM 1 1 (by decide) (by decide)]; simp [qrEnv, Finset.sum_range_succ]
  have hI : Complex.I * Complex.I = -1 := Complex.I_mul_I
  -- the columns of the projector
  have q00 : Q 0 0 * R 0 0 = 1 := by
    have := hQR 0 0 (by decide) (by decide)
    rw [H00, Finset.sum_range_succ, Finset.sum_range_one, hR 1 0 (by decide), mul_zero, add_zero, hQ] at this
    exact this.symm
  have q10 : Q 1 0 * R 0 0 = Complex.I := by
    have := hQR 1 0 (by decide) (by decide)
    rw [H10, Finset.sum_range_succ, Finset.sum_range_one, hR 1 0 (by decide), mul_zero, add_zero, hQ] at this
    exact this.symm
  have hr0 : R 0 0 ≠ 0 := fun h => by rw [h, mul_zero] at q00; exact zero_ne_one q00
  have hq0 : Q 0 0 ≠ 0 := fun h => by rw [h, zero_mul] at q00; exact zero_ne_one q00
  have q10' : Q 1 0 = Complex.I * Q 0 0 := by
    apply mul_right_cancel₀ hr0
    rw [q10, mul_assoc, q00, mul_one]
  have n0 : star (Q 0 0) * Q 0 0 = 1 / 2 := by
    have := ho 0 0 (by decide) (by decide)
    rw [if_pos rfl, Finset.sum_range_succ, Finset.sum_range_one, hQ, hQ, q10', star_mul'] at this
    have hs : star Complex.I = -Complex.I := by simp
    rw [hs] at this
    linear_combination (1 / 2) * this - (1 / 2) * star (Q 0 0) * Q 0 0 * (-1 * hI)
  have o01 : Q 0 1 = Complex.I * Q 1 1 := by
    have := ho 0 1 (by decide) (by decide)
    rw [if_neg (by decide), Finset.sum_range_succ, Finset.sum_range_one, hQ, hQ, hQ, hQ, q10', star_mul'] at this
    have hs : star Complex.I = -Complex.I := by simp
    rw [hs] at this
    have h0 : star (Q 0 0) ≠ 0 := star_ne_zero.2 hq0
    apply mul_left_cancel₀ h0
    linear_combination this
  have hq1 : Q 1 1 ≠ 0 := by
    intro h0
    have := ho 1 1 (by decide) (by decide)
    rw [if_pos rfl, Finset.sum_range_succ, Finset.sum_range_one, hQ, hQ, o01, h0] at this
    simp at this
  -- the new corner
  have Y00 : Y.val [0, 0] = Q 0 0 * Q 0 0 := by
    rw [vY 0 0 (by decide) (by decide)]
    simp only [Nat.reduceMul, Finset.sum_range_succ, Finset.sum_range_zero, zero_add, hQ, M00, M01, M10, M11, q10']
    linear_combination Q 0 0 * Q 0 0 * hI
  have Y01 : Y.val [0, 1] = Complex.I * Q 0 0 * Q 1 1 := by
    rw [vY 0 1 (by decide) (by decide)]
    simp only [Nat.reduceMul, Finset.sum_range_succ, Finset.sum_range_zero, zero_add, hQ, M00, M01, M10, M11, q10', o01]
    linear_combination Complex.I * Q 0 0 * Q 1 1 * hI
  have Y10 : Y.val [1, 0] = 5 * (Complex.I * Q 0 0 * Q 1 1) := by
    rw [vY 1 0 (by decide) (by decide)]
    simp only [Nat.reduceMul, Finset.sum_range_succ, Finset.sum_range_zero, zero_add, hQ, M00, M01, M10, M11, q10', o01]
    linear_combination -Complex.I * Q 0 0 * Q 1 1 * hI
  -- the new half-row tensor does not vanish
  have y00 : y.val [0, 0, 0] = 3 / 2 := by
    rw [vy 0 0 0 (by decide) (by decide) (by decide)]
    have hv := hN.2 (fun _ => 0) (by intro g hg l hl; simp only [List.mem_cons, List.not_mem_nil, or_false] at hg; rcases hg with rfl | rfl | rfl <;> simp only [List.mem_cons, List.not_mem_nil, or_false] at hl <;> rcases hl with rfl | rfl <;> decide)
    have hv' : N.val [0, 0, 0] = 3 / 2 := by
      refine Eq.trans (by rfl) (hv.trans ?_)
      simp [sumOver, Spec.dim, Spec.half, Corner.Spec.fused, Corner.Spec.site, qrSite, ravel, Finset.sum_range_succ, hQ, qrEnv, q10']
      have n0' : (starRingEnd ℂ) (Q 0 0) * Q 0 0 = 1 / 2 := n0
      linear_combination 3 * n0' - 2 * (starRingEnd ℂ) (Q 0 0) * Q 0 0 * hI
    rw [hv']
    norm_num
  have hY0 : Y.val [0, 0] ≠ 0 := by rw [Y00]; exact mul_ne_zero hq0 hq0
  have hy0 : vecNorm inf y ≠ 0 := fun h0 => by
    have := vecNorm_zero h0 [0, 0, 0] (by rw [sy]; exact inB3 (by decide) (by decide) (by decide))
    rw [y00] at this
    norm_num at this
  obtain ⟨C', eC⟩ : ∃ C', normalizeC Y = .ok C' := by
    unfold normalizeC
    rw [if_neg (by rw [sY]; exact fun h => h (inB2 (by decide) (by decide))), if_neg (by simpa using hY0)]
    exact ⟨_, rfl⟩
  obtain ⟨T', eT⟩ : ∃ T', Ctm.normalize inf y = .ok T' := by
    unfold Ctm.normalize
    rw [if_neg hy0]
    exact ⟨_, rfl⟩
  refine ⟨⟨2, C', T'⟩, by rw [e, eC, eT]; rfl, fun hcon => ?_⟩
  obtain ⟨-, s, hs, -, vC⟩ := normalizeC_ok sY eC
  have h1 := hcon.1 0 1 (show 0 < 2 by decide) (show 1 < 2 by decide)
  simp only at h1
  rw [vC 0 1 (by decide) (by decide), vC 1 0 (by decide) (by decide), Y01, Y10] at h1
  have h2 := congrArg norm h1
  rw [norm_star, norm_div, norm_div, norm_mul 5, RCLike.norm_ofReal] at h2
  have hpos : 0 < ‖Complex.I * Q 0 0 * Q 1 1‖ / |s| := by
    apply div_pos
    · exact norm_pos_iff.2 (mul_ne_zero (mul_ne_zero Complex.I_ne_zero hq0) hq1)
    · exact abs_pos.2 hs.ne'
  have h5 : ‖(5 : ℂ)‖ = 5 := by simp
  rw [h5, mul_div_assoc] at h2
  linarith

end Verif.C4v
