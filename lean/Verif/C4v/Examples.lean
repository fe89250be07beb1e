import Verif.C4v.Qr
import Mathlib.Analysis.InnerProductSpace.GramSchmidtOrtho
/-
Instances that meet the hypotheses of the theorems on C4v moves.
-/
namespace Verif.C4v
open Tensor Ctm
set_option linter.unusedSimpArgs false
variable {K : Type} [RCLike K]

/-- Every matrix with at least as many rows as columns has a QR decomposition. -/
theorem exists_qr_of (M : Tensor K) (m n : Nat) (hn : n ≤ m) :
    ∃ Q : Nat → Nat → K, (∀ i j, i < n → j < n → ∑ x ∈ Finset.range m, star (Q x i) * Q x j = if i = j then 1 else 0) ∧
      ∃ R : Nat → Nat → K, (∀ i j, j < i → R i j = 0) ∧ ∀ x j, x < m → j < n → M.val [x, j] = ∑ i ∈ Finset.range n, Q x i * R i j := by
  classical
  let f : Fin m → EuclideanSpace K (Fin m) := fun j => WithLp.toLp 2 (fun x => M.val [x.1, j.1])
  have hcard : Module.finrank K (EuclideanSpace K (Fin m)) = Fintype.card (Fin m) := by simp
  let b := InnerProductSpace.gramSchmidtOrthonormalBasis hcard f
  refine ⟨fun x i => if h : x < m ∧ i < m then b ⟨i, h.2⟩ ⟨x, h.1⟩ else 0, fun i j hi hj => ?_,
    fun i j => if h : i < m ∧ j < m ∧ i ≤ j then inner K (b ⟨i, h.1⟩) (f ⟨j, h.2.1⟩) else 0, fun i j hij => ?_, fun x j hx hj => ?_⟩
  · have ho := orthonormal_iff_ite.1 b.orthonormal ⟨i, by omega⟩ ⟨j, by omega⟩
    rw [PiLp.inner_apply] at ho
    have e : (if (⟨i, by omega⟩ : Fin m) = ⟨j, by omega⟩ then (1 : K) else 0) = if i = j then 1 else 0 := by simp [Fin.ext_iff]
    rw [e] at ho
    rw [← ho, Finset.sum_range]
    refine Finset.sum_congr rfl (fun x _ => ?_)
    have hx : ∀ i, i < n → x.1 < m ∧ i < m := fun i hi => ⟨x.2, by omega⟩
    beta_reduce
    rw [dif_pos (hx i hi), dif_pos (hx j hj)]
    simp [RCLike.inner_apply, mul_comm]
  · beta_reduce
    rw [dif_neg (by omega)]
  · have hs := congrArg (fun v : EuclideanSpace K (Fin m) => v ⟨x, hx⟩) (b.sum_repr (f ⟨j, by omega⟩))
    simp only [OrthonormalBasis.repr_apply_apply, WithLp.ofLp_sum, Finset.sum_apply, WithLp.ofLp_smul, Pi.smul_apply, smul_eq_mul] at hs
    have h1 : M.val [x, j] = f ⟨j, by omega⟩ ⟨x, hx⟩ := rfl
    have h2 : ∀ g : Nat → K, (∀ i, n ≤ i → i < m → g i = 0) → ∑ i ∈ Finset.range n, g i = ∑ i ∈ Finset.range m, g i := by
      intro g hg
      refine Finset.sum_subset (fun i hi => by simp at hi ⊢; omega) (fun i hi hni => hg i (by simpa using hni) (by simpa using hi))
    rw [h1, ← hs, h2 _ (fun i hi him => by beta_reduce; rw [dif_neg (c := i < m ∧ j < m ∧ i ≤ j) (by omega), mul_zero]), Finset.sum_range]
    refine Finset.sum_congr rfl (fun i _ => ?_)
    beta_reduce
    rw [dif_pos (c := x < m ∧ i.1 < m) ⟨hx, i.2⟩]
    by_cases hij : i.1 ≤ j
    · rw [dif_pos ⟨i.2, by omega, hij⟩]; exact mul_comm _ _
    · have h0 : inner K (b i) (f ⟨j, by omega⟩) = 0 :=
        InnerProductSpace.gramSchmidtOrthonormalBasis_inv_triangular hcard f (show (⟨j, by omega⟩ : Fin m) < i from Fin.lt_def.2 (Nat.lt_of_not_le hij))
      rw [dif_neg (by omega), h0]; simp

/-- A QR backend with the properties asked for exists, for real and for complex tensors. -/
theorem exists_qr : ∃ qr : Tensor K → Tensor K, Spec.IsQr qr := by
  classical
  have h : ∀ M : Tensor K, ∃ Q : Tensor K, ∀ m n, M.shape = [m, n] → n ≤ m → Q.shape = [m, n] ∧
      (∀ i j, i < n → j < n → ∑ x ∈ Finset.range m, star (Q.val [x, i]) * Q.val [x, j] = if i = j then 1 else 0) ∧
      ∃ R : Nat → Nat → K, (∀ i j, j < i → R i j = 0) ∧ ∀ x j, x < m → j < n → M.val [x, j] = ∑ i ∈ Finset.range n, Q.val [x, i] * R i j := by
    intro M
    by_cases hM : ∃ m n, M.shape = [m, n] ∧ n ≤ m
    · obtain ⟨m, n, hs, hn⟩ := hM
      obtain ⟨Q, h1, h2⟩ := exists_qr_of M m n hn
      refine ⟨⟨[m, n], fun idx => Q (idx.getD 0 0) (idx.getD 1 0)⟩, fun m' n' hs' hn' => ?_⟩
      rw [hs] at hs'
      simp only [List.cons.injEq, and_true] at hs'
      obtain ⟨rfl, rfl⟩ := hs'
      exact ⟨rfl, h1, h2⟩
    · exact ⟨M, fun m n hs hn => absurd ⟨m, n, hs, hn⟩ hM⟩
  choose qr hqr using h
  exact ⟨qr, fun M m n hs hn => hqr M m n hs hn⟩

/-- So the violation is not vacuous. -/
example : ∃ qr : Tensor ℂ → Tensor ℂ, ∃ env', moveQr true qr qrSite qrEnv = .ok env' ∧ ¬ Spec.Hermitian env' := by
  obtain ⟨qr, hq⟩ := exists_qr (K := ℂ)
  exact ⟨qr, (C48_violated true qr hq).2.2.2⟩

/-! ### A move that succeeds, with a backend that returns eigenvectors -/

/-- Corner: the identity; half-row tensor: `diag(1, 1/2)`. -/
noncomputable def exEnv : Env K := ⟨2, ⟨[2, 2], fun idx => if idx.getD 0 0 = idx.getD 1 0 then 1 else 0⟩,
  ⟨[2, 2, 1], fun idx => if idx.getD 0 0 = idx.getD 1 0 then (if idx.getD 0 0 = 0 then 1 else 1 / 2) else 0⟩⟩

def exSite : Tensor K := ⟨[1, 1, 1, 1, 1], fun _ => 1⟩

/-- Diagonal matrices: the diagonal and the unit vectors. -/
noncomputable def exEig (M : Tensor K) (chi : Nat) : List ℝ × Tensor K :=
  ((List.range chi).map (fun i => RCLike.re (M.val [i, i])), ⟨[M.shape.getD 0 0, chi], fun idx => if idx.getD 0 0 = idx.getD 1 0 then 1 else 0⟩)

theorem exEigShape : Spec.EigShape (exEig : Tensor K → Nat → List ℝ × Tensor K) := by
  intro M n chi hM _
  exact ⟨by simp [exEig], by simp [exEig, hM]⟩

theorem exFits : Spec.Fits 2 1 1 (exSite : Tensor K) exEnv := ⟨rfl, rfl, rfl, rfl⟩

theorem exHermitian : Spec.Hermitian (exEnv : Env K) := by
  refine ⟨fun i j hi hj => ?_, fun i j s hi hj hs => ?_⟩
  · have hi : i < 2 := hi
    have hj : j < 2 := hj
    obtain rfl | rfl : i = 0 ∨ i = 1 := by omega
    all_goals obtain rfl | rfl : j = 0 ∨ j = 1 := by omega
    all_goals simp [exEnv]
  · have hi : i < 2 := hi
    have hj : j < 2 := hj
    obtain rfl | rfl : i = 0 ∨ i = 1 := by omega
    all_goals obtain rfl | rfl : j = 0 ∨ j = 1 := by omega
    all_goals simp [exEnv]

theorem exReflected : Spec.Reflected 1 1 (exSite : Tensor K) := fun _ _ _ _ _ _ _ _ _ _ => by simp [exSite]

theorem exCorner {M : Tensor K} (hM : c2x2Sl exSite (exEnv : Env K).C exEnv.T = some M) :
    M.shape = [2, 2] ∧ M.val [0, 0] = 1 ∧ M.val [0, 1] = 0 ∧ M.val [1, 0] = 0 ∧ M.val [1, 1] = 1 / 4 := by
  obtain ⟨A, M0, M', eA, -, -, eM', hsame, dM, sM⟩ := corner_both (K := K) exFits
  rw [hM] at eM'
  cases eM'
  have hv : ∀ x y, x < 2 → y < 2 → M.val [x, y] = ∑ s ∈ Finset.range 2, ∑ t ∈ Finset.range 2, (exEnv : Env K).C.val [s, t] * exEnv.T.val [y, t, 0] * exEnv.T.val [s, x, 0] := by
    intro x y hx hy
    rw [← hsame.2 [x, y] (by rw [sM]; exact inB2 hx hy)]
    have hv := dM.val (fun l => if l = 3 then x else if l = 2 then y else 0) (by
      intro l hl
      have hl : l ∈ [3, 8, 9, 2, 10, 11] := hl
      simp only [List.mem_cons, List.not_mem_nil, or_false] at hl
      rcases hl with rfl | rfl | rfl | rfl | rfl | rfl <;> simp [Spec.dim, hx, hy])
    have ei : List.map (gidx (Spec.dim 2 1 1) (fun l => if l = 3 then x else if l = 2 then y else 0)) [[3, 8, 9], [2, 10, 11]] = [x, y] := by
      simp [gidx, ravel, Spec.dim]
    refine (congrArg M0.val ei.symm).trans (hv.trans ?_)
    simp [sumOver, Spec.dim, Spec.corner, Corner.Spec.fused, Corner.Spec.site, exSite]
  refine ⟨by rw [← hsame.1, sM], ?_, ?_, ?_, ?_⟩
  · rw [hv 0 0 (by decide) (by decide)]; simp [exEnv, Finset.sum_range_succ]
  · rw [hv 0 1 (by decide) (by decide)]; simp [exEnv, Finset.sum_range_succ]
  · rw [hv 1 0 (by decide) (by decide)]; simp [exEnv, Finset.sum_range_succ]
  · rw [hv 1 1 (by decide) (by decide)]; simp [exEnv, Finset.sum_range_succ]; norm_num

/-- The backend returns eigenvectors of the enlarged corner: the hypothesis of the second part of `C71_move`. -/
theorem exIsEig {M : Tensor K} (hM : c2x2Sl exSite (exEnv : Env K).C exEnv.T = some M) :
    Spec.IsEig M (exEig (canon M) 2).2 (exEig (canon M) 2).1 2 2 := by
  obtain ⟨sM, m00, m01, m10, m11⟩ := exCorner hM
  have c : ∀ i j, i < 2 → j < 2 → (canon M).val [i, j] = M.val [i, j] := fun i j hi hj => ((canon_same M).2 _ (by rw [sM]; exact inB2 hi hj)).symm
  refine ⟨fun x i hx hi => ?_, fun i j hi hj hij => ?_, fun i hi _ => ?_⟩
  · obtain rfl | rfl : x = 0 ∨ x = 1 := by omega
    all_goals obtain rfl | rfl : i = 0 ∨ i = 1 := by omega
    all_goals simp [exEig, Finset.sum_range_succ, m00, m01, m10, c, List.range_succ]
    have hr : (1 / 4 : K) = ((1 / 4 : ℝ) : K) := by rw [RCLike.ofReal_div, RCLike.ofReal_one, RCLike.ofReal_ofNat]
    rw [m11, hr, RCLike.ofReal_re]
  · obtain rfl | rfl : i = 0 ∨ i = 1 := by omega
    all_goals obtain rfl | rfl : j = 0 ∨ j = 1 := by omega
    all_goals simp [exEig, Finset.sum_range_succ] at hij ⊢
  · obtain rfl | rfl : i = 0 ∨ i = 1 := by omega
    all_goals simp [exEig, Finset.sum_range_succ]

/-- The move succeeds. -/
theorem exMove (inf : Bool) : ∃ env', moveSl inf exEig (exSite : Tensor K) exEnv = .ok env' := by
  obtain ⟨A, M0, M, eA, -, -, eM, hsame, -, sM⟩ := corner_both (K := K) exFits
  obtain ⟨sM', m00, -, -, -⟩ := exCorner eM
  obtain ⟨lD, sP⟩ := exEigShape (canon M) 2 2 sM' (by decide)
  obtain ⟨Pv, hv⟩ := view_P (chi := 2) (D := 1) sP
  obtain ⟨N, N', eN, eN', hN, dN, sN⟩ := half_both exFits eA sP hv
  obtain ⟨y, ey, sy, vy⟩ := symm_val (hN.1.symm.trans sN)
  have hC : ∃ C', normalizeC (diag (exEig (canon M) 2).1 : Tensor K) = .ok C' := by
    unfold normalizeC
    rw [if_neg (by simp only [diag, lD]; exact fun h => h (inB2 (by decide) (by decide))), if_neg (by
      rw [diag_val]
      have c00 : (canon M).val [0, 0] = 1 := ((canon_same M).2 _ (by rw [sM']; exact inB2 (by decide) (by decide))).symm.trans m00
      simp [exEig, c00, List.range_succ])]
    exact ⟨_, rfl⟩
  have hT : ∃ T', Ctm.normalize inf y = .ok T' := by
    unfold Ctm.normalize
    rw [if_neg]
    · exact ⟨_, rfl⟩
    · intro h0
      have := vecNorm_zero h0 [0, 0, 0] (by rw [sy]; exact inB3 (by decide) (by decide) (by decide))
      rw [vy, ← hN.2 _ (by rw [sN]; exact inB3 (by decide) (by decide) (by decide))] at this
      have hv' := dN.val (fun _ => 0) (by
        intro l hl
        have hl : l ∈ [14, 15, 10, 11] := hl
        simp only [List.mem_cons, List.not_mem_nil, or_false] at hl
        rcases hl with rfl | rfl | rfl | rfl <;> decide)
      have hv2 : N.val [0, 0, 0] = 1 := by
        refine Eq.trans (by rfl) (hv'.trans ?_)
        simp [sumOver, Spec.dim, Spec.half, Corner.Spec.fused, Corner.Spec.site, exSite, ravel, Finset.sum_range_succ, exEnv, exEig]
        rfl
      rw [hv2] at this
      norm_num at this
  obtain ⟨C', eC⟩ := hC
  obtain ⟨T', eT⟩ := hT
  have hT2 : (exEnv : Env K).T.size 2 = 1 * 1 := rfl
  have hb : (exEnv : Env K).chi = 2 := rfl
  refine ⟨⟨2, C', T'⟩, ?_⟩
  unfold moveSl
  simp only [eM, lift_some, hb, hT2, hv, eN', ey, eC, eT]
  rfl

/-- Instances of C48, C49 and C71. -/
example : ∃ env', moveSl true exEig (exSite : Tensor ℂ) exEnv = .ok env' ∧ moveDl true exEig (exSite : Tensor ℂ) exEnv = .ok env' ∧
    Spec.Hermitian env' ∧ Spec.Diagonal env' ∧ ‖env'.C.val [0, 0]‖ = 1 := by
  obtain ⟨env', h⟩ := exMove (K := ℂ) true
  obtain ⟨A, M0, M, eA, -, -, eM, -⟩ := corner_both (K := ℂ) exFits
  have h48 := C48_move_partial exFits (by decide) exEigShape (Or.inl h)
  obtain ⟨s, t, -, -, -, -, -, -, hn, -⟩ := C71_move exFits (by decide) exEigShape eM h
  exact ⟨env', h, by rw [← C49_move exFits (by decide) exEigShape]; exact h, h48.2.1, h48.2.2, hn⟩

/-- One iteration of `run` succeeds, and the real QR move has instances. -/
example : ∃ r, run (H := Unit) false exEig none 0 1 (exSite : Tensor ℝ) none exEnv = .ok r ∧ Spec.Hermitian r.1 := by
  obtain ⟨env', h⟩ := exMove (K := ℝ) false
  have hr : run (H := Unit) false exEig none 0 1 (exSite : Tensor ℝ) none exEnv = .ok (env', none) := by
    simp only [run, loop, h]; rfl
  exact ⟨_, hr, (C48_run_partial exFits exHermitian (by decide) exEigShape 0 1 none _ (Or.inl hr)).2.1⟩

example {env' : Env ℝ} {qr : Tensor ℝ → Tensor ℝ} (hq : Spec.IsQr qr) (h : moveQr false qr exSite exEnv = .ok env') : Spec.Hermitian env' :=
  (C48_qr_real_partial exFits (by decide) (by decide) hq exHermitian exReflected h).2

end Verif.C4v
