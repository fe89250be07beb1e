import Verif.C4v.Lemmas
/-
Properties C48 (Hermitian environments), C49 (equal contraction modes) and C71 (what a C4v move computes).
-/
namespace Verif.C4v
open Tensor Ctm
set_option linter.unusedSimpArgs false
variable {K : Type} [RCLike K]

section
variable {chi D p : Nat} {a : Tensor K} {env env' : Env K} {inf : Bool} {eig : Tensor K → Nat → List ℝ × Tensor K}

/-! ### C49 -/

/-- The single-layer enlarged corner equals the double-layer one, and both are the network of corner, two half-row tensors and site. -/
theorem C49_corner (h : Spec.Fits chi D p a env) :
    ∃ A M M', Corner.doubleLayer a = some A ∧ c2x2Dl A env.C env.T = some M ∧ c2x2Sl a env.C env.T = some M' ∧ Same M M' ∧
      Corner.Spec.IsNetwork (Spec.dim chi D p) M [[3, 8, 9], [2, 10, 11]] [0, 1, 4, 5, 6, 7, 12] (Spec.corner (Spec.dim chi D p) env.C env.T a) := by
  obtain ⟨A, M, M', e1, -, e2, e3, hs, d, -⟩ := corner_both h
  exact ⟨A, M, M', e1, e2, e3, hs, Corner.isNetwork d⟩

theorem chi_le (hD : 0 < D) : chi ≤ chi * (D * D) := Nat.le_mul_of_pos_right _ (Nat.mul_pos hD hD)

/-- The single-layer move and the double-layer move give the same result (environment or exception). -/
theorem C49_move (h : Spec.Fits chi D p a env) (hD : 0 < D) (he : Spec.EigShape eig) : moveSl inf eig a env = moveDl inf eig a env := by
  obtain ⟨A, M, M', eA, eL, eM, eM', hs, -, sM⟩ := corner_both h
  have hc : canon M' = canon M := (canon_eq hs).symm
  obtain ⟨-, sP⟩ := he (canon M) (chi * (D * D)) chi sM (chi_le hD)
  have hT2 : env.T.size 2 = D * D := by rw [size, h.half]; rfl
  obtain ⟨Pv, hv⟩ := view_P sP
  obtain ⟨N, N', eN, eN', hN, -, sN⟩ := half_both h eA sP hv
  obtain ⟨y, y', ey, ey', hy⟩ := symm_same sN hN
  unfold moveSl moveDl
  simp only [eL, eM, eM', lift_some, hc, h.bond, hT2, hv, eN, eN', ey, ey']
  rw [normalize_same inf hy]

/-! ### C71 -/

/-- A move replaces the corner by the diagonal matrix of the eigenvalues of the enlarged corner, which is the enlarged corner between the projector and its conjugate
if the backend returns eigenvectors, divided by the magnitude of the first one; and the half-row tensor by the Hermitian part of the network of half-row tensor, site,
projector and conjugate projector, divided by its norm. -/
theorem C71_move (h : Spec.Fits chi D p a env) (hD : 0 < D) (he : Spec.EigShape eig) {M : Tensor K} (hM : c2x2Sl a env.C env.T = some M)
    (hok : moveSl inf eig a env = .ok env') :
    ∃ s t : ℝ, 0 < s ∧ 0 < t ∧ Spec.Fits chi D p a env' ∧
      (∀ i j, i < chi → j < chi → env'.C.val [i, j] = (if i = j then (((eig (canon M) chi).1.getD i 0 : ℝ) : K) else 0) / (s : K)) ∧
      (Spec.IsEig M (eig (canon M) chi).2 (eig (canon M) chi).1 (chi * (D * D)) chi → ∀ i j, i < chi → j < chi → env'.C.val [i, j] =
        (∑ x ∈ Finset.range (chi * (D * D)), ∑ y ∈ Finset.range (chi * (D * D)), star ((eig (canon M) chi).2.val [x, i]) * M.val [x, y] * (eig (canon M) chi).2.val [y, j]) / (s : K)) ∧
      (∀ N : Tensor K, Corner.Spec.IsNetwork (Spec.dim chi D p) N [[14], [15], [10, 11]] [0, 3, 4, 5, 6, 7, 8, 9, 12] (Spec.half (Spec.dim chi D p) (eig (canon M) chi).2 env.T a) →
        ∀ i j r, i < chi → j < chi → r < D * D → env'.T.val [i, j, r] = (1 / 2 : K) * (N.val [i, j, r] + star (N.val [j, i, r])) / (t : K)) ∧
      ‖env'.C.val [0, 0]‖ = 1 ∧ (inf = true → (∀ i j r, i < chi → j < chi → r < D * D → ‖env'.T.val [i, j, r]‖ ≤ 1)) := by
  obtain ⟨A, M0, M', eA, -, -, eM', -, -, sM⟩ := corner_both h
  rw [hM] at eM'
  cases eM'
  have sM : M.shape = [chi * (D * D), chi * (D * D)] := by
    obtain ⟨A, M0, M', eA, -, -, eM', hs, -, sM⟩ := corner_both h
    rw [hM] at eM'
    cases eM'
    rw [← hs.1]; exact sM
  obtain ⟨lD, sP⟩ := he (canon M) (chi * (D * D)) chi sM (chi_le hD)
  have hT2 : env.T.size 2 = D * D := by rw [size, h.half]; rfl
  obtain ⟨Pv, hv⟩ := view_P sP
  obtain ⟨N, N', eN, eN', hN, dN, sN⟩ := half_both h eA sP hv
  obtain ⟨y, ey, sy, vy⟩ := symm_val (hN.1.symm.trans sN)
  unfold moveSl at hok
  simp only [hM, lift_some, h.bond, hT2, hv, eN', ey] at hok
  obtain ⟨C', eC, hok⟩ := bind_ok hok
  obtain ⟨T', eT, hok⟩ := bind_ok hok
  obtain ⟨sC, s, hs, hs', vC⟩ := normalizeC_ok (n := chi) (by simp only [diag, lD]) eC
  obtain ⟨sT, t, ht, ht', vT⟩ := normalize_val sy eT
  simp only [pure, Except.pure, Except.ok.injEq] at hok
  subst hok
  have hchi : 0 < chi := by
    unfold normalizeC at eC
    split at eC
    · cases eC
    rename_i hb
    simp only [not_not, diag, lD] at hb
    obtain ⟨i, j, e, h1, -⟩ := inB2_iff.1 hb
    exact Nat.lt_of_le_of_lt (Nat.zero_le _) h1
  refine ⟨s, t, hs, ht, ⟨h.site, rfl, sC, sT⟩, fun i j hi hj => ?_, fun hE i j hi hj => ?_, fun N2 hN2 i j r hi hj hr => ?_, ?_, fun hinf i j r hi hj hr => ?_⟩
  · rw [vC i j hi hj, diag_val]
  · rw [vC i j hi hj, diag_val]
    congr 1
    have h1 : ∀ x ∈ Finset.range (chi * (D * D)), ∑ y ∈ Finset.range (chi * (D * D)), star ((eig (canon M) chi).2.val [x, i]) * M.val [x, y] * (eig (canon M) chi).2.val [y, j]
        = star ((eig (canon M) chi).2.val [x, i]) * (eig (canon M) chi).2.val [x, j] * (((eig (canon M) chi).1.getD j 0 : ℝ) : K) := by
      intro x hx
      rw [mul_assoc, ← hE.eig x j (Finset.mem_range.1 hx) hj, Finset.mul_sum]
      exact Finset.sum_congr rfl (fun y _ => by ring)
    rw [Finset.sum_congr rfl h1, ← Finset.sum_mul]
    by_cases hij : i = j
    · subst hij
      rw [if_pos rfl]
      by_cases h0 : (eig (canon M) chi).1.getD i 0 = 0
      · rw [h0]; simp
      · rw [hE.norm i hi h0, one_mul]
    · rw [if_neg hij, hE.orth i j hi hj hij, zero_mul]
  · rw [vT i j r hi hj hr, vy]
    have hv2 : ∀ i j r, i < chi → j < chi → r < D * D → N'.val [i, j, r] = N2.val [i, j, r] := by
      have hsame : Same N N2 := by
        refine ⟨dN.shape.trans hN2.1.symm, fun idx hidx => ?_⟩
        rw [dN.shape] at hidx
        obtain ⟨σ, s1, rfl⟩ := exists_groups _ _ (by decide) idx hidx
        rw [dN.val σ s1]
        exact (hN2.2 σ (fun g hg l hl => s1 l (List.mem_flatten.2 ⟨g, hg, hl⟩))).symm
      intro i j r hi hj hr
      rw [← hN.2 _ (by rw [sN]; exact inB3 hi hj hr), hsame.2 _ (by rw [sN]; exact inB3 hi hj hr)]
    rw [hv2 i j r hi hj hr, hv2 j i r hj hi hr]
  · rw [vC 0 0 hchi hchi, norm_div, RCLike.norm_ofReal, abs_of_pos hs, hs', div_self]
    rw [← hs']; exact hs.ne'
  · obtain ⟨hn, -⟩ := normalize_ok eT
    exact (hn.unitInf hinf).1 _ (by rw [sy]; exact inB3 hi hj hr)

/-! ### C48 -/

/-- Whatever the environment was, after a move by eigendecomposition the corner is real and diagonal and the half-row tensor Hermitian. -/
theorem C48_move_partial (h : Spec.Fits chi D p a env) (hD : 0 < D) (he : Spec.EigShape eig)
    (hok : moveSl inf eig a env = .ok env' ∨ moveDl inf eig a env = .ok env') :
    Spec.Fits chi D p a env' ∧ Spec.Hermitian env' ∧ Spec.Diagonal env' := by
  have hok : moveSl inf eig a env = .ok env' := by
    rcases hok with hok | hok
    · exact hok
    · rw [C49_move h hD he]; exact hok
  obtain ⟨A, M, M', eA, -, -, eM', -, -, -⟩ := corner_both h
  obtain ⟨s, t, -, -, hf, hC, -, hT, -, -⟩ := C71_move h hD he eM' hok
  have hP : ∃ N : Tensor K, Corner.Spec.IsNetwork (Spec.dim chi D p) N [[14], [15], [10, 11]] [0, 3, 4, 5, 6, 7, 8, 9, 12] (Spec.half (Spec.dim chi D p) (eig (canon M') chi).2 env.T a) := by
    have sM : M'.shape = [chi * (D * D), chi * (D * D)] := by
      obtain ⟨A, M0, M2, eA, -, -, eM2, hs, -, sM⟩ := corner_both h
      rw [eM'] at eM2
      cases eM2
      rw [← hs.1]; exact sM
    obtain ⟨lD, sP⟩ := he (canon M') (chi * (D * D)) chi sM (chi_le hD)
    obtain ⟨Pv, hv⟩ := view_P sP
    obtain ⟨N, N', eN, eN', hN, dN, sN⟩ := half_both h eA sP hv
    exact ⟨N, Corner.isNetwork dN⟩
  obtain ⟨N, hN⟩ := hP
  refine ⟨hf, ⟨fun i j hi hj => ?_, fun i j r hi hj hr => ?_⟩, fun i j hi hj hij => ?_⟩
  · rw [hf.bond] at hi hj
    rw [hC i j hi hj, hC j i hj hi]
    by_cases hij : i = j
    · subst hij; simp [star_div₀]
    · rw [if_neg hij, if_neg (Ne.symm hij)]; simp
  · rw [hf.bond] at hi hj
    have hr' : r < D * D := by rw [size, hf.half] at hr; exact hr
    rw [hT N hN i j r hi hj hr', hT N hN j i r hj hi hr']
    simp only [star_div₀, star_mul', star_add, star_star, RCLike.star_def, RCLike.conj_ofReal, map_one, map_ofNat]
    rw [RCLike.conj_conj]
    ring
  · rw [hf.bond] at hi hj
    rw [hC i j hi hj, if_neg hij, zero_div]

/-- What `loop` preserves. -/
theorem loop_inv {E H : Type} (mv : Nat → E → Except Err E) (conv : Option (E → Option H → Bool × H)) (I : E → Prop)
    (hI : ∀ i e e', I e → mv i e = .ok e' → I e') (n i : Nat) (e : E) (h : Option H) (r : E × Option H) (he : I e) (hr : loop mv conv n i e h = .ok r) : I r.1 := by
  induction n generalizing i e h with
  | zero => simp only [loop, Except.ok.injEq] at hr; rw [← hr]; exact he
  | succ n ih =>
    rw [loop] at hr
    obtain ⟨e1, h1, hr⟩ := bind_ok hr
    have he1 := hI i e e1 he h1
    cases conv with
    | none => exact ih _ _ _ he1 hr
    | some f =>
      simp only at hr
      split at hr
      · simp only [pure, Except.pure, Except.ok.injEq] at hr
        rw [← hr]; exact he1
      · exact ih _ _ _ he1 hr

theorem loop_congr {E H : Type} (mv mv' : Nat → E → Except Err E) (conv : Option (E → Option H → Bool × H)) (I : E → Prop)
    (hI : ∀ i e e', I e → mv i e = .ok e' → I e') (hm : ∀ i e, I e → mv i e = mv' i e) (n i : Nat) (e : E) (h : Option H) (he : I e) :
    loop mv conv n i e h = loop mv' conv n i e h := by
  induction n generalizing i e h with
  | zero => rfl
  | succ n ih =>
    rw [loop, loop, ← hm i e he]
    cases h1 : mv i e with
    | error x => rfl
    | ok e1 =>
      have he1 := hI i e e1 he h1
      cases conv with
      | none => exact ih _ _ _ he1
      | some f =>
        simp only [bind, Except.bind]
        split
        · rfl
        · exact ih _ _ _ he1

/-- `run` and `run_dl` keep the environment Hermitian, for every number of iterations and every convergence check; after at least one iteration the corner is diagonal. -/
theorem C48_run_partial {H : Type} (h : Spec.Fits chi D p a env) (hh : Spec.Hermitian env) (hD : 0 < D) (he : Spec.EigShape eig) (init n : Nat)
    (conv : Option (Env K → Option H → Bool × H)) (r : Env K × Option H) (hr : run inf eig none init n a conv env = .ok r ∨ runDl inf eig n a conv env = .ok r) :
    Spec.Fits chi D p a r.1 ∧ Spec.Hermitian r.1 ∧ (0 < n → Spec.Diagonal r.1) := by
  have hinv : ∀ (e e' : Env K), (Spec.Fits chi D p a e ∧ Spec.Hermitian e) → moveSl inf eig a e = .ok e' → Spec.Fits chi D p a e' ∧ Spec.Hermitian e' :=
    fun e e' h1 h2 => ⟨(C48_move_partial h1.1 hD he (Or.inl h2)).1, (C48_move_partial h1.1 hD he (Or.inl h2)).2.1⟩
  have hr : loop (fun _ env => moveSl inf eig a env) conv n 0 env none = .ok r := by
    rcases hr with hr | hr
    · exact hr
    · rw [loop_congr _ (fun _ env => moveDl inf eig a env) conv (fun e => Spec.Fits chi D p a e ∧ Spec.Hermitian e) (fun _ => hinv) (fun i e h1 => C49_move h1.1 hD he) n 0 env none ⟨h, hh⟩]
      exact hr
  have h1 := loop_inv _ conv (fun e => Spec.Fits chi D p a e ∧ Spec.Hermitian e) (fun _ => hinv) n 0 env none r ⟨h, hh⟩ hr
  refine ⟨h1.1, h1.2, fun hn => ?_⟩
  obtain ⟨m, rfl⟩ : ∃ m, n = m + 1 := ⟨n - 1, by omega⟩
  rw [loop] at hr
  obtain ⟨e1, hm, hr⟩ := bind_ok hr
  obtain ⟨f1, f2, f3⟩ := C48_move_partial h hD he (Or.inl hm)
  have hinv2 : ∀ (e e' : Env K), (Spec.Fits chi D p a e ∧ Spec.Diagonal e) → moveSl inf eig a e = .ok e' → Spec.Fits chi D p a e' ∧ Spec.Diagonal e' :=
    fun e e' h1 h2 => ⟨(C48_move_partial h1.1 hD he (Or.inl h2)).1, (C48_move_partial h1.1 hD he (Or.inl h2)).2.2⟩
  cases conv with
  | none => exact (loop_inv _ none (fun e => Spec.Fits chi D p a e ∧ Spec.Diagonal e) (fun _ => hinv2) m 1 e1 none r ⟨f1, f3⟩ hr).2
  | some f =>
    simp only at hr
    split at hr
    · simp only [pure, Except.pure, Except.ok.injEq] at hr
      rw [← hr]; exact f3
    · exact (loop_inv _ (some f) (fun e => Spec.Fits chi D p a e ∧ Spec.Diagonal e) (fun _ => hinv2) m 1 e1 _ r ⟨f1, f3⟩ hr).2

/-- `run` (by eigendecomposition) and `run_dl` return the same environment and history. -/
theorem C49_run {H : Type} (h : Spec.Fits chi D p a env) (hD : 0 < D) (he : Spec.EigShape eig) (init n : Nat) (conv : Option (Env K → Option H → Bool × H)) :
    run inf eig none init n a conv env = runDl inf eig n a conv env :=
  loop_congr _ _ conv (fun e => Spec.Fits chi D p a e) (fun _ e e' h1 h2 => (C48_move_partial h1 hD he (Or.inl h2)).1) (fun _ e h1 => C49_move h1 hD he) n 0 env none h

/-- The reflection of labels: up and left, down and right, and the environment bonds accordingly. -/
def refl (l : Nat) : Nat :=
  if l < 4 then [1, 0, 3, 2].getD l 0 else if l < 12 then [6, 7, 4, 5, 10, 11, 8, 9].getD (l - 4) 0 else l

theorem refl_refl (l : Nat) : refl (refl l) = l := by
  by_cases h : l < 12
  · have : ∀ l < 12, refl (refl l) = l := by decide
    exact this l h
  · have : refl l = l := by
      unfold refl
      rw [if_neg (by omega), if_neg h]
    rw [this, this]

theorem dim_refl (chi D p l : Nat) : Spec.dim chi D p (refl l) = Spec.dim chi D p l := by
  by_cases h : l < 12
  · have h1 : ∀ l < 12, (refl l < 4 ∨ 14 ≤ refl l) ↔ (l < 4 ∨ 14 ≤ l) := by decide
    have h2 : ∀ l < 12, (refl l = 12 ∨ refl l = 13) ↔ (l = 12 ∨ l = 13) := by decide
    simp only [Spec.dim, h1 l h, h2 l h]
  · unfold refl
    rw [if_neg (by omega), if_neg h]

/-- If the environment is Hermitian and the site tensor reflection symmetric (up to conjugation), the enlarged corner that is diagonalised is a Hermitian matrix. -/
theorem C48_corner (h : Spec.Fits chi D p a env) (hh : Spec.Hermitian env) (ha : Spec.Reflected D p a) {M : Tensor K} (hM : c2x2Sl a env.C env.T = some M) :
    ∀ x y, x < chi * (D * D) → y < chi * (D * D) → M.val [x, y] = star (M.val [y, x]) := by
  obtain ⟨A, M0, M', eA, -, -, eM', hsame, d, sM⟩ := corner_both h
  rw [hM] at eM'
  cases eM'
  intro x y hx hy
  rw [← hsame.2 _ (by rw [sM]; exact inB2 hx hy), ← hsame.2 _ (by rw [sM]; exact inB2 hy hx)]
  have hidx : InB ([[3, 8, 9], [2, 10, 11]].map (gdim (Spec.dim chi D p))) [x, y] := by
    rw [← d.shape, sM]; exact inB2 hx hy
  obtain ⟨σ, s1, hσ⟩ := exists_groups _ _ (by decide) [x, y] hidx
  have hx' : gidx (Spec.dim chi D p) σ [3, 8, 9] = x := by
    have := congrArg (fun l => l.getD 0 0) hσ; exact this
  have hy' : gidx (Spec.dim chi D p) σ [2, 10, 11] = y := by
    have := congrArg (fun l => l.getD 1 0) hσ; exact this
  have v1 := d.val σ s1
  have s2 : ∀ l ∈ [[3, 8, 9], [2, 10, 11]].flatten, σ (refl l) < Spec.dim chi D p l := by
    intro l hl
    rw [← dim_refl]
    apply s1
    revert l hl
    decide
  have v2 := d.val (fun l => σ (refl l)) s2
  have e1 : [[3, 8, 9], [2, 10, 11]].map (gidx (Spec.dim chi D p) σ) = [x, y] := by
    simp only [List.map_cons, List.map_nil, hx', hy']
  have e2 : [[3, 8, 9], [2, 10, 11]].map (gidx (Spec.dim chi D p) (fun l => σ (refl l))) = [y, x] := by
    rw [← hx', ← hy']; rfl
  rw [e1] at v1
  rw [e2] at v2
  rw [v1, v2, sumOver_relabel _ refl refl_refl (dim_refl chi D p), star_sumOver]
  rw [sumOver_perm (Spec.dim chi D p) (l1 := List.map refl [0, 1, 4, 5, 6, 7, 12]) (l2 := [0, 1, 4, 5, 6, 7, 12]) (by decide)]
  refine sumOver_congr _ _ _ _ _ (fun τ t1 t2 => ?_)
  have hlt : ∀ l ∈ [0, 1, 2, 3, 4, 5, 6, 7, 8, 9, 10, 11, 12], τ l < Spec.dim chi D p l := by
    intro l hl
    by_cases hm : l ∈ [0, 1, 4, 5, 6, 7, 12]
    · exact t1 l hm
    · rw [t2 l hm]
      apply s1
      revert l hl hm
      decide
  have hb : ∀ l ∈ [0, 1, 2, 3], τ l < env.chi := fun l hl => by
    rw [h.bond]
    have := hlt l (by revert l hl; decide)
    have hd : ∀ l ∈ [0, 1, 2, 3], Spec.dim chi D p l = chi := by intro l hl; simp only [List.mem_cons, List.not_mem_nil, or_false] at hl; rcases hl with rfl | rfl | rfl | rfl <;> rfl
    rw [hd l hl] at this
    exact this
  have hv : ∀ l ∈ [4, 5, 6, 7, 8, 9, 10, 11], τ l < D := fun l hl => by
    have := hlt l (by revert l hl; decide)
    have hd : ∀ l ∈ [4, 5, 6, 7, 8, 9, 10, 11], Spec.dim chi D p l = D := by
      intro l hl; simp only [List.mem_cons, List.not_mem_nil, or_false] at hl; rcases hl with rfl | rfl | rfl | rfl | rfl | rfl | rfl | rfl <;> rfl
    rw [hd l hl] at this
    exact this
  have hp : τ 12 < p := hlt 12 (by decide)
  have hf : ∀ k b, τ k < D → τ b < D → Spec.dim chi D p b = D → Corner.Spec.fused (Spec.dim chi D p) τ k b < env.T.size 2 := by
    intro k b hk hb' hd
    rw [size, h.half, Corner.Spec.fused, hd]
    show τ k * D + τ b < D * D
    calc τ k * D + τ b < τ k * D + D := by omega
      _ = (τ k + 1) * D := by ring
      _ ≤ D * D := Nat.mul_le_mul_right _ hk
  have t45 := hh.2 (τ 2) (τ 1) (Corner.Spec.fused (Spec.dim chi D p) τ 4 5) (hb 2 (by decide)) (hb 1 (by decide)) (hf 4 5 (hv 4 (by decide)) (hv 5 (by decide)) rfl)
  have t67 := hh.2 (τ 0) (τ 3) (Corner.Spec.fused (Spec.dim chi D p) τ 6 7) (hb 0 (by decide)) (hb 3 (by decide)) (hf 6 7 (hv 6 (by decide)) (hv 7 (by decide)) rfl)
  have hc := hh.1 (τ 0) (τ 1) (hb 0 (by decide)) (hb 1 (by decide))
  have ha1 := ha (τ 12) (τ 4) (τ 6) (τ 8) (τ 10) hp (hv 4 (by decide)) (hv 6 (by decide)) (hv 8 (by decide)) (hv 10 (by decide))
  have ha2 := ha (τ 12) (τ 5) (τ 7) (τ 9) (τ 11) hp (hv 5 (by decide)) (hv 7 (by decide)) (hv 9 (by decide)) (hv 11 (by decide))
  have hlhs : Spec.corner (Spec.dim chi D p) env.C env.T a τ = env.C.val [τ 0, τ 1] * env.T.val [τ 2, τ 1, Corner.Spec.fused (Spec.dim chi D p) τ 4 5]
      * env.T.val [τ 0, τ 3, Corner.Spec.fused (Spec.dim chi D p) τ 6 7] * (a.val [τ 12, τ 4, τ 6, τ 8, τ 10] * star (a.val [τ 12, τ 5, τ 7, τ 9, τ 11])) := rfl
  have hrhs : Spec.corner (Spec.dim chi D p) env.C env.T a (fun l => τ (refl l)) = env.C.val [τ 1, τ 0] * env.T.val [τ 3, τ 0, Corner.Spec.fused (Spec.dim chi D p) τ 6 7]
      * env.T.val [τ 1, τ 2, Corner.Spec.fused (Spec.dim chi D p) τ 4 5] * (a.val [τ 12, τ 6, τ 4, τ 10, τ 8] * star (a.val [τ 12, τ 7, τ 5, τ 11, τ 9])) := rfl
  rw [hlhs, hrhs, hc, t45, t67, ha1, ha2]
  simp only [star_mul', star_star]
  ring
end

end Verif.C4v
