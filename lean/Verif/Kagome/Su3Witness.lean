import Verif.Kagome.Su3Props
import Verif.Kagome.ObsWitness
/-
C119 and C120, continued: refutations, and product states that meet the hypotheses.
-/
namespace Verif.KagomeRdm
open Tensor Ctm Rdm Ctm.Spec Spec
open Corrf (pEnv)

variable {p : Nat}

/-! ### One site -/

theorem index_inj {p v : Nat} (hv : v < p ^ 3) (s : Spins p) (h0 : sp p v 0 = s 0) (h1 : sp p v 1 = s 1) (h2 : sp p v 2 = s 2) : v = index s := by
  rw [enc_digits hv, index_enc]
  unfold sp at h0 h1 h2
  simp only [Nat.sub_zero, Nat.reduceSub] at h0 h1 h2
  rw [h0, h1, h2]; rfl

theorem sp_index (s : Spins p) : sp p (index s) 0 = s 0 ∧ sp p (index s) 1 = s 1 ∧ sp p (index s) 2 = s 2 := by
  rw [index_enc]
  exact sp_enc (s 0).2 (s 1).2 (s 2).2

theorem agree_one (s t : Spins p) (m n : Nat) (hm : m < p ^ 3) (hn : n < p ^ 3) :
    Agree p 1 [0, 1, 2] (put 0 1 s) (put 0 1 t) [m] [n] ↔ m = index s ∧ n = index t := by
  constructor
  · intro h
    have h0 := h 0 (by decide)
    have h1 := h 1 (by decide)
    have h2 := h 2 (by decide)
    rw [if_pos (by decide)] at h0 h1 h2
    exact ⟨index_inj hm s h0.1 h1.1 h2.1, index_inj hn t h0.2 h1.2 h2.2⟩
  · rintro ⟨rfl, rfl⟩ x hx
    obtain ⟨a0, a1, a2⟩ := sp_index s
    obtain ⟨b0, b1, b2⟩ := sp_index t
    have : x = 0 ∨ x = 1 ∨ x = 2 := by omega
    rcases this with rfl | rfl | rfl
    · rw [if_pos (by decide)]; exact ⟨a0, b0⟩
    · rw [if_pos (by decide)]; exact ⟨a1, b1⟩
    · rw [if_pos (by decide)]; exact ⟨a2, b2⟩

theorem reduced_one (R : Tensor ℂ) (s t : Spins p) : reduced p 1 R 0 1 2 s t = R.val [index s, index t] := by
  unfold reduced marginal
  rw [Matrix.of_apply]
  have hs : InB (List.replicate 1 (p ^ 3)) [index s] := List.Forall₂.cons (index_lt s) List.Forall₂.nil
  have ht : InB (List.replicate 1 (p ^ 3)) [index t] := List.Forall₂.cons (index_lt t) List.Forall₂.nil
  rw [sumIdx_single _ _ hs, sumIdx_single _ _ ht, if_pos ((agree_one s t _ _ (index_lt s) (index_lt t)).2 ⟨rfl, rfl⟩)]
  · rfl
  · intro u hu hne
    rcases hu with _ | ⟨hn, ⟨⟩⟩
    refine if_neg fun h => hne ?_
    rw [((agree_one s t _ _ (index_lt s) hn).1 h).2]
  · intro u hu hne
    rcases hu with _ | ⟨hm, ⟨⟩⟩
    refine (sumIdx_congr _ fun r hr => ?_).trans (sumIdx_zero _)
    rcases hr with _ | ⟨hn, ⟨⟩⟩
    refine if_neg fun h => hne ?_
    rw [((agree_one s t _ _ hm hn).1 h).1]

theorem prodVec_index (w : Fin 3 → Nat → ℂ) (s : Spins p) : prodVec p w (index s) = ∏ x, w x (s x) := by
  obtain ⟨a0, a1, a2⟩ := sp_index s
  rw [prodVec, a0, a1, a2, Fin.prod_univ_three]

theorem prodVec_norm (w : Fin 3 → Nat → ℂ) (hw : ∀ x, ∑ a ∈ Finset.range p, w x a * star (w x a) = 1) :
    ∑ n ∈ Finset.range (p ^ 3), prodVec p w n * star (prodVec p w n) = 1 := by
  rw [sum_spins p (fun n => prodVec p w n * star (prodVec p w n))]
  have h1 : ∏ x : Fin 3, ∑ a : Fin p, w x a * star (w x a) = 1 := by
    refine Finset.prod_eq_one fun x _ => ?_
    rw [← hw x, Finset.sum_range]
  rw [Finset.prod_univ_sum, Fintype.piFinset_univ] at h1
  rw [← h1]
  refine Finset.sum_congr rfl fun s _ => ?_
  rw [prodVec_index, star_prod, Finset.prod_mul_distrib]

section
variable (keys : List Coord) (vts : Coord → Coord) (w : Coord → Fin 3 → Nat → ℂ)

theorem kHermitian (c : Coord) : HermitianSite p (Models.gDims (p ^ 3)) (kState p keys vts w) pEnv c := by
  intro e a rho h0 h1 s hs t ht
  rw [gNetwork keys vts _ c h0 h1 s t hs ht, gNetwork keys vts _ c h0 h1 t s ht hs, star_mul', star_star, mul_comm]

/-- The density matrix of a site of normalised vectors. -/
theorem kOne (eigh : Tensor ℂ → List ℝ × Tensor ℂ) (hp : 0 < p) (hw : ∀ c x, ∑ a ∈ Finset.range p, w c x a * star (w c x a) = 1) (ht : Tiling (kState p keys vts w)) (c : Coord)
    (hc : c ∈ keys) : ∃ R, rdm1x1 eigh true false (kState p keys vts w) pEnv c none = .ok R ∧ reduced p 1 R 0 1 2 = proj p (w (vts c)) := by
  have hP : 0 < p ^ 3 := by positivity
  obtain ⟨e, a, rho, h0, h1, h2, h4⟩ := C114_trace_partial (p := p) ht (Models.gFitsState keys vts _ hP) (Models.gFitsEnv keys vts _) (fun _ => rfl) c hc
  have hv := fun s t hs ht => gNetwork keys vts (fun c => prodVec p (w c)) c h0 h1 s t hs ht
  have sT : rho.shape = List.replicate 1 (p ^ 3) ++ List.replicate 1 (p ^ 3) := by
    refine h1.1.trans ?_
    have h4 : Rdm.Spec.dims1 (Models.gDims (p ^ 3)) c 4 = p ^ 3 := rfl
    have h7 : Rdm.Spec.dims1 (Models.gDims (p ^ 3)) c 7 = p ^ 3 := rfl
    simp [h4, h7]
  have htr : Matrix.trace (Rdm.Spec.op (List.replicate 1 (p ^ 3)) rho) = 1 := by
    rw [trace_op, ← prodVec_norm (w (vts c)) (hw _)]
    simp only [List.replicate, sumIdx]
    exact Finset.sum_congr rfl fun s hs => hv s s (Finset.mem_range.1 hs) (Finset.mem_range.1 hs)
  obtain ⟨R, eR, -, vR⟩ := symRdm_entries eigh sT (by simp [hp]) (by rw [htr]; simp)
  refine ⟨R, (h2 eigh true false).trans eR, ?_⟩
  ext s t
  have := vR [index s] [index t] (List.Forall₂.cons (index_lt s) List.Forall₂.nil) (List.Forall₂.cons (index_lt t) List.Forall₂.nil)
  rw [reduced_one]
  refine this.trans ?_
  simp only [List.cons_append, List.nil_append]
  rw [htr, hv _ _ (index_lt s) (index_lt t), hv _ _ (index_lt t) (index_lt s), star_mul', star_star, prodVec_index, prodVec_index, proj, tensor, Matrix.of_apply]
  simp only [Matrix.of_apply, Finset.prod_mul_distrib, star_prod, RCLike.one_re]
  norm_num
  ring

/-- As `kProduct`, for the spins 1, 3 and 11 of the plaquette. -/
theorem kProduct' (eigh : Tensor ℂ → List ℝ × Tensor ℂ) (hp : 0 < p) (hw : ∀ c x, ∑ a ∈ Finset.range p, w c x a * star (w c x a) = 1) (c : Coord) :
    ∃ R, rdm2x2 eigh false (kState p keys vts w) pEnv c [0, 1, 2, 3] = .ok R ∧
      reduced p 4 R 1 3 11 = proj p (fun x => if x = 0 then w (vts c) 1 else if x = 1 then w (vts (rt c)) 0 else w (vts (dn (rt c))) 2) := by
  obtain ⟨e, s, T, h1, h0, h2, eT, sT, vT, ⟨a0, a1, a2, a3⟩, hF⟩ := gPlaq keys vts (fun c => prodVec p (w c)) hp c
  have hm := fun keeps h3 k b => plaqF_opened (Rdm.Spec.dimsP (Models.gDims (p ^ 3)) c) e p s.a s.ax s.ay s.axy (keeps := keeps) h3 k b vT
  simp only [hF, a0, a1, a2, a3] at hm
  have hnone : ∀ c, opened p (Models.gSite (p ^ 3) (prodVec p (w c))) (fun _ => none) 0 0 0 0 = 1 := by
    intro c
    rw [opened_g _ _ (by simp)]
    simp only [pairSum, hw, mul_one]
  have htr : Matrix.trace (Rdm.Spec.op (List.replicate 4 (p ^ 3)) T) = 1 := by
    rw [← marginal_nil T (fun _ => 0) (fun _ => 0)]
    have := hm [[], [], [], []] (by simp) (fun _ => 0) (fun _ => 0)
    rw [show Spec.kept [[], [], [], []] = [] from rfl, pairs_none (i := 0) rfl, pairs_none (i := 1) rfl, pairs_none (i := 2) rfl, pairs_none (i := 3) rfl] at this
    rw [← this, hnone, hnone, hnone, hnone]; norm_num
  have hu : reduced p 4 T 1 3 11 = proj p (fun x => if x = 0 then w (vts c) 1 else if x = 1 then w (vts (rt c)) 0 else w (vts (dn (rt c))) 2) := by
    ext u t
    have := hm [[1], [0], [], [2]] (by simp) (put 1 3 u) (put 1 3 t)
    rw [pairs_none (i := 2) rfl, hnone, opened_g _ _ (pairs_lt _ _ _ _), opened_g _ _ (pairs_lt _ _ _ _), opened_g _ _ (pairs_lt _ _ _ _)] at this
    refine this.symm.trans ?_
    simp only [pairs, pairOf, List.getD_cons_zero, List.getD_cons_succ]
    simp [pairSum, hw, proj, tensor, Fin.prod_univ_three, put, -RCLike.star_def, -Complex.star_def]
  have hherm : ∀ f, (proj p f).conjTranspose = proj p f := by
    intro f
    rw [proj, tensor_conj]
    congr 1
    funext x
    ext i j
    simp [mul_comm]
  have hn : RCLike.re (Matrix.trace (Rdm.Spec.op (List.replicate 4 (p ^ 3)) T)) ≠ 0 := by rw [htr]; simp
  obtain ⟨R, e1, -, v1⟩ := symRdm_entries eigh sT (by simp [hp]) hn
  refine ⟨R, by rw [kState, rdm2x2_eq eigh false h1 (by decide) eT]; exact e1, ?_⟩
  rw [reduced_herm _ T R v1, hu, hherm, htr, ← two_smul ℂ, smul_smul]
  simp

theorem sumOver_zero {dim : Nat → Nat} (N : List Nat) (hd : ∀ l ∈ N, dim l = 1) (F : (Nat → Nat) → ℂ) : sumOver dim N F (fun _ => 0) = F (fun _ => 0) := by
  induction N with
  | nil => rfl
  | cons l ls ih =>
    simp only [sumOver]
    rw [hd l (by simp), Finset.sum_range_one, Function.update_eq_self_iff.2 rfl]
    exact ih fun l hl => hd l (by simp [hl])

/-- The density matrices of two sites exist. -/
theorem kPairs (eigh : Tensor ℂ → List ℝ × Tensor ℂ) (hp : 0 < p) (hw : ∀ c x, ∑ a ∈ Finset.range p, w c x a * star (w c x a) = 1) (c : Coord) :
    ∃ R21 R12, rdm2x1 eigh true false (kState p keys vts w) pEnv c = .ok R21 ∧ rdm1x2 eigh true false (kState p keys vts w) pEnv c = .ok R12 := by
  have hP : 0 < p ^ 3 := by positivity
  have hs : FitsState (Models.gDims (p ^ 3)) (kState p keys vts w) := Models.gFitsState keys vts _ hP
  have he : FitsEnv (Models.gDims (p ^ 3)) (kState p keys vts w) pEnv := Models.gFitsEnv keys vts _
  have hC : ∀ k T, (pEnv (K := ℂ)).C k = some T → T.val = fun _ => 1 := by
    intro k T h; simp only [pEnv] at h; injection h with h; rw [← h]
  have hT : ∀ k T, (pEnv (K := ℂ)).T k = some T → T.val = fun _ => 1 := by
    intro k T h; simp only [pEnv] at h; injection h with h; rw [← h]
  have hsum : ∀ c d (T : Tensor ℂ), (∀ s0 s1 t0 t1 : Nat, s0 < p ^ 3 → s1 < p ^ 3 → t0 < p ^ 3 → t1 < p ^ 3 → T.val ([s0, s1] ++ [t0, t1]) =
      prodVec p (w c) s0 * star (prodVec p (w c) t0) * (prodVec p (w d) s1 * star (prodVec p (w d) t1))) → Matrix.trace (Rdm.Spec.op (List.replicate 2 (p ^ 3)) T) = 1 := by
    intro c d T h
    rw [trace_op]
    simp only [List.replicate, sumIdx]
    rw [← mul_one (1 : ℂ)]
    nth_rw 1 [← prodVec_norm (w c) (hw _)]
    rw [← prodVec_norm (w d) (hw _), Finset.sum_mul_sum]
    exact Finset.sum_congr rfl fun s hs => Finset.sum_congr rfl fun t ht => h s t s t (Finset.mem_range.1 hs) (Finset.mem_range.1 ht) (Finset.mem_range.1 hs) (Finset.mem_range.1 ht)
  have hfd : ∀ (N : List Nat) (dim : Nat → Nat), (∀ l ∈ N, ¬ 100 ≤ l) → (∀ l ∈ N, dim l = 1) → ∀ l ∈ N, fdim dim (fun _ => 0) l = 1 := by
    intro N dim h1 h2 l hl
    unfold fdim
    rw [if_neg (h1 l hl), h2 l hl]
    split <;> rfl
  obtain ⟨R21, g1⟩ : ∃ R, rdm2x1 eigh true false (kState p keys vts w) pEnv c = .ok R := by
    obtain ⟨e, a, b, e1, h0, h2⟩ := pairH_ok hs he c
    obtain ⟨T, eT, sT, vT⟩ := fullH h2 (P := p ^ 3) rfl rfl
    have htr := hsum (vts c) (vts (rt c)) T (by
      intro s0 s1 t0 t1 k0 k1 l0 l1
      rw [vT s0 s1 t0 t1 k0 k1 l0 l1]
      obtain ⟨c1, c2, c3, c4, u1, u2, u3, u4, u5, u6, a1, a2⟩ := h0
      unfold netH
      rw [sumOver_zero _ (hfd _ _ (by decide) (by intro l hl; fin_cases hl <;> rfl))]
      have ea : a = Models.gSite (p ^ 3) (prodVec p (w (vts c))) := (Option.some.inj a1).symm
      have eb : b = Models.gSite (p ^ 3) (prodVec p (w (vts (rt c)))) := (Option.some.inj a2).symm
      simp only [bodyH, hC _ _ c1, hC _ _ c2, hC _ _ c3, hC _ _ c4, hT _ _ u1, hT _ _ u2, hT _ _ u3, hT _ _ u4, hT _ _ u5, hT _ _ u6, ea, eb, lay_g]
      ring)
    obtain ⟨R, hR, -⟩ := symRdm_entries eigh sT (by simp [hp]) (by rw [htr]; simp)
    refine ⟨R, ?_⟩
    rw [(C32_row eigh false hs he c).1, ← hR]
    unfold rdm2x1; rw [e1]
    show (lift (dl2x1 e a b) >>= _) = _
    rw [eT]; rfl
  obtain ⟨R12, g2⟩ : ∃ R, rdm1x2 eigh true false (kState p keys vts w) pEnv c = .ok R := by
    obtain ⟨e, a, b, e1, h0, h2⟩ := pairV_ok hs he c
    obtain ⟨T, eT, sT, vT⟩ := fullV h2 (P := p ^ 3) rfl rfl
    have htr := hsum (vts c) (vts (dn c)) T (by
      intro s0 s1 t0 t1 k0 k1 l0 l1
      rw [vT s0 s1 t0 t1 k0 k1 l0 l1]
      obtain ⟨c1, c2, c3, c4, u1, u2, u3, u4, u5, u6, a1, a2⟩ := h0
      unfold netV
      rw [sumOver_zero _ (hfd _ _ (by decide) (by intro l hl; fin_cases hl <;> rfl))]
      have ea : a = Models.gSite (p ^ 3) (prodVec p (w (vts c))) := (Option.some.inj a1).symm
      have eb : b = Models.gSite (p ^ 3) (prodVec p (w (vts (dn c)))) := (Option.some.inj a2).symm
      simp only [bodyV, hC _ _ c1, hC _ _ c2, hC _ _ c3, hC _ _ c4, hT _ _ u1, hT _ _ u2, hT _ _ u3, hT _ _ u4, hT _ _ u5, hT _ _ u6, ea, eb, lay_g]
      ring)
    obtain ⟨R, hR, -⟩ := symRdm_entries eigh sT (by simp [hp]) (by rw [htr]; simp)
    refine ⟨R, ?_⟩
    rw [(C32_column eigh false hs he c).1, ← hR]
    unfold rdm1x2; rw [e1]
    show (lift (dl1x2 e a b) >>= _) = _
    rw [eT]; rfl
  exact ⟨R21, R12, g1, g2⟩
end

/-! ### Exchanges in product states -/

theorem proj_apply (f : Fin 3 → Nat → ℂ) (s t : Spins p) : proj p f s t = ∏ x, f x (s x) * star (f x (t x)) := rfl

theorem trace_perm (f : Fin 3 → Nat → ℂ) (e : Equiv.Perm (Fin 3)) :
    Matrix.trace (proj p f * Matrix.of fun t s => if t = s ∘ e then 1 else 0) = ∏ y, ∑ a : Fin p, f y a * star (f (e.symm y) a) := by
  rw [Finset.prod_univ_sum, Fintype.piFinset_univ]
  simp only [Matrix.trace, Matrix.diag_apply, Matrix.mul_apply, Matrix.of_apply, mul_ite, mul_one, mul_zero, Finset.sum_ite_eq', Finset.mem_univ, if_true]
  refine Finset.sum_congr rfl fun s _ => ?_
  rw [proj_apply, Finset.prod_mul_distrib, Finset.prod_mul_distrib]
  congr 1
  refine Fintype.prod_equiv e _ _ fun x => ?_
  simp

theorem trace_swap (f : Fin 3 → Nat → ℂ) (x y : Fin 3) : Matrix.trace (proj p f * swap p x y) = ∏ z, ∑ a : Fin p, f z a * star (f (Equiv.swap x y z) a) := by
  unfold swap
  rw [trace_perm, Equiv.symm_swap]

theorem trace_cyclic (f : Fin 3 → Nat → ℂ) :
    Matrix.trace (proj p f * cyclic p) = (∑ a : Fin p, f 0 a * star (f 1 a)) * (∑ a : Fin p, f 1 a * star (f 2 a)) * ∑ a : Fin p, f 2 a * star (f 0 a) := by
  have h : cyclic p = Matrix.of fun t s => if t = s ∘ e201 then 1 else 0 := by
    ext t s
    refine if_congr ?_ rfl rfl
    rw [spins_ext]
    exact ⟨fun ⟨a, b, c⟩ => ⟨c, a, b⟩, fun ⟨c, a, b⟩ => ⟨a, b, c⟩⟩
  rw [h, trace_perm, Fin.prod_univ_three]
  rfl

theorem proj_isHerm (f : Fin 3 → Nat → ℂ) : (proj p f).IsHermitian := by
  unfold Matrix.IsHermitian
  rw [proj, tensor_conj]
  congr 1
  funext x
  ext i j
  simp [mul_comm]

/-- The chirality of a product state. -/
theorem trace_su3Chi (f : Fin 3 → Nat → ℂ) :
    Matrix.trace (proj 3 f * su3Chi) = -2 * ((∑ a : Fin 3, f 0 a * star (f 1 a)) * (∑ a : Fin 3, f 1 a * star (f 2 a)) * ∑ a : Fin 3, f 2 a * star (f 0 a)).im := by
  have h : Matrix.trace (proj 3 f * (cyclic 3).conjTranspose) = star (Matrix.trace (proj 3 f * cyclic 3)) := by
    rw [← Matrix.trace_conjTranspose, Matrix.conjTranspose_mul, (proj_isHerm f).eq, Matrix.trace_mul_comm]
  unfold su3Chi
  rw [Matrix.mul_smul, Matrix.mul_sub, Matrix.trace_smul, Matrix.trace_sub, h, ← trace_cyclic]
  generalize Matrix.trace (proj 3 f * cyclic 3) = z
  apply Complex.ext <;> simp <;> ring

/-- The Casimir operator of a bond is half the exchange up to a constant. -/
theorem casimir1_swap : casimir1 0 1 = (1 / 2 : ℂ) • swap 3 0 1 - (1 / 6 : ℂ) • 1 ∧ casimir1 1 2 = (1 / 2 : ℂ) • swap 3 1 2 - (1 / 6 : ℂ) • 1 := by
  have h1 : ∀ t s : Spins 3, (1 : Op3 ℂ 3) t s = Su3.δ (t 0) (s 0) * Su3.δ (t 1) (s 1) * Su3.δ (t 2) (s 2) := by
    intro t s
    simp only [Matrix.one_apply, spins_ext, Su3.δ]
    split_ifs <;> simp_all
  constructor
  · rw [casimir1_pairOn (z := 2) (by decide) (by decide), swap_pairOn.1]
    ext t s
    simp only [Matrix.sub_apply, Matrix.smul_apply, h1, pairOn, Matrix.of_apply, smul_eq_mul]
    rw [Su3.C1_F, Su3.complete, Su3.δ_comm (t 1) (s 0)]
    ring
  · rw [casimir1_pairOn (z := 0) (by decide) (by decide), swap_pairOn.2.2]
    ext t s
    simp only [Matrix.sub_apply, Matrix.smul_apply, h1, pairOn, Matrix.of_apply, smul_eq_mul]
    rw [Su3.C1_F, Su3.complete]
    ring

/-! ### Refutations -/

/-- Three vectors with a chirality. -/
noncomputable def chiral3 (x : Fin 3) (a : Nat) : ℂ :=
  if x = 0 then (if a = 0 then 1 else 0) else if x = 1 then (if a = 0 then 3 / 5 else if a = 1 then 4 / 5 else 0) else if a = 0 then 3 / 5 else if a = 1 then 4 / 5 * Complex.I else 0

theorem chiral3_norm (x : Fin 3) : ∑ a ∈ Finset.range 3, chiral3 x a * star (chiral3 x a) = 1 := by
  simp only [Finset.sum_range_succ, Finset.sum_range_zero]
  fin_cases x <;> simp [chiral3] <;> ring_nf <;> norm_num

noncomputable def chiral3State : State ℂ := kState 3 [(0, 0)] (fun _ => (0, 0)) (fun _ => chiral3)

/-- The exchanges of the three spins of a triangle of equal vectors. -/
theorem trace_swaps_eq (u : Nat → ℂ) (hu : ∑ a : Fin p, u a * star (u a) = 1) : Matrix.trace (proj p (fun _ => u) * swaps p) = 3 := by
  unfold swaps
  rw [mul_add, mul_add, Matrix.trace_add, Matrix.trace_add, trace_swap, trace_swap, trace_swap]
  simp only [hu, Finset.prod_const_one]
  norm_num

/-- `chirality_up` of `eval_obs` has the wrong sign. -/
theorem C120_violated (eigh : Tensor ℂ → List ℝ × Tensor ℂ) : ∃ (D : Dims) (st : State ℂ) (env : Env ℂ) (R : Tensor ℂ) (out : List (String × ℝ)),
    Tiling st ∧ FitsState D st ∧ FitsEnv D st env ∧ (∀ c, D.p c = 3 ^ 3) ∧ HermitianSite 3 D st env (0, 0) ∧ rdm2x2 eigh false st env (0, 0) [0, 1, 2, 3] = .ok R ∧
    su3Obs eigh st env = .ok out ∧ ("chirality_up", -(288 / 625)) ∈ out ∧ ("chirality_dn", 288 / 625) ∈ out ∧ Matrix.trace (reduced 3 4 R 4 8 9 * su3Chi) = 288 / 625 := by
  have hc : ((0, 0) : Coord) ∈ chiral3State.keys := by simp [chiral3State, kState, Models.gState]
  obtain ⟨R, hR, -, h2⟩ := kProduct (p := 3) [(0, 0)] (fun _ => (0, 0)) (fun _ => chiral3) eigh (by decide) (fun _ => chiral3_norm) (0, 0)
  obtain ⟨R1, hR1, h1⟩ := kOne (p := 3) [(0, 0)] (fun _ => (0, 0)) (fun _ => chiral3) eigh (by decide) (fun _ => chiral3_norm) (one_tiling _) (0, 0) (by simp)
  have hs : FitsState (Models.gDims (3 ^ 3)) chiral3State := Models.gFitsState _ _ _ (by decide)
  have he : FitsEnv (Models.gDims (3 ^ 3)) chiral3State pEnv := Models.gFitsEnv _ _ _
  have hh : HermitianSite 3 (Models.gDims (3 ^ 3)) chiral3State pEnv (0, 0) := kHermitian _ _ _ _
  obtain ⟨bd, bu, cd, cu, v, e, -, -, v1, v2, -⟩ := C120_obs eigh (one_tiling _) hs he (fun _ => rfl) hc hh hR hR1
  have c3 : (starRingEnd ℂ) 3 = 3 := map_ofNat _ 3
  have c4 : (starRingEnd ℂ) 4 = 4 := map_ofNat _ 4
  have c5 : (starRingEnd ℂ) 5 = 5 := map_ofNat _ 5
  have hu : Matrix.trace (reduced 3 4 R 4 8 9 * su3Chi) = 288 / 625 := by
    rw [h2, trace_su3Chi]
    simp [Fin.sum_univ_three, chiral3, c3, c4, c5]
    norm_num
  have hd : Matrix.trace (reduced 3 1 R1 0 1 2 * su3Chi) = 288 / 625 := by
    rw [h1, trace_su3Chi]
    simp [Fin.sum_univ_three, chiral3, c3, c4, c5]
    norm_num
  have k1 : cu = -(288 / 625) := by
    rw [hu] at v2
    have := congrArg Complex.re v2
    rw [Complex.ofReal_re] at this
    rw [this]; norm_num
  have k2 : cd = 288 / 625 := by rw [v1, hd]; norm_num
  refine ⟨_, chiral3State, pEnv, R, _, one_tiling _, hs, he, fun _ => rfl, hh, hR, e, ?_, ?_, hu⟩
  · rw [k1]; simp
  · rw [k2]; simp

/-- Spins 0 and 1 in the first state, spin 2 in the second. -/
noncomputable def aab (x : Fin 3) (a : Nat) : ℂ := if x = 2 then (if a = 1 then 1 else 0) else if a = 0 then 1 else 0

theorem aab_norm (x : Fin 3) : ∑ a ∈ Finset.range 3, aab x a * star (aab x a) = 1 := by
  simp only [Finset.sum_range_succ, Finset.sum_range_zero]
  fin_cases x <;> simp [aab]

noncomputable def aabState : State ℂ := kState 3 [(0, 0)] (fun _ => (0, 0)) (fun _ => aab)

/-- The labels of the down triangle: `A` and `B` are the spins 2 and 1 (`Spec.letters`), but `C1_AB_dn` is the value for the spins 0 and 1. -/
theorem C120_labels_violated (eigh : Tensor ℂ → List ℝ × Tensor ℂ) : ∃ (D : Dims) (st : State ℂ) (env : Env ℂ) (R1 : Tensor ℂ) (out : List (String × ℂ)),
    Tiling st ∧ FitsState D st ∧ FitsEnv D st env ∧ (∀ c, D.p c = 3 ^ 3) ∧ HermitianSite 3 D st env (0, 0) ∧ rdm1x1 eigh true false st env (0, 0) none = .ok R1 ∧
    evalC1 eigh st env = .ok out ∧ ("C1_AB_dn", 1 / 3) ∈ out ∧ letters ['A'] = [2] ∧ letters ['B'] = [1] ∧ Matrix.trace (reduced 3 1 R1 0 1 2 * casimir1 1 2) = -(1 / 6) := by
  have hc : ((0, 0) : Coord) ∈ aabState.keys := by simp [aabState, kState, Models.gState]
  obtain ⟨R, hR, -, -⟩ := kProduct (p := 3) [(0, 0)] (fun _ => (0, 0)) (fun _ => aab) eigh (by decide) (fun _ => aab_norm) (0, 0)
  obtain ⟨R1, hR1, h1⟩ := kOne (p := 3) [(0, 0)] (fun _ => (0, 0)) (fun _ => aab) eigh (by decide) (fun _ => aab_norm) (one_tiling _) (0, 0) (by simp)
  obtain ⟨R21, R12, hR21, hR12⟩ := kPairs (p := 3) [(0, 0)] (fun _ => (0, 0)) (fun _ => aab) eigh (by decide) (fun _ => aab_norm) (0, 0)
  have hs : FitsState (Models.gDims (3 ^ 3)) aabState := Models.gFitsState _ _ _ (by decide)
  have he : FitsEnv (Models.gDims (3 ^ 3)) aabState pEnv := Models.gFitsEnv _ _ _
  have hh : HermitianSite 3 (Models.gDims (3 ^ 3)) aabState pEnv (0, 0) := kHermitian _ _ _ _
  obtain ⟨td, tu, e, -, -⟩ := C120_C1 eigh (one_tiling _) hs he (fun _ => rfl) hc hh hR hR1 hR21 hR12
  have ht : Matrix.trace (proj 3 aab) = 1 := by
    have := trace_perm (p := 3) aab 1
    rw [show (Matrix.of fun t s => if t = s ∘ (1 : Equiv.Perm (Fin 3)) then (1 : ℂ) else 0 : Op3 ℂ 3) = 1 from rfl, mul_one] at this
    rw [this, Fin.prod_univ_three, show (Equiv.symm (1 : Equiv.Perm (Fin 3))) = 1 from rfl]
    simp [Fin.sum_univ_three, aab]
  have k1 : Matrix.trace (reduced 3 1 R1 0 1 2 * casimir1 0 1) = 1 / 3 := by
    rw [h1, casimir1_swap.1, Matrix.mul_sub, Matrix.mul_smul, Matrix.mul_smul, mul_one, Matrix.trace_sub, Matrix.trace_smul, Matrix.trace_smul, ht, trace_swap, Fin.prod_univ_three, show Equiv.swap (0 : Fin 3) 1 2 = 2 by decide]
    simp [Fin.sum_univ_three, aab]
    norm_num
  have k2 : Matrix.trace (reduced 3 1 R1 0 1 2 * casimir1 1 2) = -(1 / 6) := by
    rw [h1, casimir1_swap.2, Matrix.mul_sub, Matrix.mul_smul, Matrix.mul_smul, mul_one, Matrix.trace_sub, Matrix.trace_smul, Matrix.trace_smul, ht, trace_swap, Fin.prod_univ_three]
    simp [Fin.sum_univ_three, aab]
  rw [k1] at e
  exact ⟨_, aabState, pEnv, R1, _, one_tiling _, hs, he, fun _ => rfl, hh, hR1, e, by simp, by decide, by decide, k2⟩

/-- Two sites, all spins in the first state. -/
noncomputable def twoState : State ℂ := kState 3 [(0, 0), (1, 0)] (fun c => (c.1 % 2, 0)) (fun _ _ a => if a = 0 then 1 else 0)

theorem two_tiling : Tiling twoState := by
  refine ⟨fun c v => ?_, fun c => ?_, fun c hc => ?_, ?_⟩
  · show ((c.1 % 2 + v.1) % 2, (0 : ℤ)) = ((c.1 + v.1) % 2, 0)
    rw [Int.emod_add_emod]
  · show (c.1 % 2, (0 : ℤ)) ∈ [(0, 0), (1, 0)]
    rcases Int.emod_two_eq_zero_or_one c.1 with h | h <;> rw [h] <;> simp
  · have : c = (0, 0) ∨ c = (1, 0) := by simpa [twoState, kState, Models.gState] using hc
    rcases this with rfl | rfl <;> rfl
  · simp [twoState, kState, Models.gState]

/-- A cell of two sites: every triangle has the energy 3, thus the energy per spin is 2; `energy_1site` returns 1. -/
theorem C120_energy_1site_violated (eigh : Tensor ℂ → List ℝ × Tensor ℂ) : ∃ (m : Su3Couplings) (D : Dims) (st : State ℂ) (env : Env ℂ) (R R1 : Coord → Tensor ℂ),
    Tiling st ∧ FitsState D st ∧ FitsEnv D st env ∧ (∀ c, D.p c = 3 ^ 3) ∧ HermitianSite 3 D st env (0, 0) ∧ st.keys.length = 2 ∧
    (∀ c ∈ st.keys, rdm2x2 eigh false st env c [0, 1, 2, 3] = .ok (R c) ∧ rdm1x1 eigh true false st env c none = .ok (R1 c) ∧
      Matrix.trace (reduced 3 1 (R1 c) 0 1 2 * su3Triangle m) = 3 ∧ Matrix.trace (reduced 3 4 (R c) 4 8 9 * su3Triangle m) = 3) ∧
    su3OneSite eigh m st env = .ok 1 := by
  have hw : ∀ (_ : Coord) (_ : Fin 3), ∑ a ∈ Finset.range 3, (if a = 0 then (1 : ℂ) else 0) * star (if a = 0 then (1 : ℂ) else 0) = 1 := by
    intro _ _; simp [Finset.sum_range_succ]
  have hu : ∑ a : Fin 3, (if (a : Nat) = 0 then (1 : ℂ) else 0) * star (if (a : Nat) = 0 then (1 : ℂ) else 0) = 1 := by simp [Fin.sum_univ_three]
  have hA := fun c => kProduct (p := 3) [(0, 0), (1, 0)] (fun c => (c.1 % 2, 0)) (fun _ _ a => if a = 0 then 1 else 0) eigh (by decide) hw c
  have hB := fun c => kProduct' (p := 3) [(0, 0), (1, 0)] (fun c => (c.1 % 2, 0)) (fun _ _ a => if a = 0 then 1 else 0) eigh (by decide) hw c
  have hO := fun (c : Coord) (hc : c ∈ [(0, 0), (1, 0)]) => kOne (p := 3) [(0, 0), (1, 0)] (fun c => (c.1 % 2, 0)) (fun _ _ a => if a = 0 then 1 else 0) eigh (by decide) hw two_tiling c hc
  choose R hR _ hup using hA
  choose R' hR' hring using hB
  have hO' : ∀ c : Coord, ∃ R1, c ∈ [((0 : ℤ), (0 : ℤ)), (1, 0)] → rdm1x1 eigh true false twoState pEnv c none = .ok R1 ∧ reduced 3 1 R1 0 1 2 = proj 3 fun _ a => if a = 0 then 1 else 0 := by
    intro c
    by_cases h : c ∈ [((0 : ℤ), (0 : ℤ)), (1, 0)]
    · obtain ⟨R1, h1⟩ := hO c h
      exact ⟨R1, fun _ => h1⟩
    · exact ⟨R c, fun h' => absurd h' h⟩
  choose R1 hR1 using hO'
  have hs : FitsState (Models.gDims (3 ^ 3)) twoState := Models.gFitsState _ _ _ (by decide)
  have he : FitsEnv (Models.gDims (3 ^ 3)) twoState pEnv := Models.gFitsEnv _ _ _
  have hh : HermitianSite 3 (Models.gDims (3 ^ 3)) twoState pEnv (0, 0) := kHermitian _ _ _ _
  have hH : ∀ h : ℝ, h = 0 → su3Triangle ⟨1, 0, h⟩ = swaps 3 := by rintro _ rfl; simp [su3Triangle]
  have hRR : ∀ c, reduced 3 4 (R c) 1 3 11 = proj 3 fun _ a => if a = 0 then 1 else 0 := by
    intro c
    rw [Except.ok.inj ((hR c).symm.trans (hR' c)), hring]
    simp
  have hT := trace_swaps_eq (p := 3) (fun a => if a = 0 then 1 else 0) hu
  have h00 : ((0, 0) : Coord) ∈ [((0 : ℤ), (0 : ℤ)), (1, 0)] := by simp
  have e := C120_energy_1site eigh ⟨1, 0, 0⟩ two_tiling hs he (fun _ => rfl) (by exact h00) hh (hR (0, 0)) (hR1 _ h00).1
  refine ⟨⟨1, 0, 0⟩, _, twoState, pEnv, R, R1, two_tiling, hs, he, fun _ => rfl, hh, rfl, fun c hc => ⟨hR c, (hR1 c hc).1, ?_, ?_⟩, e.trans ?_⟩
  · rw [(hR1 c hc).2, hH _ rfl, hT]
  · rw [hup, hH _ rfl, ← hT]; simp
  · simp only [hH _ rfl, hH _ neg_zero, (hR1 _ h00).2, hRR, hT]
    rw [show twoState.keys.length = 2 from rfl]
    norm_num

/-! ### The hypotheses can be met -/

theorem chiral3_trace : Matrix.trace (proj 3 chiral3 * su3Chi) = 288 / 625 ∧
    Matrix.trace (proj 3 (fun x => if x = 0 then chiral3 1 else if x = 1 then chiral3 2 else chiral3 0) * su3Chi) = 288 / 625 := by
  have c3 : (starRingEnd ℂ) 3 = 3 := map_ofNat _ 3
  have c4 : (starRingEnd ℂ) 4 = 4 := map_ofNat _ 4
  have c5 : (starRingEnd ℂ) 5 = 5 := map_ofNat _ 5
  constructor <;> rw [trace_su3Chi] <;> simp [Fin.sum_univ_three, chiral3, c3, c4, c5] <;> norm_num

/-- With `h` alone: the energy per site is two thirds of the chirality; both ways to compute the down triangle agree. -/
example (eigh : Tensor ℂ → List ℝ × Tensor ℂ) : su3PerSite eigh ⟨0, 0, 1⟩ chiral3State pEnv = .ok (192 / 625) ∧ su3Dn1x1 ⟨0, 0, 1⟩ chiral3State pEnv = .ok (288 / 625) := by
  obtain ⟨R, hR, h1, h2⟩ := kProduct (p := 3) [(0, 0)] (fun _ => (0, 0)) (fun _ => chiral3) eigh (by decide) (fun _ => chiral3_norm) (0, 0)
  obtain ⟨R1, hR1, h3⟩ := kOne (p := 3) [(0, 0)] (fun _ => (0, 0)) (fun _ => chiral3) eigh (by decide) (fun _ => chiral3_norm) (one_tiling _) (0, 0) (by simp)
  have hs : FitsState (Models.gDims (3 ^ 3)) chiral3State := Models.gFitsState _ _ _ (by decide)
  have he : FitsEnv (Models.gDims (3 ^ 3)) chiral3State pEnv := Models.gFitsEnv _ _ _
  have hH : su3Triangle ⟨0, 0, 1⟩ = su3Chi := by simp [su3Triangle, su3Chi]
  obtain ⟨e, k1, k2⟩ := C119_per_site eigh ⟨0, 0, 1⟩ (one_tiling _) hs he (fun _ => rfl) hR
  obtain ⟨d, l1, l2⟩ := C119_down_1x1 eigh ⟨0, 0, 1⟩ (one_tiling _) hs he (fun _ => rfl) (by simp [kState, Models.gState]) hR1
  rw [hH, h1, h2, chiral3_trace.1, chiral3_trace.2] at k2
  rw [hH, h3, chiral3_trace.1] at l2
  refine ⟨k1.trans ?_, l1.trans ?_⟩
  · have := congrArg Complex.re k2
    rw [Complex.ofReal_re] at this
    rw [this]; norm_num
  · have := congrArg Complex.re l2
    rw [Complex.ofReal_re] at this
    rw [this]; norm_num

/-- All dictionaries exist for a product state. -/
example (eigh : Tensor ℂ → List ℝ × Tensor ℂ) (m : Su3Couplings) : ∃ o1 o2 o3 o4 g, su3Obs2x2 eigh m chiral3State pEnv = .ok o1 ∧ su3Obs eigh chiral3State pEnv = .ok o2 ∧
    evalC1 eigh chiral3State pEnv = .ok o3 ∧ evalC2 eigh chiral3State pEnv = .ok o4 ∧ evalGenerators chiral3State pEnv = .ok g := by
  have hc : ((0, 0) : Coord) ∈ chiral3State.keys := by simp [chiral3State, kState, Models.gState]
  obtain ⟨R, hR, -, -⟩ := kProduct (p := 3) [(0, 0)] (fun _ => (0, 0)) (fun _ => chiral3) eigh (by decide) (fun _ => chiral3_norm) (0, 0)
  obtain ⟨R1, hR1, -⟩ := kOne (p := 3) [(0, 0)] (fun _ => (0, 0)) (fun _ => chiral3) eigh (by decide) (fun _ => chiral3_norm) (one_tiling _) (0, 0) (by simp)
  obtain ⟨R21, R12, hR21, hR12⟩ := kPairs (p := 3) [(0, 0)] (fun _ => (0, 0)) (fun _ => chiral3) eigh (by decide) (fun _ => chiral3_norm) (0, 0)
  have hs : FitsState (Models.gDims (3 ^ 3)) chiral3State := Models.gFitsState _ _ _ (by decide)
  have he : FitsEnv (Models.gDims (3 ^ 3)) chiral3State pEnv := Models.gFitsEnv _ _ _
  have hh : HermitianSite 3 (Models.gDims (3 ^ 3)) chiral3State pEnv (0, 0) := kHermitian _ _ _ _
  obtain ⟨_, _, _, _, _, _, _, e1, -⟩ := C120_obs_2x2 eigh m (one_tiling _) hs he (fun _ => rfl) hc hR hR1
  obtain ⟨_, _, _, _, _, e2, -⟩ := C120_obs eigh (one_tiling _) hs he (fun _ => rfl) hc hh hR hR1
  obtain ⟨_, _, e3, -⟩ := C120_C1 eigh (one_tiling _) hs he (fun _ => rfl) hc hh hR hR1 hR21 hR12
  obtain ⟨_, -, e5⟩ := C120_generators eigh (one_tiling _) hs he (fun _ => rfl) hc hR1
  exact ⟨_, _, _, _, _, e1, e2, e3, C120_C2 eigh (one_tiling _) hs he (fun _ => rfl) hc hh hR hR1, e5⟩

end Verif.KagomeRdm
