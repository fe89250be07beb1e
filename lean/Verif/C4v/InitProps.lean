import Verif.C4v.InitLemmas
import Mathlib.Analysis.Matrix.Spectrum
/-
Property C137: the initial environments of one-site C4v symmetric states.
-/
namespace Verif.C4v
open Tensor Ctm Corner.Spec
set_option linter.unusedSimpArgs false
variable {K : Type} [RCLike K]

theorem sum4 {n m : Nat} (f : Nat → K) (g : Nat → Nat → K) (t : Nat → Nat → K) (h : Nat → Nat → K) (k : Nat → K) :
    ∑ i ∈ Finset.range n, ∑ j ∈ Finset.range n, f i * (∑ a ∈ Finset.range m, ∑ b ∈ Finset.range m, g a i * t a b * h b j) * k j =
      ∑ a ∈ Finset.range m, ∑ b ∈ Finset.range m, (∑ i ∈ Finset.range n, f i * g a i) * t a b * (∑ j ∈ Finset.range n, h b j * k j) := by
  have e1 : ∀ i j, f i * (∑ a ∈ Finset.range m, ∑ b ∈ Finset.range m, g a i * t a b * h b j) * k j =
      ∑ q ∈ Finset.range m ×ˢ Finset.range m, f i * g q.1 i * t q.1 q.2 * (h q.2 j * k j) := by
    intro i j
    rw [← Finset.sum_product', Finset.mul_sum, Finset.sum_mul]
    exact Finset.sum_congr rfl (fun q _ => by ring)
  have e2 : ∀ a b, (∑ i ∈ Finset.range n, f i * g a i) * t a b * (∑ j ∈ Finset.range n, h b j * k j) =
      ∑ q ∈ Finset.range n ×ˢ Finset.range n, f q.1 * g a q.1 * t a b * (h b q.2 * k q.2) := by
    intro a b
    rw [Finset.sum_mul, Finset.sum_mul_sum, ← Finset.sum_product']
  simp only [e1, e2]
  have c1 : ∀ F : Nat → Nat → K, ∑ i ∈ Finset.range n, ∑ j ∈ Finset.range n, F i j = ∑ q ∈ Finset.range n ×ˢ Finset.range n, F q.1 q.2 := fun F => (Finset.sum_product' _ _ _).symm
  have c2 : ∀ F : Nat → Nat → K, ∑ i ∈ Finset.range m, ∑ j ∈ Finset.range m, F i j = ∑ q ∈ Finset.range m ×ˢ Finset.range m, F q.1 q.2 := fun F => (Finset.sum_product' _ _ _).symm
  rw [c1, c2, Finset.sum_comm]

/-- The traces that are computed are those of the specification and do not vanish. -/
theorem traced_ok {b : Block} {v : Coord} (hok : b.ok = true) (h1 : b.legs.map Prod.fst = Ctm.Spec.openLegs v)
    (h3 : (((b.ket ++ b.bra).dedup.filter (fun l => l ∉ b.out)).map b.ren).Perm ((List.range 5).filter (· ∉ Ctm.Spec.openLegs v)))
    (h4 : b.bra.map b.ren = (List.range 5).map (fun i => if i ∈ (List.range 5).filter (· ∉ Ctm.Spec.openLegs v) then i else i + 5))
    {A : Tensor K} (hA : A.shape.length = 5) (h0 : ∃ idx, InB A.shape idx ∧ A.val idx ≠ 0) :
    ∃ N N', traced b A = .ok N' ∧ IsNetwork (Ctm.Spec.legDim A) N ((Ctm.Spec.openLegs v).map (fun i => [i, i + 5])) ((List.range 5).filter (· ∉ Ctm.Spec.openLegs v))
      (Ctm.Spec.ketBra ((List.range 5).filter (· ∉ Ctm.Spec.openLegs v)) A) ∧ Ctm.Spec.Normalised true N N' := by
  obtain ⟨a0, N, e0, e1, hn⟩ := block_net true hok hA
  have hn' : IsNetwork (Ctm.Spec.legDim A) N ((Ctm.Spec.openLegs v).map (fun i => [i, i + 5])) ((List.range 5).filter (· ∉ Ctm.Spec.openLegs v))
      (Ctm.Spec.ketBra ((List.range 5).filter (· ∉ Ctm.Spec.openLegs v)) A) := by
    refine isNetwork_congr hn ?_ h3 (fun σ => ?_)
    · rw [← h1, List.map_map]; rfl
    · rw [h4, List.map_map]
      simp only [Function.comp_def, apply_ite σ, Ctm.Spec.ketBra, if_true]
  have hv : vecNorm true N ≠ 0 := by
    intro hv
    obtain ⟨idx, hi, hne⟩ := h0
    exact hne (pbc_nonzero hA hv hn' idx hi)
  have e2 : ∃ N', normMax N = .ok N' := by
    unfold normMax Ctm.normalize
    rw [if_neg hv]
    exact ⟨_, rfl⟩
  obtain ⟨N', e2⟩ := e2
  refine ⟨N, N', ?_, hn', (normalize_ok e2).1⟩
  unfold traced
  simp only [if_true] at e0
  rw [e0]
  simp only [lift, ok_bind]
  rw [e1]
  simp only [ok_bind]
  exact e2

section
variable {p D : Nat} {a : Tensor K} {env : Env K} {eig : Tensor K → Nat → List ℝ × Tensor K}

theorem traced_corner (hs : a.shape = [p, D, D, D, D]) (h0 : ∃ idx, InB a.shape idx ∧ a.val idx ≠ 0) : ∃ c, traced cornerBlk a = .ok c ∧ Spec.TracedCorner a c := by
  obtain ⟨N, N', e, h1, h2⟩ := traced_ok (b := cornerBlk) (v := (-1, -1)) (by decide) (by decide) (by decide) (by decide) (by rw [hs]; rfl) h0
  exact ⟨N', e, N, h1, h2⟩

theorem traced_half (hs : a.shape = [p, D, D, D, D]) (h0 : ∃ idx, InB a.shape idx ∧ a.val idx ≠ 0) : ∃ t, traced halfBlk a = .ok t ∧ Spec.TracedHalf a t := by
  obtain ⟨N, N', e, h1, h2⟩ := traced_ok (b := halfBlk) (v := (-1, 0)) (by decide) (by decide) (by decide) (by decide) (by rw [hs]; rfl) h0
  exact ⟨N', e, N, h1, h2⟩

theorem tracedCorner_herm (hs : a.shape = [p, D, D, D, D]) (hr : Spec.Reflected D p a) {c : Tensor K} (h : Spec.TracedCorner a c) :
    c.shape = [D * D, D * D] ∧ vecNorm true c ≠ 0 ∧ ∀ x y, x < D * D → y < D * D → c.val [x, y] = star (c.val [y, x]) := by
  obtain ⟨c0, h1, h2⟩ := h
  obtain ⟨hsh, hv⟩ := corner_herm hs h1 (by decide) (pbcC_conj hs hr)
  refine ⟨h2.shape.trans hsh, Normalised.ne h2, fun x y hx hy => ?_⟩
  exact norm_conj h2 (by rw [hsh]; exact inB2 hx hy) (by rw [hsh]; exact inB2 hy hx) (hv x y hx hy)

theorem tracedHalf_herm (hs : a.shape = [p, D, D, D, D]) (hr : Spec.Flipped D p a) {t : Tensor K} (h : Spec.TracedHalf a t) :
    t.shape = [D * D, D * D, D * D] ∧ vecNorm true t ≠ 0 ∧ ∀ x y s, x < D * D → y < D * D → s < D * D → t.val [x, y, s] = star (t.val [y, x, s]) := by
  obtain ⟨c0, h1, h2⟩ := h
  obtain ⟨hsh, hv⟩ := half_herm hs h1 (by decide) (pbcT_conj hs hr)
  refine ⟨h2.shape.trans hsh, Normalised.ne h2, fun x y s hx hy hss => ?_⟩
  exact norm_conj h2 (by rw [hsh]; exact inB3 hx hy hss) (by rw [hsh]; exact inB3 hy hx hss) (hv x y s hx hy hss)

theorem permute2 {c : Tensor K} {n m : Nat} (h : c.shape = [n, m]) : ∃ d, permute [1, 0] c.conj = some d ∧ d.shape = [m, n] ∧ ∀ x y, d.val [x, y] = star (c.val [y, x]) := by
  refine ⟨⟨[m, n], fun idx => star (c.val ((List.range 2).map (fun j => idx.getD ([1, 0].idxOf j) 0)))⟩, ?_, rfl, fun x y => rfl⟩
  simp only [permute, conj, h]
  rw [if_pos (by simp)]
  rfl

theorem permute3 {c : Tensor K} {n m k : Nat} (h : c.shape = [n, m, k]) :
    ∃ d, permute [1, 0, 2] c.conj = some d ∧ d.shape = [m, n, k] ∧ ∀ x y s, d.val [x, y, s] = star (c.val [y, x, s]) := by
  refine ⟨⟨[m, n, k], fun idx => star (c.val ((List.range 3).map (fun j => idx.getD ([1, 0, 2].idxOf j) 0)))⟩, ?_, rfl, fun x y s => rfl⟩
  simp only [permute, conj, h]
  rw [if_pos (by simp)]
  rfl

/-- `CTMRG`: for every non-zero site tensor with the reflections of the square lattice the initialisation succeeds. The environment is Hermitian, its corner diagonal, and it
is the environment made of the traced site, in a basis `U` of eigenvectors of the traced corner, cut or padded with zeros. -/
theorem C137_ctmrg (hs : a.shape = [p, D, D, D, D]) (h0 : ∃ idx, InB a.shape idx ∧ a.val idx ≠ 0) (hr : Spec.Reflected D p a) (hf : Spec.Flipped D p a)
    (he : Spec.FullEig eig) :
    ∃ env' c t U, initEnv eig .ctmrg none a env = .ok env' ∧ Spec.Fits env.chi D p a env' ∧ Spec.Hermitian env' ∧ Spec.Diagonal env' ∧
      Spec.TracedCorner a c ∧ Spec.TracedHalf a t ∧ Spec.Unitary U (D * D) ∧
      (∀ i j, i < env.chi → j < env.chi → env'.C.val [i, j] =
        if i < D * D ∧ j < D * D then ∑ x ∈ Finset.range (D * D), ∑ y ∈ Finset.range (D * D), star (U x i) * c.val [x, y] * U y j else 0) ∧
      ∀ i j s, i < env.chi → j < env.chi → s < D * D → env'.T.val [i, j, s] =
        if i < D * D ∧ j < D * D then ∑ x ∈ Finset.range (D * D), ∑ y ∈ Finset.range (D * D), U x i * t.val [x, y, s] * star (U y j) else 0 := by
  obtain ⟨c, ec, hc⟩ := traced_corner hs h0
  obtain ⟨t, et, ht⟩ := traced_half hs h0
  obtain ⟨sc, nc, vc⟩ := tracedCorner_herm hs hr hc
  obtain ⟨st, nt, vt⟩ := tracedHalf_herm hs hf ht
  obtain ⟨lD, sU, hE, hO⟩ := he c (D * D) sc vc
  obtain ⟨ct, ect, sct, vct⟩ := permute2 sc
  have k1 : checkSym c ct = .ok () := checkSym_ok (sc.trans sct.symm) nc (fun idx hi => by
    rw [sc] at hi
    obtain ⟨x, y, rfl, hx, hy⟩ := inB2_iff.1 hi
    rw [vct, vc x y hx hy])
  have hU := unitary_of_cols (U := fun x i => (eig c (D * D)).2.val [x, i]) hO
  obtain ⟨N, eN, sN, vN⟩ := basis_val (U := (eig c (D * D)).2) (t := t) sU st
  have hN : ∀ i j s, i < D * D → j < D * D → s < D * D → N.val [i, j, s] = star (N.val [j, i, s]) := by
    intro i j s hi hj hss
    rw [vN i j s hi hj hss, vN j i s hj hi hss, star_sum]
    simp only [star_sum, star_mul', star_star]
    rw [Finset.sum_comm]
    refine Finset.sum_congr rfl (fun y hy => Finset.sum_congr rfl (fun x hx => ?_))
    rw [vt x y s (Finset.mem_range.1 hx) (Finset.mem_range.1 hy) hss]
    ring
  have nN : vecNorm true N ≠ 0 := by
    intro hz
    apply nt
    have hzero : ∀ x y s, x < D * D → y < D * D → s < D * D → t.val [x, y, s] = 0 := by
      intro x y s hx hy hss
      have h4 := sum4 (n := D * D) (m := D * D) (fun i => star ((eig c (D * D)).2.val [x, i])) (fun x i => (eig c (D * D)).2.val [x, i]) (fun x y => t.val [x, y, s])
        (fun y j => star ((eig c (D * D)).2.val [y, j])) (fun j => (eig c (D * D)).2.val [y, j])
      have hl : ∑ i ∈ Finset.range (D * D), ∑ j ∈ Finset.range (D * D), star ((eig c (D * D)).2.val [x, i]) *
          (∑ a ∈ Finset.range (D * D), ∑ b ∈ Finset.range (D * D), (eig c (D * D)).2.val [a, i] * t.val [a, b, s] * star ((eig c (D * D)).2.val [b, j])) * (eig c (D * D)).2.val [y, j] = 0 := by
        refine Finset.sum_eq_zero (fun i hi => Finset.sum_eq_zero (fun j hj => ?_))
        rw [← vN i j s (Finset.mem_range.1 hi) (Finset.mem_range.1 hj) hss, vecNorm_zero hz _ (by rw [sN]; exact inB3 (Finset.mem_range.1 hi) (Finset.mem_range.1 hj) hss)]
        simp
      rw [hl] at h4
      have e1 : ∀ a ∈ Finset.range (D * D), ∑ i ∈ Finset.range (D * D), star ((eig c (D * D)).2.val [x, i]) * (eig c (D * D)).2.val [a, i] = if a = x then 1 else 0 := by
        intro a ha
        rw [← hU.rows a x (Finset.mem_range.1 ha) hx]
        exact Finset.sum_congr rfl (fun i _ => mul_comm _ _)
      have e2 : ∀ b ∈ Finset.range (D * D), ∑ j ∈ Finset.range (D * D), star ((eig c (D * D)).2.val [b, j]) * (eig c (D * D)).2.val [y, j] = if y = b then 1 else 0 := by
        intro b hb
        rw [← hU.rows y b hy (Finset.mem_range.1 hb)]
        exact Finset.sum_congr rfl (fun i _ => mul_comm _ _)
      rw [h4]
      rw [Finset.sum_congr rfl (fun a ha => Finset.sum_congr rfl (fun b hb => by rw [e1 a ha, e2 b hb]))]
      simp [hx, hy]
    have := vecNorm_zero (a := t)
    by_contra hne
    obtain ⟨idx, hi, hv⟩ : ∃ idx, InB t.shape idx ∧ t.val idx ≠ 0 := by
      obtain ⟨t0, -, h2⟩ := ht
      obtain ⟨idx, hi, h1⟩ := (h2.unitInf rfl).2
      refine ⟨idx, by rw [h2.shape]; exact hi, fun h => ?_⟩
      rw [h, norm_zero] at h1
      exact zero_ne_one h1
    rw [st] at hi
    obtain ⟨x, y, s, rfl, hx, hy, hss⟩ := inB3_iff.1 hi
    exact hv (hzero x y s hx hy hss)
  obtain ⟨Nt, eNt, sNt, vNt⟩ := permute3 sN
  have k2 : checkSym N Nt = .ok () := checkSym_ok (sN.trans sNt.symm) nN (fun idx hi => by
    rw [sN] at hi
    obtain ⟨x, y, s, rfl, hx, hy, hss⟩ := inB3_iff.1 hi
    rw [vNt, hN x y s hx hy hss])
  have z : ∀ i, 1 ≤ i → i ≤ 4 → a.size i = D := by
    intro i h1 h2
    obtain rfl | rfl | rfl | rfl : i = 1 ∨ i = 2 ∨ i = 3 ∨ i = 4 := by omega
    all_goals simp [size, hs]
  obtain ⟨C, eC, sC, vC⟩ := put_ok (chi := env.chi) [(3, true), (4, true)] (fun _ => D * D) (a := (diag (eig c (D * D)).1 : Tensor K)) (by simp [diag, lD])
  obtain ⟨T, eT, sT, vT⟩ := put_ok (chi := env.chi) [(1, true), (3, true), (4, false)] (fun _ => D * D) (a := N) (by simp [sN])
  simp only [List.map_cons, List.map_nil, if_true, Bool.false_eq_true, if_false] at eC eT sC sT
  have vC' : ∀ i j, i < env.chi → j < env.chi → C.val [i, j] = if i < D * D ∧ j < D * D then (if i = j then (((eig c (D * D)).1.getD i 0 : ℝ) : K) else 0) else 0 := by
    intro i j hi hj
    rw [vC [i, j] (by rw [sC]; exact inB2 hi hj), diag_val]
    simp only [diag, lD, inB2']
  have vT' : ∀ i j s, i < env.chi → j < env.chi → s < D * D → T.val [i, j, s] = if i < D * D ∧ j < D * D then N.val [i, j, s] else 0 := by
    intro i j s hi hj hss
    rw [vT [i, j, s] (by rw [sT]; exact inB3 hi hj hss), sN]
    simp only [inB_of_embeds, hss, and_true]
  have hfit : Spec.Fits env.chi D p a ⟨env.chi, C, T⟩ := ⟨hs, rfl, sC, sT⟩
  refine ⟨⟨env.chi, C, T⟩, c, t, fun x i => (eig c (D * D)).2.val [x, i], ?_, hfit, ⟨fun i j hi hj => ?_, fun i j s hi hj hss => ?_⟩, fun i j hi hj hij => ?_, hc, ht, hU,
    fun i j hi hj => ?_, fun i j s hi hj hss => ?_⟩
  · have zc : c.size 0 = D * D := by simp [size, sc]
    simp only [initEnv, initKind]
    rw [if_neg (by rw [hs]; simp)]
    unfold initPbc
    rw [ec]
    simp only [lift, ok_bind]
    rw [ect]
    simp only [ok_bind, k1, zc, pow_two, z 3 (by decide) (by decide), z 4 (by decide) (by decide), z 1 (by decide) (by decide)]
    rw [eC]
    simp only [ok_bind]
    rw [et]
    simp only [ok_bind]
    rw [eN]
    simp only [ok_bind]
    rw [eNt]
    simp only [ok_bind, k2]
    rw [eT]
    rfl
  · show C.val [i, j] = star (C.val [j, i])
    rw [vC' i j hi hj, vC' j i hj hi]
    by_cases hij : i = j
    · subst hij; split <;> simp
    · rw [if_neg hij, if_neg (Ne.symm hij)]; simp
  · have hss : s < D * D := by rw [size, hfit.half] at hss; exact hss
    show T.val [i, j, s] = star (T.val [j, i, s])
    rw [vT' i j s hi hj hss, vT' j i s hj hi hss]
    by_cases hij : i < D * D ∧ j < D * D
    · rw [if_pos hij, if_pos hij.symm, hN i j s hij.1 hij.2 hss]
    · rw [if_neg hij, if_neg (fun h => hij h.symm)]; simp
  · show C.val [i, j] = 0
    rw [vC' i j hi hj, if_neg hij]; simp
  · show C.val [i, j] = _
    rw [vC' i j hi hj]
    by_cases hij : i < D * D ∧ j < D * D
    · rw [if_pos hij, if_pos hij]
      have : ∀ x ∈ Finset.range (D * D), ∑ y ∈ Finset.range (D * D), star ((eig c (D * D)).2.val [x, i]) * c.val [x, y] * (eig c (D * D)).2.val [y, j] =
          star ((eig c (D * D)).2.val [x, i]) * (eig c (D * D)).2.val [x, j] * (((eig c (D * D)).1.getD j 0 : ℝ) : K) := by
        intro x hx
        rw [mul_assoc, ← hE x j (Finset.mem_range.1 hx) hij.2, Finset.mul_sum]
        exact Finset.sum_congr rfl (fun y _ => mul_assoc _ _ _)
      rw [Finset.sum_congr rfl this, ← Finset.sum_mul, hO i j hij.1 hij.2]
      by_cases h : i = j
      · subst h; simp
      · simp [h]
    · rw [if_neg hij, if_neg hij]
  · show T.val [i, j, s] = _
    rw [vT' i j s hi hj hss]
    by_cases hij : i < D * D ∧ j < D * D
    · rw [if_pos hij, if_pos hij, vN i j s hij.1 hij.2 hss]
    · rw [if_neg hij, if_neg hij]

end

end Verif.C4v
