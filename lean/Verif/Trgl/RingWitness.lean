import Verif.Trgl.RingEnergy
import Verif.Trgl.NnnWitness
/-
Examples for C128: products of single-site states.
-/
namespace Verif.Trgl
open Tensor Ctm Rdm Models Spec Corrf
variable {p : Nat}

theorem pure4 (eigh : Tensor ℂ → List ℝ × Tensor ℂ) (hp : 0 < p) {T : Tensor ℂ} (hT : T.shape = [p, p, p, p, p, p, p, p]) {a b c d : Nat → ℂ} (ha : Unit p a) (hb : Unit p b) (hc : Unit p c)
    (hd : Unit p d) (h : ∀ s0 s1 s2 s3 t0 t1 t2 t3 : Nat, s0 < p → s1 < p → s2 < p → s3 < p → t0 < p → t1 < p → t2 < p → t3 < p → T.val [s0, s1, s2, s3, t0, t1, t2, t3] =
      a s0 * star (a t0) * (b s1 * star (b t1)) * (c s2 * star (c t2)) * (d s3 * star (d t3))) :
    ∃ R, symRdm eigh false T = .ok R ∧ dens 4 p R = prod ![ketbra p a, ketbra p b, ketbra p c, ketbra p d] := by
  obtain ⟨R, e, sh, v⟩ := pure_sym eigh (s := [p, p, p, p]) hT (by simp [hp]) (by
    rw [trace_op]
    simp only [sumIdx]
    have : (1 : ℂ) = (∑ s ∈ Finset.range p, a s * star (a s) : ℂ) * ((∑ s ∈ Finset.range p, b s * star (b s) : ℂ) * ((∑ s ∈ Finset.range p, c s * star (c s) : ℂ) * ∑ s ∈ Finset.range p, d s * star (d s) : ℂ)) := by
      rw [ha, hb, hc, hd]; simp
    rw [this, Finset.sum_mul_sum, Finset.sum_mul_sum, Finset.sum_mul_sum]
    refine Finset.sum_congr rfl fun s hs => Finset.sum_congr rfl fun t ht => ?_
    rw [Finset.mul_sum]
    refine Finset.sum_congr rfl fun u hu => ?_
    rw [Finset.mul_sum, Finset.mul_sum]
    refine Finset.sum_congr rfl fun w hw => ?_
    refine (h s t u w s t u w (Finset.mem_range.1 hs) (Finset.mem_range.1 ht) (Finset.mem_range.1 hu) (Finset.mem_range.1 hw) (Finset.mem_range.1 hs) (Finset.mem_range.1 ht)
      (Finset.mem_range.1 hu) (Finset.mem_range.1 hw)).trans ?_
    ring) (by
    rintro k b (_ | ⟨k0, _ | ⟨k1, _ | ⟨k2, _ | ⟨k3, ⟨⟩⟩⟩⟩⟩) (_ | ⟨b0, _ | ⟨b1, _ | ⟨b2, _ | ⟨b3, ⟨⟩⟩⟩⟩⟩)
    simp only [List.cons_append, List.nil_append]
    rw [h _ _ _ _ _ _ _ _ b0 b1 b2 b3 k0 k1 k2 k3, h _ _ _ _ _ _ _ _ k0 k1 k2 k3 b0 b1 b2 b3]
    simp only [star_mul', star_star]
    ring)
  refine ⟨R, e, ?_⟩
  ext s t
  rw [dens, Matrix.of_apply, v _ _ (by simp [InB]) (by simp [InB])]
  simp only [List.ofFn_succ, List.ofFn_zero, List.cons_append, List.nil_append]
  rw [h _ _ _ _ _ _ _ _ (s _).2 (s _).2 (s _).2 (s _).2 (t _).2 (t _).2 (t _).2 (t _).2]
  simp [prod, ketbra, Fin.prod_univ_four]

section
variable (keys : List Coord) (vts : Coord → Coord) (v : Coord → Nat → ℂ) (eigh : Tensor ℂ → List ℝ × Tensor ℂ) (hp : 0 < p) (hv : ∀ c, Unit p (v c))
include hp hv

/-- Four sites of a patch of three columns and two rows. -/
theorem gWide4 (c : Coord) : ∃ R, rdm2x3 eigh false (gState p keys vts v) pEnv c [1, 2, 3, 4] = .ok R ∧
    dens 4 p R = prod ![ketbra p (v (vts (rt c))), ketbra p (v (vts (rt (rt c)))), ketbra p (v (vts (dn c))), ketbra p (v (vts (rt (dn c))))] := by
  obtain ⟨rho, ⟨e, s, h0, hn⟩, e1, -⟩ := C126_horizontal eigh false (gFitsState keys vts v hp) (gFitsEnv keys vts v) c [1, 2, 3, 4] (by decide) (by decide)
  rw [e1]
  refine pure4 eigh hp ?_ (hv _) (hv _) (hv _) (hv _) fun s0 s1 s2 s3 t0 t1 t2 t3 k0 k1 k2 k3 l0 l1 l2 l3 => ?_
  · rw [hn.1]; simp [Rdm.Spec.open6, Rdm.Spec.dims23, List.range_succ, gDims]
  · have := hn.2 (fun l => if l = 102 then s0 else if l = 104 then s1 else if l = 106 then s2 else if l = 108 then s3 else if l = 103 then t0 else if l = 105 then t1 else if l = 107 then t2 else if l = 109 then t3 else 0) (by
      intro g hg l hl
      have hg' : g ∈ [[102], [104], [106], [108], [103], [105], [107], [109]] := hg
      fin_cases hg' <;> fin_cases hl <;> assumption)
    rw [show (Rdm.Spec.closed6 [1, 2, 3, 4]).map (fun x => 100 + 2 * x) = [100, 110] from rfl, sumOver_append] at this
    have hi : ∀ F : (Nat → Nat) → ℂ, ∀ σ : Nat → Nat, (∀ l, l < 100 → σ l = 0) → sumOver (Rdm.Spec.dims23 (gDims p) c) Rdm.Spec.inner23 F σ = F σ := by
      intro F σ hσ
      exact sumOver_base _ (by intro l hl; fin_cases hl <;> rfl) _ _ fun l hl => hσ l (by revert l; decide)
    have hz : ∀ x w : Nat, ∀ l, l < 100 → Function.update (Function.update (fun l => if l = 102 then s0 else if l = 104 then s1 else if l = 106 then s2 else if l = 108 then s3 else if l = 103 then t0 else if l = 105 then t1 else if l = 107 then t2 else if l = 109 then t3 else 0) 100 x) 110 w l = 0 := by
      intro x w l hl
      rw [Function.update_of_ne (by omega), Function.update_of_ne (by omega)]
      simp only [show l ≠ 102 by omega, show l ≠ 103 by omega, show l ≠ 104 by omega, show l ≠ 105 by omega, show l ≠ 106 by omega, show l ≠ 107 by omega, show l ≠ 108 by omega,
        show l ≠ 109 by omega, if_false]
    simp only [sumOver] at this
    rw [Finset.sum_congr rfl fun x _ => Finset.sum_congr rfl fun w _ => hi _ _ (hz x w)] at this
    have ea : s.a = gSite p (v (vts (c))) := (Option.some.inj h0.a).symm
    have eax : s.ax = gSite p (v (vts (rt c))) := (Option.some.inj h0.ax).symm
    have eaz : s.az = gSite p (v (vts (rt (rt c)))) := (Option.some.inj h0.az).symm
    have eay : s.ay = gSite p (v (vts (dn c))) := (Option.some.inj h0.ay).symm
    have eaxy : s.axy = gSite p (v (vts (rt (dn c)))) := (Option.some.inj h0.axy).symm
    have eazy : s.azy = gSite p (v (vts (rt (rt (dn c))))) := (Option.some.inj h0.azy).symm
    simp only [Rdm.Spec.rho23, envC v hp hv _ _ h0.C1, envC v hp hv _ _ h0.C2, envC v hp hv _ _ h0.C3, envC v hp hv _ _ h0.C4,
      envT v hp hv _ _ h0.T1, envT v hp hv _ _ h0.T4, envT v hp hv _ _ h0.T3y, envT v hp hv _ _ h0.T4y, envT v hp hv _ _ h0.T3xy, envT v hp hv _ _ h0.T2zy, envT v hp hv _ _ h0.T3zy, envT v hp hv _ _ h0.T1z, envT v hp hv _ _ h0.T2z, envT v hp hv _ _ h0.T1x, ea, eax, eaz, eay, eaxy, eazy, gSite] at this
    simp only [Rdm.Spec.bra, List.mem_cons, List.not_mem_nil, or_false] at this
    norm_num [ravel, Function.update_apply, Rdm.Spec.open6, List.range_succ] at this
    refine this.trans ?_
    have hd : ∀ l, l = 100 ∨ l = 110 → Rdm.Spec.dims23 (gDims p) c l = p := by rintro l (rfl | rfl) <;> rfl
    rw [hd 100 (by simp), hd 110 (by simp)]
    have hu : ∀ c, ∑ a ∈ Finset.range p, v c a * (starRingEnd ℂ) (v c a) = 1 := hv
    simp only [← Finset.mul_sum, ← Finset.sum_mul, hu]
    simp

/-- Four sites of a patch of two columns and three rows. -/
theorem gTall4 (c : Coord) : ∃ R, rdm3x2 eigh false (gState p keys vts v) pEnv c [1, 2, 3, 4] = .ok R ∧
    dens 4 p R = prod ![ketbra p (v (vts (dn c))), ketbra p (v (vts (dn (dn c)))), ketbra p (v (vts (rt c))), ketbra p (v (vts (rt (dn c))))] := by
  obtain ⟨rho, ⟨e, s, h0, hn⟩, e1, -⟩ := C126_vertical eigh false (gFitsState keys vts v hp) (gFitsEnv keys vts v) c [1, 2, 3, 4] (by decide) (by decide)
  rw [e1]
  refine pure4 eigh hp ?_ (hv _) (hv _) (hv _) (hv _) fun s0 s1 s2 s3 t0 t1 t2 t3 k0 k1 k2 k3 l0 l1 l2 l3 => ?_
  · rw [hn.1]; simp [Rdm.Spec.open6, Rdm.Spec.dims32, List.range_succ, gDims]
  · have := hn.2 (fun l => if l = 102 then s0 else if l = 104 then s1 else if l = 106 then s2 else if l = 108 then s3 else if l = 103 then t0 else if l = 105 then t1 else if l = 107 then t2 else if l = 109 then t3 else 0) (by
      intro g hg l hl
      have hg' : g ∈ [[102], [104], [106], [108], [103], [105], [107], [109]] := hg
      fin_cases hg' <;> fin_cases hl <;> assumption)
    rw [show (Rdm.Spec.closed6 [1, 2, 3, 4]).map (fun x => 100 + 2 * x) = [100, 110] from rfl, sumOver_append] at this
    have hi : ∀ F : (Nat → Nat) → ℂ, ∀ σ : Nat → Nat, (∀ l, l < 100 → σ l = 0) → sumOver (Rdm.Spec.dims32 (gDims p) c) Rdm.Spec.inner32 F σ = F σ := by
      intro F σ hσ
      exact sumOver_base _ (by intro l hl; fin_cases hl <;> rfl) _ _ fun l hl => hσ l (by revert l; decide)
    have hz : ∀ x w : Nat, ∀ l, l < 100 → Function.update (Function.update (fun l => if l = 102 then s0 else if l = 104 then s1 else if l = 106 then s2 else if l = 108 then s3 else if l = 103 then t0 else if l = 105 then t1 else if l = 107 then t2 else if l = 109 then t3 else 0) 100 x) 110 w l = 0 := by
      intro x w l hl
      rw [Function.update_of_ne (by omega), Function.update_of_ne (by omega)]
      simp only [show l ≠ 102 by omega, show l ≠ 103 by omega, show l ≠ 104 by omega, show l ≠ 105 by omega, show l ≠ 106 by omega, show l ≠ 107 by omega, show l ≠ 108 by omega,
        show l ≠ 109 by omega, if_false]
    simp only [sumOver] at this
    rw [Finset.sum_congr rfl fun x _ => Finset.sum_congr rfl fun w _ => hi _ _ (hz x w)] at this
    have ea : s.a = gSite p (v (vts (c))) := (Option.some.inj h0.a).symm
    have eay : s.ay = gSite p (v (vts (dn c))) := (Option.some.inj h0.ay).symm
    have eaw : s.aw = gSite p (v (vts (dn (dn c)))) := (Option.some.inj h0.aw).symm
    have eax : s.ax = gSite p (v (vts (rt c))) := (Option.some.inj h0.ax).symm
    have eaxy : s.axy = gSite p (v (vts (rt (dn c)))) := (Option.some.inj h0.axy).symm
    have eaxw : s.axw = gSite p (v (vts (rt (dn (dn c))))) := (Option.some.inj h0.axw).symm
    simp only [Rdm.Spec.rho32, envC v hp hv _ _ h0.C1, envC v hp hv _ _ h0.C2, envC v hp hv _ _ h0.C3, envC v hp hv _ _ h0.C4,
      envT v hp hv _ _ h0.T1, envT v hp hv _ _ h0.T4, envT v hp hv _ _ h0.T4y, envT v hp hv _ _ h0.T4w, envT v hp hv _ _ h0.T1x, envT v hp hv _ _ h0.T2x, envT v hp hv _ _ h0.T2xy, envT v hp hv _ _ h0.T2xw, envT v hp hv _ _ h0.T3xw, envT v hp hv _ _ h0.T3w, ea, eay, eaw, eax, eaxy, eaxw, gSite] at this
    simp only [Rdm.Spec.bra, List.mem_cons, List.not_mem_nil, or_false] at this
    norm_num [ravel, Function.update_apply, Rdm.Spec.open6, List.range_succ] at this
    refine this.trans ?_
    have hd : ∀ l, l = 100 ∨ l = 110 → Rdm.Spec.dims32 (gDims p) c l = p := by rintro l (rfl | rfl) <;> rfl
    rw [hd 100 (by simp), hd 110 (by simp)]
    have hu : ∀ c, ∑ a ∈ Finset.range p, v c a * (starRingEnd ℂ) (v c a) = 1 := hv
    simp only [← Finset.mul_sum, ← Finset.sum_mul, hu]
    simp

/-- The sites of a plaquette. -/
theorem gSquare4 (c : Coord) : ∃ R, rdm2x2 eigh false (gState p keys vts v) pEnv c [0, 1, 2, 3] = .ok R ∧
    dens 4 p R = prod ![ketbra p (v (vts c)), ketbra p (v (vts (rt c))), ketbra p (v (vts (dn c))), ketbra p (v (vts (dn (rt c))))] := by
  obtain ⟨e, s, T, -, sT, vT, -, hR⟩ := gPlaquette keys vts v eigh hp hv c
  rw [hR _ (by decide) (by decide)]
  refine pure4 eigh hp rfl (hv _) (hv _) (hv _) (hv _) fun s0 s1 s2 s3 t0 t1 t2 t3 k0 k1 k2 k3 l0 l1 l2 l3 => ?_
  show T.val [s0, s1, s2, s3, t0, t1, t2, t3] = _
  exact vT s0 s1 s2 s3 t0 t1 t2 t3 k0 k1 k2 k3 l0 l1 l2 l3

end

/-! ### Values in products of single-site states -/

theorem prod_terms (B : Fin 4 → Su2.Op p) (x z : Fin 4 → ℂ) (h1 : ∀ i, Matrix.trace (B i) = 1) (hx : ∀ i, Matrix.trace (B i * Trgl.Spec.spin p 0) = x i)
    (hy : ∀ i, Matrix.trace (B i * Trgl.Spec.spin p 1) = 0) (hz : ∀ i, Matrix.trace (B i * Trgl.Spec.spin p 2) = z i) (i j k l : Fin 4)
    (hp : ∃ f : Equiv.Perm (Fin 4), f 0 = i ∧ f 1 = j ∧ f 2 = k ∧ f 3 = l) :
    let d := fun i j => x i * x j + z i * z j
    termsOf (prod B) i j k l = ⟨d i j + d j k + d k l + d l i, d i k, 0, d i j * d k l + d i l * d j k - d i k * d j l⟩ := by
  have key : ∀ (B : Fin 4 → Su2.Op p) (x z : Fin 4 → ℂ) (_ : ∀ i, Matrix.trace (B i) = 1) (_ : ∀ i, Matrix.trace (B i * Trgl.Spec.spin p 0) = x i)
      (_ : ∀ i, Matrix.trace (B i * Trgl.Spec.spin p 1) = 0) (_ : ∀ i, Matrix.trace (B i * Trgl.Spec.spin p 2) = z i),
      let d := fun i j => x i * x j + z i * z j
      termsOf (prod B) 0 1 2 3 = ⟨d 0 1 + d 1 2 + d 2 3 + d 3 0, d 0 2, 0, d 0 1 * d 2 3 + d 0 3 * d 1 2 - d 0 2 * d 1 3⟩ := by
    clear hp hx hy hz h1 x z B
    intro B x z h1 hx hy hz d
    have e1 : ∀ A : Fin 4 → Su2.Op p, Matrix.trace (prod A) = Matrix.trace (A 0) * Matrix.trace (A 1) * Matrix.trace (A 2) * Matrix.trace (A 3) := by
      intro A; rw [trace_prod, Fin.prod_univ_four]
    have hd : ∀ i j, i ≠ j → Matrix.trace (prod B * dot 4 p i j) = d i j := by
      intro i j hij
      unfold Trgl.Spec.dot
      rw [Finset.mul_sum, Matrix.trace_sum, Fin.sum_univ_three]
      unfold Trgl.Spec.on
      simp only [prod_mul, e1]
      fin_cases i <;> fin_cases j <;> first | exact absurd rfl hij | (simp [Function.update, h1, hx, hy, hz, d]; try ring)
    have hg : ∀ i j k l, (i, j, k, l) ∈ [((0 : Fin 4), (1 : Fin 4), (2 : Fin 4), (3 : Fin 4)), (0, 3, 1, 2), (0, 2, 1, 3)] → Matrix.trace (prod B * (dot 4 p i j * dot 4 p k l)) = d i j * d k l := by
      intro i j k l h
      unfold Trgl.Spec.dot
      rw [Fin.sum_univ_three, Fin.sum_univ_three]
      unfold Trgl.Spec.on
      simp only [mul_add, add_mul, Matrix.trace_add, prod_mul, e1]
      simp only [List.mem_cons, List.not_mem_nil, or_false, Prod.mk.injEq] at h
      rcases h with ⟨rfl, rfl, rfl, rfl⟩ | ⟨rfl, rfl, rfl, rfl⟩ | ⟨rfl, rfl, rfl, rfl⟩ <;> simp [Function.update, h1, hx, hy, hz, d] <;> ring
    have ht : ∀ i j k, (i, j, k) ∈ [((0 : Fin 4), (1 : Fin 4), (3 : Fin 4)), (1, 2, 3)] → Matrix.trace (prod B * triple 4 p i j k) = 0 := by
      intro i j k h
      unfold triple
      rw [Fin.sum_univ_three]
      unfold Trgl.Spec.on
      simp only [mul_add, mul_sub, Matrix.trace_add, Matrix.trace_sub, prod_mul, e1]
      simp only [List.mem_cons, List.not_mem_nil, or_false, Prod.mk.injEq] at h
      have a1 : (0 : Fin 3) + 1 = 1 := rfl
      have a2 : (0 : Fin 3) + 2 = 2 := rfl
      have a3 : (1 : Fin 3) + 1 = 2 := rfl
      have a4 : (1 : Fin 3) + 2 = 0 := rfl
      have a5 : (2 : Fin 3) + 1 = 0 := rfl
      have a6 : (2 : Fin 3) + 2 = 1 := rfl
      simp only [a1, a2, a3, a4, a5, a6]
      rcases h with ⟨rfl, rfl, rfl⟩ | ⟨rfl, rfl, rfl⟩ <;> simp [Function.update, h1, hx, hy, hz]
    simp only [termsOf, sides, Trgl.Spec.ring, mul_add, mul_sub, Matrix.trace_add, Matrix.trace_sub]
    rw [hd _ _ (by decide), hd _ _ (by decide), hd _ _ (by decide), hd _ _ (by decide), hd _ _ (by decide), hg _ _ _ _ (by decide), hg _ _ _ _ (by decide), hg _ _ _ _ (by decide),
      ht _ _ _ (by decide), ht _ _ _ (by decide), add_zero]
  obtain ⟨f, rfl, rfl, rfl, rfl⟩ := hp
  rw [← terms_relabel, relabel_prod]
  exact key (B ∘ f) (x ∘ f) (z ∘ f) (fun i => h1 _) (fun i => hx _) (fun i => hy _) (fun i => hz _)

/-- The spin of the ferromagnet after a rotation. -/
theorem up_turn (φ : ℝ) : Matrix.trace (turn 2 φ * ketbra 2 upV * (turn 2 φ).conjTranspose) = 1 ∧
    Matrix.trace (turn 2 φ * ketbra 2 upV * (turn 2 φ).conjTranspose * Trgl.Spec.spin 2 0) = ((Real.sin φ / 2 : ℝ) : ℂ) ∧
    Matrix.trace (turn 2 φ * ketbra 2 upV * (turn 2 φ).conjTranspose * Trgl.Spec.spin 2 1) = 0 ∧
    Matrix.trace (turn 2 φ * ketbra 2 upV * (turn 2 φ).conjTranspose * Trgl.Spec.spin 2 2) = ((Real.cos φ / 2 : ℝ) : ℂ) := by
  have h2 : φ = 2 * (φ / 2) := by ring
  rw [turn_conj, turn_half, turn_half, up_ketbra]
  simp only [Trgl.Spec.spin, sx_half, sy_half, sz_half]
  rw [show Real.sin φ = 2 * Real.sin (φ / 2) * Real.cos (φ / 2) by rw [← Real.sin_two_mul]; congr 1]
  rw [show Real.cos φ = 2 * Real.cos (φ / 2) ^ 2 - 1 by rw [← Real.cos_two_mul]; congr 1]
  have hc := Complex.ofReal_inj.2 (Real.sin_sq_add_cos_sq (φ / 2))
  push_cast at hc
  refine ⟨?_, ?_, ?_, ?_⟩ <;> simp [Matrix.trace, Fin.sum_univ_two, neg_div, Matrix.mul_apply] <;> first | done | ring1 | linear_combination (-1 / 2 : ℂ) * hc | linear_combination hc

/-- A rhombus of the spiral over the ferromagnet. -/
theorem up_rhombus (q : ℝ × ℝ) (r : Fin 4 → Coord) {R : Tensor ℂ} (h : dens 4 2 R = prod ![ketbra 2 upV, ketbra 2 upV, ketbra 2 upV, ketbra 2 upV]) (i j k l : Fin 4)
    (hp : ∃ f : Equiv.Perm (Fin 4), f 0 = i ∧ f 1 = j ∧ f 2 = k ∧ f 3 = l) :
    let d := fun i j => ((Real.cos (2 * Real.pi * (q.1 * ((r i).1 - (r j).1) + q.2 * ((r i).2 - (r j).2))) / 4 : ℝ) : ℂ)
    rhombus (p := 2) q r R i j k l = ⟨d i j + d j k + d k l + d l i, d i k, 0, d i j * d k l + d i l * d j k - d i k * d j l⟩ := by
  intro d
  have hM : spiral 2 q r * dens 4 2 R * (spiral 2 q r).conjTranspose = prod fun i => turn 2 (2 * Real.pi * (q.1 * (r i).1 + q.2 * (r i).2)) * ketbra 2 upV *
      (turn 2 (2 * Real.pi * (q.1 * (r i).1 + q.2 * (r i).2))).conjTranspose := by
    unfold spiral
    rw [h, prod_conj, prod_mul, prod_mul]
    congr 1
    funext i
    fin_cases i <;> rfl
  have hr : rhombus (p := 2) q r R i j k l = termsOf (spiral 2 q r * dens 4 2 R * (spiral 2 q r).conjTranspose) i j k l := rfl
  rw [hr, hM, prod_terms _ _ _ (fun i => (up_turn _).1) (fun i => (up_turn _).2.1) (fun i => (up_turn _).2.2.1) (fun i => (up_turn _).2.2.2) i j k l hp]
  have hd : ∀ i j, ((Real.sin (2 * Real.pi * (q.1 * (r i).1 + q.2 * (r i).2)) / 2 : ℝ) : ℂ) * ((Real.sin (2 * Real.pi * (q.1 * (r j).1 + q.2 * (r j).2)) / 2 : ℝ) : ℂ) +
      ((Real.cos (2 * Real.pi * (q.1 * (r i).1 + q.2 * (r i).2)) / 2 : ℝ) : ℂ) * ((Real.cos (2 * Real.pi * (q.1 * (r j).1 + q.2 * (r j).2)) / 2 : ℝ) : ℂ) = d i j := by
    intro i j
    simp only [d]
    rw [show 2 * Real.pi * (q.1 * (((r i).1 : ℝ) - (r j).1) + q.2 * ((r i).2 - (r j).2)) = 2 * Real.pi * (q.1 * (r i).1 + q.2 * (r i).2) - 2 * Real.pi * (q.1 * (r j).1 + q.2 * (r j).2) by ring,
      Real.cos_sub]
    push_cast
    ring
  simp only [hd]

/-- The hypotheses of C128 are met by the spiral over the ferromagnet, for all couplings and angles; its energy is the classical one. -/
theorem C128_classical (eigh : Tensor ℂ → List ℝ × Tensor ℂ) (j1 j2 j4 jchi : ℝ) (hj : j4 ≠ 0) (q : ℝ × ℝ) :
    let u := fun n : ℝ => Real.cos (n * (2 * Real.pi * q.1))
    energyJ4 eigh ⟨2, j1, jchi, 1⟩ j2 j4 q upOne pEnv =
      .ok (j1 * (2 * u 1 + u 2) / 4 + j2 * (2 * u 3 + 1) / 4 + j4 * (4 * u 1 ^ 2 + 2 * u 2 ^ 2 - 2 * u 3 * u 1 - u 2) / 16) := by
  intro u
  have hv : ∀ c : Coord, Unit 2 ((fun _ => upV) c) := fun _ => upV_unit
  obtain ⟨r, er, dr⟩ := gWide4 [(0, 0)] (fun _ => (0, 0)) (fun _ => upV) eigh (by norm_num) hv (0, 0)
  obtain ⟨s, es, ds⟩ := gTall4 [(0, 0)] (fun _ => (0, 0)) (fun _ => upV) eigh (by norm_num) hv (0, 0)
  obtain ⟨t, et, dt⟩ := gSquare4 [(0, 0)] (fun _ => (0, 0)) (fun _ => upV) eigh (by norm_num) hv (0, 0)
  have hs : FitsState (gDims 2) upOne := gFitsState _ _ _ (by norm_num)
  have he : FitsEnv (gDims 2) upOne pEnv := gFitsEnv _ _ _
  rw [C128_energy eigh hs he (m := ⟨2, j1, jchi, 1⟩) (fun _ => rfl) j2 j4 hj rfl q (by simp [upOne, gState]) (fun _ => r) (fun _ => s) (fun _ => t)
    (fun c hc => by obtain rfl := List.mem_singleton.1 hc; exact er) (fun c hc => by obtain rfl := List.mem_singleton.1 hc; exact es)
    (fun c hc => by obtain rfl := List.mem_singleton.1 hc; exact et)]
  have hk : upOne.keys = [(0, 0)] := rfl
  rw [hk]
  simp only [List.map_cons, List.map_nil, List.sum_cons, List.sum_nil, List.length_singleton, add_zero, Nat.cast_one, div_one]
  rw [up_rhombus (pitch q) (wideSites (0, 0)) dr 2 3 1 0 ⟨f2310, rfl, rfl, rfl, rfl⟩, up_rhombus (pitch q) (tallSites (0, 0)) ds 1 3 2 0 ⟨f1320, rfl, rfl, rfl, rfl⟩,
    up_rhombus (pitch q) (squareSites (0, 0)) dt 0 2 3 1 ⟨⟨![0, 2, 3, 1], ![0, 3, 1, 2], by decide, by decide⟩, rfl, rfl, rfl, rfl⟩]
  have hu : ∀ (a b c d : ℤ) (n : ℝ), ((a : ℝ) - c - (b - d) = n ∨ (a : ℝ) - c - (b - d) = -n) →
      Real.cos (2 * Real.pi * ((pitch q).1 * ((a : ℝ) - c) + (pitch q).2 * ((b : ℝ) - d))) = u n := by
    intro a b c d n h
    rw [show 2 * Real.pi * ((pitch q).1 * ((a : ℝ) - c) + (pitch q).2 * ((b : ℝ) - d)) = -(((a : ℝ) - c - (b - d)) * (2 * Real.pi * q.1)) by simp only [pitch]; ring, Real.cos_neg]
    rcases h with h | h
    · rw [h]
    · rw [h, neg_mul, Real.cos_neg]
  have h0 : u 0 = 1 := by simp [u]
  have w1 : wideSites (0, 0) 0 = (1, 0) := rfl
  have w2 : wideSites (0, 0) 1 = (2, 0) := rfl
  have w3 : wideSites (0, 0) 2 = (0, 1) := rfl
  have w4 : wideSites (0, 0) 3 = (1, 1) := rfl
  have t1 : tallSites (0, 0) 0 = (0, 1) := rfl
  have t2 : tallSites (0, 0) 1 = (0, 2) := rfl
  have t3 : tallSites (0, 0) 2 = (1, 0) := rfl
  have t4 : tallSites (0, 0) 3 = (1, 1) := rfl
  have s1 : squareSites (0, 0) 0 = (0, 0) := rfl
  have s2 : squareSites (0, 0) 1 = (1, 0) := rfl
  have s3 : squareSites (0, 0) 2 = (0, 1) := rfl
  have s4 : squareSites (0, 0) 3 = (1, 1) := rfl
  simp only [w1, w2, w3, w4, t1, t2, t3, t4, s1, s2, s3, s4]
  simp only [hu 0 1 1 1 1 (by norm_num), hu 1 1 2 0 2 (by norm_num), hu 2 0 1 0 1 (by norm_num), hu 1 0 0 1 2 (by norm_num), hu 0 1 2 0 3 (by norm_num), hu 0 1 1 0 2 (by norm_num), hu 1 1 1 0 1 (by norm_num), hu 0 2 1 1 2 (by norm_num), hu 0 1 0 2 1 (by norm_num), hu 0 2 1 0 3 (by norm_num), hu 0 2 0 1 1 (by norm_num), hu 1 1 0 1 1 (by norm_num), hu 0 0 0 1 1 (by norm_num), hu 1 0 0 0 1 (by norm_num), hu 0 0 1 1 0 (by norm_num), hu 0 0 1 0 1 (by norm_num), h0]
  simp only [rhombusEnergy]
  refine congrArg Except.ok ?_
  rw [← Complex.ofReal_re (j1 * (2 * u 1 + u 2) / 4 + j2 * (2 * u 3 + 1) / 4 + j4 * (4 * u 1 ^ 2 + 2 * u 2 ^ 2 - 2 * u 3 * u 1 - u 2) / 16)]
  refine congrArg Complex.re ?_
  push_cast
  ring

end Verif.Trgl
