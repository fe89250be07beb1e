import Verif.Trgl.NnnProps
import Verif.Trgl.Witness
/-
Examples for C127 and the refutation of the energies of next-nearest neighbours in spirals.
-/
namespace Verif.Trgl
open Tensor Ctm Rdm Models Spec Corrf
variable {p : Nat}

section
variable (keys : List Coord) (vts : Coord → Coord) (v : Coord → Nat → ℂ) (eigh : Tensor ℂ → List ℝ × Tensor ℂ) (hp : 0 < p) (hv : ∀ c, Unit p (v c))
include hp hv

/-- Upper right and lower left of a patch of three columns and two rows. -/
theorem gWide (c : Coord) : ∃ R, rdm2x3 eigh false (gState p keys vts v) pEnv c [2, 3] = .ok R ∧ dens 2 p R = prod ![ketbra p (v (vts (rt (rt c)))), ketbra p (v (vts (dn c)))] := by
  obtain ⟨rho, ⟨e, s, h0, hn⟩, e1, -⟩ := C126_horizontal eigh false (gFitsState keys vts v hp) (gFitsEnv keys vts v) c [2, 3] (by decide) (by decide)
  rw [e1]
  refine pure2 eigh hp ?_ (hv _) (hv _) fun s0 s1 t0 t1 k0 k1 l0 l1 => ?_
  · rw [hn.1]; simp [Rdm.Spec.open6, Rdm.Spec.dims23, List.range_succ, gDims]
  · have := hn.2 (fun l => if l = 104 then s0 else if l = 106 then s1 else if l = 105 then t0 else if l = 107 then t1 else 0) (by
      intro g hg l hl
      have hg' : g ∈ [[104], [106], [105], [107]] := hg
      fin_cases hg' <;> fin_cases hl <;> assumption)
    rw [show (Rdm.Spec.closed6 [2, 3]).map (fun x => 100 + 2 * x) = [100, 102, 108, 110] from rfl, sumOver_append] at this
    have hi : ∀ F : (Nat → Nat) → ℂ, ∀ σ : Nat → Nat, (∀ l, l < 100 → σ l = 0) → sumOver (Rdm.Spec.dims23 (gDims p) c) Rdm.Spec.inner23 F σ = F σ := by
      intro F σ hσ
      exact sumOver_base _ (by intro l hl; fin_cases hl <;> rfl) _ _ fun l hl => hσ l (by revert l; decide)
    have hz : ∀ x y z w : Nat, ∀ l, l < 100 → Function.update (Function.update (Function.update (Function.update (fun l => if l = 104 then s0 else if l = 106 then s1 else
        if l = 105 then t0 else if l = 107 then t1 else 0) 100 x) 102 y) 108 z) 110 w l = 0 := by
      intro x y z w l hl
      rw [Function.update_of_ne (by omega), Function.update_of_ne (by omega), Function.update_of_ne (by omega), Function.update_of_ne (by omega), if_neg (by omega), if_neg (by omega),
        if_neg (by omega), if_neg (by omega)]
    simp only [sumOver] at this
    rw [Finset.sum_congr rfl fun x _ => Finset.sum_congr rfl fun y _ => Finset.sum_congr rfl fun z _ => Finset.sum_congr rfl fun w _ => hi _ _ (hz x y z w)] at this
    have ea : s.a = gSite p (v (vts (c))) := (Option.some.inj h0.a).symm
    have eax : s.ax = gSite p (v (vts (rt c))) := (Option.some.inj h0.ax).symm
    have eaz : s.az = gSite p (v (vts (rt (rt c)))) := (Option.some.inj h0.az).symm
    have eay : s.ay = gSite p (v (vts (dn c))) := (Option.some.inj h0.ay).symm
    have eaxy : s.axy = gSite p (v (vts (rt (dn c)))) := (Option.some.inj h0.axy).symm
    have eazy : s.azy = gSite p (v (vts (rt (rt (dn c))))) := (Option.some.inj h0.azy).symm
    simp only [Rdm.Spec.rho23, envC v hp hv _ _ h0.C1, envC v hp hv _ _ h0.C2, envC v hp hv _ _ h0.C3, envC v hp hv _ _ h0.C4,
      envT v hp hv _ _ h0.T1, envT v hp hv _ _ h0.T4, envT v hp hv _ _ h0.T3y, envT v hp hv _ _ h0.T4y, envT v hp hv _ _ h0.T3xy, envT v hp hv _ _ h0.T2zy, envT v hp hv _ _ h0.T3zy, envT v hp hv _ _ h0.T1z, envT v hp hv _ _ h0.T2z, envT v hp hv _ _ h0.T1x, ea, eax, eaz, eay, eaxy, eazy, gSite] at this
    simp only [Rdm.Spec.bra, List.mem_cons, List.not_mem_nil, or_false] at this
    norm_num [ravel, Function.update_apply, Rdm.Spec.open6, List.range_succ] at this
    refine this.trans ?_
    have hd : ∀ l, l = 100 ∨ l = 102 ∨ l = 108 ∨ l = 110 → Rdm.Spec.dims23 (gDims p) c l = p := by rintro l (rfl | rfl | rfl | rfl) <;> rfl
    rw [hd 100 (by simp), hd 102 (by simp), hd 108 (by simp), hd 110 (by simp)]
    have hu : ∀ c, ∑ a ∈ Finset.range p, v c a * (starRingEnd ℂ) (v c a) = 1 := hv
    simp only [← Finset.mul_sum, ← Finset.sum_mul, hu]
    simp

/-- Lower left and upper right of a patch of two columns and three rows. -/
theorem gTall (c : Coord) : ∃ R, rdm3x2 eigh false (gState p keys vts v) pEnv c [2, 3] = .ok R ∧ dens 2 p R = prod ![ketbra p (v (vts (dn (dn c)))), ketbra p (v (vts (rt c)))] := by
  obtain ⟨rho, ⟨e, s, h0, hn⟩, e1, -⟩ := C126_vertical eigh false (gFitsState keys vts v hp) (gFitsEnv keys vts v) c [2, 3] (by decide) (by decide)
  rw [e1]
  refine pure2 eigh hp ?_ (hv _) (hv _) fun s0 s1 t0 t1 k0 k1 l0 l1 => ?_
  · rw [hn.1]; simp [Rdm.Spec.open6, Rdm.Spec.dims32, List.range_succ, gDims]
  · have := hn.2 (fun l => if l = 104 then s0 else if l = 106 then s1 else if l = 105 then t0 else if l = 107 then t1 else 0) (by
      intro g hg l hl
      have hg' : g ∈ [[104], [106], [105], [107]] := hg
      fin_cases hg' <;> fin_cases hl <;> assumption)
    rw [show (Rdm.Spec.closed6 [2, 3]).map (fun x => 100 + 2 * x) = [100, 102, 108, 110] from rfl, sumOver_append] at this
    have hi : ∀ F : (Nat → Nat) → ℂ, ∀ σ : Nat → Nat, (∀ l, l < 100 → σ l = 0) → sumOver (Rdm.Spec.dims32 (gDims p) c) Rdm.Spec.inner32 F σ = F σ := by
      intro F σ hσ
      exact sumOver_base _ (by intro l hl; fin_cases hl <;> rfl) _ _ fun l hl => hσ l (by revert l; decide)
    have hz : ∀ x y z w : Nat, ∀ l, l < 100 → Function.update (Function.update (Function.update (Function.update (fun l => if l = 104 then s0 else if l = 106 then s1 else
        if l = 105 then t0 else if l = 107 then t1 else 0) 100 x) 102 y) 108 z) 110 w l = 0 := by
      intro x y z w l hl
      rw [Function.update_of_ne (by omega), Function.update_of_ne (by omega), Function.update_of_ne (by omega), Function.update_of_ne (by omega), if_neg (by omega), if_neg (by omega),
        if_neg (by omega), if_neg (by omega)]
    simp only [sumOver] at this
    rw [Finset.sum_congr rfl fun x _ => Finset.sum_congr rfl fun y _ => Finset.sum_congr rfl fun z _ => Finset.sum_congr rfl fun w _ => hi _ _ (hz x y z w)] at this
    have ea : s.a = gSite p (v (vts (c))) := (Option.some.inj h0.a).symm
    have eay : s.ay = gSite p (v (vts (dn c))) := (Option.some.inj h0.ay).symm
    have eaw : s.aw = gSite p (v (vts (dn (dn c)))) := (Option.some.inj h0.aw).symm
    have eax : s.ax = gSite p (v (vts (rt c))) := (Option.some.inj h0.ax).symm
    have eaxy : s.axy = gSite p (v (vts (rt (dn c)))) := (Option.some.inj h0.axy).symm
    have eaxw : s.axw = gSite p (v (vts (rt (dn (dn c))))) := (Option.some.inj h0.axw).symm
    simp only [Rdm.Spec.rho32, envC v hp hv _ _ h0.C1, envC v hp hv _ _ h0.C2, envC v hp hv _ _ h0.C3, envC v hp hv _ _ h0.C4,
      envT v hp hv _ _ h0.T1, envT v hp hv _ _ h0.T4, envT v hp hv _ _ h0.T4y, envT v hp hv _ _ h0.T4w, envT v hp hv _ _ h0.T1x, envT v hp hv _ _ h0.T2x, envT v hp hv _ _ h0.T2xy, envT v hp hv _ _ h0.T2xw, envT v hp hv _ _ h0.T3xw, envT v hp hv _ _ h0.T3w, ea, eay, eaw, eax, eaxy, eaxw, gSite] at this
    simp only [Rdm.Spec.bra, List.mem_cons, List.not_mem_nil, or_false] at this
    norm_num [ravel, Function.update_apply, Rdm.Spec.open6, List.range_succ] at this
    refine this.trans ?_
    have hd : ∀ l, l = 100 ∨ l = 102 ∨ l = 108 ∨ l = 110 → Rdm.Spec.dims32 (gDims p) c l = p := by rintro l (rfl | rfl | rfl | rfl) <;> rfl
    rw [hd 100 (by simp), hd 102 (by simp), hd 108 (by simp), hd 110 (by simp)]
    have hu : ∀ c, ∑ a ∈ Finset.range p, v c a * (starRingEnd ℂ) (v c a) = 1 := hv
    simp only [← Finset.mul_sum, ← Finset.sum_mul, hu]
    simp

/-- Upper left and lower right of a plaquette. -/
theorem gCorner (c : Coord) : ∃ R, rdm2x2 eigh false (gState p keys vts v) pEnv c [0, 3] = .ok R ∧ dens 2 p R = prod ![ketbra p (v (vts c)), ketbra p (v (vts (dn (rt c))))] := by
  obtain ⟨e, s, T, -, sT, vT, -, hR⟩ := gPlaquette keys vts v eigh hp hv c
  rw [hR _ (by decide) (by decide)]
  refine pure2 eigh hp rfl (hv _) (hv _) fun s0 s1 t0 t1 k0 k1 l0 l1 => ?_
  show (∑ x ∈ Finset.range p, ∑ y ∈ Finset.range p, T.val [s0, x, y, s1, t0, x, y, t1]) = _
  rw [Finset.sum_congr rfl fun x hx => Finset.sum_congr rfl fun y hy => vT s0 x y s1 t0 x y t1 k0 (Finset.mem_range.1 hx) (Finset.mem_range.1 hy) k1 l0 (Finset.mem_range.1 hx) (Finset.mem_range.1 hy) l1]
  simp only [← Finset.mul_sum, ← Finset.sum_mul]
  rw [show ∑ a ∈ Finset.range p, v (vts (dn c)) a * star (v (vts (dn c)) a) = 1 from hv _, show ∑ a ∈ Finset.range p, v (vts (rt c)) a * star (v (vts (rt c)) a) = 1 from hv _]
  ring

end

/-- The cross product in a product of two density matrices. -/
theorem trace_cross (A B : Su2.Op p) : Matrix.trace (prod ![A, B] * crossY 2 p 0 1) =
    Matrix.trace (A * Trgl.Spec.spin p 2) * Matrix.trace (B * Trgl.Spec.spin p 0) - Matrix.trace (A * Trgl.Spec.spin p 0) * Matrix.trace (B * Trgl.Spec.spin p 2) := by
  unfold crossY Trgl.Spec.on
  rw [mul_sub, Matrix.trace_sub, prod_mul, prod_mul, prod_mul, prod_mul, trace_prod, trace_prod, Fin.prod_univ_two, Fin.prod_univ_two]
  simp

/-! ### A cell of three rows -/

/-- Row 0 up, row 1 at an angle, row 2 down. -/
noncomputable def rowV (c : Coord) (a : Nat) : ℂ :=
  if c.2 = 0 then (if a = 0 then 1 else 0) else if c.2 = 1 then (if a = 0 then 3 / 5 else if a = 1 then 4 / 5 else 0) else (if a = 1 then 1 else 0)

theorem rowV_unit (c : Coord) : Unit 2 (rowV c) := by
  unfold Unit rowV
  simp only [Finset.sum_range_succ, Finset.sum_range_zero]
  split
  · simp
  · split
    · simp; norm_num
    · simp

/-- Three rows, all sites of a row being equal. -/
noncomputable def rows : State ℂ := gState 2 [(0, 0), (0, 1), (0, 2)] (fun c => (0, c.2 % 3)) rowV

theorem row_moments : (Matrix.trace (ketbra 2 (rowV (0, 0)) * Trgl.Spec.spin 2 0) = 0 ∧ Matrix.trace (ketbra 2 (rowV (0, 0)) * Trgl.Spec.spin 2 2) = 1 / 2) ∧
    (Matrix.trace (ketbra 2 (rowV (0, 1)) * Trgl.Spec.spin 2 0) = 12 / 25 ∧ Matrix.trace (ketbra 2 (rowV (0, 1)) * Trgl.Spec.spin 2 2) = -(7 / 50)) ∧
    (Matrix.trace (ketbra 2 (rowV (0, 2)) * Trgl.Spec.spin 2 0) = 0 ∧ Matrix.trace (ketbra 2 (rowV (0, 2)) * Trgl.Spec.spin 2 2) = -(1 / 2)) := by
  simp only [Trgl.Spec.spin, sx_half, sz_half]
  refine ⟨⟨?_, ?_⟩, ⟨?_, ?_⟩, ⟨?_, ?_⟩⟩ <;> simp [Matrix.trace, Matrix.mul_apply, Fin.sum_univ_two, ketbra, rowV] <;> (try simp only [map_ofNat]) <;> norm_num

/-- The hypotheses of C127 are met. For the pitch `1/4` the energy returned is less than that of the spiral. -/
theorem C127_violated (eigh : Tensor ℂ → List ℝ × Tensor ℂ) : FitsState (gDims 2) rows ∧ FitsEnv (gDims 2) rows pEnv ∧ ∃ (r s t : Coord → Tensor ℂ) (E : ℝ),
    (∀ c ∈ rows.keys, rdm2x3 eigh false rows pEnv c [2, 3] = .ok (r c)) ∧ (∀ c ∈ rows.keys, rdm3x2 eigh false rows pEnv c [2, 3] = .ok (s c)) ∧
    (∀ c ∈ rows.keys, rdm2x2 eigh false rows pEnv c [0, 3] = .ok (t c)) ∧ energyNN eigh heis (1 / 4, 0) rows pEnv = .ok E ∧
    energyJ2 eigh heis 1 (1 / 4, 0) rows pEnv =
      .ok (E + ((rows.keys.map fun c => nextBonds 2 (pitch (1 / 4, 0)) (r c) (s c) (t c) c).sum / (rows.keys.length : ℂ)).re - 8 / 25) := by
  have hs : FitsState (gDims 2) rows := gFitsState _ _ _ (by norm_num)
  have he : FitsEnv (gDims 2) rows pEnv := gFitsEnv _ _ _
  choose r er dr using gWide [(0, 0), (0, 1), (0, 2)] (fun c => (0, c.2 % 3)) rowV eigh (p := 2) (by norm_num) rowV_unit
  choose s es ds using gTall [(0, 0), (0, 1), (0, 2)] (fun c => (0, c.2 % 3)) rowV eigh (p := 2) (by norm_num) rowV_unit
  choose t et dt using gCorner [(0, 0), (0, 1), (0, 2)] (fun c => (0, c.2 % 3)) rowV eigh (p := 2) (by norm_num) rowV_unit
  choose h eh dh using gRow [(0, 0), (0, 1), (0, 2)] (fun c => (0, c.2 % 3)) rowV eigh (p := 2) (by norm_num) rowV_unit
  choose v ev dv using gColumn [(0, 0), (0, 1), (0, 2)] (fun c => (0, c.2 % 3)) rowV eigh (p := 2) (by norm_num) rowV_unit
  choose d ed dd using gDiagonal [(0, 0), (0, 1), (0, 2)] (fun c => (0, c.2 % 3)) rowV eigh (p := 2) (by norm_num) rowV_unit
  have hE := C123_energy_partial eigh (m := heis) hs he (fun _ => rfl) (by simp [rows, gState]) (1 / 4, 0) rfl h v d (fun c _ => eh c) (fun c _ => ev c) (fun c _ => ed c)
  refine ⟨hs, he, r, s, t, _, fun c _ => er c, fun c _ => es c, fun c _ => et c, hE, ?_⟩
  rw [C127_energy eigh (m := heis) hs he (fun _ => rfl) 1 (1 / 4, 0) r s t (fun c _ => er c) (fun c _ => es c) (fun c _ => et c) hE]
  have hsin : Real.sin (6 * Real.pi * ((1 / 4, 0) : ℝ × ℝ).1) = -1 := by
    rw [show 6 * Real.pi * ((1 / 4, 0) : ℝ × ℝ).1 = Real.pi / 2 + Real.pi by simp; ring, Real.sin_add_pi, Real.sin_pi_div_two]
  have hc : (rows.keys.map fun c => cross heis.p (r c)).sum = 12 / 25 := by
    obtain ⟨⟨a1, a2⟩, ⟨b1, b2⟩, c1, c2⟩ := row_moments
    have h0 : cross 2 (r (0, 0)) = 6 / 25 := by
      unfold cross
      rw [dr (0, 0), trace_cross]
      show Matrix.trace (ketbra 2 (rowV (0, 0)) * _) * Matrix.trace (ketbra 2 (rowV (0, 1)) * _) - Matrix.trace (ketbra 2 (rowV (0, 0)) * _) * Matrix.trace (ketbra 2 (rowV (0, 1)) * _) = _
      rw [a1, a2, b1, b2]; norm_num
    have h1 : cross 2 (r (0, 1)) = 6 / 25 := by
      unfold cross
      rw [dr (0, 1), trace_cross]
      show Matrix.trace (ketbra 2 (rowV (0, 1)) * _) * Matrix.trace (ketbra 2 (rowV (0, 2)) * _) - Matrix.trace (ketbra 2 (rowV (0, 1)) * _) * Matrix.trace (ketbra 2 (rowV (0, 2)) * _) = _
      rw [b1, b2, c1, c2]; norm_num
    have h2 : cross 2 (r (0, 2)) = 0 := by
      unfold cross
      rw [dr (0, 2), trace_cross]
      show Matrix.trace (ketbra 2 (rowV (0, 2)) * _) * Matrix.trace (ketbra 2 (rowV (0, 0)) * _) - Matrix.trace (ketbra 2 (rowV (0, 2)) * _) * Matrix.trace (ketbra 2 (rowV (0, 0)) * _) = _
      rw [a1, a2, c1, c2]; norm_num
    show cross 2 (r (0, 0)) + (cross 2 (r (0, 1)) + (cross 2 (r (0, 2)) + 0)) = _
    rw [h0, h1, h2]; norm_num
  rw [hc, hsin, show rows.keys.length = 3 from rfl]
  congr 1
  rw [sub_eq_add_neg]
  congr 1
  · simp [heis]
  · norm_num

/-- The hypotheses of the partial theorem are met. -/
example (eigh : Tensor ℂ → List ℝ × Tensor ℂ) (j2 : ℝ) : ∃ E, energyJ2 eigh heis j2 (1 / 3, 0) rows pEnv = .ok E := by
  have hs : FitsState (gDims 2) rows := gFitsState _ _ _ (by norm_num)
  have he : FitsEnv (gDims 2) rows pEnv := gFitsEnv _ _ _
  choose r er dr using gWide [(0, 0), (0, 1), (0, 2)] (fun c => (0, c.2 % 3)) rowV eigh (p := 2) (by norm_num) rowV_unit
  choose s es ds using gTall [(0, 0), (0, 1), (0, 2)] (fun c => (0, c.2 % 3)) rowV eigh (p := 2) (by norm_num) rowV_unit
  choose t et dt using gCorner [(0, 0), (0, 1), (0, 2)] (fun c => (0, c.2 % 3)) rowV eigh (p := 2) (by norm_num) rowV_unit
  choose h eh dh using gRow [(0, 0), (0, 1), (0, 2)] (fun c => (0, c.2 % 3)) rowV eigh (p := 2) (by norm_num) rowV_unit
  choose v ev dv using gColumn [(0, 0), (0, 1), (0, 2)] (fun c => (0, c.2 % 3)) rowV eigh (p := 2) (by norm_num) rowV_unit
  choose d ed dd using gDiagonal [(0, 0), (0, 1), (0, 2)] (fun c => (0, c.2 % 3)) rowV eigh (p := 2) (by norm_num) rowV_unit
  have hE := C123_energy_partial eigh (m := heis) hs he (fun _ => rfl) (by simp [rows, gState]) (1 / 3, 0) rfl h v d (fun c _ => eh c) (fun c _ => ev c) (fun c _ => ed c)
  refine ⟨_, C127_energy_partial eigh (m := heis) hs he (fun _ => rfl) j2 (1 / 3, 0) ?_ r s t (fun c _ => er c) (fun c _ => es c) (fun c _ => et c) hE⟩
  rw [show 6 * Real.pi * ((1 / 3, 0) : ℝ × ℝ).1 = 2 * Real.pi by simp; ring, Real.sin_two_pi]

end Verif.Trgl
