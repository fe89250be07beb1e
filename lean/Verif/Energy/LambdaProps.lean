import Verif.Energy.LambdaModel
import Verif.Energy.C4vWitness
/-
C150: the energy of the J1-J2-lambda model.
-/
namespace Verif.Energy
open Tensor Ctm Ctm.Spec
open scoped ComplexOrder

/-- The product of the four operators `Sz` of a plaquette. -/
noncomputable def Spec.szzzz : List Nat → List Nat → ℂ := four fun _ => Spec.sz

theorem szFour_val : ∃ T, szFour = some T ∧ Is8 T (ofOp Spec.szzzz) := by
  obtain ⟨T, e, q⟩ := einsum8 [(opT (Su2.SZ 2), [0, 4]), (opT (-Su2.SZ 2), [1, 5]), (opT (-Su2.SZ 2), [2, 6]), (opT (Su2.SZ 2), [3, 7])] (by simp [opT]) (by simp)
  refine ⟨T, e, q.congr fun i j k l a b c d hi hj hk hl ha hb hc hd => ?_⟩
  rw [show ((([(opT (Su2.SZ 2), [0, 4]), (opT (-Su2.SZ 2), [1, 5]), (opT (-Su2.SZ 2), [2, 6]), (opT (Su2.SZ 2), [3, 7])] : List (Tensor ℂ × List Nat)).flatMap Prod.snd).dedup.filter
    (fun l => l ∉ [0, 1, 2, 3, 4, 5, 6, 7])) = [] from rfl]
  simp only [sumOver, termOf, List.map_cons, List.map_nil, at8, List.getD_cons_zero, List.getD_cons_succ, List.prod_cons, List.prod_nil, mul_one, opT, Matrix.neg_apply,
    sz_val hi ha, sz_val hj hb, sz_val hk hc, sz_val hl hd, ofOp, Spec.szzzz, four, sz_symm i a, sz_symm j b, sz_symm k c, sz_symm l d]
  ring

/-- The couplings without fields. -/
def J1J2.noField (m : J1J2) : J1J2 := { m with hzStag := 0, hUni := 0 }

theorem lambdaHp_val (m : J1J2) : ∃ T, lambdaHp m = some T ∧ Is8 T (ofOp fun t s => hpOp m.noField (0, 0) t s + -(1 / 4 * m.hzStag) * Spec.szzzz t s) := by
  obtain ⟨nn, e1, q1⟩ := pairOp_val (O := ssT (m.deltaZz, 1, 1)) rfl (fun a b a' b' h1 h2 h3 h4 => ss_val m.deltaZz h1 h2 h3 h4)
  replace q1 := pair_at _ q1
  obtain ⟨nn1, e2, q2⟩ := perm8 q1 [0, 2, 1, 3, 4, 6, 5, 7] (by decide)
  obtain ⟨nn2, e3, q3⟩ := perm8 q1 [2, 3, 0, 1, 6, 7, 4, 5] (by decide)
  obtain ⟨nn3, e4, q4⟩ := perm8 q1 [3, 1, 2, 0, 7, 5, 6, 4] (by decide)
  obtain ⟨ss, e5, q5⟩ := pairOp_val (O := ssT (1, 1, 1)) (g := fun a b a' b' => Spec.heis 1 a' b' a b) rfl (fun a b a' b' h1 h2 h3 h4 => by have := ss_val 1 h1 h2 h3 h4; rwa [Complex.ofReal_one] at this)
  replace q5 := pair_at _ q5
  obtain ⟨ss0, e6, q6⟩ := perm8 q5 [0, 3, 2, 1, 4, 7, 6, 5] (by decide)
  obtain ⟨ss1, e7, q7⟩ := perm8 q5 [2, 1, 0, 3, 6, 5, 4, 7] (by decide)
  obtain ⟨z, e8, q8⟩ := szFour_val
  refine ⟨_, by simp only [lambdaHp, e1, e2, e3, e4, e5, e6, e7, e8, Option.bind_eq_bind, Option.bind_some, Option.pure_def]; rfl, ?_⟩
  have := comb_cons (z := 1 / 2 * (m.j1 : ℂ)) q1 <| comb_cons (z := 1 / 2 * (m.j1 : ℂ)) (pair_02 _ q2) <| comb_cons (z := 1 / 2 * (m.j1 : ℂ)) (pair_23 _ q3) <| comb_cons (z := 1 / 2 * (m.j1 : ℂ)) (pair_13 _ q4) <|
    comb_cons (z := (m.j2 : ℂ)) (pair_03 _ q6) <| comb_cons (z := (m.j2 : ℂ)) (pair_12 _ q7) <| comb_cons (z := -(1 / 4 * (m.hzStag : ℂ))) q8 comb_nil
  refine this.congr fun i j k l a b c d _ _ _ _ _ _ _ _ => ?_
  have hu : Spec.field (Spec.flipY (0 : Fin 3 → ℝ)) = fun _ _ => 0 := by
    funext x y
    simp [Spec.field, Spec.flipY]
  have h0 : ∀ n t s, Spec.onSite n (fun _ _ => (0 : ℂ)) t s = 0 := fun n t s => by simp [Spec.onSite]
  simp only [ofOp, hpOp, J1J2.noField, hu, h0, Complex.ofReal_zero]
  ring

section
variable {chi D : Nat} {a : Tensor ℂ} {env : C4v.Env ℂ}

/-- The value of `energy_1x1`, by the density matrix `r0` of the plaquette of the checkerboard whose upper left site is `A`. -/
theorem lambdaEnergy_value (eigh : Tensor ℂ → List ℝ × Tensor ℂ) (m : J1J2) {r r0 : Tensor ℂ} (h1 : C4v.rdm2x2 eigh false a env = .ok r) (hrs : r.shape = eight) (q0 : RotOf fl12 r r0)
    {n : ℂ} (hn : c4vThird eigh false m a env = .ok n) :
    lambdaEnergy eigh m a env = .ok (Spec.expect r0 (hpOp m.noField (0, 0)) + -(1 / 4 * m.hzStag) * Spec.expect r0 Spec.szzzz + m.lmbd * Spec.expect r0 Spec.chirality + n).re := by
  obtain ⟨H, eH, qH⟩ := lambdaHp_val m
  obtain ⟨H', eH', qH'⟩ := rotBC_val qH
  obtain ⟨C, eC, qC⟩ := chiral_val
  obtain ⟨C', eC', qC'⟩ := rotBC_val qC
  rw [lambdaEnergy, h1, bindOk, eH, C4v.lift_some, eH', C4v.lift_some, eC, C4v.lift_some, eC', C4v.lift_some, full_val hrs (comb_cons qH' (comb_cons qC' comb_nil)), C4v.lift_some, hn, bindOk,
    expect_add, expect_add, expect_mul, expect_mul, expect_zero, add_zero, one_mul, ← expect_rot q0, ← expect_rot q0, expect_add, expect_mul]
  rfl

/-- The third neighbours do not see the fields. -/
theorem third_noField (eigh : Tensor ℂ → List ℝ × Tensor ℂ) (m : J1J2) : c4vThird eigh false m.noField a env = c4vThird eigh false m a env := rfl

/-- Without a staggered field the energy is that of `J1J2_C4V_BIPARTITE` with the same couplings, which is the energy per site of the checkerboard of `A` and `R A`.
Missing: a staggered field, see `C150_field` and `C150_violated`. -/
theorem C150_energy_partial (eigh : Tensor ℂ → List ℝ × Tensor ℂ) (m : J1J2) (hchi : 0 < chi) (hD : 0 < D) (hf : C4v.Spec.Fits chi D 2 a env) (hr : C4v.Spec.Rotated D 2 a)
    (hu : Spec.Unclamped fun spd => C4v.rdm2x2 eigh spd a env) (hj : m.j3 = 0 ∨ Spec.ThirdOk eigh chi D a env) (hz : m.hzStag = 0) (h0 : m.hUni = 0) :
    ∃ x, lambdaEnergy eigh m a env = .ok x ∧ energy1x1 eigh m a env = .ok x ∧ energyPerSite eigh m (Spec.checker a) (Spec.both (C4v.Spec.unfold env)) = .ok x := by
  obtain ⟨x, hx, hx'⟩ := C98_energy eigh m hchi hD hf hr hu hj
  refine ⟨x, ?_, hx, hx'⟩
  obtain ⟨r, r', h1, h2, h3⟩ := hu
  obtain ⟨hrs, ht⟩ := C4v.rdm2x2_turns eigh hf h1
  have hs : FitsState (C4v.Spec.dims chi D 2) (Spec.single a) := C4v.fitsState hD (by decide) hf
  have he : FitsEnv (C4v.Spec.dims chi D 2) (Spec.single a) (C4v.Spec.unfold env) := C4v.fitsEnv hchi hf
  have hr' : Rdm.rdm2x2 eigh false (Spec.single a) (C4v.Spec.unfold env) (0, 0) [0, 1, 2, 3] = .ok r := (C4v.C73_plaquette eigh false hchi hD (by decide) hf hr (0, 0)).symm.trans h1
  obtain ⟨⟨r0, e0, s0, q0⟩, -⟩ := checker_rdm eigh hs he (fun _ => rfl) hr'
  obtain ⟨n, hn⟩ : ∃ n, c4vThird eigh false m a env = .ok n := by
    by_cases h0 : m.j3 = 0
    · exact ⟨0, by simp [c4vThird, h0]⟩
    · obtain ⟨g1, g2, g3, g4⟩ := hj.resolve_left h0
      obtain ⟨r3, k1, x, k2, k3⟩ := third_ok eigh false hchi hD hf hr g1 g2 g4
      exact ⟨2 * m.j3 * x, by rw [c4vThird, if_neg h0, k1, bindOk, k2, C4v.lift_some]; rfl⟩
  have hm : m.noField = m := by cases m; simp_all [J1J2.noField]
  rw [energy1x1_value eigh m h2 h3 hrs q0 hn] at hx
  rw [lambdaEnergy_value eigh m h1 hrs q0 hn, hm, ← hx, hz]
  simp

/-- What a staggered field does: it adds `-h/4` times the product of the four spins of a plaquette. -/
theorem C150_field (eigh : Tensor ℂ → List ℝ × Tensor ℂ) (m : J1J2) (hchi : 0 < chi) (hD : 0 < D) (hf : C4v.Spec.Fits chi D 2 a env) (hr : C4v.Spec.Rotated D 2 a)
    (hu : ∃ r, C4v.rdm2x2 eigh false a env = .ok r) (hj : ∃ n, c4vThird eigh false m a env = .ok n) :
    ∃ r0 x, Rdm.rdm2x2 eigh false (Spec.checker a) (Spec.both (C4v.Spec.unfold env)) (0, 0) [0, 1, 2, 3] = .ok r0 ∧ lambdaEnergy eigh m.noField a env = .ok x ∧
      lambdaEnergy eigh m a env = .ok (x - m.hzStag / 4 * (Spec.expect r0 Spec.szzzz).re) := by
  obtain ⟨r, h1⟩ := hu
  obtain ⟨n, hn⟩ := hj
  obtain ⟨hrs, ht⟩ := C4v.rdm2x2_turns eigh hf h1
  have hs : FitsState (C4v.Spec.dims chi D 2) (Spec.single a) := C4v.fitsState hD (by decide) hf
  have he : FitsEnv (C4v.Spec.dims chi D 2) (Spec.single a) (C4v.Spec.unfold env) := C4v.fitsEnv hchi hf
  have hr' : Rdm.rdm2x2 eigh false (Spec.single a) (C4v.Spec.unfold env) (0, 0) [0, 1, 2, 3] = .ok r := (C4v.C73_plaquette eigh false hchi hD (by decide) hf hr (0, 0)).symm.trans h1
  obtain ⟨⟨r0, e0, s0, q0⟩, -⟩ := checker_rdm eigh hs he (fun _ => rfl) hr'
  refine ⟨r0, _, e0, lambdaEnergy_value eigh m.noField h1 hrs q0 hn, ?_⟩
  rw [lambdaEnergy_value eigh m h1 hrs q0 hn]
  refine congrArg Except.ok ?_
  have : (-(1 / 4 * (m.hzStag : ℂ)) * Spec.expect r0 Spec.szzzz).re = -(m.hzStag / 4 * (Spec.expect r0 Spec.szzzz).re) := by
    rw [show -(1 / 4 * (m.hzStag : ℂ)) = ((-(m.hzStag / 4) : ℝ) : ℂ) by push_cast; ring, Complex.re_ofReal_mul]
    ring
  have h2 : m.noField.noField = m.noField := rfl
  have h3 : m.noField.lmbd = m.lmbd := rfl
  have h4 : m.noField.hzStag = 0 := rfl
  simp only [Complex.add_re, this, h2, h3, h4]
  simp
  ring

end

/-- In the Neel state a staggered field 1 gives the energy -1/2 per site, the model returns -1/64. -/
theorem C150_violated {eigh : Tensor ℂ → List ℝ × Tensor ℂ} (hE : Rdm.Spec.Eigh eigh) : ∃ (m : J1J2) (a : Tensor ℂ) (env : C4v.Env ℂ), C4v.Spec.Fits 1 1 2 a env ∧ C4v.Spec.Rotated 1 2 a ∧
    Spec.Positive eigh m 1 a env ∧ m.hUni = 0 ∧ energy1x1 eigh m a env = .ok (-1 / 2) ∧ lambdaEnergy eigh m a env = .ok (-1 / 64) := by
  refine ⟨⟨0, 0, 0, 1, 1, 0, 0⟩, Corrf.pSite upVec, C4v.oneEnv, C4v.oneEnv_fits _, C4v.oneEnv_rotated _, pAll hE _ upNorm, rfl, upEnergy hE 1, ?_⟩
  obtain ⟨r, r', h1, h2, h3⟩ := (pAll hE ⟨0, 0, 0, 1, 1, 0, 0⟩ upNorm).plaquette
  obtain ⟨hrs, ht⟩ := C4v.rdm2x2_turns eigh (C4v.oneEnv_fits upVec) h1
  have hs : FitsState (C4v.Spec.dims 1 1 2) (Spec.single (Corrf.pSite upVec)) := C4v.fitsState one_pos (by decide) (C4v.oneEnv_fits upVec)
  have he : FitsEnv (C4v.Spec.dims 1 1 2) (Spec.single (Corrf.pSite upVec)) (C4v.Spec.unfold C4v.oneEnv) := C4v.fitsEnv one_pos (C4v.oneEnv_fits upVec)
  have hr' : Rdm.rdm2x2 eigh false (Spec.single (Corrf.pSite upVec)) (C4v.Spec.unfold C4v.oneEnv) (0, 0) [0, 1, 2, 3] = .ok r :=
    (C4v.C73_plaquette eigh false one_pos one_pos (by decide) (C4v.oneEnv_fits upVec) (C4v.oneEnv_rotated upVec) (0, 0)).symm.trans h1
  obtain ⟨⟨r0, e0, s0, q0⟩, -⟩ := checker_rdm eigh hs he (fun _ => rfl) hr'
  obtain ⟨R, k1, k2⟩ := prodRdm_ok [(0, 0)] (fun _ => (0, 0)) (fun _ => upVec) eigh (fun _ => upNorm) (0, 0)
  obtain rfl : r = R := by
    have : (Except.ok r : Except Err (Tensor ℂ)) = .ok R := hr'.symm.trans k1
    injection this
  have hz : Spec.expect r0 Spec.szzzz = 1 / 16 := by
    rw [expect_rot q0, Spec.szzzz, show rotO fl12 (four fun _ => Spec.sz) = four (fun x => conjO (fl12 x) Spec.sz) from by funext t s; exact rot_four _ _ t s, k2, expect_four]
    simp [Corrf.pExpect, Finset.sum_range_succ, upVec, conjO, fl12, se, fb, Spec.sz]
    norm_num
  rw [lambdaEnergy_value eigh ⟨0, 0, 0, 1, 1, 0, 0⟩ h1 hrs q0 (n := 0) (by simp [c4vThird]), hp_expect, hz]
  have hu : Spec.field (Spec.flipY (0 : Fin 3 → ℝ)) = fun _ _ => 0 := by
    funext x y
    simp [Spec.field, Spec.flipY]
  have h0 : ∀ n, Spec.expect r0 (Spec.onSite n (fun _ _ => 0)) = 0 := fun n => by
    have : Spec.onSite n (fun _ _ => (0 : ℂ)) = fun _ _ => 0 := by funext x y; simp [Spec.onSite]
    rw [this, expect_zero]
  simp only [J1J2.noField, hu, h0]
  norm_num

example : ∃ eigh : Tensor ℂ → List ℝ × Tensor ℂ, Rdm.Spec.Eigh eigh := Rdm.exEigh

example : ∃ eigh : Tensor ℂ → List ℝ × Tensor ℂ, ∃ x, lambdaEnergy eigh ⟨1, 2, 4, 0, 3, 5, 0⟩ (Corrf.pSite yVec) C4v.oneEnv = .ok x ∧ energy1x1 eigh ⟨1, 2, 4, 0, 3, 5, 0⟩ (Corrf.pSite yVec) C4v.oneEnv = .ok x ∧
    energyPerSite eigh ⟨1, 2, 4, 0, 3, 5, 0⟩ (Spec.checker (Corrf.pSite yVec)) (Spec.both (C4v.Spec.unfold C4v.oneEnv)) = .ok x := by
  obtain ⟨eigh, hE⟩ := Rdm.exEigh (K := ℂ)
  exact ⟨eigh, C150_energy_partial eigh _ one_pos one_pos (C4v.oneEnv_fits yVec) (C4v.oneEnv_rotated yVec) (pAll hE ⟨1, 2, 4, 0, 3, 5, 0⟩ yNorm).plaquette (Or.inr (pThird hE yNorm)) rfl rfl⟩

end Verif.Energy
