import Verif.Energy.C4vLowmem
import Verif.Rdm.PositiveProps
/-
C98, C99: density matrices without negative eigenvalues, product states.
-/
namespace Verif.Energy
open Tensor Ctm Ctm.Spec
open scoped ComplexOrder

section
variable {chi D : Nat} {a : Tensor ℂ} {env : C4v.Env ℂ}

/-- The network of the plaquette as a matrix has a positive semi-definite Hermitian part and a trace that is not imaginary. -/
def Spec.PlaqPositive (a : Tensor ℂ) (env : C4v.Env ℂ) : Prop :=
  ∃ x, C4v.raw2x2 a env.C env.T = some x ∧ (Rdm.Spec.hermPart [2, 2, 2, 2] x).PosSemidef ∧ (Matrix.trace (Rdm.Spec.op [2, 2, 2, 2] x)).re ≠ 0

theorem plaq_positive {eigh : Tensor ℂ → List ℝ × Tensor ℂ} (hE : Rdm.Spec.Eigh eigh) (hchi : 0 < chi) (hD : 0 < D) (hf : C4v.Spec.Fits chi D 2 a env) (hr : C4v.Spec.Rotated D 2 a)
    (hp : Spec.PlaqPositive a env) :
    (Spec.Unclamped fun spd => C4v.rdm2x2 eigh spd a env) ∧ ∀ sl, (Spec.Unclamped fun spd => C4v.rdmNN eigh sl spd a env) ∧ Spec.Unclamped fun spd => C4v.rdmNNN eigh sl spd a env := by
  obtain ⟨x, h1, h2, h3⟩ := hp
  obtain ⟨x', e, s, R, g1, g2, g3, g4⟩ := C4v.raw2x2_same hchi hD two_pos hf hr (0, 0)
  obtain rfl : x = x' := by rw [h1] at g2; injection g2
  have hx : x.shape = [2, 2, 2, 2] ++ [2, 2, 2, 2] := by
    obtain ⟨y, ey, q⟩ := C4v.openC_net false hf.site hf.corner hf.half
    have sy := C4v.openC_shape rfl q
    obtain ⟨R', eR, sR, -⟩ := C4v.raw2x2_ring ey sy
    rw [h1] at eR
    injection eR with eR
    rw [eR]; exact sR
  obtain ⟨k1, k2⟩ := Rdm.hermPart_same hx g4
  have key := Rdm.plaq_unclamped hE (C4v.fitsState hD two_pos hf) (C4v.fitsEnv hchi hf) (0, 0) g1 g3 (show (Rdm.Spec.hermPart [2, 2, 2, 2] R).PosSemidef by rw [← k1]; exact h2) (show 0 < ([2, 2, 2, 2] : List Nat).prod by decide)
    (show (Matrix.trace (Rdm.Spec.op [2, 2, 2, 2] R)).re ≠ 0 by rw [← k2]; exact h3)
  refine ⟨?_, fun sl => ⟨?_, ?_⟩⟩
  · simp only [Spec.Unclamped, C4v.C73_plaquette eigh _ hchi hD two_pos hf hr (0, 0)]
    exact key [0, 1, 2, 3] (by decide) (by decide)
  · simp only [Spec.Unclamped, C4v.C73_neighbours eigh sl _ hchi hD two_pos hf hr (0, 0)]
    exact key [0, 2] (by decide) (by decide)
  · simp only [Spec.Unclamped, C4v.C73_diagonal eigh sl _ hchi hD two_pos hf hr (0, 0)]
    exact key [0, 3] (by decide) (by decide)

end

/-! ### Product states -/

theorem psd_rank_one {n : Nat} {M : Matrix (Fin n) (Fin n) ℂ} (w : Fin n → ℂ) (h : ∀ i j, M i j = w i * star (w j)) : ((1 / 2 : ℂ) • (M + M.conjTranspose)).PosSemidef := by
  have e : (1 / 2 : ℂ) • (M + M.conjTranspose) = Matrix.vecMulVec w (star w) := by
    ext i j
    simp only [Matrix.smul_apply, Matrix.add_apply, Matrix.conjTranspose_apply, h, star_mul', star_star, Matrix.vecMulVec_apply, Pi.star_apply, smul_eq_mul]
    ring
  rw [e]
  exact Matrix.posSemidef_vecMulVec_self_star w

theorem pPositive {v : Nat → ℂ} (hv : Corrf.pExpect v Corrf.Spec.one = 1) : Spec.PlaqPositive (Corrf.pSite v) C4v.oneEnv := by
  obtain ⟨x, e, s, R, g1, g2, g3, g4⟩ := C4v.raw2x2_same one_pos one_pos two_pos (C4v.oneEnv_fits v) (C4v.oneEnv_rotated v) (0, 0)
  obtain ⟨e', s', R4, k1, k2, k3, k4⟩ := prodRaw [(0, 0)] (fun _ => (0, 0)) (fun _ => v) (0, 0)
  have g1' : Rdm.plaq (prodState [(0, 0)] (fun _ => (0, 0)) fun _ => v) Corrf.pEnv (0, 0) = some (e, s) := g1
  obtain ⟨rfl, rfl⟩ : e = e' ∧ s = s' := by rw [g1'] at k1; simpa using k1
  obtain rfl : R = R4 := by rw [g3] at k2; injection k2
  have hx : x.shape = [2, 2, 2, 2] ++ [2, 2, 2, 2] := g4.1.trans k3
  obtain ⟨j1, j2⟩ := Rdm.hermPart_same hx g4
  have hfour : ∀ n : Fin ([2, 2, 2, 2] : List Nat).prod, ∃ a b c d, a < 2 ∧ b < 2 ∧ c < 2 ∧ d < 2 ∧ unravel [2, 2, 2, 2] n = [a, b, c, d] := by
    intro n
    have := (inB_unravel [2, 2, 2, 2] n n.2).1
    match unravel [2, 2, 2, 2] n, this with
    | [a, b, c, d], .cons h1 (.cons h2 (.cons h3 (.cons h4 .nil))) => exact ⟨a, b, c, d, h1, h2, h3, h4, rfl⟩
  refine ⟨x, g2, ?_, ?_⟩
  · rw [j1]
    refine psd_rank_one (fun n => ((unravel [2, 2, 2, 2] n).map v).prod) fun i j => ?_
    obtain ⟨a, b, c, d, h1, h2, h3, h4, h5⟩ := hfour i
    obtain ⟨a', b', c', d', h1', h2', h3', h4', h5'⟩ := hfour j
    simp only [Rdm.Spec.op, h5, h5', List.cons_append, List.nil_append]
    rw [k4 a b c d a' b' c' d' h1 h2 h3 h4 h1' h2' h3' h4']
    simp [prodRdm]
    ring
  · rw [j2, Rdm.trace_op]
    obtain ⟨g, hg⟩ : ∃ g : Nat → ℂ, ∀ y, g y = v y * star (v y) := ⟨_, fun _ => rfl⟩
    have h1 : g 0 + g 1 = 1 := by
      rw [← hv, hg, hg]
      simp [Corrf.pExpect, Finset.sum_range_succ, Corrf.Spec.one]
      ring
    rw [sumIdx4 _ (fun s => g (s.getD 0 0) * g (s.getD 1 0) * g (s.getD 2 0) * g (s.getD 3 0)), sum4 (fun _ => g), h1]
    · norm_num
    · intro i j k l hi hj hk hl
      refine (k4 i j k l i j k l hi hj hk hl hi hj hk hl).trans ?_
      simp only [prodRdm, List.getD_cons_zero, List.getD_cons_succ, hg]

theorem pThird {eigh : Tensor ℂ → List ℝ × Tensor ℂ} (hE : Rdm.Spec.Eigh eigh) {v : Nat → ℂ} (hv : Corrf.pExpect v Corrf.Spec.one = 1) :
    Spec.ThirdOk eigh 1 1 (Corrf.pSite v) C4v.oneEnv := by
  have hN : ∀ n, Corrf.Spec.norm (C4v.tensors (Corrf.pSite v) C4v.oneEnv) (C4v.Spec.dims 1 1 2) .right (0, 0) n = 1 := fun n =>
    prodNorm (fun _ => (0, 0)) (fun _ => v) (fun _ => hv) .right (0, 0) n
  refine ⟨C4v.oneEnv_c, ?_, fun n _ => by rw [hN]; exact one_ne_zero, by rw [hN]; rfl⟩
  obtain ⟨e, rho, g1, g2, g3⟩ := C4v.C74_ends eigh true one_pos one_pos two_pos (C4v.oneEnv_fits v) (C4v.oneEnv_rotated v) C4v.oneEnv_c (0, 0)
  obtain ⟨e', rho', g1', g2', g3'⟩ := C4v.C74_ends eigh false one_pos one_pos two_pos (C4v.oneEnv_fits v) (C4v.oneEnv_rotated v) C4v.oneEnv_c (0, 0)
  obtain rfl := C4v.around3_unique g1 g1'
  have hs : rho'.shape = [2, 2] ++ [2, 2] := g2'.1
  have hval : ∀ i j a b, i < 2 → j < 2 → a < 2 → b < 2 → rho'.val [i, j, a, b] = (v i * star (v a)) * (v j * star (v b)) := by
    intro i j a b hi hj ha hb
    have hx := Rdm.row_expect (C4v.fitsState one_pos two_pos (C4v.oneEnv_fits v)) (C4v.reads _ _) g1' g2' (fun x y => if x = a ∧ y = i then 1 else 0) (fun x y => if x = b ∧ y = j then 1 else 0)
    have hR : Corrf.Spec.twoPoint (C4v.tensors (Corrf.pSite v) C4v.oneEnv) (C4v.Spec.dims 1 1 2) .right (0, 0) (fun x y => if x = a ∧ y = i then 1 else 0) (fun x y => if x = b ∧ y = j then 1 else 0) 1 =
        (v i * star (v a)) * (v j * star (v b)) := by
      have := prodNetwork (fun _ => (0, 0)) (fun _ => v) .right (0, 0) [fun x y => if x = a ∧ y = i then 1 else 0, Corrf.Spec.one, fun x y => if x = b ∧ y = j then 1 else 0]
      refine this.trans ?_
      simp only [along, hv, one_mul, mul_one]
      rcases lt2 hi with rfl | rfl <;> rcases lt2 hj with rfl | rfl <;> rcases lt2 ha with rfl | rfl <;> rcases lt2 hb with rfl | rfl <;>
        simp [Corrf.pExpect, Finset.sum_range_succ] <;> ring
    rw [← hR, ← hx]
    show _ = ∑ i ∈ Finset.range 2, ∑ a ∈ Finset.range 2, ∑ j ∈ Finset.range 2, ∑ b ∈ Finset.range 2, _
    simp only [sum_range2]
    rcases lt2 hi with rfl | rfl <;> rcases lt2 hj with rfl | rfl <;> rcases lt2 ha with rfl | rfl <;> rcases lt2 hb with rfl | rfl <;> simp
  have htwo : ∀ n : Fin ([2, 2] : List Nat).prod, ∃ a b, a < 2 ∧ b < 2 ∧ unravel [2, 2] n = [a, b] := by
    intro n
    have := (inB_unravel [2, 2] n n.2).1
    match unravel [2, 2] n, this with
    | [a, b], .cons h1 (.cons h2 .nil) => exact ⟨a, b, h1, h2, rfl⟩
  have hsame : Same rho rho' := C4v.network_same (by decide) g2 g2'
  have key := Rdm.sym_unclamped hE (s := [2, 2]) (by decide) hs (psd_rank_one (fun n => ((unravel [2, 2] n).map v).prod) fun i j => by
      obtain ⟨a, b, h1, h2, h5⟩ := htwo i
      obtain ⟨a', b', h1', h2', h5'⟩ := htwo j
      simp only [Rdm.Spec.op, h5, h5', List.cons_append, List.nil_append]
      rw [hval a b a' b' h1 h2 h1' h2']
      simp
      ring) (by
      rw [Rdm.trace_op]
      obtain ⟨g, hg⟩ : ∃ g : Nat → ℂ, ∀ y, g y = v y * star (v y) := ⟨_, fun _ => rfl⟩
      have h1 : g 0 + g 1 = 1 := by
        rw [← hv, hg, hg]
        simp [Corrf.pExpect, Finset.sum_range_succ, Corrf.Spec.one]
        ring
      simp only [sumIdx, sum_range2, List.cons_append, List.nil_append]
      rw [hval 0 0 0 0 two_pos two_pos two_pos two_pos, hval 0 1 0 1 two_pos one_lt_two two_pos one_lt_two, hval 1 0 1 0 one_lt_two two_pos one_lt_two two_pos,
        hval 1 1 1 1 one_lt_two one_lt_two one_lt_two one_lt_two, ← hg, ← hg]
      have : g 0 * g 0 + g 0 * g 1 + (g 1 * g 0 + g 1 * g 1) = 1 := by linear_combination (g 0 + g 1 + 1) * h1
      rw [this]
      simp)
  obtain ⟨r, r', k1, k2, k3⟩ := key
  exact ⟨r, r', (g3' false).trans k1, (g3 false).trans ((Rdm.symRdm_same eigh true hsame).trans k2), k3⟩

/-! ### C98 -/

/-- The same with the condition on the network of the plaquette, for a backend that diagonalises. -/
theorem C98_positive {eigh : Tensor ℂ → List ℝ × Tensor ℂ} (hE : Rdm.Spec.Eigh eigh) (m : J1J2) {chi D : Nat} {a : Tensor ℂ} {env : C4v.Env ℂ} (hchi : 0 < chi) (hD : 0 < D)
    (hf : C4v.Spec.Fits chi D 2 a env) (hr : C4v.Spec.Rotated D 2 a) (hp : Spec.PlaqPositive a env) (hj : m.j3 = 0 ∨ Spec.ThirdOk eigh chi D a env) :
    ∃ x, energy1x1 eigh m a env = .ok x ∧ energyPerSite eigh m (Spec.checker a) (Spec.both (C4v.Spec.unfold env)) = .ok x :=
  C98_energy eigh m hchi hD hf hr (plaq_positive hE hchi hD hf hr hp).1 hj

/-- All couplings and fields, on a spin with components along y and z. -/
example : ∃ eigh : Tensor ℂ → List ℝ × Tensor ℂ, Rdm.Spec.Eigh eigh ∧ ∃ x, energy1x1 eigh ⟨1, 2, 4, 6, 3, 5, fun i => if i = 2 then 7 else 8⟩ (Corrf.pSite yVec) C4v.oneEnv = .ok x ∧
    energyPerSite eigh ⟨1, 2, 4, 6, 3, 5, fun i => if i = 2 then 7 else 8⟩ (Spec.checker (Corrf.pSite yVec)) (Spec.both (C4v.Spec.unfold C4v.oneEnv)) = .ok x := by
  obtain ⟨eigh, hE⟩ := Rdm.exEigh (K := ℂ)
  exact ⟨eigh, hE, C98_positive hE _ one_pos one_pos (C4v.oneEnv_fits yVec) (C4v.oneEnv_rotated yVec) (pPositive yNorm) (Or.inr (pThird hE yNorm))⟩

/-! ### C99 -/

/-- Without a staggered field both routines give the same. -/
theorem C99_partial (eigh : Tensor ℂ → List ℝ × Tensor ℂ) (m : J1J2) {chi D : Nat} {a : Tensor ℂ} {env : C4v.Env ℂ} (hchi : 0 < chi) (hD : 0 < D) (hf : C4v.Spec.Fits chi D 2 a env)
    (hr : C4v.Spec.Rotated D 2 a) (hl : m.lmbd = 0) (hp : Spec.Positive eigh m chi a env) (hz : m.hzStag = 0) :
    ∃ x, energy1x1Lowmem eigh m a env = .ok x ∧ energy1x1 eigh m a env = .ok x := by
  obtain ⟨x, h1, h2⟩ := C99_sign eigh m hchi hD hf hr hl hp
  refine ⟨x, h1, ?_⟩
  have : ({ m with hzStag := -m.hzStag } : J1J2) = m := by rw [hz, neg_zero, ← hz]
  rw [this] at h2
  exact h2

/-- The chiral term is refused. -/
theorem C99_refused (eigh : Tensor ℂ → List ℝ × Tensor ℂ) (m : J1J2) (a : Tensor ℂ) (env : C4v.Env ℂ) (hl : m.lmbd ≠ 0) : energy1x1Lowmem eigh m a env = .error .raise := by
  rw [energy1x1Lowmem, if_neg hl]

theorem pAll {eigh : Tensor ℂ → List ℝ × Tensor ℂ} (hE : Rdm.Spec.Eigh eigh) (m : J1J2) {v : Nat → ℂ} (hv : Corrf.pExpect v Corrf.Spec.one = 1) : Spec.Positive eigh m 1 (Corrf.pSite v) C4v.oneEnv := by
  obtain ⟨h1, h2⟩ := plaq_positive hE one_pos one_pos (C4v.oneEnv_fits v) (C4v.oneEnv_rotated v) (pPositive hv)
  exact ⟨h1, (h2 true).1, Or.inr (h2 true).2, Or.inr ⟨C4v.oneEnv_c, (pThird hE hv).positive⟩⟩

example : ∃ eigh : Tensor ℂ → List ℝ × Tensor ℂ, Rdm.Spec.Eigh eigh ∧ ∃ x, energy1x1Lowmem eigh ⟨1, 2, 4, 6, 3, 0, fun i => if i = 2 then 7 else 8⟩ (Corrf.pSite yVec) C4v.oneEnv = .ok x ∧
    energy1x1 eigh ⟨1, 2, 4, -6, 3, 0, fun i => if i = 2 then 7 else 8⟩ (Corrf.pSite yVec) C4v.oneEnv = .ok x := by
  obtain ⟨eigh, hE⟩ := Rdm.exEigh (K := ℂ)
  exact ⟨eigh, hE, C99_sign eigh ⟨1, 2, 4, 6, 3, 0, fun i => if i = 2 then 7 else 8⟩ one_pos one_pos (C4v.oneEnv_fits yVec) (C4v.oneEnv_rotated yVec) rfl (pAll hE _ yNorm)⟩

example : ∃ eigh : Tensor ℂ → List ℝ × Tensor ℂ, Rdm.Spec.Eigh eigh ∧ ∃ x, energy1x1Lowmem eigh ⟨1, 2, 4, 0, 3, 0, fun i => if i = 2 then 7 else 8⟩ (Corrf.pSite yVec) C4v.oneEnv = .ok x ∧
    energy1x1 eigh ⟨1, 2, 4, 0, 3, 0, fun i => if i = 2 then 7 else 8⟩ (Corrf.pSite yVec) C4v.oneEnv = .ok x := by
  obtain ⟨eigh, hE⟩ := Rdm.exEigh (K := ℂ)
  exact ⟨eigh, hE, C99_partial eigh _ one_pos one_pos (C4v.oneEnv_fits yVec) (C4v.oneEnv_rotated yVec) rfl (pAll hE _ yNorm) rfl⟩

theorem upNorm : Corrf.pExpect upVec Corrf.Spec.one = 1 := by simp [Corrf.pExpect, Finset.sum_range_succ, Corrf.Spec.one, upVec]

/-- `energy_1x1` of the Neel state in a staggered field. -/
theorem upEnergy {eigh : Tensor ℂ → List ℝ × Tensor ℂ} (hE : Rdm.Spec.Eigh eigh) (h : ℝ) : energy1x1 eigh ⟨0, 0, 0, h, 1, 0, 0⟩ (Corrf.pSite upVec) C4v.oneEnv = .ok (-h / 2) := by
  obtain ⟨r, r', h1, h2, h3⟩ := (pAll hE ⟨0, 0, 0, h, 1, 0, 0⟩ upNorm).plaquette
  obtain ⟨hrs, ht⟩ := C4v.rdm2x2_turns eigh (C4v.oneEnv_fits upVec) h1
  have hs : FitsState (C4v.Spec.dims 1 1 2) (Spec.single (Corrf.pSite upVec)) := C4v.fitsState one_pos (by decide) (C4v.oneEnv_fits upVec)
  have he : FitsEnv (C4v.Spec.dims 1 1 2) (Spec.single (Corrf.pSite upVec)) (C4v.Spec.unfold C4v.oneEnv) := C4v.fitsEnv one_pos (C4v.oneEnv_fits upVec)
  have hr' : Rdm.rdm2x2 eigh false (Spec.single (Corrf.pSite upVec)) (C4v.Spec.unfold C4v.oneEnv) (0, 0) [0, 1, 2, 3] = .ok r :=
    (C4v.C73_plaquette eigh false one_pos one_pos (by decide) (C4v.oneEnv_fits upVec) (C4v.oneEnv_rotated upVec) (0, 0)).symm.trans h1
  obtain ⟨⟨r0, e0, s0, q0⟩, -⟩ := checker_rdm eigh hs he (fun _ => rfl) hr'
  obtain ⟨R, k1, k2⟩ := prodRdm_ok [(0, 0)] (fun _ => (0, 0)) (fun _ => upVec) eigh (fun _ => upNorm) (0, 0)
  obtain rfl : r = R := by
    have : (Except.ok r : Except Err (Tensor ℂ)) = .ok R := hr'.symm.trans k1
    injection this
  have hz : ∀ x < 4, Spec.expect r0 (Spec.onSite x Spec.sz) = kap (fl12 x) * (1 / 2) := by
    intro x hx
    rw [rot_site q0 x hx kap (fun b i j => conj_sz b), k2, four_site (fun _ => upNorm) x hx]
    simp [Corrf.pExpect, Finset.sum_range_succ, upVec, Spec.sz]
  rw [energy1x1_value eigh ⟨0, 0, 0, h, 1, 0, 0⟩ h2 h3 hrs q0 (n := 0) (by simp [c4vThird]), hp_expect, hz 0 (by decide), hz 1 (by decide), hz 2 (by decide), hz 3 (by decide)]
  have hu : Spec.field (Spec.flipY (0 : Fin 3 → ℝ)) = fun _ _ => 0 := by
    funext x y
    simp [Spec.field, Spec.flipY]
  have h0 : ∀ n, Spec.expect r0 (Spec.onSite n (fun _ _ => 0)) = 0 := fun n => by
    have : Spec.onSite n (fun _ _ => (0 : ℂ)) = fun _ _ => 0 := by funext x y; simp [Spec.onSite]
    rw [this, expect_zero]
  rw [hu, h0, h0, h0, h0]
  refine congrArg Except.ok ?_
  have : (1 / 2 * ((0 : ℝ) : ℂ) * (Spec.expect r0 (Spec.onBond 0 1 (Spec.heis 1)) + Spec.expect r0 (Spec.onBond 0 2 (Spec.heis 1)) + Spec.expect r0 (Spec.onBond 2 3 (Spec.heis 1)) + Spec.expect r0 (Spec.onBond 1 3 (Spec.heis 1))) +
      ((0 : ℝ) : ℂ) * (Spec.expect r0 (Spec.onBond 0 3 (Spec.heis 1)) + Spec.expect r0 (Spec.onBond 1 2 (Spec.heis 1))) -
      1 / 4 * (h : ℂ) * sgn (0, 0) * (kap (fl12 0) * (1 / 2) - kap (fl12 1) * (1 / 2) - kap (fl12 2) * (1 / 2) + kap (fl12 3) * (1 / 2)) + 1 / 4 * (0 + 0 + 0 + 0) + ((0 : ℝ) : ℂ) * Spec.expect r0 Spec.chirality + 0) =
      ((-h / 2 : ℝ) : ℂ) := by
    simp [sgn, kap, fl12]
    ring
  rw [this, Complex.ofReal_re]

/-- The two routines differ: a staggered field that lowers the energy of the Neel state in one raises it in the other. -/
theorem C99_violated {eigh : Tensor ℂ → List ℝ × Tensor ℂ} (hE : Rdm.Spec.Eigh eigh) : ∃ (m : J1J2) (a : Tensor ℂ) (env : C4v.Env ℂ), C4v.Spec.Fits 1 1 2 a env ∧ C4v.Spec.Rotated 1 2 a ∧
    Spec.Positive eigh m 1 a env ∧ energy1x1 eigh m a env = .ok (-1 / 2) ∧ energy1x1Lowmem eigh m a env = .ok (1 / 2) := by
  refine ⟨⟨0, 0, 0, 1, 1, 0, 0⟩, Corrf.pSite upVec, C4v.oneEnv, C4v.oneEnv_fits _, C4v.oneEnv_rotated _, pAll hE _ upNorm, upEnergy hE 1, ?_⟩
  obtain ⟨x, h1, h2⟩ := C99_sign eigh ⟨0, 0, 0, 1, 1, 0, 0⟩ one_pos one_pos (C4v.oneEnv_fits upVec) (C4v.oneEnv_rotated upVec) rfl (pAll hE _ upNorm)
  have h3 := upEnergy hE (-1)
  rw [h1]
  rw [show (⟨0, 0, 0, -1, 1, 0, 0⟩ : J1J2) = { (⟨0, 0, 0, 1, 1, 0, 0⟩ : J1J2) with hzStag := -1 } from rfl] at h3
  rw [h2] at h3
  rw [h3]
  norm_num

example : ∃ eigh : Tensor ℂ → List ℝ × Tensor ℂ, Rdm.Spec.Eigh eigh := Rdm.exEigh

end Verif.Energy
