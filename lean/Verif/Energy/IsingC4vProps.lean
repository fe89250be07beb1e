import Verif.Energy.IsingC4vModel
import Verif.Energy.ObsC4v
import Verif.Energy.ObsWitness
/-
C151: the Ising energies of one-site C4v states.
-/
namespace Verif.Energy
open Tensor Ctm Ctm.Spec
open scoped ComplexOrder

/-- The expectation value of a product of operators on two neighbours of the lattice of copies of `a` in the environment. -/
noncomputable def Spec.pairValue (chi D : Nat) (a : Tensor ℂ) (env : C4v.Env ℂ) (o o' : Corrf.Spec.Op ℂ) : ℝ :=
  (Corrf.Spec.twoPoint (C4v.tensors a env) (C4v.Spec.dims chi D 2) .right (0, 0) o o' 0).re / (Corrf.Spec.norm (C4v.tensors a env) (C4v.Spec.dims chi D 2) .right (0, 0) 2).re

theorem isingZz_val : ∃ T, isingZz = some T ∧ T.shape = [2, 2, 2, 2] ∧ ∀ i j a b, i < 2 → j < 2 → a < 2 → b < 2 → T.val [i, j, a, b] = 4 * (Spec.sz a i * Spec.sz b j) := by
  obtain ⟨X, e, s, v⟩ := einsum_ok (fun _ => 2) [(opT (Su2.SZ 2), [0, 2]), (opT (Su2.SZ 2), [1, 3])] [0, 1, 2, 3] (by simp [opT]) (by decide) (by simp)
  refine ⟨comb4 [(4, X)], by simp [isingZz, kron, e], rfl, fun i j a b hi hj ha hb => ?_⟩
  have hv := v (fun l => [i, j, a, b].getD l 0) (by simp; omega)
  rw [show ((([(opT (Su2.SZ 2), [0, 2]), (opT (Su2.SZ 2), [1, 3])] : List (Tensor ℂ × List Nat)).flatMap Prod.snd).dedup.filter (fun l => l ∉ [0, 1, 2, 3])) = [] from rfl] at hv
  simp only [sumOver, termOf, List.map_cons, List.map_nil, List.getD_cons_zero, List.getD_cons_succ, List.prod_cons, List.prod_nil, mul_one, opT, sz_val hi ha, sz_val hj hb] at hv
  simp only [comb4, List.map_cons, List.map_nil, List.sum_cons, List.sum_nil, add_zero, hv, sz_symm i a, sz_symm j b]

theorem firstSite_val {r h : Tensor ℂ} {o : Corrf.Spec.Op ℂ} (hr : r.shape = [2, 2, 2, 2]) (hh : h.shape = [2, 2]) (ho : ∀ i a, i < 2 → a < 2 → h.val [i, a] = o a i) :
    firstSite r h = some (Spec.expect2 r fun a b i j => o a i * Corrf.Spec.one b j) := by
  obtain ⟨R, e, -, v⟩ := einsum_ok (fun _ => 2) [(r, [0, 1, 2, 1]), (h, [0, 2])] [] (by simp [hr, hh]) (by decide) (by simp)
  have hv := v (fun _ => 0) (by simp)
  rw [List.map_nil] at hv
  have hL : ((List.flatMap Prod.snd [(r, [0, 1, 2, 1]), (h, [0, 2])]).dedup.filter (fun l => l ∉ ([] : List Nat))) = [1, 0, 2] := by
    simp only [List.flatMap_cons, List.flatMap_nil]
    decide
  rw [hL] at hv
  unfold firstSite
  rw [e]
  refine congrArg some (hv.trans ?_)
  rw [sumOver_perm (fun _ => 2) (l2 := [0, 2, 1]) (by decide)]
  simp only [sumOver, Spec.expect2]
  refine Finset.sum_congr rfl fun i hi => Finset.sum_congr rfl fun a ha => Finset.sum_congr rfl fun j hj => ?_
  rw [Finset.sum_eq_single j]
  · simp [termOf, Function.update, Corrf.Spec.one, ho i a (Finset.mem_range.1 hi) (Finset.mem_range.1 ha)]
  · intro b _ hb
    simp [Corrf.Spec.one, hb]
  · intro h
    exact absurd hj h

section
variable {chi D : Nat} {a : Tensor ℂ} {env : C4v.Env ℂ}

/-- Without the plaquette term `energy_1x1_nn` is the energy of two bonds and one site. -/
theorem C151_nn (eigh : Tensor ℂ → List ℝ × Tensor ℂ) (hx : ℝ) (hchi : 0 < chi) (hD : 0 < D) (hf : C4v.Spec.Fits chi D 2 a env) (hr : C4v.Spec.Rotated D 2 a) (hS : C4v.Spec.CSymm chi env)
    (h2 : (Corrf.Spec.norm (C4v.tensors a env) (C4v.Spec.dims chi D 2) .right (0, 0) 2).re ≠ 0) :
    isingNn eigh hx 0 a env = .ok ((-2 * (4 * Spec.pairValue chi D a env Spec.sz Spec.sz) - hx * (2 * Spec.pairValue chi D a env Spec.sx Corrf.Spec.one) : ℝ) : ℂ) := by
  have hs : FitsState (C4v.Spec.dims chi D 2) (Spec.single a) := C4v.fitsState hD (by decide) hf
  have he : FitsEnv (C4v.Spec.dims chi D 2) (Spec.single a) (C4v.Spec.unfold env) := C4v.fitsEnv hchi hf
  obtain ⟨rho, R, w1, w2, w3, w4⟩ := (pair_rdm (D := C4v.Spec.dims chi D 2) (N := C4v.tensors a env) eigh hs he (fun _ => rfl) (C4v.reads a env) (0, 0)).1 h2
  have w1' : C4v.rdm2x1 eigh true false a env = .ok R := (C4v.C74_row eigh true false hchi hD (by decide) hf hr hS (0, 0)).trans w1
  have hone : ∀ i j : Nat, star (Corrf.Spec.one i j : ℂ) = Corrf.Spec.one j i := by
    intro i j
    simp only [Corrf.Spec.one]
    by_cases h : i = j
    · simp [h]
    · simp [h, Ne.symm h]
  obtain ⟨Z, eZ, sZ, vZ⟩ := isingZz_val
  have hsum : ∀ (r : Tensor ℂ) (z : ℂ) (O : Nat → Nat → Nat → Nat → ℂ), Spec.expect2 r (fun a b i j => z * O a b i j) = z * Spec.expect2 r O := by
    intro r z O
    simp only [Spec.expect2, Finset.mul_sum, mul_left_comm]
  have hval : ∀ o o' : Corrf.Spec.Op ℂ, (∀ i j, star (o i j) = o j i) → (∀ i j, star (o' i j) = o' j i) → (Spec.expect2 R fun a b i j => o a i * o' b j) = (Spec.pairValue chi D a env o o' : ℂ) := by
    intro o o' ho ho'
    rw [w4 _ (fun a _ b _ i _ j _ => by rw [star_mul', ho, ho']), w3]
    rfl
  have hX : firstSite R (opT (Su2.SP 2 + Su2.SM 2)) = some (2 * (Spec.pairValue chi D a env Spec.sx Corrf.Spec.one : ℂ)) := by
    rw [firstSite_val (o := fun a i => 2 * Spec.sx a i) w2 rfl (fun i a hi ha => by
      simp only [opT, List.getD_cons_zero, List.getD_cons_succ, Matrix.add_apply, sp_val hi ha, sm_val hi ha]
      rcases lt2 ha with rfl | rfl <;> rcases lt2 hi with rfl | rfl <;> simp [Spec.sp, Spec.sm, Spec.sx])]
    simp only [mul_assoc]
    rw [hsum, hval _ _ sx_conj hone]
  have hZ : full4 R Z = some (4 * (Spec.pairValue chi D a env Spec.sz Spec.sz : ℂ)) := by
    rw [full4_val (O := fun a b i j => 4 * (Spec.sz a i * Spec.sz b j)) w2 sZ vZ, hsum, hval _ _ sz_conj sz_conj]
  rw [isingNn, if_pos rfl, w1', bindOk, hX, C4v.lift_some, eZ, C4v.lift_some, hZ, C4v.lift_some]
  simp only [pure, Except.pure]
  push_cast
  rfl

/-- With a plaquette term `energy_1x1_nn` raises. -/
theorem C151_nn_raises (eigh : Tensor ℂ → List ℝ × Tensor ℂ) {hx q : ℝ} (hq : q ≠ 0) : isingNn eigh hx q a env = .error .raise := if_neg hq

/-- `energy_1x1_plaqette` is `energy_1x1` of class `ISING` for the lattice of copies of the site: the energy per site with the sign of the plaquette term reversed. -/
theorem C151_plaquette_value (eigh : Tensor ℂ → List ℝ × Tensor ℂ) (hx q : ℝ) (hchi : 0 < chi) (hD : 0 < D) (hf : C4v.Spec.Fits chi D 2 a env) (hr : C4v.Spec.Rotated D 2 a)
    {r : Tensor ℂ} (h : Rdm.rdm2x2 eigh false (C4v.Spec.cell a) (C4v.Spec.unfold env) (0, 0) [0, 1, 2, 3] = .ok r) :
    ∃ e : ℝ, isingPlaquette eigh hx q a env = .ok (e : ℂ) ∧ isingEnergy eigh hx q (C4v.Spec.cell a) (C4v.Spec.unfold env) = .ok e ∧ (e : ℂ) = Spec.isingSite hx (-q) r := by
  have hs : FitsState (C4v.Spec.dims chi D 2) (C4v.Spec.cell a) := C4v.fitsState hD (by decide) hf
  have he : FitsEnv (C4v.Spec.dims chi D 2) (C4v.Spec.cell a) (C4v.Spec.unfold env) := C4v.fitsEnv hchi hf
  obtain ⟨e, e1, e2⟩ := C52_value eigh hx q hs he (fun _ => rfl) h
  refine ⟨e, ?_, e1, e2⟩
  obtain ⟨T, eT, qT⟩ := isingHp_val hx q
  rw [isingPlaquette, C4v.C73_plaquette eigh false hchi hD (by decide) hf hr (0, 0), h, bindOk, eT, C4v.lift_some, full_val (rdm_ok eigh hs he (fun _ => rfl) h).1 qT, ising_expect, e2]
  rfl

/-- Without the plaquette term it is the energy per site. Missing: the plaquette term, see `C151_violated`. -/
theorem C151_plaquette_partial (eigh : Tensor ℂ → List ℝ × Tensor ℂ) (hx : ℝ) (hchi : 0 < chi) (hD : 0 < D) (hf : C4v.Spec.Fits chi D 2 a env) (hr : C4v.Spec.Rotated D 2 a)
    {r : Tensor ℂ} (h : Rdm.rdm2x2 eigh false (C4v.Spec.cell a) (C4v.Spec.unfold env) (0, 0) [0, 1, 2, 3] = .ok r) :
    isingPlaquette eigh hx 0 a env = .ok (Spec.isingSite hx 0 r) := by
  obtain ⟨e, e1, -, e2⟩ := C151_plaquette_value eigh hx 0 hchi hD hf hr h
  rw [e1, e2, neg_zero]

end

/-- The ferromagnet with `q = 1` has energy -1 per site, the value returned is -3. -/
theorem C151_violated (eigh : Tensor ℂ → List ℝ × Tensor ℂ) : ∃ (hx q : ℝ) (a : Tensor ℂ) (env : C4v.Env ℂ) (r : Tensor ℂ), C4v.Spec.Fits 1 1 2 a env ∧ C4v.Spec.Rotated 1 2 a ∧
    Rdm.rdm2x2 eigh false (C4v.Spec.cell a) (C4v.Spec.unfold env) (0, 0) [0, 1, 2, 3] = .ok r ∧ isingPlaquette eigh hx q a env = .ok (-3) ∧ Spec.isingSite hx q r = -1 := by
  obtain ⟨R, k1, k2⟩ := prodRdm_ok [(0, 0)] (fun _ => (0, 0)) (fun _ => upVec) eigh (fun _ => upNorm) (0, 0)
  have k1' : Rdm.rdm2x2 eigh false (C4v.Spec.cell (Corrf.pSite upVec)) (C4v.Spec.unfold C4v.oneEnv) (0, 0) [0, 1, 2, 3] = .ok R := k1
  have hb : ∀ m n, m < n → n < 4 → Spec.expect R (Spec.onBond m n (fun a b a' b' => 4 * (Spec.sz a a' * Spec.sz b b'))) = 1 := by
    intro m n hm hn'
    rw [k2, show (fun a b a' b' => 4 * (Spec.sz a a' * Spec.sz b b')) = fun a b a' b' => (fun x y => 4 * Spec.sz x y) a a' * Spec.sz b b' from by funext a b a' b'; ring,
      four_bond (w := fun _ => upVec) (fun _ => upNorm) m n hm hn']
    simp [Corrf.pExpect, upVec, Spec.sz, Finset.sum_range_succ]
    norm_num
  have hq : Spec.expect R Spec.fourZ = 1 := by
    rw [k2]
    refine (expect_four (fun _ => upVec) (fun _ x y => 2 * Spec.sz x y)).trans ?_
    simp [Corrf.pExpect, upVec, Spec.sz, Finset.sum_range_succ]
  have hv : ∀ q : ℝ, Spec.isingSite 0 q R = -2 + q := by
    intro q
    rw [Spec.isingSite, hb 0 1 (by decide) (by decide), hb 0 2 (by decide) (by decide), hq]
    push_cast
    ring
  obtain ⟨e, e1, -, e2⟩ := C151_plaquette_value eigh 0 1 one_pos one_pos (C4v.oneEnv_fits upVec) (C4v.oneEnv_rotated upVec) k1'
  refine ⟨0, 1, _, _, R, C4v.oneEnv_fits _, C4v.oneEnv_rotated _, k1', ?_, ?_⟩
  · rw [e1, e2, hv]
    norm_num
  · rw [hv]
    norm_num

/-! ### Hypotheses are met -/

/-- Two neighbours of a product state. -/
theorem pairValue_prod {v : Nat → ℂ} (hv : Corrf.pExpect v Corrf.Spec.one = 1) (o o' : Corrf.Spec.Op ℂ) :
    Spec.pairValue 1 1 (Corrf.pSite v) C4v.oneEnv o o' = (Corrf.pExpect v o * Corrf.pExpect v o').re := by
  have h1 : Corrf.Spec.norm (C4v.tensors (Corrf.pSite v) C4v.oneEnv) (C4v.Spec.dims 1 1 2) .right (0, 0) 2 = 1 := prodNorm (fun _ => (0, 0)) (fun _ => v) (fun _ => hv) .right (0, 0) 2
  have h2 : Corrf.Spec.twoPoint (C4v.tensors (Corrf.pSite v) C4v.oneEnv) (C4v.Spec.dims 1 1 2) .right (0, 0) o o' 0 = Corrf.pExpect v o * Corrf.pExpect v o' := by
    refine (prodNetwork (fun _ => (0, 0)) (fun _ => v) .right (0, 0) [o, o']).trans ?_
    simp [along]
  rw [Spec.pairValue, h1, h2]
  simp

/-- The state `(3, 4)/5` in a field 2: `-2 (14/50)^2 - 2 (24/25)`. -/
example (eigh : Tensor ℂ → List ℝ × Tensor ℂ) : isingNn eigh 2 0 (Corrf.pSite xVec) C4v.oneEnv = .ok ((-2 * (4 * (7 / 50) ^ 2) - 2 * (2 * (12 / 25)) : ℝ) : ℂ) := by
  rw [C151_nn eigh 2 one_pos one_pos (C4v.oneEnv_fits xVec) (C4v.oneEnv_rotated xVec) C4v.oneEnv_c
    (by rw [show Corrf.Spec.norm (C4v.tensors (Corrf.pSite xVec) C4v.oneEnv) (C4v.Spec.dims 1 1 2) .right (0, 0) 2 = 1 from prodNorm (fun _ => (0, 0)) (fun _ => xVec) (fun _ => xNorm) .right (0, 0) 2]; simp),
    pairValue_prod xNorm, pairValue_prod xNorm, xZ, xX, xNorm]
  refine congrArg Except.ok (congrArg _ ?_)
  rw [← Complex.ofReal_mul, mul_one, Complex.ofReal_re, Complex.ofReal_re]
  norm_num

end Verif.Energy
