import Verif.Kagome.AkltProps
/-
Witnesses for C121 and C122.
-/
namespace Verif.KagomeRdm
open Tensor Ctm Rdm Ctm.Spec Spec
open Corrf (pEnv)

noncomputable def equalState : State ℂ := kState 3 [(0, 0)] (fun _ => (0, 0)) (fun _ _ a => if a = 0 then 1 else 0)

theorem equal_norm (_ : Fin 3) : ∑ a ∈ Finset.range 3, (if a = 0 then (1 : ℂ) else 0) * star (if a = 0 then (1 : ℂ) else 0) = 1 := by simp [Finset.sum_range_succ]

theorem trace_aligned : Matrix.trace (proj 3 (fun _ a => if a = 0 then 1 else 0) * aligned 3) = 1 := by
  simp only [Matrix.trace, Matrix.diag_apply, Matrix.mul_apply, proj_apply, aligned, Matrix.of_apply, Fin.prod_univ_three]
  rw [Finset.sum_eq_single (fun _ => 0), Finset.sum_eq_single (fun _ => 0)]
  · simp
  · intro t _ h
    have h' : ¬ ((t = fun _ => 0) ∧ t 0 = t 1 ∧ t 1 = t 2) := fun hh => h hh.1
    simp only [if_neg h', mul_zero]
  · intro h; exact absurd (Finset.mem_univ _) h
  · intro s _ h
    refine Finset.sum_eq_zero fun t _ => ?_
    by_cases h0 : t = s ∧ t 0 = t 1 ∧ t 1 = t 2
    · obtain ⟨rfl, h1, h2⟩ := h0
      have : (t 0 : Nat) ≠ 0 := by
        intro h3
        refine h ((spins_ext _ _).2 ?_)
        have h3' : t 0 = 0 := Fin.ext h3
        exact ⟨h3', h1 ▸ h3', h2 ▸ h1 ▸ h3'⟩
      simp [this]
    · rw [if_neg h0, mul_zero]
  · intro h; exact absurd (Finset.mem_univ _) h

/-- All spins in the same state: every exchange has expectation value one, the energy of the triangle with `j1 = 1` is three; `energy_triangle_up` gives one. -/
theorem C121_violated (eigh : Tensor ℂ → List ℝ × Tensor ℂ) : ∃ (m : ChiralCouplings) (D : Dims) (st : State ℂ) (env : Env ℂ) (R : Tensor ℂ),
    Tiling st ∧ FitsState D st ∧ FitsEnv D st env ∧ (∀ c, D.p c = 3 ^ 3) ∧ rdm2x2 eigh false st env (0, 0) [0, 1, 2, 3] = .ok R ∧
    Matrix.trace (reduced 3 4 R 4 8 9 * su3Triangle ⟨m.j1, m.Kr, m.Ki⟩) = 3 ∧ chiralUp eigh m st env = .ok 1 := by
  obtain ⟨R, hR, -, h2⟩ := kProduct (p := 3) [(0, 0)] (fun _ => (0, 0)) (fun _ _ a => if a = 0 then 1 else 0) eigh (by decide) (fun _ => equal_norm) (0, 0)
  have hs : FitsState (Models.gDims (3 ^ 3)) equalState := Models.gFitsState _ _ _ (by decide)
  have he : FitsEnv (Models.gDims (3 ^ 3)) equalState pEnv := Models.gFitsEnv _ _ _
  have hu : ∑ a : Fin 3, (if (a : Nat) = 0 then (1 : ℂ) else 0) * star (if (a : Nat) = 0 then (1 : ℂ) else 0) = 1 := by simp [Fin.sum_univ_three]
  have hT := trace_swaps_eq (p := 3) (fun a => if a = 0 then 1 else 0) hu
  have h2' : reduced 3 4 R 4 8 9 = proj 3 (fun _ a => if a = 0 then 1 else 0) := by rw [h2]; congr 1; funext x; rw [ite_self, ite_self]
  have hH : su3Triangle ⟨1, 0, 0⟩ = swaps 3 := by simp [su3Triangle]
  obtain ⟨v, e, hv⟩ := C121_energy_up eigh ⟨0, 0, 1, 0⟩ (one_tiling _) hs he (fun _ => rfl) hR
  refine ⟨⟨0, 0, 1, 0⟩, _, equalState, pEnv, R, one_tiling _, hs, he, fun _ => rfl, hR, ?_, e.trans ?_⟩
  · show Matrix.trace (reduced 3 4 R 4 8 9 * su3Triangle ⟨1, 0, 0⟩) = 3
    rw [hH, h2', hT]
  · refine congrArg Except.ok ?_
    have : (v : ℂ) = 1 := by
      rw [hv]
      show Matrix.trace (reduced 3 4 R 4 8 9 * (su3Triangle ⟨1, 0, 0⟩ - (2 * ((1 : ℝ) : ℂ)) • aligned 3)) = 1
      rw [hH, h2', mul_sub, Matrix.trace_sub, hT, Matrix.mul_smul, Matrix.trace_smul, trace_aligned]
      norm_num
    exact_mod_cast this

/-- Spins 1, 2 in the first state and spin 3 in the second: the generator `lambda_3` of spin 1 has the expectation value one, `eval_su3_gens` prints zero. -/
theorem C121_gens_violated (eigh : Tensor ℂ → List ℝ × Tensor ℂ) : ∃ (D : Dims) (st : State ℂ) (env : Env ℂ) (R : Tensor ℂ) (l : List (List ℂ)),
    Tiling st ∧ FitsState D st ∧ FitsEnv D st env ∧ (∀ c, D.p c = 3 ^ 3) ∧ HermitianSite 3 D st env (0, 0) ∧ rdm1x1 eigh true false st env (0, 0) none = .ok R ∧
    Matrix.trace (reduced 3 1 R 0 1 2 * at' 0 (Su3.Spec.lambda 2)) = 1 ∧ chiralGens eigh st env = .ok l ∧ (l.getD 0 []).getD 2 1 = 0 := by
  obtain ⟨R, hR, h1⟩ := kOne (p := 3) [(0, 0)] (fun _ => (0, 0)) (fun _ => aab) eigh (by decide) (fun _ => aab_norm) (one_tiling _) (0, 0) (by simp)
  have hs : FitsState (Models.gDims (3 ^ 3)) aabState := Models.gFitsState _ _ _ (by decide)
  have he : FitsEnv (Models.gDims (3 ^ 3)) aabState pEnv := Models.gFitsEnv _ _ _
  have hh : HermitianSite 3 (Models.gDims (3 ^ 3)) aabState pEnv (0, 0) := kHermitian _ _ _ _
  refine ⟨_, aabState, pEnv, R, _, one_tiling _, hs, he, fun _ => rfl, hh, hR, ?_, C121_gens eigh (one_tiling _) hs he (fun _ => rfl) hh hR, ?_⟩
  · rw [h1, at', trace_proj, ← lambda3_eq]
    simp [Fin.prod_univ_three, Fin.sum_univ_three, aab, lambda3, Function.update]
  · show Matrix.trace (reduced 3 1 R 0 1 2 * paired 0 (Su3.Spec.lambda 2)) = 0
    rw [h1]
    simp only [Matrix.trace, Matrix.diag_apply, Matrix.mul_apply, proj_apply, paired, Matrix.of_apply, Fin.prod_univ_three]
    refine Finset.sum_eq_zero fun s _ => Finset.sum_eq_zero fun t _ => ?_
    by_cases h : t (0 + 1) = t (0 + 2) ∧ s (0 + 1) = s (0 + 2)
    · have h' : s 1 = s 2 := h.2
      have : aab 1 (s 1) * aab 2 (s 2) = 0 := by
        rw [h']
        simp only [aab]
        generalize (s 2 : Nat) = n
        by_cases h0 : n = 0
        · subst h0; simp
        · simp [h0]
      rw [if_pos h]
      calc _ = (aab 1 (s 1) * aab 2 (s 2)) * (aab 0 (s 0) * star (aab 0 (t 0)) * star (aab 1 (t 1)) * star (aab 2 (t 2)) * Su3.Spec.lambda 2 (t 0) (s 0)) := by ring
        _ = 0 := by rw [this, zero_mul]
    · rw [if_neg h, mul_zero]

/-! ### The hypotheses can be met -/

/-- With `Ki` alone `energy_triangle_up` is the chirality of the product state. -/
example (eigh : Tensor ℂ → List ℝ × Tensor ℂ) : chiralUp eigh ⟨0, 1, 0, 0⟩ chiral3State pEnv = .ok (288 / 625) := by
  obtain ⟨R, hR, -, h2⟩ := kProduct (p := 3) [(0, 0)] (fun _ => (0, 0)) (fun _ => chiral3) eigh (by decide) (fun _ => chiral3_norm) (0, 0)
  have hs : FitsState (Models.gDims (3 ^ 3)) chiral3State := Models.gFitsState _ _ _ (by decide)
  have he : FitsEnv (Models.gDims (3 ^ 3)) chiral3State pEnv := Models.gFitsEnv _ _ _
  have hH : su3Triangle ⟨0, 0, 1⟩ = su3Chi := by simp [su3Triangle, su3Chi]
  obtain ⟨v, e, hv⟩ := C121_energy_up_partial eigh ⟨0, 1, 0, 0⟩ rfl (one_tiling _) hs he (fun _ => rfl) hR
  rw [show su3Triangle _ = su3Chi from hH, h2, chiral3_trace.2] at hv
  refine e.trans (congrArg Except.ok ?_)
  have := congrArg Complex.re hv
  rw [Complex.ofReal_re] at this
  rw [this]; norm_num

/-- The exchange of the bonds 12 and 23 of the state with spins 1, 2 equal and spin 3 orthogonal, and the values of `eval_obs` for the same state. -/
example (eigh : Tensor ℂ → List ℝ × Tensor ℂ) : chiralBonds eigh aabState pEnv = .ok (0, 0, 1) ∧ (∃ l, chiralObs eigh aabState pEnv = .ok l ∧ ("l3_1", 1) ∈ l ∧ ("l3_3", -1) ∈ l) ∧
    ∃ v, chiralPup eigh aabState pEnv = .ok v := by
  obtain ⟨R, hR, h1⟩ := kOne (p := 3) [(0, 0)] (fun _ => (0, 0)) (fun _ => aab) eigh (by decide) (fun _ => aab_norm) (one_tiling _) (0, 0) (by simp)
  obtain ⟨R4, hR4, -⟩ := kProduct (p := 3) [(0, 0)] (fun _ => (0, 0)) (fun _ => aab) eigh (by decide) (fun _ => aab_norm) (0, 0)
  have hs : FitsState (Models.gDims (3 ^ 3)) aabState := Models.gFitsState _ _ _ (by decide)
  have he : FitsEnv (Models.gDims (3 ^ 3)) aabState pEnv := Models.gFitsEnv _ _ _
  have hh : HermitianSite 3 (Models.gDims (3 ^ 3)) aabState pEnv (0, 0) := kHermitian _ _ _ _
  refine ⟨(C121_bonds eigh (one_tiling _) hs he (fun _ => rfl) hh hR).trans ?_, ?_, _, C121_P_up eigh (one_tiling _) hs he (fun _ => rfl) hR4⟩
  · have t1 : Matrix.trace (proj 3 aab * swap 3 1 2) = 0 := by
      rw [trace_swap, Fin.prod_univ_three, show (Equiv.swap (1 : Fin 3) 2) 1 = 2 by decide]
      simp [aab, Fin.sum_univ_three]
    have t2 : Matrix.trace (proj 3 aab * swap 3 0 2) = 0 := by
      rw [trace_swap, Fin.prod_univ_three, show (Equiv.swap (0 : Fin 3) 2) 0 = 2 by decide]
      simp [aab, Fin.sum_univ_three]
    have t3 : Matrix.trace (proj 3 aab * swap 3 0 1) = 1 := by
      rw [trace_swap, Fin.prod_univ_three, show (Equiv.swap (0 : Fin 3) 1) 0 = 1 by decide, show (Equiv.swap (0 : Fin 3) 1) 1 = 0 by decide, show (Equiv.swap (0 : Fin 3) 1) 2 = 2 by decide]
      simp [aab, Fin.sum_univ_three]
    rw [h1, t1, t2, t3]; norm_num
  · obtain ⟨v, e, hv⟩ := C121_obs eigh (one_tiling _) hs he (fun _ => rfl) hh hR
    refine ⟨_, e, ?_, ?_⟩
    · have : v 0 2 = 1 := by
        rw [hv, h1, at', trace_proj, ← lambda3_eq]
        simp [Fin.prod_univ_three, Fin.sum_univ_three, aab, lambda3, Function.update]
      simp [this]
    · have : v 2 2 = -1 := by
        rw [hv, h1, at', trace_proj, ← lambda3_eq]
        simp [Fin.prod_univ_three, Fin.sum_univ_three, aab, lambda3, Function.update]
      simp [this]

/-- The energy of the AKLT model in the state with all spins equal, and the two correlation functions. -/
example (eigh : Tensor ℂ → List ℝ × Tensor ℂ) (d : Dir) (dist : Nat) : akltDn eigh equalState pEnv = .ok (4 / 3) ∧ (∃ v, akltLambdas eigh equalState pEnv = .ok v) ∧
    (∃ l, akltLL d equalState pEnv dist = .ok l) ∧ ∃ l, akltPP eigh d equalState pEnv dist = .ok l := by
  obtain ⟨R, hR, h1⟩ := kOne (p := 3) [(0, 0)] (fun _ => (0, 0)) (fun _ _ a => if a = 0 then 1 else 0) eigh (by decide) (fun _ => equal_norm) (one_tiling _) (0, 0) (by simp)
  have hs : FitsState (Models.gDims (3 ^ 3)) equalState := Models.gFitsState _ _ _ (by decide)
  have he : FitsEnv (Models.gDims (3 ^ 3)) equalState pEnv := Models.gFitsEnv _ _ _
  have hN : Corrf.Spec.Reads equalState pEnv (Models.gTensors (3 ^ 3) (fun _ => (0, 0)) (fun _ => prodVec 3 (fun _ a => if a = 0 then 1 else 0))) := Models.gReads _ _ _
  have hn : ∀ r ≤ dist, Corrf.Spec.norm (Models.gTensors (3 ^ 3) (fun _ => (0, 0)) (fun _ => prodVec 3 (fun _ a => if a = 0 then 1 else 0))) (Models.gDims (3 ^ 3)) d (0, 0) (r + 2) ≠ 0 := by
    intro r _
    rw [Models.gNorm]
    · exact one_ne_zero
    · intro _
      refine Eq.trans ?_ (prodVec_norm (p := 3) (fun _ a => if a = 0 then 1 else 0) equal_norm)
      unfold Models.gExpect Corrf.Spec.one
      refine Finset.sum_congr rfl fun s hs => ?_
      rw [Finset.sum_eq_single_of_mem s hs (fun t _ h => by rw [if_neg h.symm, mul_zero, zero_mul]), if_pos rfl, mul_one, mul_comm]
  refine ⟨(C122_energy_down eigh (one_tiling _) hs he (fun _ => rfl) hR).trans ?_, ?_, ?_, ?_⟩
  · refine congrArg Except.ok ?_
    have hc : Matrix.trace (proj 3 (fun _ a => if a = 0 then 1 else 0) * cyclic 3) = 1 := by
      rw [trace_cyclic]; simp [Fin.sum_univ_three]
    have hc' : Matrix.trace (proj 3 (fun _ a => if a = 0 then 1 else 0) * (cyclic 3).conjTranspose) = 1 := by
      have := congrArg star hc
      rw [← Matrix.trace_conjTranspose, Matrix.conjTranspose_mul, Matrix.trace_mul_comm, star_one, (proj_isHerm _).eq] at this
      exact this
    rw [h1, mul_add, Matrix.trace_add, hc, hc']; norm_num
  · obtain ⟨v, e, -⟩ := C122_lambdas eigh (one_tiling _) hs he (fun _ => rfl) hR
    exact ⟨_, e⟩
  · obtain ⟨_, _, _, _, _, e, -⟩ := C122_corrf_LL (one_tiling _) hs he (fun _ => rfl) hN d dist hn
    exact ⟨_, e⟩
  · obtain ⟨_, _, _, e, -⟩ := C122_corrf_PP eigh (one_tiling _) hs he (fun _ => rfl) hN hR d dist hn
    exact ⟨_, e⟩

end Verif.KagomeRdm
