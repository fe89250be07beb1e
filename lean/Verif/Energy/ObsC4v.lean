import Verif.Energy.ObsProps
import Verif.Energy.CorrWitness
/-
C104: the observables of one-site C4v states.
-/
namespace Verif.Energy
open Tensor Ctm Ctm.Spec
set_option linter.unusedSimpArgs false

namespace Spec

/-- The expectation value of an operator on `c`, measured in the strip of `c` and its right neighbour. -/
noncomputable def leftSite (N : Corrf.Spec.Tensors ℂ) (D : Dims) (c : Coord) (o : Corrf.Spec.Op ℂ) : ℝ :=
  (Corrf.Spec.twoPoint N D .right c o Corrf.Spec.one 0).re / (Corrf.Spec.norm N D .right c 2).re

/-- The labels of a one-site state: `N` is the checkerboard of `A` and `R A`, `r` the density matrix of one of its plaquettes. -/
noncomputable def observable4 (N : Corrf.Spec.Tensors ℂ) (D : Dims) (r : Tensor ℂ) : Label4 → ℂ
  | .m => ((Real.sqrt (leftSite N D (0, 0) sx ^ 2 + leftSite N D (0, 0) sy ^ 2 + leftSite N D (0, 0) sz ^ 2) : ℝ) : ℂ)
  | .sz => (leftSite N D (0, 0) sz : ℂ)
  | .sp => (leftSite N D (0, 0) sx : ℂ) + Complex.I * (leftSite N D (0, 0) sy : ℂ)
  | .sm => (leftSite N D (0, 0) sx : ℂ) - Complex.I * (leftSite N D (0, 0) sy : ℂ)
  | .ss2x1 => (bond N D .right (0, 0) : ℂ)
  | .ssNnn => expect r (onBond 0 3 (heis 1))
  | .ss3x1 => (((dotNet N D .right (0, 0) 1).re / (Corrf.Spec.norm N D .right (0, 0) 3).re : ℝ) : ℂ)
  | .chiralT => expect r chirality

end Spec

theorem reduceSite_ok {R : Tensor ℂ} (hs : R.shape = [2, 2, 2, 2]) (ht : (Spec.expect2 R fun a b i j => Corrf.Spec.one a i * Corrf.Spec.one b j) = 1) :
    ∃ x, reduceSite R = .ok x ∧ x.shape = [2, 2] ∧ ∀ o, Spec.expect1 x o = Spec.expect2 R fun a b i j => o a i * Corrf.Spec.one b j := by
  obtain ⟨x, e, s, v⟩ := einsum_ok (fun _ => 2) [(R, [0, 1, 2, 1])] [0, 2] (by simp [hs]) (by decide) (by simp)
  have hv : ∀ i < 2, ∀ a < 2, x.val [i, a] = ∑ j ∈ Finset.range 2, R.val [i, j, a, j] := by
    intro i hi a ha
    have := v (fun n => if n = 0 then i else a) (by intro l hl; simp only [List.mem_cons, List.not_mem_nil, or_false] at hl; rcases hl with rfl | rfl <;> simp <;> omega)
    have hL : ((List.flatMap Prod.snd [(R, [0, 1, 2, 1])]).dedup.filter (fun l => l ∉ ([0, 2] : List Nat))) = [1] := by
      simp only [List.flatMap_cons, List.flatMap_nil]
      decide
    rw [hL] at this
    refine (show x.val [i, a] = _ from this).trans ?_
    simp [sumOver, termOf, Function.update]
  have hx : ∀ o, Spec.expect1 x o = Spec.expect2 R fun a b i j => o a i * Corrf.Spec.one b j := by
    intro o
    unfold Spec.expect1 Spec.expect2
    refine Finset.sum_congr rfl fun i hi => Finset.sum_congr rfl fun a ha => ?_
    rw [hv i (Finset.mem_range.1 hi) a (Finset.mem_range.1 ha), Finset.sum_mul]
    refine Finset.sum_congr rfl fun j hj => ?_
    have hj := Finset.mem_range.1 hj
    rw [Finset.sum_eq_single j]
    · simp [Corrf.Spec.one]
    · intro b _ hb
      simp [Corrf.Spec.one, hb]
    · intro h
      exact absurd (Finset.mem_range.2 hj) h
  obtain ⟨t, e', -, v'⟩ := einsum_ok (fun _ => 2) [(x, [0, 0])] [] (by simp [s]) (by decide) (by simp)
  have hT : t.val [] = 1 := by
    have := v' (fun _ => 0) (by simp)
    rw [List.map_nil] at this
    have hL : ((List.flatMap Prod.snd [(x, [0, 0])]).dedup.filter (fun l => l ∉ ([] : List Nat))) = [0] := by
      simp only [List.flatMap_cons, List.flatMap_nil]
      decide
    rw [hL] at this
    rw [this, ← ht, ← hx]
    simp [sumOver, termOf, Function.update, Spec.expect1, Corrf.Spec.one, sum_range2]
  refine ⟨⟨x.shape, fun idx => x.val idx / t.val []⟩, ?_, by simpa using s, fun o => ?_⟩
  · rw [reduceSite, e, C4v.lift_some, e', C4v.lift_some, if_neg (by rw [hT]; exact one_ne_zero)]
    rfl
  · rw [← hx]
    unfold Spec.expect1
    simp only [hT, div_one]

section
variable {chi D : Nat} {a : Tensor ℂ} {env : C4v.Env ℂ}

/-- The third neighbours without `sym_pos_def`. -/
theorem third_value (eigh : Tensor ℂ → List ℝ × Tensor ℂ) (sl : Bool) (hchi : 0 < chi) (hD : 0 < D) (hf : C4v.Spec.Fits chi D 2 a env) (hr : C4v.Spec.Rotated D 2 a) (hS : C4v.Spec.CSymm chi env)
    (h0 : (Corrf.Spec.norm (C4v.tensors a env) (C4v.Spec.dims chi D 2) .right (0, 0) 3).re ≠ 0) :
    ∃ r, C4v.rdm3x1 eigh sl false a env = .ok r ∧ full4 r (ssT (1, 1, 1)) = some
      (((Spec.dotNet (C4v.tensors a env) (C4v.Spec.dims chi D 2) .right (0, 0) 1).re / (Corrf.Spec.norm (C4v.tensors a env) (C4v.Spec.dims chi D 2) .right (0, 0) 3).re : ℝ) : ℂ) := by
  obtain ⟨e, rho, g1, g2, g3⟩ := C4v.C74_ends eigh false hchi hD (by decide) hf hr hS (0, 0)
  have hx : ∀ o o', Spec.expect2 rho (fun a b i j => o a i * o' b j) = Corrf.Spec.twoPoint (C4v.tensors a env) (C4v.Spec.dims chi D 2) .right (0, 0) o o' 1 :=
    fun o o' => Rdm.row_expect (C4v.fitsState hD (by decide) hf) (C4v.reads a env) g1 g2 o o'
  have hn : (Spec.expect2 rho fun a b i j => Corrf.Spec.one a i * Corrf.Spec.one b j) = Corrf.Spec.norm (C4v.tensors a env) (C4v.Spec.dims chi D 2) .right (0, 0) 3 := hx _ _
  obtain ⟨R, e1, e2, e3⟩ := sym_expect2 eigh (rho := rho) g2.1 (by rw [hn]; exact h0)
  refine ⟨R, (g3 sl).trans e1, ?_⟩
  have hf4 : full4 R (ssT (1, 1, 1)) = some (Spec.expect2 R (Spec.heis 1)) := full4_val e2 rfl (fun i j a b hi hj ha hb => ss_val 1 hi hj ha hb)
  rw [hf4, e3 _ (fun a ha b hb i hi j hj => heis_star 1 a b i j ha hb hi hj), heis_net hx, hn]

set_option maxHeartbeats 1000000 in
/-- The observables of `eval_obs` for one-site states are those of the checkerboard of `A` and `R A`. -/
theorem C104_values (eigh : Tensor ℂ → List ℝ × Tensor ℂ) (m : J1J2) (hchi : 0 < chi) (hD : 0 < D) (hf : C4v.Spec.Fits chi D 2 a env) (hr : C4v.Spec.Rotated D 2 a) (hS : C4v.Spec.CSymm chi env)
    (h2 : (Corrf.Spec.norm (C4v.tensors a env) (C4v.Spec.dims chi D 2) .right (0, 0) 2).re ≠ 0)
    (h3 : m.j3 = 0 ∨ (Corrf.Spec.norm (C4v.tensors a env) (C4v.Spec.dims chi D 2) .right (0, 0) 3).re ≠ 0) {r : Tensor ℂ} (h4 : C4v.rdm2x2 eigh false a env = .ok r) :
    ∃ r0, Rdm.rdm2x2 eigh false (Spec.checker a) (Spec.both (C4v.Spec.unfold env)) (0, 0) [0, 1, 2, 3] = .ok r0 ∧
      evalObsC4v eigh m a env = .ok ((obsLabels4 m).map (Spec.observable4 (Spec.stagger (0, 0) (C4v.tensors a env)) (C4v.Spec.dims chi D 2) r0), obsLabels4 m) := by
  have hs : FitsState (C4v.Spec.dims chi D 2) (Spec.single a) := C4v.fitsState hD (by decide) hf
  have he : FitsEnv (C4v.Spec.dims chi D 2) (Spec.single a) (C4v.Spec.unfold env) := C4v.fitsEnv hchi hf
  have hr' : Rdm.rdm2x2 eigh false (Spec.single a) (C4v.Spec.unfold env) (0, 0) [0, 1, 2, 3] = .ok r := (C4v.C73_plaquette eigh false hchi hD (by decide) hf hr (0, 0)).symm.trans h4
  obtain ⟨⟨r0, e0, s0, q0⟩, -⟩ := checker_rdm eigh hs he (fun _ => rfl) hr'
  obtain ⟨hrs, -⟩ := C4v.rdm2x2_turns eigh hf h4
  have hN : ∀ c, ((C4v.tensors a env).a c).size 0 = 2 := tensors_two hf
  refine ⟨r0, e0, ?_⟩
  obtain ⟨V, hV⟩ : ∃ V, V = Spec.observable4 (Spec.stagger (0, 0) (C4v.tensors a env)) (C4v.Spec.dims chi D 2) r0 := ⟨_, rfl⟩
  have v3 : V .ss3x1 = (((Spec.dotNet (C4v.tensors a env) (C4v.Spec.dims chi D 2) .right (0, 0) 1).re / (Corrf.Spec.norm (C4v.tensors a env) (C4v.Spec.dims chi D 2) .right (0, 0) 3).re : ℝ) : ℂ) := by
    rw [hV]
    have hc : ∀ o : Corrf.Spec.Op ℂ, conjO (1 % 2 == 0) o = o := by
      intro o
      funext i j
      simp [conjO, se, fb]
    simp only [Spec.observable4, Spec.dotNet, twoPoint_stagger hN, norm_stagger hN, hc]
  have o3 : ∀ o, obsThird eigh m a env o = .ok (if m.j3 = 0 then o else o.put .ss3x1 (V .ss3x1)) := by
    intro o
    unfold obsThird
    split_ifs with h
    · rfl
    · obtain ⟨R, w1, w2⟩ := third_value eigh false hchi hD hf hr hS (h3.resolve_left h)
      rw [w1, bindOk, w2, C4v.lift_some, v3]
      rfl
  have oC : ∀ o, obsChiral eigh m a env o = .ok (if m.lmbd = 0 then o else o.put .chiralT (V .chiralT)) := by
    intro o
    unfold obsChiral
    split_ifs with h
    · rfl
    · obtain ⟨C, eC, qC⟩ := chiral_val
      obtain ⟨C', eC', qC'⟩ := rotBC_val qC
      rw [h4, bindOk, eC, C4v.lift_some, eC', C4v.lift_some, full_val hrs qC', C4v.lift_some, ← expect_rot q0, hV]
      rfl
  obtain ⟨Q, g1, g2⟩ := Rdm.C33_normalised eigh hs he (0, 0) [0, 3] (by decide) (by decide) (by decide) hr'
  rw [ptrace_two _ _ _ _ _ (by simp)] at g2
  have oD : ∀ o, obsDiagonal eigh m a env o = .ok (if m.j2 = 0 then o else o.put .ssNnn (V .ssNnn)) := by
    intro o
    unfold obsDiagonal
    split_ifs with h
    · rfl
    · have hx : full4 Q (ssT (1, 1, 1)) = some (Spec.expect2 Q (Spec.heis 1)) := full4_val g2.1 rfl (fun i j a b hi hj ha hb => ss_val 1 hi hj ha hb)
      have k : C4v.rdmNNN eigh true false a env = .ok Q := (C4v.C73_diagonal eigh true false hchi hD (by decide) hf hr (0, 0)).trans g1
      rw [k, bindOk, hx, C4v.lift_some, expect2_same g2 rfl, ← expect_bond03, rot_bond03 q0, hV]
      rfl
  obtain ⟨rho, R, w1, w2, w3, w4⟩ := (pair_rdm (D := C4v.Spec.dims chi D 2) (N := C4v.tensors a env) eigh hs he (fun _ => rfl) (C4v.reads a env) (0, 0)).1 h2
  have w1' : C4v.rdm2x1 eigh true false a env = .ok R := (C4v.C74_row eigh true false hchi hD (by decide) hf hr hS (0, 0)).trans w1
  obtain ⟨ss, es, ms, hM⟩ := measures_rot (D := C4v.Spec.dims chi D 2) hN
  obtain ⟨n1, O, p1, p2, p3⟩ := hM .right (0, 0)
  have hone : ∀ i j : Nat, star (Corrf.Spec.one i j : ℂ) = Corrf.Spec.one j i := by
    intro i j
    simp only [Corrf.Spec.one]
    by_cases h : i = j
    · simp [h]
    · simp [h, Ne.symm h]
  have hherm : ∀ o : Corrf.Spec.Op ℂ, (∀ i j, star (o i j) = o j i) → (Spec.expect2 R fun a b i j => o a i * Corrf.Spec.one b j) =
      (Spec.leftSite (Spec.stagger (0, 0) (C4v.tensors a env)) (C4v.Spec.dims chi D 2) (0, 0) o : ℂ) := by
    intro o ho
    rw [w4 _ (fun a _ b _ i _ j _ => by rw [star_mul', ho, hone]), w3, Spec.leftSite, twoPoint_stagger hN, norm_stagger hN]
    simp only [Nat.zero_mod, beq_self_eq_true]
    rw [twoPoint_agree _ hN .right (0, 0) (o1' := o) (o2' := Corrf.Spec.one) (fun _ _ _ _ => rfl) (fun i hi j hj => conj_one true hi hj)]
  have hone1 : (Spec.expect2 R fun a b i j => Corrf.Spec.one a i * Corrf.Spec.one b j) = 1 := by
    rw [w4 _ (fun a _ b _ i _ j _ => by rw [star_mul', hone, hone]), w3]
    rw [show Corrf.Spec.twoPoint (C4v.tensors a env) (C4v.Spec.dims chi D 2) .right (0, 0) Corrf.Spec.one Corrf.Spec.one 0 = Corrf.Spec.norm (C4v.tensors a env) (C4v.Spec.dims chi D 2) .right (0, 0) 2 from rfl,
      div_self h2, Complex.ofReal_one]
  obtain ⟨x, ex, xs, xv⟩ := reduceSite_ok w2 hone1
  have hz : traceMul x (opT (Su2.SZ 2)) = some (V .sz) := by
    rw [traceMul_val xs rfl, expect1_sz, xv, hherm _ sz_conj, hV]
    rfl
  have hpp : traceMul x (opT (Su2.SP 2)) = some (V .sp) := by
    rw [traceMul_val xs rfl, expect1_sp, xv, xv, hherm _ sx_conj, hherm _ sy_conj, hV]
    rfl
  have hm : traceMul x (opT (Su2.SM 2)) = some (V .sm) := by
    rw [traceMul_val xs rfl, expect1_sm, xv, xv, hherm _ sx_conj, hherm _ sy_conj, hV]
    rfl
  have hmag : magnitude (V .sz) (V .sp) (V .sm) = V .m := by
    rw [hV]
    exact magnitude_val _ _ _
  have hss : full4 R ss = some (V .ss2x1) := by
    rw [full4_val w2 ms p2, w4 O p1, p3 rho w3, hV, ← n1]
    rfl
  have hre : (((V .ss2x1).re : ℝ) : ℂ) = V .ss2x1 := by
    rw [hV]
    simp [Spec.observable4]
  rw [← hV, evalObsC4v, o3, bindOk, oC, bindOk, oD, bindOk, w1', bindOk, es, C4v.lift_some, hss, C4v.lift_some, ex, bindOk, hz, C4v.lift_some, hpp, C4v.lift_some, hm, C4v.lift_some]
  simp only [hmag, hre]
  rw [mapM_some _ V, C4v.lift_some]
  · rfl
  · intro l hl
    simp only [obsLabels4, List.mem_append, List.mem_cons, List.not_mem_nil, or_false] at hl
    by_cases k2 : m.j2 = 0 <;> by_cases k3 : m.j3 = 0 <;> by_cases kl : m.lmbd = 0 <;> simp only [k2, k3, kl, if_true, if_false, List.not_mem_nil, or_false, List.mem_cons] at hl ⊢ <;> cases l <;> simp at hl <;> simp [Obs.put]

end
end Verif.Energy
