import Verif.Kagome.ProductState
import Verif.Energy.Lemmas
/-
C116, continued: the documented sign of the chirality is refuted, and the hypotheses of C116 can be met.
-/
namespace Verif.KagomeRdm
open Tensor Ctm Rdm Ctm.Spec Spec
open Corrf (pEnv)

theorem spins2 : spins 2 0 = !![0, 1/2; 1/2, 0] ∧ spins 2 1 = !![0, -(Complex.I / 2); Complex.I / 2, 0] ∧ spins 2 2 = !![1/2, 0; 0, -(1/2)] := by
  refine ⟨?_, ?_, ?_⟩
  · ext i j
    fin_cases i <;> fin_cases j <;> simp [spins, Su2.Spec.Sx, Su2.SP_apply, Su2.SM_apply, Energy.sp0]
  · ext i j
    fin_cases i <;> fin_cases j <;> simp [spins, Su2.Spec.Sy, Su2.SP_apply, Su2.SM_apply, Energy.sp0]
  · ext i j
    fin_cases i <;> fin_cases j <;> simp [spins, Su2.SZ, Su2.szEntry] <;> norm_num

theorem at012_tensor {p : Nat} (A B C : Su2.Op p) : at' 0 A * at' 1 B * at' 2 C = tensor ![A, B, C] := by
  ext t s
  rw [at012]
  simp [tensor, Fin.prod_univ_three]

/-- Spin 0 points along z, spin 1 lies in the xz plane, spin 2 in the yz plane. -/
noncomputable def chiralVec (x : Fin 3) (a : Nat) : ℂ :=
  if x = 0 then (if a = 0 then 1 else 0) else if a = 0 then 3 / 5 else if x = 1 then 4 / 5 else 4 / 5 * Complex.I

theorem chiral_norm (x : Fin 3) : ∑ a ∈ Finset.range 2, chiralVec x a * star (chiralVec x a) = 1 := by
  have hI := Complex.I_mul_I
  rw [Finset.sum_range_succ, Finset.sum_range_one]
  fin_cases x <;> simp [chiralVec]
  · norm_num
  · linear_combination (-(16/25) : ℂ) * hI

/-- The state: all sites alike. -/
noncomputable def chiralState : State ℂ := kState 2 [(0, 0)] (fun _ => (0, 0)) (fun _ => chiralVec)

theorem one_tiling {p : Nat} (w : Coord → Fin 3 → Nat → ℂ) : Tiling (kState p [(0, 0)] (fun _ => (0, 0)) w) :=
  ⟨fun _ _ => rfl, fun _ => by simp [kState, Models.gState], fun c hc => by simp [kState, Models.gState] at hc ⊢; exact hc.symm, by simp [kState, Models.gState]⟩

theorem chiral_chirality : Matrix.trace (proj 2 chiralVec * chirality 2) = 72 / 625 := by
  have hI := Complex.I_mul_I
  have hI3 : Complex.I ^ 3 = -Complex.I := by rw [pow_succ, Complex.I_sq]; ring
  unfold chirality cross
  rw [Fin.sum_univ_three, show (0 + 1 : Fin 3) = 1 from rfl, show (0 + 2 : Fin 3) = 2 from rfl, show (1 + 1 : Fin 3) = 2 from rfl, show (1 + 2 : Fin 3) = 0 from rfl,
    show (2 + 1 : Fin 3) = 0 from rfl, show (2 + 2 : Fin 3) = 1 from rfl]
  simp only [sub_mul, at012_tensor, mul_add, mul_sub, Matrix.trace_add, Matrix.trace_sub, trace_proj, Fin.prod_univ_three, Fin.sum_univ_two]
  obtain ⟨x, y, z⟩ := spins2
  rw [x, y, z]
  simp [chiralVec]
  ring_nf
  simp
  norm_num

/-- The energies of the code are not those of the documented Hamiltonian, which has the chirality with a minus sign. -/
theorem C116_violated (eigh : Tensor ℂ → List ℝ × Tensor ℂ) : ∃ (m : Couplings) (D : Dims) (st : State ℂ) (env : Env ℂ) (R : Coord → Tensor ℂ) (out : List (Coord × ℝ × ℝ)),
    Tiling st ∧ FitsState D st ∧ FitsEnv D st env ∧ (∀ c, D.p c = m.p ^ 3) ∧ (∀ c ∈ st.keys, rdm2x2 eigh false st env c [0, 1, 2, 3] = .ok (R c)) ∧
    energyDn m st env = .ok out ∧ out.map Prod.fst = [(0, 0)] ∧ ∀ q ∈ out, (q.2.1 : ℂ) ≠ Matrix.trace (reduced m.p 4 (R q.1) 0 1 2 * documented m) := by
  let m : Couplings := ⟨2, 0, 0, 0, 1, 0, 0⟩
  obtain ⟨R, hR, h1, -⟩ := kProduct [(0, 0)] (fun _ => (0, 0)) (fun _ => chiralVec) eigh (by decide) (fun _ => chiral_norm) (0, 0)
  have hs : FitsState (Models.gDims (2 ^ 3)) chiralState := Models.gFitsState _ _ _ (by decide)
  have he : FitsEnv (Models.gDims (2 ^ 3)) chiralState pEnv := Models.gFitsEnv _ _ _
  have hRR : ∀ c ∈ chiralState.keys, rdm2x2 eigh false chiralState pEnv c [0, 1, 2, 3] = .ok R := by
    intro c hc
    obtain rfl : c = (0, 0) := by simpa [chiralState, kState, Models.gState] using hc
    exact hR
  obtain ⟨out, e1, e2, e3⟩ := C116_down eigh m (one_tiling _) hs he (fun _ => rfl) (R := fun _ => R) hRR
  refine ⟨m, _, chiralState, pEnv, fun _ => R, out, one_tiling _, hs, he, fun _ => rfl, hRR, e1, e2, fun q hq hc => ?_⟩
  rw [e3 q hq] at hc
  have t : ∀ χ : ℝ, triangle m χ = (χ : ℂ) • chirality 2 := by
    intro χ
    simp [triangle, m]
  have h1' : reduced m.p 4 R 0 1 2 = proj 2 chiralVec := h1
  rw [h1', documented, t, t, Matrix.mul_smul, Matrix.mul_smul, Matrix.trace_smul, Matrix.trace_smul, chiral_chirality] at hc
  norm_num [m] at hc

/-! ### The hypotheses of C116 can be met -/

example (eigh : Tensor ℂ → List ℝ × Tensor ℂ) : ∃ out, energyUp eigh ⟨2, 1, 1/2, 1/4, 3, 2, 1 + Complex.I⟩ chiralState pEnv = .ok out ∧ out.map Prod.fst = [(0, 0)] := by
  obtain ⟨R, hR, h1, -⟩ := kProduct [(0, 0)] (fun _ => (0, 0)) (fun _ => chiralVec) eigh (by decide) (fun _ => chiral_norm) (0, 0)
  obtain ⟨out, e1, e2, -⟩ := C116_up eigh ⟨2, 1, 1/2, 1/4, 3, 2, 1 + Complex.I⟩ (one_tiling _) (Models.gFitsState _ _ _ (by decide)) (Models.gFitsEnv _ _ _) (fun _ => rfl) (R := fun _ => R) (by
    intro c hc
    obtain rfl : c = (0, 0) := by simpa [chiralState, kState, Models.gState] using hc
    exact hR)
  exact ⟨out, e1, e2⟩

end Verif.KagomeRdm
