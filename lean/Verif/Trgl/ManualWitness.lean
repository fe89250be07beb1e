import Verif.Trgl.ManualProps
import Verif.Rdm.ManualWitness
/-
Cases which meet the hypotheses of C130.
-/
namespace Verif.Trgl
open Tensor Ctm Ctm.Spec Rdm Models Corrf

theorem upOne_tiling : Tiling upOne :=
  ⟨fun _ _ => rfl, fun _ => by simp [upOne, gState], fun c hc => by simp [upOne, gState] at hc ⊢; exact hc.symm, by simp [upOne, gState]⟩

/-- The energy without index unrolling of the spiral over the ferromagnet, for all couplings and angles. -/
theorem C130_classical (eigh : Tensor ℂ → List ℝ × Tensor ℂ) (j1 j2 j4 jchi : ℝ) (hj : j4 ≠ 0) (q : ℝ × ℝ) :
    let u := fun n : ℝ => Real.cos (n * (2 * Real.pi * q.1))
    energyDefault eigh ⟨2, j1, jchi, 1⟩ j2 j4 q upOne Corrf.pEnv =
      .ok (j1 * (2 * u 1 + u 2) / 4 + j2 * (2 * u 3 + 1) / 4 + j4 * (4 * u 1 ^ 2 + 2 * u 2 ^ 2 - 2 * u 3 * u 1 - u 2) / 16) := by
  intro u
  have hv : ∀ c : Coord, Unit 2 ((fun _ => upV) c) := fun _ => upV_unit
  have hs : FitsState (gDims 2) upOne := gFitsState _ _ _ (by norm_num)
  have he : FitsEnv (gDims 2) upOne Corrf.pEnv := gFitsEnv _ _ _
  rw [C130_energy eigh upOne_tiling hs he (m := ⟨2, j1, jchi, 1⟩) (fun _ => rfl) j2 j4 rfl q
    (fun c _ => by obtain ⟨r, e, -⟩ := gWide4 [(0, 0)] (fun _ => (0, 0)) (fun _ => upV) eigh (by norm_num) hv c; exact ⟨r, e⟩)
    (fun c _ => by obtain ⟨r, e, -⟩ := gTall4 [(0, 0)] (fun _ => (0, 0)) (fun _ => upV) eigh (by norm_num) hv c; exact ⟨r, e⟩)
    (fun c _ => by obtain ⟨r, e, -⟩ := gSquare4 [(0, 0)] (fun _ => (0, 0)) (fun _ => upV) eigh (by norm_num) hv c; exact ⟨r, e⟩)]
  exact C128_classical eigh j1 j2 j4 jchi hj q

/-- Three different rows. -/
example (eigh : Tensor ℂ → List ℝ × Tensor ℂ) (j1 j2 j4 jchi : ℝ) (q : ℝ × ℝ) :
    energyDefault eigh ⟨2, j1, jchi, 1⟩ j2 j4 q rows Corrf.pEnv = energyJ4 eigh ⟨2, j1, jchi, 1⟩ j2 j4 q rows Corrf.pEnv :=
  C130_energy eigh rows_tiling (gFitsState _ _ _ (by norm_num)) (gFitsEnv _ _ _) (m := ⟨2, j1, jchi, 1⟩) (fun _ => rfl) j2 j4 rfl q
    (fun c _ => by obtain ⟨r, e, -⟩ := gWide4 [(0, 0), (0, 1), (0, 2)] (fun c => (0, c.2 % 3)) rowV eigh (by norm_num) rowV_unit c; exact ⟨r, e⟩)
    (fun c _ => by obtain ⟨r, e, -⟩ := gTall4 [(0, 0), (0, 1), (0, 2)] (fun c => (0, c.2 % 3)) rowV eigh (by norm_num) rowV_unit c; exact ⟨r, e⟩)
    (fun c _ => by obtain ⟨r, e, -⟩ := gSquare4 [(0, 0), (0, 1), (0, 2)] (fun c => (0, c.2 % 3)) rowV eigh (by norm_num) rowV_unit c; exact ⟨r, e⟩)

end Verif.Trgl
