import Verif.Rdm.ManualProps
import Verif.Trgl.RingWitness
import Verif.Trgl.NnnWitness
/-
Cases which meet the hypotheses of C129.
-/
namespace Verif.Rdm
open Tensor Ctm Ctm.Spec Trgl Models

theorem rows_tiling : Tiling rows where
  shift c v := by simp [rows, gState]
  mem c := by
    have h1 := Int.emod_nonneg c.2 (by decide : (3 : ℤ) ≠ 0)
    have h2 := Int.emod_lt_of_pos c.2 (by decide : (0 : ℤ) < 3)
    simp [rows, gState]
    omega
  fix c hc := by
    simp [rows, gState] at hc ⊢
    rcases hc with rfl | rfl | rfl <;> rfl
  nodup := by simp [rows, gState]

example (eigh : Tensor ℝ → List ℝ × Tensor ℝ) := C129_horizontal eigh true (exTiling (exDims 2 3)) (exFitsState (by decide) (by decide)) cellFits (-3, 2) rfl rfl rfl
example (eigh : Tensor ℝ → List ℝ × Tensor ℝ) := C129_vertical eigh true (exTiling (exDims 2 3)) (exFitsState (by decide) (by decide)) cellFits (1, 2) rfl rfl rfl
/-- A state with three different rows. -/
example (eigh : Tensor ℂ → List ℝ × Tensor ℂ) : ∃ A B, rdm23Manual eigh false rows Corrf.pEnv (0, 1) = .ok A ∧ rdm2x3 eigh false rows Corrf.pEnv (0, 0) [1, 2, 3, 4] = .ok B ∧
    A.val [0, 1, 0, 0, 1, 0, 0, 0] = B.val [0, 0, 0, 1, 0, 0, 1, 0] := by
  obtain ⟨B, hB, -⟩ := gWide4 [(0, 0), (0, 1), (0, 2)] (fun c => (0, c.2 % 3)) rowV eigh (p := 2) (by norm_num) rowV_unit (0, 0)
  obtain ⟨A, h1, -, h3⟩ := C129_horizontal_agrees eigh rows_tiling (gFitsState _ _ _ (by norm_num)) (gFitsEnv _ _ _) (0, 1) rfl rfl rfl hB
  exact ⟨A, B, h1, hB, h3 0 1 0 0 1 0 0 0 (by decide) (by decide) (by decide) (by decide) (by decide) (by decide) (by decide) (by decide)⟩
example (eigh : Tensor ℂ → List ℝ × Tensor ℂ) : ∃ A B, rdm32Manual eigh false rows Corrf.pEnv (0, 2) = .ok A ∧ rdm3x2 eigh false rows Corrf.pEnv (0, 0) [1, 2, 3, 4] = .ok B ∧
    A.val [0, 1, 0, 0, 1, 0, 0, 0] = B.val [0, 0, 0, 1, 0, 1, 0, 0] := by
  obtain ⟨B, hB, -⟩ := gTall4 [(0, 0), (0, 1), (0, 2)] (fun c => (0, c.2 % 3)) rowV eigh (p := 2) (by norm_num) rowV_unit (0, 0)
  obtain ⟨A, h1, -, h3⟩ := C129_vertical_agrees eigh rows_tiling (gFitsState _ _ _ (by norm_num)) (gFitsEnv _ _ _) (0, 2) rfl rfl rfl hB
  exact ⟨A, B, h1, hB, h3 0 1 0 0 1 0 0 0 (by decide) (by decide) (by decide) (by decide) (by decide) (by decide) (by decide) (by decide)⟩

end Verif.Rdm
