import Verif.Rdm.ManualCorners
/-
The steps of the loops of `rdm2x3_loop_trglringex_manual` and `rdm3x2_loop_trglringex_manual` as parts of the networks of the patches (generated from the drawings).
-/
namespace Verif.Rdm
open Tensor Corner
set_option linter.unusedSimpArgs false
set_option linter.unusedVariables false
set_option linter.unusedSectionVars false
variable {K : Type} [RCLike K]

/-- One step of the loop: the network with the labels 83 and 84 fixed. -/
theorem body32_denotes (dim : Nat → Nat) (e : Env32 K) (s : Sites32 K) (h : Spec.Fits32 dim e s) {lu rd t0n1 t1n1 : Tensor K}
    (drd : Denotes dim rd [[57], [58], [59], [80], [81], [82], [104], [105]] [52, 53, 54, 41, 40, 42, 44, 43, 45, 110, 47, 46, 48, 50, 49, 51] [41, 40, 52, 57, 58, 59, 53, 54, 42, 44, 43, 45, 110, 47, 46, 80, 52, 81, 82, 48, 50, 49, 51, 53, 54, 104, 105] (fun σ => (e.C3.val [σ 41, σ 40] * e.T3xw.val [Corner.Spec.fused dim σ 42 44, σ 52, σ 40] * e.T2xw.val [σ 57, Corner.Spec.fused dim σ 43 45, σ 41] * (s.axw.val [σ 110, σ 58, σ 53, σ 42, σ 43] * star (s.axw.val [σ 110, σ 59, σ 54, σ 44, σ 45]))) * (e.C4.val [σ 47, σ 46] * e.T4w.val [σ 80, σ 47, Corner.Spec.fused dim σ 48 50] * e.T3w.val [Corner.Spec.fused dim σ 49 51, σ 46, σ 52] * (s.aw.val [σ 104, σ 81, σ 48, σ 49, σ 53] * star (s.aw.val [σ 105, σ 82, σ 50, σ 51, σ 54])))))
    (dlu : Denotes dim lu [[18], [19], [20], [87], [85], [86], [106], [107]] [13, 14, 15, 0, 1, 2, 5, 3, 6, 100, 7, 8, 9, 11, 10, 12] [0, 1, 13, 18, 2, 5, 3, 6, 19, 20, 14, 15, 100, 7, 8, 87, 13, 9, 11, 14, 15, 85, 86, 10, 12, 106, 107] (fun σ => (e.C1.val [σ 0, σ 1] * e.T1.val [σ 1, Corner.Spec.fused dim σ 2 5, σ 13] * e.T4.val [σ 0, σ 18, Corner.Spec.fused dim σ 3 6] * (s.a.val [σ 100, σ 2, σ 3, σ 19, σ 14] * star (s.a.val [σ 100, σ 5, σ 6, σ 20, σ 15]))) * (e.C2.val [σ 7, σ 8] * e.T2x.val [σ 8, Corner.Spec.fused dim σ 10 12, σ 87] * e.T1x.val [σ 13, Corner.Spec.fused dim σ 9 11, σ 7] * (s.ax.val [σ 106, σ 9, σ 14, σ 85, σ 10] * star (s.ax.val [σ 107, σ 11, σ 15, σ 86, σ 12])))))
    (dt0n1 : Denotes dim t0n1 [[18], [80], [16], [17]] [] [18, 80, 16, 17] (fun σ => e.T4y.val [σ 18, σ 80, Corner.Spec.fused dim σ 16 17]))
    (dt1n1 : Denotes dim t1n1 [[87], [55], [56], [57]] [] [87, 55, 56, 57] (fun σ => e.T2xy.val [σ 87, Corner.Spec.fused dim σ 55 56, σ 57]))
    (i ip : Nat) (hi : i < dim 83) (hip : ip < dim 84) :
    ∃ R S', body32 lu rd t0n1 t1n1 s.ay s.axy i ip = some R ∧ Denotes dim R [[104], [105], [108], [109], [106], [107], [102], [103]] [100, 110, 0, 1, 2, 3, 5, 6, 7, 8, 9, 10, 11, 12, 13, 14, 15, 16, 17, 18, 19, 20, 40, 41, 42, 43, 44, 45, 46, 47, 48, 49, 50, 51, 52, 53, 54, 55, 56, 57, 58, 59, 80, 81, 82, 85, 86, 87] S'
      (fun σ => Spec.rho32 dim e s (Spec.bra [1, 2, 3, 4]) (Function.update (Function.update σ 83 i) 84 ip)) := by
  obtain ⟨hC1, hT1, hT4, hT1x, hC2, hT2x, hT4y, hT2xy, hT3xw, hC3, hT2xw, hT4w, hC4, hT3w, ha, ha0, ha1, ha2, ha3, ha4, hay, hay0, hay1, hay2, hay3, hay4, haw, haw0, haw1, haw2, haw3, haw4, hax, hax0, hax1, hax2, hax3, hax4, haxy, haxy0, haxy1, haxy2, haxy3, haxy4, haxw, haxw0, haxw1, haxw2, haxw3, haxw4⟩ := h
  obtain ⟨xta, exta, dxta⟩ := (select_denotes (i := i) (dim := dim) (A := s.ay) (a0 := 102) (a1 := 19) (a2 := 16) (a3 := 81) (a4 := 83) hay).2.2.2 hi
  obtain ⟨yta, eyta, dyta⟩ := (select_denotes (i := ip) (dim := dim) (A := s.ay) (a0 := 103) (a1 := 20) (a2 := 17) (a3 := 82) (a4 := 84) (by rw [hay, hay0, hay1, hay2, hay3, hay4])).2.2.2 hip
  obtain ⟨ta1, eta1, qta1⟩ := Denotes.einsum3 dt0n1 dxta dyta.conj [0, 1, 2, 3] [8, 4, 2, 5] [9, 6, 3, 7] [0, 4, 6, 1, 5, 7, 8, 9] [18, 80, 16, 17, 19, 81, 20, 82, 102, 103] (by decide) (by decide) (by decide) (by decide) (by decide)
  obtain ⟨ta2, eta2, qta2⟩ := Denotes.einsum2 drd qta1 [0, 1, 2, 3, 4, 5, 6, 7] [10, 11, 12, 3, 4, 5, 8, 9] [0, 1, 2, 6, 7, 10, 11, 12, 8, 9] [57, 58, 59, 80, 81, 82, 104, 105, 102, 103, 18, 19, 20] (by decide) (by decide) (by decide)
  obtain ⟨xtb, extb, dxtb⟩ := (select_denotes (i := i) (dim := dim) (A := s.axy) (a0 := 108) (a1 := 85) (a2 := 83) (a3 := 58) (a4 := 55) haxy).2.1 hi
  obtain ⟨ytb, eytb, dytb⟩ := (select_denotes (i := ip) (dim := dim) (A := s.axy) (a0 := 109) (a1 := 86) (a2 := 84) (a3 := 59) (a4 := 56) (by rw [haxy, haxy0, haxy1, haxy2, haxy3, haxy4])).2.1 hip
  obtain ⟨tb1, etb1, qtb1⟩ := Denotes.einsum3 dt1n1 dxtb dytb.conj [0, 1, 2, 3] [8, 4, 5, 1] [9, 6, 7, 2] [0, 4, 6, 3, 5, 7, 8, 9] [87, 55, 56, 57, 85, 58, 86, 59, 108, 109] (by decide) (by decide) (by decide) (by decide) (by decide)
  obtain ⟨tb2, etb2, qtb2⟩ := Denotes.einsum2 dlu qtb1 [0, 1, 2, 3, 4, 5, 6, 7] [3, 4, 5, 10, 11, 12, 8, 9] [0, 1, 2, 6, 7, 10, 11, 12, 8, 9] [18, 19, 20, 87, 85, 86, 106, 107, 108, 109, 57, 58, 59] (by decide) (by decide) (by decide)
  obtain ⟨R, eR, qR⟩ := Denotes.einsum2 qtb2 qta2 [0, 1, 2, 6, 7, 10, 11, 12, 8, 9] [10, 11, 12, 3, 4, 0, 1, 2, 13, 14] [3, 4, 8, 9, 6, 7, 13, 14] [18, 19, 20, 104, 105, 0, 106, 107, 108, 109, 57, 58, 59, 102, 103] (by decide) (by decide) (by decide)
  refine ⟨R, _, by simp only [body32, exta, eyta, eta1, eta2, extb, eytb, etb1, etb2, Option.bind_eq_bind, Option.bind_some]; exact eR, Denotes.congr (O := [[104], [105], [108], [109], [106], [107], [102], [103]]) qR (by decide) (fun _ h => h) ?_⟩
  intro σ
  have b0 : Spec.bra [1, 2, 3, 4] 0 = 100 := rfl
  have b1 : Spec.bra [1, 2, 3, 4] 1 = 103 := rfl
  have b2 : Spec.bra [1, 2, 3, 4] 2 = 105 := rfl
  have b3 : Spec.bra [1, 2, 3, 4] 3 = 107 := rfl
  have b4 : Spec.bra [1, 2, 3, 4] 4 = 109 := rfl
  have b5 : Spec.bra [1, 2, 3, 4] 5 = 110 := rfl
  have hu : ∀ x, x ≠ 83 → x ≠ 84 → Function.update (Function.update σ 83 i) 84 ip x = σ x := fun x h1 h2 => by
    rw [Function.update_of_ne h2, Function.update_of_ne h1]
  have h1 : Function.update (Function.update σ 83 i) 84 ip 83 = i := by simp
  have h2 : Function.update (Function.update σ 83 i) 84 ip 84 = ip := by simp
  generalize Function.update (Function.update σ 83 i) 84 ip = ρ at hu h1 h2
  simp only [Spec.rho32, b0, b1, b2, b3, b4, b5, h1, h2, Corner.Spec.fused, hu 0 (by decide) (by decide), hu 1 (by decide) (by decide), hu 2 (by decide) (by decide), hu 3 (by decide) (by decide), hu 5 (by decide) (by decide), hu 6 (by decide) (by decide), hu 7 (by decide) (by decide), hu 8 (by decide) (by decide), hu 9 (by decide) (by decide), hu 10 (by decide) (by decide), hu 11 (by decide) (by decide), hu 12 (by decide) (by decide), hu 13 (by decide) (by decide), hu 14 (by decide) (by decide), hu 15 (by decide) (by decide), hu 16 (by decide) (by decide), hu 17 (by decide) (by decide), hu 18 (by decide) (by decide), hu 19 (by decide) (by decide), hu 20 (by decide) (by decide), hu 40 (by decide) (by decide), hu 41 (by decide) (by decide), hu 42 (by decide) (by decide), hu 43 (by decide) (by decide), hu 44 (by decide) (by decide), hu 45 (by decide) (by decide), hu 46 (by decide) (by decide), hu 47 (by decide) (by decide), hu 48 (by decide) (by decide), hu 49 (by decide) (by decide), hu 50 (by decide) (by decide), hu 51 (by decide) (by decide), hu 52 (by decide) (by decide), hu 53 (by decide) (by decide), hu 54 (by decide) (by decide), hu 55 (by decide) (by decide), hu 56 (by decide) (by decide), hu 57 (by decide) (by decide), hu 58 (by decide) (by decide), hu 59 (by decide) (by decide), hu 80 (by decide) (by decide), hu 81 (by decide) (by decide), hu 82 (by decide) (by decide), hu 85 (by decide) (by decide), hu 86 (by decide) (by decide), hu 87 (by decide) (by decide), hu 100 (by decide) (by decide), hu 101 (by decide) (by decide), hu 102 (by decide) (by decide), hu 103 (by decide) (by decide), hu 104 (by decide) (by decide), hu 105 (by decide) (by decide), hu 106 (by decide) (by decide), hu 107 (by decide) (by decide), hu 108 (by decide) (by decide), hu 109 (by decide) (by decide), hu 110 (by decide) (by decide), hu 111 (by decide) (by decide)]
  ring

end Verif.Rdm
