import Verif.Rdm.ManualCorners
/-
The steps of the loops of `rdm2x3_loop_trglringex_manual` and `rdm3x2_loop_trglringex_manual` as parts of the networks of the patches (generated from the drawings).
-/
namespace Verif.Rdm
open Tensor Corner
set_option linter.unusedSimpArgs false
set_option linter.unusedVariables false
set_option linter.unusedSectionVars false
variable {K : Type} [RCLike K]

/-- One step of the loop: the network with the labels 47 and 48 fixed. -/
theorem body23_denotes (dim : Nat → Nat) (e : Env23 K) (s : Sites23 K) (h : Spec.Fits23 dim e s) {lu ru t10 t1n1 : Tensor K}
    (dlu : Denotes dim lu [[44], [45], [46], [19], [20], [22], [106], [107]] [15, 16, 17, 0, 1, 2, 5, 3, 6, 100, 8, 7, 9, 12, 10, 13] [0, 1, 44, 15, 2, 5, 3, 6, 16, 17, 45, 46, 100, 8, 7, 15, 19, 16, 17, 9, 12, 10, 13, 20, 22, 106, 107] (fun σ => (e.C1.val [σ 0, σ 1] * e.T1.val [σ 1, Corner.Spec.fused dim σ 2 5, σ 44] * e.T4.val [σ 0, σ 15, Corner.Spec.fused dim σ 3 6] * (s.a.val [σ 100, σ 2, σ 3, σ 16, σ 45] * star (s.a.val [σ 100, σ 5, σ 6, σ 17, σ 46]))) * (e.C4.val [σ 8, σ 7] * e.T4y.val [σ 15, σ 8, Corner.Spec.fused dim σ 9 12] * e.T3y.val [Corner.Spec.fused dim σ 10 13, σ 7, σ 19] * (s.ay.val [σ 106, σ 16, σ 9, σ 10, σ 20] * star (s.ay.val [σ 107, σ 17, σ 12, σ 13, σ 22])))))
    (dru : Denotes dim ru [[39], [41], [43], [104], [105], [51], [49], [50]] [36, 37, 38, 24, 25, 26, 28, 27, 29, 31, 30, 32, 34, 33, 35, 110] [24, 25, 36, 39, 26, 28, 41, 43, 37, 38, 27, 29, 104, 105, 31, 30, 51, 36, 37, 38, 49, 50, 32, 34, 33, 35, 110] (fun σ => (e.C2.val [σ 24, σ 25] * e.T2z.val [σ 25, Corner.Spec.fused dim σ 27 29, σ 36] * e.T1z.val [σ 39, Corner.Spec.fused dim σ 26 28, σ 24] * (s.az.val [σ 104, σ 26, σ 41, σ 37, σ 27] * star (s.az.val [σ 105, σ 28, σ 43, σ 38, σ 29]))) * (e.C3.val [σ 31, σ 30] * e.T3zy.val [Corner.Spec.fused dim σ 32 34, σ 51, σ 30] * e.T2zy.val [σ 36, Corner.Spec.fused dim σ 33 35, σ 31] * (s.azy.val [σ 110, σ 37, σ 49, σ 32, σ 33] * star (s.azy.val [σ 110, σ 38, σ 50, σ 34, σ 35])))))
    (dt10 : Denotes dim t10 [[21], [23], [19], [51]] [] [21, 23, 19, 51] (fun σ => e.T3xy.val [Corner.Spec.fused dim σ 21 23, σ 19, σ 51]))
    (dt1n1 : Denotes dim t1n1 [[44], [40], [42], [39]] [] [44, 40, 42, 39] (fun σ => e.T1x.val [σ 44, Corner.Spec.fused dim σ 40 42, σ 39]))
    (i ip : Nat) (hi : i < dim 47) (hip : ip < dim 48) :
    ∃ R S', body23 lu ru t10 t1n1 s.axy s.ax i ip = some R ∧ Denotes dim R [[106], [107], [108], [109], [104], [105], [102], [103]] [100, 110, 0, 1, 2, 3, 5, 6, 7, 8, 9, 10, 12, 13, 15, 16, 17, 19, 20, 21, 22, 23, 24, 25, 26, 27, 28, 29, 30, 31, 32, 33, 34, 35, 36, 37, 38, 39, 40, 41, 42, 43, 44, 45, 46, 49, 50, 51] S'
      (fun σ => Spec.rho23 dim e s (Spec.bra [1, 2, 3, 4]) (Function.update (Function.update σ 47 i) 48 ip)) := by
  obtain ⟨hC1, hT1, hT4, hT4y, hC4, hT3y, hT3xy, hT1z, hC2, hT2z, hT2zy, hC3, hT3zy, hT1x, ha, ha0, ha1, ha2, ha3, ha4, hax, hax0, hax1, hax2, hax3, hax4, haz, haz0, haz1, haz2, haz3, haz4, hay, hay0, hay1, hay2, hay3, hay4, haxy, haxy0, haxy1, haxy2, haxy3, haxy4, hazy, hazy0, hazy1, hazy2, hazy3, hazy4⟩ := h
  obtain ⟨xta, exta, dxta⟩ := (select_denotes (i := i) (dim := dim) (A := s.axy) (a0 := 108) (a1 := 47) (a2 := 20) (a3 := 21) (a4 := 49) haxy).1 hi
  obtain ⟨yta, eyta, dyta⟩ := (select_denotes (i := ip) (dim := dim) (A := s.axy) (a0 := 109) (a1 := 48) (a2 := 22) (a3 := 23) (a4 := 50) (by rw [haxy, haxy0, haxy1, haxy2, haxy3, haxy4])).1 hip
  obtain ⟨ta1, eta1, qta1⟩ := Denotes.einsum3 dt10 dxta dyta.conj [0, 1, 2, 3] [8, 4, 0, 5] [9, 6, 1, 7] [2, 4, 6, 3, 5, 7, 8, 9] [21, 23, 19, 51, 20, 49, 22, 50, 108, 109] (by decide) (by decide) (by decide) (by decide) (by decide)
  obtain ⟨ta2, eta2, qta2⟩ := Denotes.einsum2 dlu qta1 [0, 1, 2, 3, 4, 5, 6, 7] [3, 4, 5, 8, 9, 10, 11, 12] [0, 1, 2, 6, 7, 8, 9, 10, 11, 12] [44, 45, 46, 19, 20, 22, 106, 107, 51, 49, 50, 108, 109] (by decide) (by decide) (by decide)
  obtain ⟨xtb, extb, dxtb⟩ := (select_denotes (i := i) (dim := dim) (A := s.ax) (a0 := 102) (a1 := 40) (a2 := 45) (a3 := 47) (a4 := 41) hax).2.2.1 hi
  obtain ⟨ytb, eytb, dytb⟩ := (select_denotes (i := ip) (dim := dim) (A := s.ax) (a0 := 103) (a1 := 42) (a2 := 46) (a3 := 48) (a4 := 43) (by rw [hax, hax0, hax1, hax2, hax3, hax4])).2.2.1 hip
  obtain ⟨tb1, etb1, qtb1⟩ := Denotes.einsum3 dt1n1 dxtb dytb.conj [0, 1, 2, 3] [8, 1, 4, 5] [9, 2, 6, 7] [0, 4, 6, 3, 5, 7, 8, 9] [44, 40, 42, 39, 45, 41, 46, 43, 102, 103] (by decide) (by decide) (by decide) (by decide) (by decide)
  obtain ⟨tb2, etb2, qtb2⟩ := Denotes.einsum2 dru qtb1 [0, 1, 2, 3, 4, 5, 6, 7] [10, 11, 12, 0, 1, 2, 8, 9] [10, 11, 12, 8, 9, 3, 4, 5, 6, 7] [39, 41, 43, 104, 105, 51, 49, 50, 102, 103, 44, 45, 46] (by decide) (by decide) (by decide)
  obtain ⟨R, eR, qR⟩ := Denotes.einsum2 qta2 qtb2 [0, 1, 2, 3, 4, 5, 6, 7, 8, 9] [0, 1, 2, 12, 13, 10, 11, 5, 6, 7] [3, 4, 8, 9, 10, 11, 12, 13] [44, 45, 46, 106, 107, 51, 49, 50, 108, 109, 104, 105, 102, 103] (by decide) (by decide) (by decide)
  refine ⟨R, _, by simp only [body23, exta, eyta, eta1, eta2, extb, eytb, etb1, etb2, Option.bind_eq_bind, Option.bind_some]; exact eR, Denotes.congr (O := [[106], [107], [108], [109], [104], [105], [102], [103]]) qR (by decide) (fun _ h => h) ?_⟩
  intro σ
  have b0 : Spec.bra [1, 2, 3, 4] 0 = 100 := rfl
  have b1 : Spec.bra [1, 2, 3, 4] 1 = 103 := rfl
  have b2 : Spec.bra [1, 2, 3, 4] 2 = 105 := rfl
  have b3 : Spec.bra [1, 2, 3, 4] 3 = 107 := rfl
  have b4 : Spec.bra [1, 2, 3, 4] 4 = 109 := rfl
  have b5 : Spec.bra [1, 2, 3, 4] 5 = 110 := rfl
  have hu : ∀ x, x ≠ 47 → x ≠ 48 → Function.update (Function.update σ 47 i) 48 ip x = σ x := fun x h1 h2 => by
    rw [Function.update_of_ne h2, Function.update_of_ne h1]
  have h1 : Function.update (Function.update σ 47 i) 48 ip 47 = i := by simp
  have h2 : Function.update (Function.update σ 47 i) 48 ip 48 = ip := by simp
  generalize Function.update (Function.update σ 47 i) 48 ip = ρ at hu h1 h2
  simp only [Spec.rho23, b0, b1, b2, b3, b4, b5, h1, h2, Corner.Spec.fused, hu 0 (by decide) (by decide), hu 1 (by decide) (by decide), hu 2 (by decide) (by decide), hu 3 (by decide) (by decide), hu 5 (by decide) (by decide), hu 6 (by decide) (by decide), hu 7 (by decide) (by decide), hu 8 (by decide) (by decide), hu 9 (by decide) (by decide), hu 10 (by decide) (by decide), hu 12 (by decide) (by decide), hu 13 (by decide) (by decide), hu 15 (by decide) (by decide), hu 16 (by decide) (by decide), hu 17 (by decide) (by decide), hu 19 (by decide) (by decide), hu 20 (by decide) (by decide), hu 21 (by decide) (by decide), hu 22 (by decide) (by decide), hu 23 (by decide) (by decide), hu 24 (by decide) (by decide), hu 25 (by decide) (by decide), hu 26 (by decide) (by decide), hu 27 (by decide) (by decide), hu 28 (by decide) (by decide), hu 29 (by decide) (by decide), hu 30 (by decide) (by decide), hu 31 (by decide) (by decide), hu 32 (by decide) (by decide), hu 33 (by decide) (by decide), hu 34 (by decide) (by decide), hu 35 (by decide) (by decide), hu 36 (by decide) (by decide), hu 37 (by decide) (by decide), hu 38 (by decide) (by decide), hu 39 (by decide) (by decide), hu 40 (by decide) (by decide), hu 41 (by decide) (by decide), hu 42 (by decide) (by decide), hu 43 (by decide) (by decide), hu 44 (by decide) (by decide), hu 45 (by decide) (by decide), hu 46 (by decide) (by decide), hu 49 (by decide) (by decide), hu 50 (by decide) (by decide), hu 51 (by decide) (by decide), hu 100 (by decide) (by decide), hu 101 (by decide) (by decide), hu 102 (by decide) (by decide), hu 103 (by decide) (by decide), hu 104 (by decide) (by decide), hu 105 (by decide) (by decide), hu 106 (by decide) (by decide), hu 107 (by decide) (by decide), hu 108 (by decide) (by decide), hu 109 (by decide) (by decide), hu 110 (by decide) (by decide), hu 111 (by decide) (by decide)]
  ring

end Verif.Rdm
