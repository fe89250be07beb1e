import Verif.Rdm.TripleSpec
import Verif.Rdm.Networks
/-
The three-site contractions as networks (generated from the drawings).
-/
namespace Verif.Rdm
open Tensor Corner
set_option linter.unusedSimpArgs false
set_option linter.unusedVariables false
set_option linter.unusedSectionVars false
variable {K : Type} [RCLike K]

/-- The split environment tensors denote the original ones. -/
theorem splitRow (dim : Nat → Nat) (e : Row3 K) (m0 m1 m2 : Tensor K) (h : Spec.FitsRow dim e m0 m1 m2) :
    ∃ t, e.split = some t ∧ t.C1 = e.C1 ∧ t.C2 = e.C2 ∧ t.C3 = e.C3 ∧ t.C4 = e.C4 ∧ t.a = e.a ∧ t.ax = e.ax ∧ t.az = e.az ∧
      Denotes dim t.T1 [[1], [2], [3], [4]] [] [1, 2, 3, 4] (fun σ => e.T1.val [σ 1, Corner.Spec.fused dim σ 2 3, σ 4]) ∧
      Denotes dim t.T1x [[4], [5], [6], [7]] [] [4, 5, 6, 7] (fun σ => e.T1x.val [σ 4, Corner.Spec.fused dim σ 5 6, σ 7]) ∧
      Denotes dim t.T1z [[7], [8], [9], [10]] [] [7, 8, 9, 10] (fun σ => e.T1z.val [σ 7, Corner.Spec.fused dim σ 8 9, σ 10]) ∧
      Denotes dim t.T2 [[11], [15], [19], [27]] [] [11, 15, 19, 27] (fun σ => e.T2.val [σ 11, Corner.Spec.fused dim σ 15 19, σ 27]) ∧
      Denotes dim t.T3 [[20], [21], [28], [29]] [] [20, 21, 28, 29] (fun σ => e.T3.val [Corner.Spec.fused dim σ 20 21, σ 28, σ 29]) ∧
      Denotes dim t.T3x [[22], [23], [29], [30]] [] [22, 23, 29, 30] (fun σ => e.T3x.val [Corner.Spec.fused dim σ 22 23, σ 29, σ 30]) ∧
      Denotes dim t.T3z [[24], [25], [30], [31]] [] [24, 25, 30, 31] (fun σ => e.T3z.val [Corner.Spec.fused dim σ 24 25, σ 30, σ 31]) ∧
      Denotes dim t.T4 [[0], [26], [12], [16]] [] [0, 26, 12, 16] (fun σ => e.T4.val [σ 0, σ 26, Corner.Spec.fused dim σ 12 16]) := by
  obtain ⟨hC1, hT1, hT1x, hT1z, hC2, hT4, hT2, hC4, hT3, hT3x, hT3z, hC3, ha, ha0, ha1, ha2, ha3, ha4, hax, hax0, hax1, hax2, hax3, hax4, haz, haz0, haz1, haz2, haz3, haz4, hm0, hm1, hm2⟩ := h
  have dT1 := Denotes.leaf dim e.T1 [[1], [2, 3], [4]] (by simp [gdim, hT1])
  have dT1x := Denotes.leaf dim e.T1x [[4], [5, 6], [7]] (by simp [gdim, hT1x])
  have dT1z := Denotes.leaf dim e.T1z [[7], [8, 9], [10]] (by simp [gdim, hT1z])
  have dT2 := Denotes.leaf dim e.T2 [[11], [15, 19], [27]] (by simp [gdim, hT2])
  have dT3 := Denotes.leaf dim e.T3 [[20, 21], [28], [29]] (by simp [gdim, hT3])
  have dT3x := Denotes.leaf dim e.T3x [[22, 23], [29], [30]] (by simp [gdim, hT3x])
  have dT3z := Denotes.leaf dim e.T3z [[24, 25], [30], [31]] (by simp [gdim, hT3z])
  have dT4 := Denotes.leaf dim e.T4 [[0], [26], [12, 16]] (by simp [gdim, hT4])
  obtain ⟨x1, e1, q1⟩ := Denotes.view dT1 [[1], [2], [3], [4]] [e.T1.size 0, e.a.size 1, e.a.size 1, e.T1.size 2] (by decide) (by simp [size, gdim, pow_two, hT1, ha, hax, haz, ha0, ha1, ha2, ha3, ha4, hax0, hax1, hax2, hax3, hax4, haz0, haz1, haz2, haz3, haz4])
  obtain ⟨x2, e2, q2⟩ := Denotes.view dT1x [[4], [5], [6], [7]] [e.T1x.size 0, e.ax.size 1, e.ax.size 1, e.T1x.size 2] (by decide) (by simp [size, gdim, pow_two, hT1x, ha, hax, haz, ha0, ha1, ha2, ha3, ha4, hax0, hax1, hax2, hax3, hax4, haz0, haz1, haz2, haz3, haz4])
  obtain ⟨x3, e3, q3⟩ := Denotes.view dT1z [[7], [8], [9], [10]] [e.T1z.size 0, e.az.size 1, e.az.size 1, e.T1z.size 2] (by decide) (by simp [size, gdim, pow_two, hT1z, ha, hax, haz, ha0, ha1, ha2, ha3, ha4, hax0, hax1, hax2, hax3, hax4, haz0, haz1, haz2, haz3, haz4])
  obtain ⟨x4, e4, q4⟩ := Denotes.view dT2 [[11], [15], [19], [27]] [e.T2.size 0, e.az.size 4, e.az.size 4, e.T2.size 2] (by decide) (by simp [size, gdim, pow_two, hT2, ha, hax, haz, ha0, ha1, ha2, ha3, ha4, hax0, hax1, hax2, hax3, hax4, haz0, haz1, haz2, haz3, haz4])
  obtain ⟨x5, e5, q5⟩ := Denotes.view dT3 [[20], [21], [28], [29]] [e.a.size 3, e.a.size 3, e.T3.size 1, e.T3.size 2] (by decide) (by simp [size, gdim, pow_two, hT3, ha, hax, haz, ha0, ha1, ha2, ha3, ha4, hax0, hax1, hax2, hax3, hax4, haz0, haz1, haz2, haz3, haz4])
  obtain ⟨x6, e6, q6⟩ := Denotes.view dT3x [[22], [23], [29], [30]] [e.ax.size 3, e.ax.size 3, e.T3x.size 1, e.T3x.size 2] (by decide) (by simp [size, gdim, pow_two, hT3x, ha, hax, haz, ha0, ha1, ha2, ha3, ha4, hax0, hax1, hax2, hax3, hax4, haz0, haz1, haz2, haz3, haz4])
  obtain ⟨x7, e7, q7⟩ := Denotes.view dT3z [[24], [25], [30], [31]] [e.az.size 3, e.az.size 3, e.T3z.size 1, e.T3z.size 2] (by decide) (by simp [size, gdim, pow_two, hT3z, ha, hax, haz, ha0, ha1, ha2, ha3, ha4, hax0, hax1, hax2, hax3, hax4, haz0, haz1, haz2, haz3, haz4])
  obtain ⟨x8, e8, q8⟩ := Denotes.view dT4 [[0], [26], [12], [16]] [e.T4.size 0, e.T4.size 1, e.a.size 2, e.a.size 2] (by decide) (by simp [size, gdim, pow_two, hT4, ha, hax, haz, ha0, ha1, ha2, ha3, ha4, hax0, hax1, hax2, hax3, hax4, haz0, haz1, haz2, haz3, haz4])
  refine ⟨⟨e.C1, e.C2, e.C3, e.C4, x1, x2, x3, x4, x5, x6, x7, x8, e.a, e.ax, e.az⟩, by simp [Row3.split, e1, e2, e3, e4, e5, e6, e7, e8], rfl, rfl, rfl, rfl, rfl, rfl, rfl, ?_, ?_, ?_, ?_, ?_, ?_, ?_, ?_⟩
  · exact q1.congr (List.Perm.refl _) (by decide) (fun σ => by simp only [List.map_cons, List.map_nil, gidx_single, fused_eq])
  · exact q2.congr (List.Perm.refl _) (by decide) (fun σ => by simp only [List.map_cons, List.map_nil, gidx_single, fused_eq])
  · exact q3.congr (List.Perm.refl _) (by decide) (fun σ => by simp only [List.map_cons, List.map_nil, gidx_single, fused_eq])
  · exact q4.congr (List.Perm.refl _) (by decide) (fun σ => by simp only [List.map_cons, List.map_nil, gidx_single, fused_eq])
  · exact q5.congr (List.Perm.refl _) (by decide) (fun σ => by simp only [List.map_cons, List.map_nil, gidx_single, fused_eq])
  · exact q6.congr (List.Perm.refl _) (by decide) (fun σ => by simp only [List.map_cons, List.map_nil, gidx_single, fused_eq])
  · exact q7.congr (List.Perm.refl _) (by decide) (fun σ => by simp only [List.map_cons, List.map_nil, gidx_single, fused_eq])
  · exact q8.congr (List.Perm.refl _) (by decide) (fun σ => by simp only [List.map_cons, List.map_nil, gidx_single, fused_eq])

/-- The product with the labels of the code: both layers of the third site carry the label 9. -/
def codeRow (dim : Nat → Nat) (e : Row3 K) (m0 m1 m2 : Tensor K) (σ : Nat → Nat) : K :=
  e.C1.val [σ 0, σ 1] * e.T1.val [σ 1, Corner.Spec.fused dim σ 2 3, σ 4] * e.T1x.val [σ 4, Corner.Spec.fused dim σ 5 6, σ 7] * e.T1z.val [σ 7, Corner.Spec.fused dim σ 8 9, σ 10] * e.C2.val [σ 10, σ 11] * e.T4.val [σ 0, σ 26, Corner.Spec.fused dim σ 12 16] * e.a.val [σ 100, σ 2, σ 12, σ 20, σ 13] * star (e.a.val [σ 101, σ 3, σ 16, σ 21, σ 17]) * e.ax.val [σ 102, σ 5, σ 13, σ 22, σ 14] * star (e.ax.val [σ 103, σ 6, σ 17, σ 23, σ 18]) * e.az.val [σ 104, σ 9, σ 14, σ 24, σ 15] * star (e.az.val [σ 105, σ 9, σ 18, σ 25, σ 19]) * e.T2.val [σ 11, Corner.Spec.fused dim σ 15 19, σ 27] * e.C4.val [σ 26, σ 28] * e.T3.val [Corner.Spec.fused dim σ 20 21, σ 28, σ 29] * e.T3x.val [Corner.Spec.fused dim σ 22 23, σ 29, σ 30] * e.T3z.val [Corner.Spec.fused dim σ 24 25, σ 30, σ 31] * e.C3.val [σ 27, σ 31] * m0.val [σ 300, σ 100, σ 200, σ 101] * m1.val [σ 200, σ 102, σ 201, σ 103] * m2.val [σ 201, σ 104, σ 302, σ 105]

set_option maxRecDepth 4000 in
theorem oeRow (dim : Nat → Nat) (e : Row3 K) (m0 m1 m2 : Tensor K) (h : Spec.FitsRow dim e m0 m1 m2) :
    ∃ R, (do
      let t ← e.split
      einsum (t.operands m0 m1 m2) []) = some R ∧ Denotes dim R [] Spec.labelsRow Spec.labelsRow (codeRow dim e m0 m1 m2) := by
  obtain ⟨t, et, t0, t1, t2, t3, t4, t5, t6, dT1, dT1x, dT1z, dT2, dT3, dT3x, dT3z, dT4⟩ := splitRow dim e m0 m1 m2 h
  obtain ⟨hC1, hT1, hT1x, hT1z, hC2, hT4, hT2, hC4, hT3, hT3x, hT3z, hC3, ha, ha0, ha1, ha2, ha3, ha4, hax, hax0, hax1, hax2, hax3, hax4, haz, haz0, haz1, haz2, haz3, haz4, hm0, hm1, hm2⟩ := h
  have dC1 := Denotes.leaf dim e.C1 [[0], [1]] (by simp [gdim, hC1])
  have dC2 := Denotes.leaf dim e.C2 [[10], [11]] (by simp [gdim, hC2])
  have dC3 := Denotes.leaf dim e.C3 [[27], [31]] (by simp [gdim, hC3])
  have dC4 := Denotes.leaf dim e.C4 [[26], [28]] (by simp [gdim, hC4])
  have da := Denotes.leaf dim e.a [[100], [2], [12], [20], [13]] (by simp [gdim, ha, ha0, ha1, ha2, ha3, ha4])
  have dac := (Denotes.leaf dim e.a [[101], [3], [16], [21], [17]] (by simp [gdim, ha, ha0, ha1, ha2, ha3, ha4])).conj
  have dax := Denotes.leaf dim e.ax [[102], [5], [13], [22], [14]] (by simp [gdim, hax, hax0, hax1, hax2, hax3, hax4])
  have daxc := (Denotes.leaf dim e.ax [[103], [6], [17], [23], [18]] (by simp [gdim, hax, hax0, hax1, hax2, hax3, hax4])).conj
  have daz := Denotes.leaf dim e.az [[104], [9], [14], [24], [15]] (by simp [gdim, haz, haz0, haz1, haz2, haz3, haz4])
  have dazc := (Denotes.leaf dim e.az [[105], [9], [18], [25], [19]] (by simp [gdim, haz, haz0, haz1, haz2, haz3, haz4])).conj
  have dm0 := Denotes.leaf dim m0 [[300], [100], [200], [101]] (by simp [gdim, hm0])
  have dm1 := Denotes.leaf dim m1 [[200], [102], [201], [103]] (by simp [gdim, hm1])
  have dm2 := Denotes.leaf dim m2 [[201], [104], [302], [105]] (by simp [gdim, hm2])
  have net := (OpsNet.cons (l := [0, 1]) dC1 (OpsNet.cons (l := [1, 2, 3, 4]) dT1 (OpsNet.cons (l := [4, 5, 6, 7]) dT1x (OpsNet.cons (l := [7, 8, 9, 10]) dT1z (OpsNet.cons (l := [10, 11]) dC2 (OpsNet.cons (l := [0, 26, 12, 16]) dT4 (OpsNet.cons (l := [100, 2, 12, 20, 13]) da (OpsNet.cons (l := [101, 3, 16, 21, 17]) dac (OpsNet.cons (l := [102, 5, 13, 22, 14]) dax (OpsNet.cons (l := [103, 6, 17, 23, 18]) daxc (OpsNet.cons (l := [104, 9, 14, 24, 15]) daz (OpsNet.cons (l := [105, 9, 18, 25, 19]) dazc (OpsNet.cons (l := [11, 15, 19, 27]) dT2 (OpsNet.cons (l := [26, 28]) dC4 (OpsNet.cons (l := [20, 21, 28, 29]) dT3 (OpsNet.cons (l := [22, 23, 29, 30]) dT3x (OpsNet.cons (l := [24, 25, 30, 31]) dT3z (OpsNet.cons (l := [27, 31]) dC3 (OpsNet.cons (l := [300, 100, 200, 101]) dm0 (OpsNet.cons (l := [200, 102, 201, 103]) dm1 (OpsNet.cons (l := [201, 104, 302, 105]) dm2 OpsNet.nil)))))))))))))))))))))
  obtain ⟨R, e1, q1⟩ := Denotes.einsum' net [] (by decide)
  refine ⟨R, ?_, Denotes.congr (O := []) q1 (by decide) (by decide) (fun σ => ?_)⟩
  · rw [et, ← e1]
    unfold Row3.operands
    rw [← t0, ← t1, ← t2, ← t3, ← t4, ← t5, ← t6]
    rfl
  · simp only [codeRow, List.map_cons, List.map_nil, gidx_single]; ring

/-- The split environment tensors denote the original ones. -/
theorem splitCol (dim : Nat → Nat) (e : Col3 K) (m0 m1 m2 : Tensor K) (h : Spec.FitsCol dim e m0 m1 m2) (hz : dim 34 = dim 22) :
    ∃ t, e.split = some t ∧ t.C1 = e.C1 ∧ t.C2 = e.C2 ∧ t.C3 = e.C3 ∧ t.C4 = e.C4 ∧ t.a = e.a ∧ t.ay = e.ay ∧ t.az = e.az ∧
      Denotes dim t.T1 [[1], [2], [5], [9]] [] [1, 2, 5, 9] (fun σ => e.T1.val [σ 1, Corner.Spec.fused dim σ 2 5, σ 9]) ∧
      Denotes dim t.T2 [[8], [10], [11], [27]] [] [8, 10, 11, 27] (fun σ => e.T2.val [σ 8, Corner.Spec.fused dim σ 10 11, σ 27]) ∧
      Denotes dim t.T2y [[27], [22], [23], [31]] [] [27, 22, 23, 31] (fun σ => e.T2y.val [σ 27, Corner.Spec.fused dim σ 22 23, σ 31]) ∧
      Denotes dim t.T2z [[31], [34], [36], [40]] [] [31, 34, 36, 40] (fun σ => e.T2z.val [σ 31, Corner.Spec.fused dim σ 34 36, σ 40]) ∧
      Denotes dim t.T3 [[37], [38], [41], [42]] [] [37, 38, 41, 42] (fun σ => e.T3.val [Corner.Spec.fused dim σ 37 38, σ 41, σ 42]) ∧
      Denotes dim t.T4 [[0], [24], [3], [6]] [] [0, 24, 3, 6] (fun σ => e.T4.val [σ 0, σ 24, Corner.Spec.fused dim σ 3 6]) ∧
      Denotes dim t.T4y [[24], [30], [14], [17]] [] [24, 30, 14, 17] (fun σ => e.T4y.val [σ 24, σ 30, Corner.Spec.fused dim σ 14 17]) ∧
      Denotes dim t.T4z [[30], [39], [32], [35]] [] [30, 39, 32, 35] (fun σ => e.T4z.val [σ 30, σ 39, Corner.Spec.fused dim σ 32 35]) := by
  obtain ⟨hC1, hT1, hC2, hT4, hT2, hT4y, hT2y, hT4z, hT2z, hC4, hT3, hC3, ha, ha0, ha1, ha2, ha3, ha4, hay, hay0, hay1, hay2, hay3, hay4, haz, haz0, haz1, haz2, haz3, haz4, hm0, hm1, hm2⟩ := h
  have dT1 := Denotes.leaf dim e.T1 [[1], [2, 5], [9]] (by simp [gdim, hT1])
  have dT2 := Denotes.leaf dim e.T2 [[8], [10, 11], [27]] (by simp [gdim, hT2])
  have dT2y := Denotes.leaf dim e.T2y [[27], [22, 23], [31]] (by simp [gdim, hT2y])
  have dT2z := Denotes.leaf dim e.T2z [[31], [34, 36], [40]] (by simp [gdim, hT2z])
  have dT3 := Denotes.leaf dim e.T3 [[37, 38], [41], [42]] (by simp [gdim, hT3])
  have dT4 := Denotes.leaf dim e.T4 [[0], [24], [3, 6]] (by simp [gdim, hT4])
  have dT4y := Denotes.leaf dim e.T4y [[24], [30], [14, 17]] (by simp [gdim, hT4y])
  have dT4z := Denotes.leaf dim e.T4z [[30], [39], [32, 35]] (by simp [gdim, hT4z])
  obtain ⟨x1, e1, q1⟩ := Denotes.view dT1 [[1], [2], [5], [9]] [e.T1.size 0, e.a.size 1, e.a.size 1, e.T1.size 2] (by decide) (by simp [size, gdim, pow_two, hT1, ha, hay, haz, ha0, ha1, ha2, ha3, ha4, hay0, hay1, hay2, hay3, hay4, haz0, haz1, haz2, haz3, haz4, hz])
  obtain ⟨x2, e2, q2⟩ := Denotes.view dT2 [[8], [10], [11], [27]] [e.T2.size 0, e.a.size 4, e.a.size 4, e.T2.size 2] (by decide) (by simp [size, gdim, pow_two, hT2, ha, hay, haz, ha0, ha1, ha2, ha3, ha4, hay0, hay1, hay2, hay3, hay4, haz0, haz1, haz2, haz3, haz4, hz])
  obtain ⟨x3, e3, q3⟩ := Denotes.view dT2y [[27], [22], [23], [31]] [e.T2y.size 0, e.ay.size 4, e.ay.size 4, e.T2y.size 2] (by decide) (by simp [size, gdim, pow_two, hT2y, ha, hay, haz, ha0, ha1, ha2, ha3, ha4, hay0, hay1, hay2, hay3, hay4, haz0, haz1, haz2, haz3, haz4, hz])
  obtain ⟨x4, e4, q4⟩ := Denotes.view dT2z [[31], [34], [36], [40]] [e.T2z.size 0, e.ay.size 4, e.ay.size 4, e.T2z.size 2] (by decide) (by simp [size, gdim, pow_two, hT2z, ha, hay, haz, ha0, ha1, ha2, ha3, ha4, hay0, hay1, hay2, hay3, hay4, haz0, haz1, haz2, haz3, haz4, hz])
  obtain ⟨x5, e5, q5⟩ := Denotes.view dT3 [[37], [38], [41], [42]] [e.az.size 3, e.az.size 3, e.T3.size 1, e.T3.size 2] (by decide) (by simp [size, gdim, pow_two, hT3, ha, hay, haz, ha0, ha1, ha2, ha3, ha4, hay0, hay1, hay2, hay3, hay4, haz0, haz1, haz2, haz3, haz4, hz])
  obtain ⟨x6, e6, q6⟩ := Denotes.view dT4 [[0], [24], [3], [6]] [e.T4.size 0, e.T4.size 1, e.a.size 2, e.a.size 2] (by decide) (by simp [size, gdim, pow_two, hT4, ha, hay, haz, ha0, ha1, ha2, ha3, ha4, hay0, hay1, hay2, hay3, hay4, haz0, haz1, haz2, haz3, haz4, hz])
  obtain ⟨x7, e7, q7⟩ := Denotes.view dT4y [[24], [30], [14], [17]] [e.T4y.size 0, e.T4y.size 1, e.ay.size 2, e.ay.size 2] (by decide) (by simp [size, gdim, pow_two, hT4y, ha, hay, haz, ha0, ha1, ha2, ha3, ha4, hay0, hay1, hay2, hay3, hay4, haz0, haz1, haz2, haz3, haz4, hz])
  obtain ⟨x8, e8, q8⟩ := Denotes.view dT4z [[30], [39], [32], [35]] [e.T4z.size 0, e.T4z.size 1, e.az.size 2, e.az.size 2] (by decide) (by simp [size, gdim, pow_two, hT4z, ha, hay, haz, ha0, ha1, ha2, ha3, ha4, hay0, hay1, hay2, hay3, hay4, haz0, haz1, haz2, haz3, haz4, hz])
  refine ⟨⟨e.C1, e.C2, e.C3, e.C4, x1, x2, x3, x4, x5, x6, x7, x8, e.a, e.ay, e.az⟩, by simp [Col3.split, e1, e2, e3, e4, e5, e6, e7, e8], rfl, rfl, rfl, rfl, rfl, rfl, rfl, ?_, ?_, ?_, ?_, ?_, ?_, ?_, ?_⟩
  · exact q1.congr (List.Perm.refl _) (by decide) (fun σ => by simp only [List.map_cons, List.map_nil, gidx_single, fused_eq])
  · exact q2.congr (List.Perm.refl _) (by decide) (fun σ => by simp only [List.map_cons, List.map_nil, gidx_single, fused_eq])
  · exact q3.congr (List.Perm.refl _) (by decide) (fun σ => by simp only [List.map_cons, List.map_nil, gidx_single, fused_eq])
  · exact q4.congr (List.Perm.refl _) (by decide) (fun σ => by simp only [List.map_cons, List.map_nil, gidx_single, fused_eq])
  · exact q5.congr (List.Perm.refl _) (by decide) (fun σ => by simp only [List.map_cons, List.map_nil, gidx_single, fused_eq])
  · exact q6.congr (List.Perm.refl _) (by decide) (fun σ => by simp only [List.map_cons, List.map_nil, gidx_single, fused_eq])
  · exact q7.congr (List.Perm.refl _) (by decide) (fun σ => by simp only [List.map_cons, List.map_nil, gidx_single, fused_eq])
  · exact q8.congr (List.Perm.refl _) (by decide) (fun σ => by simp only [List.map_cons, List.map_nil, gidx_single, fused_eq])

set_option maxRecDepth 4000 in
theorem oeCol (dim : Nat → Nat) (e : Col3 K) (m0 m1 m2 : Tensor K) (h : Spec.FitsCol dim e m0 m1 m2) (hz : dim 34 = dim 22) :
    ∃ R, (do
      let t ← e.split
      einsum (t.operands m0 m1 m2) []) = some R ∧ Denotes dim R [] Spec.labelsCol Spec.labelsCol (Spec.netCol dim e m0 m1 m2) := by
  obtain ⟨t, et, t0, t1, t2, t3, t4, t5, t6, dT1, dT2, dT2y, dT2z, dT3, dT4, dT4y, dT4z⟩ := splitCol dim e m0 m1 m2 h hz
  obtain ⟨hC1, hT1, hC2, hT4, hT2, hT4y, hT2y, hT4z, hT2z, hC4, hT3, hC3, ha, ha0, ha1, ha2, ha3, ha4, hay, hay0, hay1, hay2, hay3, hay4, haz, haz0, haz1, haz2, haz3, haz4, hm0, hm1, hm2⟩ := h
  have dC1 := Denotes.leaf dim e.C1 [[0], [1]] (by simp [gdim, hC1])
  have dC2 := Denotes.leaf dim e.C2 [[9], [8]] (by simp [gdim, hC2])
  have dC3 := Denotes.leaf dim e.C3 [[40], [42]] (by simp [gdim, hC3])
  have dC4 := Denotes.leaf dim e.C4 [[39], [41]] (by simp [gdim, hC4])
  have da := Denotes.leaf dim e.a [[100], [2], [3], [25], [10]] (by simp [gdim, ha, ha0, ha1, ha2, ha3, ha4])
  have dac := (Denotes.leaf dim e.a [[101], [5], [6], [26], [11]] (by simp [gdim, ha, ha0, ha1, ha2, ha3, ha4])).conj
  have day := Denotes.leaf dim e.ay [[102], [25], [14], [28], [22]] (by simp [gdim, hay, hay0, hay1, hay2, hay3, hay4])
  have dayc := (Denotes.leaf dim e.ay [[103], [26], [17], [29], [23]] (by simp [gdim, hay, hay0, hay1, hay2, hay3, hay4])).conj
  have daz := Denotes.leaf dim e.az [[104], [28], [32], [37], [34]] (by simp [gdim, haz, haz0, haz1, haz2, haz3, haz4])
  have dazc := (Denotes.leaf dim e.az [[105], [29], [35], [38], [36]] (by simp [gdim, haz, haz0, haz1, haz2, haz3, haz4])).conj
  have dm0 := Denotes.leaf dim m0 [[300], [100], [200], [101]] (by simp [gdim, hm0])
  have dm1 := Denotes.leaf dim m1 [[200], [102], [201], [103]] (by simp [gdim, hm1])
  have dm2 := Denotes.leaf dim m2 [[201], [104], [301], [105]] (by simp [gdim, hm2])
  have net := (OpsNet.cons (l := [0, 1]) dC1 (OpsNet.cons (l := [1, 2, 5, 9]) dT1 (OpsNet.cons (l := [9, 8]) dC2 (OpsNet.cons (l := [0, 24, 3, 6]) dT4 (OpsNet.cons (l := [100, 2, 3, 25, 10]) da (OpsNet.cons (l := [101, 5, 6, 26, 11]) dac (OpsNet.cons (l := [300, 100, 200, 101]) dm0 (OpsNet.cons (l := [8, 10, 11, 27]) dT2 (OpsNet.cons (l := [24, 30, 14, 17]) dT4y (OpsNet.cons (l := [102, 25, 14, 28, 22]) day (OpsNet.cons (l := [103, 26, 17, 29, 23]) dayc (OpsNet.cons (l := [200, 102, 201, 103]) dm1 (OpsNet.cons (l := [27, 22, 23, 31]) dT2y (OpsNet.cons (l := [30, 39, 32, 35]) dT4z (OpsNet.cons (l := [104, 28, 32, 37, 34]) daz (OpsNet.cons (l := [105, 29, 35, 38, 36]) dazc (OpsNet.cons (l := [201, 104, 301, 105]) dm2 (OpsNet.cons (l := [31, 34, 36, 40]) dT2z (OpsNet.cons (l := [39, 41]) dC4 (OpsNet.cons (l := [37, 38, 41, 42]) dT3 (OpsNet.cons (l := [40, 42]) dC3 OpsNet.nil)))))))))))))))))))))
  obtain ⟨R, e1, q1⟩ := Denotes.einsum' net [] (by decide)
  refine ⟨R, ?_, Denotes.congr (O := []) q1 (by decide) (by decide) (fun σ => ?_)⟩
  · rw [et, ← e1]
    unfold Col3.operands
    rw [← t0, ← t1, ← t2, ← t3, ← t4, ← t5, ← t6]
    rfl
  · simp only [Spec.netCol, List.map_cons, List.map_nil, gidx_single]; ring

end Verif.Rdm
