import Verif.Rdm.SixSpec
import Verif.Rdm.SixLemmas
import Verif.Rdm.SixLabels
import Verif.Rdm.Networks
/-
The contractions on the patch `s0 s1 s2` over `s3 s4 s5` equal its network (generated from the drawing).
-/
namespace Verif.Rdm
open Tensor Corner
set_option linter.unusedSimpArgs false
set_option linter.unusedVariables false
set_option linter.unusedSectionVars false
variable {K : Type} [RCLike K]

/-- The split environment tensors denote the original ones. -/
theorem split23_denotes (dim : Nat → Nat) (e : Env23 K) (s : Sites23 K) (h : Spec.Fits23 dim e s) :
    ∃ t, e.split s = some t ∧ t.C1 = e.C1 ∧ t.C2 = e.C2 ∧ t.C3 = e.C3 ∧ t.C4 = e.C4 ∧
      Denotes dim t.T1 [[1], [2], [5], [44]] [] [1, 2, 5, 44] (fun σ => e.T1.val [σ 1, Corner.Spec.fused dim σ 2 5, σ 44]) ∧
      Denotes dim t.T1x [[44], [40], [42], [39]] [] [44, 40, 42, 39] (fun σ => e.T1x.val [σ 44, Corner.Spec.fused dim σ 40 42, σ 39]) ∧
      Denotes dim t.T1z [[39], [26], [28], [24]] [] [39, 26, 28, 24] (fun σ => e.T1z.val [σ 39, Corner.Spec.fused dim σ 26 28, σ 24]) ∧
      Denotes dim t.T2z [[25], [27], [29], [36]] [] [25, 27, 29, 36] (fun σ => e.T2z.val [σ 25, Corner.Spec.fused dim σ 27 29, σ 36]) ∧
      Denotes dim t.T2zy [[36], [33], [35], [31]] [] [36, 33, 35, 31] (fun σ => e.T2zy.val [σ 36, Corner.Spec.fused dim σ 33 35, σ 31]) ∧
      Denotes dim t.T3y [[10], [13], [7], [19]] [] [10, 13, 7, 19] (fun σ => e.T3y.val [Corner.Spec.fused dim σ 10 13, σ 7, σ 19]) ∧
      Denotes dim t.T3xy [[21], [23], [19], [51]] [] [21, 23, 19, 51] (fun σ => e.T3xy.val [Corner.Spec.fused dim σ 21 23, σ 19, σ 51]) ∧
      Denotes dim t.T3zy [[32], [34], [51], [30]] [] [32, 34, 51, 30] (fun σ => e.T3zy.val [Corner.Spec.fused dim σ 32 34, σ 51, σ 30]) ∧
      Denotes dim t.T4 [[0], [15], [3], [6]] [] [0, 15, 3, 6] (fun σ => e.T4.val [σ 0, σ 15, Corner.Spec.fused dim σ 3 6]) ∧
      Denotes dim t.T4y [[15], [8], [9], [12]] [] [15, 8, 9, 12] (fun σ => e.T4y.val [σ 15, σ 8, Corner.Spec.fused dim σ 9 12]) := by
  obtain ⟨hC1, hT1, hT4, hT4y, hC4, hT3y, hT3xy, hT1z, hC2, hT2z, hT2zy, hC3, hT3zy, hT1x, ha, ha0, ha1, ha2, ha3, ha4, hax, hax0, hax1, hax2, hax3, hax4, haz, haz0, haz1, haz2, haz3, haz4, hay, hay0, hay1, hay2, hay3, hay4, haxy, haxy0, haxy1, haxy2, haxy3, haxy4, hazy, hazy0, hazy1, hazy2, hazy3, hazy4⟩ := h
  have dT1 := Denotes.leaf dim e.T1 [[1], [2, 5], [44]] (by simp [gdim, hT1])
  have dT1x := Denotes.leaf dim e.T1x [[44], [40, 42], [39]] (by simp [gdim, hT1x])
  have dT1z := Denotes.leaf dim e.T1z [[39], [26, 28], [24]] (by simp [gdim, hT1z])
  have dT2z := Denotes.leaf dim e.T2z [[25], [27, 29], [36]] (by simp [gdim, hT2z])
  have dT2zy := Denotes.leaf dim e.T2zy [[36], [33, 35], [31]] (by simp [gdim, hT2zy])
  have dT3y := Denotes.leaf dim e.T3y [[10, 13], [7], [19]] (by simp [gdim, hT3y])
  have dT3xy := Denotes.leaf dim e.T3xy [[21, 23], [19], [51]] (by simp [gdim, hT3xy])
  have dT3zy := Denotes.leaf dim e.T3zy [[32, 34], [51], [30]] (by simp [gdim, hT3zy])
  have dT4 := Denotes.leaf dim e.T4 [[0], [15], [3, 6]] (by simp [gdim, hT4])
  have dT4y := Denotes.leaf dim e.T4y [[15], [8], [9, 12]] (by simp [gdim, hT4y])
  obtain ⟨x1, e1, q1⟩ := Denotes.view dT1 [[1], [2], [5], [44]] [e.T1.size 0, s.a.size 1, s.a.size 1, e.T1.size 2] (by decide) (by simp [size, gdim, pow_two, hT1, ha, ha0, ha1, ha2, ha3, ha4])
  obtain ⟨x2, e2, q2⟩ := Denotes.view dT1x [[44], [40], [42], [39]] [e.T1x.size 0, s.ax.size 1, s.ax.size 1, e.T1x.size 2] (by decide) (by simp [size, gdim, pow_two, hT1x, hax, hax0, hax1, hax2, hax3, hax4])
  obtain ⟨x3, e3, q3⟩ := Denotes.view dT1z [[39], [26], [28], [24]] [e.T1z.size 0, s.az.size 1, s.az.size 1, e.T1z.size 2] (by decide) (by simp [size, gdim, pow_two, hT1z, haz, haz0, haz1, haz2, haz3, haz4])
  obtain ⟨x4, e4, q4⟩ := Denotes.view dT2z [[25], [27], [29], [36]] [e.T2z.size 0, s.az.size 4, s.az.size 4, e.T2z.size 2] (by decide) (by simp [size, gdim, pow_two, hT2z, haz, haz0, haz1, haz2, haz3, haz4])
  obtain ⟨x5, e5, q5⟩ := Denotes.view dT2zy [[36], [33], [35], [31]] [e.T2zy.size 0, s.azy.size 4, s.azy.size 4, e.T2zy.size 2] (by decide) (by simp [size, gdim, pow_two, hT2zy, hazy, hazy0, hazy1, hazy2, hazy3, hazy4])
  obtain ⟨x6, e6, q6⟩ := Denotes.view dT3y [[10], [13], [7], [19]] [s.ay.size 3, s.ay.size 3, e.T3y.size 1, e.T3y.size 2] (by decide) (by simp [size, gdim, pow_two, hT3y, hay, hay0, hay1, hay2, hay3, hay4])
  obtain ⟨x7, e7, q7⟩ := Denotes.view dT3xy [[21], [23], [19], [51]] [s.axy.size 3, s.axy.size 3, e.T3xy.size 1, e.T3xy.size 2] (by decide) (by simp [size, gdim, pow_two, hT3xy, haxy, haxy0, haxy1, haxy2, haxy3, haxy4])
  obtain ⟨x8, e8, q8⟩ := Denotes.view dT3zy [[32], [34], [51], [30]] [s.azy.size 3, s.azy.size 3, e.T3zy.size 1, e.T3zy.size 2] (by decide) (by simp [size, gdim, pow_two, hT3zy, hazy, hazy0, hazy1, hazy2, hazy3, hazy4])
  obtain ⟨x9, e9, q9⟩ := Denotes.view dT4 [[0], [15], [3], [6]] [e.T4.size 0, e.T4.size 1, s.a.size 2, s.a.size 2] (by decide) (by simp [size, gdim, pow_two, hT4, ha, ha0, ha1, ha2, ha3, ha4])
  obtain ⟨x10, e10, q10⟩ := Denotes.view dT4y [[15], [8], [9], [12]] [e.T4y.size 0, e.T4y.size 1, s.ay.size 2, s.ay.size 2] (by decide) (by simp [size, gdim, pow_two, hT4y, hay, hay0, hay1, hay2, hay3, hay4])
  refine ⟨⟨e.C1, e.C2, e.C3, e.C4, x1, x9, x6, x10, x7, x5, x8, x3, x4, x2⟩, by simp [Env23.split, e1, e2, e3, e4, e5, e6, e7, e8, e9, e10], rfl, rfl, rfl, rfl, ?_, ?_, ?_, ?_, ?_, ?_, ?_, ?_, ?_, ?_⟩
  · exact q1.congr (List.Perm.refl _) (by decide) (fun σ => by simp only [List.map_cons, List.map_nil, gidx_single, fused_eq])
  · exact q2.congr (List.Perm.refl _) (by decide) (fun σ => by simp only [List.map_cons, List.map_nil, gidx_single, fused_eq])
  · exact q3.congr (List.Perm.refl _) (by decide) (fun σ => by simp only [List.map_cons, List.map_nil, gidx_single, fused_eq])
  · exact q4.congr (List.Perm.refl _) (by decide) (fun σ => by simp only [List.map_cons, List.map_nil, gidx_single, fused_eq])
  · exact q5.congr (List.Perm.refl _) (by decide) (fun σ => by simp only [List.map_cons, List.map_nil, gidx_single, fused_eq])
  · exact q6.congr (List.Perm.refl _) (by decide) (fun σ => by simp only [List.map_cons, List.map_nil, gidx_single, fused_eq])
  · exact q7.congr (List.Perm.refl _) (by decide) (fun σ => by simp only [List.map_cons, List.map_nil, gidx_single, fused_eq])
  · exact q8.congr (List.Perm.refl _) (by decide) (fun σ => by simp only [List.map_cons, List.map_nil, gidx_single, fused_eq])
  · exact q9.congr (List.Perm.refl _) (by decide) (fun σ => by simp only [List.map_cons, List.map_nil, gidx_single, fused_eq])
  · exact q10.congr (List.Perm.refl _) (by decide) (fun σ => by simp only [List.map_cons, List.map_nil, gidx_single, fused_eq])

/-- The contraction in one step, for every set of open sites. -/
theorem oe23_denotes (dim : Nat → Nat) (e : Env23 K) (s : Sites23 K) (h : Spec.Fits23 dim e s) (os : List Nat) (hos : os ∈ [0, 1, 2, 3, 4, 5].sublists) :
    ∃ R, oe23 e s os = some R ∧ Denotes dim R (singles (outLabels6 os [0, 1, 2, 3, 4, 5])) ((Spec.closed6 os).map (fun x => 100 + 2 * x) ++ Spec.inner23) [0, 1, 2, 3, 5, 6, 7, 8, 9, 10, 12, 13, 15, 16, 17, 19, 20, 21, 22, 23, 24, 25, 26, 27, 28, 29, 30, 31, 32, 33, 34, 35, 36, 37, 38, 39, 40, 41, 42, 43, 44, 45, 46, 47, 48, 49, 50, 51, 100, 101, 102, 103, 104, 105, 106, 107, 108, 109, 110, 111] (Spec.rho23 dim e s (Spec.bra os)) := by
  obtain ⟨t, et, t1, t2, t3, t4, dT1, dT1x, dT1z, dT2z, dT2zy, dT3y, dT3xy, dT3zy, dT4, dT4y⟩ := split23_denotes dim e s h
  obtain ⟨hC1, hT1, hT4, hT4y, hC4, hT3y, hT3xy, hT1z, hC2, hT2z, hT2zy, hC3, hT3zy, hT1x, ha, ha0, ha1, ha2, ha3, ha4, hax, hax0, hax1, hax2, hax3, hax4, haz, haz0, haz1, haz2, haz3, haz4, hay, hay0, hay1, hay2, hay3, hay4, haxy, haxy0, haxy1, haxy2, haxy3, haxy4, hazy, hazy0, hazy1, hazy2, hazy3, hazy4⟩ := h
  have hb : ∀ x, dim (100 + 2 * x + 1) = dim (100 + 2 * x) → dim (Spec.bra os x) = dim (100 + 2 * x) := by
    intro x hx; unfold Spec.bra; split
    · exact hx
    · rfl
  have b0 := hb 0 ha0
  have b1 := hb 1 hax0
  have b2 := hb 2 haz0
  have b3 := hb 3 hay0
  have b4 := hb 4 haxy0
  have b5 := hb 5 hazy0
  simp only [Nat.mul_zero, Nat.add_zero, Nat.mul_one, Nat.reduceMul, Nat.reduceAdd] at b0 b1 b2 b3 b4 b5
  have dC1 := Denotes.leaf dim e.C1 [[0], [1]] (by simp [gdim, hC1])
  have dC2 := Denotes.leaf dim e.C2 [[24], [25]] (by simp [gdim, hC2])
  have dC3 := Denotes.leaf dim e.C3 [[31], [30]] (by simp [gdim, hC3])
  have dC4 := Denotes.leaf dim e.C4 [[8], [7]] (by simp [gdim, hC4])
  have da := Denotes.leaf dim s.a [[100], [2], [3], [16], [45]] (by simp [gdim, ha])
  have dac := (Denotes.leaf dim s.a [[Spec.bra os 0], [5], [6], [17], [46]] (by simp [gdim, ha, b0, ha1, ha2, ha3, ha4])).conj
  have dax := Denotes.leaf dim s.ax [[102], [40], [45], [47], [41]] (by simp [gdim, hax])
  have daxc := (Denotes.leaf dim s.ax [[Spec.bra os 1], [42], [46], [48], [43]] (by simp [gdim, hax, b1, hax1, hax2, hax3, hax4])).conj
  have daz := Denotes.leaf dim s.az [[104], [26], [41], [37], [27]] (by simp [gdim, haz])
  have dazc := (Denotes.leaf dim s.az [[Spec.bra os 2], [28], [43], [38], [29]] (by simp [gdim, haz, b2, haz1, haz2, haz3, haz4])).conj
  have day := Denotes.leaf dim s.ay [[106], [16], [9], [10], [20]] (by simp [gdim, hay])
  have dayc := (Denotes.leaf dim s.ay [[Spec.bra os 3], [17], [12], [13], [22]] (by simp [gdim, hay, b3, hay1, hay2, hay3, hay4])).conj
  have daxy := Denotes.leaf dim s.axy [[108], [47], [20], [21], [49]] (by simp [gdim, haxy])
  have daxyc := (Denotes.leaf dim s.axy [[Spec.bra os 4], [48], [22], [23], [50]] (by simp [gdim, haxy, b4, haxy1, haxy2, haxy3, haxy4])).conj
  have dazy := Denotes.leaf dim s.azy [[110], [37], [49], [32], [33]] (by simp [gdim, hazy])
  have dazyc := (Denotes.leaf dim s.azy [[Spec.bra os 5], [38], [50], [34], [35]] (by simp [gdim, hazy, b5, hazy1, hazy2, hazy3, hazy4])).conj
  clear hb
  have fin : ∀ R, Denotes dim R (singles (outLabels6 os [0, 1, 2, 3, 4, 5])) ((Spec.closed6 os).map (fun x => 100 + 2 * x) ++ Spec.inner23) [0, 1, 2, 3, 5, 6, 7, 8, 9, 10, 12, 13, 15, 16, 17, 19, 20, 21, 22, 23, 24, 25, 26, 27, 28, 29, 30, 31, 32, 33, 34, 35, 36, 37, 38, 39, 40, 41, 42, 43, 44, 45, 46, 47, 48, 49, 50, 51, 100, 101, 102, 103, 104, 105, 106, 107, 108, 109, 110, 111]
      (fun σ => e.C1.val [σ 0, σ 1] * e.T1.val [σ 1, Corner.Spec.fused dim σ 2 5, σ 44] * e.T4.val [σ 0, σ 15, Corner.Spec.fused dim σ 3 6] * s.a.val [σ 100, σ 2, σ 3, σ 16, σ 45] * star (s.a.val [σ (Spec.bra os 0), σ 5, σ 6, σ 17, σ 46]) * e.T4y.val [σ 15, σ 8, Corner.Spec.fused dim σ 9 12] * e.C4.val [σ 8, σ 7] * e.T3y.val [Corner.Spec.fused dim σ 10 13, σ 7, σ 19] * s.ay.val [σ 106, σ 16, σ 9, σ 10, σ 20] * star (s.ay.val [σ (Spec.bra os 3), σ 17, σ 12, σ 13, σ 22]) * e.T3xy.val [Corner.Spec.fused dim σ 21 23, σ 19, σ 51] * s.axy.val [σ 108, σ 47, σ 20, σ 21, σ 49] * star (s.axy.val [σ (Spec.bra os 4), σ 48, σ 22, σ 23, σ 50]) * e.T1z.val [σ 39, Corner.Spec.fused dim σ 26 28, σ 24] * e.C2.val [σ 24, σ 25] * e.T2z.val [σ 25, Corner.Spec.fused dim σ 27 29, σ 36] * s.az.val [σ 104, σ 26, σ 41, σ 37, σ 27] * star (s.az.val [σ (Spec.bra os 2), σ 28, σ 43, σ 38, σ 29]) * e.T2zy.val [σ 36, Corner.Spec.fused dim σ 33 35, σ 31] * e.C3.val [σ 31, σ 30] * e.T3zy.val [Corner.Spec.fused dim σ 32 34, σ 51, σ 30] * s.azy.val [σ 110, σ 37, σ 49, σ 32, σ 33] * star (s.azy.val [σ (Spec.bra os 5), σ 38, σ 50, σ 34, σ 35]) * e.T1x.val [σ 44, Corner.Spec.fused dim σ 40 42, σ 39] * s.ax.val [σ 102, σ 40, σ 45, σ 47, σ 41] * star (s.ax.val [σ (Spec.bra os 1), σ 42, σ 46, σ 48, σ 43])) → Denotes dim R (singles (outLabels6 os [0, 1, 2, 3, 4, 5])) ((Spec.closed6 os).map (fun x => 100 + 2 * x) ++ Spec.inner23) [0, 1, 2, 3, 5, 6, 7, 8, 9, 10, 12, 13, 15, 16, 17, 19, 20, 21, 22, 23, 24, 25, 26, 27, 28, 29, 30, 31, 32, 33, 34, 35, 36, 37, 38, 39, 40, 41, 42, 43, 44, 45, 46, 47, 48, 49, 50, 51, 100, 101, 102, 103, 104, 105, 106, 107, 108, 109, 110, 111]
      (Spec.rho23 dim e s (Spec.bra os)) := fun R q => q.congr (List.Perm.refl _) (fun _ h => h) (fun σ => by simp only [Spec.rho23]; ring)
  have net := (OpsNet.cons (l := [0, 1]) dC1 (OpsNet.cons (l := [1, 2, 5, 44]) dT1 (OpsNet.cons (l := [0, 15, 3, 6]) dT4 (OpsNet.cons (l := [100, 2, 3, 16, 45]) da (OpsNet.cons (l := [Spec.bra os 0, 5, 6, 17, 46]) dac (OpsNet.cons (l := [15, 8, 9, 12]) dT4y (OpsNet.cons (l := [8, 7]) dC4 (OpsNet.cons (l := [10, 13, 7, 19]) dT3y (OpsNet.cons (l := [106, 16, 9, 10, 20]) day (OpsNet.cons (l := [Spec.bra os 3, 17, 12, 13, 22]) dayc (OpsNet.cons (l := [21, 23, 19, 51]) dT3xy (OpsNet.cons (l := [108, 47, 20, 21, 49]) daxy (OpsNet.cons (l := [Spec.bra os 4, 48, 22, 23, 50]) daxyc (OpsNet.cons (l := [39, 26, 28, 24]) dT1z (OpsNet.cons (l := [24, 25]) dC2 (OpsNet.cons (l := [25, 27, 29, 36]) dT2z (OpsNet.cons (l := [104, 26, 41, 37, 27]) daz (OpsNet.cons (l := [Spec.bra os 2, 28, 43, 38, 29]) dazc (OpsNet.cons (l := [36, 33, 35, 31]) dT2zy (OpsNet.cons (l := [31, 30]) dC3 (OpsNet.cons (l := [32, 34, 51, 30]) dT3zy (OpsNet.cons (l := [110, 37, 49, 32, 33]) dazy (OpsNet.cons (l := [Spec.bra os 5, 38, 50, 34, 35]) dazyc (OpsNet.cons (l := [44, 40, 42, 39]) dT1x (OpsNet.cons (l := [102, 40, 45, 47, 41]) dax (OpsNet.cons (l := [Spec.bra os 1, 42, 46, 48, 43]) daxc OpsNet.nil))))))))))))))))))))))))))
  have hl : ∀ os ∈ [0, 1, 2, 3, 4, 5].sublists, decide ((outLabels6 os [0, 1, 2, 3, 4, 5]).Nodup ∧ ∀ l ∈ outLabels6 os [0, 1, 2, 3, 4, 5], l ∈ [0, 1] ++ ([1, 2, 5, 44] ++ ([0, 15, 3, 6] ++ ([100, 2, 3, 16, 45] ++ ([Spec.bra os 0, 5, 6, 17, 46] ++ ([15, 8, 9, 12] ++ ([8, 7] ++ ([10, 13, 7, 19] ++ ([106, 16, 9, 10, 20] ++ ([Spec.bra os 3, 17, 12, 13, 22] ++ ([21, 23, 19, 51] ++ ([108, 47, 20, 21, 49] ++ ([Spec.bra os 4, 48, 22, 23, 50] ++ ([39, 26, 28, 24] ++ ([24, 25] ++ ([25, 27, 29, 36] ++ ([104, 26, 41, 37, 27] ++ ([Spec.bra os 2, 28, 43, 38, 29] ++ ([36, 33, 35, 31] ++ ([31, 30] ++ ([32, 34, 51, 30] ++ ([110, 37, 49, 32, 33] ++ ([Spec.bra os 5, 38, 50, 34, 35] ++ ([44, 40, 42, 39] ++ ([102, 40, 45, 47, 41] ++ ([Spec.bra os 1, 42, 46, 48, 43] ++ [])))))))))))))))))))))))))) = true := by decide +kernel
  have hp : ∀ os ∈ [0, 1, 2, 3, 4, 5].sublists, (([0, 1] ++ ([1, 2, 5, 44] ++ ([0, 15, 3, 6] ++ ([100, 2, 3, 16, 45] ++ ([Spec.bra os 0, 5, 6, 17, 46] ++ ([15, 8, 9, 12] ++ ([8, 7] ++ ([10, 13, 7, 19] ++ ([106, 16, 9, 10, 20] ++ ([Spec.bra os 3, 17, 12, 13, 22] ++ ([21, 23, 19, 51] ++ ([108, 47, 20, 21, 49] ++ ([Spec.bra os 4, 48, 22, 23, 50] ++ ([39, 26, 28, 24] ++ ([24, 25] ++ ([25, 27, 29, 36] ++ ([104, 26, 41, 37, 27] ++ ([Spec.bra os 2, 28, 43, 38, 29] ++ ([36, 33, 35, 31] ++ ([31, 30] ++ ([32, 34, 51, 30] ++ ([110, 37, 49, 32, 33] ++ ([Spec.bra os 5, 38, 50, 34, 35] ++ ([44, 40, 42, 39] ++ ([102, 40, 45, 47, 41] ++ ([Spec.bra os 1, 42, 46, 48, 43] ++ [])))))))))))))))))))))))))).dedup.filter (fun l => l ∉ outLabels6 os [0, 1, 2, 3, 4, 5])).Perm
      ((Spec.closed6 os).map (fun x => 100 + 2 * x) ++ Spec.inner23) := by decide +kernel
  have hS : ∀ os ∈ [0, 1, 2, 3, 4, 5].sublists, ∀ l ∈ [0, 1] ++ ([1, 2, 5, 44] ++ ([0, 15, 3, 6] ++ ([100, 2, 3, 16, 45] ++ ([Spec.bra os 0, 5, 6, 17, 46] ++ ([15, 8, 9, 12] ++ ([8, 7] ++ ([10, 13, 7, 19] ++ ([106, 16, 9, 10, 20] ++ ([Spec.bra os 3, 17, 12, 13, 22] ++ ([21, 23, 19, 51] ++ ([108, 47, 20, 21, 49] ++ ([Spec.bra os 4, 48, 22, 23, 50] ++ ([39, 26, 28, 24] ++ ([24, 25] ++ ([25, 27, 29, 36] ++ ([104, 26, 41, 37, 27] ++ ([Spec.bra os 2, 28, 43, 38, 29] ++ ([36, 33, 35, 31] ++ ([31, 30] ++ ([32, 34, 51, 30] ++ ([110, 37, 49, 32, 33] ++ ([Spec.bra os 5, 38, 50, 34, 35] ++ ([44, 40, 42, 39] ++ ([102, 40, 45, 47, 41] ++ ([Spec.bra os 1, 42, 46, 48, 43] ++ []))))))))))))))))))))))))), l ∈ [0, 1, 2, 3, 5, 6, 7, 8, 9, 10, 12, 13, 15, 16, 17, 19, 20, 21, 22, 23, 24, 25, 26, 27, 28, 29, 30, 31, 32, 33, 34, 35, 36, 37, 38, 39, 40, 41, 42, 43, 44, 45, 46, 47, 48, 49, 50, 51, 100, 101, 102, 103, 104, 105, 106, 107, 108, 109, 110, 111] := by decide +kernel
  have key : ∃ R, einsum (t.operands s ((physLabels6 os).getD · 0)) (outLabels6 os [0, 1, 2, 3, 4, 5]) = some R ∧ Denotes dim R (singles (outLabels6 os [0, 1, 2, 3, 4, 5])) ((Spec.closed6 os).map (fun x => 100 + 2 * x) ++ Spec.inner23) [0, 1, 2, 3, 5, 6, 7, 8, 9, 10, 12, 13, 15, 16, 17, 19, 20, 21, 22, 23, 24, 25, 26, 27, 28, 29, 30, 31, 32, 33, 34, 35, 36, 37, 38, 39, 40, 41, 42, 43, 44, 45, 46, 47, 48, 49, 50, 51, 100, 101, 102, 103, 104, 105, 106, 107, 108, 109, 110, 111]
      (fun σ => e.C1.val [σ 0, σ 1] * e.T1.val [σ 1, Corner.Spec.fused dim σ 2 5, σ 44] * e.T4.val [σ 0, σ 15, Corner.Spec.fused dim σ 3 6] * s.a.val [σ 100, σ 2, σ 3, σ 16, σ 45] * star (s.a.val [σ (Spec.bra os 0), σ 5, σ 6, σ 17, σ 46]) * e.T4y.val [σ 15, σ 8, Corner.Spec.fused dim σ 9 12] * e.C4.val [σ 8, σ 7] * e.T3y.val [Corner.Spec.fused dim σ 10 13, σ 7, σ 19] * s.ay.val [σ 106, σ 16, σ 9, σ 10, σ 20] * star (s.ay.val [σ (Spec.bra os 3), σ 17, σ 12, σ 13, σ 22]) * e.T3xy.val [Corner.Spec.fused dim σ 21 23, σ 19, σ 51] * s.axy.val [σ 108, σ 47, σ 20, σ 21, σ 49] * star (s.axy.val [σ (Spec.bra os 4), σ 48, σ 22, σ 23, σ 50]) * e.T1z.val [σ 39, Corner.Spec.fused dim σ 26 28, σ 24] * e.C2.val [σ 24, σ 25] * e.T2z.val [σ 25, Corner.Spec.fused dim σ 27 29, σ 36] * s.az.val [σ 104, σ 26, σ 41, σ 37, σ 27] * star (s.az.val [σ (Spec.bra os 2), σ 28, σ 43, σ 38, σ 29]) * e.T2zy.val [σ 36, Corner.Spec.fused dim σ 33 35, σ 31] * e.C3.val [σ 31, σ 30] * e.T3zy.val [Corner.Spec.fused dim σ 32 34, σ 51, σ 30] * s.azy.val [σ 110, σ 37, σ 49, σ 32, σ 33] * star (s.azy.val [σ (Spec.bra os 5), σ 38, σ 50, σ 34, σ 35]) * e.T1x.val [σ 44, Corner.Spec.fused dim σ 40 42, σ 39] * s.ax.val [σ 102, σ 40, σ 45, σ 47, σ 41] * star (s.ax.val [σ (Spec.bra os 1), σ 42, σ 46, σ 48, σ 43])) := by
    obtain ⟨R, e1, q1⟩ := Denotes.einsum' net (outLabels6 os [0, 1, 2, 3, 4, 5]) (hl os hos)
    refine ⟨R, ?_, q1.congr (hp os hos) (hS os hos) (fun σ => by simp only [List.map_cons, List.map_nil, gidx_single, mul_one, ← mul_assoc])⟩
    rw [← e1]
    unfold Env23.operands
    simp only [t1, t2, t3, t4, physLabels6_0 hos, physLabels6_1 hos, physLabels6_2 hos, physLabels6_3 hos, physLabels6_4 hos, physLabels6_5 hos, physLabels6_6 hos, physLabels6_7 hos, physLabels6_8 hos, physLabels6_9 hos, physLabels6_10 hos, physLabels6_11 hos]
  obtain ⟨R, e1, q⟩ := key
  exact ⟨R, by unfold oe23; rw [et]; exact e1, fin R q⟩

/-- The contraction by halves, for every set of open sites. -/
theorem semi23_denotes (dim : Nat → Nat) (e : Env23 K) (s : Sites23 K) (h : Spec.Fits23 dim e s) (os : List Nat) (hos : os ∈ [0, 1, 2, 3, 4, 5].sublists) :
    ∃ R, semi23 e s os = some R ∧ Denotes dim R (singles (outLabels6 os [0, 1, 2, 3, 4, 5])) ((Spec.closed6 os).map (fun x => 100 + 2 * x) ++ Spec.inner23) [0, 1, 2, 3, 5, 6, 7, 8, 9, 10, 12, 13, 15, 16, 17, 19, 20, 21, 22, 23, 24, 25, 26, 27, 28, 29, 30, 31, 32, 33, 34, 35, 36, 37, 38, 39, 40, 41, 42, 43, 44, 45, 46, 47, 48, 49, 50, 51, 100, 101, 102, 103, 104, 105, 106, 107, 108, 109, 110, 111] (Spec.rho23 dim e s (Spec.bra os)) := by
  obtain ⟨t, et, t1, t2, t3, t4, dT1, dT1x, dT1z, dT2z, dT2zy, dT3y, dT3xy, dT3zy, dT4, dT4y⟩ := split23_denotes dim e s h
  obtain ⟨hC1, hT1, hT4, hT4y, hC4, hT3y, hT3xy, hT1z, hC2, hT2z, hT2zy, hC3, hT3zy, hT1x, ha, ha0, ha1, ha2, ha3, ha4, hax, hax0, hax1, hax2, hax3, hax4, haz, haz0, haz1, haz2, haz3, haz4, hay, hay0, hay1, hay2, hay3, hay4, haxy, haxy0, haxy1, haxy2, haxy3, haxy4, hazy, hazy0, hazy1, hazy2, hazy3, hazy4⟩ := h
  have hb : ∀ x, dim (100 + 2 * x + 1) = dim (100 + 2 * x) → dim (Spec.bra os x) = dim (100 + 2 * x) := by
    intro x hx; unfold Spec.bra; split
    · exact hx
    · rfl
  have b0 := hb 0 ha0
  have b1 := hb 1 hax0
  have b2 := hb 2 haz0
  have b3 := hb 3 hay0
  have b4 := hb 4 haxy0
  have b5 := hb 5 hazy0
  simp only [Nat.mul_zero, Nat.add_zero, Nat.mul_one, Nat.reduceMul, Nat.reduceAdd] at b0 b1 b2 b3 b4 b5
  have dC1 := Denotes.leaf dim e.C1 [[0], [1]] (by simp [gdim, hC1])
  have dC2 := Denotes.leaf dim e.C2 [[24], [25]] (by simp [gdim, hC2])
  have dC3 := Denotes.leaf dim e.C3 [[31], [30]] (by simp [gdim, hC3])
  have dC4 := Denotes.leaf dim e.C4 [[8], [7]] (by simp [gdim, hC4])
  have da := Denotes.leaf dim s.a [[100], [2], [3], [16], [45]] (by simp [gdim, ha])
  have dac := (Denotes.leaf dim s.a [[Spec.bra os 0], [5], [6], [17], [46]] (by simp [gdim, ha, b0, ha1, ha2, ha3, ha4])).conj
  have dax := Denotes.leaf dim s.ax [[102], [40], [45], [47], [41]] (by simp [gdim, hax])
  have daxc := (Denotes.leaf dim s.ax [[Spec.bra os 1], [42], [46], [48], [43]] (by simp [gdim, hax, b1, hax1, hax2, hax3, hax4])).conj
  have daz := Denotes.leaf dim s.az [[104], [26], [41], [37], [27]] (by simp [gdim, haz])
  have dazc := (Denotes.leaf dim s.az [[Spec.bra os 2], [28], [43], [38], [29]] (by simp [gdim, haz, b2, haz1, haz2, haz3, haz4])).conj
  have day := Denotes.leaf dim s.ay [[106], [16], [9], [10], [20]] (by simp [gdim, hay])
  have dayc := (Denotes.leaf dim s.ay [[Spec.bra os 3], [17], [12], [13], [22]] (by simp [gdim, hay, b3, hay1, hay2, hay3, hay4])).conj
  have daxy := Denotes.leaf dim s.axy [[108], [47], [20], [21], [49]] (by simp [gdim, haxy])
  have daxyc := (Denotes.leaf dim s.axy [[Spec.bra os 4], [48], [22], [23], [50]] (by simp [gdim, haxy, b4, haxy1, haxy2, haxy3, haxy4])).conj
  have dazy := Denotes.leaf dim s.azy [[110], [37], [49], [32], [33]] (by simp [gdim, hazy])
  have dazyc := (Denotes.leaf dim s.azy [[Spec.bra os 5], [38], [50], [34], [35]] (by simp [gdim, hazy, b5, hazy1, hazy2, hazy3, hazy4])).conj
  clear hb
  have net1 := (OpsNet.cons (l := [0, 1]) dC1 (OpsNet.cons (l := [1, 2, 5, 44]) dT1 (OpsNet.cons (l := [0, 15, 3, 6]) dT4 (OpsNet.cons (l := [100, 2, 3, 16, 45]) da (OpsNet.cons (l := [Spec.bra os 0, 5, 6, 17, 46]) dac (OpsNet.cons (l := [15, 8, 9, 12]) dT4y (OpsNet.cons (l := [8, 7]) dC4 (OpsNet.cons (l := [10, 13, 7, 19]) dT3y (OpsNet.cons (l := [106, 16, 9, 10, 20]) day (OpsNet.cons (l := [Spec.bra os 3, 17, 12, 13, 22]) dayc OpsNet.nil))))))))))
  have net2 := (OpsNet.cons (l := [39, 26, 28, 24]) dT1z (OpsNet.cons (l := [24, 25]) dC2 (OpsNet.cons (l := [25, 27, 29, 36]) dT2z (OpsNet.cons (l := [104, 26, 41, 37, 27]) daz (OpsNet.cons (l := [Spec.bra os 2, 28, 43, 38, 29]) dazc (OpsNet.cons (l := [36, 33, 35, 31]) dT2zy (OpsNet.cons (l := [31, 30]) dC3 (OpsNet.cons (l := [32, 34, 51, 30]) dT3zy (OpsNet.cons (l := [110, 37, 49, 32, 33]) dazy (OpsNet.cons (l := [Spec.bra os 5, 38, 50, 34, 35]) dazyc OpsNet.nil))))))))))
  have netm := (OpsNet.cons (l := [21, 23, 19, 51]) dT3xy (OpsNet.cons (l := [108, 47, 20, 21, 49]) daxy (OpsNet.cons (l := [Spec.bra os 4, 48, 22, 23, 50]) daxyc (OpsNet.cons (l := [44, 40, 42, 39]) dT1x (OpsNet.cons (l := [102, 40, 45, 47, 41]) dax (OpsNet.cons (l := [Spec.bra os 1, 42, 46, 48, 43]) daxc OpsNet.nil))))))
  obtain ⟨F1, hF1⟩ : ∃ F1 : (Nat → Nat) → K, F1 = fun σ => e.C1.val [σ 0, σ 1] * e.T1.val [σ 1, Corner.Spec.fused dim σ 2 5, σ 44] * e.T4.val [σ 0, σ 15, Corner.Spec.fused dim σ 3 6] * s.a.val [σ 100, σ 2, σ 3, σ 16, σ 45] * star (s.a.val [σ (Spec.bra os 0), σ 5, σ 6, σ 17, σ 46]) * e.T4y.val [σ 15, σ 8, Corner.Spec.fused dim σ 9 12] * e.C4.val [σ 8, σ 7] * e.T3y.val [Corner.Spec.fused dim σ 10 13, σ 7, σ 19] * s.ay.val [σ 106, σ 16, σ 9, σ 10, σ 20] * star (s.ay.val [σ (Spec.bra os 3), σ 17, σ 12, σ 13, σ 22]) := ⟨_, rfl⟩
  obtain ⟨F2, hF2⟩ : ∃ F2 : (Nat → Nat) → K, F2 = fun σ => e.T1z.val [σ 39, Corner.Spec.fused dim σ 26 28, σ 24] * e.C2.val [σ 24, σ 25] * e.T2z.val [σ 25, Corner.Spec.fused dim σ 27 29, σ 36] * s.az.val [σ 104, σ 26, σ 41, σ 37, σ 27] * star (s.az.val [σ (Spec.bra os 2), σ 28, σ 43, σ 38, σ 29]) * e.T2zy.val [σ 36, Corner.Spec.fused dim σ 33 35, σ 31] * e.C3.val [σ 31, σ 30] * e.T3zy.val [Corner.Spec.fused dim σ 32 34, σ 51, σ 30] * s.azy.val [σ 110, σ 37, σ 49, σ 32, σ 33] * star (s.azy.val [σ (Spec.bra os 5), σ 38, σ 50, σ 34, σ 35]) := ⟨_, rfl⟩
  obtain ⟨Fm, hFm⟩ : ∃ Fm : (Nat → Nat) → K, Fm = fun σ => e.T3xy.val [Corner.Spec.fused dim σ 21 23, σ 19, σ 51] * s.axy.val [σ 108, σ 47, σ 20, σ 21, σ 49] * star (s.axy.val [σ (Spec.bra os 4), σ 48, σ 22, σ 23, σ 50]) * e.T1x.val [σ 44, Corner.Spec.fused dim σ 40 42, σ 39] * s.ax.val [σ 102, σ 40, σ 45, σ 47, σ 41] * star (s.ax.val [σ (Spec.bra os 1), σ 42, σ 46, σ 48, σ 43]) := ⟨_, rfl⟩
  have fin : ∀ R, Denotes dim R (singles (outLabels6 os [0, 1, 2, 3, 4, 5])) ((Spec.closed6 os).map (fun x => 100 + 2 * x) ++ Spec.inner23) [0, 1, 2, 3, 5, 6, 7, 8, 9, 10, 12, 13, 15, 16, 17, 19, 20, 21, 22, 23, 24, 25, 26, 27, 28, 29, 30, 31, 32, 33, 34, 35, 36, 37, 38, 39, 40, 41, 42, 43, 44, 45, 46, 47, 48, 49, 50, 51, 100, 101, 102, 103, 104, 105, 106, 107, 108, 109, 110, 111]
      (fun σ => F1 σ * (Fm σ * F2 σ)) → Denotes dim R (singles (outLabels6 os [0, 1, 2, 3, 4, 5])) ((Spec.closed6 os).map (fun x => 100 + 2 * x) ++ Spec.inner23) [0, 1, 2, 3, 5, 6, 7, 8, 9, 10, 12, 13, 15, 16, 17, 19, 20, 21, 22, 23, 24, 25, 26, 27, 28, 29, 30, 31, 32, 33, 34, 35, 36, 37, 38, 39, 40, 41, 42, 43, 44, 45, 46, 47, 48, 49, 50, 51, 100, 101, 102, 103, 104, 105, 106, 107, 108, 109, 110, 111]
      (Spec.rho23 dim e s (Spec.bra os)) := fun R q => q.congr (List.Perm.refl _) (fun _ h => h) (fun σ => by rw [hF1, hF2, hFm]; simp only [Spec.rho23]; ring)
  have key : ∃ R, (do
      let l ← einsum (t.first s ((physLabels6 os).getD · 0)) ([44, 45, 46, 20, 22, 19] ++ outLabels6 os [0, 3])
      let r ← einsum (t.second s ((physLabels6 os).getD · 0)) ([39, 41, 43, 49, 50, 51] ++ outLabels6 os [2, 5])
      einsum ((l, [44, 45, 46, 20, 22, 19] ++ outLabels6 os [0, 3]) :: (t.middle s ((physLabels6 os).getD · 0) ++ [(r, [39, 41, 43, 49, 50, 51] ++ outLabels6 os [2, 5])])) (outLabels6 os [0, 1, 2, 3, 4, 5])) = some R ∧ Denotes dim R (singles (outLabels6 os [0, 1, 2, 3, 4, 5])) ((Spec.closed6 os).map (fun x => 100 + 2 * x) ++ Spec.inner23) [0, 1, 2, 3, 5, 6, 7, 8, 9, 10, 12, 13, 15, 16, 17, 19, 20, 21, 22, 23, 24, 25, 26, 27, 28, 29, 30, 31, 32, 33, 34, 35, 36, 37, 38, 39, 40, 41, 42, 43, 44, 45, 46, 47, 48, 49, 50, 51, 100, 101, 102, 103, 104, 105, 106, 107, 108, 109, 110, 111]
      (fun σ => F1 σ * (Fm σ * F2 σ)) := by
    have n1 := OpsNet.fun_eq net1 (F' := F1) (by rw [hF1]; intro σ; simp only [List.map_cons, List.map_nil, gidx_single, mul_one, ← mul_assoc])
    have n2 := OpsNet.fun_eq net2 (F' := F2) (by rw [hF2]; intro σ; simp only [List.map_cons, List.map_nil, gidx_single, mul_one, ← mul_assoc])
    have nm := OpsNet.fun_eq netm (F' := Fm) (by rw [hFm]; intro σ; simp only [List.map_cons, List.map_nil, gidx_single, mul_one, ← mul_assoc])
    have hok : ∀ os ∈ [0, 1, 2, 3, 4, 5].sublists, halvesOK ([0, 1] ++ ([1, 2, 5, 44] ++ ([0, 15, 3, 6] ++ ([100, 2, 3, 16, 45] ++ ([Spec.bra os 0, 5, 6, 17, 46] ++ ([15, 8, 9, 12] ++ ([8, 7] ++ ([10, 13, 7, 19] ++ ([106, 16, 9, 10, 20] ++ ([Spec.bra os 3, 17, 12, 13, 22] ++ [])))))))))) ([0, 1] ++ ([1, 2, 5, 44] ++ ([0, 15, 3, 6] ++ ([100, 2, 3, 16, 45] ++ ([Spec.bra os 0, 5, 6, 17, 46] ++ ([15, 8, 9, 12] ++ ([8, 7] ++ ([10, 13, 7, 19] ++ ([106, 16, 9, 10, 20] ++ ([Spec.bra os 3, 17, 12, 13, 22] ++ [])))))))))) ([44, 45, 46, 20, 22, 19] ++ outLabels6 os [0, 3]) ([21, 23, 19, 51] ++ ([108, 47, 20, 21, 49] ++ ([Spec.bra os 4, 48, 22, 23, 50] ++ ([44, 40, 42, 39] ++ ([102, 40, 45, 47, 41] ++ ([Spec.bra os 1, 42, 46, 48, 43] ++ [])))))) ([21, 23, 19, 51] ++ ([108, 47, 20, 21, 49] ++ ([Spec.bra os 4, 48, 22, 23, 50] ++ ([44, 40, 42, 39] ++ ([102, 40, 45, 47, 41] ++ ([Spec.bra os 1, 42, 46, 48, 43] ++ [])))))) ([39, 26, 28, 24] ++ ([24, 25] ++ ([25, 27, 29, 36] ++ ([104, 26, 41, 37, 27] ++ ([Spec.bra os 2, 28, 43, 38, 29] ++ ([36, 33, 35, 31] ++ ([31, 30] ++ ([32, 34, 51, 30] ++ ([110, 37, 49, 32, 33] ++ ([Spec.bra os 5, 38, 50, 34, 35] ++ [])))))))))) ([39, 26, 28, 24] ++ ([24, 25] ++ ([25, 27, 29, 36] ++ ([104, 26, 41, 37, 27] ++ ([Spec.bra os 2, 28, 43, 38, 29] ++ ([36, 33, 35, 31] ++ ([31, 30] ++ ([32, 34, 51, 30] ++ ([110, 37, 49, 32, 33] ++ ([Spec.bra os 5, 38, 50, 34, 35] ++ [])))))))))) ([39, 41, 43, 49, 50, 51] ++ outLabels6 os [2, 5]) (outLabels6 os [0, 1, 2, 3, 4, 5])
      ((Spec.closed6 os).map (fun x => 100 + 2 * x) ++ Spec.inner23) [0, 1, 2, 3, 5, 6, 7, 8, 9, 10, 12, 13, 15, 16, 17, 19, 20, 21, 22, 23, 24, 25, 26, 27, 28, 29, 30, 31, 32, 33, 34, 35, 36, 37, 38, 39, 40, 41, 42, 43, 44, 45, 46, 47, 48, 49, 50, 51, 100, 101, 102, 103, 104, 105, 106, 107, 108, 109, 110, 111] = true := by decide +kernel
    obtain ⟨R, e1, q1⟩ := halves n1 nm n2 ([44, 45, 46, 20, 22, 19] ++ outLabels6 os [0, 3]) ([39, 41, 43, 49, 50, 51] ++ outLabels6 os [2, 5]) (outLabels6 os [0, 1, 2, 3, 4, 5]) _ _ (hok os hos)
    refine ⟨R, ?_, q1⟩
    rw [← e1]
    unfold Env23.first Env23.second Env23.middle
    simp only [t1, t2, t3, t4, List.cons_append, List.nil_append, physLabels6_0 hos, physLabels6_1 hos, physLabels6_2 hos, physLabels6_3 hos, physLabels6_4 hos, physLabels6_5 hos, physLabels6_6 hos, physLabels6_7 hos, physLabels6_8 hos, physLabels6_9 hos, physLabels6_10 hos, physLabels6_11 hos]
  obtain ⟨R, e1, q⟩ := key
  exact ⟨R, by unfold semi23; rw [et]; exact e1, fin R q⟩

end Verif.Rdm
