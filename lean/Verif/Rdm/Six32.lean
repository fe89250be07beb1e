import Verif.Rdm.SixSpec
import Verif.Rdm.SixLemmas
import Verif.Rdm.SixLabels
import Verif.Rdm.Networks
/-
The contractions on the patch `s0 s3` over `s1 s4` over `s2 s5` equal its network (generated from the drawing).
-/
namespace Verif.Rdm
open Tensor Corner
set_option linter.unusedSimpArgs false
set_option linter.unusedVariables false
set_option linter.unusedSectionVars false
variable {K : Type} [RCLike K]

/-- The split environment tensors denote the original ones. -/
theorem split32_denotes (dim : Nat → Nat) (e : Env32 K) (s : Sites32 K) (h : Spec.Fits32 dim e s) :
    ∃ t, e.split s = some t ∧ t.C1 = e.C1 ∧ t.C2 = e.C2 ∧ t.C3 = e.C3 ∧ t.C4 = e.C4 ∧
      Denotes dim t.T1 [[1], [2], [5], [13]] [] [1, 2, 5, 13] (fun σ => e.T1.val [σ 1, Corner.Spec.fused dim σ 2 5, σ 13]) ∧
      Denotes dim t.T1x [[13], [9], [11], [7]] [] [13, 9, 11, 7] (fun σ => e.T1x.val [σ 13, Corner.Spec.fused dim σ 9 11, σ 7]) ∧
      Denotes dim t.T2x [[8], [10], [12], [87]] [] [8, 10, 12, 87] (fun σ => e.T2x.val [σ 8, Corner.Spec.fused dim σ 10 12, σ 87]) ∧
      Denotes dim t.T2xy [[87], [55], [56], [57]] [] [87, 55, 56, 57] (fun σ => e.T2xy.val [σ 87, Corner.Spec.fused dim σ 55 56, σ 57]) ∧
      Denotes dim t.T2xw [[57], [43], [45], [41]] [] [57, 43, 45, 41] (fun σ => e.T2xw.val [σ 57, Corner.Spec.fused dim σ 43 45, σ 41]) ∧
      Denotes dim t.T3w [[49], [51], [46], [52]] [] [49, 51, 46, 52] (fun σ => e.T3w.val [Corner.Spec.fused dim σ 49 51, σ 46, σ 52]) ∧
      Denotes dim t.T3xw [[42], [44], [52], [40]] [] [42, 44, 52, 40] (fun σ => e.T3xw.val [Corner.Spec.fused dim σ 42 44, σ 52, σ 40]) ∧
      Denotes dim t.T4 [[0], [18], [3], [6]] [] [0, 18, 3, 6] (fun σ => e.T4.val [σ 0, σ 18, Corner.Spec.fused dim σ 3 6]) ∧
      Denotes dim t.T4y [[18], [80], [16], [17]] [] [18, 80, 16, 17] (fun σ => e.T4y.val [σ 18, σ 80, Corner.Spec.fused dim σ 16 17]) ∧
      Denotes dim t.T4w [[80], [47], [48], [50]] [] [80, 47, 48, 50] (fun σ => e.T4w.val [σ 80, σ 47, Corner.Spec.fused dim σ 48 50]) := by
  obtain ⟨hC1, hT1, hT4, hT1x, hC2, hT2x, hT4y, hT2xy, hT3xw, hC3, hT2xw, hT4w, hC4, hT3w, ha, ha0, ha1, ha2, ha3, ha4, hay, hay0, hay1, hay2, hay3, hay4, haw, haw0, haw1, haw2, haw3, haw4, hax, hax0, hax1, hax2, hax3, hax4, haxy, haxy0, haxy1, haxy2, haxy3, haxy4, haxw, haxw0, haxw1, haxw2, haxw3, haxw4⟩ := h
  have dT1 := Denotes.leaf dim e.T1 [[1], [2, 5], [13]] (by simp [gdim, hT1])
  have dT1x := Denotes.leaf dim e.T1x [[13], [9, 11], [7]] (by simp [gdim, hT1x])
  have dT2x := Denotes.leaf dim e.T2x [[8], [10, 12], [87]] (by simp [gdim, hT2x])
  have dT2xy := Denotes.leaf dim e.T2xy [[87], [55, 56], [57]] (by simp [gdim, hT2xy])
  have dT2xw := Denotes.leaf dim e.T2xw [[57], [43, 45], [41]] (by simp [gdim, hT2xw])
  have dT3w := Denotes.leaf dim e.T3w [[49, 51], [46], [52]] (by simp [gdim, hT3w])
  have dT3xw := Denotes.leaf dim e.T3xw [[42, 44], [52], [40]] (by simp [gdim, hT3xw])
  have dT4 := Denotes.leaf dim e.T4 [[0], [18], [3, 6]] (by simp [gdim, hT4])
  have dT4y := Denotes.leaf dim e.T4y [[18], [80], [16, 17]] (by simp [gdim, hT4y])
  have dT4w := Denotes.leaf dim e.T4w [[80], [47], [48, 50]] (by simp [gdim, hT4w])
  obtain ⟨x1, e1, q1⟩ := Denotes.view dT1 [[1], [2], [5], [13]] [e.T1.size 0, s.a.size 1, s.a.size 1, e.T1.size 2] (by decide) (by simp [size, gdim, pow_two, hT1, ha, ha0, ha1, ha2, ha3, ha4])
  obtain ⟨x2, e2, q2⟩ := Denotes.view dT1x [[13], [9], [11], [7]] [e.T1x.size 0, s.ax.size 1, s.ax.size 1, e.T1x.size 2] (by decide) (by simp [size, gdim, pow_two, hT1x, hax, hax0, hax1, hax2, hax3, hax4])
  obtain ⟨x3, e3, q3⟩ := Denotes.view dT2x [[8], [10], [12], [87]] [e.T2x.size 0, s.ax.size 4, s.ax.size 4, e.T2x.size 2] (by decide) (by simp [size, gdim, pow_two, hT2x, hax, hax0, hax1, hax2, hax3, hax4])
  obtain ⟨x4, e4, q4⟩ := Denotes.view dT2xy [[87], [55], [56], [57]] [e.T2xy.size 0, s.axy.size 4, s.axy.size 4, e.T2xy.size 2] (by decide) (by simp [size, gdim, pow_two, hT2xy, haxy, haxy0, haxy1, haxy2, haxy3, haxy4])
  obtain ⟨x5, e5, q5⟩ := Denotes.view dT2xw [[57], [43], [45], [41]] [e.T2xw.size 0, s.axw.size 4, s.axw.size 4, e.T2xw.size 2] (by decide) (by simp [size, gdim, pow_two, hT2xw, haxw, haxw0, haxw1, haxw2, haxw3, haxw4])
  obtain ⟨x6, e6, q6⟩ := Denotes.view dT3w [[49], [51], [46], [52]] [s.aw.size 3, s.aw.size 3, e.T3w.size 1, e.T3w.size 2] (by decide) (by simp [size, gdim, pow_two, hT3w, haw, haw0, haw1, haw2, haw3, haw4])
  obtain ⟨x7, e7, q7⟩ := Denotes.view dT3xw [[42], [44], [52], [40]] [s.axw.size 3, s.axw.size 3, e.T3xw.size 1, e.T3xw.size 2] (by decide) (by simp [size, gdim, pow_two, hT3xw, haxw, haxw0, haxw1, haxw2, haxw3, haxw4])
  obtain ⟨x8, e8, q8⟩ := Denotes.view dT4 [[0], [18], [3], [6]] [e.T4.size 0, e.T4.size 1, s.a.size 2, s.a.size 2] (by decide) (by simp [size, gdim, pow_two, hT4, ha, ha0, ha1, ha2, ha3, ha4])
  obtain ⟨x9, e9, q9⟩ := Denotes.view dT4y [[18], [80], [16], [17]] [e.T4y.size 0, e.T4y.size 1, s.ay.size 2, s.ay.size 2] (by decide) (by simp [size, gdim, pow_two, hT4y, hay, hay0, hay1, hay2, hay3, hay4])
  obtain ⟨x10, e10, q10⟩ := Denotes.view dT4w [[80], [47], [48], [50]] [e.T4w.size 0, e.T4w.size 1, s.aw.size 2, s.aw.size 2] (by decide) (by simp [size, gdim, pow_two, hT4w, haw, haw0, haw1, haw2, haw3, haw4])
  refine ⟨⟨e.C1, e.C2, e.C3, e.C4, x1, x8, x9, x10, x2, x3, x4, x5, x7, x6⟩, by simp [Env32.split, e1, e2, e3, e4, e5, e6, e7, e8, e9, e10], rfl, rfl, rfl, rfl, ?_, ?_, ?_, ?_, ?_, ?_, ?_, ?_, ?_, ?_⟩
  · exact q1.congr (List.Perm.refl _) (by decide) (fun σ => by simp only [List.map_cons, List.map_nil, gidx_single, fused_eq])
  · exact q2.congr (List.Perm.refl _) (by decide) (fun σ => by simp only [List.map_cons, List.map_nil, gidx_single, fused_eq])
  · exact q3.congr (List.Perm.refl _) (by decide) (fun σ => by simp only [List.map_cons, List.map_nil, gidx_single, fused_eq])
  · exact q4.congr (List.Perm.refl _) (by decide) (fun σ => by simp only [List.map_cons, List.map_nil, gidx_single, fused_eq])
  · exact q5.congr (List.Perm.refl _) (by decide) (fun σ => by simp only [List.map_cons, List.map_nil, gidx_single, fused_eq])
  · exact q6.congr (List.Perm.refl _) (by decide) (fun σ => by simp only [List.map_cons, List.map_nil, gidx_single, fused_eq])
  · exact q7.congr (List.Perm.refl _) (by decide) (fun σ => by simp only [List.map_cons, List.map_nil, gidx_single, fused_eq])
  · exact q8.congr (List.Perm.refl _) (by decide) (fun σ => by simp only [List.map_cons, List.map_nil, gidx_single, fused_eq])
  · exact q9.congr (List.Perm.refl _) (by decide) (fun σ => by simp only [List.map_cons, List.map_nil, gidx_single, fused_eq])
  · exact q10.congr (List.Perm.refl _) (by decide) (fun σ => by simp only [List.map_cons, List.map_nil, gidx_single, fused_eq])

/-- The contraction in one step, for every set of open sites. -/
theorem oe32_denotes (dim : Nat → Nat) (e : Env32 K) (s : Sites32 K) (h : Spec.Fits32 dim e s) (os : List Nat) (hos : os ∈ [0, 1, 2, 3, 4, 5].sublists) :
    ∃ R, oe32 e s os = some R ∧ Denotes dim R (singles (outLabels6 os [0, 1, 2, 3, 4, 5])) ((Spec.closed6 os).map (fun x => 100 + 2 * x) ++ Spec.inner32) [0, 1, 2, 3, 5, 6, 7, 8, 9, 10, 11, 12, 13, 14, 15, 16, 17, 18, 19, 20, 40, 41, 42, 43, 44, 45, 46, 47, 48, 49, 50, 51, 52, 53, 54, 55, 56, 57, 58, 59, 80, 81, 82, 83, 84, 85, 86, 87, 100, 101, 102, 103, 104, 105, 106, 107, 108, 109, 110, 111] (Spec.rho32 dim e s (Spec.bra os)) := by
  obtain ⟨t, et, t1, t2, t3, t4, dT1, dT1x, dT2x, dT2xy, dT2xw, dT3w, dT3xw, dT4, dT4y, dT4w⟩ := split32_denotes dim e s h
  obtain ⟨hC1, hT1, hT4, hT1x, hC2, hT2x, hT4y, hT2xy, hT3xw, hC3, hT2xw, hT4w, hC4, hT3w, ha, ha0, ha1, ha2, ha3, ha4, hay, hay0, hay1, hay2, hay3, hay4, haw, haw0, haw1, haw2, haw3, haw4, hax, hax0, hax1, hax2, hax3, hax4, haxy, haxy0, haxy1, haxy2, haxy3, haxy4, haxw, haxw0, haxw1, haxw2, haxw3, haxw4⟩ := h
  have hb : ∀ x, dim (100 + 2 * x + 1) = dim (100 + 2 * x) → dim (Spec.bra os x) = dim (100 + 2 * x) := by
    intro x hx; unfold Spec.bra; split
    · exact hx
    · rfl
  have b0 := hb 0 ha0
  have b1 := hb 1 hay0
  have b2 := hb 2 haw0
  have b3 := hb 3 hax0
  have b4 := hb 4 haxy0
  have b5 := hb 5 haxw0
  simp only [Nat.mul_zero, Nat.add_zero, Nat.mul_one, Nat.reduceMul, Nat.reduceAdd] at b0 b1 b2 b3 b4 b5
  have dC1 := Denotes.leaf dim e.C1 [[0], [1]] (by simp [gdim, hC1])
  have dC2 := Denotes.leaf dim e.C2 [[7], [8]] (by simp [gdim, hC2])
  have dC3 := Denotes.leaf dim e.C3 [[41], [40]] (by simp [gdim, hC3])
  have dC4 := Denotes.leaf dim e.C4 [[47], [46]] (by simp [gdim, hC4])
  have da := Denotes.leaf dim s.a [[100], [2], [3], [19], [14]] (by simp [gdim, ha])
  have dac := (Denotes.leaf dim s.a [[Spec.bra os 0], [5], [6], [20], [15]] (by simp [gdim, ha, b0, ha1, ha2, ha3, ha4])).conj
  have day := Denotes.leaf dim s.ay [[102], [19], [16], [81], [83]] (by simp [gdim, hay])
  have dayc := (Denotes.leaf dim s.ay [[Spec.bra os 1], [20], [17], [82], [84]] (by simp [gdim, hay, b1, hay1, hay2, hay3, hay4])).conj
  have daw := Denotes.leaf dim s.aw [[104], [81], [48], [49], [53]] (by simp [gdim, haw])
  have dawc := (Denotes.leaf dim s.aw [[Spec.bra os 2], [82], [50], [51], [54]] (by simp [gdim, haw, b2, haw1, haw2, haw3, haw4])).conj
  have dax := Denotes.leaf dim s.ax [[106], [9], [14], [85], [10]] (by simp [gdim, hax])
  have daxc := (Denotes.leaf dim s.ax [[Spec.bra os 3], [11], [15], [86], [12]] (by simp [gdim, hax, b3, hax1, hax2, hax3, hax4])).conj
  have daxy := Denotes.leaf dim s.axy [[108], [85], [83], [58], [55]] (by simp [gdim, haxy])
  have daxyc := (Denotes.leaf dim s.axy [[Spec.bra os 4], [86], [84], [59], [56]] (by simp [gdim, haxy, b4, haxy1, haxy2, haxy3, haxy4])).conj
  have daxw := Denotes.leaf dim s.axw [[110], [58], [53], [42], [43]] (by simp [gdim, haxw])
  have daxwc := (Denotes.leaf dim s.axw [[Spec.bra os 5], [59], [54], [44], [45]] (by simp [gdim, haxw, b5, haxw1, haxw2, haxw3, haxw4])).conj
  clear hb
  have fin : ∀ R, Denotes dim R (singles (outLabels6 os [0, 1, 2, 3, 4, 5])) ((Spec.closed6 os).map (fun x => 100 + 2 * x) ++ Spec.inner32) [0, 1, 2, 3, 5, 6, 7, 8, 9, 10, 11, 12, 13, 14, 15, 16, 17, 18, 19, 20, 40, 41, 42, 43, 44, 45, 46, 47, 48, 49, 50, 51, 52, 53, 54, 55, 56, 57, 58, 59, 80, 81, 82, 83, 84, 85, 86, 87, 100, 101, 102, 103, 104, 105, 106, 107, 108, 109, 110, 111]
      (fun σ => e.C1.val [σ 0, σ 1] * e.T1.val [σ 1, Corner.Spec.fused dim σ 2 5, σ 13] * e.T4.val [σ 0, σ 18, Corner.Spec.fused dim σ 3 6] * s.a.val [σ 100, σ 2, σ 3, σ 19, σ 14] * star (s.a.val [σ (Spec.bra os 0), σ 5, σ 6, σ 20, σ 15]) * e.T1x.val [σ 13, Corner.Spec.fused dim σ 9 11, σ 7] * e.C2.val [σ 7, σ 8] * e.T2x.val [σ 8, Corner.Spec.fused dim σ 10 12, σ 87] * s.ax.val [σ 106, σ 9, σ 14, σ 85, σ 10] * star (s.ax.val [σ (Spec.bra os 3), σ 11, σ 15, σ 86, σ 12]) * e.T4y.val [σ 18, σ 80, Corner.Spec.fused dim σ 16 17] * s.ay.val [σ 102, σ 19, σ 16, σ 81, σ 83] * star (s.ay.val [σ (Spec.bra os 1), σ 20, σ 17, σ 82, σ 84]) * e.T2xy.val [σ 87, Corner.Spec.fused dim σ 55 56, σ 57] * s.axy.val [σ 108, σ 85, σ 83, σ 58, σ 55] * star (s.axy.val [σ (Spec.bra os 4), σ 86, σ 84, σ 59, σ 56]) * e.T3xw.val [Corner.Spec.fused dim σ 42 44, σ 52, σ 40] * e.C3.val [σ 41, σ 40] * e.T2xw.val [σ 57, Corner.Spec.fused dim σ 43 45, σ 41] * s.axw.val [σ 110, σ 58, σ 53, σ 42, σ 43] * star (s.axw.val [σ (Spec.bra os 5), σ 59, σ 54, σ 44, σ 45]) * e.T4w.val [σ 80, σ 47, Corner.Spec.fused dim σ 48 50] * e.C4.val [σ 47, σ 46] * e.T3w.val [Corner.Spec.fused dim σ 49 51, σ 46, σ 52] * s.aw.val [σ 104, σ 81, σ 48, σ 49, σ 53] * star (s.aw.val [σ (Spec.bra os 2), σ 82, σ 50, σ 51, σ 54])) → Denotes dim R (singles (outLabels6 os [0, 1, 2, 3, 4, 5])) ((Spec.closed6 os).map (fun x => 100 + 2 * x) ++ Spec.inner32) [0, 1, 2, 3, 5, 6, 7, 8, 9, 10, 11, 12, 13, 14, 15, 16, 17, 18, 19, 20, 40, 41, 42, 43, 44, 45, 46, 47, 48, 49, 50, 51, 52, 53, 54, 55, 56, 57, 58, 59, 80, 81, 82, 83, 84, 85, 86, 87, 100, 101, 102, 103, 104, 105, 106, 107, 108, 109, 110, 111]
      (Spec.rho32 dim e s (Spec.bra os)) := fun R q => q.congr (List.Perm.refl _) (fun _ h => h) (fun σ => by simp only [Spec.rho32]; ring)
  have net := (OpsNet.cons (l := [0, 1]) dC1 (OpsNet.cons (l := [1, 2, 5, 13]) dT1 (OpsNet.cons (l := [0, 18, 3, 6]) dT4 (OpsNet.cons (l := [100, 2, 3, 19, 14]) da (OpsNet.cons (l := [Spec.bra os 0, 5, 6, 20, 15]) dac (OpsNet.cons (l := [13, 9, 11, 7]) dT1x (OpsNet.cons (l := [7, 8]) dC2 (OpsNet.cons (l := [8, 10, 12, 87]) dT2x (OpsNet.cons (l := [106, 9, 14, 85, 10]) dax (OpsNet.cons (l := [Spec.bra os 3, 11, 15, 86, 12]) daxc (OpsNet.cons (l := [18, 80, 16, 17]) dT4y (OpsNet.cons (l := [102, 19, 16, 81, 83]) day (OpsNet.cons (l := [Spec.bra os 1, 20, 17, 82, 84]) dayc (OpsNet.cons (l := [87, 55, 56, 57]) dT2xy (OpsNet.cons (l := [108, 85, 83, 58, 55]) daxy (OpsNet.cons (l := [Spec.bra os 4, 86, 84, 59, 56]) daxyc (OpsNet.cons (l := [42, 44, 52, 40]) dT3xw (OpsNet.cons (l := [41, 40]) dC3 (OpsNet.cons (l := [57, 43, 45, 41]) dT2xw (OpsNet.cons (l := [110, 58, 53, 42, 43]) daxw (OpsNet.cons (l := [Spec.bra os 5, 59, 54, 44, 45]) daxwc (OpsNet.cons (l := [80, 47, 48, 50]) dT4w (OpsNet.cons (l := [47, 46]) dC4 (OpsNet.cons (l := [49, 51, 46, 52]) dT3w (OpsNet.cons (l := [104, 81, 48, 49, 53]) daw (OpsNet.cons (l := [Spec.bra os 2, 82, 50, 51, 54]) dawc OpsNet.nil))))))))))))))))))))))))))
  have hl : ∀ os ∈ [0, 1, 2, 3, 4, 5].sublists, decide ((outLabels6 os [0, 1, 2, 3, 4, 5]).Nodup ∧ ∀ l ∈ outLabels6 os [0, 1, 2, 3, 4, 5], l ∈ [0, 1] ++ ([1, 2, 5, 13] ++ ([0, 18, 3, 6] ++ ([100, 2, 3, 19, 14] ++ ([Spec.bra os 0, 5, 6, 20, 15] ++ ([13, 9, 11, 7] ++ ([7, 8] ++ ([8, 10, 12, 87] ++ ([106, 9, 14, 85, 10] ++ ([Spec.bra os 3, 11, 15, 86, 12] ++ ([18, 80, 16, 17] ++ ([102, 19, 16, 81, 83] ++ ([Spec.bra os 1, 20, 17, 82, 84] ++ ([87, 55, 56, 57] ++ ([108, 85, 83, 58, 55] ++ ([Spec.bra os 4, 86, 84, 59, 56] ++ ([42, 44, 52, 40] ++ ([41, 40] ++ ([57, 43, 45, 41] ++ ([110, 58, 53, 42, 43] ++ ([Spec.bra os 5, 59, 54, 44, 45] ++ ([80, 47, 48, 50] ++ ([47, 46] ++ ([49, 51, 46, 52] ++ ([104, 81, 48, 49, 53] ++ ([Spec.bra os 2, 82, 50, 51, 54] ++ [])))))))))))))))))))))))))) = true := by decide +kernel
  have hp : ∀ os ∈ [0, 1, 2, 3, 4, 5].sublists, (([0, 1] ++ ([1, 2, 5, 13] ++ ([0, 18, 3, 6] ++ ([100, 2, 3, 19, 14] ++ ([Spec.bra os 0, 5, 6, 20, 15] ++ ([13, 9, 11, 7] ++ ([7, 8] ++ ([8, 10, 12, 87] ++ ([106, 9, 14, 85, 10] ++ ([Spec.bra os 3, 11, 15, 86, 12] ++ ([18, 80, 16, 17] ++ ([102, 19, 16, 81, 83] ++ ([Spec.bra os 1, 20, 17, 82, 84] ++ ([87, 55, 56, 57] ++ ([108, 85, 83, 58, 55] ++ ([Spec.bra os 4, 86, 84, 59, 56] ++ ([42, 44, 52, 40] ++ ([41, 40] ++ ([57, 43, 45, 41] ++ ([110, 58, 53, 42, 43] ++ ([Spec.bra os 5, 59, 54, 44, 45] ++ ([80, 47, 48, 50] ++ ([47, 46] ++ ([49, 51, 46, 52] ++ ([104, 81, 48, 49, 53] ++ ([Spec.bra os 2, 82, 50, 51, 54] ++ [])))))))))))))))))))))))))).dedup.filter (fun l => l ∉ outLabels6 os [0, 1, 2, 3, 4, 5])).Perm
      ((Spec.closed6 os).map (fun x => 100 + 2 * x) ++ Spec.inner32) := by decide +kernel
  have hS : ∀ os ∈ [0, 1, 2, 3, 4, 5].sublists, ∀ l ∈ [0, 1] ++ ([1, 2, 5, 13] ++ ([0, 18, 3, 6] ++ ([100, 2, 3, 19, 14] ++ ([Spec.bra os 0, 5, 6, 20, 15] ++ ([13, 9, 11, 7] ++ ([7, 8] ++ ([8, 10, 12, 87] ++ ([106, 9, 14, 85, 10] ++ ([Spec.bra os 3, 11, 15, 86, 12] ++ ([18, 80, 16, 17] ++ ([102, 19, 16, 81, 83] ++ ([Spec.bra os 1, 20, 17, 82, 84] ++ ([87, 55, 56, 57] ++ ([108, 85, 83, 58, 55] ++ ([Spec.bra os 4, 86, 84, 59, 56] ++ ([42, 44, 52, 40] ++ ([41, 40] ++ ([57, 43, 45, 41] ++ ([110, 58, 53, 42, 43] ++ ([Spec.bra os 5, 59, 54, 44, 45] ++ ([80, 47, 48, 50] ++ ([47, 46] ++ ([49, 51, 46, 52] ++ ([104, 81, 48, 49, 53] ++ ([Spec.bra os 2, 82, 50, 51, 54] ++ []))))))))))))))))))))))))), l ∈ [0, 1, 2, 3, 5, 6, 7, 8, 9, 10, 11, 12, 13, 14, 15, 16, 17, 18, 19, 20, 40, 41, 42, 43, 44, 45, 46, 47, 48, 49, 50, 51, 52, 53, 54, 55, 56, 57, 58, 59, 80, 81, 82, 83, 84, 85, 86, 87, 100, 101, 102, 103, 104, 105, 106, 107, 108, 109, 110, 111] := by decide +kernel
  have key : ∃ R, einsum (t.operands s ((physLabels6 os).getD · 0)) (outLabels6 os [0, 1, 2, 3, 4, 5]) = some R ∧ Denotes dim R (singles (outLabels6 os [0, 1, 2, 3, 4, 5])) ((Spec.closed6 os).map (fun x => 100 + 2 * x) ++ Spec.inner32) [0, 1, 2, 3, 5, 6, 7, 8, 9, 10, 11, 12, 13, 14, 15, 16, 17, 18, 19, 20, 40, 41, 42, 43, 44, 45, 46, 47, 48, 49, 50, 51, 52, 53, 54, 55, 56, 57, 58, 59, 80, 81, 82, 83, 84, 85, 86, 87, 100, 101, 102, 103, 104, 105, 106, 107, 108, 109, 110, 111]
      (fun σ => e.C1.val [σ 0, σ 1] * e.T1.val [σ 1, Corner.Spec.fused dim σ 2 5, σ 13] * e.T4.val [σ 0, σ 18, Corner.Spec.fused dim σ 3 6] * s.a.val [σ 100, σ 2, σ 3, σ 19, σ 14] * star (s.a.val [σ (Spec.bra os 0), σ 5, σ 6, σ 20, σ 15]) * e.T1x.val [σ 13, Corner.Spec.fused dim σ 9 11, σ 7] * e.C2.val [σ 7, σ 8] * e.T2x.val [σ 8, Corner.Spec.fused dim σ 10 12, σ 87] * s.ax.val [σ 106, σ 9, σ 14, σ 85, σ 10] * star (s.ax.val [σ (Spec.bra os 3), σ 11, σ 15, σ 86, σ 12]) * e.T4y.val [σ 18, σ 80, Corner.Spec.fused dim σ 16 17] * s.ay.val [σ 102, σ 19, σ 16, σ 81, σ 83] * star (s.ay.val [σ (Spec.bra os 1), σ 20, σ 17, σ 82, σ 84]) * e.T2xy.val [σ 87, Corner.Spec.fused dim σ 55 56, σ 57] * s.axy.val [σ 108, σ 85, σ 83, σ 58, σ 55] * star (s.axy.val [σ (Spec.bra os 4), σ 86, σ 84, σ 59, σ 56]) * e.T3xw.val [Corner.Spec.fused dim σ 42 44, σ 52, σ 40] * e.C3.val [σ 41, σ 40] * e.T2xw.val [σ 57, Corner.Spec.fused dim σ 43 45, σ 41] * s.axw.val [σ 110, σ 58, σ 53, σ 42, σ 43] * star (s.axw.val [σ (Spec.bra os 5), σ 59, σ 54, σ 44, σ 45]) * e.T4w.val [σ 80, σ 47, Corner.Spec.fused dim σ 48 50] * e.C4.val [σ 47, σ 46] * e.T3w.val [Corner.Spec.fused dim σ 49 51, σ 46, σ 52] * s.aw.val [σ 104, σ 81, σ 48, σ 49, σ 53] * star (s.aw.val [σ (Spec.bra os 2), σ 82, σ 50, σ 51, σ 54])) := by
    obtain ⟨R, e1, q1⟩ := Denotes.einsum' net (outLabels6 os [0, 1, 2, 3, 4, 5]) (hl os hos)
    refine ⟨R, ?_, q1.congr (hp os hos) (hS os hos) (fun σ => by simp only [List.map_cons, List.map_nil, gidx_single, mul_one, ← mul_assoc])⟩
    rw [← e1]
    unfold Env32.operands
    simp only [t1, t2, t3, t4, physLabels6_0 hos, physLabels6_1 hos, physLabels6_2 hos, physLabels6_3 hos, physLabels6_4 hos, physLabels6_5 hos, physLabels6_6 hos, physLabels6_7 hos, physLabels6_8 hos, physLabels6_9 hos, physLabels6_10 hos, physLabels6_11 hos]
  obtain ⟨R, e1, q⟩ := key
  exact ⟨R, by unfold oe32; rw [et]; exact e1, fin R q⟩

/-- The contraction by halves, for every set of open sites. -/
theorem semi32_denotes (dim : Nat → Nat) (e : Env32 K) (s : Sites32 K) (h : Spec.Fits32 dim e s) (os : List Nat) (hos : os ∈ [0, 1, 2, 3, 4, 5].sublists) :
    ∃ R, semi32 e s os = some R ∧ Denotes dim R (singles (outLabels6 os [0, 1, 2, 3, 4, 5])) ((Spec.closed6 os).map (fun x => 100 + 2 * x) ++ Spec.inner32) [0, 1, 2, 3, 5, 6, 7, 8, 9, 10, 11, 12, 13, 14, 15, 16, 17, 18, 19, 20, 40, 41, 42, 43, 44, 45, 46, 47, 48, 49, 50, 51, 52, 53, 54, 55, 56, 57, 58, 59, 80, 81, 82, 83, 84, 85, 86, 87, 100, 101, 102, 103, 104, 105, 106, 107, 108, 109, 110, 111] (Spec.rho32 dim e s (Spec.bra os)) := by
  obtain ⟨t, et, t1, t2, t3, t4, dT1, dT1x, dT2x, dT2xy, dT2xw, dT3w, dT3xw, dT4, dT4y, dT4w⟩ := split32_denotes dim e s h
  obtain ⟨hC1, hT1, hT4, hT1x, hC2, hT2x, hT4y, hT2xy, hT3xw, hC3, hT2xw, hT4w, hC4, hT3w, ha, ha0, ha1, ha2, ha3, ha4, hay, hay0, hay1, hay2, hay3, hay4, haw, haw0, haw1, haw2, haw3, haw4, hax, hax0, hax1, hax2, hax3, hax4, haxy, haxy0, haxy1, haxy2, haxy3, haxy4, haxw, haxw0, haxw1, haxw2, haxw3, haxw4⟩ := h
  have hb : ∀ x, dim (100 + 2 * x + 1) = dim (100 + 2 * x) → dim (Spec.bra os x) = dim (100 + 2 * x) := by
    intro x hx; unfold Spec.bra; split
    · exact hx
    · rfl
  have b0 := hb 0 ha0
  have b1 := hb 1 hay0
  have b2 := hb 2 haw0
  have b3 := hb 3 hax0
  have b4 := hb 4 haxy0
  have b5 := hb 5 haxw0
  simp only [Nat.mul_zero, Nat.add_zero, Nat.mul_one, Nat.reduceMul, Nat.reduceAdd] at b0 b1 b2 b3 b4 b5
  have dC1 := Denotes.leaf dim e.C1 [[0], [1]] (by simp [gdim, hC1])
  have dC2 := Denotes.leaf dim e.C2 [[7], [8]] (by simp [gdim, hC2])
  have dC3 := Denotes.leaf dim e.C3 [[41], [40]] (by simp [gdim, hC3])
  have dC4 := Denotes.leaf dim e.C4 [[47], [46]] (by simp [gdim, hC4])
  have da := Denotes.leaf dim s.a [[100], [2], [3], [19], [14]] (by simp [gdim, ha])
  have dac := (Denotes.leaf dim s.a [[Spec.bra os 0], [5], [6], [20], [15]] (by simp [gdim, ha, b0, ha1, ha2, ha3, ha4])).conj
  have day := Denotes.leaf dim s.ay [[102], [19], [16], [81], [83]] (by simp [gdim, hay])
  have dayc := (Denotes.leaf dim s.ay [[Spec.bra os 1], [20], [17], [82], [84]] (by simp [gdim, hay, b1, hay1, hay2, hay3, hay4])).conj
  have daw := Denotes.leaf dim s.aw [[104], [81], [48], [49], [53]] (by simp [gdim, haw])
  have dawc := (Denotes.leaf dim s.aw [[Spec.bra os 2], [82], [50], [51], [54]] (by simp [gdim, haw, b2, haw1, haw2, haw3, haw4])).conj
  have dax := Denotes.leaf dim s.ax [[106], [9], [14], [85], [10]] (by simp [gdim, hax])
  have daxc := (Denotes.leaf dim s.ax [[Spec.bra os 3], [11], [15], [86], [12]] (by simp [gdim, hax, b3, hax1, hax2, hax3, hax4])).conj
  have daxy := Denotes.leaf dim s.axy [[108], [85], [83], [58], [55]] (by simp [gdim, haxy])
  have daxyc := (Denotes.leaf dim s.axy [[Spec.bra os 4], [86], [84], [59], [56]] (by simp [gdim, haxy, b4, haxy1, haxy2, haxy3, haxy4])).conj
  have daxw := Denotes.leaf dim s.axw [[110], [58], [53], [42], [43]] (by simp [gdim, haxw])
  have daxwc := (Denotes.leaf dim s.axw [[Spec.bra os 5], [59], [54], [44], [45]] (by simp [gdim, haxw, b5, haxw1, haxw2, haxw3, haxw4])).conj
  clear hb
  have net1 := (OpsNet.cons (l := [0, 1]) dC1 (OpsNet.cons (l := [1, 2, 5, 13]) dT1 (OpsNet.cons (l := [0, 18, 3, 6]) dT4 (OpsNet.cons (l := [100, 2, 3, 19, 14]) da (OpsNet.cons (l := [Spec.bra os 0, 5, 6, 20, 15]) dac (OpsNet.cons (l := [13, 9, 11, 7]) dT1x (OpsNet.cons (l := [7, 8]) dC2 (OpsNet.cons (l := [8, 10, 12, 87]) dT2x (OpsNet.cons (l := [106, 9, 14, 85, 10]) dax (OpsNet.cons (l := [Spec.bra os 3, 11, 15, 86, 12]) daxc OpsNet.nil))))))))))
  have net2 := (OpsNet.cons (l := [42, 44, 52, 40]) dT3xw (OpsNet.cons (l := [41, 40]) dC3 (OpsNet.cons (l := [57, 43, 45, 41]) dT2xw (OpsNet.cons (l := [110, 58, 53, 42, 43]) daxw (OpsNet.cons (l := [Spec.bra os 5, 59, 54, 44, 45]) daxwc (OpsNet.cons (l := [80, 47, 48, 50]) dT4w (OpsNet.cons (l := [47, 46]) dC4 (OpsNet.cons (l := [49, 51, 46, 52]) dT3w (OpsNet.cons (l := [104, 81, 48, 49, 53]) daw (OpsNet.cons (l := [Spec.bra os 2, 82, 50, 51, 54]) dawc OpsNet.nil))))))))))
  have netm := (OpsNet.cons (l := [18, 80, 16, 17]) dT4y (OpsNet.cons (l := [102, 19, 16, 81, 83]) day (OpsNet.cons (l := [Spec.bra os 1, 20, 17, 82, 84]) dayc (OpsNet.cons (l := [87, 55, 56, 57]) dT2xy (OpsNet.cons (l := [108, 85, 83, 58, 55]) daxy (OpsNet.cons (l := [Spec.bra os 4, 86, 84, 59, 56]) daxyc OpsNet.nil))))))
  obtain ⟨F1, hF1⟩ : ∃ F1 : (Nat → Nat) → K, F1 = fun σ => e.C1.val [σ 0, σ 1] * e.T1.val [σ 1, Corner.Spec.fused dim σ 2 5, σ 13] * e.T4.val [σ 0, σ 18, Corner.Spec.fused dim σ 3 6] * s.a.val [σ 100, σ 2, σ 3, σ 19, σ 14] * star (s.a.val [σ (Spec.bra os 0), σ 5, σ 6, σ 20, σ 15]) * e.T1x.val [σ 13, Corner.Spec.fused dim σ 9 11, σ 7] * e.C2.val [σ 7, σ 8] * e.T2x.val [σ 8, Corner.Spec.fused dim σ 10 12, σ 87] * s.ax.val [σ 106, σ 9, σ 14, σ 85, σ 10] * star (s.ax.val [σ (Spec.bra os 3), σ 11, σ 15, σ 86, σ 12]) := ⟨_, rfl⟩
  obtain ⟨F2, hF2⟩ : ∃ F2 : (Nat → Nat) → K, F2 = fun σ => e.T3xw.val [Corner.Spec.fused dim σ 42 44, σ 52, σ 40] * e.C3.val [σ 41, σ 40] * e.T2xw.val [σ 57, Corner.Spec.fused dim σ 43 45, σ 41] * s.axw.val [σ 110, σ 58, σ 53, σ 42, σ 43] * star (s.axw.val [σ (Spec.bra os 5), σ 59, σ 54, σ 44, σ 45]) * e.T4w.val [σ 80, σ 47, Corner.Spec.fused dim σ 48 50] * e.C4.val [σ 47, σ 46] * e.T3w.val [Corner.Spec.fused dim σ 49 51, σ 46, σ 52] * s.aw.val [σ 104, σ 81, σ 48, σ 49, σ 53] * star (s.aw.val [σ (Spec.bra os 2), σ 82, σ 50, σ 51, σ 54]) := ⟨_, rfl⟩
  obtain ⟨Fm, hFm⟩ : ∃ Fm : (Nat → Nat) → K, Fm = fun σ => e.T4y.val [σ 18, σ 80, Corner.Spec.fused dim σ 16 17] * s.ay.val [σ 102, σ 19, σ 16, σ 81, σ 83] * star (s.ay.val [σ (Spec.bra os 1), σ 20, σ 17, σ 82, σ 84]) * e.T2xy.val [σ 87, Corner.Spec.fused dim σ 55 56, σ 57] * s.axy.val [σ 108, σ 85, σ 83, σ 58, σ 55] * star (s.axy.val [σ (Spec.bra os 4), σ 86, σ 84, σ 59, σ 56]) := ⟨_, rfl⟩
  have fin : ∀ R, Denotes dim R (singles (outLabels6 os [0, 1, 2, 3, 4, 5])) ((Spec.closed6 os).map (fun x => 100 + 2 * x) ++ Spec.inner32) [0, 1, 2, 3, 5, 6, 7, 8, 9, 10, 11, 12, 13, 14, 15, 16, 17, 18, 19, 20, 40, 41, 42, 43, 44, 45, 46, 47, 48, 49, 50, 51, 52, 53, 54, 55, 56, 57, 58, 59, 80, 81, 82, 83, 84, 85, 86, 87, 100, 101, 102, 103, 104, 105, 106, 107, 108, 109, 110, 111]
      (fun σ => F1 σ * (Fm σ * F2 σ)) → Denotes dim R (singles (outLabels6 os [0, 1, 2, 3, 4, 5])) ((Spec.closed6 os).map (fun x => 100 + 2 * x) ++ Spec.inner32) [0, 1, 2, 3, 5, 6, 7, 8, 9, 10, 11, 12, 13, 14, 15, 16, 17, 18, 19, 20, 40, 41, 42, 43, 44, 45, 46, 47, 48, 49, 50, 51, 52, 53, 54, 55, 56, 57, 58, 59, 80, 81, 82, 83, 84, 85, 86, 87, 100, 101, 102, 103, 104, 105, 106, 107, 108, 109, 110, 111]
      (Spec.rho32 dim e s (Spec.bra os)) := fun R q => q.congr (List.Perm.refl _) (fun _ h => h) (fun σ => by rw [hF1, hF2, hFm]; simp only [Spec.rho32]; ring)
  have key : ∃ R, (do
      let l ← einsum (t.first s ((physLabels6 os).getD · 0)) ([18, 19, 20, 85, 86, 87] ++ outLabels6 os [0, 3])
      let r ← einsum (t.second s ((physLabels6 os).getD · 0)) ([80, 81, 82, 58, 59, 57] ++ outLabels6 os [2, 5])
      einsum ((l, [18, 19, 20, 85, 86, 87] ++ outLabels6 os [0, 3]) :: (t.middle s ((physLabels6 os).getD · 0) ++ [(r, [80, 81, 82, 58, 59, 57] ++ outLabels6 os [2, 5])])) (outLabels6 os [0, 1, 2, 3, 4, 5])) = some R ∧ Denotes dim R (singles (outLabels6 os [0, 1, 2, 3, 4, 5])) ((Spec.closed6 os).map (fun x => 100 + 2 * x) ++ Spec.inner32) [0, 1, 2, 3, 5, 6, 7, 8, 9, 10, 11, 12, 13, 14, 15, 16, 17, 18, 19, 20, 40, 41, 42, 43, 44, 45, 46, 47, 48, 49, 50, 51, 52, 53, 54, 55, 56, 57, 58, 59, 80, 81, 82, 83, 84, 85, 86, 87, 100, 101, 102, 103, 104, 105, 106, 107, 108, 109, 110, 111]
      (fun σ => F1 σ * (Fm σ * F2 σ)) := by
    have n1 := OpsNet.fun_eq net1 (F' := F1) (by rw [hF1]; intro σ; simp only [List.map_cons, List.map_nil, gidx_single, mul_one, ← mul_assoc])
    have n2 := OpsNet.fun_eq net2 (F' := F2) (by rw [hF2]; intro σ; simp only [List.map_cons, List.map_nil, gidx_single, mul_one, ← mul_assoc])
    have nm := OpsNet.fun_eq netm (F' := Fm) (by rw [hFm]; intro σ; simp only [List.map_cons, List.map_nil, gidx_single, mul_one, ← mul_assoc])
    have hok : ∀ os ∈ [0, 1, 2, 3, 4, 5].sublists, halvesOK ([0, 1] ++ ([1, 2, 5, 13] ++ ([0, 18, 3, 6] ++ ([100, 2, 3, 19, 14] ++ ([Spec.bra os 0, 5, 6, 20, 15] ++ ([13, 9, 11, 7] ++ ([7, 8] ++ ([8, 10, 12, 87] ++ ([106, 9, 14, 85, 10] ++ ([Spec.bra os 3, 11, 15, 86, 12] ++ [])))))))))) ([0, 1] ++ ([1, 2, 5, 13] ++ ([0, 18, 3, 6] ++ ([100, 2, 3, 19, 14] ++ ([Spec.bra os 0, 5, 6, 20, 15] ++ ([13, 9, 11, 7] ++ ([7, 8] ++ ([8, 10, 12, 87] ++ ([106, 9, 14, 85, 10] ++ ([Spec.bra os 3, 11, 15, 86, 12] ++ [])))))))))) ([18, 19, 20, 85, 86, 87] ++ outLabels6 os [0, 3]) ([18, 80, 16, 17] ++ ([102, 19, 16, 81, 83] ++ ([Spec.bra os 1, 20, 17, 82, 84] ++ ([87, 55, 56, 57] ++ ([108, 85, 83, 58, 55] ++ ([Spec.bra os 4, 86, 84, 59, 56] ++ [])))))) ([18, 80, 16, 17] ++ ([102, 19, 16, 81, 83] ++ ([Spec.bra os 1, 20, 17, 82, 84] ++ ([87, 55, 56, 57] ++ ([108, 85, 83, 58, 55] ++ ([Spec.bra os 4, 86, 84, 59, 56] ++ [])))))) ([42, 44, 52, 40] ++ ([41, 40] ++ ([57, 43, 45, 41] ++ ([110, 58, 53, 42, 43] ++ ([Spec.bra os 5, 59, 54, 44, 45] ++ ([80, 47, 48, 50] ++ ([47, 46] ++ ([49, 51, 46, 52] ++ ([104, 81, 48, 49, 53] ++ ([Spec.bra os 2, 82, 50, 51, 54] ++ [])))))))))) ([42, 44, 52, 40] ++ ([41, 40] ++ ([57, 43, 45, 41] ++ ([110, 58, 53, 42, 43] ++ ([Spec.bra os 5, 59, 54, 44, 45] ++ ([80, 47, 48, 50] ++ ([47, 46] ++ ([49, 51, 46, 52] ++ ([104, 81, 48, 49, 53] ++ ([Spec.bra os 2, 82, 50, 51, 54] ++ [])))))))))) ([80, 81, 82, 58, 59, 57] ++ outLabels6 os [2, 5]) (outLabels6 os [0, 1, 2, 3, 4, 5])
      ((Spec.closed6 os).map (fun x => 100 + 2 * x) ++ Spec.inner32) [0, 1, 2, 3, 5, 6, 7, 8, 9, 10, 11, 12, 13, 14, 15, 16, 17, 18, 19, 20, 40, 41, 42, 43, 44, 45, 46, 47, 48, 49, 50, 51, 52, 53, 54, 55, 56, 57, 58, 59, 80, 81, 82, 83, 84, 85, 86, 87, 100, 101, 102, 103, 104, 105, 106, 107, 108, 109, 110, 111] = true := by decide +kernel
    obtain ⟨R, e1, q1⟩ := halves n1 nm n2 ([18, 19, 20, 85, 86, 87] ++ outLabels6 os [0, 3]) ([80, 81, 82, 58, 59, 57] ++ outLabels6 os [2, 5]) (outLabels6 os [0, 1, 2, 3, 4, 5]) _ _ (hok os hos)
    refine ⟨R, ?_, q1⟩
    rw [← e1]
    unfold Env32.first Env32.second Env32.middle
    simp only [t1, t2, t3, t4, List.cons_append, List.nil_append, physLabels6_0 hos, physLabels6_1 hos, physLabels6_2 hos, physLabels6_3 hos, physLabels6_4 hos, physLabels6_5 hos, physLabels6_6 hos, physLabels6_7 hos, physLabels6_8 hos, physLabels6_9 hos, physLabels6_10 hos, physLabels6_11 hos]
  obtain ⟨R, e1, q⟩ := key
  exact ⟨R, by unfold semi32; rw [et]; exact e1, fin R q⟩

end Verif.Rdm
