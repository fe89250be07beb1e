import Verif.Rdm.PlaqSpec
import Verif.Rdm.Networks
/-
The plaquette density matrices equal their networks (generated from the drawings).
-/
namespace Verif.Rdm
open Tensor Corner
set_option linter.unusedSimpArgs false
set_option linter.unusedVariables false
set_option linter.unusedSectionVars false
variable {K : Type} [RCLike K]

/-- The split environment tensors denote the original ones. -/
theorem split_denotes (dim : Nat → Nat) (e : PlaqEnv K) (s : PlaqSites K) (h : Spec.FitsP dim e s) :
    ∃ t, e.split s = some t ∧ t.C1 = e.C1 ∧ t.C2 = e.C2 ∧ t.C3 = e.C3 ∧ t.C4 = e.C4 ∧
      Denotes dim t.T1 [[1], [2], [5], [36]] [] [1, 2, 5, 36] (fun σ => e.T1.val [σ 1, Corner.Spec.fused dim σ 2 5, σ 36]) ∧
      Denotes dim t.T1x [[36], [20], [23], [18]] [] [36, 20, 23, 18] (fun σ => e.T1x.val [σ 36, Corner.Spec.fused dim σ 20 23, σ 18]) ∧
      Denotes dim t.T2xy [[33], [28], [31], [26]] [] [33, 28, 31, 26] (fun σ => e.T2xy.val [σ 33, Corner.Spec.fused dim σ 28 31, σ 26]) ∧
      Denotes dim t.T2x [[19], [21], [24], [33]] [] [19, 21, 24, 33] (fun σ => e.T2x.val [σ 19, Corner.Spec.fused dim σ 21 24, σ 33]) ∧
      Denotes dim t.T3xy [[29], [32], [41], [27]] [] [29, 32, 41, 27] (fun σ => e.T3xy.val [Corner.Spec.fused dim σ 29 32, σ 41, σ 27]) ∧
      Denotes dim t.T3y [[10], [13], [7], [41]] [] [10, 13, 7, 41] (fun σ => e.T3y.val [Corner.Spec.fused dim σ 10 13, σ 7, σ 41]) ∧
      Denotes dim t.T4 [[0], [15], [3], [6]] [] [0, 15, 3, 6] (fun σ => e.T4.val [σ 0, σ 15, Corner.Spec.fused dim σ 3 6]) ∧
      Denotes dim t.T4y [[15], [8], [9], [12]] [] [15, 8, 9, 12] (fun σ => e.T4y.val [σ 15, σ 8, Corner.Spec.fused dim σ 9 12]) := by
  obtain ⟨hC1, hT1, hT4, hT4y, hC4, hT3y, hT1x, hC2, hT2x, hT2xy, hC3, hT3xy, ha, ha0, ha1, ha2, ha3, ha4, hax, hax0, hax1, hax2, hax3, hax4, hay, hay0, hay1, hay2, hay3, hay4, haxy, haxy0, haxy1, haxy2, haxy3, haxy4⟩ := h
  have dT1 := Denotes.leaf dim e.T1 [[1], [2, 5], [36]] (by simp [gdim, hT1])
  have dT1x := Denotes.leaf dim e.T1x [[36], [20, 23], [18]] (by simp [gdim, hT1x])
  have dT2xy := Denotes.leaf dim e.T2xy [[33], [28, 31], [26]] (by simp [gdim, hT2xy])
  have dT2x := Denotes.leaf dim e.T2x [[19], [21, 24], [33]] (by simp [gdim, hT2x])
  have dT3xy := Denotes.leaf dim e.T3xy [[29, 32], [41], [27]] (by simp [gdim, hT3xy])
  have dT3y := Denotes.leaf dim e.T3y [[10, 13], [7], [41]] (by simp [gdim, hT3y])
  have dT4 := Denotes.leaf dim e.T4 [[0], [15], [3, 6]] (by simp [gdim, hT4])
  have dT4y := Denotes.leaf dim e.T4y [[15], [8], [9, 12]] (by simp [gdim, hT4y])
  obtain ⟨x1, e1, q1⟩ := Denotes.view dT1 [[1], [2], [5], [36]] [e.T1.size 0, s.a.size 1, s.a.size 1, e.T1.size 2] (by decide) (by simp [size, gdim, pow_two, hT1, ha, hax, hay, haxy, ha0, ha1, ha2, ha3, ha4, hax0, hax1, hax2, hax3, hax4, hay0, hay1, hay2, hay3, hay4, haxy0, haxy1, haxy2, haxy3, haxy4])
  obtain ⟨x2, e2, q2⟩ := Denotes.view dT1x [[36], [20], [23], [18]] [e.T1x.size 0, s.ax.size 1, s.ax.size 1, e.T1x.size 2] (by decide) (by simp [size, gdim, pow_two, hT1x, ha, hax, hay, haxy, ha0, ha1, ha2, ha3, ha4, hax0, hax1, hax2, hax3, hax4, hay0, hay1, hay2, hay3, hay4, haxy0, haxy1, haxy2, haxy3, haxy4])
  obtain ⟨x3, e3, q3⟩ := Denotes.view dT2xy [[33], [28], [31], [26]] [e.T2xy.size 0, s.axy.size 4, s.axy.size 4, e.T2xy.size 2] (by decide) (by simp [size, gdim, pow_two, hT2xy, ha, hax, hay, haxy, ha0, ha1, ha2, ha3, ha4, hax0, hax1, hax2, hax3, hax4, hay0, hay1, hay2, hay3, hay4, haxy0, haxy1, haxy2, haxy3, haxy4])
  obtain ⟨x4, e4, q4⟩ := Denotes.view dT2x [[19], [21], [24], [33]] [e.T2x.size 0, s.ax.size 4, s.ax.size 4, e.T2x.size 2] (by decide) (by simp [size, gdim, pow_two, hT2x, ha, hax, hay, haxy, ha0, ha1, ha2, ha3, ha4, hax0, hax1, hax2, hax3, hax4, hay0, hay1, hay2, hay3, hay4, haxy0, haxy1, haxy2, haxy3, haxy4])
  obtain ⟨x5, e5, q5⟩ := Denotes.view dT3xy [[29], [32], [41], [27]] [s.axy.size 3, s.axy.size 3, e.T3xy.size 1, e.T3xy.size 2] (by decide) (by simp [size, gdim, pow_two, hT3xy, ha, hax, hay, haxy, ha0, ha1, ha2, ha3, ha4, hax0, hax1, hax2, hax3, hax4, hay0, hay1, hay2, hay3, hay4, haxy0, haxy1, haxy2, haxy3, haxy4])
  obtain ⟨x6, e6, q6⟩ := Denotes.view dT3y [[10], [13], [7], [41]] [s.ay.size 3, s.ay.size 3, e.T3y.size 1, e.T3y.size 2] (by decide) (by simp [size, gdim, pow_two, hT3y, ha, hax, hay, haxy, ha0, ha1, ha2, ha3, ha4, hax0, hax1, hax2, hax3, hax4, hay0, hay1, hay2, hay3, hay4, haxy0, haxy1, haxy2, haxy3, haxy4])
  obtain ⟨x7, e7, q7⟩ := Denotes.view dT4 [[0], [15], [3], [6]] [e.T4.size 0, e.T4.size 1, s.a.size 2, s.a.size 2] (by decide) (by simp [size, gdim, pow_two, hT4, ha, hax, hay, haxy, ha0, ha1, ha2, ha3, ha4, hax0, hax1, hax2, hax3, hax4, hay0, hay1, hay2, hay3, hay4, haxy0, haxy1, haxy2, haxy3, haxy4])
  obtain ⟨x8, e8, q8⟩ := Denotes.view dT4y [[15], [8], [9], [12]] [e.T4y.size 0, e.T4y.size 1, s.ay.size 2, s.ay.size 2] (by decide) (by simp [size, gdim, pow_two, hT4y, ha, hax, hay, haxy, ha0, ha1, ha2, ha3, ha4, hax0, hax1, hax2, hax3, hax4, hay0, hay1, hay2, hay3, hay4, haxy0, haxy1, haxy2, haxy3, haxy4])
  refine ⟨⟨e.C1, e.C2, e.C3, e.C4, x1, x7, x2, x4, x3, x5, x6, x8⟩, by simp [PlaqEnv.split, e1, e2, e3, e4, e5, e6, e7, e8], rfl, rfl, rfl, rfl, ?_, ?_, ?_, ?_, ?_, ?_, ?_, ?_⟩
  · exact q1.congr (List.Perm.refl _) (by decide) (fun σ => by simp only [List.map_cons, List.map_nil, gidx_single, fused_eq])
  · exact q2.congr (List.Perm.refl _) (by decide) (fun σ => by simp only [List.map_cons, List.map_nil, gidx_single, fused_eq])
  · exact q3.congr (List.Perm.refl _) (by decide) (fun σ => by simp only [List.map_cons, List.map_nil, gidx_single, fused_eq])
  · exact q4.congr (List.Perm.refl _) (by decide) (fun σ => by simp only [List.map_cons, List.map_nil, gidx_single, fused_eq])
  · exact q5.congr (List.Perm.refl _) (by decide) (fun σ => by simp only [List.map_cons, List.map_nil, gidx_single, fused_eq])
  · exact q6.congr (List.Perm.refl _) (by decide) (fun σ => by simp only [List.map_cons, List.map_nil, gidx_single, fused_eq])
  · exact q7.congr (List.Perm.refl _) (by decide) (fun σ => by simp only [List.map_cons, List.map_nil, gidx_single, fused_eq])
  · exact q8.congr (List.Perm.refl _) (by decide) (fun σ => by simp only [List.map_cons, List.map_nil, gidx_single, fused_eq])

/-- `rdm2x2_oe` for every set of open sites. -/
theorem oe2x2_denotes (dim : Nat → Nat) (e : PlaqEnv K) (s : PlaqSites K) (h : Spec.FitsP dim e s) (os : List Nat) (hos : os ∈ [0, 1, 2, 3].sublists) :
    ∃ R, oe2x2 e s os = some R ∧ Denotes dim R (singles (outLabels os)) ((Spec.closedSites os).map (fun x => 100 + 2 * x) ++ Spec.innerP) [0, 1, 2, 3, 5, 6, 7, 8, 9, 10, 12, 13, 15, 16, 17, 18, 19, 20, 21, 23, 24, 26, 27, 28, 29, 31, 32, 33, 34, 35, 36, 37, 38, 39, 40, 41, 100, 101, 102, 103, 104, 105, 106, 107]
      (Spec.rhoP dim e s (Spec.bra os)) := by
  obtain ⟨t, et, t1, t2, t3, t4, dT1, dT1x, dT2xy, dT2x, dT3xy, dT3y, dT4, dT4y⟩ := split_denotes dim e s h
  obtain ⟨hC1, hT1, hT4, hT4y, hC4, hT3y, hT1x, hC2, hT2x, hT2xy, hC3, hT3xy, ha, ha0, ha1, ha2, ha3, ha4, hax, hax0, hax1, hax2, hax3, hax4, hay, hay0, hay1, hay2, hay3, hay4, haxy, haxy0, haxy1, haxy2, haxy3, haxy4⟩ := h
  have hb : ∀ x, dim (100 + 2 * x + 1) = dim (100 + 2 * x) → dim (Spec.bra os x) = dim (100 + 2 * x) := by
    intro x hx; unfold Spec.bra; split
    · exact hx
    · rfl
  have b0 := hb 0 ha0
  have b1 := hb 1 hax0
  have b2 := hb 2 hay0
  have b3 := hb 3 haxy0
  simp only [Nat.mul_zero, Nat.add_zero, Nat.mul_one, Nat.reduceMul, Nat.reduceAdd] at b0 b1 b2 b3
  have dC1 := Denotes.leaf dim e.C1 [[0], [1]] (by simp [gdim, hC1])
  have dC2 := Denotes.leaf dim e.C2 [[18], [19]] (by simp [gdim, hC2])
  have dC3 := Denotes.leaf dim e.C3 [[26], [27]] (by simp [gdim, hC3])
  have dC4 := Denotes.leaf dim e.C4 [[8], [7]] (by simp [gdim, hC4])
  have da := Denotes.leaf dim s.a [[100], [2], [3], [16], [37]] (by simp [gdim, ha])
  have dac := (Denotes.leaf dim s.a [[Spec.bra os 0], [5], [6], [17], [38]] (by simp [gdim, ha, b0, ha1, ha2, ha3, ha4])).conj
  have dax := Denotes.leaf dim s.ax [[102], [20], [37], [34], [21]] (by simp [gdim, hax])
  have daxc := (Denotes.leaf dim s.ax [[Spec.bra os 1], [23], [38], [35], [24]] (by simp [gdim, hax, b1, hax1, hax2, hax3, hax4])).conj
  have day := Denotes.leaf dim s.ay [[104], [16], [9], [10], [39]] (by simp [gdim, hay])
  have dayc := (Denotes.leaf dim s.ay [[Spec.bra os 2], [17], [12], [13], [40]] (by simp [gdim, hay, b2, hay1, hay2, hay3, hay4])).conj
  have daxy := Denotes.leaf dim s.axy [[106], [34], [39], [29], [28]] (by simp [gdim, haxy])
  have daxyc := (Denotes.leaf dim s.axy [[Spec.bra os 3], [35], [40], [32], [31]] (by simp [gdim, haxy, b3, haxy1, haxy2, haxy3, haxy4])).conj
  have fin : ∀ R, Denotes dim R (singles (outLabels os)) ((Spec.closedSites os).map (fun x => 100 + 2 * x) ++ Spec.innerP) [0, 1, 2, 3, 5, 6, 7, 8, 9, 10, 12, 13, 15, 16, 17, 18, 19, 20, 21, 23, 24, 26, 27, 28, 29, 31, 32, 33, 34, 35, 36, 37, 38, 39, 40, 41, 100, 101, 102, 103, 104, 105, 106, 107]
      (fun σ => e.C1.val [σ 0, σ 1] * e.T1.val [σ 1, Corner.Spec.fused dim σ 2 5, σ 36] * e.T4.val [σ 0, σ 15, Corner.Spec.fused dim σ 3 6] * s.a.val [σ 100, σ 2, σ 3, σ 16, σ 37] * star (s.a.val [σ (Spec.bra os 0), σ 5, σ 6, σ 17, σ 38]) * e.T4y.val [σ 15, σ 8, Corner.Spec.fused dim σ 9 12] * e.C4.val [σ 8, σ 7] * e.T3y.val [Corner.Spec.fused dim σ 10 13, σ 7, σ 41] * s.ay.val [σ 104, σ 16, σ 9, σ 10, σ 39] * star (s.ay.val [σ (Spec.bra os 2), σ 17, σ 12, σ 13, σ 40]) * e.T1x.val [σ 36, Corner.Spec.fused dim σ 20 23, σ 18] * e.C2.val [σ 18, σ 19] * e.T2x.val [σ 19, Corner.Spec.fused dim σ 21 24, σ 33] * s.ax.val [σ 102, σ 20, σ 37, σ 34, σ 21] * star (s.ax.val [σ (Spec.bra os 1), σ 23, σ 38, σ 35, σ 24]) * e.T2xy.val [σ 33, Corner.Spec.fused dim σ 28 31, σ 26] * e.C3.val [σ 26, σ 27] * e.T3xy.val [Corner.Spec.fused dim σ 29 32, σ 41, σ 27] * s.axy.val [σ 106, σ 34, σ 39, σ 29, σ 28] * star (s.axy.val [σ (Spec.bra os 3), σ 35, σ 40, σ 32, σ 31])) → Denotes dim R (singles (outLabels os)) ((Spec.closedSites os).map (fun x => 100 + 2 * x) ++ Spec.innerP) [0, 1, 2, 3, 5, 6, 7, 8, 9, 10, 12, 13, 15, 16, 17, 18, 19, 20, 21, 23, 24, 26, 27, 28, 29, 31, 32, 33, 34, 35, 36, 37, 38, 39, 40, 41, 100, 101, 102, 103, 104, 105, 106, 107]
      (Spec.rhoP dim e s (Spec.bra os)) := fun R q => q.congr (List.Perm.refl _) (fun _ h => h) (fun σ => by simp only [Spec.rhoP]; ring)
  clear hb
  have key : ∃ R, einsum (t.operands s ((physLabels os).getD · 0)) (outLabels os) = some R ∧ Denotes dim R (singles (outLabels os))
      ((Spec.closedSites os).map (fun x => 100 + 2 * x) ++ Spec.innerP) [0, 1, 2, 3, 5, 6, 7, 8, 9, 10, 12, 13, 15, 16, 17, 18, 19, 20, 21, 23, 24, 26, 27, 28, 29, 31, 32, 33, 34, 35, 36, 37, 38, 39, 40, 41, 100, 101, 102, 103, 104, 105, 106, 107] (fun σ => e.C1.val [σ 0, σ 1] * e.T1.val [σ 1, Corner.Spec.fused dim σ 2 5, σ 36] * e.T4.val [σ 0, σ 15, Corner.Spec.fused dim σ 3 6] * s.a.val [σ 100, σ 2, σ 3, σ 16, σ 37] * star (s.a.val [σ (Spec.bra os 0), σ 5, σ 6, σ 17, σ 38]) * e.T4y.val [σ 15, σ 8, Corner.Spec.fused dim σ 9 12] * e.C4.val [σ 8, σ 7] * e.T3y.val [Corner.Spec.fused dim σ 10 13, σ 7, σ 41] * s.ay.val [σ 104, σ 16, σ 9, σ 10, σ 39] * star (s.ay.val [σ (Spec.bra os 2), σ 17, σ 12, σ 13, σ 40]) * e.T1x.val [σ 36, Corner.Spec.fused dim σ 20 23, σ 18] * e.C2.val [σ 18, σ 19] * e.T2x.val [σ 19, Corner.Spec.fused dim σ 21 24, σ 33] * s.ax.val [σ 102, σ 20, σ 37, σ 34, σ 21] * star (s.ax.val [σ (Spec.bra os 1), σ 23, σ 38, σ 35, σ 24]) * e.T2xy.val [σ 33, Corner.Spec.fused dim σ 28 31, σ 26] * e.C3.val [σ 26, σ 27] * e.T3xy.val [Corner.Spec.fused dim σ 29 32, σ 41, σ 27] * s.axy.val [σ 106, σ 34, σ 39, σ 29, σ 28] * star (s.axy.val [σ (Spec.bra os 3), σ 35, σ 40, σ 32, σ 31])) := by
    have net := (OpsNet.cons (l := [0, 1]) dC1 (OpsNet.cons (l := [1, 2, 5, 36]) dT1 (OpsNet.cons (l := [0, 15, 3, 6]) dT4 (OpsNet.cons (l := [100, 2, 3, 16, 37]) da (OpsNet.cons (l := [Spec.bra os 0, 5, 6, 17, 38]) dac (OpsNet.cons (l := [15, 8, 9, 12]) dT4y (OpsNet.cons (l := [8, 7]) dC4 (OpsNet.cons (l := [10, 13, 7, 41]) dT3y (OpsNet.cons (l := [104, 16, 9, 10, 39]) day (OpsNet.cons (l := [Spec.bra os 2, 17, 12, 13, 40]) dayc (OpsNet.cons (l := [36, 20, 23, 18]) dT1x (OpsNet.cons (l := [18, 19]) dC2 (OpsNet.cons (l := [19, 21, 24, 33]) dT2x (OpsNet.cons (l := [102, 20, 37, 34, 21]) dax (OpsNet.cons (l := [Spec.bra os 1, 23, 38, 35, 24]) daxc (OpsNet.cons (l := [33, 28, 31, 26]) dT2xy (OpsNet.cons (l := [26, 27]) dC3 (OpsNet.cons (l := [29, 32, 41, 27]) dT3xy (OpsNet.cons (l := [106, 34, 39, 29, 28]) daxy (OpsNet.cons (l := [Spec.bra os 3, 35, 40, 32, 31]) daxyc OpsNet.nil))))))))))))))))))))
    have key2 := Denotes.einsum' net (outLabels os)
    unfold PlaqEnv.operands
    rw [t1, t2, t3, t4]
    clear * - key2 hos
    fin_cases hos
    all_goals
      obtain ⟨R, e1, q1⟩ := key2 (by decide)
      exact ⟨R, e1, q1.congr (by decide) (by decide) (fun σ => by simp only [List.map_cons, List.map_nil, gidx_single]; ring)⟩
  obtain ⟨R, e1, q⟩ := key
  exact ⟨R, by unfold oe2x2; rw [et]; exact e1, fin R q⟩

end Verif.Rdm
