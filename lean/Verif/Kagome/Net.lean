import Verif.Kagome.Model
import Verif.Rdm.PlaqNet2
/-
The networks of the Kagome density matrices: every double-layer tensor is a leaf with one label per fused pair (ket, bra). The labels are those of
the drawing rdm.py L1597-L1616 without the labels of the bra; `100 + n` is the fused physical index of corner `n` (0 upper left, 1 upper right,
2 lower left, 3 lower right).
-/
namespace Verif.KagomeRdm
open Tensor Corner Rdm
set_option linter.unusedSimpArgs false
set_option linter.unusedVariables false
set_option linter.unusedSectionVars false
variable {K : Type} [RCLike K]

/-- The label of the open leg, if there is one. -/
def lab (o : Bool) (l : Nat) : List Nat := if o then [l] else []

theorem lu_denotes (dim : Nat → Nat) (C T1 T2 a : Tensor K) (o : Bool) (hC : C.shape = [dim 0, dim 1]) (hT1 : T1.shape = [dim 1, dim 2, dim 36])
    (hT2 : T2.shape = [dim 0, dim 15, dim 3]) (ha : a.shape = [dim 2, dim 3, dim 16, dim 37] ++ (lab o 100).map dim) :
    ∃ R, lu C T1 T2 a o = some R ∧ Denotes dim R ([[15, 16], [36, 37]] ++ singles (lab o 100)) [0, 1, 2, 3] [0, 1, 2, 3, 15, 16, 36, 37, 100]
      (fun σ => C.val [σ 0, σ 1] * T1.val [σ 1, σ 2, σ 36] * T2.val [σ 0, σ 15, σ 3] * a.val ([σ 2, σ 3, σ 16, σ 37] ++ (lab o 100).map σ)) := by
  have dC := Denotes.leaf dim C [[0], [1]] (by simp [hC])
  have dT1 := Denotes.leaf dim T1 [[1], [2], [36]] (by simp [hT1])
  have dT2 := Denotes.leaf dim T2 [[0], [15], [3]] (by simp [hT2])
  obtain ⟨x1, e1, q1⟩ := Denotes.tensordot dC dT1 [1] [0] (dotOK_iff (by decide))
  obtain ⟨x2, e2, q2⟩ := Denotes.tensordot q1 dT2 [0] [0] (dotOK_iff (by decide))
  cases o with
  | false =>
    have da := Denotes.leaf dim a [[2], [3], [16], [37]] (by simp [ha, lab])
    obtain ⟨x3, e3, q3⟩ := Denotes.tensordot q2 da [0, 3] [0, 1] (dotOK_iff (by decide))
    obtain ⟨x4, e4, q4⟩ := Denotes.permute q3 [1, 2, 0, 3] (by decide)
    obtain ⟨x5, e5, q5⟩ := Denotes.view q4 [[15, 16], [36, 37]] [T2.size 1 * a.size 2, T1.size 2 * a.size 3] (by decide) (by simp [size, gdim, hT1, hT2, ha, lab])
    refine ⟨x5, by simp [lu, leg, legSize, e1, e2, e3, e4, e5], Denotes.congr (O := [[15, 16], [36, 37]]) q5 (by decide) (by decide) ?_⟩
    intro σ
    simp [lab]
  | true =>
    have da := Denotes.leaf dim a [[2], [3], [16], [37], [100]] (by simp [ha, lab])
    obtain ⟨x3, e3, q3⟩ := Denotes.tensordot q2 da [0, 3] [0, 1] (dotOK_iff (by decide))
    obtain ⟨x4, e4, q4⟩ := Denotes.permute q3 [1, 2, 0, 3, 4] (by decide)
    obtain ⟨x5, e5, q5⟩ := Denotes.view q4 [[15, 16], [36, 37], [100]] [T2.size 1 * a.size 2, T1.size 2 * a.size 3, a.size 4] (by decide) (by simp [size, gdim, hT1, hT2, ha, lab])
    refine ⟨x5, by simp [lu, leg, legSize, e1, e2, e3, e4, e5], Denotes.congr (O := [[15, 16], [36, 37], [100]]) q5 (by decide) (by decide) ?_⟩
    intro σ
    simp [lab]

theorem ru_denotes (dim : Nat → Nat) (C T1 T2 a : Tensor K) (o : Bool) (hC : C.shape = [dim 18, dim 19]) (hT1 : T1.shape = [dim 19, dim 21, dim 33])
    (hT2 : T2.shape = [dim 36, dim 20, dim 18]) (ha : a.shape = [dim 20, dim 37, dim 34, dim 21] ++ (lab o 101).map dim) :
    ∃ R, ru C T1 T2 a o = some R ∧ Denotes dim R ([[36, 37], [33, 34]] ++ singles (lab o 101)) [18, 19, 20, 21] [18, 19, 20, 21, 33, 34, 36, 37, 101]
      (fun σ => C.val [σ 18, σ 19] * T1.val [σ 19, σ 21, σ 33] * T2.val [σ 36, σ 20, σ 18] * a.val ([σ 20, σ 37, σ 34, σ 21] ++ (lab o 101).map σ)) := by
  have dC := Denotes.leaf dim C [[18], [19]] (by simp [hC])
  have dT1 := Denotes.leaf dim T1 [[19], [21], [33]] (by simp [hT1])
  have dT2 := Denotes.leaf dim T2 [[36], [20], [18]] (by simp [hT2])
  obtain ⟨x1, e1, q1⟩ := Denotes.tensordot dC dT1 [1] [0] (dotOK_iff (by decide))
  obtain ⟨x2, e2, q2⟩ := Denotes.tensordot q1 dT2 [0] [2] (dotOK_iff (by decide))
  cases o with
  | false =>
    have da := Denotes.leaf dim a [[20], [37], [34], [21]] (by simp [ha, lab])
    obtain ⟨x3, e3, q3⟩ := Denotes.tensordot q2 da [0, 3] [3, 0] (dotOK_iff (by decide))
    obtain ⟨x4, e4, q4⟩ := Denotes.permute q3 [1, 2, 0, 3] (by decide)
    obtain ⟨x5, e5, q5⟩ := Denotes.view q4 [[36, 37], [33, 34]] [T2.size 0 * a.size 1, T1.size 2 * a.size 2] (by decide) (by simp [size, gdim, hT1, hT2, ha, lab])
    refine ⟨x5, by simp [ru, leg, legSize, e1, e2, e3, e4, e5], Denotes.congr (O := [[36, 37], [33, 34]]) q5 (by decide) (by decide) ?_⟩
    intro σ
    simp [lab]
  | true =>
    have da := Denotes.leaf dim a [[20], [37], [34], [21], [101]] (by simp [ha, lab])
    obtain ⟨x3, e3, q3⟩ := Denotes.tensordot q2 da [0, 3] [3, 0] (dotOK_iff (by decide))
    obtain ⟨x4, e4, q4⟩ := Denotes.permute q3 [1, 2, 0, 3, 4] (by decide)
    obtain ⟨x5, e5, q5⟩ := Denotes.view q4 [[36, 37], [33, 34], [101]] [T2.size 0 * a.size 1, T1.size 2 * a.size 2, a.size 4] (by decide) (by simp [size, gdim, hT1, hT2, ha, lab])
    refine ⟨x5, by simp [ru, leg, legSize, e1, e2, e3, e4, e5], Denotes.congr (O := [[36, 37], [33, 34], [101]]) q5 (by decide) (by decide) ?_⟩
    intro σ
    simp [lab]

theorem rd_denotes (dim : Nat → Nat) (C T1 T2 a : Tensor K) (o : Bool) (hC : C.shape = [dim 26, dim 27]) (hT1 : T1.shape = [dim 29, dim 41, dim 27])
    (hT2 : T2.shape = [dim 33, dim 28, dim 26]) (ha : a.shape = [dim 34, dim 39, dim 29, dim 28] ++ (lab o 103).map dim) :
    ∃ R, rd C T1 T2 a o = some R ∧ Denotes dim R ([[33, 34], [41, 39]] ++ singles (lab o 103)) [26, 27, 28, 29] [26, 27, 28, 29, 33, 34, 39, 41, 103]
      (fun σ => C.val [σ 26, σ 27] * T1.val [σ 29, σ 41, σ 27] * T2.val [σ 33, σ 28, σ 26] * a.val ([σ 34, σ 39, σ 29, σ 28] ++ (lab o 103).map σ)) := by
  have dC := Denotes.leaf dim C [[26], [27]] (by simp [hC])
  have dT1 := Denotes.leaf dim T1 [[29], [41], [27]] (by simp [hT1])
  have dT2 := Denotes.leaf dim T2 [[33], [28], [26]] (by simp [hT2])
  obtain ⟨x1, e1, q1⟩ := Denotes.tensordot dC dT1 [1] [2] (dotOK_iff (by decide))
  obtain ⟨x2, e2, q2⟩ := Denotes.tensordot q1 dT2 [0] [2] (dotOK_iff (by decide))
  cases o with
  | false =>
    have da := Denotes.leaf dim a [[34], [39], [29], [28]] (by simp [ha, lab])
    obtain ⟨x3, e3, q3⟩ := Denotes.tensordot q2 da [0, 3] [2, 3] (dotOK_iff (by decide))
    obtain ⟨x4, e4, q4⟩ := Denotes.permute q3 [1, 2, 0, 3] (by decide)
    obtain ⟨x5, e5, q5⟩ := Denotes.view q4 [[33, 34], [41, 39]] [T2.size 0 * a.size 0, T1.size 1 * a.size 1] (by decide) (by simp [size, gdim, hT1, hT2, ha, lab])
    refine ⟨x5, by simp [rd, leg, legSize, e1, e2, e3, e4, e5], Denotes.congr (O := [[33, 34], [41, 39]]) q5 (by decide) (by decide) ?_⟩
    intro σ
    simp [lab]
  | true =>
    have da := Denotes.leaf dim a [[34], [39], [29], [28], [103]] (by simp [ha, lab])
    obtain ⟨x3, e3, q3⟩ := Denotes.tensordot q2 da [0, 3] [2, 3] (dotOK_iff (by decide))
    obtain ⟨x4, e4, q4⟩ := Denotes.permute q3 [1, 2, 0, 3, 4] (by decide)
    obtain ⟨x5, e5, q5⟩ := Denotes.view q4 [[33, 34], [41, 39], [103]] [T2.size 0 * a.size 0, T1.size 1 * a.size 1, a.size 4] (by decide) (by simp [size, gdim, hT1, hT2, ha, lab])
    refine ⟨x5, by simp [rd, leg, legSize, e1, e2, e3, e4, e5], Denotes.congr (O := [[33, 34], [41, 39], [103]]) q5 (by decide) (by decide) ?_⟩
    intro σ
    simp [lab]

theorem ld_denotes (dim : Nat → Nat) (C T1 T2 a : Tensor K) (o : Bool) (hC : C.shape = [dim 8, dim 7]) (hT1 : T1.shape = [dim 15, dim 8, dim 9])
    (hT2 : T2.shape = [dim 10, dim 7, dim 41]) (ha : a.shape = [dim 16, dim 9, dim 10, dim 39] ++ (lab o 102).map dim) :
    ∃ R, ld C T1 T2 a o = some R ∧ Denotes dim R ([[15, 16], [41, 39]] ++ singles (lab o 102)) [7, 8, 9, 10] [7, 8, 9, 10, 15, 16, 39, 41, 102]
      (fun σ => C.val [σ 8, σ 7] * T1.val [σ 15, σ 8, σ 9] * T2.val [σ 10, σ 7, σ 41] * a.val ([σ 16, σ 9, σ 10, σ 39] ++ (lab o 102).map σ)) := by
  have dC := Denotes.leaf dim C [[8], [7]] (by simp [hC])
  have dT1 := Denotes.leaf dim T1 [[15], [8], [9]] (by simp [hT1])
  have dT2 := Denotes.leaf dim T2 [[10], [7], [41]] (by simp [hT2])
  obtain ⟨x1, e1, q1⟩ := Denotes.tensordot dC dT1 [0] [1] (dotOK_iff (by decide))
  obtain ⟨x2, e2, q2⟩ := Denotes.tensordot q1 dT2 [0] [1] (dotOK_iff (by decide))
  cases o with
  | false =>
    have da := Denotes.leaf dim a [[16], [9], [10], [39]] (by simp [ha, lab])
    obtain ⟨x3, e3, q3⟩ := Denotes.tensordot q2 da [1, 2] [1, 2] (dotOK_iff (by decide))
    obtain ⟨x4, e4, q4⟩ := Denotes.permute q3 [0, 2, 1, 3] (by decide)
    obtain ⟨x5, e5, q5⟩ := Denotes.view q4 [[15, 16], [41, 39]] [T1.size 0 * a.size 0, T2.size 2 * a.size 3] (by decide) (by simp [size, gdim, hT1, hT2, ha, lab])
    refine ⟨x5, by simp [ld, leg, legSize, e1, e2, e3, e4, e5], Denotes.congr (O := [[15, 16], [41, 39]]) q5 (by decide) (by decide) ?_⟩
    intro σ
    simp [lab]
  | true =>
    have da := Denotes.leaf dim a [[16], [9], [10], [39], [102]] (by simp [ha, lab])
    obtain ⟨x3, e3, q3⟩ := Denotes.tensordot q2 da [1, 2] [1, 2] (dotOK_iff (by decide))
    obtain ⟨x4, e4, q4⟩ := Denotes.permute q3 [0, 2, 1, 3, 4] (by decide)
    obtain ⟨x5, e5, q5⟩ := Denotes.view q4 [[15, 16], [41, 39], [102]] [T1.size 0 * a.size 0, T2.size 2 * a.size 3, a.size 4] (by decide) (by simp [size, gdim, hT1, hT2, ha, lab])
    refine ⟨x5, by simp [ld, leg, legSize, e1, e2, e3, e4, e5], Denotes.congr (O := [[15, 16], [41, 39], [102]]) q5 (by decide) (by decide) ?_⟩
    intro σ
    simp [lab]

/-- The inner labels of the plaquette. -/
def innerF : List Nat := [0, 1, 2, 3, 7, 8, 9, 10, 15, 16, 18, 19, 20, 21, 26, 27, 28, 29, 33, 34, 36, 37, 39, 41]

theorem join2x2_denotes (dim : Nat → Nat) {LU RU RD LD : Tensor K} {FLU FRU FRD FLD : (Nat → Nat) → K} (o00 o10 o01 o11 : Bool)
    (hLU : Denotes dim LU ([[15, 16], [36, 37]] ++ singles (lab o00 100)) [0, 1, 2, 3] [0, 1, 2, 3, 15, 16, 36, 37, 100] FLU)
    (hRU : Denotes dim RU ([[36, 37], [33, 34]] ++ singles (lab o10 101)) [18, 19, 20, 21] [18, 19, 20, 21, 33, 34, 36, 37, 101] FRU)
    (hRD : Denotes dim RD ([[33, 34], [41, 39]] ++ singles (lab o11 103)) [26, 27, 28, 29] [26, 27, 28, 29, 33, 34, 39, 41, 103] FRD)
    (hLD : Denotes dim LD ([[15, 16], [41, 39]] ++ singles (lab o01 102)) [7, 8, 9, 10] [7, 8, 9, 10, 15, 16, 39, 41, 102] FLD) :
    ∃ R, join2x2 LU RU RD LD o00 o10 o01 o11 = some R ∧
      Denotes dim R (singles (lab o00 100 ++ lab o10 101 ++ lab o01 102 ++ lab o11 103)) innerF [0, 1, 2, 3, 7, 8, 9, 10, 15, 16, 18, 19, 20, 21, 26, 27, 28, 29, 33, 34, 36, 37, 39, 41, 100, 101, 102, 103]
        (fun σ => FLU σ * FRU σ * (FLD σ * FRD σ)) := by
  obtain ⟨u1, e1, q1⟩ := Denotes.tensordot hLU hRU [1] [0] (dotOK_iff (by cases o00 <;> cases o10 <;> decide))
  have hu : ∃ u, halfPerm o00 o10 u1 = some u ∧ Denotes dim u ([[15, 16], [33, 34]] ++ singles (lab o00 100 ++ lab o10 101)) [36, 37, 0, 1, 2, 3, 18, 19, 20, 21] [0, 1, 2, 3, 15, 16, 36, 37, 100, 18, 19, 20, 21, 33, 34, 36, 37, 101] (fun σ => FLU σ * FRU σ) := by
    cases o00 <;> cases o10
    · exact ⟨u1, rfl, Denotes.congr (O := [[15, 16], [33, 34]]) q1 (by decide) (by decide) (fun _ => rfl)⟩
    · exact ⟨u1, rfl, Denotes.congr (O := [[15, 16], [33, 34], [101]]) q1 (by decide) (by decide) (fun _ => rfl)⟩
    · obtain ⟨u, e, q⟩ := Denotes.permute q1 [0, 2, 1] (by decide)
      exact ⟨u, by simpa [halfPerm] using e, Denotes.congr (O := [[15, 16], [33, 34], [100]]) q (by decide) (by decide) (fun _ => rfl)⟩
    · obtain ⟨u, e, q⟩ := Denotes.permute q1 [0, 2, 1, 3] (by decide)
      exact ⟨u, by simpa [halfPerm] using e, Denotes.congr (O := [[15, 16], [33, 34], [100], [101]]) q (by decide) (by decide) (fun _ => rfl)⟩
  obtain ⟨u, e2, q2⟩ := hu
  obtain ⟨l1, e3, q3⟩ := Denotes.tensordot hLD hRD [1] [1] (dotOK_iff (by cases o01 <;> cases o11 <;> decide))
  have hl : ∃ l, halfPerm o01 o11 l1 = some l ∧ Denotes dim l ([[15, 16], [33, 34]] ++ singles (lab o01 102 ++ lab o11 103)) [41, 39, 7, 8, 9, 10, 26, 27, 28, 29] [7, 8, 9, 10, 15, 16, 39, 41, 102, 26, 27, 28, 29, 33, 34, 39, 41, 103] (fun σ => FLD σ * FRD σ) := by
    cases o01 <;> cases o11
    · exact ⟨l1, rfl, Denotes.congr (O := [[15, 16], [33, 34]]) q3 (by decide) (by decide) (fun _ => rfl)⟩
    · exact ⟨l1, rfl, Denotes.congr (O := [[15, 16], [33, 34], [103]]) q3 (by decide) (by decide) (fun _ => rfl)⟩
    · obtain ⟨u, e, q⟩ := Denotes.permute q3 [0, 2, 1] (by decide)
      exact ⟨u, by simpa [halfPerm] using e, Denotes.congr (O := [[15, 16], [33, 34], [102]]) q (by decide) (by decide) (fun _ => rfl)⟩
    · obtain ⟨u, e, q⟩ := Denotes.permute q3 [0, 2, 1, 3] (by decide)
      exact ⟨u, by simpa [halfPerm] using e, Denotes.congr (O := [[15, 16], [33, 34], [102], [103]]) q (by decide) (by decide) (fun _ => rfl)⟩
  obtain ⟨l, e4, q4⟩ := hl
  obtain ⟨x, e5, q5⟩ := Denotes.tensordot q2 q4 [0, 1] [0, 1] (dotOK_iff (by cases o00 <;> cases o10 <;> cases o01 <;> cases o11 <;> decide))
  refine ⟨x, by simp [join2x2, e1, e2, e3, e4, e5], ?_⟩
  have hO : pick ([[15, 16], [33, 34]] ++ singles (lab o00 100 ++ lab o10 101)) (freeAxes ([[15, 16], [33, 34]] ++ singles (lab o00 100 ++ lab o10 101)).length [0, 1]) ++
      pick ([[15, 16], [33, 34]] ++ singles (lab o01 102 ++ lab o11 103)) (freeAxes ([[15, 16], [33, 34]] ++ singles (lab o01 102 ++ lab o11 103)).length [0, 1]) =
      singles (lab o00 100 ++ lab o10 101 ++ lab o01 102 ++ lab o11 103) := by
    cases o00 <;> cases o10 <;> cases o01 <;> cases o11 <;> rfl
  rw [hO] at q5
  exact Denotes.congr q5 (by cases o00 <;> cases o10 <;> cases o01 <;> cases o11 <;> decide) (by decide) (fun _ => rfl)

/-- `rdm2x2_legacy` (rdm.py L1362-L1592) in the same labels; `110 + n` is the physical index of the bra. -/
theorem legacy_fused (dim : Nat → Nat) (e : PlaqEnv K) (s : PlaqSites K) {A B D E : Tensor K} (eA : dlOpen s.a = some A) (eB : dlOpen s.ax = some B)
    (eD : dlOpen s.axy = some D) (eE : dlOpen s.ay = some E) (hC1 : e.C1.shape = [dim 0, dim 1]) (hT1 : e.T1.shape = [dim 1, dim 2, dim 36]) (hT4 : e.T4.shape = [dim 0, dim 15, dim 3])
    (hC2 : e.C2.shape = [dim 18, dim 19]) (hT2x : e.T2x.shape = [dim 19, dim 21, dim 33]) (hT1x : e.T1x.shape = [dim 36, dim 20, dim 18])
    (hC3 : e.C3.shape = [dim 26, dim 27]) (hT3xy : e.T3xy.shape = [dim 29, dim 41, dim 27]) (hT2xy : e.T2xy.shape = [dim 33, dim 28, dim 26])
    (hC4 : e.C4.shape = [dim 8, dim 7]) (hT4y : e.T4y.shape = [dim 15, dim 8, dim 9]) (hT3y : e.T3y.shape = [dim 10, dim 7, dim 41])
    (hA : A.shape = [dim 2, dim 3, dim 16, dim 37, dim 100, dim 110]) (hB : B.shape = [dim 20, dim 37, dim 34, dim 21, dim 101, dim 111]) (hD : D.shape = [dim 34, dim 39, dim 29, dim 28, dim 103, dim 113]) (hE : E.shape = [dim 16, dim 9, dim 10, dim 39, dim 102, dim 112])
    (h0 : s.a.size 0 = dim 100 ∧ dim 110 = dim 100) (h1 : s.ax.size 0 = dim 101 ∧ dim 111 = dim 101) (h2 : s.ay.size 0 = dim 102 ∧ dim 112 = dim 102) (h3 : s.axy.size 0 = dim 103 ∧ dim 113 = dim 103) :
    ∃ R, legacy2x2 e s = some R ∧ Denotes dim R (singles [100, 101, 102, 103, 110, 111, 112, 113]) innerF [0, 1, 2, 3, 7, 8, 9, 10, 15, 16, 18, 19, 20, 21, 26, 27, 28, 29, 33, 34, 36, 37, 39, 41, 100, 101, 102, 103, 110, 111, 112, 113]
      (fun σ => (e.C1.val [σ 0, σ 1] * e.T1.val [σ 1, σ 2, σ 36] * e.T4.val [σ 0, σ 15, σ 3] * A.val [σ 2, σ 3, σ 16, σ 37, σ 100, σ 110]) *
        (e.C2.val [σ 18, σ 19] * e.T2x.val [σ 19, σ 21, σ 33] * e.T1x.val [σ 36, σ 20, σ 18] * B.val [σ 20, σ 37, σ 34, σ 21, σ 101, σ 111]) *
        ((e.C4.val [σ 8, σ 7] * e.T4y.val [σ 15, σ 8, σ 9] * e.T3y.val [σ 10, σ 7, σ 41] * E.val [σ 16, σ 9, σ 10, σ 39, σ 102, σ 112]) *
        (e.C3.val [σ 26, σ 27] * e.T3xy.val [σ 29, σ 41, σ 27] * e.T2xy.val [σ 33, σ 28, σ 26] * D.val [σ 34, σ 39, σ 29, σ 28, σ 103, σ 113]))) := by
  have dC1 := Denotes.leaf dim e.C1 [[0], [1]] (by simp [hC1])
  have dT1 := Denotes.leaf dim e.T1 [[1], [2], [36]] (by simp [hT1])
  have dT4 := Denotes.leaf dim e.T4 [[0], [15], [3]] (by simp [hT4])
  have dC2 := Denotes.leaf dim e.C2 [[18], [19]] (by simp [hC2])
  have dT2x := Denotes.leaf dim e.T2x [[19], [21], [33]] (by simp [hT2x])
  have dT1x := Denotes.leaf dim e.T1x [[36], [20], [18]] (by simp [hT1x])
  have dC3 := Denotes.leaf dim e.C3 [[26], [27]] (by simp [hC3])
  have dT3xy := Denotes.leaf dim e.T3xy [[29], [41], [27]] (by simp [hT3xy])
  have dT2xy := Denotes.leaf dim e.T2xy [[33], [28], [26]] (by simp [hT2xy])
  have dC4 := Denotes.leaf dim e.C4 [[8], [7]] (by simp [hC4])
  have dT4y := Denotes.leaf dim e.T4y [[15], [8], [9]] (by simp [hT4y])
  have dT3y := Denotes.leaf dim e.T3y [[10], [7], [41]] (by simp [hT3y])
  have dA := Denotes.leaf dim A [[2], [3], [16], [37], [100], [110]] (by simp [hA])
  have dB := Denotes.leaf dim B [[20], [37], [34], [21], [101], [111]] (by simp [hB])
  have dD := Denotes.leaf dim D [[34], [39], [29], [28], [103], [113]] (by simp [hD])
  have dE := Denotes.leaf dim E [[16], [9], [10], [39], [102], [112]] (by simp [hE])
  obtain ⟨x1, e1, q1⟩ := Denotes.tensordot dC1 dT1 [1] [0] (dotOK_iff (by decide))
  obtain ⟨x2, e2, q2⟩ := Denotes.tensordot q1 dT4 [0] [0] (dotOK_iff (by decide))
  obtain ⟨x3, e3, q3⟩ := Denotes.tensordot q2 dA [0, 3] [0, 1] (dotOK_iff (by decide))
  obtain ⟨x4, e4, q4⟩ := Denotes.permute q3 [1, 2, 0, 3, 4, 5] (by decide)
  obtain ⟨x5, e5, q5⟩ := Denotes.view q4 [[15, 16], [36, 37], [100], [110]] [e.T4.size 1 * A.size 2, e.T1.size 2 * A.size 3, s.a.size 0, s.a.size 0] (by decide) (by simp only [show s.a.size 0 = dim 100 from h0.1, h1.1, h2.1, h3.1]; simp [size, gdim, hC1, hT1, hT4, hC2, hT2x, hT1x, hC3, hT3xy, hT2xy, hC4, hT4y, hT3y, hA, hB, hD, hE, h0.1, h1.1, h2.1, h3.1, h0.2, h1.2, h2.2, h3.2])
  obtain ⟨x6, e6, q6⟩ := Denotes.tensordot dC2 dT2x [1] [0] (dotOK_iff (by decide))
  obtain ⟨x7, e7, q7⟩ := Denotes.tensordot q6 dT1x [0] [2] (dotOK_iff (by decide))
  obtain ⟨x8, e8, q8⟩ := Denotes.tensordot q7 dB [0, 3] [3, 0] (dotOK_iff (by decide))
  obtain ⟨x9, e9, q9⟩ := Denotes.permute q8 [1, 2, 0, 3, 4, 5] (by decide)
  obtain ⟨x10, e10, q10⟩ := Denotes.view q9 [[36, 37], [33, 34], [101], [111]] [e.T1x.size 0 * B.size 1, e.T2x.size 2 * B.size 2, s.ax.size 0, s.ax.size 0] (by decide) (by simp only [show s.a.size 0 = dim 100 from h0.1, h1.1, h2.1, h3.1]; simp [size, gdim, hC1, hT1, hT4, hC2, hT2x, hT1x, hC3, hT3xy, hT2xy, hC4, hT4y, hT3y, hA, hB, hD, hE, h0.1, h1.1, h2.1, h3.1, h0.2, h1.2, h2.2, h3.2])
  obtain ⟨x11, e11, q11⟩ := Denotes.tensordot q5 q10 [1] [0] (dotOK_iff (by decide))
  obtain ⟨x12, e12, q12⟩ := Denotes.permute q11 [0, 3, 1, 2, 4, 5] (by decide)
  obtain ⟨x13, e13, q13⟩ := Denotes.tensordot dC3 dT3xy [1] [2] (dotOK_iff (by decide))
  obtain ⟨x14, e14, q14⟩ := Denotes.tensordot q13 dT2xy [0] [2] (dotOK_iff (by decide))
  obtain ⟨x15, e15, q15⟩ := Denotes.tensordot q14 dD [0, 3] [2, 3] (dotOK_iff (by decide))
  obtain ⟨x16, e16, q16⟩ := Denotes.permute q15 [1, 2, 0, 3, 4, 5] (by decide)
  obtain ⟨x17, e17, q17⟩ := Denotes.view q16 [[33, 34], [41, 39], [103], [113]] [e.T2xy.size 0 * D.size 0, e.T3xy.size 1 * D.size 1, s.axy.size 0, s.axy.size 0] (by decide) (by simp only [show s.a.size 0 = dim 100 from h0.1, h1.1, h2.1, h3.1]; simp [size, gdim, hC1, hT1, hT4, hC2, hT2x, hT1x, hC3, hT3xy, hT2xy, hC4, hT4y, hT3y, hA, hB, hD, hE, h0.1, h1.1, h2.1, h3.1, h0.2, h1.2, h2.2, h3.2])
  obtain ⟨x18, e18, q18⟩ := Denotes.tensordot dC4 dT4y [0] [1] (dotOK_iff (by decide))
  obtain ⟨x19, e19, q19⟩ := Denotes.tensordot q18 dT3y [0] [1] (dotOK_iff (by decide))
  obtain ⟨x20, e20, q20⟩ := Denotes.tensordot q19 dE [1, 2] [1, 2] (dotOK_iff (by decide))
  obtain ⟨x21, e21, q21⟩ := Denotes.permute q20 [0, 2, 1, 3, 4, 5] (by decide)
  obtain ⟨x22, e22, q22⟩ := Denotes.view q21 [[15, 16], [41, 39], [102], [112]] [e.T4y.size 0 * E.size 0, e.T3y.size 2 * E.size 3, s.ay.size 0, s.ay.size 0] (by decide) (by simp only [show s.a.size 0 = dim 100 from h0.1, h1.1, h2.1, h3.1]; simp [size, gdim, hC1, hT1, hT4, hC2, hT2x, hT1x, hC3, hT3xy, hT2xy, hC4, hT4y, hT3y, hA, hB, hD, hE, h0.1, h1.1, h2.1, h3.1, h0.2, h1.2, h2.2, h3.2])
  obtain ⟨x23, e23, q23⟩ := Denotes.tensordot q22 q17 [1] [1] (dotOK_iff (by decide))
  obtain ⟨x24, e24, q24⟩ := Denotes.permute q23 [0, 3, 1, 2, 4, 5] (by decide)
  obtain ⟨x25, e25, q25⟩ := Denotes.tensordot q12 q24 [0, 1] [0, 1] (dotOK_iff (by decide))
  obtain ⟨x26, e26, q26⟩ := Denotes.permute q25 [0, 2, 4, 6, 1, 3, 5, 7] (by decide)
  refine ⟨x26, by simp [legacy2x2, eA, eB, eD, eE, e1, e2, e3, e4, e5, e6, e7, e8, e9, e10, e11, e12, e13, e14, e15, e16, e17, e18, e19, e20, e21, e22, e23, e24, e25, e26], Denotes.congr (O := [[100], [101], [102], [103], [110], [111], [112], [113]]) q26 (by decide) (by decide) ?_⟩
  intro σ
  simp

end Verif.KagomeRdm
