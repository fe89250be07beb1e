import Verif.Kagome.Plaq2
/-
The networks of two site tensors in a row (`rdm2x1_kagome`) and in a column (`rdm1x2_kagome`), with the labels of Net.lean.
-/
namespace Verif.KagomeRdm
open Tensor Corner Rdm
set_option linter.unusedSimpArgs false
set_option linter.unusedVariables false
set_option linter.unusedSectionVars false
variable {K : Type} [RCLike K]

/-- The inner labels. -/
def innerH : List Nat := [0, 1, 2, 3, 7, 15, 16, 18, 19, 20, 21, 27, 33, 34, 36, 37, 41]

/-- The summand of the network. -/
def bodyH (e : PairEnv K) (f g : Nat → Nat → Nat → Nat → K) (σ : Nat → Nat) : K :=
  (e.C4.val [σ 15, σ 7] * e.T3.val [σ 16, σ 7, σ 41] * (e.C1.val [σ 0, σ 1] * e.T1.val [σ 1, σ 2, σ 36] * e.S.val [σ 0, σ 15, σ 3] * f (σ 2) (σ 3) (σ 16) (σ 37))) *
    (e.C3.val [σ 33, σ 27] * e.T3b.val [σ 34, σ 41, σ 27] * (e.C2.val [σ 18, σ 19] * e.Sb.val [σ 19, σ 21, σ 33] * e.T1b.val [σ 36, σ 20, σ 18] * g (σ 20) (σ 37) (σ 34) (σ 21)))

theorem dlH_fused (dim : Nat → Nat) (e : PairEnv K) {a b A B : Tensor K} (eA : dlOpen a = some A) (eB : dlOpen b = some B)
    (hC1 : e.C1.shape = [dim 0, dim 1]) (hT1 : e.T1.shape = [dim 1, dim 2, dim 36]) (hS : e.S.shape = [dim 0, dim 15, dim 3]) (hC4 : e.C4.shape = [dim 15, dim 7]) (hT3 : e.T3.shape = [dim 16, dim 7, dim 41]) (hC2 : e.C2.shape = [dim 18, dim 19]) (hSb : e.Sb.shape = [dim 19, dim 21, dim 33]) (hT1b : e.T1b.shape = [dim 36, dim 20, dim 18]) (hC3 : e.C3.shape = [dim 33, dim 27]) (hT3b : e.T3b.shape = [dim 34, dim 41, dim 27])
    (hA : A.shape = [dim 2, dim 3, dim 16, dim 37, dim 100, dim 110]) (hB : B.shape = [dim 20, dim 37, dim 34, dim 21, dim 101, dim 111])
    (h0 : a.size 0 = dim 100 ∧ dim 110 = dim 100) (h1 : b.size 0 = dim 101 ∧ dim 111 = dim 101) :
    ∃ R, dl2x1 e a b = some R ∧ Denotes dim R (singles [100, 101, 110, 111]) innerH [0, 1, 2, 3, 7, 15, 16, 18, 19, 20, 21, 27, 33, 34, 36, 37, 41, 100, 101, 110, 111]
      (fun σ => (e.C4.val [σ 15, σ 7] * e.T3.val [σ 16, σ 7, σ 41] * (e.C1.val [σ 0, σ 1] * e.T1.val [σ 1, σ 2, σ 36] * e.S.val [σ 0, σ 15, σ 3] * A.val [σ 2, σ 3, σ 16, σ 37, σ 100, σ 110])) *
    (e.C3.val [σ 33, σ 27] * e.T3b.val [σ 34, σ 41, σ 27] * (e.C2.val [σ 18, σ 19] * e.Sb.val [σ 19, σ 21, σ 33] * e.T1b.val [σ 36, σ 20, σ 18] * B.val [σ 20, σ 37, σ 34, σ 21, σ 101, σ 111]))) := by
  have dC1 := Denotes.leaf dim e.C1 [[0], [1]] (by simp [hC1])
  have dT1 := Denotes.leaf dim e.T1 [[1], [2], [36]] (by simp [hT1])
  have dS := Denotes.leaf dim e.S [[0], [15], [3]] (by simp [hS])
  have dC4 := Denotes.leaf dim e.C4 [[15], [7]] (by simp [hC4])
  have dT3 := Denotes.leaf dim e.T3 [[16], [7], [41]] (by simp [hT3])
  have dC2 := Denotes.leaf dim e.C2 [[18], [19]] (by simp [hC2])
  have dSb := Denotes.leaf dim e.Sb [[19], [21], [33]] (by simp [hSb])
  have dT1b := Denotes.leaf dim e.T1b [[36], [20], [18]] (by simp [hT1b])
  have dC3 := Denotes.leaf dim e.C3 [[33], [27]] (by simp [hC3])
  have dT3b := Denotes.leaf dim e.T3b [[34], [41], [27]] (by simp [hT3b])
  have dA := Denotes.leaf dim A [[2], [3], [16], [37], [100], [110]] (by simp [hA])
  have dB := Denotes.leaf dim B [[20], [37], [34], [21], [101], [111]] (by simp [hB])
  obtain ⟨x1, e1, q1⟩ := Denotes.tensordot dC1 dT1 [1] [0] (dotOK_iff (by decide))
  obtain ⟨x2, e2, q2⟩ := Denotes.tensordot q1 dS [0] [0] (dotOK_iff (by decide))
  obtain ⟨x3, e3, q3⟩ := Denotes.tensordot q2 dA [0, 3] [0, 1] (dotOK_iff (by decide))
  obtain ⟨x4, e4, q4⟩ := Denotes.permute q3 [1, 2, 0, 3, 4, 5] (by decide)
  obtain ⟨x5, e5, q5⟩ := Denotes.view q4 [[15, 16], [36, 37], [100], [110]] [e.S.size 1 * A.size 2, e.T1.size 2 * A.size 3, a.size 0, a.size 0] (by decide) (by rw [h0.1]; simp [size, gdim, hT1, hS, hA, h0.2])
  obtain ⟨y1, f1, r1⟩ := Denotes.tensordot dC4 dT3 [1] [1] (dotOK_iff (by decide))
  obtain ⟨y2, f2, r2⟩ := Denotes.view r1 [[15, 16], [41]] [e.C4.size 0 * e.T3.size 0, e.T3.size 2] (by decide) (by simp [size, gdim, hC4, hT3])
  obtain ⟨x6, e6, q6⟩ := Denotes.tensordot r2 q5 [0] [0] (dotOK_iff (by decide))
  obtain ⟨x7, e7, q7⟩ := Denotes.tensordot dC2 dSb [1] [0] (dotOK_iff (by decide))
  obtain ⟨x8, e8, q8⟩ := Denotes.tensordot q7 dT1b [0] [2] (dotOK_iff (by decide))
  obtain ⟨x9, e9, q9⟩ := Denotes.tensordot q8 dB [0, 3] [3, 0] (dotOK_iff (by decide))
  obtain ⟨x10, e10, q10⟩ := Denotes.permute q9 [1, 2, 0, 3, 4, 5] (by decide)
  obtain ⟨x11, e11, q11⟩ := Denotes.view q10 [[36, 37], [33, 34], [101], [111]] [e.T1b.size 0 * B.size 1, e.Sb.size 2 * B.size 2, b.size 0, b.size 0] (by decide) (by rw [h1.1]; simp [size, gdim, hT1b, hSb, hB, h1.2])
  obtain ⟨y3, f3, r3⟩ := Denotes.tensordot dC3 dT3b [1] [2] (dotOK_iff (by decide))
  obtain ⟨y4, f4, r4⟩ := Denotes.view r3 [[33, 34], [41]] [e.C3.size 0 * e.T3b.size 0, e.T3b.size 1] (by decide) (by simp [size, gdim, hC3, hT3b])
  obtain ⟨x12, e12, q12⟩ := Denotes.tensordot r4 q11 [0] [1] (dotOK_iff (by decide))
  obtain ⟨x13, e13, q13⟩ := Denotes.tensordot q6 q12 [0, 1] [0, 1] (dotOK_iff (by decide))
  obtain ⟨x14, e14, q14⟩ := Denotes.permute q13 [0, 2, 1, 3] (by decide)
  refine ⟨x14, by simp [dl2x1, eA, eB, e1, e2, e3, e4, e5, f1, f2, f3, f4, e6, e7, e8, e9, e10, e11, e12, e13, e14], Denotes.congr (O := singles [100, 101, 110, 111]) q14 (by decide) (by decide) ?_⟩
  intro σ
  simp

theorem joinH_denotes (dim : Nat → Nat) (e : PairEnv K) {LU RU : Tensor K} {F1 F2 : (Nat → Nat) → K} (o1 o2 : Bool)
    (hC4 : e.C4.shape = [dim 15, dim 7]) (hT3 : e.T3.shape = [dim 16, dim 7, dim 41]) (hC3 : e.C3.shape = [dim 33, dim 27]) (hT3b : e.T3b.shape = [dim 34, dim 41, dim 27])
    (h1 : Denotes dim LU ([[15, 16], [36, 37]] ++ singles (lab o1 100)) [0, 1, 2, 3] [0, 1, 2, 3, 15, 16, 36, 37, 100] F1)
    (h2 : Denotes dim RU ([[36, 37], [33, 34]] ++ singles (lab o2 101)) [18, 19, 20, 21] [18, 19, 20, 21, 33, 34, 36, 37, 101] F2) :
    ∃ y1 ld left y2 rd right X, tensordot [1] [1] e.C4 e.T3 = some y1 ∧ view [e.C4.size 0 * e.T3.size 0, e.T3.size 2] y1 = some ld ∧ tensordot [0] [0] ld LU = some left ∧
      tensordot [1] [2] e.C3 e.T3b = some y2 ∧ view [e.C3.size 0 * e.T3b.size 0, e.T3b.size 1] y2 = some rd ∧ tensordot [0] [1] rd RU = some right ∧ tensordot [0, 1] [0, 1] left right = some X ∧
      Denotes dim X (singles (lab o1 100 ++ lab o2 101)) innerH [0, 1, 2, 3, 7, 15, 16, 18, 19, 20, 21, 27, 33, 34, 36, 37, 41, 100, 101] (fun σ => e.C4.val [σ 15, σ 7] * e.T3.val [σ 16, σ 7, σ 41] * F1 σ * (e.C3.val [σ 33, σ 27] * e.T3b.val [σ 34, σ 41, σ 27] * F2 σ)) := by
  have dC4 := Denotes.leaf dim e.C4 [[15], [7]] (by simp [hC4])
  have dT3 := Denotes.leaf dim e.T3 [[16], [7], [41]] (by simp [hT3])
  have dC3 := Denotes.leaf dim e.C3 [[33], [27]] (by simp [hC3])
  have dT3b := Denotes.leaf dim e.T3b [[34], [41], [27]] (by simp [hT3b])
  obtain ⟨y1, f1, r1⟩ := Denotes.tensordot dC4 dT3 [1] [1] (dotOK_iff (by decide))
  obtain ⟨ld, f2, r2⟩ := Denotes.view r1 [[15, 16], [41]] [e.C4.size 0 * e.T3.size 0, e.T3.size 2] (by decide) (by simp [size, gdim, hC4, hT3])
  obtain ⟨left, f3, r3⟩ := Denotes.tensordot r2 h1 [0] [0] (dotOK_iff (by cases o1 <;> decide))
  obtain ⟨y2, f4, r4⟩ := Denotes.tensordot dC3 dT3b [1] [2] (dotOK_iff (by decide))
  obtain ⟨rd, f5, r5⟩ := Denotes.view r4 [[33, 34], [41]] [e.C3.size 0 * e.T3b.size 0, e.T3b.size 1] (by decide) (by simp [size, gdim, hC3, hT3b])
  obtain ⟨right, f6, r6⟩ := Denotes.tensordot r5 h2 [0] [1] (dotOK_iff (by cases o2 <;> decide))
  have hl : pick [[15, 16], [41]] (freeAxes [[15, 16], [41]].length [0]) ++ pick ([[15, 16], [36, 37]] ++ singles (lab o1 100)) (freeAxes ([[15, 16], [36, 37]] ++ singles (lab o1 100)).length [0]) = [[41], [36, 37]] ++ singles (lab o1 100) := by
    cases o1 <;> rfl
  have hr : pick [[33, 34], [41]] (freeAxes [[33, 34], [41]].length [0]) ++ pick ([[36, 37], [33, 34]] ++ singles (lab o2 101)) (freeAxes ([[36, 37], [33, 34]] ++ singles (lab o2 101)).length [1]) = [[41], [36, 37]] ++ singles (lab o2 101) := by
    cases o2 <;> rfl
  rw [hl] at r3
  rw [hr] at r6
  obtain ⟨X, f7, r7⟩ := Denotes.tensordot r3 r6 [0, 1] [0, 1] (dotOK_iff (by cases o1 <;> cases o2 <;> decide))
  have hO : pick ([[41], [36, 37]] ++ singles (lab o1 100)) (freeAxes ([[41], [36, 37]] ++ singles (lab o1 100)).length [0, 1]) ++ pick ([[41], [36, 37]] ++ singles (lab o2 101)) (freeAxes ([[41], [36, 37]] ++ singles (lab o2 101)).length [0, 1]) = singles (lab o1 100 ++ lab o2 101) := by
    cases o1 <;> cases o2 <;> rfl
  rw [hO] at r7
  exact ⟨y1, ld, left, y2, rd, right, X, f1, f2, f3, f4, f5, f6, f7, Denotes.congr r7 (by cases o1 <;> cases o2 <;> decide) (by decide) (fun σ => by simp)⟩

/-- The inner labels. -/
def innerV : List Nat := [0, 1, 2, 3, 7, 8, 9, 10, 15, 16, 19, 26, 33, 36, 37, 39, 41]

/-- The summand of the network. -/
def bodyV (e : PairEnv K) (f g : Nat → Nat → Nat → Nat → K) (σ : Nat → Nat) : K :=
  (e.C2.val [σ 36, σ 19] * e.T3.val [σ 19, σ 37, σ 33] * (e.C1.val [σ 0, σ 1] * e.S.val [σ 1, σ 2, σ 36] * e.T1.val [σ 0, σ 15, σ 3] * f (σ 2) (σ 3) (σ 16) (σ 37))) *
    (e.T3b.val [σ 33, σ 39, σ 26] * e.C3.val [σ 26, σ 41] * (e.C4.val [σ 8, σ 7] * e.T1b.val [σ 15, σ 8, σ 9] * e.Sb.val [σ 10, σ 7, σ 41] * g (σ 16) (σ 9) (σ 10) (σ 39)))

theorem dlV_fused (dim : Nat → Nat) (e : PairEnv K) {a b A B : Tensor K} (eA : dlOpen a = some A) (eB : dlOpen b = some B)
    (hC1 : e.C1.shape = [dim 0, dim 1]) (hS : e.S.shape = [dim 1, dim 2, dim 36]) (hT1 : e.T1.shape = [dim 0, dim 15, dim 3]) (hC2 : e.C2.shape = [dim 36, dim 19]) (hT3 : e.T3.shape = [dim 19, dim 37, dim 33]) (hC4 : e.C4.shape = [dim 8, dim 7]) (hT1b : e.T1b.shape = [dim 15, dim 8, dim 9]) (hSb : e.Sb.shape = [dim 10, dim 7, dim 41]) (hC3 : e.C3.shape = [dim 26, dim 41]) (hT3b : e.T3b.shape = [dim 33, dim 39, dim 26])
    (hA : A.shape = [dim 2, dim 3, dim 16, dim 37, dim 100, dim 110]) (hB : B.shape = [dim 16, dim 9, dim 10, dim 39, dim 102, dim 112])
    (h0 : a.size 0 = dim 100 ∧ dim 110 = dim 100) (h1 : b.size 0 = dim 102 ∧ dim 112 = dim 102) :
    ∃ R, dl1x2 e a b = some R ∧ Denotes dim R (singles [100, 102, 110, 112]) innerV [0, 1, 2, 3, 7, 8, 9, 10, 15, 16, 19, 26, 33, 36, 37, 39, 41, 100, 102, 110, 112]
      (fun σ => (e.C2.val [σ 36, σ 19] * e.T3.val [σ 19, σ 37, σ 33] * (e.C1.val [σ 0, σ 1] * e.S.val [σ 1, σ 2, σ 36] * e.T1.val [σ 0, σ 15, σ 3] * A.val [σ 2, σ 3, σ 16, σ 37, σ 100, σ 110])) *
    (e.T3b.val [σ 33, σ 39, σ 26] * e.C3.val [σ 26, σ 41] * (e.C4.val [σ 8, σ 7] * e.T1b.val [σ 15, σ 8, σ 9] * e.Sb.val [σ 10, σ 7, σ 41] * B.val [σ 16, σ 9, σ 10, σ 39, σ 102, σ 112]))) := by
  have dC1 := Denotes.leaf dim e.C1 [[0], [1]] (by simp [hC1])
  have dS := Denotes.leaf dim e.S [[1], [2], [36]] (by simp [hS])
  have dT1 := Denotes.leaf dim e.T1 [[0], [15], [3]] (by simp [hT1])
  have dC2 := Denotes.leaf dim e.C2 [[36], [19]] (by simp [hC2])
  have dT3 := Denotes.leaf dim e.T3 [[19], [37], [33]] (by simp [hT3])
  have dC4 := Denotes.leaf dim e.C4 [[8], [7]] (by simp [hC4])
  have dT1b := Denotes.leaf dim e.T1b [[15], [8], [9]] (by simp [hT1b])
  have dSb := Denotes.leaf dim e.Sb [[10], [7], [41]] (by simp [hSb])
  have dC3 := Denotes.leaf dim e.C3 [[26], [41]] (by simp [hC3])
  have dT3b := Denotes.leaf dim e.T3b [[33], [39], [26]] (by simp [hT3b])
  have dA := Denotes.leaf dim A [[2], [3], [16], [37], [100], [110]] (by simp [hA])
  have dB := Denotes.leaf dim B [[16], [9], [10], [39], [102], [112]] (by simp [hB])
  obtain ⟨x1, e1, q1⟩ := Denotes.tensordot dC1 dS [1] [0] (dotOK_iff (by decide))
  obtain ⟨x2, e2, q2⟩ := Denotes.tensordot q1 dT1 [0] [0] (dotOK_iff (by decide))
  obtain ⟨x3, e3, q3⟩ := Denotes.tensordot q2 dA [0, 3] [0, 1] (dotOK_iff (by decide))
  obtain ⟨x4, e4, q4⟩ := Denotes.permute q3 [1, 2, 0, 3, 4, 5] (by decide)
  obtain ⟨x5, e5, q5⟩ := Denotes.view q4 [[15, 16], [36, 37], [100], [110]] [e.T1.size 1 * A.size 2, e.S.size 2 * A.size 3, a.size 0, a.size 0] (by decide) (by rw [h0.1]; simp [size, gdim, hT1, hS, hA, h0.2])
  obtain ⟨y1, f1, r1⟩ := Denotes.tensordot dC2 dT3 [1] [0] (dotOK_iff (by decide))
  obtain ⟨y2, f2, r2⟩ := Denotes.view r1 [[36, 37], [33]] [e.C2.size 0 * e.T3.size 1, e.T3.size 2] (by decide) (by simp [size, gdim, hC2, hT3])
  obtain ⟨x6, e6, q6⟩ := Denotes.tensordot r2 q5 [0] [1] (dotOK_iff (by decide))
  obtain ⟨x7, e7, q7⟩ := Denotes.tensordot dC4 dT1b [0] [1] (dotOK_iff (by decide))
  obtain ⟨x8, e8, q8⟩ := Denotes.tensordot q7 dSb [0] [1] (dotOK_iff (by decide))
  obtain ⟨x9, e9, q9⟩ := Denotes.tensordot q8 dB [1, 2] [1, 2] (dotOK_iff (by decide))
  obtain ⟨x10, e10, q10⟩ := Denotes.permute q9 [0, 2, 1, 3, 4, 5] (by decide)
  obtain ⟨x11, e11, q11⟩ := Denotes.view q10 [[15, 16], [41, 39], [102], [112]] [e.T1b.size 0 * B.size 0, e.Sb.size 2 * B.size 3, b.size 0, b.size 0] (by decide) (by rw [h1.1]; simp [size, gdim, hT1b, hSb, hB, h1.2])
  obtain ⟨y3, f3, r3⟩ := Denotes.tensordot dT3b dC3 [2] [0] (dotOK_iff (by decide))
  obtain ⟨y4, f4, r4⟩ := Denotes.permute r3 [0, 2, 1] (by decide)
  obtain ⟨y5, f5, r5⟩ := Denotes.view r4 [[33], [41, 39]] [e.T3b.size 0, e.C3.size 1 * e.T3b.size 1] (by decide) (by simp [size, gdim, hC3, hT3b])
  obtain ⟨x12, e12, q12⟩ := Denotes.tensordot r5 q11 [1] [1] (dotOK_iff (by decide))
  obtain ⟨x13, e13, q13⟩ := Denotes.tensordot q6 q12 [0, 1] [0, 1] (dotOK_iff (by decide))
  obtain ⟨x14, e14, q14⟩ := Denotes.permute q13 [0, 2, 1, 3] (by decide)
  refine ⟨x14, by simp [dl1x2, eA, eB, e1, e2, e3, e4, e5, f1, f2, f3, f4, f5, e6, e7, e8, e9, e10, e11, e12, e13, e14], Denotes.congr (O := singles [100, 102, 110, 112]) q14 (by decide) (by decide) ?_⟩
  intro σ
  simp

theorem joinV_denotes (dim : Nat → Nat) (e : PairEnv K) {LU LD : Tensor K} {F1 F2 : (Nat → Nat) → K} (o1 o2 : Bool)
    (hC2 : e.C2.shape = [dim 36, dim 19]) (hT3 : e.T3.shape = [dim 19, dim 37, dim 33]) (hC3 : e.C3.shape = [dim 26, dim 41]) (hT3b : e.T3b.shape = [dim 33, dim 39, dim 26])
    (h1 : Denotes dim LU ([[15, 16], [36, 37]] ++ singles (lab o1 100)) [0, 1, 2, 3] [0, 1, 2, 3, 15, 16, 36, 37, 100] F1)
    (h2 : Denotes dim LD ([[15, 16], [41, 39]] ++ singles (lab o2 102)) [7, 8, 9, 10] [7, 8, 9, 10, 15, 16, 39, 41, 102] F2) :
    ∃ y1 ru up y2 y3 rd lo X, tensordot [1] [0] e.C2 e.T3 = some y1 ∧ view [e.C2.size 0 * e.T3.size 1, e.T3.size 2] y1 = some ru ∧ tensordot [0] [1] ru LU = some up ∧
      tensordot [2] [0] e.T3b e.C3 = some y2 ∧ permute [0, 2, 1] y2 = some y3 ∧ view [e.T3b.size 0, e.C3.size 1 * e.T3b.size 1] y3 = some rd ∧ tensordot [1] [1] rd LD = some lo ∧ tensordot [0, 1] [0, 1] up lo = some X ∧
      Denotes dim X (singles (lab o1 100 ++ lab o2 102)) innerV [0, 1, 2, 3, 7, 8, 9, 10, 15, 16, 19, 26, 33, 36, 37, 39, 41, 100, 102] (fun σ => e.C2.val [σ 36, σ 19] * e.T3.val [σ 19, σ 37, σ 33] * F1 σ * (e.T3b.val [σ 33, σ 39, σ 26] * e.C3.val [σ 26, σ 41] * F2 σ)) := by
  have dC2 := Denotes.leaf dim e.C2 [[36], [19]] (by simp [hC2])
  have dT3 := Denotes.leaf dim e.T3 [[19], [37], [33]] (by simp [hT3])
  have dC3 := Denotes.leaf dim e.C3 [[26], [41]] (by simp [hC3])
  have dT3b := Denotes.leaf dim e.T3b [[33], [39], [26]] (by simp [hT3b])
  obtain ⟨y1, f1, r1⟩ := Denotes.tensordot dC2 dT3 [1] [0] (dotOK_iff (by decide))
  obtain ⟨ru, f2, r2⟩ := Denotes.view r1 [[36, 37], [33]] [e.C2.size 0 * e.T3.size 1, e.T3.size 2] (by decide) (by simp [size, gdim, hC2, hT3])
  obtain ⟨up, f3, r3⟩ := Denotes.tensordot r2 h1 [0] [1] (dotOK_iff (by cases o1 <;> decide))
  obtain ⟨y2, f4, r4⟩ := Denotes.tensordot dT3b dC3 [2] [0] (dotOK_iff (by decide))
  obtain ⟨y3, f5, r5⟩ := Denotes.permute r4 [0, 2, 1] (by decide)
  obtain ⟨rd, f6, r6⟩ := Denotes.view r5 [[33], [41, 39]] [e.T3b.size 0, e.C3.size 1 * e.T3b.size 1] (by decide) (by simp [size, gdim, hC3, hT3b])
  obtain ⟨lo, f7, r7⟩ := Denotes.tensordot r6 h2 [1] [1] (dotOK_iff (by cases o2 <;> decide))
  have hl : pick [[36, 37], [33]] (freeAxes [[36, 37], [33]].length [0]) ++ pick ([[15, 16], [36, 37]] ++ singles (lab o1 100)) (freeAxes ([[15, 16], [36, 37]] ++ singles (lab o1 100)).length [1]) = [[33], [15, 16]] ++ singles (lab o1 100) := by
    cases o1 <;> rfl
  have hr : pick [[33], [41, 39]] (freeAxes [[33], [41, 39]].length [1]) ++ pick ([[15, 16], [41, 39]] ++ singles (lab o2 102)) (freeAxes ([[15, 16], [41, 39]] ++ singles (lab o2 102)).length [1]) = [[33], [15, 16]] ++ singles (lab o2 102) := by
    cases o2 <;> rfl
  rw [hl] at r3
  rw [hr] at r7
  obtain ⟨X, f8, r8⟩ := Denotes.tensordot r3 r7 [0, 1] [0, 1] (dotOK_iff (by cases o1 <;> cases o2 <;> decide))
  have hO : pick ([[33], [15, 16]] ++ singles (lab o1 100)) (freeAxes ([[33], [15, 16]] ++ singles (lab o1 100)).length [0, 1]) ++ pick ([[33], [15, 16]] ++ singles (lab o2 102)) (freeAxes ([[33], [15, 16]] ++ singles (lab o2 102)).length [0, 1]) = singles (lab o1 100 ++ lab o2 102) := by
    cases o1 <;> cases o2 <;> rfl
  rw [hO] at r8
  exact ⟨y1, ru, up, y2, y3, rd, lo, X, f1, f2, f3, f4, f5, f6, f7, f8, Denotes.congr r8 (by cases o1 <;> cases o2 <;> decide) (by decide) (fun σ => by simp)⟩

end Verif.KagomeRdm
