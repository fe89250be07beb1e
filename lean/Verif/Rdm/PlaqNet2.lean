import Verif.Rdm.PlaqNet
/-
The other contraction routes of the plaquette density matrices (generated from the drawings).
-/
namespace Verif.Rdm
open Tensor Corner
set_option linter.unusedSimpArgs false
set_option linter.unusedVariables false
set_option linter.unusedSectionVars false
variable {K : Type} [RCLike K]

/-- `rdm2x2_legacy`. -/
theorem legacy2x2_denotes (dim : Nat → Nat) (e : PlaqEnv K) (s : PlaqSites K) (h : Spec.FitsP dim e s) :
    ∃ R, legacy2x2 e s = some R ∧ Denotes dim R (singles (outLabels [0, 1, 2, 3])) Spec.innerP [0, 1, 2, 3, 5, 6, 7, 8, 9, 10, 12, 13, 15, 16, 17, 18, 19, 20, 21, 23, 24, 26, 27, 28, 29, 31, 32, 33, 34, 35, 36, 37, 38, 39, 40, 41, 100, 101, 102, 103, 104, 105, 106, 107] (Spec.rhoP dim e s (Spec.bra [0, 1, 2, 3])) := by
  obtain ⟨hC1, hT1, hT4, hT4y, hC4, hT3y, hT1x, hC2, hT2x, hT2xy, hC3, hT3xy, ha, ha0, ha1, ha2, ha3, ha4, hax, hax0, hax1, hax2, hax3, hax4, hay, hay0, hay1, hay2, hay3, hay4, haxy, haxy0, haxy1, haxy2, haxy3, haxy4⟩ := h
  have dC1 := Denotes.leaf dim e.C1 [[0], [1]] (by simp [gdim, hC1])
  have dT1 := Denotes.leaf dim e.T1 [[1], [2, 5], [36]] (by simp [gdim, hT1])
  have dT4 := Denotes.leaf dim e.T4 [[0], [15], [3, 6]] (by simp [gdim, hT4])
  have dT4y := Denotes.leaf dim e.T4y [[15], [8], [9, 12]] (by simp [gdim, hT4y])
  have dC4 := Denotes.leaf dim e.C4 [[8], [7]] (by simp [gdim, hC4])
  have dT3y := Denotes.leaf dim e.T3y [[10, 13], [7], [41]] (by simp [gdim, hT3y])
  have dT1x := Denotes.leaf dim e.T1x [[36], [20, 23], [18]] (by simp [gdim, hT1x])
  have dC2 := Denotes.leaf dim e.C2 [[18], [19]] (by simp [gdim, hC2])
  have dT2x := Denotes.leaf dim e.T2x [[19], [21, 24], [33]] (by simp [gdim, hT2x])
  have dT2xy := Denotes.leaf dim e.T2xy [[33], [28, 31], [26]] (by simp [gdim, hT2xy])
  have dC3 := Denotes.leaf dim e.C3 [[26], [27]] (by simp [gdim, hC3])
  have dT3xy := Denotes.leaf dim e.T3xy [[29, 32], [41], [27]] (by simp [gdim, hT3xy])
  obtain ⟨A, eA, dA⟩ := dlOpen_denotes dim s.a 100 2 3 16 37 5 6 17 38 101 (by decide) ha ha1 ha2 ha3 ha4 ha0
  have hA : A.shape = [dim 2 * dim 5, dim 3 * dim 6, dim 16 * dim 17, dim 37 * dim 38, dim 100, dim 101] := by simp [dA.shape, gdim]
  obtain ⟨B, eB, dB⟩ := dlOpen_denotes dim s.ax 102 20 37 34 21 23 38 35 24 103 (by decide) hax hax1 hax2 hax3 hax4 hax0
  have hB : B.shape = [dim 20 * dim 23, dim 37 * dim 38, dim 34 * dim 35, dim 21 * dim 24, dim 102, dim 103] := by simp [dB.shape, gdim]
  obtain ⟨D, eD, dD⟩ := dlOpen_denotes dim s.axy 106 34 39 29 28 35 40 32 31 107 (by decide) haxy haxy1 haxy2 haxy3 haxy4 haxy0
  have hD : D.shape = [dim 34 * dim 35, dim 39 * dim 40, dim 29 * dim 32, dim 28 * dim 31, dim 106, dim 107] := by simp [dD.shape, gdim]
  obtain ⟨E, eE, dE⟩ := dlOpen_denotes dim s.ay 104 16 9 10 39 17 12 13 40 105 (by decide) hay hay1 hay2 hay3 hay4 hay0
  have hE : E.shape = [dim 16 * dim 17, dim 9 * dim 12, dim 10 * dim 13, dim 39 * dim 40, dim 104, dim 105] := by simp [dE.shape, gdim]
  obtain ⟨x1, e1, q1⟩ := Denotes.tensordot dC1 dT1 [1] [0] (dotOK_iff (by decide))
  obtain ⟨x2, e2, q2⟩ := Denotes.tensordot q1 dT4 [0] [0] (dotOK_iff (by decide))
  obtain ⟨x3, e3, q3⟩ := Denotes.tensordot q2 dA [0, 3] [0, 1] (dotOK_iff (by decide))
  obtain ⟨x4, e4, q4⟩ := Denotes.permute q3 [1, 2, 0, 3, 4, 5] (by decide)
  obtain ⟨x5, e5, q5⟩ := Denotes.view q4 [[15, 16, 17], [36, 37, 38], [100], [101]] [e.T4.size 1 * A.size 2, e.T1.size 2 * A.size 3, s.a.size 0, s.a.size 0] (by decide) (by simp [size, gdim, pow_two, hC1, hT1, hT4, hT4y, hC4, hT3y, hT1x, hC2, hT2x, hT2xy, hC3, hT3xy, ha, ha0, ha1, ha2, ha3, ha4, hax, hax0, hax1, hax2, hax3, hax4, hay, hay0, hay1, hay2, hay3, hay4, haxy, haxy0, haxy1, haxy2, haxy3, haxy4, hA, hB, hD, hE, mul_assoc])
  obtain ⟨x6, e6, q6⟩ := Denotes.tensordot dC2 dT2x [1] [0] (dotOK_iff (by decide))
  obtain ⟨x7, e7, q7⟩ := Denotes.tensordot q6 dT1x [0] [2] (dotOK_iff (by decide))
  obtain ⟨x8, e8, q8⟩ := Denotes.tensordot q7 dB [0, 3] [3, 0] (dotOK_iff (by decide))
  obtain ⟨x9, e9, q9⟩ := Denotes.permute q8 [1, 2, 0, 3, 4, 5] (by decide)
  obtain ⟨x10, e10, q10⟩ := Denotes.view q9 [[36, 37, 38], [33, 34, 35], [102], [103]] [e.T1x.size 0 * B.size 1, e.T2x.size 2 * B.size 2, s.ax.size 0, s.ax.size 0] (by decide) (by simp [size, gdim, pow_two, hC1, hT1, hT4, hT4y, hC4, hT3y, hT1x, hC2, hT2x, hT2xy, hC3, hT3xy, ha, ha0, ha1, ha2, ha3, ha4, hax, hax0, hax1, hax2, hax3, hax4, hay, hay0, hay1, hay2, hay3, hay4, haxy, haxy0, haxy1, haxy2, haxy3, haxy4, hA, hB, hD, hE, mul_assoc])
  obtain ⟨x11, e11, q11⟩ := Denotes.tensordot q5 q10 [1] [0] (dotOK_iff (by decide))
  obtain ⟨x12, e12, q12⟩ := Denotes.permute q11 [0, 3, 1, 2, 4, 5] (by decide)
  obtain ⟨x13, e13, q13⟩ := Denotes.tensordot dC3 dT3xy [1] [2] (dotOK_iff (by decide))
  obtain ⟨x14, e14, q14⟩ := Denotes.tensordot q13 dT2xy [0] [2] (dotOK_iff (by decide))
  obtain ⟨x15, e15, q15⟩ := Denotes.tensordot q14 dD [0, 3] [2, 3] (dotOK_iff (by decide))
  obtain ⟨x16, e16, q16⟩ := Denotes.permute q15 [1, 2, 0, 3, 4, 5] (by decide)
  obtain ⟨x17, e17, q17⟩ := Denotes.view q16 [[33, 34, 35], [41, 39, 40], [106], [107]] [e.T2xy.size 0 * D.size 0, e.T3xy.size 1 * D.size 1, s.axy.size 0, s.axy.size 0] (by decide) (by simp [size, gdim, pow_two, hC1, hT1, hT4, hT4y, hC4, hT3y, hT1x, hC2, hT2x, hT2xy, hC3, hT3xy, ha, ha0, ha1, ha2, ha3, ha4, hax, hax0, hax1, hax2, hax3, hax4, hay, hay0, hay1, hay2, hay3, hay4, haxy, haxy0, haxy1, haxy2, haxy3, haxy4, hA, hB, hD, hE, mul_assoc])
  obtain ⟨x18, e18, q18⟩ := Denotes.tensordot dC4 dT4y [0] [1] (dotOK_iff (by decide))
  obtain ⟨x19, e19, q19⟩ := Denotes.tensordot q18 dT3y [0] [1] (dotOK_iff (by decide))
  obtain ⟨x20, e20, q20⟩ := Denotes.tensordot q19 dE [1, 2] [1, 2] (dotOK_iff (by decide))
  obtain ⟨x21, e21, q21⟩ := Denotes.permute q20 [0, 2, 1, 3, 4, 5] (by decide)
  obtain ⟨x22, e22, q22⟩ := Denotes.view q21 [[15, 16, 17], [41, 39, 40], [104], [105]] [e.T4y.size 0 * E.size 0, e.T3y.size 2 * E.size 3, s.ay.size 0, s.ay.size 0] (by decide) (by simp [size, gdim, pow_two, hC1, hT1, hT4, hT4y, hC4, hT3y, hT1x, hC2, hT2x, hT2xy, hC3, hT3xy, ha, ha0, ha1, ha2, ha3, ha4, hax, hax0, hax1, hax2, hax3, hax4, hay, hay0, hay1, hay2, hay3, hay4, haxy, haxy0, haxy1, haxy2, haxy3, haxy4, hA, hB, hD, hE, mul_assoc])
  obtain ⟨x23, e23, q23⟩ := Denotes.tensordot q22 q17 [1] [1] (dotOK_iff (by decide))
  obtain ⟨x24, e24, q24⟩ := Denotes.permute q23 [0, 3, 1, 2, 4, 5] (by decide)
  obtain ⟨x25, e25, q25⟩ := Denotes.tensordot q12 q24 [0, 1] [0, 1] (dotOK_iff (by decide))
  obtain ⟨x26, e26, q26⟩ := Denotes.permute q25 [0, 2, 4, 6, 1, 3, 5, 7] (by decide)
  refine ⟨x26, by simp [legacy2x2, eA, eB, eD, eE, e1, e2, e3, e4, e5, e6, e7, e8, e9, e10, e11, e12, e13, e14, e15, e16, e17, e18, e19, e20, e21, e22, e23, e24, e25, e26], Denotes.congr (O := [[100], [102], [104], [106], [101], [103], [105], [107]]) q26 (by decide) (by decide) ?_⟩
  intro σ
  have b0 : Spec.bra [0, 1, 2, 3] 0 = 101 := rfl
  have b1 : Spec.bra [0, 1, 2, 3] 1 = 103 := rfl
  have b2 : Spec.bra [0, 1, 2, 3] 2 = 105 := rfl
  have b3 : Spec.bra [0, 1, 2, 3] 3 = 107 := rfl
  simp only [Spec.rhoP, b0, b1, b2, b3, List.map_cons, List.map_nil, gidx_single, fused_eq]; ring

theorem lu_open (dim : Nat → Nat) (e : PlaqEnv K) (s : PlaqSites K) (h : Spec.FitsP dim e s) :
    ∃ R, luSl e.C1 e.T1 e.T4 s.a true = some R ∧ Denotes dim R [[15, 16, 17], [36, 37, 38], [100], [101]] [0, 1, 2, 5, 3, 6] [0, 1, 36, 15, 2, 5, 3, 6, 16, 17, 37, 38, 100, 101]
      (fun σ => e.C1.val [σ 0, σ 1] * e.T1.val [σ 1, Corner.Spec.fused dim σ 2 5, σ 36] * e.T4.val [σ 0, σ 15, Corner.Spec.fused dim σ 3 6] * (s.a.val [σ 100, σ 2, σ 3, σ 16, σ 37] * star (s.a.val [σ 101, σ 5, σ 6, σ 17, σ 38]))) := by
  obtain ⟨hC1, hT1, hT4, hT4y, hC4, hT3y, hT1x, hC2, hT2x, hT2xy, hC3, hT3xy, ha, ha0, ha1, ha2, ha3, ha4, hax, hax0, hax1, hax2, hax3, hax4, hay, hay0, hay1, hay2, hay3, hay4, haxy, haxy0, haxy1, haxy2, haxy3, haxy4⟩ := h
  obtain ⟨r, hr⟩ : ∃ r : Nat → Nat, r = fun l => [0, 1, 36, 15, 2, 5, 3, 6, 16, 17, 37, 38, 100, 101].getD l 0 := ⟨_, rfl⟩
  obtain ⟨R, e1, q⟩ := luSl_open (fun l => dim (r l)) e.C1 e.T1 e.T4 s.a ⟨by simp [hr, ha], by simp [hr, ha1], by simp [hr, ha2], by simp [hr, ha3], by simp [hr, ha4], by simp [hr, ha0]⟩
    (by simp [hr, hC1]) (by simp [hr, hT1]) (by simp [hr, hT4])
  have q2 := q.rename (dim' := dim) r [0, 1, 2, 3, 4, 5, 6, 7, 8, 9, 10, 11, 12, 13] (by rw [hr]; decide) (fun _ _ => rfl) (by decide) (by decide) (by decide)
  rw [hr] at q2
  refine ⟨R, e1, Denotes.congr (O := [[15, 16, 17], [36, 37, 38], [100], [101]]) q2 (by decide) (by decide) ?_⟩
  intro σ
  simp [Corner.Spec.lu, Corner.Spec.site, Corner.Spec.fused]

theorem lu_closed (dim : Nat → Nat) (e : PlaqEnv K) (s : PlaqSites K) (h : Spec.FitsP dim e s) :
    ∃ R, luSl e.C1 e.T1 e.T4 s.a false = some R ∧ Denotes dim R [[15, 16, 17], [36, 37, 38]] [0, 1, 2, 5, 3, 6, 100] [0, 1, 36, 15, 2, 5, 3, 6, 16, 17, 37, 38, 100]
      (fun σ => e.C1.val [σ 0, σ 1] * e.T1.val [σ 1, Corner.Spec.fused dim σ 2 5, σ 36] * e.T4.val [σ 0, σ 15, Corner.Spec.fused dim σ 3 6] * (s.a.val [σ 100, σ 2, σ 3, σ 16, σ 37] * star (s.a.val [σ 100, σ 5, σ 6, σ 17, σ 38]))) := by
  obtain ⟨hC1, hT1, hT4, hT4y, hC4, hT3y, hT1x, hC2, hT2x, hT2xy, hC3, hT3xy, ha, ha0, ha1, ha2, ha3, ha4, hax, hax0, hax1, hax2, hax3, hax4, hay, hay0, hay1, hay2, hay3, hay4, haxy, haxy0, haxy1, haxy2, haxy3, haxy4⟩ := h
  obtain ⟨r, hr⟩ : ∃ r : Nat → Nat, r = fun l => [0, 1, 36, 15, 2, 5, 3, 6, 16, 17, 37, 38, 100, 101].getD l 0 := ⟨_, rfl⟩
  obtain ⟨R, e1, q⟩ := luSl_closed (fun l => dim (r l)) e.C1 e.T1 e.T4 s.a ⟨by simp [hr, ha], by simp [hr, ha1], by simp [hr, ha2], by simp [hr, ha3], by simp [hr, ha4], by simp [hr, ha0]⟩
    (by simp [hr, hC1]) (by simp [hr, hT1]) (by simp [hr, hT4])
  have q2 := q.rename (dim' := dim) r [0, 1, 2, 3, 4, 5, 6, 7, 8, 9, 10, 11, 12] (by rw [hr]; decide) (fun _ _ => rfl) (by decide) (by decide) (by decide)
  rw [hr] at q2
  refine ⟨R, e1, Denotes.congr (O := [[15, 16, 17], [36, 37, 38]]) q2 (by decide) (by decide) ?_⟩
  intro σ
  simp [Corner.Spec.lu, Corner.Spec.site, Corner.Spec.fused]

theorem ru_open (dim : Nat → Nat) (e : PlaqEnv K) (s : PlaqSites K) (h : Spec.FitsP dim e s) :
    ∃ R, ruSl e.C2 e.T2x e.T1x s.ax true = some R ∧ Denotes dim R [[36, 37, 38], [33, 34, 35], [102], [103]] [18, 19, 20, 23, 21, 24] [18, 19, 33, 36, 20, 23, 37, 38, 34, 35, 21, 24, 102, 103]
      (fun σ => e.C2.val [σ 18, σ 19] * e.T2x.val [σ 19, Corner.Spec.fused dim σ 21 24, σ 33] * e.T1x.val [σ 36, Corner.Spec.fused dim σ 20 23, σ 18] * (s.ax.val [σ 102, σ 20, σ 37, σ 34, σ 21] * star (s.ax.val [σ 103, σ 23, σ 38, σ 35, σ 24]))) := by
  obtain ⟨hC1, hT1, hT4, hT4y, hC4, hT3y, hT1x, hC2, hT2x, hT2xy, hC3, hT3xy, ha, ha0, ha1, ha2, ha3, ha4, hax, hax0, hax1, hax2, hax3, hax4, hay, hay0, hay1, hay2, hay3, hay4, haxy, haxy0, haxy1, haxy2, haxy3, haxy4⟩ := h
  obtain ⟨r, hr⟩ : ∃ r : Nat → Nat, r = fun l => [18, 19, 33, 36, 20, 23, 37, 38, 34, 35, 21, 24, 102, 103].getD l 0 := ⟨_, rfl⟩
  obtain ⟨R, e1, q⟩ := ruSl_open (fun l => dim (r l)) e.C2 e.T2x e.T1x s.ax ⟨by simp [hr, hax], by simp [hr, hax1], by simp [hr, hax2], by simp [hr, hax3], by simp [hr, hax4], by simp [hr, hax0]⟩
    (by simp [hr, hC2]) (by simp [hr, hT2x]) (by simp [hr, hT1x])
  have q2 := q.rename (dim' := dim) r [0, 1, 2, 3, 4, 5, 6, 7, 8, 9, 10, 11, 12, 13] (by rw [hr]; decide) (fun _ _ => rfl) (by decide) (by decide) (by decide)
  rw [hr] at q2
  refine ⟨R, e1, Denotes.congr (O := [[36, 37, 38], [33, 34, 35], [102], [103]]) q2 (by decide) (by decide) ?_⟩
  intro σ
  simp [Corner.Spec.ru, Corner.Spec.site, Corner.Spec.fused]

theorem ru_closed (dim : Nat → Nat) (e : PlaqEnv K) (s : PlaqSites K) (h : Spec.FitsP dim e s) :
    ∃ R, ruSl e.C2 e.T2x e.T1x s.ax false = some R ∧ Denotes dim R [[36, 37, 38], [33, 34, 35]] [18, 19, 20, 23, 21, 24, 102] [18, 19, 33, 36, 20, 23, 37, 38, 34, 35, 21, 24, 102]
      (fun σ => e.C2.val [σ 18, σ 19] * e.T2x.val [σ 19, Corner.Spec.fused dim σ 21 24, σ 33] * e.T1x.val [σ 36, Corner.Spec.fused dim σ 20 23, σ 18] * (s.ax.val [σ 102, σ 20, σ 37, σ 34, σ 21] * star (s.ax.val [σ 102, σ 23, σ 38, σ 35, σ 24]))) := by
  obtain ⟨hC1, hT1, hT4, hT4y, hC4, hT3y, hT1x, hC2, hT2x, hT2xy, hC3, hT3xy, ha, ha0, ha1, ha2, ha3, ha4, hax, hax0, hax1, hax2, hax3, hax4, hay, hay0, hay1, hay2, hay3, hay4, haxy, haxy0, haxy1, haxy2, haxy3, haxy4⟩ := h
  obtain ⟨r, hr⟩ : ∃ r : Nat → Nat, r = fun l => [18, 19, 33, 36, 20, 23, 37, 38, 34, 35, 21, 24, 102, 103].getD l 0 := ⟨_, rfl⟩
  obtain ⟨R, e1, q⟩ := ruSl_closed (fun l => dim (r l)) e.C2 e.T2x e.T1x s.ax ⟨by simp [hr, hax], by simp [hr, hax1], by simp [hr, hax2], by simp [hr, hax3], by simp [hr, hax4], by simp [hr, hax0]⟩
    (by simp [hr, hC2]) (by simp [hr, hT2x]) (by simp [hr, hT1x])
  have q2 := q.rename (dim' := dim) r [0, 1, 2, 3, 4, 5, 6, 7, 8, 9, 10, 11, 12] (by rw [hr]; decide) (fun _ _ => rfl) (by decide) (by decide) (by decide)
  rw [hr] at q2
  refine ⟨R, e1, Denotes.congr (O := [[36, 37, 38], [33, 34, 35]]) q2 (by decide) (by decide) ?_⟩
  intro σ
  simp [Corner.Spec.ru, Corner.Spec.site, Corner.Spec.fused]

theorem rd_open (dim : Nat → Nat) (e : PlaqEnv K) (s : PlaqSites K) (h : Spec.FitsP dim e s) :
    ∃ R, rdSl e.C3 e.T3xy e.T2xy s.axy true = some R ∧ Denotes dim R [[33, 34, 35], [41, 39, 40], [106], [107]] [26, 27, 29, 32, 28, 31] [26, 27, 41, 33, 34, 35, 39, 40, 29, 32, 28, 31, 106, 107]
      (fun σ => e.C3.val [σ 26, σ 27] * e.T3xy.val [Corner.Spec.fused dim σ 29 32, σ 41, σ 27] * e.T2xy.val [σ 33, Corner.Spec.fused dim σ 28 31, σ 26] * (s.axy.val [σ 106, σ 34, σ 39, σ 29, σ 28] * star (s.axy.val [σ 107, σ 35, σ 40, σ 32, σ 31]))) := by
  obtain ⟨hC1, hT1, hT4, hT4y, hC4, hT3y, hT1x, hC2, hT2x, hT2xy, hC3, hT3xy, ha, ha0, ha1, ha2, ha3, ha4, hax, hax0, hax1, hax2, hax3, hax4, hay, hay0, hay1, hay2, hay3, hay4, haxy, haxy0, haxy1, haxy2, haxy3, haxy4⟩ := h
  obtain ⟨r, hr⟩ : ∃ r : Nat → Nat, r = fun l => [26, 27, 41, 33, 34, 35, 39, 40, 29, 32, 28, 31, 106, 107].getD l 0 := ⟨_, rfl⟩
  obtain ⟨R, e1, q⟩ := rdSl_open (fun l => dim (r l)) e.C3 e.T3xy e.T2xy s.axy ⟨by simp [hr, haxy], by simp [hr, haxy1], by simp [hr, haxy2], by simp [hr, haxy3], by simp [hr, haxy4], by simp [hr, haxy0]⟩
    (by simp [hr, hC3]) (by simp [hr, hT3xy]) (by simp [hr, hT2xy])
  have q2 := q.rename (dim' := dim) r [0, 1, 2, 3, 4, 5, 6, 7, 8, 9, 10, 11, 12, 13] (by rw [hr]; decide) (fun _ _ => rfl) (by decide) (by decide) (by decide)
  rw [hr] at q2
  refine ⟨R, e1, Denotes.congr (O := [[33, 34, 35], [41, 39, 40], [106], [107]]) q2 (by decide) (by decide) ?_⟩
  intro σ
  simp [Corner.Spec.rd, Corner.Spec.site, Corner.Spec.fused]

theorem rd_closed (dim : Nat → Nat) (e : PlaqEnv K) (s : PlaqSites K) (h : Spec.FitsP dim e s) :
    ∃ R, rdSl e.C3 e.T3xy e.T2xy s.axy false = some R ∧ Denotes dim R [[33, 34, 35], [41, 39, 40]] [26, 27, 29, 32, 28, 31, 106] [26, 27, 41, 33, 34, 35, 39, 40, 29, 32, 28, 31, 106]
      (fun σ => e.C3.val [σ 26, σ 27] * e.T3xy.val [Corner.Spec.fused dim σ 29 32, σ 41, σ 27] * e.T2xy.val [σ 33, Corner.Spec.fused dim σ 28 31, σ 26] * (s.axy.val [σ 106, σ 34, σ 39, σ 29, σ 28] * star (s.axy.val [σ 106, σ 35, σ 40, σ 32, σ 31]))) := by
  obtain ⟨hC1, hT1, hT4, hT4y, hC4, hT3y, hT1x, hC2, hT2x, hT2xy, hC3, hT3xy, ha, ha0, ha1, ha2, ha3, ha4, hax, hax0, hax1, hax2, hax3, hax4, hay, hay0, hay1, hay2, hay3, hay4, haxy, haxy0, haxy1, haxy2, haxy3, haxy4⟩ := h
  obtain ⟨r, hr⟩ : ∃ r : Nat → Nat, r = fun l => [26, 27, 41, 33, 34, 35, 39, 40, 29, 32, 28, 31, 106, 107].getD l 0 := ⟨_, rfl⟩
  obtain ⟨R, e1, q⟩ := rdSl_closed (fun l => dim (r l)) e.C3 e.T3xy e.T2xy s.axy ⟨by simp [hr, haxy], by simp [hr, haxy1], by simp [hr, haxy2], by simp [hr, haxy3], by simp [hr, haxy4], by simp [hr, haxy0]⟩
    (by simp [hr, hC3]) (by simp [hr, hT3xy]) (by simp [hr, hT2xy])
  have q2 := q.rename (dim' := dim) r [0, 1, 2, 3, 4, 5, 6, 7, 8, 9, 10, 11, 12] (by rw [hr]; decide) (fun _ _ => rfl) (by decide) (by decide) (by decide)
  rw [hr] at q2
  refine ⟨R, e1, Denotes.congr (O := [[33, 34, 35], [41, 39, 40]]) q2 (by decide) (by decide) ?_⟩
  intro σ
  simp [Corner.Spec.rd, Corner.Spec.site, Corner.Spec.fused]

theorem ld_open (dim : Nat → Nat) (e : PlaqEnv K) (s : PlaqSites K) (h : Spec.FitsP dim e s) :
    ∃ R, ldSl e.C4 e.T4y e.T3y s.ay true = some R ∧ Denotes dim R [[15, 16, 17], [41, 39, 40], [104], [105]] [8, 7, 9, 12, 10, 13] [8, 7, 15, 41, 16, 17, 9, 12, 10, 13, 39, 40, 104, 105]
      (fun σ => e.C4.val [σ 8, σ 7] * e.T4y.val [σ 15, σ 8, Corner.Spec.fused dim σ 9 12] * e.T3y.val [Corner.Spec.fused dim σ 10 13, σ 7, σ 41] * (s.ay.val [σ 104, σ 16, σ 9, σ 10, σ 39] * star (s.ay.val [σ 105, σ 17, σ 12, σ 13, σ 40]))) := by
  obtain ⟨hC1, hT1, hT4, hT4y, hC4, hT3y, hT1x, hC2, hT2x, hT2xy, hC3, hT3xy, ha, ha0, ha1, ha2, ha3, ha4, hax, hax0, hax1, hax2, hax3, hax4, hay, hay0, hay1, hay2, hay3, hay4, haxy, haxy0, haxy1, haxy2, haxy3, haxy4⟩ := h
  obtain ⟨r, hr⟩ : ∃ r : Nat → Nat, r = fun l => [8, 7, 15, 41, 16, 17, 9, 12, 10, 13, 39, 40, 104, 105].getD l 0 := ⟨_, rfl⟩
  obtain ⟨R, e1, q⟩ := ldSl_open (fun l => dim (r l)) e.C4 e.T4y e.T3y s.ay ⟨by simp [hr, hay], by simp [hr, hay1], by simp [hr, hay2], by simp [hr, hay3], by simp [hr, hay4], by simp [hr, hay0]⟩
    (by simp [hr, hC4]) (by simp [hr, hT4y]) (by simp [hr, hT3y])
  have q2 := q.rename (dim' := dim) r [0, 1, 2, 3, 4, 5, 6, 7, 8, 9, 10, 11, 12, 13] (by rw [hr]; decide) (fun _ _ => rfl) (by decide) (by decide) (by decide)
  rw [hr] at q2
  refine ⟨R, e1, Denotes.congr (O := [[15, 16, 17], [41, 39, 40], [104], [105]]) q2 (by decide) (by decide) ?_⟩
  intro σ
  simp [Corner.Spec.ld, Corner.Spec.site, Corner.Spec.fused]

theorem ld_closed (dim : Nat → Nat) (e : PlaqEnv K) (s : PlaqSites K) (h : Spec.FitsP dim e s) :
    ∃ R, ldSl e.C4 e.T4y e.T3y s.ay false = some R ∧ Denotes dim R [[15, 16, 17], [41, 39, 40]] [8, 7, 9, 12, 10, 13, 104] [8, 7, 15, 41, 16, 17, 9, 12, 10, 13, 39, 40, 104]
      (fun σ => e.C4.val [σ 8, σ 7] * e.T4y.val [σ 15, σ 8, Corner.Spec.fused dim σ 9 12] * e.T3y.val [Corner.Spec.fused dim σ 10 13, σ 7, σ 41] * (s.ay.val [σ 104, σ 16, σ 9, σ 10, σ 39] * star (s.ay.val [σ 104, σ 17, σ 12, σ 13, σ 40]))) := by
  obtain ⟨hC1, hT1, hT4, hT4y, hC4, hT3y, hT1x, hC2, hT2x, hT2xy, hC3, hT3xy, ha, ha0, ha1, ha2, ha3, ha4, hax, hax0, hax1, hax2, hax3, hax4, hay, hay0, hay1, hay2, hay3, hay4, haxy, haxy0, haxy1, haxy2, haxy3, haxy4⟩ := h
  obtain ⟨r, hr⟩ : ∃ r : Nat → Nat, r = fun l => [8, 7, 15, 41, 16, 17, 9, 12, 10, 13, 39, 40, 104, 105].getD l 0 := ⟨_, rfl⟩
  obtain ⟨R, e1, q⟩ := ldSl_closed (fun l => dim (r l)) e.C4 e.T4y e.T3y s.ay ⟨by simp [hr, hay], by simp [hr, hay1], by simp [hr, hay2], by simp [hr, hay3], by simp [hr, hay4], by simp [hr, hay0]⟩
    (by simp [hr, hC4]) (by simp [hr, hT4y]) (by simp [hr, hT3y])
  have q2 := q.rename (dim' := dim) r [0, 1, 2, 3, 4, 5, 6, 7, 8, 9, 10, 11, 12] (by rw [hr]; decide) (fun _ _ => rfl) (by decide) (by decide) (by decide)
  rw [hr] at q2
  refine ⟨R, e1, Denotes.congr (O := [[15, 16, 17], [41, 39, 40]]) q2 (by decide) (by decide) ?_⟩
  intro σ
  simp [Corner.Spec.ld, Corner.Spec.site, Corner.Spec.fused]

/-- The contractions of `rdm2x2_NNN_11`. -/
theorem corners11 (dim : Nat → Nat) (e : PlaqEnv K) (s : PlaqSites K) (h : Spec.FitsP dim e s) :
    ∃ R, (do
      let lu ← luSl e.C1 e.T1 e.T4 s.a true
      let ru ← ruSl e.C2 e.T2x e.T1x s.ax false
      let x ← tensordot [1] [0] lu ru
      let up ← permute [0, 3, 1, 2] x
      let rd ← rdSl e.C3 e.T3xy e.T2xy s.axy true
      let ld ← ldSl e.C4 e.T4y e.T3y s.ay false
      let lo ← tensordot [1] [1] ld rd
      let x ← tensordot [0, 1] [0, 1] up lo
      permute [0, 2, 1, 3] x) = some R ∧ Denotes dim R [[100], [106], [101], [107]] ([102, 104] ++ Spec.innerP) [0, 1, 2, 3, 5, 6, 7, 8, 9, 10, 12, 13, 15, 16, 17, 18, 19, 20, 21, 23, 24, 26, 27, 28, 29, 31, 32, 33, 34, 35, 36, 37, 38, 39, 40, 41, 100, 101, 102, 103, 104, 105, 106, 107] (Spec.rhoP dim e s (Spec.bra [0, 3])) := by
  obtain ⟨lu, cLU, dLU⟩ := lu_open dim e s h
  obtain ⟨ru, cRU, dRU⟩ := ru_closed dim e s h
  obtain ⟨rd, cRD, dRD⟩ := rd_open dim e s h
  obtain ⟨ld, cLD, dLD⟩ := ld_closed dim e s h
  obtain ⟨x1, e1, q1⟩ := Denotes.tensordot dLU dRU [1] [0] (dotOK_iff (by decide))
  obtain ⟨x2, e2, q2⟩ := Denotes.permute q1 [0, 3, 1, 2] (by decide)
  obtain ⟨x3, e3, q3⟩ := Denotes.tensordot dLD dRD [1] [1] (dotOK_iff (by decide))
  obtain ⟨x4, e4, q4⟩ := Denotes.tensordot q2 q3 [0, 1] [0, 1] (dotOK_iff (by decide))
  obtain ⟨x5, e5, q5⟩ := Denotes.permute q4 [0, 2, 1, 3] (by decide)
  refine ⟨x5, by simp [cLU, cRU, cRD, cLD, e1, e2, e3, e4, e5], Denotes.congr (O := [[100], [106], [101], [107]]) q5 (by decide) (by decide) ?_⟩
  intro σ
  have b0 : Spec.bra [0, 3] 0 = 101 := rfl
  have b1 : Spec.bra [0, 3] 1 = 102 := rfl
  have b2 : Spec.bra [0, 3] 2 = 104 := rfl
  have b3 : Spec.bra [0, 3] 3 = 107 := rfl
  simp only [Spec.rhoP, b0, b1, b2, b3]; ring

/-- The contractions of `rdm2x2_NNN_1n1_legacy`. -/
theorem corners1n1 (dim : Nat → Nat) (e : PlaqEnv K) (s : PlaqSites K) (h : Spec.FitsP dim e s) :
    ∃ R, (do
      let lu ← luSl e.C1 e.T1 e.T4 s.a false
      let ru ← ruSl e.C2 e.T2x e.T1x s.ax true
      let up ← tensordot [1] [0] lu ru
      let rd ← rdSl e.C3 e.T3xy e.T2xy s.axy false
      let ld ← ldSl e.C4 e.T4y e.T3y s.ay true
      let x ← tensordot [1] [1] ld rd
      let lo ← permute [0, 3, 1, 2] x
      let x ← tensordot [0, 1] [0, 1] lo up
      permute [0, 2, 1, 3] x) = some R ∧ Denotes dim R [[104], [102], [105], [103]] ([100, 106] ++ Spec.innerP) [0, 1, 2, 3, 5, 6, 7, 8, 9, 10, 12, 13, 15, 16, 17, 18, 19, 20, 21, 23, 24, 26, 27, 28, 29, 31, 32, 33, 34, 35, 36, 37, 38, 39, 40, 41, 100, 101, 102, 103, 104, 105, 106, 107] (Spec.rhoP dim e s (Spec.bra [1, 2])) := by
  obtain ⟨lu, cLU, dLU⟩ := lu_closed dim e s h
  obtain ⟨ru, cRU, dRU⟩ := ru_open dim e s h
  obtain ⟨rd, cRD, dRD⟩ := rd_closed dim e s h
  obtain ⟨ld, cLD, dLD⟩ := ld_open dim e s h
  obtain ⟨x1, e1, q1⟩ := Denotes.tensordot dLU dRU [1] [0] (dotOK_iff (by decide))
  obtain ⟨x2, e2, q2⟩ := Denotes.tensordot dLD dRD [1] [1] (dotOK_iff (by decide))
  obtain ⟨x3, e3, q3⟩ := Denotes.permute q2 [0, 3, 1, 2] (by decide)
  obtain ⟨x4, e4, q4⟩ := Denotes.tensordot q3 q1 [0, 1] [0, 1] (dotOK_iff (by decide))
  obtain ⟨x5, e5, q5⟩ := Denotes.permute q4 [0, 2, 1, 3] (by decide)
  refine ⟨x5, by simp [cLU, cRU, cRD, cLD, e1, e2, e3, e4, e5], Denotes.congr (O := [[104], [102], [105], [103]]) q5 (by decide) (by decide) ?_⟩
  intro σ
  have b0 : Spec.bra [1, 2] 0 = 100 := rfl
  have b1 : Spec.bra [1, 2] 1 = 103 := rfl
  have b2 : Spec.bra [1, 2] 2 = 105 := rfl
  have b3 : Spec.bra [1, 2] 3 = 106 := rfl
  simp only [Spec.rhoP, b0, b1, b2, b3]; ring

/-- `rdm2x2_NNN_1n1_oe`. -/
theorem oe1n1_denotes (dim : Nat → Nat) (e : PlaqEnv K) (s : PlaqSites K) (h : Spec.FitsP dim e s) :
    ∃ R, (do
      let t ← e.split s
      einsum (t.operands s ([4, 4, 22, 25, 11, 14, 30, 30].getD · 0)) [11, 22, 14, 25]) = some R ∧
      Denotes dim R [[104], [102], [105], [103]] ([100, 106] ++ Spec.innerP) [0, 1, 2, 3, 5, 6, 7, 8, 9, 10, 12, 13, 15, 16, 17, 18, 19, 20, 21, 23, 24, 26, 27, 28, 29, 31, 32, 33, 34, 35, 36, 37, 38, 39, 40, 41, 100, 101, 102, 103, 104, 105, 106, 107] (Spec.rhoP dim e s (Spec.bra [1, 2])) := by
  obtain ⟨r, hr⟩ : ∃ r : Nat → Nat, r = fun l => if l = 4 then 100 else if l = 22 then 102 else if l = 25 then 103 else if l = 11 then 104 else if l = 14 then 105 else if l = 30 then 106 else l := ⟨_, rfl⟩
  obtain ⟨dim', hdim⟩ : ∃ dim' : Nat → Nat, dim' = fun l => dim (r l) := ⟨_, rfl⟩
  have hd : ∀ l ∈ [0, 1, 2, 3, 5, 6, 7, 8, 9, 10, 12, 13, 15, 16, 17, 18, 19, 20, 21, 23, 24, 26, 27, 28, 29, 31, 32, 33, 34, 35, 36, 37, 38, 39, 40, 41, 100, 101, 102, 103, 104, 105, 106, 107], dim' l = dim l := by intro l hl; rw [hdim, hr]; fin_cases hl <;> rfl
  have h' : Spec.FitsP dim' e s := by
    have hd2 := hd
    simp only [List.forall_mem_cons, List.not_mem_nil, false_imp_iff, implies_true, and_true] at hd2
    obtain ⟨hC1, hT1, hT4, hT4y, hC4, hT3y, hT1x, hC2, hT2x, hT2xy, hC3, hT3xy, ha, ha0, ha1, ha2, ha3, ha4, hax, hax0, hax1, hax2, hax3, hax4, hay, hay0, hay1, hay2, hay3, hay4, haxy, haxy0, haxy1, haxy2, haxy3, haxy4⟩ := h
    clear hd hdim hr
    constructor <;> simp only [hd2, *]
  obtain ⟨t, et, t1, t2, t3, t4, dT1, dT1x, dT2xy, dT2x, dT3xy, dT3y, dT4, dT4y⟩ := split_denotes dim' e s h'
  suffices hs : ∃ R, einsum (t.operands s ([4, 4, 22, 25, 11, 14, 30, 30].getD · 0)) [11, 22, 14, 25] = some R ∧
      Denotes dim' R [[11], [22], [14], [25]] ([4, 30] ++ Spec.innerP) [0, 1, 2, 3, 4, 5, 6, 7, 8, 9, 10, 11, 12, 13, 14, 15, 16, 17, 18, 19, 20, 21, 22, 23, 24, 25, 26, 27, 28, 29, 30, 31, 32, 33, 34, 35, 36, 37, 38, 39, 40, 41] (fun σ => e.C1.val [σ 0, σ 1] * e.T1.val [σ 1, Corner.Spec.fused dim' σ 2 5, σ 36] * e.T4.val [σ 0, σ 15, Corner.Spec.fused dim' σ 3 6] * s.a.val [σ 4, σ 2, σ 3, σ 16, σ 37] * star (s.a.val [σ 4, σ 5, σ 6, σ 17, σ 38]) * e.T4y.val [σ 15, σ 8, Corner.Spec.fused dim' σ 9 12] * e.C4.val [σ 8, σ 7] * e.T3y.val [Corner.Spec.fused dim' σ 10 13, σ 7, σ 41] * s.ay.val [σ 11, σ 16, σ 9, σ 10, σ 39] * star (s.ay.val [σ 14, σ 17, σ 12, σ 13, σ 40]) * e.T1x.val [σ 36, Corner.Spec.fused dim' σ 20 23, σ 18] * e.C2.val [σ 18, σ 19] * e.T2x.val [σ 19, Corner.Spec.fused dim' σ 21 24, σ 33] * s.ax.val [σ 22, σ 20, σ 37, σ 34, σ 21] * star (s.ax.val [σ 25, σ 23, σ 38, σ 35, σ 24]) * e.T2xy.val [σ 33, Corner.Spec.fused dim' σ 28 31, σ 26] * e.C3.val [σ 26, σ 27] * e.T3xy.val [Corner.Spec.fused dim' σ 29 32, σ 41, σ 27] * s.axy.val [σ 30, σ 34, σ 39, σ 29, σ 28] * star (s.axy.val [σ 30, σ 35, σ 40, σ 32, σ 31])) by
    obtain ⟨R, e1, q⟩ := hs
    have q2 := q.rename (dim' := dim) r [0, 1, 2, 3, 4, 5, 6, 7, 8, 9, 10, 11, 12, 13, 14, 15, 16, 17, 18, 19, 20, 21, 22, 23, 24, 25, 26, 27, 28, 29, 30, 31, 32, 33, 34, 35, 36, 37, 38, 39, 40, 41] (by rw [hr]; decide) (fun l _ => by rw [hdim]) (by decide) (by decide) (by decide)
    rw [hr] at q2
    refine ⟨R, by rw [et]; exact e1, Denotes.congr (O := [[104], [102], [105], [103]]) q2 (by decide) (by decide) ?_⟩
    intro σ
    have hf : ∀ k ∈ [0, 1, 2, 3, 5, 6, 7, 8, 9, 10, 12, 13, 15, 16, 17, 18, 19, 20, 21, 23, 24, 26, 27, 28, 29, 31, 32, 33, 34, 35, 36, 37, 38, 39, 40, 41], ∀ b ∈ [0, 1, 2, 3, 5, 6, 7, 8, 9, 10, 12, 13, 15, 16, 17, 18, 19, 20, 21, 23, 24, 26, 27, 28, 29, 31, 32, 33, 34, 35, 36, 37, 38, 39, 40, 41], Corner.Spec.fused dim' (fun l => σ (if l = 4 then 100 else if l = 22 then 102 else if l = 25 then 103 else if l = 11 then 104 else if l = 14 then 105 else if l = 30 then 106 else l)) k b = Corner.Spec.fused dim σ k b := by
      intro k hk b hb
      have hri : ∀ l ∈ [0, 1, 2, 3, 5, 6, 7, 8, 9, 10, 12, 13, 15, 16, 17, 18, 19, 20, 21, 23, 24, 26, 27, 28, 29, 31, 32, 33, 34, 35, 36, 37, 38, 39, 40, 41], (if l = 4 then 100 else if l = 22 then 102 else if l = 25 then 103 else if l = 11 then 104 else if l = 14 then 105 else if l = 30 then 106 else l) = l := by decide
      have hb' : b ∈ [0, 1, 2, 3, 5, 6, 7, 8, 9, 10, 12, 13, 15, 16, 17, 18, 19, 20, 21, 23, 24, 26, 27, 28, 29, 31, 32, 33, 34, 35, 36, 37, 38, 39, 40, 41, 100, 101, 102, 103, 104, 105, 106, 107] := (by decide : ∀ b ∈ [0, 1, 2, 3, 5, 6, 7, 8, 9, 10, 12, 13, 15, 16, 17, 18, 19, 20, 21, 23, 24, 26, 27, 28, 29, 31, 32, 33, 34, 35, 36, 37, 38, 39, 40, 41], b ∈ [0, 1, 2, 3, 5, 6, 7, 8, 9, 10, 12, 13, 15, 16, 17, 18, 19, 20, 21, 23, 24, 26, 27, 28, 29, 31, 32, 33, 34, 35, 36, 37, 38, 39, 40, 41, 100, 101, 102, 103, 104, 105, 106, 107]) b hb
      simp only [Corner.Spec.fused, hri k hk, hri b hb, hd b hb']
    have b0 : Spec.bra [1, 2] 0 = 100 := rfl
    have b1 : Spec.bra [1, 2] 1 = 103 := rfl
    have b2 : Spec.bra [1, 2] 2 = 105 := rfl
    have b3 : Spec.bra [1, 2] 3 = 106 := rfl
    simp only [Spec.rhoP, b0, b1, b2, b3, hf 2 (by decide) 5 (by decide), hf 3 (by decide) 6 (by decide), hf 9 (by decide) 12 (by decide), hf 10 (by decide) 13 (by decide), hf 20 (by decide) 23 (by decide), hf 21 (by decide) 24 (by decide), hf 28 (by decide) 31 (by decide), hf 29 (by decide) 32 (by decide)]
    simp only [Nat.reduceEqDiff, if_false, if_true]
    ring
  have hp : dim' 4 = dim' 100 ∧ dim' 22 = dim' 102 ∧ dim' 25 = dim' 102 ∧ dim' 11 = dim' 104 ∧ dim' 14 = dim' 104 ∧ dim' 30 = dim' 106 := by
    rw [hdim, hr]
    exact ⟨rfl, rfl, h.ax0, rfl, h.ay0, rfl⟩
  obtain ⟨p4, p22, p25, p11, p14, p30⟩ := hp
  clear hd hdim hr h
  obtain ⟨hC1, hT1, hT4, hT4y, hC4, hT3y, hT1x, hC2, hT2x, hT2xy, hC3, hT3xy, ha, ha0, ha1, ha2, ha3, ha4, hax, hax0, hax1, hax2, hax3, hax4, hay, hay0, hay1, hay2, hay3, hay4, haxy, haxy0, haxy1, haxy2, haxy3, haxy4⟩ := h'
  have dC1 := Denotes.leaf dim' e.C1 [[0], [1]] (by simp [gdim, hC1])
  have dC2 := Denotes.leaf dim' e.C2 [[18], [19]] (by simp [gdim, hC2])
  have dC3 := Denotes.leaf dim' e.C3 [[26], [27]] (by simp [gdim, hC3])
  have dC4 := Denotes.leaf dim' e.C4 [[8], [7]] (by simp [gdim, hC4])
  have da := Denotes.leaf dim' s.a [[4], [2], [3], [16], [37]] (by simp [gdim, ha, p4])
  have dac := (Denotes.leaf dim' s.a [[4], [5], [6], [17], [38]] (by simp [gdim, ha, p4, ha1, ha2, ha3, ha4])).conj
  have dax := Denotes.leaf dim' s.ax [[22], [20], [37], [34], [21]] (by simp [gdim, hax, p22])
  have daxc := (Denotes.leaf dim' s.ax [[25], [23], [38], [35], [24]] (by simp [gdim, hax, p25, hax1, hax2, hax3, hax4])).conj
  have day := Denotes.leaf dim' s.ay [[11], [16], [9], [10], [39]] (by simp [gdim, hay, p11])
  have dayc := (Denotes.leaf dim' s.ay [[14], [17], [12], [13], [40]] (by simp [gdim, hay, p14, hay1, hay2, hay3, hay4])).conj
  have daxy := Denotes.leaf dim' s.axy [[30], [34], [39], [29], [28]] (by simp [gdim, haxy, p30])
  have daxyc := (Denotes.leaf dim' s.axy [[30], [35], [40], [32], [31]] (by simp [gdim, haxy, p30, haxy1, haxy2, haxy3, haxy4])).conj
  have net := (OpsNet.cons (l := [0, 1]) dC1 (OpsNet.cons (l := [1, 2, 5, 36]) dT1 (OpsNet.cons (l := [0, 15, 3, 6]) dT4 (OpsNet.cons (l := [4, 2, 3, 16, 37]) da (OpsNet.cons (l := [4, 5, 6, 17, 38]) dac (OpsNet.cons (l := [15, 8, 9, 12]) dT4y (OpsNet.cons (l := [8, 7]) dC4 (OpsNet.cons (l := [10, 13, 7, 41]) dT3y (OpsNet.cons (l := [11, 16, 9, 10, 39]) day (OpsNet.cons (l := [14, 17, 12, 13, 40]) dayc (OpsNet.cons (l := [36, 20, 23, 18]) dT1x (OpsNet.cons (l := [18, 19]) dC2 (OpsNet.cons (l := [19, 21, 24, 33]) dT2x (OpsNet.cons (l := [22, 20, 37, 34, 21]) dax (OpsNet.cons (l := [25, 23, 38, 35, 24]) daxc (OpsNet.cons (l := [33, 28, 31, 26]) dT2xy (OpsNet.cons (l := [26, 27]) dC3 (OpsNet.cons (l := [29, 32, 41, 27]) dT3xy (OpsNet.cons (l := [30, 34, 39, 29, 28]) daxy (OpsNet.cons (l := [30, 35, 40, 32, 31]) daxyc OpsNet.nil))))))))))))))))))))
  have key2 := Denotes.einsum' net [11, 22, 14, 25] (by decide)
  unfold PlaqEnv.operands
  rw [t1, t2, t3, t4]
  obtain ⟨R, e1, q1⟩ := key2
  exact ⟨R, e1, q1.congr (by decide) (by decide) (fun σ => by simp only [List.map_cons, List.map_nil, gidx_single]; ring)⟩

set_option maxRecDepth 4000 in
/-- `eval_mpo_rdm2x2_oe`. -/
theorem mpo_denotes (dim : Nat → Nat) (e : PlaqEnv K) (s : PlaqSites K) (h : Spec.FitsP dim e s) (m0 m1 m2 m3 : Tensor K)
    (hm0 : m0.shape = [dim 300, dim 100, dim 200, dim 101]) (hm1 : m1.shape = [dim 200, dim 102, dim 201, dim 103]) (hm2 : m2.shape = [dim 201, dim 104, dim 202, dim 105]) (hm3 : m3.shape = [dim 202, dim 106, dim 301, dim 107]) :
    ∃ R, (do
      let t ← e.split s
      einsum (t.operands s (100 + ·) ++ [(m0, [300, 100, 200, 101]), (m1, [200, 102, 201, 103]), (m2, [201, 104, 202, 105]), (m3, [202, 106, 301, 107])]) []) = some R ∧
      Denotes dim R [] ([100, 102, 104, 106, 101, 103, 105, 107] ++ [300, 200, 201, 202, 301] ++ Spec.innerP) [0, 1, 2, 3, 5, 6, 7, 8, 9, 10, 12, 13, 15, 16, 17, 18, 19, 20, 21, 23, 24, 26, 27, 28, 29, 31, 32, 33, 34, 35, 36, 37, 38, 39, 40, 41, 100, 101, 102, 103, 104, 105, 106, 107, 200, 201, 202, 300, 301]
        (fun σ => Spec.rhoP dim e s (Spec.bra [0, 1, 2, 3]) σ * (m0.val [σ 300, σ 100, σ 200, σ 101] * m1.val [σ 200, σ 102, σ 201, σ 103] * m2.val [σ 201, σ 104, σ 202, σ 105] * m3.val [σ 202, σ 106, σ 301, σ 107])) := by
  obtain ⟨t, et, t1, t2, t3, t4, dT1, dT1x, dT2xy, dT2x, dT3xy, dT3y, dT4, dT4y⟩ := split_denotes dim e s h
  obtain ⟨hC1, hT1, hT4, hT4y, hC4, hT3y, hT1x, hC2, hT2x, hT2xy, hC3, hT3xy, ha, ha0, ha1, ha2, ha3, ha4, hax, hax0, hax1, hax2, hax3, hax4, hay, hay0, hay1, hay2, hay3, hay4, haxy, haxy0, haxy1, haxy2, haxy3, haxy4⟩ := h
  have dC1 := Denotes.leaf dim e.C1 [[0], [1]] (by simp [gdim, hC1])
  have dC2 := Denotes.leaf dim e.C2 [[18], [19]] (by simp [gdim, hC2])
  have dC3 := Denotes.leaf dim e.C3 [[26], [27]] (by simp [gdim, hC3])
  have dC4 := Denotes.leaf dim e.C4 [[8], [7]] (by simp [gdim, hC4])
  have da := Denotes.leaf dim s.a [[100], [2], [3], [16], [37]] (by simp [gdim, ha])
  have dac := (Denotes.leaf dim s.a [[101], [5], [6], [17], [38]] (by simp [gdim, ha, ha0, ha1, ha2, ha3, ha4])).conj
  have dax := Denotes.leaf dim s.ax [[102], [20], [37], [34], [21]] (by simp [gdim, hax])
  have daxc := (Denotes.leaf dim s.ax [[103], [23], [38], [35], [24]] (by simp [gdim, hax, hax0, hax1, hax2, hax3, hax4])).conj
  have day := Denotes.leaf dim s.ay [[104], [16], [9], [10], [39]] (by simp [gdim, hay])
  have dayc := (Denotes.leaf dim s.ay [[105], [17], [12], [13], [40]] (by simp [gdim, hay, hay0, hay1, hay2, hay3, hay4])).conj
  have daxy := Denotes.leaf dim s.axy [[106], [34], [39], [29], [28]] (by simp [gdim, haxy])
  have daxyc := (Denotes.leaf dim s.axy [[107], [35], [40], [32], [31]] (by simp [gdim, haxy, haxy0, haxy1, haxy2, haxy3, haxy4])).conj
  have dm0 := Denotes.leaf dim m0 [[300], [100], [200], [101]] (by simp [gdim, hm0])
  have dm1 := Denotes.leaf dim m1 [[200], [102], [201], [103]] (by simp [gdim, hm1])
  have dm2 := Denotes.leaf dim m2 [[201], [104], [202], [105]] (by simp [gdim, hm2])
  have dm3 := Denotes.leaf dim m3 [[202], [106], [301], [107]] (by simp [gdim, hm3])
  have net := (OpsNet.cons (l := [0, 1]) dC1 (OpsNet.cons (l := [1, 2, 5, 36]) dT1 (OpsNet.cons (l := [0, 15, 3, 6]) dT4 (OpsNet.cons (l := [100, 2, 3, 16, 37]) da (OpsNet.cons (l := [101, 5, 6, 17, 38]) dac (OpsNet.cons (l := [15, 8, 9, 12]) dT4y (OpsNet.cons (l := [8, 7]) dC4 (OpsNet.cons (l := [10, 13, 7, 41]) dT3y (OpsNet.cons (l := [104, 16, 9, 10, 39]) day (OpsNet.cons (l := [105, 17, 12, 13, 40]) dayc (OpsNet.cons (l := [36, 20, 23, 18]) dT1x (OpsNet.cons (l := [18, 19]) dC2 (OpsNet.cons (l := [19, 21, 24, 33]) dT2x (OpsNet.cons (l := [102, 20, 37, 34, 21]) dax (OpsNet.cons (l := [103, 23, 38, 35, 24]) daxc (OpsNet.cons (l := [33, 28, 31, 26]) dT2xy (OpsNet.cons (l := [26, 27]) dC3 (OpsNet.cons (l := [29, 32, 41, 27]) dT3xy (OpsNet.cons (l := [106, 34, 39, 29, 28]) daxy (OpsNet.cons (l := [107, 35, 40, 32, 31]) daxyc (OpsNet.cons (l := [300, 100, 200, 101]) dm0 (OpsNet.cons (l := [200, 102, 201, 103]) dm1 (OpsNet.cons (l := [201, 104, 202, 105]) dm2 (OpsNet.cons (l := [202, 106, 301, 107]) dm3 OpsNet.nil))))))))))))))))))))))))
  obtain ⟨R, e1, q1⟩ := Denotes.einsum' net [] (by decide)
  refine ⟨R, ?_, q1.congr (by decide) (by decide) (fun σ => ?_)⟩
  · rw [et, ← e1]
    unfold PlaqEnv.operands
    rw [← t1, ← t2, ← t3, ← t4]
    rfl
  · have b0 : Spec.bra [0, 1, 2, 3] 0 = 101 := rfl
    have b1 : Spec.bra [0, 1, 2, 3] 1 = 103 := rfl
    have b2 : Spec.bra [0, 1, 2, 3] 2 = 105 := rfl
    have b3 : Spec.bra [0, 1, 2, 3] 3 = 107 := rfl
    simp only [Spec.rhoP, b0, b1, b2, b3, List.map_cons, List.map_nil, gidx_single]; ring

end Verif.Rdm
