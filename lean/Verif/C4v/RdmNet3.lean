import Verif.C4v.RdmNet2
import Verif.Rdm.TripleProps
/-
The networks of the C4v density matrices of one, two and three sites with the labels of the general code (generated).
-/
namespace Verif.C4v
open Tensor Ctm Rdm Ctm.Spec Rdm.Spec
set_option linter.unusedSimpArgs false
set_option linter.unusedVariables false
variable {K : Type} [RCLike K]

theorem hL_label {chi D p : Nat} {a C T x : Tensor K} (q : Denotes (C4v.Spec.dim chi D p) x [[15], [2], [10, 11], [12], [13]] [0, 1, 3, 4, 5, 6, 7, 8, 9, 14] [0, 1, 2, 3, 4, 5, 6, 7, 8, 9, 10, 11, 12, 13, 14, 15]
      (C4v.Spec.openHalf (C4v.Spec.dim chi D p) C T a)) (c : Coord) {dim : Nat → Nat} (hd : dim = dimsH (C4v.Spec.dims chi D p) c) :
    Denotes dim x [[25], [24], [26, 27], [4], [7]] [0, 1, 9, 2, 5, 3, 6, 10, 11, 8] [0, 1, 24, 9, 2, 5, 3, 6, 10, 11, 26, 27, 4, 7, 8, 25]
      (fun σ => C.val [σ 0, σ 1] * T.val [σ 24, σ 1, Corner.Spec.fused dim σ 2 5] * T.val [σ 0, σ 9, Corner.Spec.fused dim σ 3 6] * (a.val [σ 4, σ 2, σ 3, σ 10, σ 26] * star (a.val [σ 7, σ 5, σ 6, σ 11, σ 27])) * (C.val [σ 9, σ 8] * T.val [σ 8, σ 25, Corner.Spec.fused dim σ 10 11])) := by
  subst hd
  have := q.rename (dim' := dimsH (C4v.Spec.dims chi D p) c) (fun l => [0, 1, 24, 9, 2, 5, 3, 6, 10, 11, 26, 27, 4, 7, 8, 25].getD l 0) [0, 1, 2, 3, 4, 5, 6, 7, 8, 9, 10, 11, 12, 13, 14, 15] (by decide)
    (by intro l hl; fin_cases hl <;> rfl) (by decide) (by decide) (by decide)
  exact this.congr (List.Perm.refl _) (fun _ h => h) (fun σ => rfl)

theorem hR_label {chi D p : Nat} {a C T x : Tensor K} (q : Denotes (C4v.Spec.dim chi D p) x [[15], [2], [10, 11], [12], [13]] [0, 1, 3, 4, 5, 6, 7, 8, 9, 14] [0, 1, 2, 3, 4, 5, 6, 7, 8, 9, 10, 11, 12, 13, 14, 15]
      (C4v.Spec.openHalf (C4v.Spec.dim chi D p) C T a)) (c : Coord) {dim : Nat → Nat} (hd : dim = dimsH (C4v.Spec.dims chi D p) c) :
    Denotes dim x [[24], [25], [26, 27], [16], [19]] [21, 20, 13, 22, 23, 15, 18, 14, 17, 12] [21, 20, 25, 13, 22, 23, 15, 18, 14, 17, 26, 27, 16, 19, 12, 24]
      (fun σ => C.val [σ 21, σ 20] * T.val [σ 25, σ 20, Corner.Spec.fused dim σ 22 23] * T.val [σ 21, σ 13, Corner.Spec.fused dim σ 15 18] * (a.val [σ 16, σ 22, σ 15, σ 14, σ 26] * star (a.val [σ 19, σ 23, σ 18, σ 17, σ 27])) * (C.val [σ 13, σ 12] * T.val [σ 12, σ 24, Corner.Spec.fused dim σ 14 17])) := by
  subst hd
  have := q.rename (dim' := dimsH (C4v.Spec.dims chi D p) c) (fun l => [21, 20, 25, 13, 22, 23, 15, 18, 14, 17, 26, 27, 16, 19, 12, 24].getD l 0) [0, 1, 2, 3, 4, 5, 6, 7, 8, 9, 10, 11, 12, 13, 14, 15] (by decide)
    (by intro l hl; fin_cases hl <;> rfl) (by decide) (by decide) (by decide)
  exact this.congr (List.Perm.refl _) (fun _ h => h) (fun σ => rfl)

theorem tL_label {chi D p : Nat} {a C T x : Tensor K} (q : Denotes (C4v.Spec.dim chi D p) x [[15], [2], [10, 11], [12], [13]] [0, 1, 3, 4, 5, 6, 7, 8, 9, 14] [0, 1, 2, 3, 4, 5, 6, 7, 8, 9, 10, 11, 12, 13, 14, 15]
      (C4v.Spec.openHalf (C4v.Spec.dim chi D p) C T a)) (c : Coord) {dim : Nat → Nat} (hd : dim = dimsRow (C4v.Spec.dims chi D p) c (fun _ => 0)) :
    Denotes dim x [[29], [4], [13, 17], [100], [101]] [0, 1, 26, 2, 3, 12, 16, 20, 21, 28] [0, 1, 4, 26, 2, 3, 12, 16, 20, 21, 13, 17, 100, 101, 28, 29]
      (fun σ => C.val [σ 0, σ 1] * T.val [σ 4, σ 1, Corner.Spec.fused dim σ 2 3] * T.val [σ 0, σ 26, Corner.Spec.fused dim σ 12 16] * (a.val [σ 100, σ 2, σ 12, σ 20, σ 13] * star (a.val [σ 101, σ 3, σ 16, σ 21, σ 17])) * (C.val [σ 26, σ 28] * T.val [σ 28, σ 29, Corner.Spec.fused dim σ 20 21])) := by
  subst hd
  have := q.rename (dim' := dimsRow (C4v.Spec.dims chi D p) c (fun _ => 0)) (fun l => [0, 1, 4, 26, 2, 3, 12, 16, 20, 21, 13, 17, 100, 101, 28, 29].getD l 0) [0, 1, 2, 3, 4, 5, 6, 7, 8, 9, 10, 11, 12, 13, 14, 15] (by decide)
    (by intro l hl; fin_cases hl <;> rfl) (by decide) (by decide) (by decide)
  exact this.congr (List.Perm.refl _) (fun _ h => h) (fun σ => rfl)

theorem tL_split {chi D p : Nat} {a C T x : Tensor K} (q : Denotes (C4v.Spec.dim chi D p) x [[15], [2], [10], [11], [12], [13]] [0, 1, 3, 4, 5, 6, 7, 8, 9, 14] [0, 1, 2, 3, 4, 5, 6, 7, 8, 9, 10, 11, 12, 13, 14, 15]
      (C4v.Spec.openHalf (C4v.Spec.dim chi D p) C T a)) (c : Coord) {dim : Nat → Nat} (hd : dim = dimsRow (C4v.Spec.dims chi D p) c (fun _ => 0)) :
    Denotes dim x [[29], [4], [13], [17], [100], [101]] [0, 1, 26, 2, 3, 12, 16, 20, 21, 28] [0, 1, 4, 26, 2, 3, 12, 16, 20, 21, 13, 17, 100, 101, 28, 29]
      (fun σ => C.val [σ 0, σ 1] * T.val [σ 4, σ 1, Corner.Spec.fused dim σ 2 3] * T.val [σ 0, σ 26, Corner.Spec.fused dim σ 12 16] * (a.val [σ 100, σ 2, σ 12, σ 20, σ 13] * star (a.val [σ 101, σ 3, σ 16, σ 21, σ 17])) * (C.val [σ 26, σ 28] * T.val [σ 28, σ 29, Corner.Spec.fused dim σ 20 21])) := by
  subst hd
  have := q.rename (dim' := dimsRow (C4v.Spec.dims chi D p) c (fun _ => 0)) (fun l => [0, 1, 4, 26, 2, 3, 12, 16, 20, 21, 13, 17, 100, 101, 28, 29].getD l 0) [0, 1, 2, 3, 4, 5, 6, 7, 8, 9, 10, 11, 12, 13, 14, 15] (by decide)
    (by intro l hl; fin_cases hl <;> rfl) (by decide) (by decide) (by decide)
  exact this.congr (List.Perm.refl _) (fun _ h => h) (fun σ => rfl)

theorem tR_label {chi D p : Nat} {a C T x : Tensor K} (q : Denotes (C4v.Spec.dim chi D p) x [[15], [2], [10, 11], [12], [13]] [0, 1, 3, 4, 5, 6, 7, 8, 9, 14] [0, 1, 2, 3, 4, 5, 6, 7, 8, 9, 10, 11, 12, 13, 14, 15]
      (C4v.Spec.openHalf (C4v.Spec.dim chi D p) C T a)) (c : Coord) {dim : Nat → Nat} (hd : dim = dimsRow (C4v.Spec.dims chi D p) c (fun _ => 0)) :
    Denotes dim x [[7], [30], [14, 18], [104], [105]] [27, 31, 11, 24, 25, 15, 19, 8, 9, 10] [27, 31, 30, 11, 24, 25, 15, 19, 8, 9, 14, 18, 104, 105, 10, 7]
      (fun σ => C.val [σ 27, σ 31] * T.val [σ 30, σ 31, Corner.Spec.fused dim σ 24 25] * T.val [σ 27, σ 11, Corner.Spec.fused dim σ 15 19] * (a.val [σ 104, σ 24, σ 15, σ 8, σ 14] * star (a.val [σ 105, σ 25, σ 19, σ 9, σ 18])) * (C.val [σ 11, σ 10] * T.val [σ 10, σ 7, Corner.Spec.fused dim σ 8 9])) := by
  subst hd
  have := q.rename (dim' := dimsRow (C4v.Spec.dims chi D p) c (fun _ => 0)) (fun l => [27, 31, 30, 11, 24, 25, 15, 19, 8, 9, 14, 18, 104, 105, 10, 7].getD l 0) [0, 1, 2, 3, 4, 5, 6, 7, 8, 9, 10, 11, 12, 13, 14, 15] (by decide)
    (by intro l hl; fin_cases hl <;> rfl) (by decide) (by decide) (by decide)
  exact this.congr (List.Perm.refl _) (fun _ h => h) (fun σ => rfl)

theorem tR_split {chi D p : Nat} {a C T x : Tensor K} (q : Denotes (C4v.Spec.dim chi D p) x [[15], [2], [10], [11], [12], [13]] [0, 1, 3, 4, 5, 6, 7, 8, 9, 14] [0, 1, 2, 3, 4, 5, 6, 7, 8, 9, 10, 11, 12, 13, 14, 15]
      (C4v.Spec.openHalf (C4v.Spec.dim chi D p) C T a)) (c : Coord) {dim : Nat → Nat} (hd : dim = dimsRow (C4v.Spec.dims chi D p) c (fun _ => 0)) :
    Denotes dim x [[7], [30], [14], [18], [104], [105]] [27, 31, 11, 24, 25, 15, 19, 8, 9, 10] [27, 31, 30, 11, 24, 25, 15, 19, 8, 9, 14, 18, 104, 105, 10, 7]
      (fun σ => C.val [σ 27, σ 31] * T.val [σ 30, σ 31, Corner.Spec.fused dim σ 24 25] * T.val [σ 27, σ 11, Corner.Spec.fused dim σ 15 19] * (a.val [σ 104, σ 24, σ 15, σ 8, σ 14] * star (a.val [σ 105, σ 25, σ 19, σ 9, σ 18])) * (C.val [σ 11, σ 10] * T.val [σ 10, σ 7, Corner.Spec.fused dim σ 8 9])) := by
  subst hd
  have := q.rename (dim' := dimsRow (C4v.Spec.dims chi D p) c (fun _ => 0)) (fun l => [27, 31, 30, 11, 24, 25, 15, 19, 8, 9, 14, 18, 104, 105, 10, 7].getD l 0) [0, 1, 2, 3, 4, 5, 6, 7, 8, 9, 10, 11, 12, 13, 14, 15] (by decide)
    (by intro l hl; fin_cases hl <;> rfl) (by decide) (by decide) (by decide)
  exact this.congr (List.Perm.refl _) (fun _ h => h) (fun σ => rfl)

/-- A network whose summands agree with a given one within bounds. -/
theorem network_bounded {dim : Nat → Nat} {T : Tensor K} {O : List (List Nat)} {L L' S : List Nat} {F F' : (Nat → Nat) → K} (h : Denotes dim T O L S F)
    (hL : L.Perm L') (hF : ∀ σ, (∀ l ∈ O.flatten ++ L', σ l < dim l) → F σ = F' σ) : Corner.Spec.IsNetwork dim T O L' F' := by
  refine ⟨h.shape, fun σ hσ => ?_⟩
  have s1 : ∀ l ∈ O.flatten, σ l < dim l := fun l hl => by obtain ⟨g, h1, h2⟩ := List.mem_flatten.1 hl; exact hσ g h1 l h2
  refine (h.val σ s1).trans ?_
  rw [sumOver_perm dim hL]
  apply sumOver_congr
  intro τ h1 h2
  apply hF
  intro l hl
  by_cases hl' : l ∈ L'
  · exact h1 l hl'
  · rw [h2 l hl']
    exact s1 l ((List.mem_append.1 hl).resolve_right hl')

theorem fused_lt {dim σ : Nat → Nat} {k b : Nat} (hk : σ k < dim k) (hb : σ b < dim b) : Corner.Spec.fused dim σ k b < dim k * dim b := by
  unfold Corner.Spec.fused
  calc _ < σ k * dim b + dim b := by omega
    _ = (σ k + 1) * dim b := by ring
    _ ≤ dim k * dim b := Nat.mul_le_mul_right _ hk

/-- `C4v.Spec.CSymm` in terms of the bond. -/
theorem csymm {chi : Nat} {env : C4v.Env K} (h : C4v.Spec.CSymm chi env) {i j : Nat} (hi : i < chi) (hj : j < chi) :
    env.C.val [i, j] = env.C.val [j, i] := h i j hi hj

theorem raw2x1Sl_same {chi D p : Nat} (hchi : 0 < chi) (hD : 0 < D) (hp : 0 < p) {a : Tensor K} {env : C4v.Env K} (hf : C4v.Spec.Fits chi D p a env) (hr : C4v.Spec.Rotated D p a) (hC : C4v.Spec.CSymm chi env) (c : Coord) :
    ∃ x e s t R, pairH (C4v.Spec.cell a) (C4v.Spec.unfold env) c = some (e, s, t) ∧ raw2x1 true a env.C env.T = some x ∧ sl2x1 e s t = some R ∧ Same x R := by
  obtain ⟨dim, hd⟩ : ∃ dim, dim = dimsH (C4v.Spec.dims chi D p) c := ⟨_, rfl⟩
  obtain ⟨e, s, t, h1, h0, h2⟩ := pairH_ok (fitsState hD hp hf) (fitsEnv hchi hf) c
  rw [← hd] at h2
  obtain ⟨R, eR, qR⟩ := sl2x1_denotes dim e s t h2
  obtain ⟨x, ex, q⟩ := halfSl_net rfl hf.site hf.corner hf.half
  have d_hL := hL_label q c hd
  have d_hR := hR_label q c hd
  obtain ⟨x1, e1, q1⟩ := Denotes.tensordot d_hL d_hR [0, 1, 2] [1, 0, 2] (dotOK_iff (by decide))
  obtain ⟨x2, e2, q2⟩ := Denotes.permute q1 [0, 2, 1, 3] (by decide)
  refine ⟨x2, e, s, t, R, h1, by simp [raw2x1, ex, e1, e2], eR, q2.same_bounded qR (by decide) (by decide) (fun σ hσ => ?_)⟩
  obtain ⟨rfl, h1'⟩ := Prod.mk.inj (Option.some.inj h1)
  obtain ⟨rfl, rfl⟩ := Prod.mk.inj h1'
  rw [hd] at hσ
  have p1 := pair2 hr (hσ 16 (by decide)) (hσ 14 (by decide)) (hσ 26 (by decide)) (hσ 22 (by decide)) (hσ 15 (by decide)) (hσ 19 (by decide)) (hσ 17 (by decide)) (hσ 27 (by decide)) (hσ 23 (by decide)) (hσ 18 (by decide))
  have c1 := csymm hC (hσ 9 (by decide)) (hσ 8 (by decide))
  have c2 := csymm hC (hσ 13 (by decide)) (hσ 12 (by decide))
  simp only [Spec.rhoH, List.getD_cons_zero, List.getD_cons_succ, C4v.Spec.turn2]
  rw [← p1, c1, c2]
  ring

theorem raw2x1Dl_same {chi D p : Nat} (hchi : 0 < chi) (hD : 0 < D) (hp : 0 < p) {a : Tensor K} {env : C4v.Env K} (hf : C4v.Spec.Fits chi D p a env) (hr : C4v.Spec.Rotated D p a) (hC : C4v.Spec.CSymm chi env) (c : Coord) :
    ∃ x e s t R, pairH (C4v.Spec.cell a) (C4v.Spec.unfold env) c = some (e, s, t) ∧ raw2x1 false a env.C env.T = some x ∧ sl2x1 e s t = some R ∧ Same x R := by
  obtain ⟨dim, hd⟩ : ∃ dim, dim = dimsH (C4v.Spec.dims chi D p) c := ⟨_, rfl⟩
  obtain ⟨e, s, t, h1, h0, h2⟩ := pairH_ok (fitsState hD hp hf) (fitsEnv hchi hf) c
  rw [← hd] at h2
  obtain ⟨R, eR, qR⟩ := sl2x1_denotes dim e s t h2
  obtain ⟨x, ex, q⟩ := halfDl_net rfl hf.site hf.corner hf.half
  have d_hL := hL_label q c hd
  have d_hR := hR_label q c hd
  obtain ⟨x1, e1, q1⟩ := Denotes.tensordot d_hL d_hR [0, 1, 2] [1, 0, 2] (dotOK_iff (by decide))
  obtain ⟨x2, e2, q2⟩ := Denotes.permute q1 [0, 2, 1, 3] (by decide)
  refine ⟨x2, e, s, t, R, h1, by simp [raw2x1, ex, e1, e2], eR, q2.same_bounded qR (by decide) (by decide) (fun σ hσ => ?_)⟩
  obtain ⟨rfl, h1'⟩ := Prod.mk.inj (Option.some.inj h1)
  obtain ⟨rfl, rfl⟩ := Prod.mk.inj h1'
  rw [hd] at hσ
  have p1 := pair2 hr (hσ 16 (by decide)) (hσ 14 (by decide)) (hσ 26 (by decide)) (hσ 22 (by decide)) (hσ 15 (by decide)) (hσ 19 (by decide)) (hσ 17 (by decide)) (hσ 27 (by decide)) (hσ 23 (by decide)) (hσ 18 (by decide))
  have c1 := csymm hC (hσ 9 (by decide)) (hσ 8 (by decide))
  have c2 := csymm hC (hσ 13 (by decide)) (hσ 12 (by decide))
  simp only [Spec.rhoH, List.getD_cons_zero, List.getD_cons_succ, C4v.Spec.turn2]
  rw [← p1, c1, c2]
  ring

theorem raw1Sl_net {chi D p : Nat} {a : Tensor K} {env : C4v.Env K} (hf : C4v.Spec.Fits chi D p a env) {dim : Nat → Nat} (c : Coord) (hd : dim = dims1 (C4v.Spec.dims chi D p) c) :
    ∃ x, raw1Sl a env.C env.T = some x ∧ Denotes dim x [[4], [7]] inner1 (List.range 18)
      (fun σ => env.C.val [σ 0, σ 1] * env.T.val [σ 0, σ 14, Corner.Spec.fused dim σ 3 6] * env.C.val [σ 14, σ 12] * env.T.val [σ 12, σ 13, Corner.Spec.fused dim σ 15 16] * env.T.val [σ 1, σ 9, Corner.Spec.fused dim σ 2 5] * env.C.val [σ 17, σ 13] * env.T.val [σ 17, σ 8, Corner.Spec.fused dim σ 10 11] * env.C.val [σ 8, σ 9] * (a.val [σ 4, σ 2, σ 3, σ 15, σ 10] * star (a.val [σ 7, σ 5, σ 6, σ 16, σ 11]))) := by
  have hs := hf.site
  have hC := hf.corner
  have hT := hf.half
  have g0 : dim 0 = chi := by rw [hd]; rfl
  have g1 : dim 1 = chi := by rw [hd]; rfl
  have g2 : dim 2 = D := by rw [hd]; rfl
  have g3 : dim 3 = D := by rw [hd]; rfl
  have g4 : dim 4 = p := by rw [hd]; rfl
  have g5 : dim 5 = D := by rw [hd]; rfl
  have g6 : dim 6 = D := by rw [hd]; rfl
  have g7 : dim 7 = p := by rw [hd]; rfl
  have g8 : dim 8 = chi := by rw [hd]; rfl
  have g9 : dim 9 = chi := by rw [hd]; rfl
  have g10 : dim 10 = D := by rw [hd]; rfl
  have g11 : dim 11 = D := by rw [hd]; rfl
  have g12 : dim 12 = chi := by rw [hd]; rfl
  have g13 : dim 13 = chi := by rw [hd]; rfl
  have g14 : dim 14 = chi := by rw [hd]; rfl
  have g15 : dim 15 = D := by rw [hd]; rfl
  have g16 : dim 16 = D := by rw [hd]; rfl
  have g17 : dim 17 = chi := by rw [hd]; rfl
  have dC1 := Denotes.leaf dim env.C [[0], [1]] (by simp [gdim, hC, g0, g1, g2, g3, g4, g5, g6, g7, g8, g9, g10, g11, g12, g13, g14, g15, g16, g17])
  have dT1 := Denotes.leaf dim env.T [[0], [14], [3, 6]] (by simp [gdim, hT, g0, g1, g2, g3, g4, g5, g6, g7, g8, g9, g10, g11, g12, g13, g14, g15, g16, g17])
  have dC2 := Denotes.leaf dim env.C [[14], [12]] (by simp [gdim, hC, g0, g1, g2, g3, g4, g5, g6, g7, g8, g9, g10, g11, g12, g13, g14, g15, g16, g17])
  have dC3 := Denotes.leaf dim env.C [[17], [13]] (by simp [gdim, hC, g0, g1, g2, g3, g4, g5, g6, g7, g8, g9, g10, g11, g12, g13, g14, g15, g16, g17])
  have dT2 := Denotes.leaf dim env.T [[17], [8], [10, 11]] (by simp [gdim, hT, g0, g1, g2, g3, g4, g5, g6, g7, g8, g9, g10, g11, g12, g13, g14, g15, g16, g17])
  have dC4 := Denotes.leaf dim env.C [[8], [9]] (by simp [gdim, hC, g0, g1, g2, g3, g4, g5, g6, g7, g8, g9, g10, g11, g12, g13, g14, g15, g16, g17])
  have dTb := Denotes.leaf dim env.T [[12], [13], [15, 16]] (by simp [gdim, hT, g0, g1, g2, g3, g4, g5, g6, g7, g8, g9, g10, g11, g12, g13, g14, g15, g16, g17])
  have dTt := Denotes.leaf dim env.T [[1], [9], [2, 5]] (by simp [gdim, hT, g0, g1, g2, g3, g4, g5, g6, g7, g8, g9, g10, g11, g12, g13, g14, g15, g16, g17])
  obtain ⟨x1, e1, q1⟩ := Denotes.tensordot dC1 dT1 [0] [0] (dotOK_iff (by decide))
  obtain ⟨x2, e2, q2⟩ := Denotes.tensordot q1 dC2 [1] [0] (dotOK_iff (by decide))
  obtain ⟨x3, e3, q3⟩ := Denotes.tensordot dC3 dT2 [0] [0] (dotOK_iff (by decide))
  obtain ⟨x4, e4, q4⟩ := Denotes.tensordot q3 dC4 [1] [0] (dotOK_iff (by decide))
  obtain rfl : x1 = x3 := Option.some.inj (e1.symm.trans e3)
  obtain rfl : x2 = x4 := Option.some.inj (e2.symm.trans e4)
  have da := Denotes.leaf dim a [[4], [2], [3], [15], [10]] (by simp [gdim, hs, g0, g1, g2, g3, g4, g5, g6, g7, g8, g9, g10, g11, g12, g13, g14, g15, g16, g17])
  have db := (Denotes.leaf dim a [[7], [5], [6], [16], [11]] (by simp [gdim, hs, g0, g1, g2, g3, g4, g5, g6, g7, g8, g9, g10, g11, g12, g13, g14, g15, g16, g17])).conj
  obtain ⟨x5, e5, q5⟩ := Denotes.tensordot q2 dTb [2] [0] (dotOK_iff (by decide))
  have sx' : x5.shape = List.map (gdim dim) [[1], [3, 6], [13], [15, 16]] := q5.shape
  have sx : x5.shape = [chi, D * D, chi, D * D] := by rw [sx']; simp [gdim, g0, g1, g2, g3, g4, g5, g6, g7, g8, g9, g10, g11, g12, g13, g14, g15, g16, g17]
  obtain ⟨x6, e6, q6⟩ := Denotes.view q5 [[1], [3], [6], [13], [15], [16]] [x5.size 0, a.size 2, a.size 2, x5.size 2, a.size 3, a.size 3] (by decide) (by simp [size, gdim, pow_two, sx, hs, g0, g1, g2, g3, g4, g5, g6, g7, g8, g9, g10, g11, g12, g13, g14, g15, g16, g17])
  obtain ⟨x7, e7, q7⟩ := Denotes.tensordot q6 da [1, 4] [2, 3] (dotOK_iff (by decide))
  obtain ⟨x8, e8, q8⟩ := Denotes.tensordot q7 db [1, 3] [2, 3] (dotOK_iff (by decide))
  have sy' : x8.shape = List.map (gdim dim) [[1], [13], [4], [2], [10], [7], [5], [11]] := q8.shape
  have sy : x8.shape = [chi, chi, p, D, D, p, D, D] := by rw [sy']; simp [gdim, g0, g1, g2, g3, g4, g5, g6, g7, g8, g9, g10, g11, g12, g13, g14, g15, g16, g17]
  obtain ⟨x9, e9, q9⟩ := Denotes.permute q8 [0, 1, 3, 6, 4, 7, 2, 5] (by decide)
  obtain ⟨x10, e10, q10⟩ := Denotes.view q9 [[1], [13], [2, 5], [10, 11], [4], [7]] [x8.size 0, x8.size 1, a.size 1 ^ 2, a.size 4 ^ 2, a.size 0, a.size 0] (by decide) (by simp [size, gdim, pow_two, sy, hs, g0, g1, g2, g3, g4, g5, g6, g7, g8, g9, g10, g11, g12, g13, g14, g15, g16, g17])
  obtain ⟨x11, e11, q11⟩ := Denotes.tensordot dTt q10 [0, 2] [0, 2] (dotOK_iff (by decide))
  obtain ⟨x12, e12, q12⟩ := Denotes.tensordot q11 q4 [0, 1, 2] [2, 0, 1] (dotOK_iff (by decide))
  refine ⟨x12, by simp [raw1Sl, ctc, e1, e2, e5, e6, e7, e8, e9, e10, e11, e12], q12.congr (by decide) (by decide) (fun σ => ?_)⟩
  simp only [List.map_cons, List.map_nil, gidx_single, Corner.fused_eq]
  ring

theorem raw1Sl_same {chi D p : Nat} (hchi : 0 < chi) (hD : 0 < D) (hp : 0 < p) {a : Tensor K} {env : C4v.Env K} (hf : C4v.Spec.Fits chi D p a env) (hS : C4v.Spec.CSymm chi env) (hTS : C4v.Spec.TSymm chi D env) (c : Coord) :
    ∃ x e s R, siteEnv (C4v.Spec.unfold env) ((C4v.Spec.cell a).vts c) = some e ∧ (C4v.Spec.cell a).site c = some s ∧ raw1Sl a env.C env.T = some x ∧ sl1x1 e s none = some R ∧ Same x R := by
  obtain ⟨dim, hd⟩ : ∃ dim, dim = dims1 (C4v.Spec.dims chi D p) c := ⟨_, rfl⟩
  obtain ⟨e, s, h1, h1', h0, h2⟩ := siteEnv_ok (fitsState hD hp hf) (fitsEnv hchi hf) c
  rw [← hd] at h2
  obtain ⟨R, eR, qR⟩ := sl1x1_open dim e s h2
  obtain ⟨x, ex, q⟩ := raw1Sl_net hf c hd
  refine ⟨x, e, s, R, h1, h1', ex, eR, q.same_bounded qR (by decide) (List.Perm.refl _) (fun σ hσ => ?_)⟩
  obtain rfl := Option.some.inj h1
  obtain rfl := Option.some.inj h1'
  have g2 : dim 2 = D := by rw [hd]; rfl
  have g5 : dim 5 = D := by rw [hd]; rfl
  have bf : Corner.Spec.fused dim σ 2 5 < D * D := by
    rw [show D * D = dim 2 * dim 5 by rw [g2, g5]]; exact fused_lt (hσ 2 (by decide)) (hσ 5 (by decide))
  rw [hd] at hσ
  have c1 := csymm hS (hσ 14 (by decide)) (hσ 12 (by decide))
  have c2 := csymm hS (hσ 8 (by decide)) (hσ 9 (by decide))
  have t1 := hTS (σ 1) (σ 9) (Corner.Spec.fused dim σ 2 5) (hσ 1 (by decide)) (hσ 9 (by decide)) bf
  simp only [Spec.rho1, List.getD_cons_zero, List.getD_cons_succ, C4v.Spec.turn2]
  rw [c1, c2, t1]
  ring

theorem raw1Dl_net {chi D p : Nat} {a : Tensor K} {env : C4v.Env K} (hf : C4v.Spec.Fits chi D p a env) {dim : Nat → Nat} (c : Coord) (hd : dim = dims1 (C4v.Spec.dims chi D p) c) :
    ∃ x, raw1Dl a env.C env.T = some x ∧ Denotes dim x [[4], [7]] inner1 (List.range 18)
      (fun σ => env.C.val [σ 0, σ 1] * env.T.val [σ 0, σ 14, Corner.Spec.fused dim σ 3 6] * env.C.val [σ 14, σ 12] * env.T.val [σ 12, σ 13, Corner.Spec.fused dim σ 15 16] * env.T.val [σ 9, σ 1, Corner.Spec.fused dim σ 2 5] * env.C.val [σ 17, σ 13] * env.T.val [σ 17, σ 8, Corner.Spec.fused dim σ 10 11] * env.C.val [σ 8, σ 9] * (a.val [σ 4, σ 2, σ 3, σ 15, σ 10] * star (a.val [σ 7, σ 5, σ 6, σ 16, σ 11]))) := by
  have hs := hf.site
  have hC := hf.corner
  have hT := hf.half
  have g0 : dim 0 = chi := by rw [hd]; rfl
  have g1 : dim 1 = chi := by rw [hd]; rfl
  have g2 : dim 2 = D := by rw [hd]; rfl
  have g3 : dim 3 = D := by rw [hd]; rfl
  have g4 : dim 4 = p := by rw [hd]; rfl
  have g5 : dim 5 = D := by rw [hd]; rfl
  have g6 : dim 6 = D := by rw [hd]; rfl
  have g7 : dim 7 = p := by rw [hd]; rfl
  have g8 : dim 8 = chi := by rw [hd]; rfl
  have g9 : dim 9 = chi := by rw [hd]; rfl
  have g10 : dim 10 = D := by rw [hd]; rfl
  have g11 : dim 11 = D := by rw [hd]; rfl
  have g12 : dim 12 = chi := by rw [hd]; rfl
  have g13 : dim 13 = chi := by rw [hd]; rfl
  have g14 : dim 14 = chi := by rw [hd]; rfl
  have g15 : dim 15 = D := by rw [hd]; rfl
  have g16 : dim 16 = D := by rw [hd]; rfl
  have g17 : dim 17 = chi := by rw [hd]; rfl
  have dC1 := Denotes.leaf dim env.C [[0], [1]] (by simp [gdim, hC, g0, g1, g2, g3, g4, g5, g6, g7, g8, g9, g10, g11, g12, g13, g14, g15, g16, g17])
  have dT1 := Denotes.leaf dim env.T [[0], [14], [3, 6]] (by simp [gdim, hT, g0, g1, g2, g3, g4, g5, g6, g7, g8, g9, g10, g11, g12, g13, g14, g15, g16, g17])
  have dC2 := Denotes.leaf dim env.C [[14], [12]] (by simp [gdim, hC, g0, g1, g2, g3, g4, g5, g6, g7, g8, g9, g10, g11, g12, g13, g14, g15, g16, g17])
  have dC3 := Denotes.leaf dim env.C [[17], [13]] (by simp [gdim, hC, g0, g1, g2, g3, g4, g5, g6, g7, g8, g9, g10, g11, g12, g13, g14, g15, g16, g17])
  have dT2 := Denotes.leaf dim env.T [[17], [8], [10, 11]] (by simp [gdim, hT, g0, g1, g2, g3, g4, g5, g6, g7, g8, g9, g10, g11, g12, g13, g14, g15, g16, g17])
  have dC4 := Denotes.leaf dim env.C [[8], [9]] (by simp [gdim, hC, g0, g1, g2, g3, g4, g5, g6, g7, g8, g9, g10, g11, g12, g13, g14, g15, g16, g17])
  have dTb := Denotes.leaf dim env.T [[12], [13], [15, 16]] (by simp [gdim, hT, g0, g1, g2, g3, g4, g5, g6, g7, g8, g9, g10, g11, g12, g13, g14, g15, g16, g17])
  have dTt := Denotes.leaf dim env.T [[9], [1], [2, 5]] (by simp [gdim, hT, g0, g1, g2, g3, g4, g5, g6, g7, g8, g9, g10, g11, g12, g13, g14, g15, g16, g17])
  obtain ⟨x1, e1, q1⟩ := Denotes.tensordot dC1 dT1 [0] [0] (dotOK_iff (by decide))
  obtain ⟨x2, e2, q2⟩ := Denotes.tensordot q1 dC2 [1] [0] (dotOK_iff (by decide))
  obtain ⟨x3, e3, q3⟩ := Denotes.tensordot dC3 dT2 [0] [0] (dotOK_iff (by decide))
  obtain ⟨x4, e4, q4⟩ := Denotes.tensordot q3 dC4 [1] [0] (dotOK_iff (by decide))
  obtain rfl : x1 = x3 := Option.some.inj (e1.symm.trans e3)
  obtain rfl : x2 = x4 := Option.some.inj (e2.symm.trans e4)
  obtain ⟨A, eA, dA⟩ := dlOpen_denotes dim a 4 2 3 15 10 5 6 16 11 7 (by decide) (by rw [hs, g4, g2, g3, g15, g10]) (by rw [g5, g2]) (by rw [g6, g3]) (by rw [g16, g15]) (by rw [g11, g10]) (by rw [g7, g4])
  obtain ⟨x5, e5, q5⟩ := Denotes.tensordot q2 dTb [2] [0] (dotOK_iff (by decide))
  obtain ⟨x6, e6, q6⟩ := Denotes.tensordot q5 dA [1, 3] [1, 2] (dotOK_iff (by decide))
  obtain ⟨x7, e7, q7⟩ := Denotes.tensordot dTt q6 [1, 2] [0, 2] (dotOK_iff (by decide))
  obtain ⟨x8, e8, q8⟩ := Denotes.tensordot q7 q4 [0, 1, 2] [2, 0, 1] (dotOK_iff (by decide))
  refine ⟨x8, by simp [raw1Dl, ctc, eA, e1, e2, e5, e6, e7, e8], q8.congr (by decide) (by decide) (fun σ => ?_)⟩
  simp only [List.map_cons, List.map_nil, gidx_single, Corner.fused_eq]
  ring

theorem raw1Dl_same {chi D p : Nat} (hchi : 0 < chi) (hD : 0 < D) (hp : 0 < p) {a : Tensor K} {env : C4v.Env K} (hf : C4v.Spec.Fits chi D p a env) (hS : C4v.Spec.CSymm chi env) (c : Coord) :
    ∃ x e s R, siteEnv (C4v.Spec.unfold env) ((C4v.Spec.cell a).vts c) = some e ∧ (C4v.Spec.cell a).site c = some s ∧ raw1Dl a env.C env.T = some x ∧ sl1x1 e s none = some R ∧ Same x R := by
  obtain ⟨dim, hd⟩ : ∃ dim, dim = dims1 (C4v.Spec.dims chi D p) c := ⟨_, rfl⟩
  obtain ⟨e, s, h1, h1', h0, h2⟩ := siteEnv_ok (fitsState hD hp hf) (fitsEnv hchi hf) c
  rw [← hd] at h2
  obtain ⟨R, eR, qR⟩ := sl1x1_open dim e s h2
  obtain ⟨x, ex, q⟩ := raw1Dl_net hf c hd
  refine ⟨x, e, s, R, h1, h1', ex, eR, q.same_bounded qR (by decide) (List.Perm.refl _) (fun σ hσ => ?_)⟩
  obtain rfl := Option.some.inj h1
  obtain rfl := Option.some.inj h1'
  rw [hd] at hσ
  have c1 := csymm hS (hσ 14 (by decide)) (hσ 12 (by decide))
  have c2 := csymm hS (hσ 8 (by decide)) (hσ 9 (by decide))
  simp only [Spec.rho1, List.getD_cons_zero, List.getD_cons_succ, C4v.Spec.turn2]
  rw [c1, c2]
  ring

theorem raw3Sl_net {chi D p : Nat} (hchi : 0 < chi) (hD : 0 < D) (hp : 0 < p) {a : Tensor K} {env : C4v.Env K} (hf : C4v.Spec.Fits chi D p a env) (hr : C4v.Spec.Rotated D p a) (hS : C4v.Spec.CSymm chi env) (c : Coord) :
    ∃ e x, AroundRow3 (C4v.Spec.cell a) (C4v.Spec.unfold env) c e ∧ raw3Sl a env.C env.T = some x ∧
      Corner.Spec.IsNetwork (dimsRow (C4v.Spec.dims chi D p) c (fun _ => 0)) x [[100], [104], [101], [105]] C4v.Spec.inner3 (C4v.Spec.rho3 (dimsRow (C4v.Spec.dims chi D p) c (fun _ => 0)) e) := by
  obtain ⟨dim, hd⟩ : ∃ dim, dim = dimsRow (C4v.Spec.dims chi D p) c (fun _ => 0) := ⟨_, rfl⟩
  obtain ⟨h, eh, q⟩ := halfSplit_net rfl hf.site hf.corner hf.half
  have hs := hf.site
  have hC := hf.corner
  have hT := hf.half
  have g0 : dim 0 = chi := by rw [hd]; rfl
  have g1 : dim 1 = chi := by rw [hd]; rfl
  have g2 : dim 2 = D := by rw [hd]; rfl
  have g3 : dim 3 = D := by rw [hd]; rfl
  have g4 : dim 4 = chi := by rw [hd]; rfl
  have g5 : dim 5 = D := by rw [hd]; rfl
  have g6 : dim 6 = D := by rw [hd]; rfl
  have g7 : dim 7 = chi := by rw [hd]; rfl
  have g8 : dim 8 = D := by rw [hd]; rfl
  have g9 : dim 9 = D := by rw [hd]; rfl
  have g10 : dim 10 = chi := by rw [hd]; rfl
  have g11 : dim 11 = chi := by rw [hd]; rfl
  have g12 : dim 12 = D := by rw [hd]; rfl
  have g13 : dim 13 = D := by rw [hd]; rfl
  have g14 : dim 14 = D := by rw [hd]; rfl
  have g15 : dim 15 = D := by rw [hd]; rfl
  have g16 : dim 16 = D := by rw [hd]; rfl
  have g17 : dim 17 = D := by rw [hd]; rfl
  have g18 : dim 18 = D := by rw [hd]; rfl
  have g19 : dim 19 = D := by rw [hd]; rfl
  have g20 : dim 20 = D := by rw [hd]; rfl
  have g21 : dim 21 = D := by rw [hd]; rfl
  have g22 : dim 22 = D := by rw [hd]; rfl
  have g23 : dim 23 = D := by rw [hd]; rfl
  have g24 : dim 24 = D := by rw [hd]; rfl
  have g25 : dim 25 = D := by rw [hd]; rfl
  have g26 : dim 26 = chi := by rw [hd]; rfl
  have g27 : dim 27 = chi := by rw [hd]; rfl
  have g28 : dim 28 = chi := by rw [hd]; rfl
  have g29 : dim 29 = chi := by rw [hd]; rfl
  have g30 : dim 30 = chi := by rw [hd]; rfl
  have g31 : dim 31 = chi := by rw [hd]; rfl
  have g100 : dim 100 = p := by rw [hd]; rfl
  have g101 : dim 101 = p := by rw [hd]; rfl
  have g102 : dim 102 = p := by rw [hd]; rfl
  have g104 : dim 104 = p := by rw [hd]; rfl
  have g105 : dim 105 = p := by rw [hd]; rfl
  have d_tL := tL_split q c hd
  have d_tR := tR_split q c hd
  have dTb := Denotes.leaf dim env.T [[29], [30], [22, 23]] (by simp [gdim, hT, g0, g1, g2, g3, g4, g5, g6, g7, g8, g9, g10, g11, g12, g13, g14, g15, g16, g17, g18, g19, g20, g21, g22, g23, g24, g25, g26, g27, g28, g29, g30, g31, g100, g101, g102, g104, g105])
  have dTt := Denotes.leaf dim env.T [[7], [4], [5, 6]] (by simp [gdim, hT, g0, g1, g2, g3, g4, g5, g6, g7, g8, g9, g10, g11, g12, g13, g14, g15, g16, g17, g18, g19, g20, g21, g22, g23, g24, g25, g26, g27, g28, g29, g30, g31, g100, g101, g102, g104, g105])
  have da := Denotes.leaf dim a [[102], [5], [13], [22], [14]] (by simp [gdim, hs, g0, g1, g2, g3, g4, g5, g6, g7, g8, g9, g10, g11, g12, g13, g14, g15, g16, g17, g18, g19, g20, g21, g22, g23, g24, g25, g26, g27, g28, g29, g30, g31, g100, g101, g102, g104, g105])
  have db := (Denotes.leaf dim a [[102], [6], [17], [23], [18]] (by simp [gdim, hs, g0, g1, g2, g3, g4, g5, g6, g7, g8, g9, g10, g11, g12, g13, g14, g15, g16, g17, g18, g19, g20, g21, g22, g23, g24, g25, g26, g27, g28, g29, g30, g31, g100, g101, g102, g104, g105])).conj
  obtain ⟨x1, e1, q1⟩ := Denotes.view dTb [[29], [30], [22], [23]] [env.T.size 0, env.T.size 1, a.size 1, a.size 1] (by decide) (by simp [size, gdim, pow_two, hT, hs, g0, g1, g2, g3, g4, g5, g6, g7, g8, g9, g10, g11, g12, g13, g14, g15, g16, g17, g18, g19, g20, g21, g22, g23, g24, g25, g26, g27, g28, g29, g30, g31, g100, g101, g102, g104, g105])
  obtain ⟨x2, e2, q2⟩ := Denotes.view dTt [[7], [4], [5], [6]] [env.T.size 0, env.T.size 1, a.size 1, a.size 1] (by decide) (by simp [size, gdim, pow_two, hT, hs, g0, g1, g2, g3, g4, g5, g6, g7, g8, g9, g10, g11, g12, g13, g14, g15, g16, g17, g18, g19, g20, g21, g22, g23, g24, g25, g26, g27, g28, g29, g30, g31, g100, g101, g102, g104, g105])
  obtain rfl : x1 = x2 := Option.some.inj (e1.symm.trans e2)
  obtain ⟨x3, e3, q3⟩ := Denotes.tensordot q1 d_tL [0] [0] (dotOK_iff (by decide))
  obtain ⟨x4, e4, q4⟩ := Denotes.tensordot db q3 [2, 3] [5, 2] (dotOK_iff (by decide))
  obtain ⟨x5, e5, q5⟩ := Denotes.tensordot da q4 [0, 2, 3] [0, 6, 4] (dotOK_iff (by decide))
  obtain ⟨x6, e6, q6⟩ := Denotes.tensordot q2 q5 [1, 2, 3] [5, 0, 2] (dotOK_iff (by decide))
  obtain ⟨x7, e7, q7⟩ := Denotes.tensordot q6 d_tR [0, 1, 2, 3] [0, 2, 3, 1] (dotOK_iff (by decide))
  obtain ⟨x8, e8, q8⟩ := Denotes.permute q7 [0, 2, 1, 3] (by decide)
  refine ⟨⟨_, _, _, _, _, _, _, _, _, _, _, _, _, _, _⟩, x8, ⟨rfl, rfl, rfl, rfl, rfl, rfl, rfl, rfl, rfl, rfl, rfl, rfl, rfl, rfl, rfl⟩, by simp [raw3Sl, eh, e1, e3, e4, e5, e6, e7, e8], ?_⟩
  rw [← hd]
  refine network_bounded q8 (by decide) (fun σ hσ => ?_)
  rw [hd] at hσ
  have p1 := pair2 hr (hσ 104 (by decide)) (hσ 8 (by decide)) (hσ 14 (by decide)) (hσ 24 (by decide)) (hσ 15 (by decide)) (hσ 105 (by decide)) (hσ 9 (by decide)) (hσ 18 (by decide)) (hσ 25 (by decide)) (hσ 19 (by decide))
  have c1 := csymm hS (hσ 26 (by decide)) (hσ 28 (by decide))
  have c2 := csymm hS (hσ 11 (by decide)) (hσ 10 (by decide))
  simp only [C4v.Spec.rho3, List.getD_cons_zero, List.getD_cons_succ, List.map_cons, List.map_nil, gidx_single, Corner.fused_eq, C4v.Spec.turn2]
  rw [← p1, c1, c2]
  ring

theorem raw3Dl_net {chi D p : Nat} (hchi : 0 < chi) (hD : 0 < D) (hp : 0 < p) {a : Tensor K} {env : C4v.Env K} (hf : C4v.Spec.Fits chi D p a env) (hr : C4v.Spec.Rotated D p a) (hS : C4v.Spec.CSymm chi env) (c : Coord) :
    ∃ e x, AroundRow3 (C4v.Spec.cell a) (C4v.Spec.unfold env) c e ∧ raw3Dl a env.C env.T = some x ∧
      Corner.Spec.IsNetwork (dimsRow (C4v.Spec.dims chi D p) c (fun _ => 0)) x [[100], [104], [101], [105]] C4v.Spec.inner3 (C4v.Spec.rho3 (dimsRow (C4v.Spec.dims chi D p) c (fun _ => 0)) e) := by
  obtain ⟨dim, hd⟩ : ∃ dim, dim = dimsRow (C4v.Spec.dims chi D p) c (fun _ => 0) := ⟨_, rfl⟩
  obtain ⟨h, eh, q⟩ := halfDl_net rfl hf.site hf.corner hf.half
  have hs := hf.site
  have hC := hf.corner
  have hT := hf.half
  have g0 : dim 0 = chi := by rw [hd]; rfl
  have g1 : dim 1 = chi := by rw [hd]; rfl
  have g2 : dim 2 = D := by rw [hd]; rfl
  have g3 : dim 3 = D := by rw [hd]; rfl
  have g4 : dim 4 = chi := by rw [hd]; rfl
  have g5 : dim 5 = D := by rw [hd]; rfl
  have g6 : dim 6 = D := by rw [hd]; rfl
  have g7 : dim 7 = chi := by rw [hd]; rfl
  have g8 : dim 8 = D := by rw [hd]; rfl
  have g9 : dim 9 = D := by rw [hd]; rfl
  have g10 : dim 10 = chi := by rw [hd]; rfl
  have g11 : dim 11 = chi := by rw [hd]; rfl
  have g12 : dim 12 = D := by rw [hd]; rfl
  have g13 : dim 13 = D := by rw [hd]; rfl
  have g14 : dim 14 = D := by rw [hd]; rfl
  have g15 : dim 15 = D := by rw [hd]; rfl
  have g16 : dim 16 = D := by rw [hd]; rfl
  have g17 : dim 17 = D := by rw [hd]; rfl
  have g18 : dim 18 = D := by rw [hd]; rfl
  have g19 : dim 19 = D := by rw [hd]; rfl
  have g20 : dim 20 = D := by rw [hd]; rfl
  have g21 : dim 21 = D := by rw [hd]; rfl
  have g22 : dim 22 = D := by rw [hd]; rfl
  have g23 : dim 23 = D := by rw [hd]; rfl
  have g24 : dim 24 = D := by rw [hd]; rfl
  have g25 : dim 25 = D := by rw [hd]; rfl
  have g26 : dim 26 = chi := by rw [hd]; rfl
  have g27 : dim 27 = chi := by rw [hd]; rfl
  have g28 : dim 28 = chi := by rw [hd]; rfl
  have g29 : dim 29 = chi := by rw [hd]; rfl
  have g30 : dim 30 = chi := by rw [hd]; rfl
  have g31 : dim 31 = chi := by rw [hd]; rfl
  have g100 : dim 100 = p := by rw [hd]; rfl
  have g101 : dim 101 = p := by rw [hd]; rfl
  have g102 : dim 102 = p := by rw [hd]; rfl
  have g104 : dim 104 = p := by rw [hd]; rfl
  have g105 : dim 105 = p := by rw [hd]; rfl
  have d_tL := tL_label q c hd
  have d_tR := tR_label q c hd
  have dTb := Denotes.leaf dim env.T [[29], [30], [22, 23]] (by simp [gdim, hT, g0, g1, g2, g3, g4, g5, g6, g7, g8, g9, g10, g11, g12, g13, g14, g15, g16, g17, g18, g19, g20, g21, g22, g23, g24, g25, g26, g27, g28, g29, g30, g31, g100, g101, g102, g104, g105])
  have dTt := Denotes.leaf dim env.T [[7], [4], [5, 6]] (by simp [gdim, hT, g0, g1, g2, g3, g4, g5, g6, g7, g8, g9, g10, g11, g12, g13, g14, g15, g16, g17, g18, g19, g20, g21, g22, g23, g24, g25, g26, g27, g28, g29, g30, g31, g100, g101, g102, g104, g105])
  have g103 : dim 103 = p := by rw [hd]; rfl
  obtain ⟨Ao, eA, dAo⟩ := dlOpen_denotes dim a 102 5 13 22 14 6 17 23 18 103 (by decide) (by rw [hs, g102, g5, g13, g22, g14]) (by rw [g6, g5]) (by rw [g17, g13]) (by rw [g23, g22]) (by rw [g18, g14]) (by rw [g103, g102])
  obtain ⟨A, eA', dA0⟩ := Denotes.trace (O := [[5, 6], [13, 17], [22, 23], [14, 18]]) dAo (by rw [g103, g102]) (by decide)
  have dA := dA0.congr (F' := fun σ => a.val [σ 102, σ 5, σ 13, σ 22, σ 14] * star (a.val [σ 102, σ 6, σ 17, σ 23, σ 18])) (List.Perm.refl _) (fun _ h => h) (fun σ => rfl)
  obtain ⟨x1, e1, q1⟩ := Denotes.tensordot dTb d_tL [0] [0] (dotOK_iff (by decide))
  obtain ⟨x2, e2, q2⟩ := Denotes.tensordot dA q1 [1, 2] [3, 1] (dotOK_iff (by decide))
  obtain ⟨x3, e3, q3⟩ := Denotes.tensordot dTt q2 [1, 2] [3, 0] (dotOK_iff (by decide))
  obtain ⟨x4, e4, q4⟩ := Denotes.tensordot q3 d_tR [0, 1, 2] [0, 2, 1] (dotOK_iff (by decide))
  obtain ⟨x5, e5, q5⟩ := Denotes.permute q4 [0, 2, 1, 3] (by decide)
  have eA'' : einsum [(Ao, [0, 1, 2, 3, 4, 4])] [0, 1, 2, 3] = some A := eA'
  refine ⟨⟨_, _, _, _, _, _, _, _, _, _, _, _, _, _, _⟩, x5, ⟨rfl, rfl, rfl, rfl, rfl, rfl, rfl, rfl, rfl, rfl, rfl, rfl, rfl, rfl, rfl⟩, by simp [raw3Dl, eA, eA'', eh, e1, e2, e3, e4, e5], ?_⟩
  rw [← hd]
  refine network_bounded q5 (by decide) (fun σ hσ => ?_)
  rw [hd] at hσ
  have p1 := pair2 hr (hσ 104 (by decide)) (hσ 8 (by decide)) (hσ 14 (by decide)) (hσ 24 (by decide)) (hσ 15 (by decide)) (hσ 105 (by decide)) (hσ 9 (by decide)) (hσ 18 (by decide)) (hσ 25 (by decide)) (hσ 19 (by decide))
  have c1 := csymm hS (hσ 26 (by decide)) (hσ 28 (by decide))
  have c2 := csymm hS (hσ 11 (by decide)) (hσ 10 (by decide))
  simp only [C4v.Spec.rho3, List.getD_cons_zero, List.getD_cons_succ, List.map_cons, List.map_nil, gidx_single, Corner.fused_eq, C4v.Spec.turn2]
  rw [← p1, c1, c2]
  ring

end Verif.C4v
