import Verif.C4v.RdmNet
/-
The networks of the C4v density matrices of a plaquette with the labels of the general code (generated).
-/
namespace Verif.C4v
open Tensor Ctm Rdm Ctm.Spec Rdm.Spec
set_option linter.unusedSimpArgs false
set_option linter.unusedVariables false
variable {K : Type} [RCLike K]

theorem openC_net (sl : Bool) {chi D p : Nat} {a C T : Tensor K} (hs : a.shape = [p, D, D, D, D])
    (hC : C.shape = [chi, chi]) (hT : T.shape = [chi, chi, D * D]) :
    ∃ R, openC sl C T a = some R ∧ Denotes (C4v.Spec.dim chi D p) R [[3, 8, 9], [2, 10, 11], [12], [13]] [0, 1, 4, 5, 6, 7] [0, 1, 2, 3, 4, 5, 6, 7, 8, 9, 10, 11, 12, 13]
      (C4v.Spec.openCorner (C4v.Spec.dim chi D p) C T a) := by
  cases sl with
  | true => exact openSl_net rfl hs hC hT
  | false => exact openDl_net rfl hs hC hT

theorem openC_shape {chi D p : Nat} {dim : Nat → Nat} (hd : dim = C4v.Spec.dim chi D p) {x : Tensor K} {L S : List Nat} {F : (Nat → Nat) → K}
    (q : Denotes dim x [[3, 8, 9], [2, 10, 11], [12], [13]] L S F) : x.shape = [chi * (D * D), chi * (D * D), p, p] := by
  rw [q.shape, hd]
  simp [gdim, C4v.Spec.dim]

/-- A product of the site tensor and its conjugate may be turned. -/
theorem pair1 {D p : Nat} {a : Tensor K} (h : C4v.Spec.Rotated D p a) {i u l d r i' u' l' d' r' : Nat} (h1 : i < p) (h2 : u < D) (h3 : l < D) (h4 : d < D) (h5 : r < D)
    (h1' : i' < p) (h2' : u' < D) (h3' : l' < D) (h4' : d' < D) (h5' : r' < D) :
    a.val [i, r, u, l, d] * star (a.val [i', r', u', l', d']) = a.val [i, u, l, d, r] * star (a.val [i', u', l', d', r']) := by
  obtain ⟨s, hs, ha⟩ := h
  rw [ha i u l d r h1 h2 h3 h4 h5, ha i' u' l' d' r' h1' h2' h3' h4' h5', star_mul']
  linear_combination (a.val [i, u, l, d, r] * star (a.val [i', u', l', d', r'])) * hs

theorem pair2 {D p : Nat} {a : Tensor K} (h : C4v.Spec.Rotated D p a) {i u l d r i' u' l' d' r' : Nat} (h1 : i < p) (h2 : u < D) (h3 : l < D) (h4 : d < D) (h5 : r < D)
    (h1' : i' < p) (h2' : u' < D) (h3' : l' < D) (h4' : d' < D) (h5' : r' < D) :
    a.val [i, d, r, u, l] * star (a.val [i', d', r', u', l']) = a.val [i, u, l, d, r] * star (a.val [i', u', l', d', r']) := by
  rw [pair1 h h1 h5 h2 h3 h4 h1' h5' h2' h3' h4', pair1 h h1 h2 h3 h4 h5 h1' h2' h3' h4' h5']

theorem pair3 {D p : Nat} {a : Tensor K} (h : C4v.Spec.Rotated D p a) {i u l d r i' u' l' d' r' : Nat} (h1 : i < p) (h2 : u < D) (h3 : l < D) (h4 : d < D) (h5 : r < D)
    (h1' : i' < p) (h2' : u' < D) (h3' : l' < D) (h4' : d' < D) (h5' : r' < D) :
    a.val [i, l, d, r, u] * star (a.val [i', l', d', r', u']) = a.val [i, u, l, d, r] * star (a.val [i', u', l', d', r']) := by
  rw [pair1 h h1 h4 h5 h2 h3 h1' h4' h5' h2' h3', pair2 h h1 h2 h3 h4 h5 h1' h2' h3' h4' h5']

theorem lu_label {chi D p : Nat} {a C T x : Tensor K} (q : Denotes (C4v.Spec.dim chi D p) x [[3, 8, 9], [2, 10, 11], [12], [13]] [0, 1, 4, 5, 6, 7] [0, 1, 2, 3, 4, 5, 6, 7, 8, 9, 10, 11, 12, 13]
      (C4v.Spec.openCorner (C4v.Spec.dim chi D p) C T a)) (c : Coord) {dim : Nat → Nat} (hd : dim = dimsP (C4v.Spec.dims chi D p) c) :
    Denotes dim x [[15, 16, 17], [36, 37, 38], [100], [101]] [0, 1, 2, 5, 3, 6] [0, 1, 36, 15, 2, 5, 3, 6, 16, 17, 37, 38, 100, 101]
      (fun σ => C.val [σ 0, σ 1] * T.val [σ 36, σ 1, Corner.Spec.fused dim σ 2 5] * T.val [σ 0, σ 15, Corner.Spec.fused dim σ 3 6] * (a.val [σ 100, σ 2, σ 3, σ 16, σ 37] * star (a.val [σ 101, σ 5, σ 6, σ 17, σ 38]))) := by
  subst hd
  have := q.rename (dim' := dimsP (C4v.Spec.dims chi D p) c) (fun l => [0, 1, 36, 15, 2, 5, 3, 6, 16, 17, 37, 38, 100, 101].getD l 0) [0, 1, 2, 3, 4, 5, 6, 7, 8, 9, 10, 11, 12, 13] (by decide)
    (by intro l hl; fin_cases hl <;> rfl) (by decide) (by decide) (by decide)
  exact this.congr (List.Perm.refl _) (fun _ h => h) (fun σ => rfl)

theorem ru_label {chi D p : Nat} {a C T x : Tensor K} (q : Denotes (C4v.Spec.dim chi D p) x [[3, 8, 9], [2, 10, 11], [12], [13]] [0, 1, 4, 5, 6, 7] [0, 1, 2, 3, 4, 5, 6, 7, 8, 9, 10, 11, 12, 13]
      (C4v.Spec.openCorner (C4v.Spec.dim chi D p) C T a)) (c : Coord) {dim : Nat → Nat} (hd : dim = dimsP (C4v.Spec.dims chi D p) c) :
    Denotes dim x [[36, 37, 38], [33, 34, 35], [102], [103]] [18, 19, 21, 24, 20, 23] [18, 19, 33, 36, 21, 24, 20, 23, 37, 38, 34, 35, 102, 103]
      (fun σ => C.val [σ 18, σ 19] * T.val [σ 33, σ 19, Corner.Spec.fused dim σ 21 24] * T.val [σ 18, σ 36, Corner.Spec.fused dim σ 20 23] * (a.val [σ 102, σ 21, σ 20, σ 37, σ 34] * star (a.val [σ 103, σ 24, σ 23, σ 38, σ 35]))) := by
  subst hd
  have := q.rename (dim' := dimsP (C4v.Spec.dims chi D p) c) (fun l => [18, 19, 33, 36, 21, 24, 20, 23, 37, 38, 34, 35, 102, 103].getD l 0) [0, 1, 2, 3, 4, 5, 6, 7, 8, 9, 10, 11, 12, 13] (by decide)
    (by intro l hl; fin_cases hl <;> rfl) (by decide) (by decide) (by decide)
  exact this.congr (List.Perm.refl _) (fun _ h => h) (fun σ => rfl)

theorem rd_label {chi D p : Nat} {a C T x : Tensor K} (q : Denotes (C4v.Spec.dim chi D p) x [[3, 8, 9], [2, 10, 11], [12], [13]] [0, 1, 4, 5, 6, 7] [0, 1, 2, 3, 4, 5, 6, 7, 8, 9, 10, 11, 12, 13]
      (C4v.Spec.openCorner (C4v.Spec.dim chi D p) C T a)) (c : Coord) {dim : Nat → Nat} (hd : dim = dimsP (C4v.Spec.dims chi D p) c) :
    Denotes dim x [[33, 34, 35], [41, 39, 40], [106], [107]] [26, 27, 29, 32, 28, 31] [26, 27, 41, 33, 29, 32, 28, 31, 34, 35, 39, 40, 106, 107]
      (fun σ => C.val [σ 26, σ 27] * T.val [σ 41, σ 27, Corner.Spec.fused dim σ 29 32] * T.val [σ 26, σ 33, Corner.Spec.fused dim σ 28 31] * (a.val [σ 106, σ 29, σ 28, σ 34, σ 39] * star (a.val [σ 107, σ 32, σ 31, σ 35, σ 40]))) := by
  subst hd
  have := q.rename (dim' := dimsP (C4v.Spec.dims chi D p) c) (fun l => [26, 27, 41, 33, 29, 32, 28, 31, 34, 35, 39, 40, 106, 107].getD l 0) [0, 1, 2, 3, 4, 5, 6, 7, 8, 9, 10, 11, 12, 13] (by decide)
    (by intro l hl; fin_cases hl <;> rfl) (by decide) (by decide) (by decide)
  exact this.congr (List.Perm.refl _) (fun _ h => h) (fun σ => rfl)

theorem ld_label {chi D p : Nat} {a C T x : Tensor K} (q : Denotes (C4v.Spec.dim chi D p) x [[3, 8, 9], [2, 10, 11], [12], [13]] [0, 1, 4, 5, 6, 7] [0, 1, 2, 3, 4, 5, 6, 7, 8, 9, 10, 11, 12, 13]
      (C4v.Spec.openCorner (C4v.Spec.dim chi D p) C T a)) (c : Coord) {dim : Nat → Nat} (hd : dim = dimsP (C4v.Spec.dims chi D p) c) :
    Denotes dim x [[41, 39, 40], [15, 16, 17], [104], [105]] [7, 8, 9, 12, 10, 13] [7, 8, 15, 41, 9, 12, 10, 13, 39, 40, 16, 17, 104, 105]
      (fun σ => C.val [σ 7, σ 8] * T.val [σ 15, σ 8, Corner.Spec.fused dim σ 9 12] * T.val [σ 7, σ 41, Corner.Spec.fused dim σ 10 13] * (a.val [σ 104, σ 9, σ 10, σ 39, σ 16] * star (a.val [σ 105, σ 12, σ 13, σ 40, σ 17]))) := by
  subst hd
  have := q.rename (dim' := dimsP (C4v.Spec.dims chi D p) c) (fun l => [7, 8, 15, 41, 9, 12, 10, 13, 39, 40, 16, 17, 104, 105].getD l 0) [0, 1, 2, 3, 4, 5, 6, 7, 8, 9, 10, 11, 12, 13] (by decide)
    (by intro l hl; fin_cases hl <;> rfl) (by decide) (by decide) (by decide)
  exact this.congr (List.Perm.refl _) (fun _ h => h) (fun σ => rfl)

theorem closeC_net {chi D p : Nat} {a C T x : Tensor K} (q : Denotes (C4v.Spec.dim chi D p) x [[3, 8, 9], [2, 10, 11], [12], [13]] [0, 1, 4, 5, 6, 7] [0, 1, 2, 3, 4, 5, 6, 7, 8, 9, 10, 11, 12, 13]
      (C4v.Spec.openCorner (C4v.Spec.dim chi D p) C T a)) (c : Coord) {dim : Nat → Nat} (hd : dim = dimsP (C4v.Spec.dims chi D p) c) :
    ∃ y, closeC x = some y ∧
      Denotes dim y [[15, 16, 17], [36, 37, 38]] [100, 0, 1, 2, 5, 3, 6] [100, 0, 1, 36, 15, 2, 5, 3, 6, 16, 17, 37, 38, 100, 101]
      (fun σ => C.val [σ 0, σ 1] * T.val [σ 36, σ 1, Corner.Spec.fused dim σ 2 5] * T.val [σ 0, σ 15, Corner.Spec.fused dim σ 3 6] * (a.val [σ 100, σ 2, σ 3, σ 16, σ 37] * star (a.val [σ 100, σ 5, σ 6, σ 17, σ 38]))) ∧
      Denotes dim y [[36, 37, 38], [33, 34, 35]] [102, 18, 19, 21, 24, 20, 23] [102, 18, 19, 33, 36, 21, 24, 20, 23, 37, 38, 34, 35, 102, 103]
      (fun σ => C.val [σ 18, σ 19] * T.val [σ 33, σ 19, Corner.Spec.fused dim σ 21 24] * T.val [σ 18, σ 36, Corner.Spec.fused dim σ 20 23] * (a.val [σ 102, σ 21, σ 20, σ 37, σ 34] * star (a.val [σ 102, σ 24, σ 23, σ 38, σ 35]))) ∧
      Denotes dim y [[33, 34, 35], [41, 39, 40]] [106, 26, 27, 29, 32, 28, 31] [106, 26, 27, 41, 33, 29, 32, 28, 31, 34, 35, 39, 40, 106, 107]
      (fun σ => C.val [σ 26, σ 27] * T.val [σ 41, σ 27, Corner.Spec.fused dim σ 29 32] * T.val [σ 26, σ 33, Corner.Spec.fused dim σ 28 31] * (a.val [σ 106, σ 29, σ 28, σ 34, σ 39] * star (a.val [σ 106, σ 32, σ 31, σ 35, σ 40]))) ∧
      Denotes dim y [[41, 39, 40], [15, 16, 17]] [104, 7, 8, 9, 12, 10, 13] [104, 7, 8, 15, 41, 9, 12, 10, 13, 39, 40, 16, 17, 104, 105]
      (fun σ => C.val [σ 7, σ 8] * T.val [σ 15, σ 8, Corner.Spec.fused dim σ 9 12] * T.val [σ 7, σ 41, Corner.Spec.fused dim σ 10 13] * (a.val [σ 104, σ 9, σ 10, σ 39, σ 16] * star (a.val [σ 104, σ 12, σ 13, σ 40, σ 17]))) := by
  obtain ⟨y_lu, e_lu, q_lu⟩ := Denotes.trace (O := [[15, 16, 17], [36, 37, 38]]) (lu_label q c hd) (by rw [hd]; rfl) (by decide)
  obtain ⟨y_ru, e_ru, q_ru⟩ := Denotes.trace (O := [[36, 37, 38], [33, 34, 35]]) (ru_label q c hd) (by rw [hd]; rfl) (by decide)
  obtain ⟨y_rd, e_rd, q_rd⟩ := Denotes.trace (O := [[33, 34, 35], [41, 39, 40]]) (rd_label q c hd) (by rw [hd]; rfl) (by decide)
  obtain ⟨y_ld, e_ld, q_ld⟩ := Denotes.trace (O := [[41, 39, 40], [15, 16, 17]]) (ld_label q c hd) (by rw [hd]; rfl) (by decide)
  have f (y : Tensor K) (h : Tensor.einsum [(x, List.range 2 ++ [2, 2])] (List.range 2) = some y) : y = y_lu := Option.some.inj (h.symm.trans e_lu)
  obtain rfl := f y_ru e_ru
  obtain rfl := f y_rd e_rd
  obtain rfl := f y_ld e_ld
  refine ⟨_, e_lu, q_lu.congr (List.Perm.refl _) (fun _ h => h) (fun σ => rfl), q_ru.congr (List.Perm.refl _) (fun _ h => h) (fun σ => rfl), q_rd.congr (List.Perm.refl _) (fun _ h => h) (fun σ => rfl), q_ld.congr (List.Perm.refl _) (fun _ h => h) (fun σ => rfl)⟩

theorem fitsState {chi D p : Nat} (hD : 0 < D) (hp : 0 < p) {a : Tensor K} {env : C4v.Env K} (hf : C4v.Spec.Fits chi D p a env) :
    FitsState (C4v.Spec.dims chi D p) (C4v.Spec.cell a) :=
  ⟨fun c => ⟨a, rfl, hf.site⟩, ⟨fun _ => hp, fun _ => rfl⟩, ⟨fun _ => hD, fun _ => rfl⟩, ⟨fun _ => hD, fun _ => rfl⟩⟩

theorem fitsEnv {chi D p : Nat} (hchi : 0 < chi) {a : Tensor K} {env : C4v.Env K} (hf : C4v.Spec.Fits chi D p a env) :
    FitsEnv (C4v.Spec.dims chi D p) (C4v.Spec.cell a) (C4v.Spec.unfold env) := by
  have s : Sizes (C4v.Spec.cell a) (fun _ => chi) := ⟨fun _ => hchi, fun _ => rfl⟩
  refine ⟨fun _ => ⟨_, rfl, ?_⟩, fun _ => ⟨_, rfl, ?_⟩, fun _ => ⟨_, rfl, ?_⟩, fun _ => ⟨_, rfl, ?_⟩, fun _ => ⟨_, rfl, ?_⟩, fun _ => ⟨_, rfl, ?_⟩, fun _ => ⟨_, rfl, ?_⟩,
    fun _ => ⟨_, rfl, ?_⟩, s, s, s, s⟩ <;> simp [C4v.Spec.dims, C4v.Spec.turn2, size, hf.corner, hf.half]

theorem raw2x2_same {chi D p : Nat} (hchi : 0 < chi) (hD : 0 < D) (hp : 0 < p) {a : Tensor K} {env : C4v.Env K} (hf : C4v.Spec.Fits chi D p a env) (hr : C4v.Spec.Rotated D p a) (c : Coord) :
    ∃ x e s R, plaq (C4v.Spec.cell a) (C4v.Spec.unfold env) c = some (e, s) ∧ raw2x2 a env.C env.T = some x ∧ oe2x2 e s [0, 1, 2, 3] = some R ∧ Same x R := by
  obtain ⟨dim, hd⟩ : ∃ dim, dim = dimsP (C4v.Spec.dims chi D p) c := ⟨_, rfl⟩
  obtain ⟨e, s, h1, h0, h2⟩ := plaq_ok (fitsState hD hp hf) (fitsEnv hchi hf) c
  rw [← hd] at h2
  obtain ⟨R, eR, qR⟩ := oe2x2_denotes dim e s h2 [0, 1, 2, 3] (by decide)
  obtain ⟨x, ex, q⟩ := openC_net false hf.site hf.corner hf.half
  have hx := openC_shape rfl q
  have hs := hf.site
  have hC := hf.corner
  have hT := hf.half
  have d_lu := lu_label q c hd
  have d_ru := ru_label q c hd
  have d_rd := rd_label q c hd
  have d_ld := ld_label q c hd
  have g0 : dim 0 = chi := by rw [hd]; rfl
  have g1 : dim 1 = chi := by rw [hd]; rfl
  have g2 : dim 2 = D := by rw [hd]; rfl
  have g3 : dim 3 = D := by rw [hd]; rfl
  have g5 : dim 5 = D := by rw [hd]; rfl
  have g6 : dim 6 = D := by rw [hd]; rfl
  have g7 : dim 7 = chi := by rw [hd]; rfl
  have g8 : dim 8 = chi := by rw [hd]; rfl
  have g9 : dim 9 = D := by rw [hd]; rfl
  have g10 : dim 10 = D := by rw [hd]; rfl
  have g12 : dim 12 = D := by rw [hd]; rfl
  have g13 : dim 13 = D := by rw [hd]; rfl
  have g15 : dim 15 = chi := by rw [hd]; rfl
  have g16 : dim 16 = D := by rw [hd]; rfl
  have g17 : dim 17 = D := by rw [hd]; rfl
  have g18 : dim 18 = chi := by rw [hd]; rfl
  have g19 : dim 19 = chi := by rw [hd]; rfl
  have g20 : dim 20 = D := by rw [hd]; rfl
  have g21 : dim 21 = D := by rw [hd]; rfl
  have g23 : dim 23 = D := by rw [hd]; rfl
  have g24 : dim 24 = D := by rw [hd]; rfl
  have g26 : dim 26 = chi := by rw [hd]; rfl
  have g27 : dim 27 = chi := by rw [hd]; rfl
  have g28 : dim 28 = D := by rw [hd]; rfl
  have g29 : dim 29 = D := by rw [hd]; rfl
  have g31 : dim 31 = D := by rw [hd]; rfl
  have g32 : dim 32 = D := by rw [hd]; rfl
  have g33 : dim 33 = chi := by rw [hd]; rfl
  have g34 : dim 34 = D := by rw [hd]; rfl
  have g35 : dim 35 = D := by rw [hd]; rfl
  have g36 : dim 36 = chi := by rw [hd]; rfl
  have g37 : dim 37 = D := by rw [hd]; rfl
  have g38 : dim 38 = D := by rw [hd]; rfl
  have g39 : dim 39 = D := by rw [hd]; rfl
  have g40 : dim 40 = D := by rw [hd]; rfl
  have g41 : dim 41 = chi := by rw [hd]; rfl
  have g100 : dim 100 = p := by rw [hd]; rfl
  have g101 : dim 101 = p := by rw [hd]; rfl
  have g102 : dim 102 = p := by rw [hd]; rfl
  have g103 : dim 103 = p := by rw [hd]; rfl
  have g104 : dim 104 = p := by rw [hd]; rfl
  have g105 : dim 105 = p := by rw [hd]; rfl
  have g106 : dim 106 = p := by rw [hd]; rfl
  have g107 : dim 107 = p := by rw [hd]; rfl
  obtain ⟨x1, e1, q1⟩ := Denotes.tensordot d_lu d_ru [1] [0] (dotOK_iff (by decide))
  obtain ⟨x2, e2, q2⟩ := Denotes.permute q1 [0, 3, 1, 2, 4, 5] (by decide)
  obtain ⟨x3, e3, q3⟩ := Denotes.tensordot d_rd d_ld [1] [0] (dotOK_iff (by decide))
  obtain ⟨x4, e4, q4⟩ := Denotes.permute q3 [0, 3, 1, 2, 4, 5] (by decide)
  obtain rfl : x1 = x3 := Option.some.inj (e1.symm.trans e3)
  obtain rfl : x2 = x4 := Option.some.inj (e2.symm.trans e4)
  obtain ⟨x5, e5, q5⟩ := Denotes.tensordot q2 q4 [0, 1] [1, 0] (dotOK_iff (by decide))
  obtain ⟨x6, e6, q6⟩ := Denotes.permute q5 [0, 2, 6, 4, 1, 3, 7, 5] (by decide)
  have ex' : openDl env.C env.T a = some x := ex
  refine ⟨x6, e, s, R, h1, by simp [raw2x2, ex', e1, e2, e5, e6], eR, q6.same_bounded qR (by decide) (by decide) (fun σ hσ => ?_)⟩
  obtain ⟨rfl, rfl⟩ := Prod.mk.inj (Option.some.inj h1)
  rw [hd] at hσ
  have p1 := pair1 hr (hσ 102 (by decide)) (hσ 20 (by decide)) (hσ 37 (by decide)) (hσ 34 (by decide)) (hσ 21 (by decide)) (hσ 103 (by decide)) (hσ 23 (by decide)) (hσ 38 (by decide)) (hσ 35 (by decide)) (hσ 24 (by decide))
  have p3 := pair2 hr (hσ 106 (by decide)) (hσ 34 (by decide)) (hσ 39 (by decide)) (hσ 29 (by decide)) (hσ 28 (by decide)) (hσ 107 (by decide)) (hσ 35 (by decide)) (hσ 40 (by decide)) (hσ 32 (by decide)) (hσ 31 (by decide))
  have p2 := pair3 hr (hσ 104 (by decide)) (hσ 16 (by decide)) (hσ 9 (by decide)) (hσ 10 (by decide)) (hσ 39 (by decide)) (hσ 105 (by decide)) (hσ 17 (by decide)) (hσ 12 (by decide)) (hσ 13 (by decide)) (hσ 40 (by decide))
  have b0 : Rdm.Spec.bra [0, 1, 2, 3] 0 = 101 := rfl
  have b1 : Rdm.Spec.bra [0, 1, 2, 3] 1 = 103 := rfl
  have b2 : Rdm.Spec.bra [0, 1, 2, 3] 2 = 105 := rfl
  have b3 : Rdm.Spec.bra [0, 1, 2, 3] 3 = 107 := rfl
  simp only [Spec.rhoP, b0, b1, b2, b3, List.getD_cons_zero, List.getD_cons_succ, C4v.Spec.turn2]
  rw [← p1, ← p2, ← p3]
  ring

theorem rawNN_same (sl : Bool) {chi D p : Nat} (hchi : 0 < chi) (hD : 0 < D) (hp : 0 < p) {a : Tensor K} {env : C4v.Env K} (hf : C4v.Spec.Fits chi D p a env) (hr : C4v.Spec.Rotated D p a) (c : Coord) :
    ∃ x e s R, plaq (C4v.Spec.cell a) (C4v.Spec.unfold env) c = some (e, s) ∧ rawNN sl a env.C env.T = some x ∧ oe2x2 e s [0, 2] = some R ∧ Same x R := by
  obtain ⟨dim, hd⟩ : ∃ dim, dim = dimsP (C4v.Spec.dims chi D p) c := ⟨_, rfl⟩
  obtain ⟨e, s, h1, h0, h2⟩ := plaq_ok (fitsState hD hp hf) (fitsEnv hchi hf) c
  rw [← hd] at h2
  obtain ⟨R, eR, qR⟩ := oe2x2_denotes dim e s h2 [0, 2] (by decide)
  obtain ⟨x, ex, q⟩ := openC_net sl hf.site hf.corner hf.half
  have hx := openC_shape rfl q
  have hs := hf.site
  have hC := hf.corner
  have hT := hf.half
  have d_lu := lu_label q c hd
  have d_ru := ru_label q c hd
  have d_rd := rd_label q c hd
  have d_ld := ld_label q c hd
  obtain ⟨y, ey, c_lu, c_ru, c_rd, c_ld⟩ := closeC_net q c hd
  have g0 : dim 0 = chi := by rw [hd]; rfl
  have g1 : dim 1 = chi := by rw [hd]; rfl
  have g2 : dim 2 = D := by rw [hd]; rfl
  have g3 : dim 3 = D := by rw [hd]; rfl
  have g5 : dim 5 = D := by rw [hd]; rfl
  have g6 : dim 6 = D := by rw [hd]; rfl
  have g7 : dim 7 = chi := by rw [hd]; rfl
  have g8 : dim 8 = chi := by rw [hd]; rfl
  have g9 : dim 9 = D := by rw [hd]; rfl
  have g10 : dim 10 = D := by rw [hd]; rfl
  have g12 : dim 12 = D := by rw [hd]; rfl
  have g13 : dim 13 = D := by rw [hd]; rfl
  have g15 : dim 15 = chi := by rw [hd]; rfl
  have g16 : dim 16 = D := by rw [hd]; rfl
  have g17 : dim 17 = D := by rw [hd]; rfl
  have g18 : dim 18 = chi := by rw [hd]; rfl
  have g19 : dim 19 = chi := by rw [hd]; rfl
  have g20 : dim 20 = D := by rw [hd]; rfl
  have g21 : dim 21 = D := by rw [hd]; rfl
  have g23 : dim 23 = D := by rw [hd]; rfl
  have g24 : dim 24 = D := by rw [hd]; rfl
  have g26 : dim 26 = chi := by rw [hd]; rfl
  have g27 : dim 27 = chi := by rw [hd]; rfl
  have g28 : dim 28 = D := by rw [hd]; rfl
  have g29 : dim 29 = D := by rw [hd]; rfl
  have g31 : dim 31 = D := by rw [hd]; rfl
  have g32 : dim 32 = D := by rw [hd]; rfl
  have g33 : dim 33 = chi := by rw [hd]; rfl
  have g34 : dim 34 = D := by rw [hd]; rfl
  have g35 : dim 35 = D := by rw [hd]; rfl
  have g36 : dim 36 = chi := by rw [hd]; rfl
  have g37 : dim 37 = D := by rw [hd]; rfl
  have g38 : dim 38 = D := by rw [hd]; rfl
  have g39 : dim 39 = D := by rw [hd]; rfl
  have g40 : dim 40 = D := by rw [hd]; rfl
  have g41 : dim 41 = chi := by rw [hd]; rfl
  have g100 : dim 100 = p := by rw [hd]; rfl
  have g101 : dim 101 = p := by rw [hd]; rfl
  have g102 : dim 102 = p := by rw [hd]; rfl
  have g103 : dim 103 = p := by rw [hd]; rfl
  have g104 : dim 104 = p := by rw [hd]; rfl
  have g105 : dim 105 = p := by rw [hd]; rfl
  have g106 : dim 106 = p := by rw [hd]; rfl
  have g107 : dim 107 = p := by rw [hd]; rfl
  obtain ⟨x1, e1, q1⟩ := Denotes.view d_ld [[41, 39, 40], [15, 16, 17], [104, 105]] [env.T.size 1 * a.size 2 ^ 2, env.T.size 1 * a.size 3 ^ 2, a.size 0 ^ 2] (by decide) (by simp [size, gdim, pow_two, hx, hT, hs, g0, g1, g2, g3, g5, g6, g7, g8, g9, g10, g12, g13, g15, g16, g17, g18, g19, g20, g21, g23, g24, g26, g27, g28, g29, g31, g32, g33, g34, g35, g36, g37, g38, g39, g40, g41, g100, g101, g102, g103, g104, g105, g106, g107])
  obtain ⟨x2, e2, q2⟩ := Denotes.view d_lu [[15, 16, 17], [36, 37, 38], [100, 101]] [env.T.size 1 * a.size 2 ^ 2, env.T.size 1 * a.size 3 ^ 2, a.size 0 ^ 2] (by decide) (by simp [size, gdim, pow_two, hx, hT, hs, g0, g1, g2, g3, g5, g6, g7, g8, g9, g10, g12, g13, g15, g16, g17, g18, g19, g20, g21, g23, g24, g26, g27, g28, g29, g31, g32, g33, g34, g35, g36, g37, g38, g39, g40, g41, g100, g101, g102, g103, g104, g105, g106, g107])
  obtain rfl : x1 = x2 := Option.some.inj (e1.symm.trans e2)
  obtain ⟨x3, e3, q3⟩ := Denotes.tensordot c_rd q1 [1] [0] (dotOK_iff (by decide))
  obtain ⟨x4, e4, q4⟩ := Denotes.tensordot c_ru q3 [1] [0] (dotOK_iff (by decide))
  obtain ⟨x5, e5, q5⟩ := Denotes.tensordot q2 q4 [0, 1] [1, 0] (dotOK_iff (by decide))
  obtain ⟨x6, e6, q6⟩ := Denotes.view q5 [[100], [101], [104], [105]] [a.size 0, a.size 0, a.size 0, a.size 0] (by decide) (by simp [size, gdim, pow_two, hs, g0, g1, g2, g3, g5, g6, g7, g8, g9, g10, g12, g13, g15, g16, g17, g18, g19, g20, g21, g23, g24, g26, g27, g28, g29, g31, g32, g33, g34, g35, g36, g37, g38, g39, g40, g41, g100, g101, g102, g103, g104, g105, g106, g107])
  obtain ⟨x7, e7, q7⟩ := Denotes.permute q6 [0, 2, 1, 3] (by decide)
  refine ⟨x7, e, s, R, h1, by simp [rawNN, ex, ey, e1, e3, e4, e5, e6, e7], eR, q7.same_bounded qR (by decide) (by decide) (fun σ hσ => ?_)⟩
  obtain ⟨rfl, rfl⟩ := Prod.mk.inj (Option.some.inj h1)
  rw [hd] at hσ
  have p1 := pair1 hr (hσ 102 (by decide)) (hσ 20 (by decide)) (hσ 37 (by decide)) (hσ 34 (by decide)) (hσ 21 (by decide)) (hσ 102 (by decide)) (hσ 23 (by decide)) (hσ 38 (by decide)) (hσ 35 (by decide)) (hσ 24 (by decide))
  have p3 := pair2 hr (hσ 106 (by decide)) (hσ 34 (by decide)) (hσ 39 (by decide)) (hσ 29 (by decide)) (hσ 28 (by decide)) (hσ 106 (by decide)) (hσ 35 (by decide)) (hσ 40 (by decide)) (hσ 32 (by decide)) (hσ 31 (by decide))
  have p2 := pair3 hr (hσ 104 (by decide)) (hσ 16 (by decide)) (hσ 9 (by decide)) (hσ 10 (by decide)) (hσ 39 (by decide)) (hσ 105 (by decide)) (hσ 17 (by decide)) (hσ 12 (by decide)) (hσ 13 (by decide)) (hσ 40 (by decide))
  have b0 : Rdm.Spec.bra [0, 2] 0 = 101 := rfl
  have b1 : Rdm.Spec.bra [0, 2] 1 = 102 := rfl
  have b2 : Rdm.Spec.bra [0, 2] 2 = 105 := rfl
  have b3 : Rdm.Spec.bra [0, 2] 3 = 106 := rfl
  simp only [Spec.rhoP, b0, b1, b2, b3, List.getD_cons_zero, List.getD_cons_succ, C4v.Spec.turn2]
  rw [← p1, ← p2, ← p3]
  ring

theorem rawNNN_same (sl : Bool) {chi D p : Nat} (hchi : 0 < chi) (hD : 0 < D) (hp : 0 < p) {a : Tensor K} {env : C4v.Env K} (hf : C4v.Spec.Fits chi D p a env) (hr : C4v.Spec.Rotated D p a) (c : Coord) :
    ∃ x e s R, plaq (C4v.Spec.cell a) (C4v.Spec.unfold env) c = some (e, s) ∧ rawNNN sl a env.C env.T = some x ∧ oe2x2 e s [0, 3] = some R ∧ Same x R := by
  obtain ⟨dim, hd⟩ : ∃ dim, dim = dimsP (C4v.Spec.dims chi D p) c := ⟨_, rfl⟩
  obtain ⟨e, s, h1, h0, h2⟩ := plaq_ok (fitsState hD hp hf) (fitsEnv hchi hf) c
  rw [← hd] at h2
  obtain ⟨R, eR, qR⟩ := oe2x2_denotes dim e s h2 [0, 3] (by decide)
  obtain ⟨x, ex, q⟩ := openC_net sl hf.site hf.corner hf.half
  have hx := openC_shape rfl q
  have hs := hf.site
  have hC := hf.corner
  have hT := hf.half
  have d_lu := lu_label q c hd
  have d_ru := ru_label q c hd
  have d_rd := rd_label q c hd
  have d_ld := ld_label q c hd
  obtain ⟨y, ey, c_lu, c_ru, c_rd, c_ld⟩ := closeC_net q c hd
  have g0 : dim 0 = chi := by rw [hd]; rfl
  have g1 : dim 1 = chi := by rw [hd]; rfl
  have g2 : dim 2 = D := by rw [hd]; rfl
  have g3 : dim 3 = D := by rw [hd]; rfl
  have g5 : dim 5 = D := by rw [hd]; rfl
  have g6 : dim 6 = D := by rw [hd]; rfl
  have g7 : dim 7 = chi := by rw [hd]; rfl
  have g8 : dim 8 = chi := by rw [hd]; rfl
  have g9 : dim 9 = D := by rw [hd]; rfl
  have g10 : dim 10 = D := by rw [hd]; rfl
  have g12 : dim 12 = D := by rw [hd]; rfl
  have g13 : dim 13 = D := by rw [hd]; rfl
  have g15 : dim 15 = chi := by rw [hd]; rfl
  have g16 : dim 16 = D := by rw [hd]; rfl
  have g17 : dim 17 = D := by rw [hd]; rfl
  have g18 : dim 18 = chi := by rw [hd]; rfl
  have g19 : dim 19 = chi := by rw [hd]; rfl
  have g20 : dim 20 = D := by rw [hd]; rfl
  have g21 : dim 21 = D := by rw [hd]; rfl
  have g23 : dim 23 = D := by rw [hd]; rfl
  have g24 : dim 24 = D := by rw [hd]; rfl
  have g26 : dim 26 = chi := by rw [hd]; rfl
  have g27 : dim 27 = chi := by rw [hd]; rfl
  have g28 : dim 28 = D := by rw [hd]; rfl
  have g29 : dim 29 = D := by rw [hd]; rfl
  have g31 : dim 31 = D := by rw [hd]; rfl
  have g32 : dim 32 = D := by rw [hd]; rfl
  have g33 : dim 33 = chi := by rw [hd]; rfl
  have g34 : dim 34 = D := by rw [hd]; rfl
  have g35 : dim 35 = D := by rw [hd]; rfl
  have g36 : dim 36 = chi := by rw [hd]; rfl
  have g37 : dim 37 = D := by rw [hd]; rfl
  have g38 : dim 38 = D := by rw [hd]; rfl
  have g39 : dim 39 = D := by rw [hd]; rfl
  have g40 : dim 40 = D := by rw [hd]; rfl
  have g41 : dim 41 = chi := by rw [hd]; rfl
  have g100 : dim 100 = p := by rw [hd]; rfl
  have g101 : dim 101 = p := by rw [hd]; rfl
  have g102 : dim 102 = p := by rw [hd]; rfl
  have g103 : dim 103 = p := by rw [hd]; rfl
  have g104 : dim 104 = p := by rw [hd]; rfl
  have g105 : dim 105 = p := by rw [hd]; rfl
  have g106 : dim 106 = p := by rw [hd]; rfl
  have g107 : dim 107 = p := by rw [hd]; rfl
  obtain ⟨x1, e1, q1⟩ := Denotes.view d_lu [[15, 16, 17], [36, 37, 38], [100, 101]] [env.T.size 1 * a.size 2 ^ 2, env.T.size 1 * a.size 3 ^ 2, a.size 0 ^ 2] (by decide) (by simp [size, gdim, pow_two, hx, hT, hs, g0, g1, g2, g3, g5, g6, g7, g8, g9, g10, g12, g13, g15, g16, g17, g18, g19, g20, g21, g23, g24, g26, g27, g28, g29, g31, g32, g33, g34, g35, g36, g37, g38, g39, g40, g41, g100, g101, g102, g103, g104, g105, g106, g107])
  obtain ⟨x2, e2, q2⟩ := Denotes.view d_rd [[33, 34, 35], [41, 39, 40], [106, 107]] [env.T.size 1 * a.size 2 ^ 2, env.T.size 1 * a.size 3 ^ 2, a.size 0 ^ 2] (by decide) (by simp [size, gdim, pow_two, hx, hT, hs, g0, g1, g2, g3, g5, g6, g7, g8, g9, g10, g12, g13, g15, g16, g17, g18, g19, g20, g21, g23, g24, g26, g27, g28, g29, g31, g32, g33, g34, g35, g36, g37, g38, g39, g40, g41, g100, g101, g102, g103, g104, g105, g106, g107])
  obtain rfl : x1 = x2 := Option.some.inj (e1.symm.trans e2)
  obtain ⟨x3, e3, q3⟩ := Denotes.tensordot c_ld q1 [1] [0] (dotOK_iff (by decide))
  obtain ⟨x4, e4, q4⟩ := Denotes.tensordot c_ru q2 [1] [0] (dotOK_iff (by decide))
  obtain rfl : x3 = x4 := Option.some.inj (e3.symm.trans e4)
  obtain ⟨x5, e5, q5⟩ := Denotes.tensordot q3 q4 [0, 1] [1, 0] (dotOK_iff (by decide))
  obtain ⟨x6, e6, q6⟩ := Denotes.view q5 [[100], [101], [106], [107]] [a.size 0, a.size 0, a.size 0, a.size 0] (by decide) (by simp [size, gdim, pow_two, hs, g0, g1, g2, g3, g5, g6, g7, g8, g9, g10, g12, g13, g15, g16, g17, g18, g19, g20, g21, g23, g24, g26, g27, g28, g29, g31, g32, g33, g34, g35, g36, g37, g38, g39, g40, g41, g100, g101, g102, g103, g104, g105, g106, g107])
  obtain ⟨x7, e7, q7⟩ := Denotes.permute q6 [0, 2, 1, 3] (by decide)
  refine ⟨x7, e, s, R, h1, by simp [rawNNN, ex, ey, e1, e3, e5, e6, e7], eR, q7.same_bounded qR (by decide) (by decide) (fun σ hσ => ?_)⟩
  obtain ⟨rfl, rfl⟩ := Prod.mk.inj (Option.some.inj h1)
  rw [hd] at hσ
  have p1 := pair1 hr (hσ 102 (by decide)) (hσ 20 (by decide)) (hσ 37 (by decide)) (hσ 34 (by decide)) (hσ 21 (by decide)) (hσ 102 (by decide)) (hσ 23 (by decide)) (hσ 38 (by decide)) (hσ 35 (by decide)) (hσ 24 (by decide))
  have p3 := pair2 hr (hσ 106 (by decide)) (hσ 34 (by decide)) (hσ 39 (by decide)) (hσ 29 (by decide)) (hσ 28 (by decide)) (hσ 107 (by decide)) (hσ 35 (by decide)) (hσ 40 (by decide)) (hσ 32 (by decide)) (hσ 31 (by decide))
  have p2 := pair3 hr (hσ 104 (by decide)) (hσ 16 (by decide)) (hσ 9 (by decide)) (hσ 10 (by decide)) (hσ 39 (by decide)) (hσ 104 (by decide)) (hσ 17 (by decide)) (hσ 12 (by decide)) (hσ 13 (by decide)) (hσ 40 (by decide))
  have b0 : Rdm.Spec.bra [0, 3] 0 = 101 := rfl
  have b1 : Rdm.Spec.bra [0, 3] 1 = 102 := rfl
  have b2 : Rdm.Spec.bra [0, 3] 2 = 104 := rfl
  have b3 : Rdm.Spec.bra [0, 3] 3 = 107 := rfl
  simp only [Spec.rhoP, b0, b1, b2, b3, List.getD_cons_zero, List.getD_cons_succ, C4v.Spec.turn2]
  rw [← p1, ← p2, ← p3]
  ring

end Verif.C4v
