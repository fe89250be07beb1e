import Verif.C4v.RdmNet3
/-
C73: density matrices of plaquettes and of pairs of neighbours of a one-site C4v state. C74: density matrices of one, two and three sites in a row.
-/
namespace Verif.C4v
open Tensor Ctm Rdm Ctm.Spec Rdm.Spec
variable {K : Type} [RCLike K]

theorem sym_eq (eigh : Tensor K → List ℝ × Tensor K) (spd : Bool) {r : Option (Tensor K)} {x : Tensor K} (h : r = some x) :
    (do symRdm eigh spd (← lift r)) = symRdm eigh spd x := by rw [h]; rfl

/-! ### C73 -/

/-- The density matrix of the plaquette is that of the general code on the unfolded environment. -/
theorem C73_plaquette (eigh : Tensor K → List ℝ × Tensor K) (spd : Bool) {chi D p : Nat} (hchi : 0 < chi) (hD : 0 < D) (hp : 0 < p) {a : Tensor K}
    {env : C4v.Env K} (hf : C4v.Spec.Fits chi D p a env) (hr : C4v.Spec.Rotated D p a) (c : Coord) :
    C4v.rdm2x2 eigh spd a env = Rdm.rdm2x2 eigh spd (C4v.Spec.cell a) (C4v.Spec.unfold env) c [0, 1, 2, 3] := by
  obtain ⟨x, e, s, R, h1, h2, h3, h4⟩ := raw2x2_same hchi hD hp hf hr c
  rw [rdm2x2_eq eigh spd h1 (by decide) h3, ← symRdm_same eigh spd h4]
  exact sym_eq eigh spd h2

/-- Nearest neighbours, in both variants: sites 0 (upper left) and 2 (lower left) of the plaquette. -/
theorem C73_neighbours (eigh : Tensor K → List ℝ × Tensor K) (sl spd : Bool) {chi D p : Nat} (hchi : 0 < chi) (hD : 0 < D) (hp : 0 < p) {a : Tensor K}
    {env : C4v.Env K} (hf : C4v.Spec.Fits chi D p a env) (hr : C4v.Spec.Rotated D p a) (c : Coord) :
    C4v.rdmNN eigh sl spd a env = Rdm.rdm2x2 eigh spd (C4v.Spec.cell a) (C4v.Spec.unfold env) c [0, 2] := by
  obtain ⟨x, e, s, R, h1, h2, h3, h4⟩ := rawNN_same sl hchi hD hp hf hr c
  rw [rdm2x2_eq eigh spd h1 (by decide) h3, ← symRdm_same eigh spd h4]
  exact sym_eq eigh spd h2

/-- Next-nearest neighbours, in both variants: sites 0 (upper left) and 3 (lower right) of the plaquette. -/
theorem C73_diagonal (eigh : Tensor K → List ℝ × Tensor K) (sl spd : Bool) {chi D p : Nat} (hchi : 0 < chi) (hD : 0 < D) (hp : 0 < p) {a : Tensor K}
    {env : C4v.Env K} (hf : C4v.Spec.Fits chi D p a env) (hr : C4v.Spec.Rotated D p a) (c : Coord) :
    C4v.rdmNNN eigh sl spd a env = Rdm.rdm2x2 eigh spd (C4v.Spec.cell a) (C4v.Spec.unfold env) c [0, 3] := by
  obtain ⟨x, e, s, R, h1, h2, h3, h4⟩ := rawNNN_same sl hchi hD hp hf hr c
  rw [rdm2x2_eq eigh spd h1 (by decide) h3, ← symRdm_same eigh spd h4]
  exact sym_eq eigh spd h2

/-! ### C74 -/

/-- A diagonal corner, as after every move, is symmetric. -/
theorem csymm_of_diagonal {chi : Nat} {env : C4v.Env K} (hb : env.chi = chi) (h : C4v.Spec.Diagonal env) : C4v.Spec.CSymm chi env := by
  intro i j hi hj
  rcases eq_or_ne i j with rfl | hij
  · rfl
  · rw [h i j (hb ▸ hi) (hb ▸ hj) hij, h j i (hb ▸ hj) (hb ▸ hi) hij.symm]

/-- The density matrix of one site is that of the general code on the unfolded environment: for the double-layer function whenever the corner is symmetric, for the
single-layer function if the half-row tensor is symmetric too. Missing: the single-layer function without that, see `C74_single_layer_violated`. -/
theorem C74_site_partial (eigh : Tensor K → List ℝ × Tensor K) (sl spd : Bool) {chi D p : Nat} (hchi : 0 < chi) (hD : 0 < D) (hp : 0 < p) {a : Tensor K}
    {env : C4v.Env K} (hf : C4v.Spec.Fits chi D p a env) (hS : C4v.Spec.CSymm chi env) (hT : sl = false ∨ C4v.Spec.TSymm chi D env) (c : Coord) :
    C4v.rdm1x1 eigh sl spd a env = Rdm.rdm1x1 eigh true spd (C4v.Spec.cell a) (C4v.Spec.unfold env) c none := by
  have key : ∃ x e s R, siteEnv (C4v.Spec.unfold env) ((C4v.Spec.cell a).vts c) = some e ∧ (C4v.Spec.cell a).site c = some s ∧
      (if sl then raw1Sl a env.C env.T else raw1Dl a env.C env.T) = some x ∧ sl1x1 e s none = some R ∧ Same x R := by
    cases sl with
    | true => exact raw1Sl_same hchi hD hp hf hS (hT.resolve_left (by decide)) c
    | false => exact raw1Dl_same hchi hD hp hf hS c
  obtain ⟨x, e, s, R, h1, h1', h2, h3, h4⟩ := key
  have r : Rdm.rdm1x1 eigh true spd (C4v.Spec.cell a) (C4v.Spec.unfold env) c none = symRdm eigh spd R := by simp [Rdm.rdm1x1, raw1x1, h1, h1', h3, lift]; rfl
  rw [r, ← symRdm_same eigh spd h4]
  exact sym_eq eigh spd h2

/-- Two sites in a row, in both variants. -/
theorem C74_row (eigh : Tensor K → List ℝ × Tensor K) (sl spd : Bool) {chi D p : Nat} (hchi : 0 < chi) (hD : 0 < D) (hp : 0 < p) {a : Tensor K}
    {env : C4v.Env K} (hf : C4v.Spec.Fits chi D p a env) (hr : C4v.Spec.Rotated D p a) (hS : C4v.Spec.CSymm chi env) (c : Coord) :
    C4v.rdm2x1 eigh sl spd a env = Rdm.rdm2x1 eigh true spd (C4v.Spec.cell a) (C4v.Spec.unfold env) c := by
  have key : ∃ x e s t R, pairH (C4v.Spec.cell a) (C4v.Spec.unfold env) c = some (e, s, t) ∧ raw2x1 sl a env.C env.T = some x ∧ sl2x1 e s t = some R ∧ Same x R := by
    cases sl with
    | true => exact raw2x1Sl_same hchi hD hp hf hr hS c
    | false => exact raw2x1Dl_same hchi hD hp hf hr hS c
  obtain ⟨x, e, s, t, R, h1, h2, h3, h4⟩ := key
  have r : Rdm.rdm2x1 eigh true spd (C4v.Spec.cell a) (C4v.Spec.unfold env) c = symRdm eigh spd R := by
    unfold Rdm.rdm2x1; rw [h1]
    show (lift (sl2x1 e s t) >>= _) = _
    rw [h3]; rfl
  rw [r, ← symRdm_same eigh spd h4]
  exact sym_eq eigh spd h2

theorem network_same {dim : Nat → Nat} {T T' : Tensor K} {O : List (List Nat)} {L : List Nat} {F : (Nat → Nat) → K} (hO : O.flatten.Nodup)
    (h : Corner.Spec.IsNetwork dim T O L F) (h' : Corner.Spec.IsNetwork dim T' O L F) : Same T T' := by
  refine ⟨h.1.trans h'.1.symm, fun idx hidx => ?_⟩
  rw [h.1] at hidx
  obtain ⟨σ, s1, rfl⟩ := exists_groups dim O hO idx hidx
  have s2 : ∀ g ∈ O, ∀ l ∈ g, σ l < dim l := fun g hg l hl => s1 l (List.mem_flatten.2 ⟨g, hg, hl⟩)
  exact (h.2 σ s2).trans (h'.2 σ s2).symm

theorem around3_unique {st : State K} {env : Ctm.Env K} {c : Coord} {e e' : Row3 K} (h : AroundRow3 st env c e) (h' : AroundRow3 st env c e') : e = e' := by
  obtain ⟨a1, a2, a3, a4, a5, a6, a7, a8, a9, a10, a11, a12, a13, a14, a15⟩ := h
  obtain ⟨b1, b2, b3, b4, b5, b6, b7, b8, b9, b10, b11, b12, b13, b14, b15⟩ := h'
  cases e; cases e'
  simp only [Row3.mk.injEq]
  exact ⟨Option.some.inj (a1.symm.trans b1), Option.some.inj (a2.symm.trans b2), Option.some.inj (a3.symm.trans b3), Option.some.inj (a4.symm.trans b4),
    Option.some.inj (a5.symm.trans b5), Option.some.inj (a6.symm.trans b6), Option.some.inj (a7.symm.trans b7), Option.some.inj (a8.symm.trans b8),
    Option.some.inj (a9.symm.trans b9), Option.some.inj (a10.symm.trans b10), Option.some.inj (a11.symm.trans b11), Option.some.inj (a12.symm.trans b12),
    Option.some.inj (a13.symm.trans b13), Option.some.inj (a14.symm.trans b14), Option.some.inj (a15.symm.trans b15)⟩

/-- The ends of three sites in a row: both variants symmetrise and normalise the contraction of the drawn network. -/
theorem C74_ends (eigh : Tensor K → List ℝ × Tensor K) (spd : Bool) {chi D p : Nat} (hchi : 0 < chi) (hD : 0 < D) (hp : 0 < p) {a : Tensor K}
    {env : C4v.Env K} (hf : C4v.Spec.Fits chi D p a env) (hr : C4v.Spec.Rotated D p a) (hS : C4v.Spec.CSymm chi env) (c : Coord) :
    ∃ e rho, AroundRow3 (C4v.Spec.cell a) (C4v.Spec.unfold env) c e ∧
      Corner.Spec.IsNetwork (dimsRow (C4v.Spec.dims chi D p) c (fun _ => 0)) rho [[100], [104], [101], [105]] C4v.Spec.inner3
        (C4v.Spec.rho3 (dimsRow (C4v.Spec.dims chi D p) c (fun _ => 0)) e) ∧
      ∀ sl, C4v.rdm3x1 eigh sl spd a env = symRdm eigh spd rho := by
  obtain ⟨e, x, h1, h2, h3⟩ := raw3Sl_net hchi hD hp hf hr hS c
  obtain ⟨e', x', h1', h2', h3'⟩ := raw3Dl_net hchi hD hp hf hr hS c
  obtain rfl := around3_unique h1 h1'
  refine ⟨e, x, h1, h3, fun sl => ?_⟩
  cases sl with
  | true => exact sym_eq eigh spd h2
  | false => rw [symRdm_same eigh spd (network_same (by decide) h3 h3')]; exact sym_eq eigh spd h2'

/-! ### Concrete cases -/

/-- A site tensor with `D = p = 2`. -/
noncomputable def rotSite : Tensor ℂ := ⟨[2, 2, 2, 2, 2], fun x => (x.getD 0 0 : ℂ) * Complex.I + (x.getD 1 0 + x.getD 2 0 + x.getD 3 0 + x.getD 4 0 : ℕ)⟩
/-- A site tensor that changes its sign when it is turned. -/
noncomputable def rotSiteB : Tensor ℂ := ⟨[2, 2, 2, 2, 2], fun x => ((x.getD 0 0 : ℂ) + Complex.I) * ((x.getD 1 0 : ℂ) + x.getD 3 0 - x.getD 2 0 - x.getD 4 0)⟩
/-- An environment with a diagonal corner. -/
noncomputable def rotSymm : C4v.Env ℂ := ⟨2, ⟨[2, 2], fun x => if x.getD 0 0 = x.getD 1 0 then x.getD 0 0 + 1 else 0⟩,
  ⟨[2, 2, 4], fun x => ((x.getD 0 0 + x.getD 1 0 : ℕ) : ℂ) + x.getD 2 0 * Complex.I⟩⟩
/-- An environment with a corner that is not diagonal. -/
noncomputable def rotFull : C4v.Env ℂ := ⟨2, ⟨[2, 2], fun x => (x.getD 0 0 : ℂ) + Complex.I * x.getD 1 0⟩,
  ⟨[2, 2, 4], fun x => ((x.getD 0 0 : ℕ) : ℂ) + x.getD 2 0 * Complex.I⟩⟩

theorem rotSite_rotated : C4v.Spec.Rotated 2 2 rotSite := ⟨1, by simp, fun i u l d r _ _ _ _ _ => by simp [rotSite]; ring⟩
theorem rotSiteB_rotated : C4v.Spec.Rotated 2 2 rotSiteB := ⟨-1, by simp, fun i u l d r _ _ _ _ _ => by simp [rotSiteB]; ring⟩
theorem rotSymm_fits : C4v.Spec.Fits 2 2 2 rotSite rotSymm := ⟨rfl, rfl, rfl, rfl⟩
theorem rotSymm_fitsB : C4v.Spec.Fits 2 2 2 rotSiteB rotSymm := ⟨rfl, rfl, rfl, rfl⟩
theorem rotFull_fitsB : C4v.Spec.Fits 2 2 2 rotSiteB rotFull := ⟨rfl, rfl, rfl, rfl⟩
theorem rotSymm_c : C4v.Spec.CSymm 2 rotSymm :=
  csymm_of_diagonal rfl (fun i j _ _ hij => by simp [rotSymm, hij])
theorem rotSymm_t : C4v.Spec.TSymm 2 2 rotSymm := fun i j s _ _ _ => by simp [rotSymm]; ring

example (eigh : Tensor ℂ → List ℝ × Tensor ℂ) (spd : Bool) (c : Coord) :
    C4v.rdm2x2 eigh spd rotSiteB rotFull = Rdm.rdm2x2 eigh spd (C4v.Spec.cell rotSiteB) (C4v.Spec.unfold rotFull) c [0, 1, 2, 3] :=
  C73_plaquette eigh spd (by decide) (by decide) (by decide) rotFull_fitsB rotSiteB_rotated c
example (eigh : Tensor ℂ → List ℝ × Tensor ℂ) (sl spd : Bool) (c : Coord) :
    C4v.rdmNN eigh sl spd rotSiteB rotFull = Rdm.rdm2x2 eigh spd (C4v.Spec.cell rotSiteB) (C4v.Spec.unfold rotFull) c [0, 2] :=
  C73_neighbours eigh sl spd (by decide) (by decide) (by decide) rotFull_fitsB rotSiteB_rotated c
example (eigh : Tensor ℂ → List ℝ × Tensor ℂ) (sl spd : Bool) (c : Coord) :
    C4v.rdmNNN eigh sl spd rotSiteB rotFull = Rdm.rdm2x2 eigh spd (C4v.Spec.cell rotSiteB) (C4v.Spec.unfold rotFull) c [0, 3] :=
  C73_diagonal eigh sl spd (by decide) (by decide) (by decide) rotFull_fitsB rotSiteB_rotated c
example (eigh : Tensor ℂ → List ℝ × Tensor ℂ) (sl spd : Bool) (c : Coord) :
    C4v.rdm1x1 eigh sl spd rotSite rotSymm = Rdm.rdm1x1 eigh true spd (C4v.Spec.cell rotSite) (C4v.Spec.unfold rotSymm) c none :=
  C74_site_partial eigh sl spd (by decide) (by decide) (by decide) rotSymm_fits rotSymm_c (.inr rotSymm_t) c
example (eigh : Tensor ℂ → List ℝ × Tensor ℂ) (sl spd : Bool) (c : Coord) :
    C4v.rdm2x1 eigh sl spd rotSiteB rotSymm = Rdm.rdm2x1 eigh true spd (C4v.Spec.cell rotSiteB) (C4v.Spec.unfold rotSymm) c :=
  C74_row eigh sl spd (by decide) (by decide) (by decide) rotSymm_fitsB rotSiteB_rotated rotSymm_c c
example (eigh : Tensor ℂ → List ℝ × Tensor ℂ) (spd : Bool) :
    ∃ rho, ∀ sl, C4v.rdm3x1 eigh sl spd rotSite rotSymm = symRdm eigh spd rho := by
  obtain ⟨_, rho, _, _, h⟩ := C74_ends eigh spd (by decide) (by decide) (by decide) rotSymm_fits rotSite_rotated rotSymm_c (0, 0)
  exact ⟨rho, h⟩

/-! ### The single-layer function of one site -/

/-- `chi = 2`, `D = p = 1`: the corner is the identity, the half-row `T = 1 + σ_y`. -/
noncomputable def badSite : Tensor ℂ := ⟨[1, 1, 1, 1, 1], fun _ => 1⟩
noncomputable def badEnv : C4v.Env ℂ := ⟨2, ⟨[2, 2], fun x => if x.getD 0 0 = x.getD 1 0 then 1 else 0⟩,
  ⟨[2, 2, 1], fun x => if x.getD 0 0 = x.getD 1 0 then 1 else if x.getD 0 0 < x.getD 1 0 then -Complex.I else Complex.I⟩⟩

theorem badEnv_fits : C4v.Spec.Fits 2 1 1 badSite badEnv := ⟨rfl, rfl, rfl, rfl⟩

/-- The network of one site when all bonds of the site have size one. -/
theorem bad_sum (dim : Nat → Nat) (hd : dim = dims1 (C4v.Spec.dims 2 1 1) (0, 0)) (F : (Nat → Nat) → ℂ) (g : Nat → Nat → Nat → Nat → Nat → Nat → Nat → Nat → ℂ)
    (hF : ∀ σ : Nat → Nat, (∀ l ∈ inner1, σ l < dim l) → F σ = g (σ 0) (σ 1) (σ 8) (σ 9) (σ 12) (σ 13) (σ 14) (σ 17)) :
    sumOver dim inner1 F (fun _ => 0) = ∑ i0 ∈ Finset.range 2, ∑ i1 ∈ Finset.range 2, ∑ i8 ∈ Finset.range 2, ∑ i9 ∈ Finset.range 2, ∑ i12 ∈ Finset.range 2,
      ∑ i13 ∈ Finset.range 2, ∑ i14 ∈ Finset.range 2, ∑ i17 ∈ Finset.range 2, g i0 i1 i8 i9 i12 i13 i14 i17 := by
  have h1 : sumOver dim inner1 F (fun _ => 0) = sumOver dim inner1 (fun σ => g (σ 0) (σ 1) (σ 8) (σ 9) (σ 12) (σ 13) (σ 14) (σ 17)) (fun _ => 0) := by
    apply sumOver_congr
    intro τ h _
    exact hF τ h
  rw [h1]
  have e0 : dim 0 = 2 := by rw [hd]; rfl
  have e1 : dim 1 = 2 := by rw [hd]; rfl
  have e8 : dim 8 = 2 := by rw [hd]; rfl
  have e9 : dim 9 = 2 := by rw [hd]; rfl
  have e12 : dim 12 = 2 := by rw [hd]; rfl
  have e13 : dim 13 = 2 := by rw [hd]; rfl
  have e14 : dim 14 = 2 := by rw [hd]; rfl
  have e17 : dim 17 = 2 := by rw [hd]; rfl
  have d2 : dim 2 = 1 := by rw [hd]; rfl
  have d3 : dim 3 = 1 := by rw [hd]; rfl
  have d5 : dim 5 = 1 := by rw [hd]; rfl
  have d6 : dim 6 = 1 := by rw [hd]; rfl
  have d10 : dim 10 = 1 := by rw [hd]; rfl
  have d11 : dim 11 = 1 := by rw [hd]; rfl
  have d15 : dim 15 = 1 := by rw [hd]; rfl
  have d16 : dim 16 = 1 := by rw [hd]; rfl
  simp [inner1, sumOver, Function.update_apply, e0, e1, e8, e9, e12, e13, e14, e17, d2, d3, d5, d6, d10, d11, d15, d16]

theorem bad_fused (dim : Nat → Nat) (hd : dim = dims1 (C4v.Spec.dims 2 1 1) (0, 0)) (σ : Nat → Nat) (k b : Nat) (hk : σ k < dim k) (hb : σ b < dim b)
    (h1 : dim k = 1) (h2 : dim b = 1) : Corner.Spec.fused dim σ k b = 0 := by
  have := fused_lt hk hb
  rw [h1, h2] at this; omega

theorem bad_val (sl : Bool) : ∃ x, (if sl then raw1Sl badSite badEnv.C badEnv.T else raw1Dl badSite badEnv.C badEnv.T) = some x ∧ x.shape = [1] ++ [1] ∧
    x.val [0, 0] = if sl then 0 else 16 := by
  obtain ⟨dim, hd⟩ : ∃ dim, dim = dims1 (C4v.Spec.dims 2 1 1) (0, 0) := ⟨_, rfl⟩
  have hb : ∀ (σ : Nat → Nat), (∀ l ∈ inner1, σ l < dim l) → Corner.Spec.fused dim σ 2 5 = 0 ∧ Corner.Spec.fused dim σ 3 6 = 0 ∧
      Corner.Spec.fused dim σ 15 16 = 0 ∧ Corner.Spec.fused dim σ 10 11 = 0 := by
    intro σ hσ
    refine ⟨bad_fused dim hd σ 2 5 (hσ 2 (by decide)) (hσ 5 (by decide)) (by rw [hd]; rfl) (by rw [hd]; rfl),
      bad_fused dim hd σ 3 6 (hσ 3 (by decide)) (hσ 6 (by decide)) (by rw [hd]; rfl) (by rw [hd]; rfl),
      bad_fused dim hd σ 15 16 (hσ 15 (by decide)) (hσ 16 (by decide)) (by rw [hd]; rfl) (by rw [hd]; rfl),
      bad_fused dim hd σ 10 11 (hσ 10 (by decide)) (hσ 11 (by decide)) (by rw [hd]; rfl) (by rw [hd]; rfl)⟩
  have hz : ∀ l ∈ [[4], [7]].flatten, (fun _ => 0 : Nat → Nat) l < dim l := by
    intro l hl; rw [hd]; fin_cases hl <;> decide
  cases sl with
  | true =>
    obtain ⟨x, ex, q⟩ := raw1Sl_net badEnv_fits (0, 0) hd
    refine ⟨x, ex, by rw [q.shape, hd]; rfl, ?_⟩
    refine (q.val (fun _ => 0) hz).trans ?_
    rw [bad_sum dim hd _ (fun i0 i1 i8 i9 i12 i13 i14 i17 => badEnv.C.val [i0, i1] * badEnv.T.val [i0, i14, 0] * badEnv.C.val [i14, i12] * badEnv.T.val [i12, i13, 0] *
      badEnv.T.val [i1, i9, 0] * badEnv.C.val [i17, i13] * badEnv.T.val [i17, i8, 0] * badEnv.C.val [i8, i9])
      (fun σ hσ => by obtain ⟨h1, h2, h3, h4⟩ := hb σ hσ; simp [h1, h2, h3, h4, badSite])]
    simp [badEnv, Finset.sum_range_succ]
    norm_num
  | false =>
    obtain ⟨x, ex, q⟩ := raw1Dl_net badEnv_fits (0, 0) hd
    refine ⟨x, ex, by rw [q.shape, hd]; rfl, ?_⟩
    refine (q.val (fun _ => 0) hz).trans ?_
    rw [bad_sum dim hd _ (fun i0 i1 i8 i9 i12 i13 i14 i17 => badEnv.C.val [i0, i1] * badEnv.T.val [i0, i14, 0] * badEnv.C.val [i14, i12] * badEnv.T.val [i12, i13, 0] *
      badEnv.T.val [i9, i1, 0] * badEnv.C.val [i17, i13] * badEnv.T.val [i17, i8, 0] * badEnv.C.val [i8, i9])
      (fun σ hσ => by obtain ⟨h1, h2, h3, h4⟩ := hb σ hσ; simp [h1, h2, h3, h4, badSite])]
    simp [badEnv, Finset.sum_range_succ]
    norm_num

theorem bad_trace (x : Tensor ℂ) : Matrix.trace (op [1] x) = x.val [0, 0] := by
  show ∑ i : Fin 1, x.val (unravel [1] i ++ unravel [1] i) = _
  rw [Fin.sum_univ_one]; rfl

/-- The code does not satisfy the full statement: for this rotation-symmetric state with a diagonal corner and a Hermitian environment (as the moves produce them)
the double-layer function returns a density matrix and the single-layer function does not (its trace is zero: all entries are NaN). -/
theorem C74_single_layer_violated : ∃ (a : Tensor ℂ) (env : C4v.Env ℂ), C4v.Spec.Fits 2 1 1 a env ∧ C4v.Spec.Rotated 1 1 a ∧ C4v.Spec.Diagonal env ∧
    C4v.Spec.Hermitian env ∧ ∀ eigh, (∃ rho, C4v.rdm1x1 eigh false false a env = .ok rho) ∧ ¬ ∃ rho, C4v.rdm1x1 eigh true false a env = .ok rho := by
  refine ⟨badSite, badEnv, badEnv_fits, ⟨1, by simp, fun i u l d r _ _ _ _ _ => by simp [badSite]⟩, fun i j _ _ hij => by simp [badEnv, hij], ⟨?_, ?_⟩, fun eigh => ⟨?_, ?_⟩⟩
  · intro i j _ _
    simp only [badEnv, List.getD_cons_zero, List.getD_cons_succ]
    rcases lt_trichotomy i j with h | rfl | h
    · simp [h.ne, h.ne']
    · simp
    · simp [h.ne, h.ne']
  · intro i j s _ _ _
    simp only [badEnv, List.getD_cons_zero, List.getD_cons_succ]
    rcases lt_trichotomy i j with h | rfl | h
    · simp [h.ne, h.ne', h, h.not_gt]
    · simp
    · simp [h.ne, h.ne', h, h.not_gt]
  · obtain ⟨x, h1, h2, h3⟩ := bad_val false
    obtain ⟨R, h4, _⟩ := symRdm_entries eigh h2 (by decide) (by rw [bad_trace, h3]; simp)
    exact ⟨R, (sym_eq eigh false h1).trans h4⟩
  · obtain ⟨x, h1, h2, h3⟩ := bad_val true
    rintro ⟨R, hR⟩
    have := (symRdm_ok eigh h2 ((sym_eq eigh false h1).symm.trans hR)).2
    exact this (by rw [bad_trace, h3]; simp)

end Verif.C4v
