import Verif.Energy.Product
/-
C50, C51, C52: counterexamples, and cases that meet the hypotheses.
-/
namespace Verif.Energy
open Tensor Ctm Ctm.Spec
open Corrf (pDims pSite pEnv pExpect)

/-- One site per cell with the vector `(3/5, 4i/5)`, a spin with `<Sy> = 12/25`. -/
noncomputable def yVec : Nat → ℂ := fun s => if s = 0 then 3 / 5 else 4 / 5 * Complex.I
noncomputable def yState : State ℂ := prodState [(0, 0)] (fun _ => (0, 0)) (fun _ => yVec)
theorem yTiling : Tiling yState := ⟨fun _ _ => rfl, fun _ => by simp [yState, prodState], fun c hc => by simp [yState, prodState] at hc ⊢; exact hc.symm, by simp [yState, prodState]⟩
theorem yNorm : pExpect yVec Corrf.Spec.one = 1 := by
  simp [pExpect, yVec, Corrf.Spec.one, Finset.sum_range_succ, map_ofNat]
  linear_combination (-16 / 25 : ℂ) * Complex.I_mul_I

theorem yRdm (eigh : Tensor ℂ → List ℝ × Tensor ℂ) : ∃ r : Tensor ℂ, Rdm.rdm2x2 eigh false yState pEnv (0, 0) [0, 1, 2, 3] = .ok r ∧ (∀ O, Spec.expect r O = Spec.expect (prodRdm fun _ => yVec) O) ∧
    Spec.Consistent yState (fun _ => r) := by
  obtain ⟨r, h1, h2⟩ := prodRdm_ok [(0, 0)] (fun _ => (0, 0)) (fun _ => yVec) eigh (fun _ => yNorm) (0, 0)
  exact ⟨r, h1, h2, prodConsistent _ _ _ yTiling (fun _ => yNorm) (fun c _ O => h2 O)⟩

/-- The field along y alone. -/
noncomputable def yField : J1J2 := { j1 := 0, j2 := 0, j3 := 0, hzStag := 0, deltaZz := 1, lmbd := 0, hUni := fun i => if i = 2 then 1 else 0 }

/-- A uniform field along y enters with the wrong sign: a state with energy 12/25 is given the energy -12/25. -/
theorem C50_violated (eigh : Tensor ℂ → List ℝ × Tensor ℂ) : ∃ (m : J1J2) (st : State ℂ) (env : Env ℂ) (D : Dims) (r : Coord → Tensor ℂ), Tiling st ∧ FitsState D st ∧ FitsEnv D st env ∧
    (∀ c, D.p c = 2) ∧ (∀ c ∈ st.keys, Rdm.rdm2x2 eigh false st env c [0, 1, 2, 3] = .ok (r c)) ∧ Spec.Consistent st r ∧ m.hzStag = 0 ∧ m.j3 = 0 ∧
    energyPerSite eigh m st env = .ok (-12 / 25) ∧ Spec.energy m st r = 12 / 25 := by
  obtain ⟨r, h1, h2, h3⟩ := yRdm eigh
  have hk : ∀ c ∈ yState.keys, Rdm.rdm2x2 eigh false yState pEnv c [0, 1, 2, 3] = .ok ((fun _ => r) c) := by
    intro c hc
    have : c = (0, 0) := by simpa [yState, prodState] using hc
    rw [this]; exact h1
  obtain ⟨e, he, hv⟩ := C50_value eigh yField yTiling (prodFitsState _ _ _) (prodFitsEnv _ _ _) (fun _ => rfl) hk h3 (Or.inl rfl) rfl
  have hs : ∀ f : Fin 3 → ℝ, Spec.expect r (Spec.onSite 0 (Spec.field f)) = f 0 * (-7 / 50) + f 2 * (12 / 25) := by
    intro f
    rw [h2, four_site (w := fun _ => yVec) (fun _ => yNorm) 0 (by decide)]
    simp [pExpect, yVec, Spec.field, Spec.sz, Spec.sx, Spec.sy, Finset.sum_range_succ, map_ofNat]
    linear_combination (8 / 25 * (f 0 : ℂ) - 12 / 25 * (f 2 : ℂ)) * Complex.I_mul_I
  refine ⟨yField, yState, pEnv, pDims, fun _ => r, yTiling, prodFitsState _ _ _, prodFitsEnv _ _ _, fun _ => rfl, hk, h3, rfl, rfl, ?_, ?_⟩
  · rw [he]
    refine congrArg Except.ok (Complex.ofReal_injective ?_)
    rw [hv]
    simp only [Spec.energy, yState, prodState, List.map_cons, List.map_nil, Spec.siteEnergy, hs]
    simp [yField, Spec.flipY]
    norm_num
  · simp only [Spec.energy, yState, prodState, List.map_cons, List.map_nil, Spec.siteEnergy, hs]
    simp [yField]

/-! ### C51 -/

/-- Columns up, up, down. -/
noncomputable def colVec (c : Coord) : Nat → ℂ := fun s => if (s = 0) = (c.1 = 2) then 0 else 1
noncomputable def colVts (c : Coord) : Coord := (c.1 % 3, 0)
noncomputable def colState : State ℂ := prodState [(0, 0), (1, 0), (2, 0)] colVts colVec
theorem colTiling : Tiling colState := by
  refine ⟨fun c v => ?_, fun c => ?_, fun c hc => ?_, by simp [colState, prodState]⟩
  · simp [colState, prodState, colVts]
  · simp [colState, prodState, colVts]; omega
  · simp [colState, prodState] at hc
    rcases hc with rfl | rfl | rfl <;> simp [colState, prodState, colVts]
theorem colNorm (c : Coord) : pExpect (colVec c) Corrf.Spec.one = 1 := by
  by_cases h : c.1 = 2 <;> simp [pExpect, colVec, Corrf.Spec.one, Finset.sum_range_succ, h]
theorem colRdm (eigh : Tensor ℂ → List ℝ × Tensor ℂ) : ∃ r : Coord → Tensor ℂ, (∀ c ∈ colState.keys, Rdm.rdm2x2 eigh false colState pEnv c [0, 1, 2, 3] = .ok (r c)) ∧ Spec.Consistent colState r := by
  choose r h1 h2 using prodRdm_ok [(0, 0), (1, 0), (2, 0)] colVts colVec eigh colNorm
  exact ⟨r, fun c _ => h1 c, prodConsistent _ _ _ colTiling colNorm (fun c _ O => h2 c O)⟩
theorem colThird (c : Coord) : Spec.third (prodTensors colVts colVec) pDims c = if c.1 % 3 = 1 then 1 / 2 else 0 := by
  rw [Spec.third, prodExchange _ _ colNorm, prodExchange _ _ colNorm]
  have hz : ∀ c, pExpect (colVec c) Spec.sz = if c.1 = 2 then -1 / 2 else 1 / 2 := by
    intro c
    by_cases h : c.1 = 2 <;> simp [pExpect, colVec, Spec.sz, Finset.sum_range_succ, h]
  have hp : ∀ c, pExpect (colVec c) Spec.sp = 0 := by
    intro c
    by_cases h : c.1 = 2 <;> simp [pExpect, colVec, Spec.sp, Finset.sum_range_succ, h]
  have hm : ∀ c, pExpect (colVec c) Spec.sm = 0 := by
    intro c
    by_cases h : c.1 = 2 <;> simp [pExpect, colVec, Spec.sm, Finset.sum_range_succ, h]
  simp only [hz, hp, hm, colVts, Corrf.Spec.ahead, Dir.vec]
  have h3 : c.1 % 3 = 0 ∨ c.1 % 3 = 1 ∨ c.1 % 3 = 2 := by omega
  rcases h3 with h | h | h
  · have : (c.1 + 2) % 3 = 2 := by omega
    simp [h, this]; norm_num
  · have : (c.1 + 2) % 3 = 0 := by omega
    simp [h, this]; norm_num
  · have : (c.1 + 2) % 3 = 1 := by omega
    simp [h, this]; norm_num

noncomputable def onlyJ3 : J1J2 := { j1 := 0, j2 := 0, j3 := 1, hzStag := 0, deltaZz := 1, lmbd := 0, hUni := fun _ => 0 }

/-- In a cell with three columns the third-neighbour energy per site is 1/6, the value returned is 0. -/
theorem C51_violated (eigh : Tensor ℂ → List ℝ × Tensor ℂ) : ∃ (m : J1J2) (st : State ℂ) (env : Env ℂ) (D : Dims) (N : Corrf.Spec.Tensors ℂ) (r : Coord → Tensor ℂ), Tiling st ∧ FitsState D st ∧ FitsEnv D st env ∧
    (∀ c, D.p c = 2) ∧ Corrf.Spec.Reads st env N ∧ (∀ d c n, Corrf.Spec.norm N D d c n ≠ 0) ∧ (∀ c ∈ st.keys, Rdm.rdm2x2 eigh false st env c [0, 1, 2, 3] = .ok (r c)) ∧ Spec.Consistent st r ∧ m.hzStag = 0 ∧
    energyPerSite eigh m st env = .ok 0 ∧ Spec.energy m st r + m.j3 * Spec.thirdEnergy N D st = 1 / 6 := by
  obtain ⟨r, h1, h3⟩ := colRdm eigh
  have hn : ∀ d c n, Corrf.Spec.norm (prodTensors colVts colVec) pDims d c n ≠ 0 := fun d c n => by rw [prodNorm _ _ colNorm]; exact one_ne_zero
  have hv := C51_value eigh onlyJ3 colTiling (prodFitsState _ _ _) (prodFitsEnv _ _ _) (fun _ => rfl) (prodReads _ _ _) (fun d r _ => hn d _ _) h1 h3 (Or.inl rfl)
  refine ⟨onlyJ3, colState, pEnv, pDims, prodTensors colVts colVec, r, colTiling, prodFitsState _ _ _, prodFitsEnv _ _ _, fun _ => rfl, prodReads _ _ _, hn, h1, h3, rfl, ?_, ?_⟩
  · rw [hv, colThird]
    have hz : Spec.field (Spec.flipY onlyJ3.hUni) = fun _ _ => 0 := by
      funext a b
      simp [Spec.field, Spec.flipY, onlyJ3]
    have h0 : ∀ r, Spec.expect r (Spec.onSite 0 fun _ _ => 0) = 0 := fun r => by
      rw [show Spec.onSite 0 (fun _ _ => 0) = fun _ _ => 0 from by funext t s; simp [Spec.onSite], expect_zero]
    simp [Spec.energy, Spec.siteEnergy, hz, h0, colState, prodState]
    simp [onlyJ3]
  · have hz : Spec.field onlyJ3.hUni = fun _ _ => 0 := by
      funext a b
      simp [Spec.field, onlyJ3]
    have h0 : ∀ r, Spec.expect r (Spec.onSite 0 fun _ _ => 0) = 0 := fun r => by
      rw [show Spec.onSite 0 (fun _ _ => 0) = fun _ _ => 0 from by funext t s; simp [Spec.onSite], expect_zero]
    simp [Spec.energy, Spec.siteEnergy, hz, h0, Spec.thirdEnergy, colState, prodState, colThird]
    simp [onlyJ3]
    norm_num

/-! ### C52 -/

/-- All spins up. -/
noncomputable def upVec : Nat → ℂ := fun s => if s = 0 then 1 else 0

/-- The plaquette term has the wrong sign: with `q = 1` the ferromagnet has energy -1 per site, the value returned is -3. -/
theorem C52_violated (eigh : Tensor ℂ → List ℝ × Tensor ℂ) : ∃ (hx q : ℝ) (st : State ℂ) (env : Env ℂ) (D : Dims) (r : Tensor ℂ), Tiling st ∧ FitsState D st ∧ FitsEnv D st env ∧
    (∀ c, D.p c = 2) ∧ Rdm.rdm2x2 eigh false st env (0, 0) [0, 1, 2, 3] = .ok r ∧ isingEnergy eigh hx q st env = .ok (-3) ∧ Spec.isingSite hx q r = -1 := by
  have hn : pExpect upVec Corrf.Spec.one = 1 := by simp [pExpect, upVec, Corrf.Spec.one, Finset.sum_range_succ]
  have hz : pExpect upVec Spec.sz = 1 / 2 := by simp [pExpect, upVec, Spec.sz, Finset.sum_range_succ]
  obtain ⟨r, h1, h2⟩ := prodRdm_ok [(0, 0)] (fun _ => (0, 0)) (fun _ => upVec) eigh (fun _ => hn) (0, 0)
  have hb : ∀ m n, m < n → n < 4 → Spec.expect r (Spec.onBond m n (fun a b a' b' => 4 * (Spec.sz a a' * Spec.sz b b'))) = 1 := by
    intro m n hm hn'
    rw [h2, show (fun a b a' b' => 4 * (Spec.sz a a' * Spec.sz b b')) = fun a b a' b' => (fun x y => 4 * Spec.sz x y) a a' * Spec.sz b b' from by funext a b a' b'; ring,
      four_bond (w := fun _ => upVec) (fun _ => hn) m n hm hn']
    simp [pExpect, upVec, Spec.sz, Finset.sum_range_succ]
    norm_num
  have hf : Spec.expect r Spec.fourZ = 1 := by
    rw [h2]
    refine (expect_four (fun _ => upVec) (fun _ x y => 2 * Spec.sz x y)).trans ?_
    simp [pExpect, upVec, Spec.sz, Finset.sum_range_succ]
  obtain ⟨e, he, hv⟩ := C52_value eigh 0 1 (prodFitsState [(0, 0)] (fun _ => (0, 0)) (fun _ => upVec)) (prodFitsEnv _ _ _) (fun _ => rfl) h1
  refine ⟨0, 1, prodState [(0, 0)] (fun _ => (0, 0)) (fun _ => upVec), pEnv, pDims, r, ⟨fun _ _ => rfl, fun _ => by simp [prodState], fun c hc => by simp [prodState] at hc ⊢; exact hc.symm, by simp [prodState]⟩,
    prodFitsState _ _ _, prodFitsEnv _ _ _, fun _ => rfl, h1, ?_, ?_⟩
  · rw [he]
    refine congrArg Except.ok (Complex.ofReal_injective ?_)
    rw [hv, Spec.isingSite, hb 0 1 (by decide) (by decide), hb 0 2 (by decide) (by decide), hf]
    simp; norm_num
  · rw [Spec.isingSite, hb 0 1 (by decide) (by decide), hb 0 2 (by decide) (by decide), hf]
    simp

/-! ### Hypotheses are met -/

/-- All couplings but the field along y, on one site per cell. -/
example (eigh : Tensor ℂ → List ℝ × Tensor ℂ) : ∃ r, ∃ e : ℝ, energyPerSite eigh ⟨1, 2, 0, 0, 3, 5, fun i => if i = 2 then 0 else 7⟩ yState pEnv = .ok e ∧ (e : ℂ) = Spec.energy ⟨1, 2, 0, 0, 3, 5, fun i => if i = 2 then 0 else 7⟩ yState r := by
  obtain ⟨r, h1, h2, h3⟩ := yRdm eigh
  refine ⟨_, C50_partial eigh _ yTiling (prodFitsState _ _ _) (prodFitsEnv _ _ _) (fun _ => rfl) (r := fun _ => r) (fun c hc => ?_) h3 (Or.inl rfl) rfl (by simp)⟩
  have : c = (0, 0) := by simpa [yState, prodState] using hc
  rw [this]; exact h1

/-- Third neighbours on one site per cell. -/
example (eigh : Tensor ℂ → List ℝ × Tensor ℂ) : ∃ r, energyPerSite eigh ⟨1, 2, 4, 0, 3, 5, fun i => if i = 2 then 0 else 7⟩ yState pEnv =
    .ok (Spec.energy ⟨1, 2, 4, 0, 3, 5, fun i => if i = 2 then 0 else 7⟩ yState r + (4 : ℝ) * Spec.thirdEnergy (prodTensors (fun _ => (0, 0)) (fun _ => yVec)) pDims yState).re := by
  obtain ⟨r, h1, h2, h3⟩ := yRdm eigh
  refine ⟨_, C51_partial eigh _ yTiling (prodFitsState _ _ _) (prodFitsEnv _ _ _) (fun _ => rfl) (prodReads _ _ _) (fun d n _ => by rw [prodNorm _ _ (fun _ => yNorm)]; exact one_ne_zero)
    (r := fun _ => r) (fun c hc => ?_) h3 (Or.inl rfl) (by simp) (fun c hc => ?_)⟩ <;> have : c = (0, 0) := by simpa [yState, prodState] using hc
  · rw [this]; exact h1
  · rw [this]

example (eigh : Tensor ℂ → List ℝ × Tensor ℂ) : ∃ r, ∃ e : ℝ, isingEnergy eigh 2 0 yState pEnv = .ok e ∧ (e : ℂ) = Spec.isingSite 2 0 r := by
  obtain ⟨r, h1, h2, h3⟩ := yRdm eigh
  exact ⟨r, C52_partial eigh 2 (prodFitsState _ _ _) (prodFitsEnv _ _ _) (fun _ => rfl) h1⟩

end Verif.Energy
