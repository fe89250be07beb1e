import Verif.Kagome.ObsProps
/-
C117, continued: refutations, and a product state that meets the hypotheses.
-/
namespace Verif.KagomeRdm
open Tensor Ctm Rdm Ctm.Spec Spec
open Corrf (pEnv)

/-- With `disp_corre_len` there is never a result. -/
theorem C117_corr_violated (eigh : Tensor ℂ → List ℝ × Tensor ℂ) (cast : Bool) (m : Couplings) (st : State ℂ) (env : Env ℂ) : ¬ ∃ out, evalObs eigh cast true m st env = .ok out := by
  rintro ⟨out, h⟩
  unfold evalObs at h
  simp only [bind, Except.bind, if_true] at h
  repeat' split at h
  all_goals cases h

/-! ### Product states -/

theorem gNetwork {p : Nat} (keys : List Coord) (vts : Coord → Coord) (v : Coord → Nat → ℂ) (c : Coord) {e : SiteEnv ℂ} {a rho : Tensor ℂ}
    (h0 : Rdm.Spec.AroundSite (Models.gState (p ^ 3) keys vts v) pEnv c e a)
    (h1 : Corner.Spec.IsNetwork (Rdm.Spec.dims1 (Models.gDims (p ^ 3)) c) rho [[4], [7]] Rdm.Spec.inner1 (Rdm.Spec.rho1 (Rdm.Spec.dims1 (Models.gDims (p ^ 3)) c) e a))
    (s t : Nat) (hs : s < p ^ 3) (ht : t < p ^ 3) : rho.val [s, t] = v (vts c) s * star (v (vts c) t) := by
  have hC : ∀ k T, (pEnv (K := ℂ)).C k = some T → T.val = fun _ => 1 := by
    intro k T h; simp only [pEnv] at h; injection h with h; rw [← h]
  have hT : ∀ k T, (pEnv (K := ℂ)).T k = some T → T.val = fun _ => 1 := by
    intro k T h; simp only [pEnv] at h; injection h with h; rw [← h]
  have ha : a = Models.gSite (p ^ 3) (v (vts c)) := (Option.some.inj h0.ket).symm
  have := h1.2 (fun l => if l = 4 then s else if l = 7 then t else 0) (by
    intro g hg l hl
    simp only [List.mem_cons, List.not_mem_nil, or_false] at hg
    rcases hg with rfl | rfl
    · obtain rfl : l = 4 := by simpa using hl
      exact hs
    · obtain rfl : l = 7 := by simpa using hl
      exact ht)
  refine Eq.trans ?_ (this.trans ?_)
  · simp [ravel]
  have hd : ∀ l ∈ Rdm.Spec.inner1, Rdm.Spec.dims1 (Models.gDims (p ^ 3)) c l = 1 := by
    intro l hl
    fin_cases hl <;> rfl
  have hk : ∀ (ls : List Nat), (∀ l ∈ ls, l ∈ Rdm.Spec.inner1) → ∀ (F : (Nat → Nat) → ℂ) (σ : Nat → Nat), (∀ l ∈ ls, σ l = 0) →
      sumOver (Rdm.Spec.dims1 (Models.gDims (p ^ 3)) c) ls F σ = F σ := by
    intro ls
    induction ls with
    | nil => intro _ F σ _; rfl
    | cons l ls ih =>
      intro hl F σ hσ
      simp only [sumOver]
      rw [hd l (hl l (by simp)), Finset.sum_range_one, show Function.update σ l 0 = σ by rw [← hσ l (by simp)]; exact Function.update_eq_self _ _]
      exact ih (fun l hl' => hl l (by simp [hl'])) F σ (fun l hl' => hσ l (by simp [hl']))
  rw [hk _ (fun _ h => h) _ _ (fun l hl => by
    have h4 : l ≠ 4 := by rintro rfl; exact absurd hl (by decide)
    have h7 : l ≠ 7 := by rintro rfl; exact absurd hl (by decide)
    simp [h4, h7])]
  simp only [Rdm.Spec.rho1, hC _ _ h0.C1, hC _ _ h0.C2, hC _ _ h0.C3, hC _ _ h0.C4, hT _ _ h0.T1, hT _ _ h0.T2, hT _ _ h0.T3, hT _ _ h0.T4, ha]
  simp [Models.gSite]

/-- Spins 0 and 1 point up, spin 2 points down. -/
noncomputable def uudVec (x : Fin 3) (a : Nat) : ℂ := if x = 2 then (if a = 1 then 1 else 0) else if a = 0 then 1 else 0

theorem uud_norm (x : Fin 3) : ∑ a ∈ Finset.range 2, uudVec x a * star (uudVec x a) = 1 := by
  rw [Finset.sum_range_succ, Finset.sum_range_one]
  fin_cases x <;> simp [uudVec]

noncomputable def uudState : State ℂ := kState 2 [(0, 0)] (fun _ => (0, 0)) (fun _ => uudVec)

theorem trace_dot (f : Fin 3 → Nat → ℂ) (hf : ∀ x, f x = (fun a => if a = 0 then 1 else 0) ∨ f x = fun a => if a = 1 then 1 else 0) :
    ∀ x y : Fin 3, x ≠ y → Matrix.trace (proj 2 f * dot 2 x y) = if f x 0 = f y 0 then 1 / 4 else -(1 / 4) := by
  have hm : ∀ (x y : Fin 3) (A : Su2.Op 2), x ≠ y → at' x A * at' y A = tensor (Function.update (Function.update (fun _ => 1) x A) y A) := by
    intro x y A h
    unfold at'
    rw [tensor_mul]
    congr 1
    funext z
    by_cases h1 : z = y
    · subst h1; simp [Ne.symm h]
    · by_cases h2 : z = x
      · subst h2; simp [h1]
      · simp [h1, h2]
  obtain ⟨sx, sy, sz⟩ := spins2
  intro x y h
  unfold dot
  rw [Fin.sum_univ_three, hm _ _ _ h, hm _ _ _ h, hm _ _ _ h, mul_add, mul_add, Matrix.trace_add, Matrix.trace_add, trace_proj, trace_proj, trace_proj, sx, sy, sz]
  simp only [Fin.prod_univ_three, Fin.sum_univ_two]
  rcases hf 0 with h0 | h0 <;> rcases hf 1 with h1 | h1 <;> rcases hf 2 with h2 | h2 <;> fin_cases x <;> fin_cases y <;>
    simp [h0, h1, h2, Function.update, Matrix.one_apply] at h ⊢ <;> norm_num

theorem uud_basis : ∀ x, uudVec x = (fun a => if a = 0 then 1 else 0) ∨ uudVec x = fun a => if a = 1 then 1 else 0 := by
  intro x
  fin_cases x
  · left; funext a; simp [uudVec]
  · left; funext a; simp [uudVec]
  · right; funext a; simp [uudVec]

theorem uudRdm (eigh : Tensor ℂ → List ℝ × Tensor ℂ) : ∃ R, rdm2x2 eigh false uudState pEnv (0, 0) [0, 1, 2, 3] = .ok R ∧ reduced 2 4 R 0 1 2 = proj 2 uudVec ∧
    reduced 2 4 R 4 8 9 = proj 2 (fun x => uudVec (x + 1)) := by
  obtain ⟨R, hR, h1, h2⟩ := kProduct [(0, 0)] (fun _ => (0, 0)) (fun _ => uudVec) eigh (by decide) (fun _ => uud_norm) (0, 0)
  refine ⟨R, hR, h1, h2.trans ?_⟩
  congr 1
  funext x
  fin_cases x <;> rfl

/-- The correlations are multiplied by `j1`. -/
theorem C117_violated (eigh : Tensor ℂ → List ℝ × Tensor ℂ) : ∃ (m : Couplings) (D : Dims) (st : State ℂ) (env : Env ℂ) (R : Tensor ℂ) (out : List ((String × Coord) × ℂ)) (d : ℂ),
    Tiling st ∧ FitsState D st ∧ FitsEnv D st env ∧ (∀ c, D.p c = m.p ^ 3) ∧ rdm2x2 eigh false st env (0, 0) [0, 1, 2, 3] = .ok R ∧ bonds eigh m st env (0, 0) = .ok out ∧
    (("SS_dn_01", (0, 0)), d) ∈ out ∧ d.re = 1 / 2 ∧ Matrix.trace (reduced m.p 4 R 0 1 2 * dot m.p 0 1) = 1 / 4 := by
  obtain ⟨R, hR, h1, -⟩ := uudRdm eigh
  have hs : FitsState (Models.gDims (2 ^ 3)) uudState := Models.gFitsState _ _ _ (by decide)
  have he : FitsEnv (Models.gDims (2 ^ 3)) uudState pEnv := Models.gFitsEnv _ _ _
  obtain ⟨d1, d2, d3, e, v1, -, -⟩ := C117_bonds eigh ⟨2, 2, 0, 0, 0, 0, 0⟩ (one_tiling _) hs he (fun _ => rfl) (0, 0) hR
  have hd : Matrix.trace (reduced 2 4 R 0 1 2 * dot 2 0 1) = 1 / 4 := by
    rw [h1, trace_dot _ uud_basis _ _ (by decide)]; simp [uudVec]
  refine ⟨⟨2, 2, 0, 0, 0, 0, 0⟩, _, uudState, pEnv, R, _, d1, one_tiling _, hs, he, fun _ => rfl, hR, e, by simp, ?_, hd⟩
  have hb : bond ⟨2, 2, 0, 0, 0, 0, 0⟩ 0 1 = (2 : ℂ) • dot 2 0 1 := by simp [bond]
  rw [hb, Matrix.mul_smul, Matrix.trace_smul] at v1
  rw [show Matrix.trace (reduced (Couplings.p ⟨2, 2, 0, 0, 0, 0, 0⟩) 4 R 0 1 2 * dot 2 0 1) = 1 / 4 from hd] at v1
  have := congrArg Complex.re v1
  rw [Complex.ofReal_re] at this
  rw [this]; norm_num

/-- With `j1 = 1`: the label `SS_up_01` is not the correlation of the spins 0 and 1 of the up triangle. Spin 1 is the first, spin 2 the second and spin 0 the third of the spins
`4`, `8`, `9` of the plaquette. -/
theorem C117_labels_violated (eigh : Tensor ℂ → List ℝ × Tensor ℂ) : ∃ (m : Couplings) (D : Dims) (st : State ℂ) (env : Env ℂ) (R : Tensor ℂ) (out : List ((String × Coord) × ℂ)),
    m.j1 = 1 ∧ m.JD = 0 ∧ Tiling st ∧ FitsState D st ∧ FitsEnv D st env ∧ (∀ c, D.p c = m.p ^ 3) ∧ rdm2x2 eigh false st env (0, 0) [0, 1, 2, 3] = .ok R ∧
    bonds eigh m st env (0, 0) = .ok out ∧ (("SS_up_01", (0, 0)), -(1 / 4 : ℂ)) ∈ out ∧ Matrix.trace (reduced m.p 4 R 4 8 9 * dot m.p 2 0) = 1 / 4 := by
  obtain ⟨R, hR, -, h1⟩ := uudRdm eigh
  have hs : FitsState (Models.gDims (2 ^ 3)) uudState := Models.gFitsState _ _ _ (by decide)
  have he : FitsEnv (Models.gDims (2 ^ 3)) uudState pEnv := Models.gFitsEnv _ _ _
  obtain ⟨d1, d2, d3, e, -, -, -⟩ := C117_bonds eigh ⟨2, 1, 0, 0, 0, 0, 0⟩ (one_tiling _) hs he (fun _ => rfl) (0, 0) hR
  have hd : Matrix.trace (reduced 2 4 R 4 8 9 * dot 2 2 0) = 1 / 4 := by
    rw [h1, trace_dot _ (fun x => uud_basis (x + 1)) _ _ (by decide)]; simp [uudVec]
  have hd' : Matrix.trace (reduced 2 4 R 4 8 9 * dot 2 0 1) = -(1 / 4) := by
    rw [h1, trace_dot _ (fun x => uud_basis (x + 1)) _ _ (by decide)]; simp [uudVec]
  have hb : bond ⟨2, 1, 0, 0, 0, 0, 0⟩ 0 1 = dot 2 0 1 := by simp [bond]
  refine ⟨⟨2, 1, 0, 0, 0, 0, 0⟩, _, uudState, pEnv, R, _, rfl, rfl, one_tiling _, hs, he, fun _ => rfl, hR, e, ?_, hd⟩
  rw [hb, show Matrix.trace (reduced (Couplings.p ⟨2, 1, 0, 0, 0, 0, 0⟩) 4 R 4 8 9 * dot 2 0 1) = -(1 / 4) from hd']
  simp

/-! ### The hypotheses can be met -/

theorem uudOnsite (eigh : Tensor ℂ → List ℝ × Tensor ℂ) : ∃ R out, rdm1x1 eigh true false uudState pEnv (0, 0) none = .ok R ∧ onsite 2 uudState pEnv (0, 0) = .ok out ∧
    LadderValues out (0, 0) (fun O : Op3 ℂ 2 => Matrix.trace (reduced 2 1 R 0 1 2 * O)) ∧ LengthValues out (0, 0) (fun O : Op3 ℂ 2 => Matrix.trace (reduced 2 1 R 0 1 2 * O)) := by
  have hs : FitsState (Models.gDims (2 ^ 3)) uudState := Models.gFitsState _ _ _ (by decide)
  have he : FitsEnv (Models.gDims (2 ^ 3)) uudState pEnv := Models.gFitsEnv _ _ _
  have hc : ((0, 0) : Coord) ∈ uudState.keys := by simp [uudState, kState, Models.gState]
  obtain ⟨e, a, rho, h0, h1, h2, -⟩ := C117_onsite (one_tiling _) hs he (fun _ => rfl) (0, 0) hc
  have hv := fun s t hs ht => gNetwork (p := 2) _ _ _ (0, 0) h0 h1 s t hs ht
  have sT : rho.shape = List.replicate 1 (2 ^ 3) ++ List.replicate 1 (2 ^ 3) := h1.1
  have htr : Matrix.trace (Rdm.Spec.op (List.replicate 1 (2 ^ 3)) rho) = 1 := by
    rw [trace_op]
    simp only [List.replicate, sumIdx]
    refine (Finset.sum_congr rfl fun s hs => hv s s (Finset.mem_range.1 hs) (Finset.mem_range.1 hs)).trans ?_
    simp only [Finset.sum_range_succ, prodVec, sp, uudVec, Nat.reducePow]
    norm_num [show (1 : Fin 3) ≠ 2 by decide, show (0 : Fin 3) ≠ 2 by decide]
  obtain ⟨R, eR, -, -⟩ := symRdm_entries eigh sT (by decide) (by rw [htr]; simp)
  have hR : rdm1x1 eigh true false uudState pEnv (0, 0) none = .ok R := by exact (h2 eigh true false).trans eR
  obtain ⟨out, k1, -, k2, k3⟩ := C117_onsite_hermitian eigh (one_tiling _) hs he (fun _ => rfl) (0, 0) hc hR (fun e a rho h0 h1 s hs t ht => by
    rw [gNetwork (p := 2) _ _ _ (0, 0) h0 h1 s t hs ht, gNetwork (p := 2) _ _ _ (0, 0) h0 h1 t s ht hs]
    simp [mul_comm])
  exact ⟨R, out, hR, k1, k2, k3⟩

example (eigh : Tensor ℂ → List ℝ × Tensor ℂ) (cast : Bool) : ∃ out, evalObs eigh cast false ⟨2, 1, 1/2, 1/4, 3, 2, 1 + Complex.I⟩ uudState pEnv = .ok out ∧ out.length = 20 := by
  obtain ⟨R, hR, -, -⟩ := uudRdm eigh
  obtain ⟨R1, on, -, h2, -⟩ := uudOnsite eigh
  have hk : ∀ c ∈ uudState.keys, c = (0, 0) := by intro c hc; simpa [uudState, kState, Models.gState] using hc
  obtain ⟨out, h, hl, -⟩ := C117_eval eigh cast ⟨2, 1, 1/2, 1/4, 3, 2, 1 + Complex.I⟩ (one_tiling _) (Models.gFitsState _ _ _ (by decide)) (Models.gFitsEnv _ _ _) (fun _ => rfl)
    (R := fun _ => R) (fun c hc => by rw [hk c hc]; exact hR) (on := fun _ => on) (fun c hc => by rw [hk c hc]; exact h2)
  refine ⟨out, h, ?_⟩
  have := congrArg List.length hl
  simpa [kState, Models.gState, siteLabels, bondLabels] using this

example (eigh : Tensor ℂ → List ℝ × Tensor ℂ) : ∃ out, pUp eigh 2 uudState pEnv = .ok out ∧ out.map Prod.fst = [(0, 0)] := by
  obtain ⟨R, hR, -, -⟩ := uudRdm eigh
  have hk : ∀ c ∈ uudState.keys, c = (0, 0) := by intro c hc; simpa [uudState, kState, Models.gState] using hc
  obtain ⟨out, h, hl, -⟩ := C117_P_up eigh (p := 2) (one_tiling _) (Models.gFitsState _ _ _ (by decide)) (Models.gFitsEnv _ _ _) (fun _ => rfl)
    (R := fun _ => R) (fun c hc => by rw [hk c hc]; exact hR)
  exact ⟨out, h, hl⟩

end Verif.KagomeRdm
