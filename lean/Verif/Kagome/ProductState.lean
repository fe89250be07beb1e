import Verif.Kagome.HamProps
import Verif.Models.JqPlaqWitness
/-
Product states of the Kagome lattice: used for counterexamples and to show that hypotheses are met.
-/
namespace Verif.KagomeRdm
open Tensor Ctm Rdm Ctm.Spec Spec
open Corrf (pEnv)

variable {p : Nat} (keys : List Coord) (vts : Coord → Coord) (v : Coord → Nat → ℂ)

theorem plaqF_ones (e : PlaqEnv ℂ) (hC : e.C1.val = (fun _ => 1) ∧ e.C2.val = (fun _ => 1) ∧ e.C3.val = (fun _ => 1) ∧ e.C4.val = (fun _ => 1))
    (hT : e.T1.val = (fun _ => 1) ∧ e.T4.val = (fun _ => 1) ∧ e.T1x.val = (fun _ => 1) ∧ e.T2x.val = (fun _ => 1) ∧ e.T2xy.val = (fun _ => 1) ∧ e.T3xy.val = (fun _ => 1) ∧
      e.T3y.val = (fun _ => 1) ∧ e.T4y.val = (fun _ => 1)) {dim : Nat → Nat} (hd : ∀ l ∈ innerF, dim l = 1) (f g h i : Nat → Nat → Nat → Nat → ℂ) :
    plaqF dim e f g h i = f 0 0 0 0 * g 0 0 0 0 * h 0 0 0 0 * i 0 0 0 0 := by
  have hd' : ∀ l ∈ innerF, fdim dim (fun _ => 0) l = 1 := by
    intro l hl
    have : ¬ 100 ≤ l := by revert l; decide
    unfold fdim
    rw [if_neg this, hd l hl]
    split <;> rfl
  have h1 : ∀ (ls : List Nat), (∀ l ∈ ls, l ∈ innerF) → ∀ (F : (Nat → Nat) → ℂ) σ, (∀ l, σ l = 0) → sumOver (fdim dim (fun _ => 0)) ls F σ = F (fun _ => 0) := by
    intro ls
    induction ls with
    | nil => intro _ F σ hσ; simp only [sumOver]; congr 1; funext l; exact hσ l
    | cons l ls ih =>
      intro hl F σ hσ
      simp only [sumOver]
      rw [hd' l (hl l (by simp)), Finset.sum_range_one]
      refine ih (fun l hl' => hl l (by simp [hl'])) F _ (fun l' => ?_)
      by_cases h : l' = l
      · subst h; simp
      · simp [h, hσ]
  unfold plaqF
  rw [h1 innerF (fun _ h => h) _ _ (fun _ => rfl)]
  obtain ⟨c1, c2, c3, c4⟩ := hC
  obtain ⟨t1, t2, t3, t4, t5, t6, t7, t8⟩ := hT
  simp only [plaqBody, c1, c2, c3, c4, t1, t2, t3, t4, t5, t6, t7, t8]
  ring

theorem gPlaq (hp : 0 < p) (c : Coord) : ∃ e s T, plaq (Models.gState (p ^ 3) keys vts v) pEnv c = some (e, s) ∧ Rdm.Spec.AroundPlaq (Models.gState (p ^ 3) keys vts v) pEnv c e s ∧
    Rdm.Spec.FitsP (Rdm.Spec.dimsP (Models.gDims (p ^ 3)) c) e s ∧ oe2x2 e s [0, 1, 2, 3] = some T ∧ T.shape = List.replicate 4 (p ^ 3) ++ List.replicate 4 (p ^ 3) ∧
    Full (Rdm.Spec.dimsP (Models.gDims (p ^ 3)) c) e s (p ^ 3) T ∧ (s.a = Models.gSite (p ^ 3) (v (vts c)) ∧ s.ax = Models.gSite (p ^ 3) (v (vts (rt c))) ∧
      s.ay = Models.gSite (p ^ 3) (v (vts (dn c))) ∧ s.axy = Models.gSite (p ^ 3) (v (vts (dn (rt c))))) ∧
    ∀ f g h i, plaqF (Rdm.Spec.dimsP (Models.gDims (p ^ 3)) c) e f g h i = f 0 0 0 0 * g 0 0 0 0 * h 0 0 0 0 * i 0 0 0 0 := by
  have hP : 0 < p ^ 3 := by positivity
  obtain ⟨e, s, h1, h0, h2⟩ := plaq_ok (Models.gFitsState keys vts v hP) (Models.gFitsEnv keys vts v) c
  obtain ⟨T, eT, sT, vT⟩ := plaq_full h2 (P := p ^ 3) rfl rfl rfl rfl
  have hC : ∀ k T, (pEnv (K := ℂ)).C k = some T → T.val = fun _ => 1 := by
    intro k T h; simp only [pEnv] at h; injection h with h; rw [← h]
  have hT : ∀ k T, (pEnv (K := ℂ)).T k = some T → T.val = fun _ => 1 := by
    intro k T h; simp only [pEnv] at h; injection h with h; rw [← h]
  refine ⟨e, s, T, h1, h0, h2, eT, sT, vT, ⟨?_, ?_, ?_, ?_⟩, fun f g h i => plaqF_ones e ⟨hC _ _ h0.C1, hC _ _ h0.C2, hC _ _ h0.C3, hC _ _ h0.C4⟩
    ⟨hT _ _ h0.T1, hT _ _ h0.T4, hT _ _ h0.T1x, hT _ _ h0.T2x, hT _ _ h0.T2xy, hT _ _ h0.T3xy, hT _ _ h0.T3y, hT _ _ h0.T4y⟩ (fun l hl => ?_) f g h i⟩
  · exact (Option.some.inj h0.a).symm
  · exact (Option.some.inj h0.ax).symm
  · exact (Option.some.inj h0.ay).symm
  · exact (Option.some.inj h0.axy).symm
  · fin_cases hl <;> rfl

theorem lay_g (P : Nat) (w : Nat → ℂ) (s t : Nat) : lay (Models.gSite P w) s t 0 0 0 0 = w s * star (w t) := by
  simp [lay, Models.gSite]

/-! ### Products over all spins -/

/-- A site with the vectors `w x` on its spins. -/
def prodVec (p : Nat) (w : Fin 3 → Nat → ℂ) (n : Nat) : ℂ := w 0 (sp p n 0) * w 1 (sp p n 1) * w 2 (sp p n 2)

/-- The product state with the vectors `w c x` on spin `x` of site `c`. -/
def kState (p : Nat) (keys : List Coord) (vts : Coord → Coord) (w : Coord → Fin 3 → Nat → ℂ) : State ℂ := Models.gState (p ^ 3) keys vts (fun c => prodVec p (w c))

/-- The projectors on the vectors `f x`. -/
noncomputable def proj (p : Nat) (f : Fin 3 → Nat → ℂ) : Op3 ℂ p := tensor fun x => Matrix.of fun i j => f x i * star (f x j)

theorem opened_g (w : Fin 3 → Nat → ℂ) (o : Nat → Option (Nat × Nat)) (ho : ∀ x, ∀ q ∈ o x, q.1 < p ∧ q.2 < p) :
    opened p (Models.gSite (p ^ 3) (prodVec p w)) o 0 0 0 0 =
      pairSum p (o 0) (fun s t => w 0 s * star (w 0 t)) * pairSum p (o 1) (fun s t => w 1 s * star (w 1 t)) * pairSum p (o 2) (fun s t => w 2 s * star (w 2 t)) := by
  unfold opened
  have h0 : ∀ s t, lay (Models.gSite (p ^ 3) (prodVec p w)) s t 0 0 0 0 = prodVec p w s * star (prodVec p w t) := lay_g _ _
  simp only [h0]
  rw [three_spins p o ho (fun s t => prodVec p w s * star (prodVec p w t))]
  have hv : ∀ s0 s1 s2 : Nat, s0 < p → s1 < p → s2 < p → prodVec p w (enc p s0 s1 s2) = w 0 s0 * w 1 s1 * w 2 s2 := by
    intro s0 s1 s2 h0 h1 h2
    obtain ⟨a, b, c⟩ := sp_enc h0 h1 h2
    rw [prodVec, a, b, c]
  have hc : ∀ (x : Nat) (F G : Nat → Nat → ℂ), (∀ s t, s < p → t < p → F s t = G s t) → pairSum p (o x) F = pairSum p (o x) G := by
    intro x F G h
    cases hx : o x with
    | none => exact Finset.sum_congr rfl fun s hs => h s s (Finset.mem_range.1 hs) (Finset.mem_range.1 hs)
    | some q => exact h _ _ (ho x q hx).1 (ho x q hx).2
  have hm : ∀ (x : Nat) (z : ℂ) (F : Nat → Nat → ℂ), pairSum p (o x) (fun s t => z * F s t) = z * pairSum p (o x) F := by
    intro x z F
    cases o x with
    | none => exact (Finset.mul_sum _ _ _).symm
    | some q => rfl
  rw [hc 0 _ (fun s0 t0 => (pairSum p (o 1) (fun s t => w 1 s * star (w 1 t)) * pairSum p (o 2) (fun s t => w 2 s * star (w 2 t))) * (w 0 s0 * star (w 0 t0)))]
  · rw [hm]; ring
  intro s0 t0 hs0 ht0
  rw [hc 1 _ (fun s1 t1 => (pairSum p (o 2) (fun s t => w 2 s * star (w 2 t)) * (w 0 s0 * star (w 0 t0))) * (w 1 s1 * star (w 1 t1)))]
  · rw [hm]; ring
  intro s1 t1 hs1 ht1
  rw [hc 2 _ (fun s2 t2 => ((w 0 s0 * star (w 0 t0)) * (w 1 s1 * star (w 1 t1))) * (w 2 s2 * star (w 2 t2)))]
  · rw [hm]; ring
  intro s2 t2 hs2 ht2
  rw [hv _ _ _ hs0 hs1 hs2, hv _ _ _ ht0 ht1 ht2]
  simp only [star_mul']
  ring

theorem pairs_lt {p x y : Nat} (keeps : List (List Nat)) (s t : Spins p) (i : Nat) : ∀ z, ∀ q ∈ pairs keeps (put x y s) (put x y t) i z, q.1 < p ∧ q.2 < p := by
  intro z q hq
  unfold pairs pairOf at hq
  split at hq
  · obtain rfl := Option.mem_some_iff.1 hq
    exact ⟨put_lt _ _ _ _, put_lt _ _ _ _⟩
  · cases hq

section
variable (w : Coord → Fin 3 → Nat → ℂ)

/-- The density matrix of a plaquette of normalised vectors, on a down and an up triangle. -/
theorem kProduct (eigh : Tensor ℂ → List ℝ × Tensor ℂ) (hp : 0 < p) (hw : ∀ c x, ∑ a ∈ Finset.range p, w c x a * star (w c x a) = 1) (c : Coord) :
    ∃ R, rdm2x2 eigh false (kState p keys vts w) pEnv c [0, 1, 2, 3] = .ok R ∧ reduced p 4 R 0 1 2 = proj p (w (vts c)) ∧
      reduced p 4 R 4 8 9 = proj p (fun x => if x = 0 then w (vts (rt c)) 1 else if x = 1 then w (vts (dn c)) 2 else w (vts (dn (rt c))) 0) := by
  obtain ⟨e, s, T, h1, h0, h2, eT, sT, vT, ⟨a0, a1, a2, a3⟩, hF⟩ := gPlaq keys vts (fun c => prodVec p (w c)) hp c
  have hm := fun keeps h3 k b => plaqF_opened (Rdm.Spec.dimsP (Models.gDims (p ^ 3)) c) e p s.a s.ax s.ay s.axy (keeps := keeps) h3 k b vT
  simp only [hF, a0, a1, a2, a3] at hm
  have hnone : ∀ c, opened p (Models.gSite (p ^ 3) (prodVec p (w c))) (fun _ => none) 0 0 0 0 = 1 := by
    intro c
    rw [opened_g _ _ (by simp)]
    simp only [pairSum, hw, mul_one]
  have htr : Matrix.trace (Rdm.Spec.op (List.replicate 4 (p ^ 3)) T) = 1 := by
    rw [← marginal_nil T (fun _ => 0) (fun _ => 0)]
    have := hm [[], [], [], []] (by simp) (fun _ => 0) (fun _ => 0)
    rw [show Spec.kept [[], [], [], []] = [] from rfl, pairs_none (i := 0) rfl, pairs_none (i := 1) rfl, pairs_none (i := 2) rfl, pairs_none (i := 3) rfl] at this
    rw [← this, hnone, hnone, hnone, hnone]; norm_num
  have hd : reduced p 4 T 0 1 2 = proj p (w (vts c)) := by
    ext u t
    have := hm [[0, 1, 2], [], [], []] (by simp) (put 0 1 u) (put 0 1 t)
    rw [pairs_none (i := 1) rfl, pairs_none (i := 2) rfl, pairs_none (i := 3) rfl, hnone, hnone, hnone, opened_g _ _ (pairs_lt _ _ _ _)] at this
    refine this.symm.trans ?_
    simp only [mul_one, proj, tensor, Matrix.of_apply, Fin.prod_univ_three]
    rfl
  have hu : reduced p 4 T 4 8 9 = proj p (fun x => if x = 0 then w (vts (rt c)) 1 else if x = 1 then w (vts (dn c)) 2 else w (vts (dn (rt c))) 0) := by
    ext u t
    have := hm [[], [1], [2], [0]] (by simp) (put 4 8 u) (put 4 8 t)
    rw [pairs_none (i := 0) rfl, hnone, opened_g _ _ (pairs_lt _ _ _ _), opened_g _ _ (pairs_lt _ _ _ _), opened_g _ _ (pairs_lt _ _ _ _)] at this
    refine this.symm.trans ?_
    simp only [pairs, pairOf, List.getD_cons_zero, List.getD_cons_succ]
    simp [pairSum, hw, proj, tensor, Fin.prod_univ_three, put, -RCLike.star_def, -Complex.star_def]
  have hherm : ∀ f, (proj p f).conjTranspose = proj p f := by
    intro f
    rw [proj, tensor_conj]
    congr 1
    funext x
    ext i j
    simp [mul_comm]
  have hn : RCLike.re (Matrix.trace (Rdm.Spec.op (List.replicate 4 (p ^ 3)) T)) ≠ 0 := by rw [htr]; simp
  obtain ⟨R, e1, -, v1⟩ := symRdm_entries eigh sT (by simp [hp]) hn
  refine ⟨R, by rw [kState, rdm2x2_eq eigh false h1 (by decide) eT]; exact e1, ?_, ?_⟩
  · rw [reduced_herm _ T R v1, hd, hherm, htr, ← two_smul ℂ, smul_smul]
    simp
  · rw [reduced_herm _ T R v1, hu, hherm, htr, ← two_smul ℂ, smul_smul]
    simp
end

theorem trace_tensor (A : Fin 3 → Su2.Op p) : Matrix.trace (tensor A) = ∏ x, Matrix.trace (A x) := by
  simp only [Matrix.trace, Matrix.diag_apply, tensor, Matrix.of_apply]
  rw [Finset.prod_univ_sum, Fintype.piFinset_univ]

theorem trace_proj (f : Fin 3 → Nat → ℂ) (A : Fin 3 → Su2.Op p) :
    Matrix.trace (proj p f * tensor A) = ∏ x, ∑ i : Fin p, ∑ j : Fin p, f x i * star (f x j) * A x j i := by
  rw [proj, tensor_mul, trace_tensor]
  refine Finset.prod_congr rfl fun x _ => ?_
  simp only [Matrix.trace, Matrix.diag_apply, Matrix.mul_apply, Matrix.of_apply]

end Verif.KagomeRdm
