import Verif.Kagome.Chiral
/-
C121: the energies and observables of SU3_CHIRAL and the next-nearest-neighbour functions of the Kagome models. C122: SU3_AKLT.
-/
namespace Verif.KagomeRdm
open Tensor Ctm Rdm Ctm.Spec Spec
open Su3 (δ)

theorem aligned_herm (p : Nat) : (aligned p).IsHermitian := by
  ext t s
  simp only [Matrix.conjTranspose_apply, aligned, Matrix.of_apply, apply_ite (star : ℂ → ℂ), star_one, star_zero]
  congr 1
  refine propext ⟨?_, ?_⟩ <;> (rintro ⟨rfl, h⟩; exact ⟨rfl, h⟩)

/-- `energy_triangle_up` in general: the coupling `j1` multiplies the sum of the exchanges minus twice the projector on equal states. -/
theorem C121_energy_up (eigh : Tensor ℂ → List ℝ × Tensor ℂ) (m : ChiralCouplings) {D : Dims} {st : State ℂ} {env : Env ℂ} (ht : Tiling st) (hs : FitsState D st) (he : FitsEnv D st env)
    (hp : ∀ c, D.p c = 3 ^ 3) {R : Tensor ℂ} (hR : rdm2x2 eigh false st env (0, 0) [0, 1, 2, 3] = .ok R) :
    ∃ v : ℝ, chiralUp eigh m st env = .ok v ∧ (v : ℂ) = Matrix.trace (reduced 3 4 R 4 8 9 * (su3Triangle ⟨m.j1, m.Kr, m.Ki⟩ - (2 * m.j1 : ℂ) • aligned 3)) := by
  obtain ⟨R', e, hm⟩ := C113_up eigh ht hs he hp (0, 0) hR
  have hv := full6_val (holds_marginal (by decide) (by decide) (by decide) hm) (chiralH_holds m)
  have hH : (su3Triangle ⟨m.j1, m.Kr, m.Ki⟩ - (2 * m.j1 : ℂ) • aligned 3).IsHermitian := by
    refine (su3Triangle_herm _).sub ?_
    have : (2 * m.j1 : ℂ) • aligned 3 = ((2 * m.j1 : ℝ) : ℂ) • aligned 3 := by push_cast; rfl
    rw [this]
    show Matrix.conjTranspose _ = _
    rw [Matrix.conjTranspose_smul, (aligned_herm 3).eq]
    congr 1
    exact Complex.conj_ofReal _
  have hr := trace_real (reduced_isHerm eigh hs he hp (0, 0) hR 4 8 9) hH
  refine ⟨_, ?_, hr⟩
  unfold chiralUp
  rw [e]
  show (lift (full6 R' (chiralH m)) >>= _) = _
  rw [hv]
  show castReal _ = _
  unfold castReal
  rw [if_pos]
  rw [← hr, Complex.ofReal_im, abs_zero]
  positivity

/-- Without exchange coupling `energy_triangle_up` is the expectation value of `(Kr + i Ki) P + (Kr - i Ki) P^-1` in the up triangle. With `j1` it is not: `C121_violated`. -/
theorem C121_energy_up_partial (eigh : Tensor ℂ → List ℝ × Tensor ℂ) (m : ChiralCouplings) (hj : m.j1 = 0) {D : Dims} {st : State ℂ} {env : Env ℂ} (ht : Tiling st) (hs : FitsState D st)
    (he : FitsEnv D st env) (hp : ∀ c, D.p c = 3 ^ 3) {R : Tensor ℂ} (hR : rdm2x2 eigh false st env (0, 0) [0, 1, 2, 3] = .ok R) :
    ∃ v : ℝ, chiralUp eigh m st env = .ok v ∧ (v : ℂ) = Matrix.trace (reduced 3 4 R 4 8 9 * su3Triangle ⟨m.j1, m.Kr, m.Ki⟩) := by
  obtain ⟨v, e, h⟩ := C121_energy_up eigh m ht hs he hp hR
  refine ⟨v, e, ?_⟩
  rw [h, hj]
  simp

/-- `P_up` is the expectation value of the cyclic exchange in the up triangle. -/
theorem C121_P_up (eigh : Tensor ℂ → List ℝ × Tensor ℂ) {D : Dims} {st : State ℂ} {env : Env ℂ} (ht : Tiling st) (hs : FitsState D st) (he : FitsEnv D st env)
    (hp : ∀ c, D.p c = 3 ^ 3) {R : Tensor ℂ} (hR : rdm2x2 eigh false st env (0, 0) [0, 1, 2, 3] = .ok R) :
    chiralPup eigh st env = .ok (Matrix.trace (reduced 3 4 R 4 8 9 * cyclic 3)) := by
  obtain ⟨R', e, hm⟩ := C113_up eigh ht hs he hp (0, 0) hR
  have hv := full6_val (holds_marginal (by decide) (by decide) (by decide) hm) permTri_holds
  unfold chiralPup
  rw [e]
  show lift (full6 R' permTri) = _
  rw [hv]; rfl

/-- `P_bonds_nn`: the exchanges of the bonds 23, 13, 12 of the down triangle. -/
theorem C121_bonds (eigh : Tensor ℂ → List ℝ × Tensor ℂ) {D : Dims} {st : State ℂ} {env : Env ℂ} (ht : Tiling st) (hs : FitsState D st) (he : FitsEnv D st env)
    (hp : ∀ c, D.p c = 3 ^ 3) (hh : HermitianSite 3 D st env (0, 0)) {R : Tensor ℂ} (hR : rdm1x1 eigh true false st env (0, 0) none = .ok R) :
    chiralBonds eigh st env = .ok ((Matrix.trace (reduced 3 1 R 0 1 2 * swap 3 1 2)).re, (Matrix.trace (reduced 3 1 R 0 1 2 * swap 3 0 2)).re, (Matrix.trace (reduced 3 1 R 0 1 2 * swap 3 0 1)).re) := by
  obtain ⟨n, hn, h⟩ := op_herm eigh ht hs he hp hR hh
  obtain ⟨a, ea, qa⟩ := h _ _ bond23_isMat
  obtain ⟨b, eb, qb⟩ := h _ _ bond13_isMat
  obtain ⟨c, ec, qc⟩ := h _ _ bond12_isMat
  unfold chiralBonds
  rw [hn]
  show (op1x1 eigh st env _ >>= fun x => ratio x n >>= _) = _
  rw [ea]
  show (ratio a n >>= _) = _
  rw [qa]
  show (op1x1 eigh st env _ >>= fun x => ratio x n >>= _) = _
  rw [eb]
  show (ratio b n >>= _) = _
  rw [qb]
  show (op1x1 eigh st env _ >>= fun x => ratio x n >>= _) = _
  rw [ec]
  show (ratio c n >>= _) = _
  rw [qc]
  rfl

/-- `eval_lambdas`: the expectation values of the two diagonal generators on the three spins of the down triangle. -/
theorem C121_lambdas (eigh : Tensor ℂ → List ℝ × Tensor ℂ) {D : Dims} {st : State ℂ} {env : Env ℂ} (ht : Tiling st) (hs : FitsState D st) (he : FitsEnv D st env)
    (hp : ∀ c, D.p c = 3 ^ 3) (hh : HermitianSite 3 D st env (0, 0)) {R : Tensor ℂ} (hR : rdm1x1 eigh true false st env (0, 0) none = .ok R) :
    ∃ v : Fin 3 → Fin 8 → ℂ, chiralLambdas eigh st env = .ok ((v 0 2, v 1 2, v 2 2), (v 0 7, v 1 7, v 2 7)) ∧
      ∀ x k, v x k = Matrix.trace (reduced 3 1 R 0 1 2 * at' x (Su3.Spec.lambda k)) := by
  refine ⟨_, ?_, fun x k => rfl⟩
  obtain ⟨n, hn, h⟩ := op_herm eigh ht hs he hp hR hh
  obtain ⟨a0, ea0, qa0⟩ := h _ _ (lambda3_isMat 0)
  obtain ⟨a1, ea1, qa1⟩ := h _ _ (lambda3_isMat 1)
  obtain ⟨a2, ea2, qa2⟩ := h _ _ (lambda3_isMat 2)
  obtain ⟨b0, eb0, qb0⟩ := h _ _ (lambda8_isMat 0)
  obtain ⟨b1, eb1, qb1⟩ := h _ _ (lambda8_isMat 1)
  obtain ⟨b2, eb2, qb2⟩ := h _ _ (lambda8_isMat 2)
  unfold chiralLambdas
  rw [hn, ea0, ea1, ea2, eb0, eb1, eb2]
  show (ratio a0 n >>= fun x0 => ratio a1 n >>= fun x1 => ratio a2 n >>= fun x2 => ratio b0 n >>= fun y0 => ratio b1 n >>= fun y1 => ratio b2 n >>= _) = _
  rw [qa0, qa1, qa2, qb0, qb1, qb2]
  rfl

/-- `eval_obs`: the labels `l3_x`, `l8_x` carry the expectation values of the diagonal generators on spin `x`. -/
theorem C121_obs (eigh : Tensor ℂ → List ℝ × Tensor ℂ) {D : Dims} {st : State ℂ} {env : Env ℂ} (ht : Tiling st) (hs : FitsState D st) (he : FitsEnv D st env)
    (hp : ∀ c, D.p c = 3 ^ 3) (hh : HermitianSite 3 D st env (0, 0)) {R : Tensor ℂ} (hR : rdm1x1 eigh true false st env (0, 0) none = .ok R) :
    ∃ v : Fin 3 → Fin 8 → ℂ, chiralObs eigh st env = .ok [("l3_1", v 0 2), ("l3_2", v 1 2), ("l3_3", v 2 2), ("l8_1", v 0 7), ("l8_2", v 1 7), ("l8_3", v 2 7)] ∧
      ∀ x k, v x k = Matrix.trace (reduced 3 1 R 0 1 2 * at' x (Su3.Spec.lambda k)) := by
  refine ⟨_, ?_, fun x k => rfl⟩
  obtain ⟨n, hn, h⟩ := op_herm eigh ht hs he hp hR hh
  obtain ⟨a0, ea0, qa0⟩ := h _ _ (lambda3_isMat 0)
  obtain ⟨a1, ea1, qa1⟩ := h _ _ (lambda3_isMat 1)
  obtain ⟨a2, ea2, qa2⟩ := h _ _ (lambda3_isMat 2)
  obtain ⟨b0, eb0, qb0⟩ := h _ _ (lambda8_isMat 0)
  obtain ⟨b1, eb1, qb1⟩ := h _ _ (lambda8_isMat 1)
  obtain ⟨b2, eb2, qb2⟩ := h _ _ (lambda8_isMat 2)
  unfold chiralObs
  rw [hn]
  simp only [List.mapM_cons, List.mapM_nil, ea0, ea1, ea2, eb0, eb1, eb2, bind, Except.bind, pure, Except.pure, qa0, qa1, qa2, qb0, qb1, qb2]

/-! ### eval_su3_gens -/

/-- The operator `J` on spin `x`, on the other two spins the matrix with entry one where both rows agree and both columns agree. -/
def Spec.paired (x : Fin 3) (J : Su3.Op) : Op3 ℂ 3 := Matrix.of fun t s => if t (x + 1) = t (x + 2) ∧ s (x + 1) = s (x + 2) then J (t x) (s x) else 0

theorem view_isMat {o : Tensor ℂ} {O : Op3 ℂ 3} (h : Holds o O) : ∃ T, view [27, 27] o = some T ∧ IsMat T O := by
  obtain ⟨-, T, e, s, v⟩ := fuseOp_ok (.inl h)
  refine ⟨T, ?_, s, v⟩
  rw [← e]
  unfold fuseOp
  rw [if_pos (by simp [h.1]), if_pos (by simp [h.1])]
  simp [Tensor.size, h.1]

theorem genMat_isMat (J : Su3.Op) (x : Fin 3) : ∃ T, genMat J x = some T ∧ IsMat T (paired x J) := by
  obtain ⟨E, eE, sE, vE⟩ := idp2_is
  have hJ : (Models.opP 3 J).shape = [3, 3] := rfl
  have main : ∃ T, (match x with
      | 0 => einsum [(Models.opP 3 J, [0, 3]), (E, [1, 4, 2, 5])] [0, 1, 2, 3, 4, 5]
      | 1 => einsum [(Models.opP 3 J, [1, 4]), (E, [0, 3, 2, 5])] [0, 1, 2, 3, 4, 5]
      | 2 => einsum [(Models.opP 3 J, [2, 5]), (E, [0, 3, 1, 4])] [0, 1, 2, 3, 4, 5]) = some T ∧ Holds T (paired x J) := by
    fin_cases x
    · obtain ⟨T, e, s, v⟩ := einsum6 (fun _ => 3) (fun _ _ => rfl) [(Models.opP 3 J, [0, 3]), (E, [1, 4, 2, 5])] (by simp [sE, hJ]) (by simp)
      refine ⟨T, e, s, fun t u => ?_⟩
      rw [v]
      have hl : (([(Models.opP 3 J, [0, 3]), (E, [1, 4, 2, 5])] : List (Tensor ℂ × List Nat)).flatMap Prod.snd).dedup.filter (fun l => l ∉ [0, 1, 2, 3, 4, 5]) = [] := by
        simp only [List.flatMap_cons, List.flatMap_nil]; decide
      rw [hl]
      simp only [sumOver, termOf, List.map_cons, List.map_nil, at6, List.getD_cons_zero, List.getD_cons_succ, List.prod_cons, List.prod_nil, mul_one, vE, opP_val]
      simp only [paired, Matrix.of_apply, δ, Fin.isValue, Fin.zero_eta, zero_add]
      split_ifs <;> simp_all
    · obtain ⟨T, e, s, v⟩ := einsum6 (fun _ => 3) (fun _ _ => rfl) [(Models.opP 3 J, [1, 4]), (E, [0, 3, 2, 5])] (by simp [sE, hJ]) (by simp)
      refine ⟨T, e, s, fun t u => ?_⟩
      rw [v]
      have hl : (([(Models.opP 3 J, [1, 4]), (E, [0, 3, 2, 5])] : List (Tensor ℂ × List Nat)).flatMap Prod.snd).dedup.filter (fun l => l ∉ [0, 1, 2, 3, 4, 5]) = [] := by
        simp only [List.flatMap_cons, List.flatMap_nil]; decide
      rw [hl]
      simp only [sumOver, termOf, List.map_cons, List.map_nil, at6, List.getD_cons_zero, List.getD_cons_succ, List.prod_cons, List.prod_nil, mul_one, vE, opP_val]
      simp only [paired, Matrix.of_apply, δ, Fin.isValue, Fin.mk_one, show (1 : Fin 3) + 1 = 2 by decide, show (1 : Fin 3) + 2 = 0 by decide]
      split_ifs <;> simp_all
    · obtain ⟨T, e, s, v⟩ := einsum6 (fun _ => 3) (fun _ _ => rfl) [(Models.opP 3 J, [2, 5]), (E, [0, 3, 1, 4])] (by simp [sE, hJ]) (by simp)
      refine ⟨T, e, s, fun t u => ?_⟩
      rw [v]
      have hl : (([(Models.opP 3 J, [2, 5]), (E, [0, 3, 1, 4])] : List (Tensor ℂ × List Nat)).flatMap Prod.snd).dedup.filter (fun l => l ∉ [0, 1, 2, 3, 4, 5]) = [] := by
        simp only [List.flatMap_cons, List.flatMap_nil]; decide
      rw [hl]
      simp only [sumOver, termOf, List.map_cons, List.map_nil, at6, List.getD_cons_zero, List.getD_cons_succ, List.prod_cons, List.prod_nil, mul_one, vE, opP_val]
      simp only [paired, Matrix.of_apply, δ, Fin.isValue, Fin.reduceFinMk, show (2 : Fin 3) + 1 = 0 by decide, show (2 : Fin 3) + 2 = 1 by decide]
      split_ifs <;> simp_all
  obtain ⟨T, eT, hT⟩ := main
  obtain ⟨T', eT', hT'⟩ := view_isMat hT
  refine ⟨T', ?_, hT'⟩
  fin_cases x
  all_goals
    simp only [genMat, eE, Option.bind_eq_bind, Option.bind_some]
    refine Eq.trans ?_ eT'
    exact (congrArg (fun z => z.bind (view [27, 27])) eT)

/-- The 24 numbers `eval_su3_gens` prints: expectation values of the operators `paired`, not of the generators (`C121_gens_violated`). -/
theorem C121_gens (eigh : Tensor ℂ → List ℝ × Tensor ℂ) {D : Dims} {st : State ℂ} {env : Env ℂ} (ht : Tiling st) (hs : FitsState D st) (he : FitsEnv D st env)
    (hp : ∀ c, D.p c = 3 ^ 3) (hh : HermitianSite 3 D st env (0, 0)) {R : Tensor ℂ} (hR : rdm1x1 eigh true false st env (0, 0) none = .ok R) :
    chiralGens eigh st env = .ok ((List.finRange 3).map fun x => (List.finRange 8).map fun k => Matrix.trace (reduced 3 1 R 0 1 2 * paired x (Su3.Spec.lambda k))) := by
  obtain ⟨n, hn, h⟩ := op_herm eigh ht hs he hp hR hh
  unfold chiralGens
  rw [hn]
  have one : ∀ x k, (do let o ← lift (genMat (gens k) x); ratio (← op1x1 eigh st env o) n : Except Err ℂ) = .ok (Matrix.trace (reduced 3 1 R 0 1 2 * paired x (Su3.Spec.lambda k))) := by
    intro x k
    obtain ⟨T, eT, hT⟩ := genMat_isMat (gens k) x
    rw [gens_eq] at hT
    obtain ⟨v, ev, qv⟩ := h T _ hT
    rw [eT]
    show (op1x1 eigh st env T >>= _) = _
    rw [ev]
    exact qv
  have pureMap : ∀ {α β : Type} (f : α → Except Err β) (g : α → β) (l : List α), (∀ a, f a = .ok (g a)) → l.mapM f = .ok (l.map g) := by
    intro α β f g l hf
    induction l with
    | nil => rfl
    | cons a l ih => rw [List.mapM_cons, hf, ih]; rfl
  rw [show ∀ f : ℂ → Except Err (List (List ℂ)), ((Except.ok n : Except Err ℂ) >>= f) = f n from fun _ => rfl]
  refine pureMap _ _ _ fun x => ?_
  refine pureMap _ _ _ fun k => one x k

/-! ### Functions that never return -/

theorem C121_down_violated (m : ChiralCouplings) (st : State ℂ) (env : Env ℂ) (v : ℝ) : chiralDn m st env ≠ .ok v := by
  unfold chiralDn
  cases dnTriangle st env (0, 0) (chiralH m) <;> intro h <;> cases h

theorem C121_P_down_violated (st : State ℂ) (env : Env ℂ) (v : ℂ) : chiralPdn st env ≠ .ok v := by
  intro h; cases h

/-- `energy_nnn` of SU3_CHIRAL and S1_KAGOME is zero without the coupling `j2` and otherwise never returns; `P_bonds_nn` of S1_KAGOME never returns. -/
theorem C121_nnn_violated (m : ChiralCouplings) (st : State ℂ) (env : Env ℂ) (v : ℝ) :
    (chiralNnn m st env = .ok v ↔ m.j2 = 0 ∧ v = 0) ∧ (s1Nnn m.j2 st env = .ok v ↔ m.j2 = 0 ∧ v = 0) ∧ ∀ eigh w, s1Bonds eigh st env ≠ .ok w := by
  refine ⟨?_, ?_, ?_⟩
  · unfold chiralNnn chiralNnnBonds
    by_cases h : m.j2 = 0
    · rw [if_pos h]
      exact ⟨fun e => ⟨h, by cases e; rfl⟩, fun ⟨_, e⟩ => by rw [e]⟩
    · rw [if_neg h]
      refine ⟨fun e => ?_, fun e => absurd e.1 h⟩
      revert e
      cases dnTriangle st env (0, 0) (eyeT 27) <;> intro e <;> cases e
  · unfold s1Nnn
    by_cases h : m.j2 = 0
    · rw [if_pos h]
      exact ⟨fun e => ⟨h, by cases e; rfl⟩, fun ⟨_, e⟩ => by rw [e]⟩
    · rw [if_neg h]
      exact ⟨fun e => (by cases e), fun e => absurd e.1 h⟩
  · intro eigh w
    unfold s1Bonds
    cases op1x1 eigh st env (eyeT 27) <;> intro h <;> cases h

end Verif.KagomeRdm
