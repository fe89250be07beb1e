import Verif.Kagome.Props
/-
The hypotheses of C113 are met: three spins one half per site tensor, bonds of different sizes.
-/
namespace Verif.KagomeRdm
open Tensor Rdm Ctm Ctm.Spec
set_option linter.unusedSimpArgs false

/-- Three spins of size two in one physical index; bonds of different sizes in even and odd columns. -/
def kDims : Dims := ⟨ab 8 8, ab 2 3, ab 2 3, ab 2 4, ab 3 3, ab 1 2, ab 2 2⟩

theorem kCube (c : Coord) : kDims.p c = 2 ^ 3 := by simp [kDims, ab]

theorem kFitsState : FitsState kDims (exState kDims) := by
  refine ⟨fun c => ⟨_, rfl, ?_⟩, ab_sizes _ (by decide) (by decide), ab_sizes _ (by decide) (by decide), ab_sizes _ (by decide) (by decide)⟩
  show [ab _ _ _, ab _ _ _, ab _ _ _, ab _ _ _, ab _ _ _] = _
  simp only [exState, kDims]
  simp only [ab, dn, rt, Int.emod_add_emod, Int.emod_emod]
  rfl

theorem kFits : FitsEnv kDims (exState kDims) (cellEnv kDims) := by
  have h : FitsEnv kDims (exState kDims) (exEnv kDims) := by
    refine ⟨?_, ?_, ?_, ?_, ?_, ?_, ?_, ?_, ab_sizes _ (by decide) (by decide), ab_sizes _ (by decide) (by decide), ab_sizes _ (by decide) (by decide), ab_sizes _ (by decide) (by decide)⟩ <;>
    · intro c
      refine ⟨_, rfl, ?_⟩
      simp [exOnes, exState, kDims, ab, dn, rt, Int.emod_add_emod]
  have hm : ∀ c, (exState kDims).vts c ∈ (exState kDims).keys := (exTiling _).mem
  refine ⟨?_, ?_, ?_, ?_, ?_, ?_, ?_, ?_, h.eu, h.el, h.ed, h.er⟩ <;> intro c <;> simp only [cellEnv, hm c, if_true]
  exacts [h.lu c, h.ru c, h.rd c, h.ld c, h.tu c, h.tl c, h.td c, h.tr c]

theorem oneC (k) (T : Tensor ℝ) (h : (cellEnv kDims).C k = some T) : T.val = fun _ => 1 := by
  simp only [cellEnv, exEnv] at h
  split at h
  · injection h with h; rw [← h]; rfl
  · cases h
theorem oneT (k) (T : Tensor ℝ) (h : (cellEnv kDims).T k = some T) : T.val = fun _ => 1 := by
  simp only [cellEnv, exEnv] at h
  split at h
  · injection h with h; rw [← h]; rfl
  · cases h
theorem oneS (k) (T : Tensor ℝ) (h : (exState kDims).sites k = some T) : T.val = fun _ => 1 := by
  simp only [exState] at h
  injection h with h; rw [← h]; rfl

/-- The density matrix of a plaquette with all tensors one exists. -/
theorem kPlaq (eigh : Tensor ℝ → List ℝ × Tensor ℝ) (c : Coord) : ∃ R, rdm2x2 eigh false (exState kDims) (cellEnv kDims) c [0, 1, 2, 3] = .ok R := by
  have hs : FitsState kDims (exState kDims) := kFitsState
  obtain ⟨e, s, h1, h0, h2⟩ := plaq_ok hs kFits c
  obtain ⟨R4, e4, q4⟩ := oe2x2_denotes _ e s h2 [0, 1, 2, 3] (by decide)
  rw [rdm2x2_eq eigh false h1 (by decide) e4]
  have hC : ∀ k T, (cellEnv kDims).C k = some T → T.val = fun _ => 1 := by
    intro k T h
    simp only [cellEnv, exEnv] at h
    split at h
    · injection h with h; rw [← h]; rfl
    · cases h
  have hT : ∀ k T, (cellEnv kDims).T k = some T → T.val = fun _ => 1 := by
    intro k T h
    simp only [cellEnv, exEnv] at h
    split at h
    · injection h with h; rw [← h]; rfl
    · cases h
  have hS : ∀ k T, (exState kDims).sites k = some T → T.val = fun _ => 1 := by
    intro k T h
    simp only [exState] at h
    injection h with h; rw [← h]; rfl
  have hone : ∀ q, Rdm.Spec.rhoP (Rdm.Spec.dimsP kDims c) e s q = fun _ => 1 := by
    intro q
    funext σ
    simp [Rdm.Spec.rhoP, hC _ _ h0.C1, hC _ _ h0.C2, hC _ _ h0.C3, hC _ _ h0.C4, hT _ _ h0.T1, hT _ _ h0.T4, hT _ _ h0.T1x, hT _ _ h0.T2x, hT _ _ h0.T2xy,
      hT _ _ h0.T3xy, hT _ _ h0.T3y, hT _ _ h0.T4y, hS _ _ h0.a, hS _ _ h0.ax, hS _ _ h0.ay, hS _ _ h0.axy]
  have hpos : ∀ a b : Nat, 0 < a → 0 < b → ∀ c, 0 < ab a b c := by
    intro a b ha hb c; unfold ab; split <;> assumption
  have h4 : R4.shape = (List.range 4).map (Rdm.Spec.physP kDims c) ++ (List.range 4).map (Rdm.Spec.physP kDims c) := by rw [q4.shape, singles_gdim]; rfl
  have hp : ∀ x ∈ List.range 4, 0 < Rdm.Spec.physP kDims c x := by
    intro x hx
    have : x = 0 ∨ x = 1 ∨ x = 2 ∨ x = 3 := by simp at hx; omega
    rcases this with rfl | rfl | rfl | rfl <;> exact hpos 8 8 (by decide) (by decide) _
  have hin : ∀ l ∈ Rdm.Spec.innerP, 0 < Rdm.Spec.dimsP kDims c l := by
    intro l hl
    fin_cases hl <;> exact hpos _ _ (by decide) (by decide) _
  have htr : 0 < Matrix.trace (Rdm.Spec.op ((List.range 4).map (Rdm.Spec.physP kDims c)) R4) := by
    rw [trace_op, sumIdx_map _ _ List.nodup_range _ (fun _ => 0)]
    rw [sumOver_congr _ _ _ (fun _ => sumOver (Rdm.Spec.dimsP kDims c) Rdm.Spec.innerP (fun _ => (1 : ℝ)) (fun _ => 0))]
    · rw [← one_mul (sumOver (Rdm.Spec.dimsP kDims c) Rdm.Spec.innerP (fun _ => (1 : ℝ)) (fun _ => 0)), ← sumOver_mul]
      exact mul_pos (sumOver_one_pos _ _ hp _) (sumOver_one_pos _ _ hin _)
    · intro τ hτ _
      have hb : ∀ l ∈ outLabels [0, 1, 2, 3], τ ((l - 100) / 2) < Rdm.Spec.dimsP kDims c l := by
        intro l hl
        fin_cases hl
        exacts [hτ 0 (by decide), hτ 1 (by decide), hτ 2 (by decide), hτ 3 (by decide), hτ 0 (by decide), hτ 1 (by decide), hτ 2 (by decide), hτ 3 (by decide)]
      have := q4.val (fun l => τ ((l - 100) / 2)) (by rw [singles_flatten]; exact hb)
      rw [singles_gidx, hone] at this
      have hl : (List.range 4).map τ ++ (List.range 4).map τ = (outLabels [0, 1, 2, 3]).map (fun l => τ ((l - 100) / 2)) := rfl
      rw [hl, this]
      exact sumOver_local _ _ [] _ (fun _ _ _ => rfl) _ _ (by simp)
  obtain ⟨R, hR, -⟩ := symRdm_entries eigh h4 (by
    rw [List.prod_pos_iff_forall_pos_nat]
    intro n hn
    obtain ⟨x, hx, rfl⟩ := List.mem_map.1 hn
    exact hp x hx) (by simpa using htr.ne')
  exact ⟨R, hR⟩


/-- The density matrix of two tensors with all entries one exists. -/
theorem kRow (eigh : Tensor ℝ → List ℝ × Tensor ℝ) (c : Coord) : ∃ R, rdm2x1 eigh false false (exState kDims) (cellEnv kDims) c = .ok R := by
  obtain ⟨e, a, b, h1, h0, h2⟩ := pairH_ok kFitsState kFits c
  obtain ⟨T, eT, sT, vT⟩ := fullH h2 (P := 8) (by simp [Rdm.Spec.dimsH, kDims, ab]) (by simp [Rdm.Spec.dimsH, kDims, ab])
  have hl : rdm2x1 eigh false false (exState kDims) (cellEnv kDims) c = symRdm eigh false T := by
    unfold rdm2x1; rw [h1]
    show (lift (dl2x1 e a b) >>= _) = _
    rw [eT]; rfl
  rw [hl]
  obtain ⟨c1, c2, c3, c4, u1, u2, u3, u4, u5, u6, a1, a2⟩ := h0
  have hone : ∀ s0 s1 t0 t1, netH (fun l => Rdm.Spec.dimsH kDims c (mapH l)) e (lay a s0 t0) (lay b s1 t1) = sumOver (fdim (fun l => Rdm.Spec.dimsH kDims c (mapH l)) (fun _ => 0)) innerH (fun _ => (1 : ℝ)) (fun _ => 0) := by
    intro s0 s1 t0 t1
    unfold netH
    refine sumOver_congr _ _ _ _ _ fun τ _ _ => ?_
    simp [bodyH, lay, oneS _ _ a1, oneS _ _ a2, oneC _ _ c1, oneC _ _ c2, oneC _ _ c3, oneC _ _ c4, oneT _ _ u1, oneT _ _ u2, oneT _ _ u3, oneT _ _ u4, oneT _ _ u5, oneT _ _ u6]
  have hN : ∀ l ∈ innerH, ¬ 100 ≤ l := by decide
  have hin : ∀ l ∈ innerH, 0 < fdim (fun l => Rdm.Spec.dimsH kDims c (mapH l)) (fun _ => 0) l := by
    have hpos : ∀ a b : Nat, 0 < a → 0 < b → ∀ c, 0 < ab a b c := by
      intro a b ha hb c; unfold ab; split <;> assumption
    intro l hl
    have hd : ∀ l ∈ innerH, 0 < Rdm.Spec.dimsH kDims c (mapH l) := by
      intro l hl
      fin_cases hl <;> exact hpos _ _ (by decide) (by decide) _
    unfold fdim
    have := hd l hl
    have hn : ¬ 100 ≤ l := hN l hl
    rw [if_neg hn]
    split
    · positivity
    · exact this
  have htr : 0 < Matrix.trace (Rdm.Spec.op [8, 8] T) := by
    rw [trace_op]
    simp only [sumIdx]
    refine Finset.sum_pos (fun i hi => Finset.sum_pos (fun j hj => ?_) ⟨0, by simp⟩) ⟨0, by simp⟩
    rw [vT i j i j (Finset.mem_range.1 hi) (Finset.mem_range.1 hj) (Finset.mem_range.1 hi) (Finset.mem_range.1 hj), hone]
    exact sumOver_one_pos _ _ hin _
  obtain ⟨R, hR, -⟩ := symRdm_entries eigh (s := [8, 8]) sT (by decide) (by simpa using htr.ne')
  exact ⟨R, hR⟩

/-- The density matrix of two tensors with all entries one exists. -/
theorem kColumn (eigh : Tensor ℝ → List ℝ × Tensor ℝ) (c : Coord) : ∃ R, rdm1x2 eigh false false (exState kDims) (cellEnv kDims) c = .ok R := by
  obtain ⟨e, a, b, h1, h0, h2⟩ := pairV_ok kFitsState kFits c
  obtain ⟨T, eT, sT, vT⟩ := fullV h2 (P := 8) (by simp [Rdm.Spec.dimsV, kDims, ab]) (by simp [Rdm.Spec.dimsV, kDims, ab])
  have hl : rdm1x2 eigh false false (exState kDims) (cellEnv kDims) c = symRdm eigh false T := by
    unfold rdm1x2; rw [h1]
    show (lift (dl1x2 e a b) >>= _) = _
    rw [eT]; rfl
  rw [hl]
  obtain ⟨c1, c2, c3, c4, u1, u2, u3, u4, u5, u6, a1, a2⟩ := h0
  have hone : ∀ s0 s1 t0 t1, netV (fun l => Rdm.Spec.dimsV kDims c (mapV l)) e (lay a s0 t0) (lay b s1 t1) = sumOver (fdim (fun l => Rdm.Spec.dimsV kDims c (mapV l)) (fun _ => 0)) innerV (fun _ => (1 : ℝ)) (fun _ => 0) := by
    intro s0 s1 t0 t1
    unfold netV
    refine sumOver_congr _ _ _ _ _ fun τ _ _ => ?_
    simp [bodyV, lay, oneS _ _ a1, oneS _ _ a2, oneC _ _ c1, oneC _ _ c2, oneC _ _ c3, oneC _ _ c4, oneT _ _ u1, oneT _ _ u2, oneT _ _ u3, oneT _ _ u4, oneT _ _ u5, oneT _ _ u6]
  have hN : ∀ l ∈ innerV, ¬ 100 ≤ l := by decide
  have hin : ∀ l ∈ innerV, 0 < fdim (fun l => Rdm.Spec.dimsV kDims c (mapV l)) (fun _ => 0) l := by
    have hpos : ∀ a b : Nat, 0 < a → 0 < b → ∀ c, 0 < ab a b c := by
      intro a b ha hb c; unfold ab; split <;> assumption
    intro l hl
    have hd : ∀ l ∈ innerV, 0 < Rdm.Spec.dimsV kDims c (mapV l) := by
      intro l hl
      fin_cases hl <;> exact hpos _ _ (by decide) (by decide) _
    unfold fdim
    have := hd l hl
    have hn : ¬ 100 ≤ l := hN l hl
    rw [if_neg hn]
    split
    · positivity
    · exact this
  have htr : 0 < Matrix.trace (Rdm.Spec.op [8, 8] T) := by
    rw [trace_op]
    simp only [sumIdx]
    refine Finset.sum_pos (fun i hi => Finset.sum_pos (fun j hj => ?_) ⟨0, by simp⟩) ⟨0, by simp⟩
    rw [vT i j i j (Finset.mem_range.1 hi) (Finset.mem_range.1 hj) (Finset.mem_range.1 hi) (Finset.mem_range.1 hj), hone]
    exact sumOver_one_pos _ _ hin _
  obtain ⟨R, hR, -⟩ := symRdm_entries eigh (s := [8, 8]) sT (by decide) (by simpa using htr.ne')
  exact ⟨R, hR⟩

theorem keep_AB : Spec.Keep ['B', 'A'] := by unfold Spec.Keep; decide
theorem keep_C : Spec.Keep ['C'] := by unfold Spec.Keep; decide
theorem keep_none : Spec.Keep [] := by unfold Spec.Keep; decide

example (eigh : Tensor ℝ → List ℝ × Tensor ℝ) : ∃ R R', rdm2x2Kagome eigh false (exState kDims) (cellEnv kDims) (-3, 2) ['B', 'A'] [] ['C'] ['C'] = .ok R' ∧
    Spec.IsMarginal 2 4 R R' [1, 2, 6, 9] := by
  obtain ⟨R, hR⟩ := kPlaq eigh (-3, 2)
  exact ⟨R, C113_plaquette eigh (exTiling _) kFitsState kFits kCube _ _ _ _ _ keep_AB keep_none keep_C keep_C (by simp) hR⟩
example (eigh : Tensor ℝ → List ℝ × Tensor ℝ) : ∃ R R', rdmUp eigh false (exState kDims) (cellEnv kDims) (1, 0) = .ok R' ∧ Spec.IsMarginal 2 4 R R' [4, 8, 9] := by
  obtain ⟨R, hR⟩ := kPlaq eigh (1, 0)
  exact ⟨R, C113_up eigh (exTiling _) kFitsState kFits kCube _ hR⟩
example (eigh : Tensor ℝ → List ℝ × Tensor ℝ) : ∃ R R', rdm2x1Kagome eigh false (exState kDims) (cellEnv kDims) (1, 0) ['B', 'A'] ['C'] = .ok R' ∧ Spec.IsMarginal 2 2 R R' [1, 2, 3] := by
  obtain ⟨R, hR⟩ := kRow eigh (1, 0)
  exact ⟨R, C113_row eigh (exTiling _) kFitsState kFits kCube _ _ _ keep_AB keep_C (by simp) false hR⟩
example (eigh : Tensor ℝ → List ℝ × Tensor ℝ) : ∃ R R', rdm1x2Kagome eigh false (exState kDims) (cellEnv kDims) (1, 0) ['C'] ['B', 'A'] = .ok R' ∧ Spec.IsMarginal 2 2 R R' [0, 4, 5] := by
  obtain ⟨R, hR⟩ := kColumn eigh (1, 0)
  exact ⟨R, C113_column eigh (exTiling _) kFitsState kFits kCube _ _ _ keep_C keep_AB (by simp) false hR⟩

end Verif.KagomeRdm
