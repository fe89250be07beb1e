import Verif.Kagome.Pair2
/-
Property C113, plaquettes: the density matrices of chosen spins are partial traces of the density matrix of all spins.
-/
namespace Verif.KagomeRdm
open Tensor Rdm Ctm Ctm.Spec
set_option linter.unusedSectionVars false
variable {K : Type} [RCLike K]

theorem cubeRoot_cube (p : Nat) : cubeRoot (p ^ 3) = some p := by
  unfold cubeRoot
  rw [List.find?_eq_some_iff_append]
  refine ⟨by simp, ?_⟩
  have hp : p ≤ p ^ 3 := Nat.le_self_pow (by decide) p
  refine ⟨List.range p, List.range' (p + 1) (p ^ 3 - p), ?_, ?_⟩
  · rw [List.range_eq_range', List.range_eq_range']
    rw [show p :: List.range' (p + 1) (p ^ 3 - p) = List.range' (0 + p) (p ^ 3 - p + 1) by rw [List.range'_succ]; simp, List.range'_append_1]
    congr 1; omega
  · intro q hq
    have : q < p := List.mem_range.1 hq
    have : q ^ 3 < p ^ 3 := Nat.pow_lt_pow_left this (by decide)
    simp; omega

theorem physDim_ok {D : Dims} {st : State K} (ht : Tiling st) (hs : FitsState D st) {p : Nat} (hp : ∀ c, D.p c = p ^ 3) : physDim st = some p := by
  have h1 : ∀ l : List Coord, (∀ k ∈ l, k ∈ st.keys) → l.mapM (fun k => do cubeRoot ((← st.sites k).size 0)) = some (List.replicate l.length p) := by
    intro l
    induction l with
    | nil => intro _; rfl
    | cons k l ih =>
      intro hl
      obtain ⟨A, e, sA⟩ := hs.site k
      have e' : st.sites k = some A := by
        have hk := ht.fix k (hl k (by simp))
        unfold State.site at e; rwa [hk] at e
      rw [List.mapM_cons, e', ih (fun k hk => hl k (by simp [hk]))]
      simp [size, sA, hp, cubeRoot_cube, List.replicate_succ]
  have hne : st.keys ≠ [] := List.ne_nil_of_mem (ht.mem (0, 0))
  unfold physDim
  rw [h1 st.keys (fun _ h => h)]
  obtain ⟨n, hn⟩ : ∃ n, st.keys.length = n + 1 := ⟨st.keys.length - 1, by have := List.length_pos_iff.2 hne; omega⟩
  have hd : ∀ n, (List.replicate (n + 1) p).dedup = [p] := by
    intro n
    induction n with
    | zero => rfl
    | succ n ih => rw [List.replicate_succ, List.dedup_cons_of_mem (by simp [List.replicate_succ]), ih]
  simp [hn, hd]

theorem keep_cases {keep : List Char} (h : Spec.Keep keep) : keep ∈ ['A', 'B', 'C'].sublists.flatMap List.permutations' := by
  have : keep.Subperm ['A', 'B', 'C'] := List.subperm_of_subset h.1 (fun ch hc => by rcases h.2 ch hc with rfl | rfl | rfl <;> simp)
  obtain ⟨l, hl, hs⟩ := this
  rw [List.mem_flatMap]
  exact ⟨l, List.mem_sublists.2 hs, List.mem_permutations'.2 hl.symm⟩

theorem abc012_ok {keep : List Char} (h : Spec.Keep keep) : abc012 keep = some (Spec.letters keep) ∧ Spec.letters keep ∈ subsets := by
  have key : ∀ keep ∈ ['A', 'B', 'C'].sublists.flatMap List.permutations', abc012 keep = some (Spec.letters keep) ∧ Spec.letters keep ∈ subsets := by
    decide +kernel
  exact key keep (keep_cases h)

theorem plaq_core (eigh : Tensor K → List ℝ × Tensor K) {D : Dims} {st : State K} {env : Env K} (ht : Tiling st) (hs : FitsState D st)
    (he : FitsEnv D st env) {p : Nat} (hp : ∀ c, D.p c = p ^ 3) (c : Coord) {k00 k10 k01 k11 : List Nat} (s00 : k00 ∈ subsets) (s10 : k10 ∈ subsets)
    (s01 : k01 ∈ subsets) (s11 : k11 ∈ subsets) {R : Tensor K} (hR : rdm2x2 eigh false st env c [0, 1, 2, 3] = .ok R) :
    ∃ X R', raw2x2 st env c k00 k10 k01 k11 = some X ∧ symRdm eigh false X = .ok R' ∧ Spec.IsMarginal p 4 R R' (Spec.kept [k00, k10, k01, k11]) := by
  obtain ⟨e, s, e1, h0, h2⟩ := plaq_ok hs he c
  have d0 : Rdm.Spec.dimsP D c 100 = p ^ 3 := hp _
  have d1 : Rdm.Spec.dimsP D c 102 = p ^ 3 := hp _
  have d2 : Rdm.Spec.dimsP D c 104 = p ^ 3 := hp _
  have d3 : Rdm.Spec.dimsP D c 106 = p ^ 3 := hp _
  obtain ⟨T, eT, sT, -⟩ := plaq_full h2 d0 d1 d2 d3
  rw [rdm2x2_eq eigh false e1 (by decide) eT] at hR
  obtain ⟨a0, a1, a2, a3, LU, RU, LD, RD, X, R', ea0, ea1, ea2, ea3, eLU, eRU, eLD, eRD, eX, eR', hm⟩ := plaq_opened h2 d0 d1 d2 d3 s00 s10 s01 s11
  have hraw : raw2x2 st env c k00 k10 k01 k11 = some R' := by
    have hv : ∀ c, st.vts (st.vts c) = st.vts c := fun c => ht.fix _ (ht.mem c)
    have q0 := h0.a
    have q1 := h0.ax
    have q2 := h0.ay
    have q3 := h0.axy
    have g1 := h0.C1
    have g2 := h0.C2
    have g3 := h0.C3
    have g4 := h0.C4
    have t1 := h0.T1
    have t2 := h0.T4
    have t3 := h0.T1x
    have t4 := h0.T2x
    have t5 := h0.T2xy
    have t6 := h0.T3xy
    have t7 := h0.T3y
    have t8 := h0.T4y
    simp only [rt, dn] at q1 q2 q3 g2 g3 g4 t3 t4 t5 t6 t7 t8
    simp only [raw2x2, physDim_ok ht hs hp, cornerLU, cornerRU, cornerRD, cornerLD, State.site, hv, q0, q1, q2, q3, g1, g2, g3, g4, t1, t2, t3, t4, t5, t6, t7, t8,
      Option.bind_eq_bind, Option.bind_some, ea0, ea1, ea2, ea3, eLU, eRU, eLD, eRD, eX, eR']
  obtain ⟨R1, f1, m1⟩ := symRdm_marginal (n := 4) eigh (p := p) (by
      have := hs.p.1 c
      rw [hp] at this
      by_contra h
      have : p = 0 := by omega
      subst this; simp at *) (kept_nodup (by
      simp only [List.forall_mem_cons, List.not_mem_nil, false_imp_iff, implies_true, and_true]
      exact ⟨subsets_lt _ s00, subsets_lt _ s10, subsets_lt _ s01, subsets_lt _ s11⟩)) (by
      refine kept_lt (keeps := [_, _, _, _]) ?_
      simp only [List.forall_mem_cons, List.not_mem_nil, false_imp_iff, implies_true, and_true]
      exact ⟨(subsets_lt _ s00).2, (subsets_lt _ s10).2, (subsets_lt _ s01).2, (subsets_lt _ s11).2⟩) sT (hm T eT) hR
  exact ⟨R', R1, hraw, f1, m1⟩

/-- `rdm2x2_kagome` is the partial trace of the density matrix `rdm2x2` of the four site tensors over all spins that are not kept, for every choice
of kept spins, and it exists whenever that density matrix does. (With no spin kept at all the code fails in torch; that case is left out.) -/
theorem C113_plaquette (eigh : Tensor K → List ℝ × Tensor K) {D : Dims} {st : State K} {env : Env K} (ht : Tiling st) (hs : FitsState D st)
    (he : FitsEnv D st env) {p : Nat} (hp : ∀ c, D.p c = p ^ 3) (c : Coord) (k00 k10 k01 k11 : List Char) (h00 : Spec.Keep k00) (h10 : Spec.Keep k10)
    (h01 : Spec.Keep k01) (h11 : Spec.Keep k11) (_hne : k00 ++ k10 ++ k01 ++ k11 ≠ []) {R : Tensor K} (hR : rdm2x2 eigh false st env c [0, 1, 2, 3] = .ok R) :
    ∃ R', rdm2x2Kagome eigh false st env c k00 k10 k01 k11 = .ok R' ∧
      Spec.IsMarginal p 4 R R' (Spec.kept [Spec.letters k00, Spec.letters k10, Spec.letters k01, Spec.letters k11]) := by
  obtain ⟨a00, s00⟩ := abc012_ok h00
  obtain ⟨a10, s10⟩ := abc012_ok h10
  obtain ⟨a01, s01⟩ := abc012_ok h01
  obtain ⟨a11, s11⟩ := abc012_ok h11
  obtain ⟨X, R', hraw, f1, m1⟩ := plaq_core eigh ht hs he hp c s00 s10 s01 s11 hR
  refine ⟨R', ?_, m1⟩
  unfold rdm2x2Kagome
  rw [a00, a10, a01, a11]
  show (lift (raw2x2 st env c _ _ _ _) >>= _) = _
  rw [hraw]
  exact f1

theorem perm_id6 : expandPerm [0, 1, 1, 1] = [0, 2, 4, 1, 3, 5] := by decide

theorem rawUp_eq (st : State K) (env : Env K) (c : Coord) : rawUp st env c = raw2x2 st env c [] [1] [2] [0] := by
  unfold rawUp raw2x2
  simp only [unfuse, List.length_nil, List.length_cons, Nat.zero_add, perm_id6, pleg, join2x2, halfPerm]
  simp [List.replicate, Option.bind_assoc]
  congr 1; funext p; congr 1; funext LU; congr 1; funext RU
  cases tensordot [1] [0] LU RU with
  | some up => rfl
  | none =>
    cases cornerRD st env p (st.vts (c.1 + 1, c.2 + 1)) [0] with
    | none => rfl
    | some RD =>
      cases cornerLD st env p (st.vts (c.1, c.2 + 1)) [2] with
      | none => rfl
      | some LD => rfl

/-- `rdm2x2_up_triangle_open` is the density matrix of the up triangle of the plaquette: spin 1 of the upper right tensor, spin 2 of the lower
left one and spin 0 of the lower right one, in this order. -/
theorem C113_up (eigh : Tensor K → List ℝ × Tensor K) {D : Dims} {st : State K} {env : Env K} (ht : Tiling st) (hs : FitsState D st)
    (he : FitsEnv D st env) {p : Nat} (hp : ∀ c, D.p c = p ^ 3) (c : Coord) {R : Tensor K} (hR : rdm2x2 eigh false st env c [0, 1, 2, 3] = .ok R) :
    ∃ R', rdmUp eigh false st env c = .ok R' ∧ Spec.IsMarginal p 4 R R' [3 * 1 + 1, 3 * 2 + 2, 3 * 3 + 0] := by
  obtain ⟨X, R', hraw, f1, m1⟩ := plaq_core eigh ht hs he hp c (k00 := []) (k10 := [1]) (k01 := [2]) (k11 := [0]) (by decide) (by decide) (by decide) (by decide) hR
  refine ⟨R', ?_, m1⟩
  unfold rdmUp
  rw [rawUp_eq, hraw]
  exact f1

/-- `rdm2x1_kagome` is the partial trace of the density matrix `rdm2x1` of the two site tensors over all spins that are not kept. -/
theorem C113_row (eigh : Tensor K → List ℝ × Tensor K) {D : Dims} {st : State K} {env : Env K} (ht : Tiling st) (hs : FitsState D st)
    (he : FitsEnv D st env) {p : Nat} (hp : ∀ c, D.p c = p ^ 3) (c : Coord) (k00 k10 : List Char) (h00 : Spec.Keep k00) (h2 : Spec.Keep k10)
    (_hne : k00 ++ k10 ≠ []) (sl : Bool) {R : Tensor K} (hR : rdm2x1 eigh sl false st env c = .ok R) :
    ∃ R', rdm2x1Kagome eigh false st env c k00 k10 = .ok R' ∧ Spec.IsMarginal p 2 R R' (Spec.kept [Spec.letters k00, Spec.letters k10]) := by
  obtain ⟨a00, s00⟩ := abc012_ok h00
  obtain ⟨a2, s2⟩ := abc012_ok h2
  have hR : rdm2x1 eigh false false st env c = .ok R := by
    cases sl
    · exact hR
    · rw [← (C32_row eigh false hs he c).1]; exact hR
  obtain ⟨e, a, b, e1, h0, h2⟩ := pairH_ok hs he c
  have d0 : Rdm.Spec.dimsH D c 4 = p ^ 3 := hp _
  have d1 : Rdm.Spec.dimsH D c 16 = p ^ 3 := hp _
  obtain ⟨T, eT, sT, -⟩ := fullH h2 d0 d1
  have hR' : symRdm eigh false T = .ok R := by
    rw [← hR]; unfold rdm2x1; rw [e1]
    show _ = (lift (dl2x1 e a b) >>= _)
    rw [eT]; rfl
  obtain ⟨o0, o1, ea0, ea1, LU, RU, y1, ld, left, y2, rd, right, X, R', eLU, eRU, f1, f2, f3, f4, f5, f6, f7, eR', hm⟩ := openedH h2 d0 d1 s00 s2
  have hraw : raw2x1 st env c (Spec.letters k00) (Spec.letters k10) = some R' := by
    have hv : ∀ c, st.vts (st.vts c) = st.vts c := fun c => ht.fix _ (ht.mem c)
    obtain ⟨c1, c2, c3, c4, c5, c6, c7, c8, c9, c10, c11, c12⟩ := h0
    simp only [rt, dn] at c1 c2 c3 c4 c5 c6 c7 c8 c9 c10 c11 c12
    simp only [raw2x1, physDim_ok ht hs hp, cornerLU, cornerRU, State.site, hv, Option.bind_eq_bind, Option.bind_some, *]
  obtain ⟨R1, f1, m1⟩ := symRdm_marginal (n := 2) eigh (p := p) (by
      have := hs.p.1 c
      rw [hp] at this
      by_contra h
      have : p = 0 := by omega
      subst this; simp at *) (kept_nodup (by
      simp only [List.forall_mem_cons, List.not_mem_nil, false_imp_iff, implies_true, and_true]
      exact ⟨subsets_lt _ s00, subsets_lt _ s2⟩)) (by
      refine kept_lt (keeps := [_, _]) ?_
      simp only [List.forall_mem_cons, List.not_mem_nil, false_imp_iff, implies_true, and_true]
      exact ⟨(subsets_lt _ s00).2, (subsets_lt _ s2).2⟩) sT (hm T eT) hR'
  refine ⟨R1, ?_, m1⟩
  unfold rdm2x1Kagome
  rw [a00, a2]
  show (lift (raw2x1 st env c _ _) >>= _) = _
  rw [hraw]
  exact f1

/-- `rdm1x2_kagome` is the partial trace of the density matrix `rdm1x2` of the two site tensors over all spins that are not kept. -/
theorem C113_column (eigh : Tensor K → List ℝ × Tensor K) {D : Dims} {st : State K} {env : Env K} (ht : Tiling st) (hs : FitsState D st)
    (he : FitsEnv D st env) {p : Nat} (hp : ∀ c, D.p c = p ^ 3) (c : Coord) (k00 k01 : List Char) (h00 : Spec.Keep k00) (h2 : Spec.Keep k01)
    (_hne : k00 ++ k01 ≠ []) (sl : Bool) {R : Tensor K} (hR : rdm1x2 eigh sl false st env c = .ok R) :
    ∃ R', rdm1x2Kagome eigh false st env c k00 k01 = .ok R' ∧ Spec.IsMarginal p 2 R R' (Spec.kept [Spec.letters k00, Spec.letters k01]) := by
  obtain ⟨a00, s00⟩ := abc012_ok h00
  obtain ⟨a2, s2⟩ := abc012_ok h2
  have hR : rdm1x2 eigh false false st env c = .ok R := by
    cases sl
    · exact hR
    · rw [← (C32_column eigh false hs he c).1]; exact hR
  obtain ⟨e, a, b, e1, h0, h2⟩ := pairV_ok hs he c
  have d0 : Rdm.Spec.dimsV D c 4 = p ^ 3 := hp _
  have d1 : Rdm.Spec.dimsV D c 16 = p ^ 3 := hp _
  obtain ⟨T, eT, sT, -⟩ := fullV h2 d0 d1
  have hR' : symRdm eigh false T = .ok R := by
    rw [← hR]; unfold rdm1x2; rw [e1]
    show _ = (lift (dl1x2 e a b) >>= _)
    rw [eT]; rfl
  obtain ⟨o0, o1, ea0, ea1, LU, LD, y1, ru, up, y2, y3, rd, lo, X, R', eLU, eLD, f1, f2, f3, f4, f5, f6, f7, f8, eR', hm⟩ := openedV h2 d0 d1 s00 s2
  have hraw : raw1x2 st env c (Spec.letters k00) (Spec.letters k01) = some R' := by
    have hv : ∀ c, st.vts (st.vts c) = st.vts c := fun c => ht.fix _ (ht.mem c)
    obtain ⟨c1, c2, c3, c4, c5, c6, c7, c8, c9, c10, c11, c12⟩ := h0
    simp only [rt, dn] at c1 c2 c3 c4 c5 c6 c7 c8 c9 c10 c11 c12
    simp only [raw1x2, physDim_ok ht hs hp, cornerLU, cornerLD, State.site, hv, Option.bind_eq_bind, Option.bind_some, *]
  obtain ⟨R1, f1, m1⟩ := symRdm_marginal (n := 2) eigh (p := p) (by
      have := hs.p.1 c
      rw [hp] at this
      by_contra h
      have : p = 0 := by omega
      subst this; simp at *) (kept_nodup (by
      simp only [List.forall_mem_cons, List.not_mem_nil, false_imp_iff, implies_true, and_true]
      exact ⟨subsets_lt _ s00, subsets_lt _ s2⟩)) (by
      refine kept_lt (keeps := [_, _]) ?_
      simp only [List.forall_mem_cons, List.not_mem_nil, false_imp_iff, implies_true, and_true]
      exact ⟨(subsets_lt _ s00).2, (subsets_lt _ s2).2⟩) sT (hm T eT) hR'
  refine ⟨R1, ?_, m1⟩
  unfold rdm1x2Kagome
  rw [a00, a2]
  show (lift (raw1x2 st env c _ _) >>= _) = _
  rw [hraw]
  exact f1

end Verif.KagomeRdm
