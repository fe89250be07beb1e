import Verif.Corrf.Channel
import Verif.Corrf.Props
/-
Property C37: two-site operators factorised by SVD.
-/
namespace Verif.Corrf
open Tensor Ctm Ctm.Spec
set_option linter.unusedSimpArgs false
set_option linter.unusedSectionVars false
variable {K : Type} [RCLike K]

/-- `get_edge`, `apply_TM_2sO_1sChannel`, `apply_edge`: two sites in a row between two edges. -/
noncomputable def pairStrip (svd : Tensor K → Nat → Svd K) (st : State K) (env : Env K) (d : Dir) (c : Coord) (op : Option (Tensor K)) : Option (Tensor K) := do
  let E ← getEdge st env (rev d) c
  let R ← applyTM1ch svd st env d c E op
  applyEdge st env d (shift c d.vec) R

/-- `get_edge_2`, `apply_TM_2sO_2sChannel`, `apply_edge`: two sites side by side between two edges. -/
noncomputable def wideStrip (svd : Tensor K → Nat → Svd K) (st : State K) (env : Env K) (d : Dir) (c : Coord) (op : Option (Tensor K)) : Option (Tensor K) := do
  let E ← getEdge2 st env (rev d) c
  let R ← applyTM2ch svd st env d c E op
  applyEdge st env d c R

/-! ### One row -/

/-- For every direction and every operator the one-row channel inserts the transposed operator, whatever factors the backend returns. -/
theorem C37_row_transposed {D : Dims} {st : State K} {env : Env K} {N : Spec.Tensors K} (ht : Tiling st) (hs : FitsState D st) (he : FitsEnv D st env)
    (hN : Spec.Reads st env N) (svd : Tensor K → Nat → Svd K) (d : Dir) (c : Coord) (p : Nat) (hp : D.p c = p) (hp' : D.p (Spec.ahead d c 1) = p)
    (op : Tensor K) (hop : op.shape = [p, p, p, p]) (hf : Spec.Factorises svd p op) :
    ∃ S, pairStrip svd st env d c (some op) = some S ∧ S.val [] = Spec.pairNetwork N D d c (Spec.transposed2 op) := by
  obtain ⟨E, e, q⟩ := getEdge_start he hN d c
  obtain ⟨R, e1, q1⟩ := applyTM1ch_rep ht hs he hN d c op p hop hp hp' hf q
  obtain ⟨S, eS, vS⟩ := applyEdge_rep he hN d (Spec.ahead d c 1) (by rw [ahead_ahead]; exact q1)
  rw [ahead_ahead] at vS
  exact ⟨S, by simp [pairStrip, e, e1, shift_vec, eS], vS⟩

/-- For every *symmetric* operator the one-row channel inserts exactly that operator. Missing: other operators, which are inserted transposed. -/
theorem C37_row_partial {D : Dims} {st : State K} {env : Env K} {N : Spec.Tensors K} (ht : Tiling st) (hs : FitsState D st) (he : FitsEnv D st env)
    (hN : Spec.Reads st env N) (svd : Tensor K → Nat → Svd K) (d : Dir) (c : Coord) (p : Nat) (hp : D.p c = p) (hp' : D.p (Spec.ahead d c 1) = p)
    (op : Tensor K) (hop : op.shape = [p, p, p, p]) (hf : Spec.Factorises svd p op) (hsym : ∀ s1 s2 s1' s2', op.val [s1, s2, s1', s2'] = op.val [s1', s2', s1, s2]) :
    ∃ S, pairStrip svd st env d c (some op) = some S ∧ S.val [] = Spec.pairNetwork N D d c (Spec.ofTensor2 op) := by
  obtain ⟨S, h1, h2⟩ := C37_row_transposed ht hs he hN svd d c p hp hp' op hop hf
  refine ⟨S, h1, ?_⟩
  rw [h2]
  congr 1
  funext s1' s2' s1 s2
  exact hsym _ _ _ _

/-- Without an operator: two sites in a row. -/
theorem C37_row_identity {D : Dims} {st : State K} {env : Env K} {N : Spec.Tensors K} (ht : Tiling st) (hs : FitsState D st) (he : FitsEnv D st env)
    (hN : Spec.Reads st env N) (svd : Tensor K → Nat → Svd K) (d : Dir) (c : Coord) :
    ∃ S, pairStrip svd st env d c none = some S ∧ S.val [] = Spec.norm N D d c 2 := by
  obtain ⟨E, e, q⟩ := getEdge_start he hN d c
  obtain ⟨R, e1, q1⟩ := applyTM1ch_none (svd := svd) ht hs he hN d c q
  obtain ⟨S, eS, vS⟩ := applyEdge_rep he hN d (Spec.ahead d c 1) (by rw [ahead_ahead]; exact q1)
  rw [ahead_ahead] at vS
  exact ⟨S, by simp [pairStrip, e, e1, shift_vec, eS], vS⟩

/-! ### Two rows -/

/-- Without an operator: two sites side by side. -/
theorem C37_two_row_identity {D : Dims} {st : State K} {env : Env K} {N : Spec.Tensors K} (ht : Tiling st) (hs : FitsState D st) (he : FitsEnv D st env)
    (hN : Spec.Reads st env N) (svd : Tensor K → Nat → Svd K) (d : Dir) (hd : d = .right ∨ d = .down) (c : Coord) :
    ∃ S, wideStrip svd st env d c none = some S ∧ S.val [] = Spec.wideNorm N D d c := by
  obtain ⟨E, e, q⟩ := getEdge2_start he hN d c
  obtain ⟨R, e1, q1⟩ := applyTM2ch_none (svd := svd) ht hs he hN d hd c q
  obtain ⟨S, eS, vS⟩ := applyEdge2_rep he hN d c q1
  exact ⟨S, by simp [wideStrip, e, e1, eS], vS⟩

/-- Upwards and to the left the two-row channel raises. -/
theorem C37_two_row_raises (svd : Tensor K → Nat → Svd K) (st : State K) (env : Env K) (d : Dir) (hd : d = .left ∨ d = .up) (c : Coord) (op : Option (Tensor K)) :
    wideStrip svd st env d c op = none := by
  have h : ∀ E, applyTM2ch svd st env d c E op = none := by
    intro E
    rcases hd with rfl | rfl <;> simp [applyTM2ch, wideCore] <;> cases op <;> rfl
  simp [wideStrip, h]

theorem pair_lt {p i j : Nat} (hi : i < p) (hj : j < p) : i * p + j < p ^ 2 := by
  calc i * p + j < i * p + p := by omega
    _ = (i + 1) * p := by ring
    _ ≤ p * p := Nat.mul_le_mul_right _ hi
    _ = p ^ 2 := by ring

/-- What the two-row channel inserts: the (transposed) operator with all singular values replaced by one. -/
theorem C37_two_row_inserts {D : Dims} {st : State K} {env : Env K} {N : Spec.Tensors K} (ht : Tiling st) (hs : FitsState D st) (he : FitsEnv D st env)
    (hN : Spec.Reads st env N) (svd : Tensor K → Nat → Svd K) (d : Dir) (hd : d = .right ∨ d = .down) (c : Coord) (p : Nat) (hp : D.p c = p) (hp' : D.p (Spec.beside d c) = p)
    (op : Tensor K) (hop : op.shape = [p, p, p, p]) (hf : Spec.Factorises svd p op) :
    ∃ M S, M.shape = [p ^ 2, p ^ 2] ∧ (∀ i < p ^ 2, ∀ j < p ^ 2, M.val [i, j] = (Spec.acrossMatrix p op).val [i, j]) ∧
      wideStrip svd st env d c (some op) = some S ∧ S.val [] = Spec.wideNetwork N D d c (fun s1' s2' s1 s2 =>
        ∑ q ∈ Finset.range (p ^ 2), (svd M (p ^ 2)).U.val [s1 * p + s1', q] * star ((svd M (p ^ 2)).V.val [s2 * p + s2', q])) := by
  obtain ⟨M, o1, o2, sM, vM, eo, s1, s2, v1, v2⟩ := splitOp_ok svd false op p hop hf.shaped
  obtain ⟨E, e, q⟩ := getEdge2_start he hN d c
  obtain ⟨R, e1, q1⟩ := applyTM2ch_split ht hs he hN d hd c eo (by rw [hp]; exact s1) (by rw [hp']; exact s2) q
  obtain ⟨S, eS, vS⟩ := applyEdge2_rep he hN d c q1
  refine ⟨M, S, sM, vM, by simp [wideStrip, e, e1, eS], ?_⟩
  rw [vS, Spec.wideNetwork]
  congr 1
  funext x y w z
  refine wide2_factors hs hN d c (p ^ 2) (factor o1) (factor o2) _ ?_ _ x y w z
  rw [hp, hp']
  intro s1' a1 s1 a2 s2' a3 s2 a4
  rw [factors_sum v1 v2 s1' a1 s1 a2 s2' a3 s2 a4]
  exact Finset.sum_congr rfl (fun k _ => by simp)

theorem wideNetwork_congr {N : Spec.Tensors K} {D : Dims} {d : Dir} {c : Coord} {o o' : Spec.Op2 K}
    (h : ∀ s1' < D.p c, ∀ s1 < D.p c, ∀ s2' < D.p (Spec.beside d c), ∀ s2 < D.p (Spec.beside d c), o s1' s2' s1 s2 = o' s1' s2' s1 s2) :
    Spec.wideNetwork N D d c o = Spec.wideNetwork N D d c o' := by
  rw [Spec.wideNetwork, Spec.wideNetwork]
  congr 1
  funext x y w z
  simp only [Spec.wide2]
  refine Finset.sum_congr rfl (fun s1' h1 => Finset.sum_congr rfl (fun s1 h2 => Finset.sum_congr rfl (fun s2' h3 => Finset.sum_congr rfl (fun s2 h4 => ?_))))
  simp only [Finset.mem_range] at h1 h2 h3 h4
  rw [h s1' h1 s1 h2 s2' h3 s2 h4]

/-- If the matrix of the operator is `t` times an isometry, the two-row channel inserts the (transposed) operator divided by `t`, for every backend that
returns singular value decompositions. -/
theorem C37_two_row_scaled {D : Dims} {st : State K} {env : Env K} {N : Spec.Tensors K} (ht : Tiling st) (hs : FitsState D st) (he : FitsEnv D st env)
    (hN : Spec.Reads st env N) (svd : Tensor K → Nat → Svd K) (d : Dir) (hd : d = .right ∨ d = .down) (c : Coord) (p : Nat) (hp : D.p c = p) (hp' : D.p (Spec.beside d c) = p)
    (op : Tensor K) (hop : op.shape = [p, p, p, p]) (hf : Spec.Decomposes svd p op) (t : ℝ) (h0 : 0 < t) (hiso : Spec.Isometric p op t) :
    ∃ S, wideStrip svd st env d c (some op) = some S ∧ S.val [] = Spec.wideNetwork N D d c (fun s1' s2' s1 s2 => Spec.transposed2 op s1' s2' s1 s2 / (t : K)) := by
  obtain ⟨M, S, sM, vM, eS, vS⟩ := C37_two_row_inserts ht hs he hN svd d hd c p hp hp' op hop (fun M h1 h2 => (hf M h1 h2).toFactors)
  refine ⟨S, eS, ?_⟩
  rw [vS]
  refine wideNetwork_congr ?_
  rw [hp, hp']
  intro s1' a1 s1 a2 s2' a3 s2 a4
  have hsv := svd_isometry (hf M sM vM) t h0.le (fun j hj j' hj' => by
    rw [← hiso j hj j' hj']
    refine Finset.sum_congr rfl (fun i hi => ?_)
    rw [vM i (Finset.mem_range.1 hi) j hj, vM i (Finset.mem_range.1 hi) j' hj'])
  have htK : (t : K) ≠ 0 := by exact_mod_cast h0.ne'
  rw [eq_div_iff htK, Spec.transposed2, ← across_val vM s1' a1 s1 a2 s2' a3 s2 a4, (hf M sM vM).prod _ (pair_lt a2 a1) _ (pair_lt a4 a3), Finset.sum_mul]
  refine Finset.sum_congr rfl (fun k hk => ?_)
  rw [hsv k (Finset.mem_range.1 hk)]
  ring

/-- For every symmetric operator whose matrix is an isometry the two-row channel inserts exactly that operator. Missing: all others, for which the
singular values are dropped (`C37_two_row_violated`). -/
theorem C37_two_row_partial {D : Dims} {st : State K} {env : Env K} {N : Spec.Tensors K} (ht : Tiling st) (hs : FitsState D st) (he : FitsEnv D st env)
    (hN : Spec.Reads st env N) (svd : Tensor K → Nat → Svd K) (d : Dir) (hd : d = .right ∨ d = .down) (c : Coord) (p : Nat) (hp : D.p c = p) (hp' : D.p (Spec.beside d c) = p)
    (op : Tensor K) (hop : op.shape = [p, p, p, p]) (hf : Spec.Decomposes svd p op) (hiso : Spec.Isometric p op 1)
    (hsym : ∀ s1 s2 s1' s2', op.val [s1, s2, s1', s2'] = op.val [s1', s2', s1, s2]) :
    ∃ S, wideStrip svd st env d c (some op) = some S ∧ S.val [] = Spec.wideNetwork N D d c (Spec.ofTensor2 op) := by
  obtain ⟨S, h1, h2⟩ := C37_two_row_scaled ht hs he hN svd d hd c p hp hp' op hop hf 1 one_pos hiso
  refine ⟨S, h1, ?_⟩
  rw [h2]
  congr 1
  funext s1' s2' s1 s2
  simp only [Spec.transposed2, Spec.ofTensor2, RCLike.ofReal_one, div_one]
  exact hsym _ _ _ _

/-! ### The product state -/

theorem pWide (v : Nat → K) (d : Dir) (c : Coord) (o o' : Spec.Op K) (f : Spec.Vec4 K) (x y w z : Nat) :
    Spec.wide (pTensors v) pDims d c o o' f x y w z = f 0 0 0 0 * pExpect v o * pExpect v o' := by
  cases d <;> simp [Spec.wide, Spec.cut2, Spec.cut, Spec.sides, pDims, Spec.first, Spec.second, Spec.middle, pTensors, pLayer]

theorem pEdge2 (v : Nat → K) (d : Dir) (c : Coord) (x y w z : Nat) : Spec.edge2 (pTensors v) pDims d c x y w z = 1 := by
  cases d <;> simp [Spec.edge2, pDims, pTensors]

theorem pDot2 (d : Dir) (c : Coord) (f g : Spec.Vec4 K) : Spec.dot2 (Spec.cut2 pDims d c) f g = f 0 0 0 0 * g 0 0 0 0 := by
  cases d <;> simp [Spec.dot2, Spec.cut2, Spec.cut, pDims]

theorem pWideNetwork (v : Nat → K) (d : Dir) (c : Coord) (o : Spec.Op2 K) : Spec.wideNetwork (pTensors v) pDims d c o =
    ∑ s1' ∈ Finset.range 2, ∑ s1 ∈ Finset.range 2, ∑ s2' ∈ Finset.range 2, ∑ s2 ∈ Finset.range 2,
      o s1' s2' s1 s2 * (pExpect v (Spec.unit s1' s1) * pExpect v (Spec.unit s2' s2)) := by
  rw [Spec.wideNetwork, pDot2, pEdge2, mul_one]
  simp only [Spec.wide2, pWide, pEdge2, one_mul]
  rfl

theorem pWideNorm (v : Nat → K) (d : Dir) (c : Coord) : Spec.wideNorm (pTensors v) pDims d c = pExpect v Spec.one * pExpect v Spec.one := by
  rw [Spec.wideNorm, pDot2, pEdge2, mul_one, pWide, pEdge2, one_mul]

/-- `t` times the exchange of the two sites. -/
def swapT (t : ℝ) : Tensor K := ⟨[2, 2, 2, 2], fun idx => if idx.getD 0 0 = idx.getD 3 0 ∧ idx.getD 1 0 = idx.getD 2 0 then (t : K) else 0⟩

theorem swap_iso (t : ℝ) : Spec.Isometric 2 (swapT t : Tensor K) t := by
  intro j hj j' hj'
  have h1 : j = 0 ∨ j = 1 ∨ j = 2 ∨ j = 3 := by omega
  have h2 : j' = 0 ∨ j' = 1 ∨ j' = 2 ∨ j' = 3 := by omega
  rcases h1 with rfl | rfl | rfl | rfl <;> rcases h2 with rfl | rfl | rfl | rfl <;>
    simp [Finset.sum_range_succ, Spec.acrossMatrix, swapT, RCLike.star_def, ← sq]

/-- A backend: the matrix divided by `t`, values `t`, the identity. -/
noncomputable def flatSvd (t : ℝ) : Tensor K → Nat → Svd K := fun M n =>
  ⟨⟨[n, n], fun idx => M.val idx / (t : K)⟩, List.replicate n t, ⟨[n, n], fun idx => if idx.getD 0 0 = idx.getD 1 0 then 1 else 0⟩⟩

theorem flat_factors {t : ℝ} (ht : t ≠ 0) (M : Tensor K) (n : Nat) : Spec.Factors n M (flatSvd t M n) := by
  refine ⟨rfl, by simp [flatSvd], rfl, fun i hi j hj => ?_⟩
  have htK : (t : K) ≠ 0 := by exact_mod_cast ht
  rw [Finset.sum_eq_single j]
  · simp [flatSvd, hj, htK, List.getD, List.getElem?_replicate]
  · intro q _ hq
    simp [flatSvd, Ne.symm hq]
  · intro h; exact absurd (Finset.mem_range.2 hj) h

theorem flat_svd {t : ℝ} (ht : 0 < t) (p : Nat) (op : Tensor K) (hiso : Spec.Isometric p op t) : Spec.Decomposes (flatSvd t) p op := by
  intro M sM vM
  refine ⟨flat_factors ht.ne' M _, fun s hs => ?_, fun q hq q' hq' => ?_, fun q hq q' hq' => ?_⟩
  · rw [List.eq_of_mem_replicate hs]; exact ht.le
  · have htK : (t : K) ≠ 0 := by exact_mod_cast ht.ne'
    have : ∀ i ∈ Finset.range (p ^ 2), star ((flatSvd t M (p ^ 2)).U.val [i, q]) * (flatSvd t M (p ^ 2)).U.val [i, q'] =
        star ((Spec.acrossMatrix p op).val [i, q]) * (Spec.acrossMatrix p op).val [i, q'] / (t : K) ^ 2 := by
      intro i hi
      simp only [flatSvd]
      rw [vM i (Finset.mem_range.1 hi) q hq, vM i (Finset.mem_range.1 hi) q' hq', star_div₀, RCLike.star_def, RCLike.conj_ofReal]
      field_simp
    rw [Finset.sum_congr rfl this, ← Finset.sum_div, hiso q hq q' hq']
    split
    · rw [RCLike.ofReal_pow, div_self (pow_ne_zero _ htK)]
    · rw [zero_div]
  · rw [Finset.sum_eq_single q]
    · by_cases h : q = q' <;> simp [flatSvd, h]
    · intro i _ hi
      simp [flatSvd, hi]
    · intro h; exact absurd (Finset.mem_range.2 hq) h

/-- The operator `2 * swap` in the product state `(1, 0)`, whose expectation value is 2: for every backend that returns singular value decompositions
the two-row channel gives 1, the same as without an operator. -/
theorem C37_two_row_violated (svd : Tensor K → Nat → Svd K) (hf : Spec.Decomposes svd 2 (swapT 2)) (d : Dir) (hd : d = .right ∨ d = .down) :
    ∃ S S0, wideStrip svd (pState (fun s => if s = 0 then (1 : K) else 0)) pEnv d (0, 0) (some (swapT 2)) = some S ∧
      wideStrip svd (pState (fun s => if s = 0 then (1 : K) else 0)) pEnv d (0, 0) none = some S0 ∧ S.val [] = 1 ∧ S0.val [] = 1 ∧
      Spec.wideNetwork (pTensors (fun s => if s = 0 then (1 : K) else 0)) pDims d (0, 0) (Spec.ofTensor2 (swapT 2)) = 2 := by
  obtain ⟨v, hv⟩ : ∃ v : Nat → K, v = fun s => if s = 0 then 1 else 0 := ⟨_, rfl⟩
  rw [← hv]
  obtain ⟨S, eS, vS⟩ := C37_two_row_scaled (pTiling v) (pFitsState v) (pFitsEnv v) (pReads v) svd d hd (0, 0) 2 rfl rfl (swapT 2) rfl hf 2 two_pos (swap_iso 2)
  obtain ⟨S0, e0, v0⟩ := C37_two_row_identity (pTiling v) (pFitsState v) (pFitsEnv v) (pReads v) svd d hd (0, 0)
  refine ⟨S, S0, eS, e0, ?_, ?_, ?_⟩
  · rw [vS, pWideNetwork]
    simp [pExpect, Finset.sum_range_succ, Spec.transposed2, Spec.unit, swapT, hv]
  · rw [v0, pWideNorm]
    simp [pExpect, Finset.sum_range_succ, Spec.one, hv]
  · rw [pWideNetwork]
    simp [pExpect, Finset.sum_range_succ, Spec.ofTensor2, Spec.unit, swapT, hv]
    exact RCLike.ofReal_ofNat 2

/-! ### Hypotheses are met -/

example (d : Dir) (hd : d = .right ∨ d = .down) := C37_two_row_violated (K := ℝ) (flatSvd 2) (flat_svd two_pos 2 _ (swap_iso 2)) d hd
example (d : Dir) (hd : d = .right ∨ d = .down) (v : Nat → ℂ) := C37_two_row_partial (pTiling v) (pFitsState v) (pFitsEnv v) (pReads v) (flatSvd 1) d hd (4, -1) 2 rfl rfl
  (swapT 1) rfl (flat_svd one_pos 2 _ (swap_iso 1)) (swap_iso 1) (fun s1 s2 s1' s2' => by simp [swapT, and_comm, eq_comm])
example (d : Dir) (v : Nat → ℂ) (op : Tensor ℂ) (hop : op.shape = [2, 2, 2, 2]) := C37_row_transposed (pTiling v) (pFitsState v) (pFitsEnv v) (pReads v) (flatSvd 3) d (4, -1) 2
  rfl rfl op hop (fun M _ _ => flat_factors (by norm_num) M _)
example (d : Dir) (v : Nat → ℂ) := C37_row_partial (pTiling v) (pFitsState v) (pFitsEnv v) (pReads v) (flatSvd 3) d (4, -1) 2
  rfl rfl (swapT 5) rfl (fun M _ _ => flat_factors (by norm_num) M _) (fun s1 s2 s1' s2' => by simp [swapT, and_comm, eq_comm])
theorem exReads : Spec.Reads (exState (exDims 2 3)) (Rdm.cellEnv (exDims 2 3)) (Classical.choose (Spec.Reads.exists (exFitsState (l := 2) (l' := 3) (by decide) (by decide)) Rdm.cellFits)) :=
  Classical.choose_spec _
example (d : Dir) (svd : Tensor ℝ → Nat → Svd ℝ) :=
  C37_row_identity (exTiling (exDims 2 3)) (exFitsState (by decide) (by decide)) Rdm.cellFits exReads svd d (1, 0)
example (d : Dir) (hd : d = .right ∨ d = .down) (op : Tensor ℝ) (hop : op.shape = [2, 2, 2, 2]) :=
  C37_two_row_inserts (exTiling (exDims 2 3)) (exFitsState (by decide) (by decide)) Rdm.cellFits exReads (flatSvd 3) d hd (1, 0) 2 rfl (by rcases hd with rfl | rfl <;> rfl) op hop
    (fun M _ _ => flat_factors (by norm_num) M _)

end Verif.Corrf
