import Verif.C4v.CorrfLemmas
import Verif.Ctm.MoveProps
/-
C75, C76: the correlation functions of one-site C4v states are those of the general code on the unfolded environment.
-/
namespace Verif.C4v
open Tensor Ctm Ctm.Spec
set_option linter.unusedSimpArgs false
set_option linter.unusedSectionVars false
variable {K : Type} [RCLike K]
section
variable {chi D p : Nat} {a : Tensor K} {env : C4v.Env K}

/-- Two tensors with the same entries. -/
def Both (s : Nat × Nat × Nat) (E E' : Tensor K) : Prop := ∃ f, Corrf.Rep s E f ∧ Corrf.Rep s E' f
def BothW (s : Nat × Nat × Nat × Nat) (E E' : Tensor K) : Prop := ∃ f, Corrf.RepW s E f ∧ Corrf.RepW s E' f

theorem index3 {x y z : Nat} {l : List Nat} (h : InB [x, y, z] l) : ∃ i j k, l = [i, j, k] ∧ i < x ∧ j < y ∧ k < z := by
  cases h with
  | cons h1 h => cases h with
    | cons h2 h => cases h with
      | cons h3 h => cases h; exact ⟨_, _, _, rfl, h1, h2, h3⟩

theorem index4 {x y w z : Nat} {l : List Nat} (h : InB [x, y, w, z] l) : ∃ i j k m, l = [i, j, k, m] ∧ i < x ∧ j < y ∧ k < w ∧ m < z := by
  cases h with
  | cons h1 h => obtain ⟨j, k, m, rfl, h2, h3, h4⟩ := index3 h; exact ⟨_, _, _, _, rfl, h1, h2, h3, h4⟩

theorem Both.same {s : Nat × Nat × Nat} {E E' : Tensor K} (h : Both s E E') : Same E E' := by
  obtain ⟨f, h1, h2⟩ := h
  refine ⟨h1.1.trans h2.1.symm, fun idx hi => ?_⟩
  rw [h1.1] at hi
  obtain ⟨i, j, k, rfl, a1, a2, a3⟩ := index3 hi
  rw [h1.2 _ _ _ a1 a2 a3, h2.2 _ _ _ a1 a2 a3]

theorem BothW.same {s : Nat × Nat × Nat × Nat} {E E' : Tensor K} (h : BothW s E E') : Same E E' := by
  obtain ⟨f, h1, h2⟩ := h
  refine ⟨h1.1.trans h2.1.symm, fun idx hi => ?_⟩
  rw [h1.1] at hi
  obtain ⟨i, j, k, m, rfl, a1, a2, a3, a4⟩ := index4 hi
  rw [h1.2 _ _ _ _ a1 a2 a3 a4, h2.2 _ _ _ _ a1 a2 a3 a4]

theorem Both.divBy {s : Nat × Nat × Nat} {E E' : Tensor K} (m : ℝ) (h : Both s E E') : Both s (Corrf.divBy m E) (Corrf.divBy m E') := by
  obtain ⟨f, h1, h2⟩ := h
  exact ⟨fun x y z => f x y z / (m : K), ⟨h1.1, fun x y z hx hy hz => by simp [Corrf.divBy, h1.2 x y z hx hy hz]⟩,
    ⟨h2.1, fun x y z hx hy hz => by simp [Corrf.divBy, h2.2 x y z hx hy hz]⟩⟩

theorem BothW.divBy {s : Nat × Nat × Nat × Nat} {E E' : Tensor K} (m : ℝ) (h : BothW s E E') : BothW s (Corrf.divBy m E) (Corrf.divBy m E') := by
  obtain ⟨f, h1, h2⟩ := h
  exact ⟨fun x y w z => f x y w z / (m : K), ⟨h1.1, fun x y w z hx hy hw hz => by simp [Corrf.divBy, h1.2 x y w z hx hy hw hz]⟩,
    ⟨h2.1, fun x y w z hx hy hw hz => by simp [Corrf.divBy, h2.2 x y w z hx hy hw hz]⟩⟩

/-- The entries of the two loops agree, and so do the normalised edges. -/
theorem entry_bind {S12 S00 S12' S00' E0 E1 E0' E1' : Tensor K} (h12 : S12.val [] = S12'.val []) (h00 : S00.val [] = S00'.val []) (hs : Same E0 E0')
    {α : Type} (F G : K × Tensor K × Tensor K → Except Err α)
    (h : ∀ v m, F (v, Corrf.divBy m E0, Corrf.divBy m E1) = G (v, Corrf.divBy m E0', Corrf.divBy m E1')) :
    (Corrf.entry S12 S00 E0 E1 >>= F) = (Corrf.entry S12' S00' E0' E1' >>= G) := by
  have hn := vecNorm_same true hs
  simp only [Corrf.entry, h12, h00, hn]
  split
  · rfl
  · exact h _ _

variable (hchi : 0 < chi) (hD : 0 < D) (hp : 0 < p) (hf : C4v.Spec.Fits chi D p a env)
include hchi hD hp hf

theorem tm_both (op : Option (Tensor K)) (hop : ∀ o, op = some o → o.shape = [p, p]) {E E' : Tensor K} (h : Both (chi, D * D, chi) E E') (c : Coord) :
    ∃ R R', applyTM a env E op = some R ∧ Corrf.applyTM (C4v.Spec.cell a) (C4v.Spec.unfold env) .right c E' op = some R' ∧ Both (chi, D * D, chi) R R' := by
  obtain ⟨f, h1, h2⟩ := h
  obtain ⟨R, e, q⟩ := applyTM_rep hf op hop h1 c
  obtain ⟨R', e', q'⟩ := Corrf.applyTM_rep (tiling a) (fitsState hD hp hf) (fitsEnv hchi hf) (reads a env) .right c op hop h2
  exact ⟨R, R', e, e', _, q, q'⟩

theorem edge_both (hC : C4v.Spec.CSymm chi env) (c : Coord) :
    ∃ R R', getEdge env = some R ∧ Corrf.getEdge (C4v.Spec.cell a) (C4v.Spec.unfold env) (Corrf.rev .right) c = some R' ∧ Both (chi, D * D, chi) R R' := by
  obtain ⟨R, e, q⟩ := getEdge_rep hf hC c
  obtain ⟨R', e', q'⟩ := Corrf.getEdge_start (fitsEnv hchi hf) (reads a env) .right c
  exact ⟨R, R', e, e', _, q, q'⟩

theorem close_both {E E' : Tensor K} (h : Both (chi, D * D, chi) E E') (c : Coord) :
    ∃ S S', applyEdge env E = some S ∧ Corrf.applyEdge (C4v.Spec.cell a) (C4v.Spec.unfold env) .right c E' = some S' ∧ S.val [] = S'.val [] := by
  obtain ⟨f, h1, h2⟩ := h
  obtain ⟨R, e, q⟩ := applyEdge_rep hf h1 c
  obtain ⟨R', e', q'⟩ := Corrf.applyEdge_rep (fitsEnv hchi hf) (reads a env) .right c h2
  exact ⟨R, R', e, e', q.trans q'.symm⟩

theorem loop11_eq (op2 : Nat → Tensor K) (n : Nat) : ∀ (r : Nat) (c : Coord) (E0 E1 E0' E1' : Tensor K), (∀ k < n, (op2 (r + k)).shape = [p, p]) →
    Both (chi, D * D, chi) E0 E0' → Both (chi, D * D, chi) E1 E1' →
    loop11 a env op2 n r E0 E1 = Corrf.loop11 (C4v.Spec.cell a) (C4v.Spec.unfold env) .right op2 n r c E0' E1' := by
  induction n with
  | zero => intro r c E0 E1 E0' E1' _ _ _; rfl
  | succ n ih =>
    intro r c E0 E1 E0' E1' h2 h0 h1
    obtain ⟨c', hc⟩ : ∃ c', Corrf.shift c Dir.right.vec = c' := ⟨_, rfl⟩
    obtain ⟨F12, G12, e1, e1', q12⟩ := tm_both hchi hD hp hf (some (op2 r)) (fun o ho => by cases ho; exact h2 0 (Nat.succ_pos n)) h1 c'
    obtain ⟨F0, G0, e2, e2', q0⟩ := tm_both hchi hD hp hf none (fun o ho => by cases ho) h0 c'
    obtain ⟨F1, G1, e3, e3', q1⟩ := tm_both hchi hD hp hf none (fun o ho => by cases ho) h1 c'
    obtain ⟨S12, S12', e4, e4', s12⟩ := close_both hchi hD hp hf q12 c'
    obtain ⟨S00, S00', e5, e5', s00⟩ := close_both hchi hD hp hf q0 c'
    simp only [loop11, Corrf.loop11, hc, e1, e2, e3, e4, e5, e1', e2', e3', e4', e5', Corrf.lift_bind]
    refine entry_bind s12 s00 q0.same _ _ (fun v m => ?_)
    show (loop11 a env op2 n (r + 1) _ _ >>= fun vs => _) = (Corrf.loop11 _ _ _ op2 n (r + 1) _ _ _ >>= fun vs => _)
    rw [ih (r + 1) c' _ _ _ _ (fun k hk => by have := h2 (k + 1) (by omega); rwa [show r + (k + 1) = r + 1 + k by omega] at this) (q0.divBy m) (q1.divBy m)]

/-- One-site operators: for every site tensor, symmetric corner, half-row, operators and distance, `corrf_1sO1sO` returns exactly what the general function returns
for the unfolded environment in the direction to the right, including failures. -/
theorem C75_one_site (hC : C4v.Spec.CSymm chi env) (c : Coord) (op1 : Tensor K) (op2 : Nat → Tensor K) (dist : Nat) (h1 : op1.shape = [p, p])
    (h2 : ∀ r ≤ dist, (op2 r).shape = [p, p]) :
    corrf11 a env op1 op2 dist = Corrf.corrf11 (C4v.Spec.cell a) (C4v.Spec.unfold env) .right c op1 op2 dist := by
  obtain ⟨E, E', e, e', q⟩ := edge_both hchi hD hp hf hC c
  obtain ⟨E1, E1', e1, e1', q1⟩ := tm_both hchi hD hp hf (some op1) (fun o ho => by cases ho; exact h1) q c
  obtain ⟨E0, E0', e0, e0', q0⟩ := tm_both hchi hD hp hf none (fun o ho => by cases ho) q c
  simp only [corrf11, Corrf.corrf11, e, e', e1, e1', e0, e0', Corrf.lift_bind]
  exact loop11_eq hchi hD hp hf op2 (dist + 1) 0 c _ _ _ _ (fun k hk => by rw [Nat.zero_add]; exact h2 k (by omega)) q0 q1

theorem tm2_both {svd : Tensor K → Nat → Svd K} (op : Tensor K) (hop : op.shape = [p, p, p, p]) (hs : Corrf.Spec.Shaped svd p op) {E E' : Tensor K} (h : Both (chi, D * D, chi) E E') (c : Coord) :
    ∃ R R', applyTM2 svd a env E (some op) = some R ∧ Corrf.applyTM1ch (conjV svd) (C4v.Spec.cell a) (C4v.Spec.unfold env) .right c E' (some op) = some R' ∧ Both (chi, D * D, chi) R R' := by
  obtain ⟨f, h1, h2⟩ := h
  obtain ⟨M, X, Y, _, _, es, sX, sY, _, _⟩ := Corrf.splitOp_ok (conjV svd) true op p hop (shaped_conj hs)
  obtain ⟨R, e, q⟩ := applyTM2_rep hD hf ((splitOp_conj svd op).trans es) sX sY h1 c (Corrf.Spec.ahead .right c 1)
  obtain ⟨E1, e1, q1⟩ := Corrf.applyTM_out (tiling a) (fitsState hD hp hf) (fitsEnv hchi hf) (reads a env) .right c X sX h2
  obtain ⟨R', e2, q2⟩ := Corrf.applyTM_in (tiling a) (fitsState hD hp hf) (fitsEnv hchi hf) (reads a env) .right (Corrf.Spec.ahead .right c 1) Y sY q1
  exact ⟨R, R', e, by simp [Corrf.applyTM1ch, es, e1, Corrf.shift_vec, e2], _, q, q2⟩

theorem tm2_none {svd : Tensor K → Nat → Svd K} {E E' : Tensor K} (h : Both (chi, D * D, chi) E E') (c : Coord) :
    ∃ R R', applyTM2 svd a env E none = some R ∧ Corrf.applyTM1ch (conjV svd) (C4v.Spec.cell a) (C4v.Spec.unfold env) .right c E' none = some R' ∧ Both (chi, D * D, chi) R R' := by
  obtain ⟨f, h1, h2⟩ := h
  obtain ⟨R, e, q⟩ := applyTM2_none (svd := svd) hD hf h1 c (Corrf.Spec.ahead .right c 1)
  obtain ⟨R', e', q'⟩ := Corrf.applyTM1ch_none (svd := conjV svd) (tiling a) (fitsState hD hp hf) (fitsEnv hchi hf) (reads a env) .right c h2
  exact ⟨R, R', e, e', _, q, q'⟩

theorem loopH_eq (svd : Tensor K → Nat → Svd K) (op2 : Nat → Tensor K) (n : Nat) : ∀ (r : Nat) (c : Coord) (E0 E1 E0' E1' : Tensor K),
    (∀ k < n, (op2 (r + k)).shape = [p, p, p, p] ∧ Corrf.Spec.Shaped svd p (op2 (r + k))) →
    Both (chi, D * D, chi) E0 E0' → Both (chi, D * D, chi) E1 E1' →
    loopH svd a env op2 n r E0 E1 = Corrf.loopH (conjV svd) (C4v.Spec.cell a) (C4v.Spec.unfold env) .right op2 n r c E0' E1' := by
  induction n with
  | zero => intro r c E0 E1 E0' E1' _ _ _; rfl
  | succ n ih =>
    intro r c E0 E1 E0' E1' h2 h0 h1
    obtain ⟨c', hc⟩ : ∃ c', Corrf.shift c Dir.right.vec = c' := ⟨_, rfl⟩
    obtain ⟨F12, G12, e1, e1', q12⟩ := tm2_both hchi hD hp hf (op2 r) (h2 0 (Nat.succ_pos n)).1 (h2 0 (Nat.succ_pos n)).2 h1 c
    obtain ⟨F0, G0, e2, e2', q0⟩ := tm_both hchi hD hp hf none (fun o ho => by cases ho) h0 c
    obtain ⟨F1, G1, e3, e3', q1⟩ := tm_both hchi hD hp hf none (fun o ho => by cases ho) h1 c
    obtain ⟨F00, G00, e6, e6', q00⟩ := tm_both hchi hD hp hf none (fun o ho => by cases ho) q0 c'
    obtain ⟨S12, S12', e4, e4', s12⟩ := close_both hchi hD hp hf q12 c'
    obtain ⟨S00, S00', e5, e5', s00⟩ := close_both hchi hD hp hf q00 c'
    simp only [loopH, Corrf.loopH, hc, e1, e2, e3, e4, e5, e6, e1', e2', e3', e4', e5', e6', Corrf.lift_bind]
    refine entry_bind s12 s00 q0.same _ _ (fun v m => ?_)
    show (loopH svd a env op2 n (r + 1) _ _ >>= fun vs => _) = (Corrf.loopH _ _ _ _ op2 n (r + 1) _ _ _ >>= fun vs => _)
    rw [ih (r + 1) c' _ _ _ _ (fun k hk => by have := h2 (k + 1) (by omega); rwa [show r + (k + 1) = r + 1 + k by omega] at this) (q0.divBy m) (q1.divBy m)]

/-- Two-site operators along a row: `corrf_2sOH2sOH_E1` returns exactly what the general function returns when its decomposition of the operators has `V` replaced by
its complex conjugate. -/
theorem C76_row_conj (svd : Tensor K → Nat → Svd K) (hC : C4v.Spec.CSymm chi env) (c : Coord) (op1 : Tensor K) (op2 : Nat → Tensor K) (dist : Nat)
    (h1 : op1.shape = [p, p, p, p] ∧ Corrf.Spec.Shaped svd p op1) (h2 : ∀ r ≤ dist, (op2 r).shape = [p, p, p, p] ∧ Corrf.Spec.Shaped svd p (op2 r)) :
    corrfH svd a env op1 op2 dist = Corrf.corrfH (conjV svd) (C4v.Spec.cell a) (C4v.Spec.unfold env) .right c op1 op2 dist := by
  obtain ⟨E, E', e, e', q⟩ := edge_both hchi hD hp hf hC c
  obtain ⟨E1, E1', e1, e1', q1⟩ := tm2_both hchi hD hp hf op1 h1.1 h1.2 q c
  obtain ⟨E0, E0', e0, e0', q0⟩ := tm2_none hchi hD hp hf (svd := svd) q c
  simp only [corrfH, Corrf.corrfH, e, e', e1, e1', e0, e0', Corrf.lift_bind]
  exact loopH_eq hchi hD hp hf svd op2 (dist + 1) 0 _ _ _ _ _ (fun k hk => by rw [Nat.zero_add]; exact h2 k (by omega)) q0 q1

theorem tmw_both {svd : Tensor K → Nat → Svd K} (op : Tensor K) (hop : op.shape = [p, p, p, p]) (hs : Corrf.Spec.Shaped svd p op) {E E' : Tensor K} (h : BothW (chi, D * D, D * D, chi) E E') (c : Coord) :
    ∃ R R', applyTMW svd a env E (some op) = some R ∧ Corrf.applyTM2ch (weighV svd) (C4v.Spec.cell a) (C4v.Spec.unfold env) .right c E' (some op) = some R' ∧ BothW (chi, D * D, D * D, chi) R R' := by
  obtain ⟨f, h1, h2⟩ := h
  obtain ⟨M, X, Y, _, _, es, sX, sY, _, _⟩ := Corrf.splitOp_ok (weighV svd) false op p hop (shaped_weigh hs)
  obtain ⟨R, e, q⟩ := applyTMW_rep hD hf ((splitOp_weigh svd op).trans es) sX sY h1 c
  obtain ⟨R', e', q'⟩ := Corrf.applyTM2ch_split (tiling a) (fitsState hD hp hf) (fitsEnv hchi hf) (reads a env) .right (Or.inl rfl) c es sX sY h2
  exact ⟨R, R', e, e', _, q, q'⟩

theorem tmw_none {svd : Tensor K → Nat → Svd K} {E E' : Tensor K} (h : BothW (chi, D * D, D * D, chi) E E') (c : Coord) :
    ∃ R R', applyTMW svd a env E none = some R ∧ Corrf.applyTM2ch (weighV svd) (C4v.Spec.cell a) (C4v.Spec.unfold env) .right c E' none = some R' ∧ BothW (chi, D * D, D * D, chi) R R' := by
  obtain ⟨f, h1, h2⟩ := h
  obtain ⟨R, e, q⟩ := applyTMW_none (svd := svd) hf h1 c
  obtain ⟨R', e', q'⟩ := Corrf.applyTM2ch_none (svd := weighV svd) (tiling a) (fitsState hD hp hf) (fitsEnv hchi hf) (reads a env) .right (Or.inl rfl) c h2
  exact ⟨R, R', e, e', _, q, q'⟩

theorem closew_both (hC : C4v.Spec.CSymm chi env) (hT : C4v.Spec.TSymm chi D env) {E E' : Tensor K} (h : BothW (chi, D * D, D * D, chi) E E') (c : Coord) :
    ∃ S S', applyEdgeL env E = some S ∧ Corrf.applyEdge (C4v.Spec.cell a) (C4v.Spec.unfold env) .right c E' = some S' ∧ S.val [] = S'.val [] := by
  obtain ⟨f, h1, h2⟩ := h
  obtain ⟨R, e, q⟩ := applyEdgeL_rep hf hC hT h1 c
  obtain ⟨R', e', q'⟩ := Corrf.applyEdge2_rep (fitsEnv hchi hf) (reads a env) .right c h2
  exact ⟨R, R', e, e', q.trans q'.symm⟩

theorem loopV_eq (hC : C4v.Spec.CSymm chi env) (hT : C4v.Spec.TSymm chi D env) (svd : Tensor K → Nat → Svd K) (op2 : Nat → Tensor K) (n : Nat) : ∀ (r : Nat) (c : Coord) (E0 E1 E0' E1' : Tensor K),
    (∀ k < n, (op2 (r + k)).shape = [p, p, p, p] ∧ Corrf.Spec.Shaped svd p (op2 (r + k))) →
    BothW (chi, D * D, D * D, chi) E0 E0' → BothW (chi, D * D, D * D, chi) E1 E1' →
    loopV svd a env op2 n r E0 E1 = Corrf.loopV (weighV svd) (C4v.Spec.cell a) (C4v.Spec.unfold env) .right op2 n r c E0' E1' := by
  induction n with
  | zero => intro r c E0 E1 E0' E1' _ _ _; rfl
  | succ n ih =>
    intro r c E0 E1 E0' E1' h2 h0 h1
    obtain ⟨c', hc⟩ : ∃ c', Corrf.shift c Dir.right.vec = c' := ⟨_, rfl⟩
    obtain ⟨F12, G12, e1, e1', q12⟩ := tmw_both hchi hD hp hf (op2 r) (h2 0 (Nat.succ_pos n)).1 (h2 0 (Nat.succ_pos n)).2 h1 c'
    obtain ⟨F0, G0, e2, e2', q0⟩ := tmw_none hchi hD hp hf (svd := svd) h0 c'
    obtain ⟨F1, G1, e3, e3', q1⟩ := tmw_none hchi hD hp hf (svd := svd) h1 c'
    obtain ⟨S12, S12', e4, e4', s12⟩ := closew_both hchi hD hp hf hC hT q12 c'
    obtain ⟨S00, S00', e5, e5', s00⟩ := closew_both hchi hD hp hf hC hT q0 c'
    simp only [loopV, Corrf.loopV, hc, e1, e2, e3, e4, e5, e1', e2', e3', e4', e5', Corrf.lift_bind]
    refine entry_bind s12 s00 q0.same _ _ (fun v m => ?_)
    show (loopV svd a env op2 n (r + 1) _ _ >>= fun vs => _) = (Corrf.loopV _ _ _ _ op2 n (r + 1) _ _ _ >>= fun vs => _)
    rw [ih (r + 1) c' _ _ _ _ (fun k hk => by have := h2 (k + 1) (by omega); rwa [show r + (k + 1) = r + 1 + k by omega] at this) (q0.divBy m) (q1.divBy m)]

/-- Two-site operators across two rows: `corrf_2sOV2sOV_E2` returns exactly what the general function returns when its decomposition of the operators has `V` replaced
by its complex conjugate with the singular values multiplied in. The half-row has to be symmetric. -/
theorem C76_rows_conj (svd : Tensor K → Nat → Svd K) (hC : C4v.Spec.CSymm chi env) (hT : C4v.Spec.TSymm chi D env) (c : Coord) (op1 : Tensor K) (op2 : Nat → Tensor K) (dist : Nat)
    (h1 : op1.shape = [p, p, p, p] ∧ Corrf.Spec.Shaped svd p op1) (h2 : ∀ r ≤ dist, (op2 r).shape = [p, p, p, p] ∧ Corrf.Spec.Shaped svd p (op2 r)) :
    corrfV svd a env op1 op2 dist = Corrf.corrfV (weighV svd) (C4v.Spec.cell a) (C4v.Spec.unfold env) .right c op1 op2 dist := by
  obtain ⟨E, e, q⟩ := getEdgeL_rep hf hC hT c
  obtain ⟨E', e', q'⟩ := Corrf.getEdge2_start (fitsEnv hchi hf) (reads a env) .right c
  have hE : BothW (chi, D * D, D * D, chi) E E' := ⟨_, q, q'⟩
  obtain ⟨E1, E1', e1, e1', q1⟩ := tmw_both hchi hD hp hf op1 h1.1 h1.2 hE c
  obtain ⟨E0, E0', e0, e0', q0⟩ := tmw_none hchi hD hp hf (svd := svd) hE c
  simp only [corrfV, Corrf.corrfV, e, e', e1, e1', e0, e0', Corrf.lift_bind]
  exact loopV_eq hchi hD hp hf hC hT svd op2 (dist + 1) 0 _ _ _ _ _ (fun k hk => by rw [Nat.zero_add]; exact h2 k (by omega)) q0 q1
end

/-! ### All directions -/

theorem sum3_swap {A B C : Finset Nat} (F : Nat → Nat → Nat → K) : ∑ x ∈ A, ∑ y ∈ B, ∑ z ∈ C, F x y z = ∑ z ∈ C, ∑ y ∈ B, ∑ x ∈ A, F x y z := by
  rw [Finset.sum_congr rfl (fun x _ => Finset.sum_comm), Finset.sum_comm]
  exact Finset.sum_congr rfl (fun z _ => Finset.sum_comm)

section
variable {chi D p : Nat} {a : Tensor K} {env : C4v.Env K}

def Agree (s : Nat × Nat × Nat) (f g : Corrf.Spec.Vec K) : Prop := ∀ x y z, x < s.1 → y < s.2.1 → z < s.2.2 → f x y z = g x y z

/-- Whether turning the strip to the right into direction `d` exchanges its two sides. -/
def flips : Dir → Bool
  | .right => false
  | .up => false
  | .down => true
  | .left => true

def turnVec (b : Bool) (f : Corrf.Spec.Vec K) : Corrf.Spec.Vec K := fun x y z => if b then f z y x else f x y z

theorem layer_turn (hf : C4v.Spec.Fits chi D p a env) (ha : C4v.Spec.Rotated D p a) (o : Corrf.Spec.Op K) (u l d r : Nat) (hu : u < D * D) (hl : l < D * D) (hd : d < D * D) (hr : r < D * D) :
    Corrf.Spec.layer a o r u l d = Corrf.Spec.layer a o u l d r := by
  obtain ⟨s, hs, h⟩ := ha
  have z0 : a.size 0 = p := by simp [size, hf.site]
  have z1 : a.size 1 = D := by simp [size, hf.site]
  have z2 : a.size 2 = D := by simp [size, hf.site]
  have z3 : a.size 3 = D := by simp [size, hf.site]
  have z4 : a.size 4 = D := by simp [size, hf.site]
  have dv : ∀ x, x < D * D → x / D < D := fun x hx => Nat.div_lt_of_lt_mul hx
  have md : ∀ x, x < D * D → x % D < D := fun x hx => Nat.mod_lt _ (Nat.pos_of_ne_zero (by rintro rfl; simp at hx))
  simp only [Corrf.Spec.layer, z0, z1, z2, z3, z4]
  refine Finset.sum_congr rfl (fun s' h1 => Finset.sum_congr rfl (fun t h2 => ?_))
  simp only [Finset.mem_range] at h1 h2
  rw [h s' _ _ _ _ h1 (md u hu) (md l hl) (md d hd) (md r hr), h t _ _ _ _ h2 (dv u hu) (dv l hl) (dv d hd) (dv r hr), star_mul]
  calc _ = (star s * s) * (star (a.val [s', u % D, l % D, d % D, r % D]) * o s' t * a.val [t, u / D, l / D, d / D, r / D]) := by ring
    _ = _ := by rw [hs, one_mul]

theorem middle_turn (hf : C4v.Spec.Fits chi D p a env) (ha : C4v.Spec.Rotated D p a) (d : Dir) (c c' : Coord) (o : Corrf.Spec.Op K) (y m n y' : Nat)
    (hy : y < D * D) (hm : m < D * D) (hn : n < D * D) (hy' : y' < D * D) :
    Corrf.Spec.middle (tensors a env) d c o y m n y' =
      if flips d then Corrf.Spec.middle (tensors a env) .right c' o y n m y' else Corrf.Spec.middle (tensors a env) .right c' o y m n y' := by
  have L := layer_turn hf ha o
  cases d
  · simp only [Corrf.Spec.middle, flips, if_false, Bool.false_eq_true]
    show Corrf.Spec.layer a o y' m y n = Corrf.Spec.layer a o m y n y'
    exact L m y n y' hm hy hn hy'
  · simp only [Corrf.Spec.middle, flips, if_true]
    show Corrf.Spec.layer a o m y' n y = Corrf.Spec.layer a o n y m y'
    rw [L y' n y m hy' hn hy hm, L n y m y' hn hy hm hy']
  · simp only [Corrf.Spec.middle, flips, if_true]
    show Corrf.Spec.layer a o y m y' n = Corrf.Spec.layer a o n y m y'
    rw [L y m y' n hy hm hy' hn]
  · simp [Corrf.Spec.middle, flips]; rfl


theorem cut_dims (chi D p : Nat) (d : Dir) (c : Coord) : Corrf.Spec.cut (C4v.Spec.dims chi D p) d c = (chi, D * D, chi) := by cases d <;> rfl
theorem sides_dims (chi D p : Nat) (d : Dir) (c : Coord) : Corrf.Spec.sides (C4v.Spec.dims chi D p) d c = (D * D, D * D) := by cases d <;> rfl

theorem first_turn (d : Dir) (c c' : Coord) (x m x' : Nat) : Corrf.Spec.first (tensors a env) d c x m x' =
    if flips d then Corrf.Spec.second (tensors a env) .right c' x m x' else Corrf.Spec.first (tensors a env) .right c' x m x' := by cases d <;> rfl
theorem second_turn (d : Dir) (c c' : Coord) (x m x' : Nat) : Corrf.Spec.second (tensors a env) d c x m x' =
    if flips d then Corrf.Spec.first (tensors a env) .right c' x m x' else Corrf.Spec.second (tensors a env) .right c' x m x' := by cases d <;> rfl

theorem step_turn (hf : C4v.Spec.Fits chi D p a env) (ha : C4v.Spec.Rotated D p a) (d : Dir) (c c' : Coord) (o : Corrf.Spec.Op K) {f g : Corrf.Spec.Vec K}
    (h : Agree (chi, D * D, chi) g (turnVec (flips d) f)) :
    Agree (chi, D * D, chi) (Corrf.Spec.step (tensors a env) (C4v.Spec.dims chi D p) d c o g) (turnVec (flips d) (Corrf.Spec.step (tensors a env) (C4v.Spec.dims chi D p) .right c' o f)) := by
  intro x' y' z' hx hy hz
  have key : Corrf.Spec.step (tensors a env) (C4v.Spec.dims chi D p) d c o g x' y' z' =
      ∑ x ∈ Finset.range chi, ∑ y ∈ Finset.range (D * D), ∑ z ∈ Finset.range chi, ∑ m ∈ Finset.range (D * D), ∑ n ∈ Finset.range (D * D),
        turnVec (flips d) f x y z * (if flips d then Corrf.Spec.second (tensors a env) .right c' x m x' else Corrf.Spec.first (tensors a env) .right c' x m x') *
        (if flips d then Corrf.Spec.middle (tensors a env) .right c' o y n m y' else Corrf.Spec.middle (tensors a env) .right c' o y m n y') *
        (if flips d then Corrf.Spec.first (tensors a env) .right c' z n z' else Corrf.Spec.second (tensors a env) .right c' z n z') := by
    simp only [Corrf.Spec.step, cut_dims, sides_dims]
    refine Finset.sum_congr rfl (fun x h1 => Finset.sum_congr rfl (fun y h2 => Finset.sum_congr rfl (fun z h3 =>
      Finset.sum_congr rfl (fun m h4 => Finset.sum_congr rfl (fun n h5 => ?_)))))
    simp only [Finset.mem_range] at h1 h2 h3 h4 h5
    rw [h x y z h1 h2 h3, first_turn d c c', second_turn d c c', middle_turn hf ha d c c' o y m n y' h2 h4 h5 hy]
  rw [key]
  cases hb : flips d
  · simp only [turnVec, if_false, Bool.false_eq_true]
    rfl
  · simp only [turnVec, if_true, Corrf.Spec.step, cut_dims, sides_dims]
    rw [sum3_swap]
    refine Finset.sum_congr rfl (fun x _ => Finset.sum_congr rfl (fun y _ => Finset.sum_congr rfl (fun z _ => ?_)))
    rw [Finset.sum_comm]
    refine Finset.sum_congr rfl (fun m _ => Finset.sum_congr rfl (fun n _ => ?_))
    ring

theorem edge_turn (d : Dir) (c c' : Coord) (x y z : Nat) : Corrf.Spec.edge (tensors a env) (C4v.Spec.dims chi D p) d c x y z =
    turnVec (flips d) (Corrf.Spec.edge (tensors a env) (C4v.Spec.dims chi D p) .right c') x y z := by
  cases d
  · rfl
  · simp only [turnVec, flips, if_true, Corrf.Spec.edge]
    rw [Finset.sum_comm]
    refine Finset.sum_congr rfl (fun q _ => Finset.sum_congr rfl (fun r _ => ?_))
    simp only [tensors, C4v.Spec.turn2, List.getD_cons_zero, List.getD_cons_succ]; ring
  · simp only [turnVec, flips, if_true, Corrf.Spec.edge]
    rw [Finset.sum_comm]
    refine Finset.sum_congr rfl (fun q _ => Finset.sum_congr rfl (fun r _ => ?_))
    simp only [tensors, C4v.Spec.turn2, List.getD_cons_zero, List.getD_cons_succ]; ring
  · rfl

theorem turn_turn (b : Bool) (f : Corrf.Spec.Vec K) : turnVec b (turnVec b f) = f := by funext x y z; cases b <;> rfl

theorem start_turn (d : Dir) (c c' : Coord) : Corrf.Spec.edge (tensors a env) (C4v.Spec.dims chi D p) (Corrf.rev d) c =
    turnVec (flips d) (Corrf.Spec.edge (tensors a env) (C4v.Spec.dims chi D p) (Corrf.rev .right) c') := by
  funext x y z
  rw [edge_turn (Corrf.rev d) c c']
  have : Corrf.Spec.edge (tensors a env) (C4v.Spec.dims chi D p) (Corrf.rev .right) c' = turnVec true (Corrf.Spec.edge (tensors a env) (C4v.Spec.dims chi D p) .right c') := by
    funext x y z; exact edge_turn .left c' c' x y z
  rw [this]
  cases d <;> rfl

theorem grow_turn (hf : C4v.Spec.Fits chi D p a env) (ha : C4v.Spec.Rotated D p a) (d : Dir) (os : List (Corrf.Spec.Op K)) : ∀ (c c' : Coord) {f g : Corrf.Spec.Vec K},
    Agree (chi, D * D, chi) g (turnVec (flips d) f) →
    Agree (chi, D * D, chi) (Corrf.Spec.grow (tensors a env) (C4v.Spec.dims chi D p) d c os g) (turnVec (flips d) (Corrf.Spec.grow (tensors a env) (C4v.Spec.dims chi D p) .right c' os f)) := by
  induction os with
  | nil => intro c c' f g h; exact h
  | cons o os ih => intro c c' f g h; exact ih _ _ (step_turn hf ha d c c' o h)

theorem dot_turn (d : Dir) (s : Nat × Nat × Nat) (hs : s = (chi, D * D, chi)) (c c' : Coord) {f g : Corrf.Spec.Vec K} (h : Agree (chi, D * D, chi) g (turnVec (flips d) f)) :
    Corrf.Spec.dot s g (Corrf.Spec.edge (tensors a env) (C4v.Spec.dims chi D p) d c) =
    Corrf.Spec.dot (chi, D * D, chi) f (Corrf.Spec.edge (tensors a env) (C4v.Spec.dims chi D p) .right c') := by
  subst hs
  have : Corrf.Spec.dot (chi, D * D, chi) g (Corrf.Spec.edge (tensors a env) (C4v.Spec.dims chi D p) d c) =
      Corrf.Spec.dot (chi, D * D, chi) (turnVec (flips d) f) (turnVec (flips d) (Corrf.Spec.edge (tensors a env) (C4v.Spec.dims chi D p) .right c')) := by
    refine Finset.sum_congr rfl (fun x h1 => Finset.sum_congr rfl (fun y h2 => Finset.sum_congr rfl (fun z h3 => ?_)))
    simp only [Finset.mem_range] at h1 h2 h3
    rw [h x y z h1 h2 h3, edge_turn d c c']
  rw [this]
  cases flips d
  · rfl
  · simp only [turnVec, if_true, Corrf.Spec.dot]
    rw [sum3_swap]

/-- The strip with the operators `os` has the same value in all four directions. -/
theorem network_turn (hf : C4v.Spec.Fits chi D p a env) (ha : C4v.Spec.Rotated D p a) (d : Dir) (c c' : Coord) (os : List (Corrf.Spec.Op K)) :
    Corrf.Spec.network (tensors a env) (C4v.Spec.dims chi D p) d c os = Corrf.Spec.network (tensors a env) (C4v.Spec.dims chi D p) .right c' os := by
  simp only [Corrf.Spec.network]
  rw [dot_turn d _ (cut_dims chi D p d _) _ (Corrf.Spec.ahead .right c' (os.length - 1))
    (grow_turn hf ha d os c c' (g := Corrf.Spec.edge (tensors a env) (C4v.Spec.dims chi D p) (Corrf.rev d) c) (f := Corrf.Spec.edge (tensors a env) (C4v.Spec.dims chi D p) (Corrf.rev .right) c')
      (fun x y z _ _ _ => by rw [start_turn d c c'])), cut_dims]

theorem step2_turn (hf : C4v.Spec.Fits chi D p a env) (ha : C4v.Spec.Rotated D p a) (d : Dir) (c c' : Coord) (o : Corrf.Spec.Op2 K) {f g : Corrf.Spec.Vec K}
    (h : Agree (chi, D * D, chi) g (turnVec (flips d) f)) :
    Agree (chi, D * D, chi) (Corrf.Spec.step2 (tensors a env) (C4v.Spec.dims chi D p) d c o g) (turnVec (flips d) (Corrf.Spec.step2 (tensors a env) (C4v.Spec.dims chi D p) .right c' o f)) := by
  intro x y z hx hy hz
  have key := fun s1' s1 s2' s2 => step_turn hf ha d (Corrf.Spec.ahead d c 1) (Corrf.Spec.ahead .right c' 1) (Corrf.Spec.unit s2' s2) (step_turn hf ha d c c' (Corrf.Spec.unit s1' s1) h) x y z hx hy hz
  simp only [Corrf.Spec.step2, key]
  cases flips d <;> rfl

theorem pair_turn (hf : C4v.Spec.Fits chi D p a env) (ha : C4v.Spec.Rotated D p a) (d : Dir) (c c' : Coord) (o1 o2 : Corrf.Spec.Op2 K) (r : Nat) :
    Corrf.Spec.pairTwoPoint (tensors a env) (C4v.Spec.dims chi D p) d c o1 o2 r = Corrf.Spec.pairTwoPoint (tensors a env) (C4v.Spec.dims chi D p) .right c' o1 o2 r := by
  simp only [Corrf.Spec.pairTwoPoint]
  rw [dot_turn d _ (cut_dims chi D p d _) _ (Corrf.Spec.ahead .right c' (r + 3)) (step2_turn hf ha d _ (Corrf.Spec.ahead .right c' (r + 2)) o2
    (grow_turn hf ha d (List.replicate r Corrf.Spec.one) _ (Corrf.Spec.ahead .right c' 2) (step2_turn hf ha d c c' o1
      (g := Corrf.Spec.edge (tensors a env) (C4v.Spec.dims chi D p) (Corrf.rev d) c) (f := Corrf.Spec.edge (tensors a env) (C4v.Spec.dims chi D p) (Corrf.rev .right) c')
      (fun x y z _ _ _ => by rw [start_turn d c c'])))), cut_dims]


/-! ### Values -/

/-- The values returned by `corrf_1sO1sO`, for every direction `d` of the square lattice: the operators are inserted transposed. -/
theorem C75_transposed (hchi : 0 < chi) (hD : 0 < D) (hp : 0 < p) (hf : C4v.Spec.Fits chi D p a env) (hC : C4v.Spec.CSymm chi env) (ha : C4v.Spec.Rotated D p a)
    (d : Dir) (c : Coord) (op1 : Tensor K) (op2 : Nat → Tensor K) (dist : Nat) (h1 : op1.shape = [p, p]) (h2 : ∀ r ≤ dist, (op2 r).shape = [p, p])
    (hn : ∀ r ≤ dist, Corrf.Spec.norm (tensors a env) (C4v.Spec.dims chi D p) d c (r + 2) ≠ 0) :
    ∃ l, corrf11 a env op1 op2 dist = .ok l ∧ l.length = dist + 1 ∧ ∀ r ≤ dist, l[r]? = some
      (Corrf.Spec.twoPoint (tensors a env) (C4v.Spec.dims chi D p) d c (Corrf.Spec.transposed op1) (Corrf.Spec.transposed (op2 r)) r /
        Corrf.Spec.norm (tensors a env) (C4v.Spec.dims chi D p) d c (r + 2)) := by
  obtain ⟨l, e, hl, hv⟩ := Corrf.C38_values_partial (tiling a) (fitsState hD hp hf) (fitsEnv hchi hf) (reads a env) .right c op1 op2 dist h1 h2
    (fun r hr => by have := hn r hr; rwa [Corrf.Spec.norm, network_turn hf ha d c c] at this)
  refine ⟨l, (C75_one_site hchi hD hp hf hC c op1 op2 dist h1 h2).trans e, hl, fun r hr => ?_⟩
  rw [hv r hr]
  simp only [Corrf.Spec.twoPoint, Corrf.Spec.norm]
  rw [network_turn hf ha d c c, network_turn hf ha d c c]

theorem C75_not_finite (hchi : 0 < chi) (hD : 0 < D) (hp : 0 < p) (hf : C4v.Spec.Fits chi D p a env) (hC : C4v.Spec.CSymm chi env) (ha : C4v.Spec.Rotated D p a)
    (d : Dir) (c : Coord) (op1 : Tensor K) (op2 : Nat → Tensor K) (dist : Nat) (h1 : op1.shape = [p, p]) (h2 : ∀ r ≤ dist, (op2 r).shape = [p, p])
    (hn : ∃ r ≤ dist, Corrf.Spec.norm (tensors a env) (C4v.Spec.dims chi D p) d c (r + 2) = 0) : corrf11 a env op1 op2 dist = .error .nan := by
  rw [C75_one_site hchi hD hp hf hC c op1 op2 dist h1 h2]
  refine Corrf.C38_not_finite (tiling a) (fitsState hD hp hf) (fitsEnv hchi hf) (reads a env) .right c op1 op2 dist h1 h2 ?_
  obtain ⟨r, hr, h⟩ := hn
  exact ⟨r, hr, by rwa [Corrf.Spec.norm, network_turn hf ha d c c] at h⟩

/-- For a rotation-symmetric site the C4v function returns what the general one returns on the unfolded environment from any site in any direction. -/
theorem C75_isotropic (hchi : 0 < chi) (hD : 0 < D) (hp : 0 < p) (hf : C4v.Spec.Fits chi D p a env) (hC : C4v.Spec.CSymm chi env) (ha : C4v.Spec.Rotated D p a)
    (d : Dir) (c : Coord) (op1 : Tensor K) (op2 : Nat → Tensor K) (dist : Nat) (h1 : op1.shape = [p, p]) (h2 : ∀ r ≤ dist, (op2 r).shape = [p, p]) :
    corrf11 a env op1 op2 dist = Corrf.corrf11 (C4v.Spec.cell a) (C4v.Spec.unfold env) d c op1 op2 dist := by
  by_cases hn : ∀ r ≤ dist, Corrf.Spec.norm (tensors a env) (C4v.Spec.dims chi D p) d c (r + 2) ≠ 0
  · obtain ⟨l, e, hl, hv⟩ := C75_transposed hchi hD hp hf hC ha d c op1 op2 dist h1 h2 hn
    obtain ⟨l', e', hl', hv'⟩ := Corrf.C38_values_partial (tiling a) (fitsState hD hp hf) (fitsEnv hchi hf) (reads a env) d c op1 op2 dist h1 h2 hn
    rw [e, e']
    refine congrArg _ (List.ext_getElem? (fun r => ?_))
    by_cases hr : r ≤ dist
    · rw [hv r hr, hv' r hr]
    · rw [List.getElem?_eq_none (by omega), List.getElem?_eq_none (by omega)]
  · push Not at hn
    rw [C75_not_finite hchi hD hp hf hC ha d c op1 op2 dist h1 h2 hn,
      Corrf.C38_not_finite (tiling a) (fitsState hD hp hf) (fitsEnv hchi hf) (reads a env) d c op1 op2 dist h1 h2 hn]

theorem layer_congr (hf : C4v.Spec.Fits chi D p a env) {o o' : Corrf.Spec.Op K} (h : ∀ i < p, ∀ j < p, o i j = o' i j) (u l d r : Nat) :
    Corrf.Spec.layer a o u l d r = Corrf.Spec.layer a o' u l d r := by
  have z0 : a.size 0 = p := by simp [size, hf.site]
  refine Finset.sum_congr rfl (fun s' h1 => Finset.sum_congr rfl (fun t h2 => ?_))
  simp only [Finset.mem_range, z0] at h1 h2
  rw [h s' h1 t h2]

theorem step_congr (hf : C4v.Spec.Fits chi D p a env) {o o' : Corrf.Spec.Op K} (h : ∀ i < p, ∀ j < p, o i j = o' i j) (d : Dir) (c : Coord) (f : Corrf.Spec.Vec K) :
    Corrf.Spec.step (tensors a env) (C4v.Spec.dims chi D p) d c o f = Corrf.Spec.step (tensors a env) (C4v.Spec.dims chi D p) d c o' f := by
  have : Corrf.Spec.middle (tensors a env) d c o = Corrf.Spec.middle (tensors a env) d c o' := by
    funext y m n y'
    cases d <;> exact layer_congr hf h _ _ _ _
  funext x y z
  simp only [Corrf.Spec.step, this]

theorem grow_congr (hf : C4v.Spec.Fits chi D p a env) (d : Dir) {os os' : List (Corrf.Spec.Op K)} (h : List.Forall₂ (fun o o' => ∀ i < p, ∀ j < p, o i j = o' i j) os os') :
    ∀ (c : Coord) (f : Corrf.Spec.Vec K), Corrf.Spec.grow (tensors a env) (C4v.Spec.dims chi D p) d c os f = Corrf.Spec.grow (tensors a env) (C4v.Spec.dims chi D p) d c os' f := by
  induction h with
  | nil => intro c f; rfl
  | cons h1 _ ih => intro c f; simp only [Corrf.Spec.grow]; rw [step_congr hf h1, ih]

theorem network_congr (hf : C4v.Spec.Fits chi D p a env) (d : Dir) {os os' : List (Corrf.Spec.Op K)} (h : List.Forall₂ (fun o o' => ∀ i < p, ∀ j < p, o i j = o' i j) os os') (c : Coord) :
    Corrf.Spec.network (tensors a env) (C4v.Spec.dims chi D p) d c os = Corrf.Spec.network (tensors a env) (C4v.Spec.dims chi D p) d c os' := by
  rw [Corrf.Spec.network, Corrf.Spec.network, grow_congr hf d h, h.length_eq]

theorem twoPoint_congr (hf : C4v.Spec.Fits chi D p a env) (d : Dir) {o1 o1' o2 o2' : Corrf.Spec.Op K} (h1 : ∀ i < p, ∀ j < p, o1 i j = o1' i j) (h2 : ∀ i < p, ∀ j < p, o2 i j = o2' i j) (c : Coord) (r : Nat) :
    Corrf.Spec.twoPoint (tensors a env) (C4v.Spec.dims chi D p) d c o1 o2 r = Corrf.Spec.twoPoint (tensors a env) (C4v.Spec.dims chi D p) d c o1' o2' r := by
  refine network_congr hf d (List.Forall₂.cons h1 (List.rel_append ?_ (List.Forall₂.cons h2 List.Forall₂.nil))) c
  exact List.forall₂_same.2 (fun o _ i _ j _ => rfl)

/-- Full statement: for all operators `<op1 op2(r)>` at distance `r+1`, in every direction, `dist` values. Proved: for symmetric operators. Missing: other operators are
inserted transposed (`C75_transposed`); the list has `dist + 1` entries. -/
theorem C75_values_partial (hchi : 0 < chi) (hD : 0 < D) (hp : 0 < p) (hf : C4v.Spec.Fits chi D p a env) (hC : C4v.Spec.CSymm chi env) (ha : C4v.Spec.Rotated D p a)
    (d : Dir) (c : Coord) (op1 : Tensor K) (op2 : Nat → Tensor K) (dist : Nat) (h1 : op1.shape = [p, p]) (h2 : ∀ r ≤ dist, (op2 r).shape = [p, p])
    (s1 : ∀ i < p, ∀ j < p, op1.val [i, j] = op1.val [j, i]) (s2 : ∀ r ≤ dist, ∀ i < p, ∀ j < p, (op2 r).val [i, j] = (op2 r).val [j, i])
    (hn : ∀ r ≤ dist, Corrf.Spec.norm (tensors a env) (C4v.Spec.dims chi D p) d c (r + 2) ≠ 0) :
    ∃ l, corrf11 a env op1 op2 dist = .ok l ∧ l.length = dist + 1 ∧ ∀ r ≤ dist, l[r]? = some
      (Corrf.Spec.twoPoint (tensors a env) (C4v.Spec.dims chi D p) d c (Corrf.Spec.ofTensor op1) (Corrf.Spec.ofTensor (op2 r)) r /
        Corrf.Spec.norm (tensors a env) (C4v.Spec.dims chi D p) d c (r + 2)) := by
  obtain ⟨l, e, hl, hv⟩ := C75_transposed hchi hD hp hf hC ha d c op1 op2 dist h1 h2 hn
  refine ⟨l, e, hl, fun r hr => ?_⟩
  rw [hv r hr, twoPoint_congr (o1 := Corrf.Spec.transposed op1) (o1' := Corrf.Spec.ofTensor op1) (o2 := Corrf.Spec.transposed (op2 r)) (o2' := Corrf.Spec.ofTensor (op2 r)) hf d
    (fun i hi j hj => (s1 i hi j hj).symm) (fun i hi j hj => (s2 r hr i hi j hj).symm)]

/-- The backend's `V` for the matrix of `op` is real, as it is for real tensors. -/
def RealV (svd : Tensor K → Nat → Svd K) (p : Nat) (op : Tensor K) : Prop :=
  ∀ M, M.shape = [p ^ 2, p ^ 2] → (∀ i < p ^ 2, ∀ j < p ^ 2, M.val [i, j] = (Corrf.Spec.acrossMatrix p op).val [i, j]) →
    ∀ i < p ^ 2, ∀ q < p ^ 2, star ((svd M (p ^ 2)).V.val [i, q]) = (svd M (p ^ 2)).V.val [i, q]

theorem factorises_conj {svd : Tensor K → Nat → Svd K} {op : Tensor K} (h : Corrf.Spec.Factorises svd p op) (hr : RealV svd p op) :
    Corrf.Spec.Factorises (conjV svd) p op := by
  intro M sM vM
  refine ⟨(h M sM vM).U, (h M sM vM).S, (h M sM vM).V, fun i hi j hj => ?_⟩
  rw [(h M sM vM).prod i hi j hj]
  refine Finset.sum_congr rfl (fun q hq => ?_)
  simp only [conjV, Tensor.conj, hr M sM vM j hj q (Finset.mem_range.1 hq)]

theorem flattened_weigh {svd : Tensor K → Nat → Svd K} {op : Tensor K} (h : Corrf.Spec.Factorises svd p op) (hr : RealV svd p op) :
    Corrf.Spec.Flattened (weighV svd) p op (Corrf.Spec.transposed2 op) := by
  intro M sM vM s1' h1' s1 h1 s2' h2' s2 h2
  have b : ∀ {i j : Nat}, i < p → j < p → i * p + j < p ^ 2 := fun {i j} hi hj => by
    have : (i + 1) * p ≤ p * p := Nat.mul_le_mul_right p hi
    rw [sq]; nlinarith
  have dv : ∀ {i j : Nat}, j < p → (i * p + j) / p = i := fun {i j} hj => by
    rw [Nat.mul_comm, Nat.mul_add_div (by omega), Nat.div_eq_of_lt hj, Nat.add_zero]
  have md : ∀ {i j : Nat}, j < p → (i * p + j) % p = j := fun {i j} hj => by
    rw [Nat.mul_comm, Nat.mul_add_mod, Nat.mod_eq_of_lt hj]
  have e := (h M sM vM).prod _ (b h1 h1') _ (b h2 h2')
  rw [vM _ (b h1 h1') _ (b h2 h2')] at e
  simp only [Corrf.Spec.acrossMatrix, List.getD_cons_zero, List.getD_cons_succ, dv h1', dv h2', md h1', md h2'] at e
  rw [Corrf.Spec.transposed2, e]
  refine Finset.sum_congr rfl (fun q hq => ?_)
  simp only [weighV, List.getD_cons_zero, List.getD_cons_succ, star_mul, star_star, hr M sM vM _ (b h2 h2') q (Finset.mem_range.1 hq)]
  simp only [RCLike.star_def, RCLike.conj_ofReal]
  ring

/-- Full statement: for all two-site operators, `<op1 op2(r)>` in a row in every direction. Proved: for a real decomposition (all real operators), with the operators
transposed. Missing: complex operators, for which the factor `V` is not conjugated (`C76_row_violated`). -/
theorem C76_row_partial (hchi : 0 < chi) (hD : 0 < D) (hp : 0 < p) (hf : C4v.Spec.Fits chi D p a env) (hC : C4v.Spec.CSymm chi env) (ha : C4v.Spec.Rotated D p a)
    (svd : Tensor K → Nat → Svd K) (d : Dir) (c : Coord) (op1 : Tensor K) (op2 : Nat → Tensor K) (dist : Nat)
    (h1 : op1.shape = [p, p, p, p] ∧ Corrf.Spec.Factorises svd p op1 ∧ RealV svd p op1)
    (h2 : ∀ r ≤ dist, (op2 r).shape = [p, p, p, p] ∧ Corrf.Spec.Factorises svd p (op2 r) ∧ RealV svd p (op2 r))
    (hn : ∀ r ≤ dist, Corrf.Spec.norm (tensors a env) (C4v.Spec.dims chi D p) d c (r + 4) ≠ 0) :
    ∃ l, corrfH svd a env op1 op2 dist = .ok l ∧ l.length = dist + 1 ∧ ∀ r ≤ dist, l[r]? = some
      (Corrf.Spec.pairTwoPoint (tensors a env) (C4v.Spec.dims chi D p) d c (Corrf.Spec.transposed2 op1) (Corrf.Spec.transposed2 (op2 r)) r /
        Corrf.Spec.norm (tensors a env) (C4v.Spec.dims chi D p) d c (r + 4)) := by
  obtain ⟨l, e, hl, hv⟩ := Corrf.C69_row_partial (tiling a) (fitsState hD hp hf) (fitsEnv hchi hf) (reads a env) (conjV svd) .right c p (fun _ => rfl) op1 op2 dist
    ⟨h1.1, factorises_conj h1.2.1 h1.2.2⟩ (fun r hr => ⟨(h2 r hr).1, factorises_conj (h2 r hr).2.1 (h2 r hr).2.2⟩)
    (fun r hr => by have := hn r hr; rwa [Corrf.Spec.norm, network_turn hf ha d c c] at this)
  refine ⟨l, (C76_row_conj hchi hD hp hf svd hC c op1 op2 dist ⟨h1.1, h1.2.1.shaped⟩ (fun r hr => ⟨(h2 r hr).1, (h2 r hr).2.1.shaped⟩)).trans e, hl, fun r hr => ?_⟩
  rw [hv r hr, pair_turn hf ha d c c]
  simp only [Corrf.Spec.norm]
  rw [network_turn hf ha d c c]

/-- Full statement: for all two-site operators across two rows. Proved: for a real decomposition and a symmetric half-row, with the operators transposed (here, unlike in
the general function, the singular values are kept). Missing: complex operators; a Hermitian half-row (`C76_rows_violated`). -/
theorem C76_rows_partial (hchi : 0 < chi) (hD : 0 < D) (hp : 0 < p) (hf : C4v.Spec.Fits chi D p a env) (hC : C4v.Spec.CSymm chi env) (hT : C4v.Spec.TSymm chi D env)
    (svd : Tensor K → Nat → Svd K) (c : Coord) (op1 : Tensor K) (op2 : Nat → Tensor K) (dist : Nat)
    (h1 : op1.shape = [p, p, p, p] ∧ Corrf.Spec.Factorises svd p op1 ∧ RealV svd p op1)
    (h2 : ∀ r ≤ dist, (op2 r).shape = [p, p, p, p] ∧ Corrf.Spec.Factorises svd p (op2 r) ∧ RealV svd p (op2 r))
    (hn : ∀ r ≤ dist, Corrf.Spec.wideNorms (tensors a env) (C4v.Spec.dims chi D p) .right c (r + 2) ≠ 0) :
    ∃ l, corrfV svd a env op1 op2 dist = .ok l ∧ l.length = dist + 1 ∧ ∀ r ≤ dist, l[r]? = some
      (Corrf.Spec.wideTwoPoint (tensors a env) (C4v.Spec.dims chi D p) .right c (Corrf.Spec.transposed2 op1) (Corrf.Spec.transposed2 (op2 r)) r /
        Corrf.Spec.wideNorms (tensors a env) (C4v.Spec.dims chi D p) .right c (r + 2)) := by
  obtain ⟨l, e, hl, hv⟩ := Corrf.C69_rows_partial (tiling a) (fitsState hD hp hf) (fitsEnv hchi hf) (reads a env) (weighV svd) .right (Or.inl rfl) c p (fun _ => rfl) op1 op2
    (Corrf.Spec.transposed2 op1) (fun r => Corrf.Spec.transposed2 (op2 r)) dist
    ⟨h1.1, shaped_weigh h1.2.1.shaped, flattened_weigh h1.2.1 h1.2.2⟩
    (fun r hr => ⟨(h2 r hr).1, shaped_weigh (h2 r hr).2.1.shaped, flattened_weigh (h2 r hr).2.1 (h2 r hr).2.2⟩) hn
  exact ⟨l, (C76_rows_conj hchi hD hp hf svd hC hT c op1 op2 dist ⟨h1.1, h1.2.1.shaped⟩ (fun r hr => ⟨(h2 r hr).1, (h2 r hr).2.1.shaped⟩)).trans e, hl, hv⟩

end

/-! ### Examples -/

def oneEnv : C4v.Env K := ⟨1, ⟨[1, 1], fun _ => 1⟩, ⟨[1, 1, 1], fun _ => 1⟩⟩
theorem oneEnv_fits (v : Nat → K) : C4v.Spec.Fits 1 1 2 (Corrf.pSite v) oneEnv := ⟨rfl, rfl, rfl, rfl⟩
theorem oneEnv_c : C4v.Spec.CSymm 1 (oneEnv : C4v.Env K) := fun _ _ _ _ => rfl
theorem oneEnv_t : C4v.Spec.TSymm 1 1 (oneEnv : C4v.Env K) := fun _ _ _ _ _ _ => rfl
theorem oneEnv_rotated (v : Nat → K) : C4v.Spec.Rotated 1 2 (Corrf.pSite v) := ⟨1, by simp, fun i u l d r _ _ _ _ _ => by simp [Corrf.pSite]⟩
theorem oneEnv_tensors (v : Nat → K) : tensors (Corrf.pSite v) oneEnv = Corrf.pTensors v := rfl

example (c : Coord) (op2 : Nat → Tensor ℂ) (dist : Nat) (h2 : ∀ r ≤ dist, (op2 r).shape = [2, 2]) :=
  C75_one_site two_pos two_pos two_pos rotSymm_fits rotSymm_c c ⟨[2, 2], fun idx => if idx = [0, 1] then Complex.I else 1⟩ op2 dist rfl h2

example (d : Dir) (c : Coord) (op2 : Nat → Tensor ℂ) (dist : Nat) (h2 : ∀ r ≤ dist, (op2 r).shape = [2, 2]) :=
  C75_isotropic two_pos two_pos two_pos rotSymm_fitsB rotSymm_c rotSiteB_rotated d c ⟨[2, 2], fun idx => if idx = [0, 1] then Complex.I else 1⟩ op2 dist rfl h2

example (d : Dir) (c : Coord) (dist : Nat) :=
  C75_values_partial one_pos one_pos two_pos (oneEnv_fits (fun s => if s = 0 then (1 : ℂ) else Complex.I)) oneEnv_c (oneEnv_rotated _) d c
    ⟨[2, 2], fun idx => if idx.getD 0 0 = idx.getD 1 0 then Complex.I else 3⟩ (fun r => ⟨[2, 2], fun idx => if idx.getD 0 0 = idx.getD 1 0 then (r : ℂ) else 2⟩) dist rfl (fun _ _ => rfl)
    (fun i _ j _ => by simp [eq_comm]) (fun r _ i _ j _ => by simp [eq_comm])
    (fun r _ => by
      rw [oneEnv_tensors, show C4v.Spec.dims 1 1 2 = Corrf.pDims from rfl, Corrf.pNorm]
      refine pow_ne_zero _ ?_
      simp [Corrf.pExpect, Finset.sum_range_succ, Corrf.Spec.one])

example (c : Coord) (dist : Nat) :=
  C76_row_conj two_pos two_pos two_pos rotSymm_fits (Corrf.flatSvd 3) rotSymm_c c (Corrf.swapT 5) (fun r => Corrf.swapT r) dist
    ⟨rfl, Corrf.Spec.Factorises.shaped (fun M _ _ => Corrf.flat_factors (by norm_num) M _)⟩
    (fun _ _ => ⟨rfl, Corrf.Spec.Factorises.shaped (fun M _ _ => Corrf.flat_factors (by norm_num) M _)⟩)

example (c : Coord) (dist : Nat) :=
  C76_rows_conj two_pos two_pos two_pos rotSymm_fits (Corrf.flatSvd 3) rotSymm_c rotSymm_t c (Corrf.swapT 5) (fun r => Corrf.swapT r) dist
    ⟨rfl, Corrf.Spec.Factorises.shaped (fun M _ _ => Corrf.flat_factors (by norm_num) M _)⟩
    (fun _ _ => ⟨rfl, Corrf.Spec.Factorises.shaped (fun M _ _ => Corrf.flat_factors (by norm_num) M _)⟩)

example (d : Dir) (c : Coord) (dist : Nat) :=
  C76_row_partial one_pos one_pos two_pos (oneEnv_fits (fun s => if s = 0 then (1 : ℝ) else 2)) oneEnv_c (oneEnv_rotated _) (Corrf.flatSvd 3) d c (Corrf.swapT 5) (fun r => Corrf.swapT r) dist
    ⟨rfl, fun M _ _ => Corrf.flat_factors (by norm_num) M _, fun _ _ _ _ _ _ _ => star_trivial _⟩
    (fun _ _ => ⟨rfl, fun M _ _ => Corrf.flat_factors (by norm_num) M _, fun _ _ _ _ _ _ _ => star_trivial _⟩)
    (fun r _ => by
      rw [oneEnv_tensors, show C4v.Spec.dims 1 1 2 = Corrf.pDims from rfl, Corrf.pNorm]
      refine pow_ne_zero _ ?_
      simp [Corrf.pExpect, Finset.sum_range_succ, Corrf.Spec.one]; norm_num)

example (c : Coord) (dist : Nat) :=
  C76_rows_partial one_pos one_pos two_pos (oneEnv_fits (fun s => if s = 0 then (1 : ℝ) else 2)) oneEnv_c oneEnv_t (Corrf.flatSvd 3) c (Corrf.swapT 5) (fun r => Corrf.swapT r) dist
    ⟨rfl, fun M _ _ => Corrf.flat_factors (by norm_num) M _, fun _ _ _ _ _ _ _ => star_trivial _⟩
    (fun _ _ => ⟨rfl, fun M _ _ => Corrf.flat_factors (by norm_num) M _, fun _ _ _ _ _ _ _ => star_trivial _⟩)
    (fun r _ => by
      rw [oneEnv_tensors, show C4v.Spec.dims 1 1 2 = Corrf.pDims from rfl, Corrf.pWideNorms]
      refine pow_ne_zero _ ?_
      simp [Corrf.pExpect, Finset.sum_range_succ, Corrf.Spec.one]; norm_num)

/-! ### Complex operators -/

/-- A singular value decomposition of a matrix of rank one, with `V` used without conjugation. -/
theorem rank_one {m : Nat} {M : Tensor K} {r : Svd K} (h : Corrf.Spec.IsSvd m M r) (x y : Nat → K) (hM : ∀ i < m, ∀ j < m, M.val [i, j] = x i * y j)
    (hy : ∃ j < m, y j ≠ 0) (α β : Nat → K) :
    ‖∑ q ∈ Finset.range m, (∑ i ∈ Finset.range m, α i * r.U.val [i, q]) * (((r.S.getD q 0 : ℝ) : K) * ∑ j ∈ Finset.range m, β j * r.V.val [j, q])‖ =
      ‖∑ i ∈ Finset.range m, α i * x i‖ * ‖∑ j ∈ Finset.range m, star (β j) * y j‖ := by
  obtain ⟨b, hb⟩ : ∃ b : Nat → K, ∀ q, b q = ∑ i ∈ Finset.range m, star (r.U.val [i, q]) * x i := ⟨_, fun _ => rfl⟩
  have f1 : ∀ q < m, ∀ j < m, ((r.S.getD q 0 : ℝ) : K) * star (r.V.val [j, q]) = b q * y j := by
    intro q hq j hj
    have e : ∑ i ∈ Finset.range m, star (r.U.val [i, q]) * M.val [i, j] = b q * y j := by
      rw [hb, Finset.sum_mul]
      exact Finset.sum_congr rfl (fun i hi => by rw [hM i (Finset.mem_range.1 hi) j hj]; ring)
    rw [← e, Finset.sum_congr rfl (fun i hi => by rw [h.prod i (Finset.mem_range.1 hi) j hj, Finset.mul_sum]), Finset.sum_comm]
    have : ∀ q' ∈ Finset.range m, ∑ i ∈ Finset.range m, star (r.U.val [i, q]) * (r.U.val [i, q'] * ((r.S.getD q' 0 : ℝ) : K) * star (r.V.val [j, q'])) =
        (if q = q' then 1 else 0) * (((r.S.getD q' 0 : ℝ) : K) * star (r.V.val [j, q'])) := by
      intro q' hq'
      rw [← h.orthoU q hq q' (Finset.mem_range.1 hq'), Finset.sum_mul]
      exact Finset.sum_congr rfl (fun i _ => by ring)
    rw [Finset.sum_congr rfl this]
    simp [hq]
  have f2 : ∀ i < m, x i = ∑ q ∈ Finset.range m, r.U.val [i, q] * b q := by
    intro i hi
    obtain ⟨j, hj, hj0⟩ := hy
    refine mul_right_cancel₀ hj0 ?_
    rw [← hM i hi j hj, h.prod i hi j hj, Finset.sum_mul]
    exact Finset.sum_congr rfl (fun q hq => by rw [mul_assoc, f1 q (Finset.mem_range.1 hq) j hj]; ring)
  have hpos : (∑ j ∈ Finset.range m, star (y j) * y j) ≠ 0 := by
    obtain ⟨j, hj, hj0⟩ := hy
    have : ∑ j ∈ Finset.range m, star (y j) * y j = ((∑ j ∈ Finset.range m, ‖y j‖ ^ 2 : ℝ) : K) := by
      push_cast
      exact Finset.sum_congr rfl (fun j _ => by rw [RCLike.star_def, RCLike.conj_mul])
    rw [this]
    refine RCLike.ofReal_ne_zero.2 (ne_of_gt (Finset.sum_pos' (fun _ _ => by positivity) ⟨j, Finset.mem_range.2 hj, ?_⟩))
    have := norm_pos_iff.2 hj0
    positivity
  have f3 : ∀ q < m, ∀ q' < m, q ≠ q' → b q = 0 ∨ b q' = 0 := by
    intro q hq q' hq' hne
    have e := h.orthoV q hq q' hq'
    rw [if_neg hne] at e
    have : b q * star (b q') * (∑ j ∈ Finset.range m, star (y j) * y j) = 0 := by
      calc _ = ∑ j ∈ Finset.range m, (((r.S.getD q 0 : ℝ) : K) * star (r.V.val [j, q])) * star (((r.S.getD q' 0 : ℝ) : K) * star (r.V.val [j, q'])) := by
            rw [Finset.mul_sum]
            refine Finset.sum_congr rfl (fun j hj => ?_)
            rw [f1 q hq j (Finset.mem_range.1 hj), f1 q' hq' j (Finset.mem_range.1 hj), star_mul]; ring
        _ = ((r.S.getD q 0 : ℝ) : K) * ((r.S.getD q' 0 : ℝ) : K) * ∑ j ∈ Finset.range m, star (r.V.val [j, q]) * r.V.val [j, q'] := by
            rw [Finset.mul_sum]
            refine Finset.sum_congr rfl (fun j _ => ?_)
            rw [star_mul, star_star, RCLike.star_def, RCLike.conj_ofReal]; ring
        _ = 0 := by rw [e, mul_zero]
    rcases mul_eq_zero.1 this with h' | h'
    · rcases mul_eq_zero.1 h' with h'' | h''
      · exact Or.inl h''
      · exact Or.inr (star_eq_zero.1 h'')
    · exact absurd h' hpos
  obtain ⟨q0, hq0, f4⟩ : ∃ q0 < m, ∀ q < m, q ≠ q0 → b q = 0 := by
    by_cases hz : ∃ q0 < m, b q0 ≠ 0
    · obtain ⟨q0, h0, h1⟩ := hz
      exact ⟨q0, h0, fun q hq hne => (f3 q hq q0 h0 hne).resolve_right h1⟩
    · push Not at hz
      obtain ⟨j, hj, _⟩ := hy
      exact ⟨j, hj, fun q hq _ => hz q hq⟩
  have e1 : ∑ i ∈ Finset.range m, α i * x i = b q0 * ∑ i ∈ Finset.range m, α i * r.U.val [i, q0] := by
    rw [Finset.mul_sum]
    refine Finset.sum_congr rfl (fun i hi => ?_)
    rw [f2 i (Finset.mem_range.1 hi), Finset.sum_eq_single q0 (fun q hq hne => by rw [f4 q (Finset.mem_range.1 hq) hne, mul_zero]) (fun hn => absurd (Finset.mem_range.2 hq0) hn)]
    ring
  have e2 : ∀ q < m, ((r.S.getD q 0 : ℝ) : K) * ∑ j ∈ Finset.range m, β j * r.V.val [j, q] = star (b q) * star (∑ j ∈ Finset.range m, star (β j) * y j) := by
    intro q hq
    rw [← star_mul, ← star_star (((r.S.getD q 0 : ℝ) : K) * _)]
    congr 1
    rw [star_mul, star_sum, Finset.sum_mul, Finset.sum_mul]
    refine Finset.sum_congr rfl (fun j hj => ?_)
    have hs : star ((r.S.getD q 0 : ℝ) : K) = ((r.S.getD q 0 : ℝ) : K) := by rw [RCLike.star_def, RCLike.conj_ofReal]
    rw [star_mul, hs]
    calc _ = star (β j) * (((r.S.getD q 0 : ℝ) : K) * star (r.V.val [j, q])) := by ring
      _ = _ := by rw [f1 q hq j (Finset.mem_range.1 hj)]; ring
  rw [Finset.sum_eq_single q0 (fun q hq hne => by rw [e2 q (Finset.mem_range.1 hq), f4 q (Finset.mem_range.1 hq) hne]; simp) (fun hn => absurd (Finset.mem_range.2 hq0) hn),
    e2 q0 hq0, e1]
  simp only [norm_mul, norm_star]
  ring

/-- The two-site operator `X ⊗ X` with `X = σ_x + 2 σ_y`. -/
noncomputable def xOp : Nat → ℂ := fun i => if i = 1 then 1 - 2 * Complex.I else if i = 2 then 1 + 2 * Complex.I else 0
noncomputable def xxOp : Tensor ℂ := ⟨[2, 2, 2, 2], fun idx => xOp (idx.getD 0 0 * 2 + idx.getD 2 0) * xOp (idx.getD 1 0 * 2 + idx.getD 3 0)⟩
/-- The vector of the product state. -/
noncomputable def xVec : Nat → ℂ := fun s => if s = 0 then 1 else 1 + Complex.I

theorem xx_across (i j : Nat) : (Corrf.Spec.acrossMatrix 2 xxOp).val [i, j] = xOp i * xOp j := by
  simp only [Corrf.Spec.acrossMatrix, xxOp, List.getD_cons_zero, List.getD_cons_succ]
  rw [Nat.div_add_mod' i 2, Nat.div_add_mod' j 2]

theorem x_one : Corrf.pExpect xVec Corrf.Spec.one = 3 := by
  simp [Corrf.pExpect, Finset.sum_range_succ, Corrf.Spec.one, xVec]
  ring_nf; simp; norm_num

theorem xx_insert {svd : Tensor ℂ → Nat → Svd ℂ} (hs : Corrf.Spec.Decomposes svd 2 xxOp) : ∃ (X Y : Tensor ℂ), splitOp svd xxOp = some (X, Y) ∧ X.shape = [2, 2, 4] ∧ Y.shape = [2, 2, 4] ∧
    ‖∑ k ∈ Finset.range 4, Corrf.pExpect xVec (Corrf.factor X k) * Corrf.pExpect xVec (Corrf.factor Y k)‖ = 12 := by
  have hsh : Corrf.Spec.Shaped svd 2 xxOp := fun M h1 h2 => ⟨(hs M h1 h2).U, (hs M h1 h2).S, (hs M h1 h2).V⟩
  obtain ⟨M, X, Y, sM, vM, es, sX, sY, vX, vY⟩ := Corrf.splitOp_ok (conjV svd) true xxOp 2 rfl (shaped_conj hsh)
  have hM := hs M sM vM
  obtain ⟨r, hr⟩ : ∃ r, svd M (2 ^ 2) = r := ⟨_, rfl⟩
  refine ⟨X, Y, (splitOp_conj svd xxOp).trans es, sX, sY, ?_⟩
  rw [hr] at hM
  have key := rank_one hM xOp xOp (fun i hi j hj => by rw [vM i hi j hj, xx_across]) ⟨1, by norm_num, by
    simp only [xOp, if_true]; intro h; have := congrArg Complex.re h; simp at this⟩
    (fun i => star (xVec (i % 2)) * xVec (i / 2)) (fun i => star (xVec (i % 2)) * xVec (i / 2))
  have e1 : ∀ k < 4, Corrf.pExpect xVec (Corrf.factor X k) = ∑ i ∈ Finset.range 4, (star (xVec (i % 2)) * xVec (i / 2)) * r.U.val [i, k] := by
    intro k hk
    have v := fun s hs' s' hs'' => vX k hk s hs' s' hs''
    simp only [conjV, hr] at v
    simp only [Corrf.pExpect, Finset.sum_range_succ, Finset.sum_range_zero, zero_add, Corrf.factor]
    rw [v 0 (by norm_num) 0 (by norm_num), v 0 (by norm_num) 1 (by norm_num), v 1 (by norm_num) 0 (by norm_num), v 1 (by norm_num) 1 (by norm_num)]
    norm_num
    ring
  have e2 : ∀ k < 4, Corrf.pExpect xVec (Corrf.factor Y k) = ((r.S.getD k 0 : ℝ) : ℂ) * ∑ i ∈ Finset.range 4, (star (xVec (i % 2)) * xVec (i / 2)) * r.V.val [i, k] := by
    intro k hk
    have v := fun s hs' s' hs'' => vY k hk s hs' s' hs''
    simp only [conjV, hr, Tensor.conj, star_star, if_true] at v
    simp only [Corrf.pExpect, Finset.sum_range_succ, Finset.sum_range_zero, zero_add, Corrf.factor]
    rw [v 0 (by norm_num) 0 (by norm_num), v 0 (by norm_num) 1 (by norm_num), v 1 (by norm_num) 0 (by norm_num), v 1 (by norm_num) 1 (by norm_num)]
    norm_num
    ring
  rw [Finset.sum_congr rfl (fun k hk => by rw [e1 k (Finset.mem_range.1 hk), e2 k (Finset.mem_range.1 hk)])]
  refine key.trans ?_
  have n1 : ∑ i ∈ Finset.range (2 ^ 2), star (xVec (i % 2)) * xVec (i / 2) * xOp i = -2 := by
    simp [Finset.sum_range_succ, xVec, xOp]
    ring_nf; simp; norm_num
  have n2 : ∑ i ∈ Finset.range (2 ^ 2), star (star (xVec (i % 2)) * xVec (i / 2)) * xOp i = 6 := by
    simp [Finset.sum_range_succ, xVec, xOp]
    ring_nf; simp; norm_num
  rw [n1, n2]
  norm_num

theorem pStep2 (v : Nat → K) (d : Dir) (c : Coord) (o : Corrf.Spec.Op2 K) (f : Corrf.Spec.Vec K) (x y z : Nat) :
    Corrf.Spec.step2 (Corrf.pTensors v) Corrf.pDims d c o f x y z = f 0 0 0 * ∑ s1' ∈ Finset.range 2, ∑ s1 ∈ Finset.range 2, ∑ s2' ∈ Finset.range 2, ∑ s2 ∈ Finset.range 2,
      o s1' s2' s1 s2 * Corrf.pExpect v (Corrf.Spec.unit s1' s1) * Corrf.pExpect v (Corrf.Spec.unit s2' s2) := by
  simp only [Corrf.Spec.step2, Corrf.pStep, Finset.mul_sum]
  refine Finset.sum_congr rfl (fun _ _ => Finset.sum_congr rfl (fun _ _ => Finset.sum_congr rfl (fun _ _ => Finset.sum_congr rfl (fun _ _ => by ring))))

theorem pPair (v : Nat → K) (d : Dir) (c : Coord) (o1 o2 : Corrf.Spec.Op2 K) : Corrf.Spec.pairTwoPoint (Corrf.pTensors v) Corrf.pDims d c o1 o2 0 =
    (∑ s1' ∈ Finset.range 2, ∑ s1 ∈ Finset.range 2, ∑ s2' ∈ Finset.range 2, ∑ s2 ∈ Finset.range 2,
      o1 s1' s2' s1 s2 * Corrf.pExpect v (Corrf.Spec.unit s1' s1) * Corrf.pExpect v (Corrf.Spec.unit s2' s2)) *
    (∑ s1' ∈ Finset.range 2, ∑ s1 ∈ Finset.range 2, ∑ s2' ∈ Finset.range 2, ∑ s2 ∈ Finset.range 2,
      o2 s1' s2' s1 s2 * Corrf.pExpect v (Corrf.Spec.unit s1' s1) * Corrf.pExpect v (Corrf.Spec.unit s2' s2)) := by
  rw [Corrf.Spec.pairTwoPoint, Corrf.pDot, Corrf.pEdge, mul_one, pStep2]
  simp only [List.replicate_zero, Corrf.Spec.grow]
  rw [pStep2, Corrf.pEdge, one_mul]

/-- The code does not satisfy the full statement for complex operators, whichever singular value decomposition the backend returns: in the product state with the vector
`(1, 1+i)` and `X ⊗ X`, `X = σ_x + 2 σ_y`, on both pairs the correlation is 16 (16/81 for the transposed operators), the returned number has modulus 16/9. -/
theorem C76_row_violated (svd : Tensor ℂ → Nat → Svd ℂ) (hs : Corrf.Spec.Decomposes svd 2 xxOp) (d : Dir) (c : Coord) :
    (∃ z, corrfH svd (Corrf.pSite xVec) oneEnv xxOp (fun _ => xxOp) 0 = .ok [z] ∧ ‖z‖ = 16 / 9) ∧
    Corrf.Spec.pairTwoPoint (tensors (Corrf.pSite xVec) oneEnv) (C4v.Spec.dims 1 1 2) d c (Corrf.Spec.ofTensor2 xxOp) (Corrf.Spec.ofTensor2 xxOp) 0 /
      Corrf.Spec.norm (tensors (Corrf.pSite xVec) oneEnv) (C4v.Spec.dims 1 1 2) d c 4 = 16 ∧
    Corrf.Spec.pairTwoPoint (tensors (Corrf.pSite xVec) oneEnv) (C4v.Spec.dims 1 1 2) d c (Corrf.Spec.transposed2 xxOp) (Corrf.Spec.transposed2 xxOp) 0 /
      Corrf.Spec.norm (tensors (Corrf.pSite xVec) oneEnv) (C4v.Spec.dims 1 1 2) d c 4 = 16 / 81 := by
  refine ⟨?_, ?_, ?_⟩
  · obtain ⟨X, Y, es, sX, sY, hw⟩ := xx_insert hs
    obtain ⟨w, hw'⟩ : ∃ w, ∑ k ∈ Finset.range 4, Corrf.pExpect xVec (Corrf.factor X k) * Corrf.pExpect xVec (Corrf.factor Y k) = w := ⟨_, rfl⟩
    rw [hw'] at hw
    have hf := oneEnv_fits xVec
    have hd : C4v.Spec.dims 1 1 2 = Corrf.pDims := rfl
    have hX : ∀ f : Corrf.Spec.Vec ℂ, ∀ x y z, ∑ k ∈ Finset.range 4, Corrf.Spec.step (tensors (Corrf.pSite xVec) oneEnv) (C4v.Spec.dims 1 1 2) .right c (Corrf.factor Y k)
        (Corrf.Spec.step (tensors (Corrf.pSite xVec) oneEnv) (C4v.Spec.dims 1 1 2) .right c (Corrf.factor X k) f) x y z = f 0 0 0 * w := by
      intro f x y z
      rw [← hw', Finset.mul_sum, oneEnv_tensors, hd]
      exact Finset.sum_congr rfl (fun k _ => by rw [Corrf.pStep, Corrf.pStep]; ring)
    have h1 : ∀ f : Corrf.Spec.Vec ℂ, ∀ x y z, Corrf.Spec.step (tensors (Corrf.pSite xVec) oneEnv) (C4v.Spec.dims 1 1 2) .right c Corrf.Spec.one f x y z = f 0 0 0 * 3 := by
      intro f x y z
      rw [oneEnv_tensors, hd, Corrf.pStep, x_one]
    have hdot : ∀ f : Corrf.Spec.Vec ℂ, Corrf.Spec.dot (1, 1 * 1, 1) f (Corrf.Spec.edge (tensors (Corrf.pSite xVec) oneEnv) (C4v.Spec.dims 1 1 2) .right c) = f 0 0 0 := by
      intro f
      rw [oneEnv_tensors, hd, show ((1, 1 * 1, 1) : Nat × Nat × Nat) = Corrf.Spec.cut Corrf.pDims .right c from rfl, Corrf.pDot, Corrf.pEdge, mul_one]
    obtain ⟨E, e, q⟩ := getEdge_rep hf oneEnv_c c
    have q : Corrf.Rep (1, 1 * 1, 1) E (fun _ _ _ => 1) := ⟨q.1, fun x y z hx hy hz => by rw [q.2 x y z hx hy hz, oneEnv_tensors, hd, Corrf.pEdge]⟩
    obtain ⟨E1, e1, q1⟩ := applyTM2_rep one_pos hf es sX sY q c c
    have q1 : Corrf.Rep (1, 1 * 1, 1) E1 (fun _ _ _ => 1 * w) := ⟨q1.1, fun x y z hx hy hz => by rw [q1.2 x y z hx hy hz]; exact hX _ _ _ _⟩
    obtain ⟨E0, e0, q0⟩ := applyTM2_none (svd := svd) one_pos hf q c c
    have q0 : Corrf.Rep (1, 1 * 1, 1) E0 (fun _ _ _ => 9) := ⟨q0.1, fun x y z hx hy hz => by rw [q0.2 x y z hx hy hz, h1, h1]; norm_num⟩
    obtain ⟨F12, f12, r12⟩ := applyTM2_rep one_pos hf es sX sY q1 c c
    have r12 : Corrf.Rep (1, 1 * 1, 1) F12 (fun _ _ _ => 1 * w * w) := ⟨r12.1, fun x y z hx hy hz => by rw [r12.2 x y z hx hy hz]; exact hX _ _ _ _⟩
    obtain ⟨F0, f0, r0⟩ := applyTM_rep hf none (fun o ho => by cases ho) q0 c
    have r0 : Corrf.Rep (1, 1 * 1, 1) F0 (fun _ _ _ => 27) := ⟨r0.1, fun x y z hx hy hz => by rw [r0.2 x y z hx hy hz, Corrf.inserted, h1]; norm_num⟩
    obtain ⟨F1, f1, r1⟩ := applyTM_rep hf none (fun o ho => by cases ho) q1 c
    obtain ⟨F00, f00, r00⟩ := applyTM_rep hf none (fun o ho => by cases ho) r0 c
    obtain ⟨S12, g12, s12⟩ := applyEdge_rep hf r12 c
    obtain ⟨S00, g00, s00⟩ := applyEdge_rep hf r00 c
    rw [hdot] at s12 s00
    rw [Corrf.inserted, h1] at s00
    have hv : vecNorm true F0 ≠ 0 := fun hz => by
      have := Corrf.dot_zero_of_norm r0 hz (fun _ _ _ => 1)
      simp [Corrf.Spec.dot] at this
    have hent : Corrf.entry S12 S00 F0 F1 = .ok (1 * w * w / (27 * 3), Corrf.divBy (vecNorm true F0) F0, Corrf.divBy (vecNorm true F0) F1) := by
      simp only [Corrf.entry, s12, s00, hv, or_false]
      rw [if_neg (by norm_num)]
    refine ⟨1 * w * w / (27 * 3), ?_, ?_⟩
    · simp only [corrfH, e, e1, e0, Corrf.lift_bind, loopH, f12, f0, f1, g12, f00, g00, hent]
      rfl
    · rw [norm_div, norm_mul, norm_mul, hw]
      norm_num
  · rw [oneEnv_tensors, show C4v.Spec.dims 1 1 2 = Corrf.pDims from rfl, pPair, Corrf.pNorm, x_one]
    simp [Finset.sum_range_succ, Corrf.Spec.ofTensor2, xxOp, xOp, Corrf.pExpect, Corrf.Spec.unit, xVec]
    ring_nf
    simp [pow_succ, Complex.ext_iff]
    norm_num
  · rw [oneEnv_tensors, show C4v.Spec.dims 1 1 2 = Corrf.pDims from rfl, pPair, Corrf.pNorm, x_one]
    simp [Finset.sum_range_succ, Corrf.Spec.transposed2, xxOp, xOp, Corrf.pExpect, Corrf.Spec.unit, xVec]
    ring_nf
    simp [pow_succ, Complex.ext_iff]
    norm_num

/-- A singular value decomposition of the matrix of that operator: the columns of `U` are `(0,x1,x2,0)/√10`, `(0,x1,-x2,0)/√10`, `e0`, `e3`. -/
noncomputable def xU : Tensor ℂ := ⟨[4, 4], fun idx =>
  if idx.getD 1 0 = 0 then xOp (idx.getD 0 0) / (Real.sqrt 10 : ℝ)
  else if idx.getD 1 0 = 1 then (if idx.getD 0 0 = 2 then - xOp 2 else xOp (idx.getD 0 0)) / (Real.sqrt 10 : ℝ)
  else if idx.getD 1 0 = 2 then (if idx.getD 0 0 = 0 then 1 else 0)
  else if idx.getD 0 0 = 3 then 1 else 0⟩
noncomputable def xSvd : Tensor ℂ → Nat → Svd ℂ := fun _ _ => ⟨xU, [10, 0, 0, 0], xU.conj⟩

theorem sqrt_ten : ((Real.sqrt 10 : ℝ) : ℂ) * ((Real.sqrt 10 : ℝ) : ℂ) = 10 := by
  rw [← Complex.ofReal_mul, Real.mul_self_sqrt (by norm_num)]; norm_num

theorem xSvd_decomposes : Corrf.Spec.Decomposes xSvd 2 xxOp := by
  intro M sM vM
  have h10 : ((Real.sqrt 10 : ℝ) : ℂ) ≠ 0 := fun h => by have := sqrt_ten; rw [h] at this; norm_num at this
  obtain ⟨t, ht⟩ : ∃ t, ((Real.sqrt 10 : ℝ) : ℂ) = t := ⟨_, rfl⟩
  have h2 : (starRingEnd ℂ) 2 = 2 := map_ofNat _ 2
  have hc : (starRingEnd ℂ) t = t := by rw [← ht, Complex.conj_ofReal]
  have htt : t * t = 10 := by rw [← ht]; exact sqrt_ten
  have ht0 : t ≠ 0 := by rw [← ht]; exact h10
  have key : ∀ u v : ℂ, u / t * (v / t) = u * v / 10 := fun u v => by rw [div_mul_div_comm, htt]
  refine ⟨⟨rfl, rfl, rfl, fun i hi j hj => ?_⟩, ?_, ?_, ?_⟩
  · rw [vM i hi j hj, xx_across]
    simp [xSvd, Finset.sum_range_succ, Tensor.conj, xU, ht]
    rw [div_mul_eq_mul_div, div_mul_div_comm, htt]
    ring
  · simp [xSvd]
  · intro q hq q' hq'
    obtain rfl | rfl | rfl | rfl : q = 0 ∨ q = 1 ∨ q = 2 ∨ q = 3 := by omega
    all_goals obtain rfl | rfl | rfl | rfl : q' = 0 ∨ q' = 1 ∨ q' = 2 ∨ q' = 3 := by omega
    all_goals simp [xSvd, Finset.sum_range_succ, xU, ht, hc, xOp, key, h2]
    all_goals ring_nf
    all_goals simp
    all_goals norm_num
  · intro q hq q' hq'
    obtain rfl | rfl | rfl | rfl : q = 0 ∨ q = 1 ∨ q = 2 ∨ q = 3 := by omega
    all_goals obtain rfl | rfl | rfl | rfl : q' = 0 ∨ q' = 1 ∨ q' = 2 ∨ q' = 3 := by omega
    all_goals simp [xSvd, Finset.sum_range_succ, xU, ht, hc, xOp, key, h2, Tensor.conj]
    all_goals ring_nf
    all_goals simp
    all_goals norm_num

example (d : Dir) (c : Coord) := C76_row_violated xSvd xSvd_decomposes d c

/-! ### Hermitian half-rows -/

def unitOp : Tensor ℂ := ⟨[1, 1, 1, 1], fun _ => 1⟩

theorem bad_wide (o o' : Corrf.Spec.Op ℂ) (f : Corrf.Spec.Vec4 ℂ) (c : Coord) (x z : Nat) :
    Corrf.Spec.wide (tensors badSite badEnv) (C4v.Spec.dims 2 1 1) .right c o o' f x 0 0 z =
      o 0 0 * o' 0 0 * ∑ i ∈ Finset.range 2, ∑ j ∈ Finset.range 2, f i 0 0 j * badEnv.T.val [x, i, 0] * badEnv.T.val [j, z, 0] := by
  simp [Corrf.Spec.wide, Corrf.Spec.cut2, Corrf.Spec.cut, Corrf.Spec.sides, Corrf.Spec.first, Corrf.Spec.second, Corrf.Spec.middle, tensors, C4v.Spec.dims,
    Corrf.Spec.layer, badSite, size, Finset.sum_range_succ]
  ring

/-- The code does not satisfy the full statement for complex states: for this rotation-symmetric state (one state per site, no entanglement) with the unit corner and a
Hermitian positive half-row, as the moves produce them, every correlation of two-row operators is one and the strip is not zero, but the function divides by zero. -/
theorem C76_rows_violated (svd : Tensor ℂ → Nat → Svd ℂ) (hs : Corrf.Spec.Shaped svd 1 unitOp) (dist : Nat) (c : Coord) :
    C4v.Spec.Fits 2 1 1 badSite badEnv ∧ C4v.Spec.Rotated 1 1 badSite ∧ C4v.Spec.CSymm 2 badEnv ∧ C4v.Spec.Hermitian badEnv ∧
    corrfV svd badSite badEnv unitOp (fun _ => unitOp) dist = .error .nan ∧
    Corrf.Spec.wideTwoPoint (tensors badSite badEnv) (C4v.Spec.dims 2 1 1) .right c (Corrf.Spec.ofTensor2 unitOp) (Corrf.Spec.ofTensor2 unitOp) 0 = 256 ∧
    Corrf.Spec.wideNorms (tensors badSite badEnv) (C4v.Spec.dims 2 1 1) .right c 2 = 256 := by
  have hf := badEnv_fits
  have hT : ∀ i j k, badEnv.T.val [i, j, k] = if i = j then 1 else if i < j then -Complex.I else Complex.I := fun i j k => rfl
  have hC : ∀ i j, badEnv.C.val [i, j] = if i = j then 1 else 0 := fun i j => rfl
  have hherm : C4v.Spec.Hermitian badEnv := by
    constructor
    · intro i j _ _
      simp only [hC]
      by_cases h : i = j
      · subst h; simp
      · simp [h, Ne.symm h]
    · intro i j s _ _ _
      simp only [hT]
      rcases lt_trichotomy i j with h | rfl | h
      · simp [h.ne, h.ne', h, h.not_gt]
      · simp
      · simp [h.ne, h.ne', h, h.not_gt]
  have hedge : ∀ x z, x < 2 → z < 2 → Corrf.Spec.edge2 (tensors badSite badEnv) (C4v.Spec.dims 2 1 1) .right c x 0 0 z = 2 * badEnv.T.val [z, x, 0] := by
    intro x z hx hz
    simp only [Corrf.Spec.edge2, tensors, C4v.Spec.dims, C4v.Spec.turn2, List.getD_cons_zero, List.getD_cons_succ, Finset.sum_range_succ, Finset.sum_range_zero, hC, hT]
    obtain rfl | rfl : x = 0 ∨ x = 1 := by omega
    all_goals obtain rfl | rfl : z = 0 ∨ z = 1 := by omega
    all_goals norm_num
    all_goals ring
  have hstart : ∀ x z, x < 2 → z < 2 → Corrf.Spec.edge2 (tensors badSite badEnv) (C4v.Spec.dims 2 1 1) .left c x 0 0 z = 2 * badEnv.T.val [x, z, 0] := by
    intro x z hx hz
    simp only [Corrf.Spec.edge2, tensors, C4v.Spec.dims, C4v.Spec.turn2, List.getD_cons_zero, List.getD_cons_succ, Finset.sum_range_succ, Finset.sum_range_zero, hC, hT]
    obtain rfl | rfl : x = 0 ∨ x = 1 := by omega
    all_goals obtain rfl | rfl : z = 0 ∨ z = 1 := by omega
    all_goals norm_num
    all_goals ring
  have hw : ∀ (o o' : Corrf.Spec.Op ℂ) (f : Corrf.Spec.Vec4 ℂ) (c' : Coord) (t : ℂ), o 0 0 = 1 → o' 0 0 = 1 → (∀ x z, x < 2 → z < 2 → f x 0 0 z = t * badEnv.T.val [x, z, 0]) →
      ∀ x z, x < 2 → z < 2 → Corrf.Spec.wide (tensors badSite badEnv) (C4v.Spec.dims 2 1 1) .right c' o o' f x 0 0 z = 4 * t * badEnv.T.val [x, z, 0] := by
    intro o o' f c' t ho ho' hft x z hx hz
    rw [bad_wide, ho, ho', Finset.sum_congr rfl (fun i hi => Finset.sum_congr rfl (fun j hj => by rw [hft i j (Finset.mem_range.1 hi) (Finset.mem_range.1 hj)]))]
    simp only [hT, Finset.sum_range_succ, Finset.sum_range_zero]
    obtain rfl | rfl : x = 0 ∨ x = 1 := by omega
    all_goals obtain rfl | rfl : z = 0 ∨ z = 1 := by omega
    all_goals norm_num
    all_goals ring_nf
    all_goals simp [Complex.I_sq, pow_succ]
    all_goals ring
  have hdot : ∀ (f : Corrf.Spec.Vec4 ℂ) (t : ℂ) (c' : Coord), (∀ x z, x < 2 → z < 2 → f x 0 0 z = t * badEnv.T.val [x, z, 0]) →
      Corrf.Spec.dot2 (2, 1 * 1, 1 * 1, 2) f (Corrf.Spec.edge2 (tensors badSite badEnv) (C4v.Spec.dims 2 1 1) .right c') = 8 * t := by
    intro f t c' hft
    have he : Corrf.Spec.edge2 (tensors badSite badEnv) (C4v.Spec.dims 2 1 1) .right c' = Corrf.Spec.edge2 (tensors badSite badEnv) (C4v.Spec.dims 2 1 1) .right c := rfl
    rw [he]
    simp only [Corrf.Spec.dot2, Finset.sum_range_succ, Finset.sum_range_zero, zero_add, mul_one]
    rw [hft 0 0 (by norm_num) (by norm_num), hft 0 1 (by norm_num) (by norm_num), hft 1 0 (by norm_num) (by norm_num), hft 1 1 (by norm_num) (by norm_num),
      hedge 0 0 (by norm_num) (by norm_num), hedge 0 1 (by norm_num) (by norm_num), hedge 1 0 (by norm_num) (by norm_num), hedge 1 1 (by norm_num) (by norm_num)]
    simp only [hT]
    norm_num
    ring_nf
    simp [Complex.I_sq, pow_succ]
    ring
  have hw2 : ∀ (f : Corrf.Spec.Vec4 ℂ) (c' : Coord) (x z : Nat), Corrf.Spec.wide2 (tensors badSite badEnv) (C4v.Spec.dims 2 1 1) .right c' (Corrf.Spec.ofTensor2 unitOp) f x 0 0 z =
      Corrf.Spec.wide (tensors badSite badEnv) (C4v.Spec.dims 2 1 1) .right c' (Corrf.Spec.unit 0 0) (Corrf.Spec.unit 0 0) f x 0 0 z := by
    intro f c' x z
    simp [Corrf.Spec.wide2, C4v.Spec.dims, Corrf.Spec.ofTensor2, unitOp]
  have hstart' : ∀ x z, x < 2 → z < 2 → Corrf.Spec.edge2 (tensors badSite badEnv) (C4v.Spec.dims 2 1 1) (Corrf.rev .right) c x 0 0 z = 2 * badEnv.T.val [x, z, 0] := hstart
  have hu : (Corrf.Spec.unit 0 0 : Corrf.Spec.Op ℂ) 0 0 = 1 := by simp [Corrf.Spec.unit]
  have ho : (Corrf.Spec.one : Corrf.Spec.Op ℂ) 0 0 = 1 := by simp [Corrf.Spec.one]
  refine ⟨hf, ⟨1, by simp, fun i u l d r _ _ _ _ _ => by simp [badSite]⟩, fun i j _ _ => by simp [hC, eq_comm], hherm, ?_, ?_, ?_⟩
  · obtain ⟨E, e, sE, vE⟩ := getEdgeL_sum hf
    have q : Corrf.RepW (2, 1 * 1, 1 * 1, 2) E (fun x y w z => ∑ i ∈ Finset.range 2, ∑ j ∈ Finset.range 2, ∑ k ∈ Finset.range 2,
        badEnv.C.val [x, i] * badEnv.T.val [j, i, y] * badEnv.T.val [k, j, w] * badEnv.C.val [k, z]) := ⟨sE, vE⟩
    obtain ⟨M, X, Y, _, _, es, sX, sY, _, _⟩ := Corrf.splitOp_ok (conjV svd) true unitOp 1 rfl (shaped_conj hs)
    have es := (splitOp_conj svd unitOp).trans es
    obtain ⟨E1, e1, q1⟩ := applyTMW_rep one_pos hf es sX sY q c
    obtain ⟨E0, e0, q0⟩ := applyTMW_none (svd := svd) hf q c
    have q0 : Corrf.RepW (2, 1 * 1, 1 * 1, 2) E0 (fun _ _ _ _ => 0) := ⟨q0.1, fun x y w z hx hy hww hz => by
      obtain rfl : y = 0 := by simp only [mul_one] at hy; omega
      obtain rfl : w = 0 := by simp only [mul_one] at hww; omega
      rw [q0.2 x 0 0 z hx hy hww hz, bad_wide]
      simp only [hT, hC, Finset.sum_range_succ, Finset.sum_range_zero]
      simp only at hx hz
      obtain rfl | rfl : x = 0 ∨ x = 1 := by omega
      all_goals obtain rfl | rfl : z = 0 ∨ z = 1 := by omega
      all_goals norm_num
      all_goals ring_nf
      all_goals simp [Complex.I_sq, pow_succ]
      all_goals ring⟩
    obtain ⟨F12, f12, r12⟩ := applyTMW_rep one_pos hf es sX sY q1 c
    obtain ⟨F0, f0, r0⟩ := applyTMW_none (svd := svd) hf q0 c
    obtain ⟨F1, f1, r1⟩ := applyTMW_none (svd := svd) hf q1 c
    have close : ∀ {F : Tensor ℂ} {f : Corrf.Spec.Vec4 ℂ}, Corrf.RepW (2, 1 * 1, 1 * 1, 2) F f → ∃ S, applyEdgeL badEnv F = some S ∧ ((∀ x z, x < 2 → z < 2 → f x 0 0 z = 0) → S.val [] = 0) := by
      intro F f hF
      obtain ⟨S, eS, _, v⟩ := closeL_sum hF.1 sE
      refine ⟨S, ?_, fun hz => ?_⟩
      · have hl : F.shape.length = 4 := by rw [hF.1]; rfl
        simp only [applyEdgeL, hl]
        rw [show (4 - 2 : Nat) = 2 from rfl, e]
        exact eS
      · rw [v]
        refine Finset.sum_eq_zero (fun x h1 => Finset.sum_eq_zero (fun y h2 => Finset.sum_eq_zero (fun w h4 => Finset.sum_eq_zero (fun z h3 => ?_))))
        simp only [Finset.mem_range] at h1 h2 h3 h4
        rw [hF.2 x y w z h1 h2 h4 h3]
        obtain rfl : y = 0 := by omega
        obtain rfl : w = 0 := by omega
        rw [hz x z h1 h3, zero_mul]
    obtain ⟨S12, g12, _⟩ := close r12
    obtain ⟨S00, g00, s00⟩ := close r0
    have s00 := s00 (fun x z _ _ => by rw [bad_wide]; simp)
    simp only [corrfV, e, e1, e0, Corrf.lift_bind, loopV, f12, f0, f1, g12, g00, Corrf.entry, s00, true_or, if_true]
    rfl
  · simp only [Corrf.Spec.wideTwoPoint, Corrf.Spec.wideGrow]
    refine (hdot _ 32 _ (fun x z hx hz => ?_)).trans (by norm_num)
    rw [hw2, hw _ _ _ _ 8 hu hu (fun x z hx hz => by rw [hw2, hw _ _ _ _ 2 hu hu hstart' x z hx hz]; norm_num) x z hx hz]
    norm_num
  · simp only [Corrf.Spec.wideNorms, Corrf.Spec.wideGrow]
    refine (hdot _ 32 _ (fun x z hx hz => ?_)).trans (by norm_num)
    rw [hw _ _ _ _ 8 ho ho (fun x z hx hz => by rw [hw _ _ _ _ 2 ho ho hstart' x z hx hz]; norm_num) x z hx hz]
    norm_num

example (dist : Nat) (c : Coord) := C76_rows_violated (Corrf.flatSvd 3) (Corrf.Spec.Factorises.shaped (fun M _ _ => Corrf.flat_factors (by norm_num) M _)) dist c

end Verif.C4v
