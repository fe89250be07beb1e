import Verif.Corrf.Lemmas
import Verif.Rdm.Props
/-
A strip of one site: the network of `get_edge`, `apply_TM_1sO` and `apply_edge` is that of the one-site density matrix.
-/
namespace Verif.Corrf
open Tensor Ctm Ctm.Spec
set_option linter.unusedSimpArgs false
set_option linter.unusedSectionVars false
variable {K : Type} [RCLike K]

/-- The expectation value of a one-site operator by transfer matrices: the edge behind the site, one transfer matrix with the operator, the
edge in front (composition of `get_edge`, `apply_TM_1sO` and `apply_edge` as in corrf.py L1028-L1055, for a single site). -/
def strip (st : State K) (env : Env K) (d : Dir) (c : Coord) (op : Option (Tensor K)) : Option (Tensor K) := do
  let E ← getEdge st env (rev d) c
  let E ← applyTM st env d c E op
  applyEdge st env d c E

theorem aXa_denotes (dim : Nat → Nat) (e : Rdm.SiteEnv K) (a : Tensor K) (op : Option (Tensor K)) (h : Rdm.Spec.Fits1 dim e a)
    (ho : ∀ o, op = some o → o.shape = [dim 4, dim 4]) :
    ∃ A, aXa a op = some A ∧ Denotes dim A [[2, 5], [3, 6], [15, 16], [10, 11]] [7, 4] [2, 3, 4, 5, 6, 7, 10, 11, 15, 16]
      (fun σ => star (a.val [σ 7, σ 5, σ 6, σ 16, σ 11]) * inserted op (σ 7) (σ 4) * a.val [σ 4, σ 2, σ 3, σ 15, σ 10]) := by
  have key : ∃ A, aXa a op = some A ∧ A.shape = [dim 2 * dim 2, dim 3 * dim 3, dim 15 * dim 15, dim 10 * dim 10] ∧
      ∀ u l d r, u < dim 2 * dim 2 → l < dim 3 * dim 3 → d < dim 15 * dim 15 → r < dim 10 * dim 10 →
        A.val [u, l, d, r] = Spec.layer a (inserted op) u l d r := by
    cases op with
    | none => exact aXa_none _ h.a
    | some o => exact aXa_op _ o h.a (ho o rfl)
  obtain ⟨A, eA, sA, vA⟩ := key
  refine ⟨A, eA, ⟨by rw [sA]; simp [gdim, h.a1, h.a2, h.a3, h.a4], ?_, ?_⟩⟩
  · intro σ τ hh
    simp only [List.mem_cons, List.not_mem_nil, or_false, forall_eq_or_imp, forall_eq] at hh
    obtain ⟨h2, h3, h4, h5, h6, h7, h10, h11, h15, h16⟩ := hh
    simp only [h2, h3, h4, h5, h6, h7, h10, h11, h15, h16]
  · intro σ hσ
    simp only [List.flatten_cons, List.flatten_nil, List.cons_append, List.nil_append, List.mem_cons, List.not_mem_nil, or_false, forall_eq_or_imp, forall_eq] at hσ
    obtain ⟨b2, b5, b3, b6, b15, b16, b10, b11⟩ := hσ
    rw [h.a1] at b5; rw [h.a2] at b6; rw [h.a3] at b16; rw [h.a4] at b11
    have lt : ∀ {i j n : Nat}, i < n → j < n → i * n + j < n * n := fun {i j n} hi hj => by
      calc i * n + j < i * n + n := by omega
        _ = (i + 1) * n := by ring
        _ ≤ n * n := Nat.mul_le_mul_right _ hi
    have dv : ∀ {i j n : Nat}, j < n → (i * n + j) / n = i := fun {i j n} hj => by
      rw [Nat.add_comm, Nat.add_mul_div_right _ _ (by omega), Nat.div_eq_of_lt hj, Nat.zero_add]
    have md : ∀ {i j n : Nat}, j < n → (i * n + j) % n = j := fun {i j n} hj => by
      rw [Nat.add_comm, Nat.add_mul_mod_self_right, Nat.mod_eq_of_lt hj]
    simp only [List.map_cons, List.map_nil, Corner.fused_eq, Corner.Spec.fused, h.a1, h.a2, h.a3, h.a4]
    rw [vA _ _ _ _ (lt b2 b5) (lt b3 b6) (lt b15 b16) (lt b10 b11)]
    simp only [Spec.layer, size, h.a, List.getD_cons_zero, List.getD_cons_succ, dv b5, dv b6, dv b16, dv b11, md b5, md b6, md b16, md b11, sumOver, h.a0]
    simp [Function.update]

theorem strip_up (dim : Nat → Nat) (e : Rdm.SiteEnv K) (a : Tensor K) (op : Option (Tensor K)) (h : Rdm.Spec.Fits1 dim e a)
    (ho : ∀ o, op = some o → o.shape = [dim 4, dim 4]) {st : State K} {env : Env K} {c : Coord} (ha : Rdm.Spec.AroundSite st env c e a) (hs : st.site (st.vts c) = some a) :
    ∃ S, strip st env .up c op = some S ∧ Denotes dim S [] (4 :: 7 :: Rdm.Spec.inner1) (4 :: 7 :: Rdm.Spec.inner1)
      (fun σ => Rdm.Spec.rho1 dim e a σ * inserted op (σ 7) (σ 4)) := by
  obtain ⟨A, eA, dA⟩ := aXa_denotes dim e a op h ho
  obtain ⟨hC1, hT1, hT4, hC2, hT2, hC3, hT3, hC4, ha0, -⟩ := h
  obtain ⟨gC1, gC2, gC3, gC4, gT1, gT2, gT3, gT4, -⟩ := ha
  have dC1 := Denotes.leaf dim e.C1 [[0], [1]] (by simp [gdim, hC1])
  have dT1 := Denotes.leaf dim e.T1 [[1], [2, 5], [9]] (by simp [gdim, hT1])
  have dT4 := Denotes.leaf dim e.T4 [[0], [14], [3, 6]] (by simp [gdim, hT4])
  have dC2 := Denotes.leaf dim e.C2 [[9], [8]] (by simp [gdim, hC2])
  have dT2 := Denotes.leaf dim e.T2 [[8], [10, 11], [17]] (by simp [gdim, hT2])
  have dC3 := Denotes.leaf dim e.C3 [[17], [13]] (by simp [gdim, hC3])
  have dT3 := Denotes.leaf dim e.T3 [[15, 16], [12], [13]] (by simp [gdim, hT3])
  have dC4 := Denotes.leaf dim e.C4 [[14], [12]] (by simp [gdim, hC4])
  obtain ⟨x1, e1, q1⟩ := Denotes.tensordot dC4 dT3 [1] [1] (dotOK_iff (by decide))
  obtain ⟨x2, e2, q2⟩ := Denotes.tensordot q1 dC3 [2] [1] (dotOK_iff (by decide))
  obtain ⟨x3, e3, q3⟩ := Denotes.tensordot dT4 q2 [1] [0] (dotOK_iff (by decide))
  obtain ⟨x4, e4, q4⟩ := Denotes.tensordot q3 dA [1, 2] [1, 2] (dotOK_iff (by decide))
  obtain ⟨x5, e5, q5⟩ := Denotes.tensordot q4 dT2 [1, 3] [2, 1] (dotOK_iff (by decide))
  obtain ⟨x6, e6, q6⟩ := Denotes.tensordot dT1 dC2 [2] [0] (dotOK_iff (by decide))
  obtain ⟨x7, e7, q7⟩ := Denotes.tensordot dC1 q6 [1] [0] (dotOK_iff (by decide))
  obtain ⟨x8, e8, q8⟩ := Denotes.tensordot q5 q7 [0, 1, 2] [0, 1, 2] (dotOK_iff (by decide))
  have s1 : x5.shape.length = 3 := by rw [q5.shape, List.length_map]; decide
  have s2 : x2.shape.length = 3 := by rw [q2.shape, List.length_map]; decide
  have h1 : getEdge st env .down c = some x2 := by simp [getEdge, Dir.vec, gC1, gC2, gC3, gC4, gT1, gT2, gT3, gT4, e1, e2]
  have h2 : applyTM st env .up c x2 op = some x5 := by simp [applyTM, tmAxes, tmCore, gT1, gT2, gT3, gT4, hs, eA, e3, e4, e5, s1, s2]
  have h3 : getEdge st env .up c = some x7 := by simp [getEdge, Dir.vec, gC1, gC2, gC3, gC4, gT1, gT2, gT3, gT4, e6, e7]
  have h4 : applyEdge st env .up c x5 = some x8 := by
    simp only [applyEdge, s1, if_true, h3]
    exact e8
  refine ⟨x8, by simp [strip, rev, h1, h2, h4], q8.congr (by decide) (by decide) ?_⟩
  intro σ
  simp only [Rdm.Spec.rho1, List.map_cons, List.map_nil, gidx_single, Corner.fused_eq]; ring

theorem strip_left (dim : Nat → Nat) (e : Rdm.SiteEnv K) (a : Tensor K) (op : Option (Tensor K)) (h : Rdm.Spec.Fits1 dim e a)
    (ho : ∀ o, op = some o → o.shape = [dim 4, dim 4]) {st : State K} {env : Env K} {c : Coord} (ha : Rdm.Spec.AroundSite st env c e a) (hs : st.site (st.vts c) = some a) :
    ∃ S, strip st env .left c op = some S ∧ Denotes dim S [] (4 :: 7 :: Rdm.Spec.inner1) (4 :: 7 :: Rdm.Spec.inner1)
      (fun σ => Rdm.Spec.rho1 dim e a σ * inserted op (σ 7) (σ 4)) := by
  obtain ⟨A, eA, dA⟩ := aXa_denotes dim e a op h ho
  obtain ⟨hC1, hT1, hT4, hC2, hT2, hC3, hT3, hC4, ha0, -⟩ := h
  obtain ⟨gC1, gC2, gC3, gC4, gT1, gT2, gT3, gT4, -⟩ := ha
  have dC1 := Denotes.leaf dim e.C1 [[0], [1]] (by simp [gdim, hC1])
  have dT1 := Denotes.leaf dim e.T1 [[1], [2, 5], [9]] (by simp [gdim, hT1])
  have dT4 := Denotes.leaf dim e.T4 [[0], [14], [3, 6]] (by simp [gdim, hT4])
  have dC2 := Denotes.leaf dim e.C2 [[9], [8]] (by simp [gdim, hC2])
  have dT2 := Denotes.leaf dim e.T2 [[8], [10, 11], [17]] (by simp [gdim, hT2])
  have dC3 := Denotes.leaf dim e.C3 [[17], [13]] (by simp [gdim, hC3])
  have dT3 := Denotes.leaf dim e.T3 [[15, 16], [12], [13]] (by simp [gdim, hT3])
  have dC4 := Denotes.leaf dim e.C4 [[14], [12]] (by simp [gdim, hC4])
  obtain ⟨x1, e1, q1⟩ := Denotes.tensordot dT2 dC3 [2] [0] (dotOK_iff (by decide))
  obtain ⟨x2, e2, q2⟩ := Denotes.tensordot dC2 q1 [1] [0] (dotOK_iff (by decide))
  obtain ⟨x3, e3, q3⟩ := Denotes.tensordot dT1 q2 [2] [0] (dotOK_iff (by decide))
  obtain ⟨x4, e4, q4⟩ := Denotes.tensordot q3 dA [1, 2] [0, 3] (dotOK_iff (by decide))
  obtain ⟨x5, e5, q5⟩ := Denotes.tensordot q4 dT3 [1, 3] [2, 0] (dotOK_iff (by decide))
  obtain ⟨x6, e6, q6⟩ := Denotes.tensordot dC1 dT4 [0] [0] (dotOK_iff (by decide))
  obtain ⟨x7, e7, q7⟩ := Denotes.tensordot q6 dC4 [1] [0] (dotOK_iff (by decide))
  obtain ⟨x8, e8, q8⟩ := Denotes.tensordot q5 q7 [0, 1, 2] [0, 1, 2] (dotOK_iff (by decide))
  have s1 : x5.shape.length = 3 := by rw [q5.shape, List.length_map]; decide
  have s2 : x2.shape.length = 3 := by rw [q2.shape, List.length_map]; decide
  have h1 : getEdge st env .right c = some x2 := by simp [getEdge, Dir.vec, gC1, gC2, gC3, gC4, gT1, gT2, gT3, gT4, e1, e2]
  have h2 : applyTM st env .left c x2 op = some x5 := by simp [applyTM, tmAxes, tmCore, gT1, gT2, gT3, gT4, hs, eA, e3, e4, e5, s1, s2]
  have h3 : getEdge st env .left c = some x7 := by simp [getEdge, Dir.vec, gC1, gC2, gC3, gC4, gT1, gT2, gT3, gT4, e6, e7]
  have h4 : applyEdge st env .left c x5 = some x8 := by
    simp only [applyEdge, s1, if_true, h3]
    exact e8
  refine ⟨x8, by simp [strip, rev, h1, h2, h4], q8.congr (by decide) (by decide) ?_⟩
  intro σ
  simp only [Rdm.Spec.rho1, List.map_cons, List.map_nil, gidx_single, Corner.fused_eq]; ring

theorem strip_down (dim : Nat → Nat) (e : Rdm.SiteEnv K) (a : Tensor K) (op : Option (Tensor K)) (h : Rdm.Spec.Fits1 dim e a)
    (ho : ∀ o, op = some o → o.shape = [dim 4, dim 4]) {st : State K} {env : Env K} {c : Coord} (ha : Rdm.Spec.AroundSite st env c e a) (hs : st.site (st.vts c) = some a) :
    ∃ S, strip st env .down c op = some S ∧ Denotes dim S [] (4 :: 7 :: Rdm.Spec.inner1) (4 :: 7 :: Rdm.Spec.inner1)
      (fun σ => Rdm.Spec.rho1 dim e a σ * inserted op (σ 7) (σ 4)) := by
  obtain ⟨A, eA, dA⟩ := aXa_denotes dim e a op h ho
  obtain ⟨hC1, hT1, hT4, hC2, hT2, hC3, hT3, hC4, ha0, -⟩ := h
  obtain ⟨gC1, gC2, gC3, gC4, gT1, gT2, gT3, gT4, -⟩ := ha
  have dC1 := Denotes.leaf dim e.C1 [[0], [1]] (by simp [gdim, hC1])
  have dT1 := Denotes.leaf dim e.T1 [[1], [2, 5], [9]] (by simp [gdim, hT1])
  have dT4 := Denotes.leaf dim e.T4 [[0], [14], [3, 6]] (by simp [gdim, hT4])
  have dC2 := Denotes.leaf dim e.C2 [[9], [8]] (by simp [gdim, hC2])
  have dT2 := Denotes.leaf dim e.T2 [[8], [10, 11], [17]] (by simp [gdim, hT2])
  have dC3 := Denotes.leaf dim e.C3 [[17], [13]] (by simp [gdim, hC3])
  have dT3 := Denotes.leaf dim e.T3 [[15, 16], [12], [13]] (by simp [gdim, hT3])
  have dC4 := Denotes.leaf dim e.C4 [[14], [12]] (by simp [gdim, hC4])
  obtain ⟨x1, e1, q1⟩ := Denotes.tensordot dT1 dC2 [2] [0] (dotOK_iff (by decide))
  obtain ⟨x2, e2, q2⟩ := Denotes.tensordot dC1 q1 [1] [0] (dotOK_iff (by decide))
  obtain ⟨x3, e3, q3⟩ := Denotes.tensordot dT4 q2 [0] [0] (dotOK_iff (by decide))
  obtain ⟨x4, e4, q4⟩ := Denotes.tensordot q3 dA [1, 2] [1, 0] (dotOK_iff (by decide))
  obtain ⟨x5, e5, q5⟩ := Denotes.tensordot q4 dT2 [1, 3] [0, 1] (dotOK_iff (by decide))
  obtain ⟨x6, e6, q6⟩ := Denotes.tensordot dC4 dT3 [1] [1] (dotOK_iff (by decide))
  obtain ⟨x7, e7, q7⟩ := Denotes.tensordot q6 dC3 [2] [1] (dotOK_iff (by decide))
  obtain ⟨x8, e8, q8⟩ := Denotes.tensordot q5 q7 [0, 1, 2] [0, 1, 2] (dotOK_iff (by decide))
  have s1 : x5.shape.length = 3 := by rw [q5.shape, List.length_map]; decide
  have s2 : x2.shape.length = 3 := by rw [q2.shape, List.length_map]; decide
  have h1 : getEdge st env .up c = some x2 := by simp [getEdge, Dir.vec, gC1, gC2, gC3, gC4, gT1, gT2, gT3, gT4, e1, e2]
  have h2 : applyTM st env .down c x2 op = some x5 := by simp [applyTM, tmAxes, tmCore, gT1, gT2, gT3, gT4, hs, eA, e3, e4, e5, s1, s2]
  have h3 : getEdge st env .down c = some x7 := by simp [getEdge, Dir.vec, gC1, gC2, gC3, gC4, gT1, gT2, gT3, gT4, e6, e7]
  have h4 : applyEdge st env .down c x5 = some x8 := by
    simp only [applyEdge, s1, if_true, h3]
    exact e8
  refine ⟨x8, by simp [strip, rev, h1, h2, h4], q8.congr (by decide) (by decide) ?_⟩
  intro σ
  simp only [Rdm.Spec.rho1, List.map_cons, List.map_nil, gidx_single, Corner.fused_eq]; ring

theorem strip_right (dim : Nat → Nat) (e : Rdm.SiteEnv K) (a : Tensor K) (op : Option (Tensor K)) (h : Rdm.Spec.Fits1 dim e a)
    (ho : ∀ o, op = some o → o.shape = [dim 4, dim 4]) {st : State K} {env : Env K} {c : Coord} (ha : Rdm.Spec.AroundSite st env c e a) (hs : st.site (st.vts c) = some a) :
    ∃ S, strip st env .right c op = some S ∧ Denotes dim S [] (4 :: 7 :: Rdm.Spec.inner1) (4 :: 7 :: Rdm.Spec.inner1)
      (fun σ => Rdm.Spec.rho1 dim e a σ * inserted op (σ 7) (σ 4)) := by
  obtain ⟨A, eA, dA⟩ := aXa_denotes dim e a op h ho
  obtain ⟨hC1, hT1, hT4, hC2, hT2, hC3, hT3, hC4, ha0, -⟩ := h
  obtain ⟨gC1, gC2, gC3, gC4, gT1, gT2, gT3, gT4, -⟩ := ha
  have dC1 := Denotes.leaf dim e.C1 [[0], [1]] (by simp [gdim, hC1])
  have dT1 := Denotes.leaf dim e.T1 [[1], [2, 5], [9]] (by simp [gdim, hT1])
  have dT4 := Denotes.leaf dim e.T4 [[0], [14], [3, 6]] (by simp [gdim, hT4])
  have dC2 := Denotes.leaf dim e.C2 [[9], [8]] (by simp [gdim, hC2])
  have dT2 := Denotes.leaf dim e.T2 [[8], [10, 11], [17]] (by simp [gdim, hT2])
  have dC3 := Denotes.leaf dim e.C3 [[17], [13]] (by simp [gdim, hC3])
  have dT3 := Denotes.leaf dim e.T3 [[15, 16], [12], [13]] (by simp [gdim, hT3])
  have dC4 := Denotes.leaf dim e.C4 [[14], [12]] (by simp [gdim, hC4])
  obtain ⟨x1, e1, q1⟩ := Denotes.tensordot dC1 dT4 [0] [0] (dotOK_iff (by decide))
  obtain ⟨x2, e2, q2⟩ := Denotes.tensordot q1 dC4 [1] [0] (dotOK_iff (by decide))
  obtain ⟨x3, e3, q3⟩ := Denotes.tensordot dT1 q2 [0] [0] (dotOK_iff (by decide))
  obtain ⟨x4, e4, q4⟩ := Denotes.tensordot q3 dA [0, 2] [0, 1] (dotOK_iff (by decide))
  obtain ⟨x5, e5, q5⟩ := Denotes.tensordot q4 dT3 [1, 2] [1, 0] (dotOK_iff (by decide))
  obtain ⟨x6, e6, q6⟩ := Denotes.tensordot dT2 dC3 [2] [0] (dotOK_iff (by decide))
  obtain ⟨x7, e7, q7⟩ := Denotes.tensordot dC2 q6 [1] [0] (dotOK_iff (by decide))
  obtain ⟨x8, e8, q8⟩ := Denotes.tensordot q5 q7 [0, 1, 2] [0, 1, 2] (dotOK_iff (by decide))
  have s1 : x5.shape.length = 3 := by rw [q5.shape, List.length_map]; decide
  have s2 : x2.shape.length = 3 := by rw [q2.shape, List.length_map]; decide
  have h1 : getEdge st env .left c = some x2 := by simp [getEdge, Dir.vec, gC1, gC2, gC3, gC4, gT1, gT2, gT3, gT4, e1, e2]
  have h2 : applyTM st env .right c x2 op = some x5 := by simp [applyTM, tmAxes, tmCore, gT1, gT2, gT3, gT4, hs, eA, e3, e4, e5, s1, s2]
  have h3 : getEdge st env .right c = some x7 := by simp [getEdge, Dir.vec, gC1, gC2, gC3, gC4, gT1, gT2, gT3, gT4, e6, e7]
  have h4 : applyEdge st env .right c x5 = some x8 := by
    simp only [applyEdge, s1, if_true, h3]
    exact e8
  refine ⟨x8, by simp [strip, rev, h1, h2, h4], q8.congr (by decide) (by decide) ?_⟩
  intro σ
  simp only [Rdm.Spec.rho1, List.map_cons, List.map_nil, gidx_single, Corner.fused_eq]; ring

end Verif.Corrf
