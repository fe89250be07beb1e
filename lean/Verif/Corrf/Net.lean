import Verif.Corrf.Spec
import Verif.Tensor.Net
/-
The contractions of `get_edge` and `apply_TM_1sO` as explicit sums. Generated by bookkeeping of labels, checked by the kernel.
-/
namespace Verif.Corrf
open Tensor Ctm Ctm.Spec
set_option linter.unusedSimpArgs false
set_option linter.unusedSectionVars false
set_option linter.unnecessarySeqFocus false
set_option linter.unusedTactic false
set_option linter.unreachableTactic false
variable {K : Type} [RCLike K]

theorem pair_idx (i D : Nat) : i / D * D + i % D = i := Nat.div_add_mod' i D

/-- Entries of a double-layer tensor viewed with fused pairs: `F` is the summand over the labels `L`. -/
theorem aXa_entry (a : Tensor K) {p D1 D2 D3 D4 : Nat} (ha : a.shape = [p, D1, D2, D3, D4]) (b : Tensor K) (hb : b.shape = [p, D1, D2, D3, D4]) :
    ∃ A, (do let x ← einsum [(b, [0, 1, 2, 3, 4]), (a.conj, [0, 5, 6, 7, 8])] [1, 5, 2, 6, 3, 7, 4, 8]
             view [a.size 1 ^ 2, a.size 2 ^ 2, a.size 3 ^ 2, a.size 4 ^ 2] x) = some A ∧ A.shape = [D1 * D1, D2 * D2, D3 * D3, D4 * D4] ∧
      ∀ u l d r, u < D1 * D1 → l < D2 * D2 → d < D3 * D3 → r < D4 * D4 →
        A.val [u, l, d, r] = ∑ n ∈ Finset.range p, b.val [n, u / D1, l / D2, d / D3, r / D4] * star (a.val [n, u % D1, l % D2, d % D3, r % D4]) := by
  obtain ⟨dim, hdim⟩ : ∃ dim : Nat → Nat, dim = fun l => [p, D1, D2, D3, D4, D1, D2, D3, D4].getD l 0 := ⟨_, rfl⟩
  have d0 := Denotes.leaf dim b (singles [0, 1, 2, 3, 4]) (by simp [singles, hdim, hb])
  have d1 := (Denotes.leaf dim a (singles [0, 5, 6, 7, 8]) (by simp [singles, hdim, ha])).conj
  obtain ⟨x1, e1, q1⟩ := Denotes.einsum' (OpsNet.cons d0 (OpsNet.cons d1 OpsNet.nil)) [1, 5, 2, 6, 3, 7, 4, 8] (by decide)
  obtain ⟨x2, e2, q2⟩ := q1.view [[1, 5], [2, 6], [3, 7], [4, 8]] [a.size 1 ^ 2, a.size 2 ^ 2, a.size 3 ^ 2, a.size 4 ^ 2] (by decide)
    (by simp [size, gdim, ha, hdim, pow_two])
  refine ⟨x2, by simp [e1, e2], by rw [q2.shape]; simp [gdim, hdim], ?_⟩
  intro u l d r hu hl hd hr
  have h1 : 0 < D1 := by by_contra h; simp_all
  have h2 : 0 < D2 := by by_contra h; simp_all
  have h3 : 0 < D3 := by by_contra h; simp_all
  have h4 : 0 < D4 := by by_contra h; simp_all
  have hv := q2.val (fun k => [0, u / D1, l / D2, d / D3, r / D4, u % D1, l % D2, d % D3, r % D4].getD k 0) (by
    simp only [List.flatten_cons, List.flatten_nil, List.cons_append, List.nil_append, List.mem_cons, List.not_mem_nil, or_false]
    rintro k (rfl | rfl | rfl | rfl | rfl | rfl | rfl | rfl) <;> rw [hdim] <;> simp <;>
      first | exact Nat.div_lt_of_lt_mul ‹_› | exact Nat.mod_lt _ ‹_›)
  rw [hdim] at hv
  simp [gidx, ravel, pair_idx, sumOver, Function.update, singles] at hv
  rw [hv]
  rfl

theorem opA_entry (a o : Tensor K) {p D1 D2 D3 D4 : Nat} (ha : a.shape = [p, D1, D2, D3, D4]) (ho : o.shape = [p, p]) :
    ∃ b, einsum [(a, [9, 1, 2, 3, 4]), (o, [9, 0])] [0, 1, 2, 3, 4] = some b ∧ b.shape = [p, D1, D2, D3, D4] ∧
      ∀ n e f g h, n < p → e < D1 → f < D2 → g < D3 → h < D4 → b.val [n, e, f, g, h] = ∑ m ∈ Finset.range p, a.val [m, e, f, g, h] * o.val [m, n] := by
  obtain ⟨dim, hdim⟩ : ∃ dim : Nat → Nat, dim = fun l => [p, D1, D2, D3, D4, 0, 0, 0, 0, p].getD l 0 := ⟨_, rfl⟩
  have d0 := Denotes.leaf dim a (singles [9, 1, 2, 3, 4]) (by simp [singles, hdim, ha])
  have d1 := Denotes.leaf dim o (singles [9, 0]) (by simp [singles, hdim, ho])
  obtain ⟨x1, e1, q1⟩ := Denotes.einsum' (OpsNet.cons d0 (OpsNet.cons d1 OpsNet.nil)) [0, 1, 2, 3, 4] (by decide)
  refine ⟨x1, e1, by rw [q1.shape]; simp [gdim, hdim, singles], ?_⟩
  intro n e f g h hn he hf hg hh
  have hv := q1.val (fun k => [n, e, f, g, h].getD k 0) (by
    simp only [singles_flatten, List.mem_cons, List.not_mem_nil, or_false]
    rintro k (rfl | rfl | rfl | rfl | rfl) <;> rw [hdim] <;> simpa)
  rw [hdim] at hv
  simp [gidx, ravel, sumOver, Function.update, singles] at hv
  rw [hv]

theorem aXa_none (a : Tensor K) {p D1 D2 D3 D4 : Nat} (ha : a.shape = [p, D1, D2, D3, D4]) :
    ∃ A, aXa a none = some A ∧ A.shape = [D1 * D1, D2 * D2, D3 * D3, D4 * D4] ∧
      ∀ u l d r, u < D1 * D1 → l < D2 * D2 → d < D3 * D3 → r < D4 * D4 → A.val [u, l, d, r] = Spec.layer a Spec.one u l d r := by
  obtain ⟨A, e, h1, h2⟩ := aXa_entry a ha a ha
  refine ⟨A, e, h1, fun u l d r hu hl hd hr => ?_⟩
  rw [h2 u l d r hu hl hd hr]
  simp only [Spec.layer, size, ha, Spec.one, List.getD_cons_zero, List.getD_cons_succ]
  refine Finset.sum_congr rfl (fun n hn => ?_)
  simp only [mul_ite, mul_one, mul_zero, ite_mul, zero_mul, Finset.sum_ite_eq, hn, if_true]
  ring

theorem aXa_op (a o : Tensor K) {p D1 D2 D3 D4 : Nat} (ha : a.shape = [p, D1, D2, D3, D4]) (ho : o.shape = [p, p]) :
    ∃ A, aXa a (some o) = some A ∧ A.shape = [D1 * D1, D2 * D2, D3 * D3, D4 * D4] ∧
      ∀ u l d r, u < D1 * D1 → l < D2 * D2 → d < D3 * D3 → r < D4 * D4 → A.val [u, l, d, r] = Spec.layer a (Spec.transposed o) u l d r := by
  obtain ⟨b, eb, hb, hv⟩ := opA_entry a o ha ho
  obtain ⟨A, e, h1, h2⟩ := aXa_entry a ha b hb
  refine ⟨A, by simp only [aXa, ho, List.length_cons, List.length_nil, eb]; exact e, h1, fun u l d r hu hl hd hr => ?_⟩
  rw [h2 u l d r hu hl hd hr]
  simp only [Spec.layer, size, ha, Spec.transposed, List.getD_cons_zero, List.getD_cons_succ]
  refine Finset.sum_congr rfl (fun n hn => ?_)
  rw [hv _ _ _ _ _ (Finset.mem_range.1 hn) (Nat.div_lt_of_lt_mul hu) (Nat.div_lt_of_lt_mul hl) (Nat.div_lt_of_lt_mul hd) (Nat.div_lt_of_lt_mul hr), Finset.sum_mul]
  exact Finset.sum_congr rfl (fun m _ => by ring)

/-- The same with an operator that carries a bond of size `B`. -/
theorem aXa_mpo (a o : Tensor K) {p D1 D2 D3 D4 B : Nat} (ha : a.shape = [p, D1, D2, D3, D4]) (ho : o.shape = [p, p, B])
    (h1 : 0 < D1) (h2 : 0 < D2) (h3 : 0 < D3) (h4 : 0 < D4) :
    ∃ A, aXa a (some o) = some A ∧ A.shape = [D1 * D1, D2 * D2, D3 * D3, D4 * D4, B] ∧
      ∀ u l d r k, u < D1 * D1 → l < D2 * D2 → d < D3 * D3 → r < D4 * D4 → k < B →
        A.val [u, l, d, r, k] = Spec.layer a (fun s' s => o.val [s, s', k]) u l d r := by
  obtain ⟨dim, hdim⟩ : ∃ dim : Nat → Nat, dim = fun l => [p, D1, D2, D3, D4, D1, D2, D3, D4, p, B].getD l 0 := ⟨_, rfl⟩
  have d0 := Denotes.leaf dim a (singles [9, 1, 2, 3, 4]) (by simp [singles, hdim, ha])
  have d1 := Denotes.leaf dim o (singles [9, 0, 10]) (by simp [singles, hdim, ho])
  obtain ⟨b, eb, qb⟩ := Denotes.einsum' (OpsNet.cons d0 (OpsNet.cons d1 OpsNet.nil)) [0, 1, 2, 3, 4, 10] (by decide)
  have hb : b.shape = [p, D1, D2, D3, D4, B] := by rw [qb.shape]; simp [gdim, hdim, singles]
  have hbv : ∀ n e f g h k, n < p → e < D1 → f < D2 → g < D3 → h < D4 → k < B →
      b.val [n, e, f, g, h, k] = ∑ m ∈ Finset.range p, a.val [m, e, f, g, h] * o.val [m, n, k] := by
    intro n e f g h k hn he hf hg hh hk
    have hv := qb.val (fun j => [n, e, f, g, h, 0, 0, 0, 0, 0, k].getD j 0) (by
      simp only [singles_flatten, List.mem_cons, List.not_mem_nil, or_false]
      rintro k (rfl | rfl | rfl | rfl | rfl | rfl) <;> rw [hdim] <;> simpa)
    rw [hdim] at hv
    simp [gidx, ravel, sumOver, Function.update, singles] at hv
    rw [hv]
  have f0 := Denotes.leaf dim b (singles [0, 1, 2, 3, 4, 10]) (by simp [singles, hdim, hb])
  have f1 := (Denotes.leaf dim a (singles [0, 5, 6, 7, 8]) (by simp [singles, hdim, ha])).conj
  obtain ⟨x1, e1, q1⟩ := Denotes.einsum' (OpsNet.cons f0 (OpsNet.cons f1 OpsNet.nil)) [1, 5, 2, 6, 3, 7, 4, 8, 10] (by decide)
  have hx : x1.shape = [D1, D1, D2, D2, D3, D3, D4, D4, B] := by rw [q1.shape]; simp [gdim, hdim, singles]
  have hp : 0 < D1 * (D1 * (D2 * (D2 * (D3 * (D3 * (D4 * D4)))))) := by positivity
  have hinf : x1.shape.prod / [a.size 1 ^ 2, a.size 2 ^ 2, a.size 3 ^ 2, a.size 4 ^ 2].prod = B := by
    simp only [hx, size, ha, List.prod_cons, List.prod_nil, List.getD_cons_zero, List.getD_cons_succ, mul_one]
    rw [show D1 * (D1 * (D2 * (D2 * (D3 * (D3 * (D4 * (D4 * B))))))) = (D1 * (D1 * (D2 * (D2 * (D3 * (D3 * (D4 * D4))))))) * B by ring,
      show D1 ^ 2 * (D2 ^ 2 * (D3 ^ 2 * D4 ^ 2)) = D1 * (D1 * (D2 * (D2 * (D3 * (D3 * (D4 * D4)))))) by ring]
    exact Nat.mul_div_cancel_left B hp
  have hne : [a.size 1 ^ 2, a.size 2 ^ 2, a.size 3 ^ 2, a.size 4 ^ 2].prod ≠ 0 := by
    simp [size, ha]; omega
  obtain ⟨x2, e2, q2⟩ := q1.view [[1, 5], [2, 6], [3, 7], [4, 8], [10]] ([a.size 1 ^ 2, a.size 2 ^ 2, a.size 3 ^ 2, a.size 4 ^ 2] ++ [B]) (by decide)
    (by simp [size, gdim, ha, hdim, pow_two])
  refine ⟨x2, ?_, by rw [q2.shape]; simp [gdim, hdim], ?_⟩
  · simp only [aXa, ho, List.length_cons, List.length_nil, eb]
    show (einsum [(b, [0, 1, 2, 3, 4, 10]), (a.conj, [0, 5, 6, 7, 8])] [1, 5, 2, 6, 3, 7, 4, 8, 10] >>= _) = _
    rw [show einsum [(b, [0, 1, 2, 3, 4, 10]), (a.conj, [0, 5, 6, 7, 8])] [1, 5, 2, 6, 3, 7, 4, 8, 10] = some x1 from e1]
    show viewInfer _ x1 = _
    unfold viewInfer
    rw [if_neg hne, hinf, e2]
  · intro u l d r k hu hl hd hr hk
    have hv := q2.val (fun j => [0, u / D1, l / D2, d / D3, r / D4, u % D1, l % D2, d % D3, r % D4, 0, k].getD j 0) (by
      simp only [List.flatten_cons, List.flatten_nil, List.cons_append, List.nil_append, List.mem_cons, List.not_mem_nil, or_false]
      rintro j (rfl | rfl | rfl | rfl | rfl | rfl | rfl | rfl | rfl) <;> rw [hdim] <;> simp <;>
        first | exact Nat.div_lt_of_lt_mul ‹_› | exact Nat.mod_lt _ ‹_› | assumption)
    rw [hdim] at hv
    simp [gidx, ravel, pair_idx, sumOver, Function.update, singles] at hv
    rw [hv]
    simp only [Spec.layer, size, ha, List.getD_cons_zero, List.getD_cons_succ]
    refine Finset.sum_congr rfl (fun n hn => ?_)
    rw [hbv _ _ _ _ _ _ (Finset.mem_range.1 hn) (Nat.div_lt_of_lt_mul hu) (Nat.div_lt_of_lt_mul hl) (Nat.div_lt_of_lt_mul hd) (Nat.div_lt_of_lt_mul hr) hk,
      Finset.sum_mul]
    exact Finset.sum_congr rfl (fun m _ => by simp only [RCLike.star_def]; ring)

theorem tmCore_right_none {X Y Z M N X' Y' Z' : Nat} {T1 E A T2 : Tensor K} (h1 : T1.shape = [X, M, X']) (hE : E.shape = [X, Y, Z])
    (hA : A.shape = [M, Y, N, Y']) (h2 : T2.shape = [N, Z, Z']) :
    ∃ R, tmCore (tmAxes .right) T1 E A T2 = some R ∧ R.shape = [X', Y', Z'] ∧
      ∀ x' y' z', x' < X' → y' < Y' → z' < Z' → R.val [x', y', z'] = ∑ x ∈ Finset.range X, ∑ y ∈ Finset.range Y, ∑ z ∈ Finset.range Z, ∑ m ∈ Finset.range M, ∑ n ∈ Finset.range N, 
        E.val [x, y, z] * T1.val [x, m, x'] * A.val [m, y, n, y'] * T2.val [n, z, z'] := by
  obtain ⟨dim, hdim⟩ : ∃ dim : Nat → Nat, dim = fun l => [X, Y, Z, M, N, X', Y', Z'].getD l 0 := ⟨_, rfl⟩
  have d1 := Denotes.leaf dim T1 [[0], [3], [5]] (by simp [gdim, hdim, h1])
  have dE := Denotes.leaf dim E [[0], [1], [2]] (by simp [gdim, hdim, hE])
  have dA := Denotes.leaf dim A [[3], [1], [4], [6]] (by simp [gdim, hdim, hA])
  have d2 := Denotes.leaf dim T2 [[4], [2], [7]] (by simp [gdim, hdim, h2])
  obtain ⟨x1, e1, q1⟩ := Denotes.tensordot d1 dE [0] [0] (dotOK_iff (by decide))
  obtain ⟨x2, e2, q2⟩ := Denotes.tensordot q1 dA [0, 2] [0, 1] (dotOK_iff (by decide))
  obtain ⟨x3, e3, q3⟩ := Denotes.tensordot q2 d2 [1, 2] [1, 0] (dotOK_iff (by decide))
  have q : Denotes dim x3 [[5], [6], [7]] [0, 1, 2, 3, 4] [0, 1, 2, 3, 4, 5, 6, 7, 8] (fun σ => E.val [σ 0, σ 1, σ 2] * T1.val [σ 0, σ 3, σ 5] * A.val [σ 3, σ 1, σ 4, σ 6] * T2.val [σ 4, σ 2, σ 7]) :=
    q3.congr (by decide) (by decide) (fun σ => by simp only [List.map_cons, List.map_nil, gidx_single] <;> ring)
  have hl : x3.shape.length = 3 := by rw [q3.shape, List.length_map]; rfl
  refine ⟨x3, by simp [tmCore, tmAxes, hE, e1, e2, e3, hl], by rw [q.shape]; simp [gdim, hdim], ?_⟩
  intro x' y' z' hx' hy' hz'
  have hv := q.val (fun l => [0, 0, 0, 0, 0, x', y', z'].getD l 0) (by
    rw [hdim]
    simp only [List.flatten_cons, List.flatten_nil, List.cons_append, List.nil_append, List.mem_cons, List.not_mem_nil, or_false]
    rintro l (rfl | rfl | rfl) <;> simpa)
  rw [hdim] at hv
  simp [gidx, ravel, sumOver, Function.update] at hv
  exact hv

theorem tmCore_left_none {X Y Z M N X' Y' Z' : Nat} {T1 E A T2 : Tensor K} (h1 : T1.shape = [X', M, X]) (hE : E.shape = [X, Y, Z])
    (hA : A.shape = [M, Y', N, Y]) (h2 : T2.shape = [N, Z', Z]) :
    ∃ R, tmCore (tmAxes .left) T1 E A T2 = some R ∧ R.shape = [X', Y', Z'] ∧
      ∀ x' y' z', x' < X' → y' < Y' → z' < Z' → R.val [x', y', z'] = ∑ x ∈ Finset.range X, ∑ y ∈ Finset.range Y, ∑ z ∈ Finset.range Z, ∑ m ∈ Finset.range M, ∑ n ∈ Finset.range N, 
        E.val [x, y, z] * T1.val [x', m, x] * A.val [m, y', n, y] * T2.val [n, z', z] := by
  obtain ⟨dim, hdim⟩ : ∃ dim : Nat → Nat, dim = fun l => [X, Y, Z, M, N, X', Y', Z'].getD l 0 := ⟨_, rfl⟩
  have d1 := Denotes.leaf dim T1 [[5], [3], [0]] (by simp [gdim, hdim, h1])
  have dE := Denotes.leaf dim E [[0], [1], [2]] (by simp [gdim, hdim, hE])
  have dA := Denotes.leaf dim A [[3], [6], [4], [1]] (by simp [gdim, hdim, hA])
  have d2 := Denotes.leaf dim T2 [[4], [7], [2]] (by simp [gdim, hdim, h2])
  obtain ⟨x1, e1, q1⟩ := Denotes.tensordot d1 dE [2] [0] (dotOK_iff (by decide))
  obtain ⟨x2, e2, q2⟩ := Denotes.tensordot q1 dA [1, 2] [0, 3] (dotOK_iff (by decide))
  obtain ⟨x3, e3, q3⟩ := Denotes.tensordot q2 d2 [1, 3] [2, 0] (dotOK_iff (by decide))
  have q : Denotes dim x3 [[5], [6], [7]] [0, 1, 2, 3, 4] [0, 1, 2, 3, 4, 5, 6, 7, 8] (fun σ => E.val [σ 0, σ 1, σ 2] * T1.val [σ 5, σ 3, σ 0] * A.val [σ 3, σ 6, σ 4, σ 1] * T2.val [σ 4, σ 7, σ 2]) :=
    q3.congr (by decide) (by decide) (fun σ => by simp only [List.map_cons, List.map_nil, gidx_single] <;> ring)
  have hl : x3.shape.length = 3 := by rw [q3.shape, List.length_map]; rfl
  refine ⟨x3, by simp [tmCore, tmAxes, hE, e1, e2, e3, hl], by rw [q.shape]; simp [gdim, hdim], ?_⟩
  intro x' y' z' hx' hy' hz'
  have hv := q.val (fun l => [0, 0, 0, 0, 0, x', y', z'].getD l 0) (by
    rw [hdim]
    simp only [List.flatten_cons, List.flatten_nil, List.cons_append, List.nil_append, List.mem_cons, List.not_mem_nil, or_false]
    rintro l (rfl | rfl | rfl) <;> simpa)
  rw [hdim] at hv
  simp [gidx, ravel, sumOver, Function.update] at hv
  exact hv

theorem tmCore_down_none {X Y Z M N X' Y' Z' : Nat} {T1 E A T2 : Tensor K} (h1 : T1.shape = [X, X', M]) (hE : E.shape = [X, Y, Z])
    (hA : A.shape = [Y, M, Y', N]) (h2 : T2.shape = [Z, N, Z']) :
    ∃ R, tmCore (tmAxes .down) T1 E A T2 = some R ∧ R.shape = [X', Y', Z'] ∧
      ∀ x' y' z', x' < X' → y' < Y' → z' < Z' → R.val [x', y', z'] = ∑ x ∈ Finset.range X, ∑ y ∈ Finset.range Y, ∑ z ∈ Finset.range Z, ∑ m ∈ Finset.range M, ∑ n ∈ Finset.range N, 
        E.val [x, y, z] * T1.val [x, x', m] * A.val [y, m, y', n] * T2.val [z, n, z'] := by
  obtain ⟨dim, hdim⟩ : ∃ dim : Nat → Nat, dim = fun l => [X, Y, Z, M, N, X', Y', Z'].getD l 0 := ⟨_, rfl⟩
  have d1 := Denotes.leaf dim T1 [[0], [5], [3]] (by simp [gdim, hdim, h1])
  have dE := Denotes.leaf dim E [[0], [1], [2]] (by simp [gdim, hdim, hE])
  have dA := Denotes.leaf dim A [[1], [3], [6], [4]] (by simp [gdim, hdim, hA])
  have d2 := Denotes.leaf dim T2 [[2], [4], [7]] (by simp [gdim, hdim, h2])
  obtain ⟨x1, e1, q1⟩ := Denotes.tensordot d1 dE [0] [0] (dotOK_iff (by decide))
  obtain ⟨x2, e2, q2⟩ := Denotes.tensordot q1 dA [1, 2] [1, 0] (dotOK_iff (by decide))
  obtain ⟨x3, e3, q3⟩ := Denotes.tensordot q2 d2 [1, 3] [0, 1] (dotOK_iff (by decide))
  have q : Denotes dim x3 [[5], [6], [7]] [0, 1, 2, 3, 4] [0, 1, 2, 3, 4, 5, 6, 7, 8] (fun σ => E.val [σ 0, σ 1, σ 2] * T1.val [σ 0, σ 5, σ 3] * A.val [σ 1, σ 3, σ 6, σ 4] * T2.val [σ 2, σ 4, σ 7]) :=
    q3.congr (by decide) (by decide) (fun σ => by simp only [List.map_cons, List.map_nil, gidx_single] <;> ring)
  have hl : x3.shape.length = 3 := by rw [q3.shape, List.length_map]; rfl
  refine ⟨x3, by simp [tmCore, tmAxes, hE, e1, e2, e3, hl], by rw [q.shape]; simp [gdim, hdim], ?_⟩
  intro x' y' z' hx' hy' hz'
  have hv := q.val (fun l => [0, 0, 0, 0, 0, x', y', z'].getD l 0) (by
    rw [hdim]
    simp only [List.flatten_cons, List.flatten_nil, List.cons_append, List.nil_append, List.mem_cons, List.not_mem_nil, or_false]
    rintro l (rfl | rfl | rfl) <;> simpa)
  rw [hdim] at hv
  simp [gidx, ravel, sumOver, Function.update] at hv
  exact hv

theorem tmCore_up_none {X Y Z M N X' Y' Z' : Nat} {T1 E A T2 : Tensor K} (h1 : T1.shape = [X', X, M]) (hE : E.shape = [X, Y, Z])
    (hA : A.shape = [Y', M, Y, N]) (h2 : T2.shape = [Z', N, Z]) :
    ∃ R, tmCore (tmAxes .up) T1 E A T2 = some R ∧ R.shape = [X', Y', Z'] ∧
      ∀ x' y' z', x' < X' → y' < Y' → z' < Z' → R.val [x', y', z'] = ∑ x ∈ Finset.range X, ∑ y ∈ Finset.range Y, ∑ z ∈ Finset.range Z, ∑ m ∈ Finset.range M, ∑ n ∈ Finset.range N, 
        E.val [x, y, z] * T1.val [x', x, m] * A.val [y', m, y, n] * T2.val [z', n, z] := by
  obtain ⟨dim, hdim⟩ : ∃ dim : Nat → Nat, dim = fun l => [X, Y, Z, M, N, X', Y', Z'].getD l 0 := ⟨_, rfl⟩
  have d1 := Denotes.leaf dim T1 [[5], [0], [3]] (by simp [gdim, hdim, h1])
  have dE := Denotes.leaf dim E [[0], [1], [2]] (by simp [gdim, hdim, hE])
  have dA := Denotes.leaf dim A [[6], [3], [1], [4]] (by simp [gdim, hdim, hA])
  have d2 := Denotes.leaf dim T2 [[7], [4], [2]] (by simp [gdim, hdim, h2])
  obtain ⟨x1, e1, q1⟩ := Denotes.tensordot d1 dE [1] [0] (dotOK_iff (by decide))
  obtain ⟨x2, e2, q2⟩ := Denotes.tensordot q1 dA [1, 2] [1, 2] (dotOK_iff (by decide))
  obtain ⟨x3, e3, q3⟩ := Denotes.tensordot q2 d2 [1, 3] [2, 1] (dotOK_iff (by decide))
  have q : Denotes dim x3 [[5], [6], [7]] [0, 1, 2, 3, 4] [0, 1, 2, 3, 4, 5, 6, 7, 8] (fun σ => E.val [σ 0, σ 1, σ 2] * T1.val [σ 5, σ 0, σ 3] * A.val [σ 6, σ 3, σ 1, σ 4] * T2.val [σ 7, σ 4, σ 2]) :=
    q3.congr (by decide) (by decide) (fun σ => by simp only [List.map_cons, List.map_nil, gidx_single] <;> ring)
  have hl : x3.shape.length = 3 := by rw [q3.shape, List.length_map]; rfl
  refine ⟨x3, by simp [tmCore, tmAxes, hE, e1, e2, e3, hl], by rw [q.shape]; simp [gdim, hdim], ?_⟩
  intro x' y' z' hx' hy' hz'
  have hv := q.val (fun l => [0, 0, 0, 0, 0, x', y', z'].getD l 0) (by
    rw [hdim]
    simp only [List.flatten_cons, List.flatten_nil, List.cons_append, List.nil_append, List.mem_cons, List.not_mem_nil, or_false]
    rintro l (rfl | rfl | rfl) <;> simpa)
  rw [hdim] at hv
  simp [gidx, ravel, sumOver, Function.update] at hv
  exact hv

theorem tmCore_right_out {X Y Z M N X' Y' Z' B : Nat} {T1 E A T2 : Tensor K} (h1 : T1.shape = [X, M, X']) (hE : E.shape = [X, Y, Z])
    (hA : A.shape = [M, Y, N, Y', B]) (h2 : T2.shape = [N, Z, Z']) :
    ∃ R, tmCore (tmAxes .right) T1 E A T2 = some R ∧ R.shape = [X', Y', Z', B] ∧
      ∀ x' y' z' k, x' < X' → y' < Y' → z' < Z' → k < B → R.val [x', y', z', k] = ∑ x ∈ Finset.range X, ∑ y ∈ Finset.range Y, ∑ z ∈ Finset.range Z, ∑ m ∈ Finset.range M, ∑ n ∈ Finset.range N, 
        E.val [x, y, z] * T1.val [x, m, x'] * A.val [m, y, n, y', k] * T2.val [n, z, z'] := by
  obtain ⟨dim, hdim⟩ : ∃ dim : Nat → Nat, dim = fun l => [X, Y, Z, M, N, X', Y', Z', B].getD l 0 := ⟨_, rfl⟩
  have d1 := Denotes.leaf dim T1 [[0], [3], [5]] (by simp [gdim, hdim, h1])
  have dE := Denotes.leaf dim E [[0], [1], [2]] (by simp [gdim, hdim, hE])
  have dA := Denotes.leaf dim A [[3], [1], [4], [6], [8]] (by simp [gdim, hdim, hA])
  have d2 := Denotes.leaf dim T2 [[4], [2], [7]] (by simp [gdim, hdim, h2])
  obtain ⟨x1, e1, q1⟩ := Denotes.tensordot d1 dE [0] [0] (dotOK_iff (by decide))
  obtain ⟨x2, e2, q2⟩ := Denotes.tensordot q1 dA [0, 2] [0, 1] (dotOK_iff (by decide))
  obtain ⟨x3, e3, q3⟩ := Denotes.tensordot q2 d2 [1, 2] [1, 0] (dotOK_iff (by decide))
  obtain ⟨x4, e4, q4⟩ := Denotes.permute q3 [0, 1, 3, 2] (by decide)
  have q : Denotes dim x4 [[5], [6], [7], [8]] [0, 1, 2, 3, 4] [0, 1, 2, 3, 4, 5, 6, 7, 8] (fun σ => E.val [σ 0, σ 1, σ 2] * T1.val [σ 0, σ 3, σ 5] * A.val [σ 3, σ 1, σ 4, σ 6, σ 8] * T2.val [σ 4, σ 2, σ 7]) :=
    q4.congr (by decide) (by decide) (fun σ => by simp only [List.map_cons, List.map_nil, gidx_single] <;> ring)
  have hl : x3.shape.length = 4 := by rw [q3.shape, List.length_map]; rfl
  refine ⟨x4, by simp [tmCore, tmAxes, hE, e1, e2, e3, hl, e4], by rw [q.shape]; simp [gdim, hdim], ?_⟩
  intro x' y' z' k hx' hy' hz' hk
  have hv := q.val (fun l => [0, 0, 0, 0, 0, x', y', z', k].getD l 0) (by
    rw [hdim]
    simp only [List.flatten_cons, List.flatten_nil, List.cons_append, List.nil_append, List.mem_cons, List.not_mem_nil, or_false]
    rintro l (rfl | rfl | rfl | rfl) <;> simpa)
  rw [hdim] at hv
  simp [gidx, ravel, sumOver, Function.update] at hv
  exact hv

theorem tmCore_left_out {X Y Z M N X' Y' Z' B : Nat} {T1 E A T2 : Tensor K} (h1 : T1.shape = [X', M, X]) (hE : E.shape = [X, Y, Z])
    (hA : A.shape = [M, Y', N, Y, B]) (h2 : T2.shape = [N, Z', Z]) :
    ∃ R, tmCore (tmAxes .left) T1 E A T2 = some R ∧ R.shape = [X', Y', Z', B] ∧
      ∀ x' y' z' k, x' < X' → y' < Y' → z' < Z' → k < B → R.val [x', y', z', k] = ∑ x ∈ Finset.range X, ∑ y ∈ Finset.range Y, ∑ z ∈ Finset.range Z, ∑ m ∈ Finset.range M, ∑ n ∈ Finset.range N, 
        E.val [x, y, z] * T1.val [x', m, x] * A.val [m, y', n, y, k] * T2.val [n, z', z] := by
  obtain ⟨dim, hdim⟩ : ∃ dim : Nat → Nat, dim = fun l => [X, Y, Z, M, N, X', Y', Z', B].getD l 0 := ⟨_, rfl⟩
  have d1 := Denotes.leaf dim T1 [[5], [3], [0]] (by simp [gdim, hdim, h1])
  have dE := Denotes.leaf dim E [[0], [1], [2]] (by simp [gdim, hdim, hE])
  have dA := Denotes.leaf dim A [[3], [6], [4], [1], [8]] (by simp [gdim, hdim, hA])
  have d2 := Denotes.leaf dim T2 [[4], [7], [2]] (by simp [gdim, hdim, h2])
  obtain ⟨x1, e1, q1⟩ := Denotes.tensordot d1 dE [2] [0] (dotOK_iff (by decide))
  obtain ⟨x2, e2, q2⟩ := Denotes.tensordot q1 dA [1, 2] [0, 3] (dotOK_iff (by decide))
  obtain ⟨x3, e3, q3⟩ := Denotes.tensordot q2 d2 [1, 3] [2, 0] (dotOK_iff (by decide))
  obtain ⟨x4, e4, q4⟩ := Denotes.permute q3 [0, 1, 3, 2] (by decide)
  have q : Denotes dim x4 [[5], [6], [7], [8]] [0, 1, 2, 3, 4] [0, 1, 2, 3, 4, 5, 6, 7, 8] (fun σ => E.val [σ 0, σ 1, σ 2] * T1.val [σ 5, σ 3, σ 0] * A.val [σ 3, σ 6, σ 4, σ 1, σ 8] * T2.val [σ 4, σ 7, σ 2]) :=
    q4.congr (by decide) (by decide) (fun σ => by simp only [List.map_cons, List.map_nil, gidx_single] <;> ring)
  have hl : x3.shape.length = 4 := by rw [q3.shape, List.length_map]; rfl
  refine ⟨x4, by simp [tmCore, tmAxes, hE, e1, e2, e3, hl, e4], by rw [q.shape]; simp [gdim, hdim], ?_⟩
  intro x' y' z' k hx' hy' hz' hk
  have hv := q.val (fun l => [0, 0, 0, 0, 0, x', y', z', k].getD l 0) (by
    rw [hdim]
    simp only [List.flatten_cons, List.flatten_nil, List.cons_append, List.nil_append, List.mem_cons, List.not_mem_nil, or_false]
    rintro l (rfl | rfl | rfl | rfl) <;> simpa)
  rw [hdim] at hv
  simp [gidx, ravel, sumOver, Function.update] at hv
  exact hv

theorem tmCore_down_out {X Y Z M N X' Y' Z' B : Nat} {T1 E A T2 : Tensor K} (h1 : T1.shape = [X, X', M]) (hE : E.shape = [X, Y, Z])
    (hA : A.shape = [Y, M, Y', N, B]) (h2 : T2.shape = [Z, N, Z']) :
    ∃ R, tmCore (tmAxes .down) T1 E A T2 = some R ∧ R.shape = [X', Y', Z', B] ∧
      ∀ x' y' z' k, x' < X' → y' < Y' → z' < Z' → k < B → R.val [x', y', z', k] = ∑ x ∈ Finset.range X, ∑ y ∈ Finset.range Y, ∑ z ∈ Finset.range Z, ∑ m ∈ Finset.range M, ∑ n ∈ Finset.range N, 
        E.val [x, y, z] * T1.val [x, x', m] * A.val [y, m, y', n, k] * T2.val [z, n, z'] := by
  obtain ⟨dim, hdim⟩ : ∃ dim : Nat → Nat, dim = fun l => [X, Y, Z, M, N, X', Y', Z', B].getD l 0 := ⟨_, rfl⟩
  have d1 := Denotes.leaf dim T1 [[0], [5], [3]] (by simp [gdim, hdim, h1])
  have dE := Denotes.leaf dim E [[0], [1], [2]] (by simp [gdim, hdim, hE])
  have dA := Denotes.leaf dim A [[1], [3], [6], [4], [8]] (by simp [gdim, hdim, hA])
  have d2 := Denotes.leaf dim T2 [[2], [4], [7]] (by simp [gdim, hdim, h2])
  obtain ⟨x1, e1, q1⟩ := Denotes.tensordot d1 dE [0] [0] (dotOK_iff (by decide))
  obtain ⟨x2, e2, q2⟩ := Denotes.tensordot q1 dA [1, 2] [1, 0] (dotOK_iff (by decide))
  obtain ⟨x3, e3, q3⟩ := Denotes.tensordot q2 d2 [1, 3] [0, 1] (dotOK_iff (by decide))
  obtain ⟨x4, e4, q4⟩ := Denotes.permute q3 [0, 1, 3, 2] (by decide)
  have q : Denotes dim x4 [[5], [6], [7], [8]] [0, 1, 2, 3, 4] [0, 1, 2, 3, 4, 5, 6, 7, 8] (fun σ => E.val [σ 0, σ 1, σ 2] * T1.val [σ 0, σ 5, σ 3] * A.val [σ 1, σ 3, σ 6, σ 4, σ 8] * T2.val [σ 2, σ 4, σ 7]) :=
    q4.congr (by decide) (by decide) (fun σ => by simp only [List.map_cons, List.map_nil, gidx_single] <;> ring)
  have hl : x3.shape.length = 4 := by rw [q3.shape, List.length_map]; rfl
  refine ⟨x4, by simp [tmCore, tmAxes, hE, e1, e2, e3, hl, e4], by rw [q.shape]; simp [gdim, hdim], ?_⟩
  intro x' y' z' k hx' hy' hz' hk
  have hv := q.val (fun l => [0, 0, 0, 0, 0, x', y', z', k].getD l 0) (by
    rw [hdim]
    simp only [List.flatten_cons, List.flatten_nil, List.cons_append, List.nil_append, List.mem_cons, List.not_mem_nil, or_false]
    rintro l (rfl | rfl | rfl | rfl) <;> simpa)
  rw [hdim] at hv
  simp [gidx, ravel, sumOver, Function.update] at hv
  exact hv

theorem tmCore_up_out {X Y Z M N X' Y' Z' B : Nat} {T1 E A T2 : Tensor K} (h1 : T1.shape = [X', X, M]) (hE : E.shape = [X, Y, Z])
    (hA : A.shape = [Y', M, Y, N, B]) (h2 : T2.shape = [Z', N, Z]) :
    ∃ R, tmCore (tmAxes .up) T1 E A T2 = some R ∧ R.shape = [X', Y', Z', B] ∧
      ∀ x' y' z' k, x' < X' → y' < Y' → z' < Z' → k < B → R.val [x', y', z', k] = ∑ x ∈ Finset.range X, ∑ y ∈ Finset.range Y, ∑ z ∈ Finset.range Z, ∑ m ∈ Finset.range M, ∑ n ∈ Finset.range N, 
        E.val [x, y, z] * T1.val [x', x, m] * A.val [y', m, y, n, k] * T2.val [z', n, z] := by
  obtain ⟨dim, hdim⟩ : ∃ dim : Nat → Nat, dim = fun l => [X, Y, Z, M, N, X', Y', Z', B].getD l 0 := ⟨_, rfl⟩
  have d1 := Denotes.leaf dim T1 [[5], [0], [3]] (by simp [gdim, hdim, h1])
  have dE := Denotes.leaf dim E [[0], [1], [2]] (by simp [gdim, hdim, hE])
  have dA := Denotes.leaf dim A [[6], [3], [1], [4], [8]] (by simp [gdim, hdim, hA])
  have d2 := Denotes.leaf dim T2 [[7], [4], [2]] (by simp [gdim, hdim, h2])
  obtain ⟨x1, e1, q1⟩ := Denotes.tensordot d1 dE [1] [0] (dotOK_iff (by decide))
  obtain ⟨x2, e2, q2⟩ := Denotes.tensordot q1 dA [1, 2] [1, 2] (dotOK_iff (by decide))
  obtain ⟨x3, e3, q3⟩ := Denotes.tensordot q2 d2 [1, 3] [2, 1] (dotOK_iff (by decide))
  obtain ⟨x4, e4, q4⟩ := Denotes.permute q3 [0, 1, 3, 2] (by decide)
  have q : Denotes dim x4 [[5], [6], [7], [8]] [0, 1, 2, 3, 4] [0, 1, 2, 3, 4, 5, 6, 7, 8] (fun σ => E.val [σ 0, σ 1, σ 2] * T1.val [σ 5, σ 0, σ 3] * A.val [σ 6, σ 3, σ 1, σ 4, σ 8] * T2.val [σ 7, σ 4, σ 2]) :=
    q4.congr (by decide) (by decide) (fun σ => by simp only [List.map_cons, List.map_nil, gidx_single] <;> ring)
  have hl : x3.shape.length = 4 := by rw [q3.shape, List.length_map]; rfl
  refine ⟨x4, by simp [tmCore, tmAxes, hE, e1, e2, e3, hl, e4], by rw [q.shape]; simp [gdim, hdim], ?_⟩
  intro x' y' z' k hx' hy' hz' hk
  have hv := q.val (fun l => [0, 0, 0, 0, 0, x', y', z', k].getD l 0) (by
    rw [hdim]
    simp only [List.flatten_cons, List.flatten_nil, List.cons_append, List.nil_append, List.mem_cons, List.not_mem_nil, or_false]
    rintro l (rfl | rfl | rfl | rfl) <;> simpa)
  rw [hdim] at hv
  simp [gidx, ravel, sumOver, Function.update] at hv
  exact hv

theorem tmCore_right_in {X Y Z M N X' Y' Z' B : Nat} {T1 E A T2 : Tensor K} (h1 : T1.shape = [X, M, X']) (hE : E.shape = [X, Y, Z, B])
    (hA : A.shape = [M, Y, N, Y', B]) (h2 : T2.shape = [N, Z, Z']) :
    ∃ R, tmCore (tmAxes .right) T1 E A T2 = some R ∧ R.shape = [X', Y', Z'] ∧
      ∀ x' y' z', x' < X' → y' < Y' → z' < Z' → R.val [x', y', z'] = ∑ x ∈ Finset.range X, ∑ y ∈ Finset.range Y, ∑ z ∈ Finset.range Z, ∑ m ∈ Finset.range M, ∑ n ∈ Finset.range N, ∑ k ∈ Finset.range B, 
        E.val [x, y, z, k] * T1.val [x, m, x'] * A.val [m, y, n, y', k] * T2.val [n, z, z'] := by
  obtain ⟨dim, hdim⟩ : ∃ dim : Nat → Nat, dim = fun l => [X, Y, Z, M, N, X', Y', Z', B].getD l 0 := ⟨_, rfl⟩
  have d1 := Denotes.leaf dim T1 [[0], [3], [5]] (by simp [gdim, hdim, h1])
  have dE := Denotes.leaf dim E [[0], [1], [2], [8]] (by simp [gdim, hdim, hE])
  have dA := Denotes.leaf dim A [[3], [1], [4], [6], [8]] (by simp [gdim, hdim, hA])
  have d2 := Denotes.leaf dim T2 [[4], [2], [7]] (by simp [gdim, hdim, h2])
  obtain ⟨x1, e1, q1⟩ := Denotes.tensordot d1 dE [0] [0] (dotOK_iff (by decide))
  obtain ⟨x2, e2, q2⟩ := Denotes.tensordot q1 dA [0, 2, 4] [0, 1, 4] (dotOK_iff (by decide))
  obtain ⟨x3, e3, q3⟩ := Denotes.tensordot q2 d2 [1, 2] [1, 0] (dotOK_iff (by decide))
  have q : Denotes dim x3 [[5], [6], [7]] [0, 1, 2, 3, 4, 8] [0, 1, 2, 3, 4, 5, 6, 7, 8] (fun σ => E.val [σ 0, σ 1, σ 2, σ 8] * T1.val [σ 0, σ 3, σ 5] * A.val [σ 3, σ 1, σ 4, σ 6, σ 8] * T2.val [σ 4, σ 2, σ 7]) :=
    q3.congr (by decide) (by decide) (fun σ => by simp only [List.map_cons, List.map_nil, gidx_single] <;> ring)
  have hl : x3.shape.length = 3 := by rw [q3.shape, List.length_map]; rfl
  refine ⟨x3, by simp [tmCore, tmAxes, hE, e1, e2, e3, hl], by rw [q.shape]; simp [gdim, hdim], ?_⟩
  intro x' y' z' hx' hy' hz'
  have hv := q.val (fun l => [0, 0, 0, 0, 0, x', y', z'].getD l 0) (by
    rw [hdim]
    simp only [List.flatten_cons, List.flatten_nil, List.cons_append, List.nil_append, List.mem_cons, List.not_mem_nil, or_false]
    rintro l (rfl | rfl | rfl) <;> simpa)
  rw [hdim] at hv
  simp [gidx, ravel, sumOver, Function.update] at hv
  exact hv

theorem tmCore_left_in {X Y Z M N X' Y' Z' B : Nat} {T1 E A T2 : Tensor K} (h1 : T1.shape = [X', M, X]) (hE : E.shape = [X, Y, Z, B])
    (hA : A.shape = [M, Y', N, Y, B]) (h2 : T2.shape = [N, Z', Z]) :
    ∃ R, tmCore (tmAxes .left) T1 E A T2 = some R ∧ R.shape = [X', Y', Z'] ∧
      ∀ x' y' z', x' < X' → y' < Y' → z' < Z' → R.val [x', y', z'] = ∑ x ∈ Finset.range X, ∑ y ∈ Finset.range Y, ∑ z ∈ Finset.range Z, ∑ m ∈ Finset.range M, ∑ n ∈ Finset.range N, ∑ k ∈ Finset.range B, 
        E.val [x, y, z, k] * T1.val [x', m, x] * A.val [m, y', n, y, k] * T2.val [n, z', z] := by
  obtain ⟨dim, hdim⟩ : ∃ dim : Nat → Nat, dim = fun l => [X, Y, Z, M, N, X', Y', Z', B].getD l 0 := ⟨_, rfl⟩
  have d1 := Denotes.leaf dim T1 [[5], [3], [0]] (by simp [gdim, hdim, h1])
  have dE := Denotes.leaf dim E [[0], [1], [2], [8]] (by simp [gdim, hdim, hE])
  have dA := Denotes.leaf dim A [[3], [6], [4], [1], [8]] (by simp [gdim, hdim, hA])
  have d2 := Denotes.leaf dim T2 [[4], [7], [2]] (by simp [gdim, hdim, h2])
  obtain ⟨x1, e1, q1⟩ := Denotes.tensordot d1 dE [2] [0] (dotOK_iff (by decide))
  obtain ⟨x2, e2, q2⟩ := Denotes.tensordot q1 dA [1, 2, 4] [0, 3, 4] (dotOK_iff (by decide))
  obtain ⟨x3, e3, q3⟩ := Denotes.tensordot q2 d2 [1, 3] [2, 0] (dotOK_iff (by decide))
  have q : Denotes dim x3 [[5], [6], [7]] [0, 1, 2, 3, 4, 8] [0, 1, 2, 3, 4, 5, 6, 7, 8] (fun σ => E.val [σ 0, σ 1, σ 2, σ 8] * T1.val [σ 5, σ 3, σ 0] * A.val [σ 3, σ 6, σ 4, σ 1, σ 8] * T2.val [σ 4, σ 7, σ 2]) :=
    q3.congr (by decide) (by decide) (fun σ => by simp only [List.map_cons, List.map_nil, gidx_single] <;> ring)
  have hl : x3.shape.length = 3 := by rw [q3.shape, List.length_map]; rfl
  refine ⟨x3, by simp [tmCore, tmAxes, hE, e1, e2, e3, hl], by rw [q.shape]; simp [gdim, hdim], ?_⟩
  intro x' y' z' hx' hy' hz'
  have hv := q.val (fun l => [0, 0, 0, 0, 0, x', y', z'].getD l 0) (by
    rw [hdim]
    simp only [List.flatten_cons, List.flatten_nil, List.cons_append, List.nil_append, List.mem_cons, List.not_mem_nil, or_false]
    rintro l (rfl | rfl | rfl) <;> simpa)
  rw [hdim] at hv
  simp [gidx, ravel, sumOver, Function.update] at hv
  exact hv

theorem tmCore_down_in {X Y Z M N X' Y' Z' B : Nat} {T1 E A T2 : Tensor K} (h1 : T1.shape = [X, X', M]) (hE : E.shape = [X, Y, Z, B])
    (hA : A.shape = [Y, M, Y', N, B]) (h2 : T2.shape = [Z, N, Z']) :
    ∃ R, tmCore (tmAxes .down) T1 E A T2 = some R ∧ R.shape = [X', Y', Z'] ∧
      ∀ x' y' z', x' < X' → y' < Y' → z' < Z' → R.val [x', y', z'] = ∑ x ∈ Finset.range X, ∑ y ∈ Finset.range Y, ∑ z ∈ Finset.range Z, ∑ m ∈ Finset.range M, ∑ n ∈ Finset.range N, ∑ k ∈ Finset.range B, 
        E.val [x, y, z, k] * T1.val [x, x', m] * A.val [y, m, y', n, k] * T2.val [z, n, z'] := by
  obtain ⟨dim, hdim⟩ : ∃ dim : Nat → Nat, dim = fun l => [X, Y, Z, M, N, X', Y', Z', B].getD l 0 := ⟨_, rfl⟩
  have d1 := Denotes.leaf dim T1 [[0], [5], [3]] (by simp [gdim, hdim, h1])
  have dE := Denotes.leaf dim E [[0], [1], [2], [8]] (by simp [gdim, hdim, hE])
  have dA := Denotes.leaf dim A [[1], [3], [6], [4], [8]] (by simp [gdim, hdim, hA])
  have d2 := Denotes.leaf dim T2 [[2], [4], [7]] (by simp [gdim, hdim, h2])
  obtain ⟨x1, e1, q1⟩ := Denotes.tensordot d1 dE [0] [0] (dotOK_iff (by decide))
  obtain ⟨x2, e2, q2⟩ := Denotes.tensordot q1 dA [1, 2, 4] [1, 0, 4] (dotOK_iff (by decide))
  obtain ⟨x3, e3, q3⟩ := Denotes.tensordot q2 d2 [1, 3] [0, 1] (dotOK_iff (by decide))
  have q : Denotes dim x3 [[5], [6], [7]] [0, 1, 2, 3, 4, 8] [0, 1, 2, 3, 4, 5, 6, 7, 8] (fun σ => E.val [σ 0, σ 1, σ 2, σ 8] * T1.val [σ 0, σ 5, σ 3] * A.val [σ 1, σ 3, σ 6, σ 4, σ 8] * T2.val [σ 2, σ 4, σ 7]) :=
    q3.congr (by decide) (by decide) (fun σ => by simp only [List.map_cons, List.map_nil, gidx_single] <;> ring)
  have hl : x3.shape.length = 3 := by rw [q3.shape, List.length_map]; rfl
  refine ⟨x3, by simp [tmCore, tmAxes, hE, e1, e2, e3, hl], by rw [q.shape]; simp [gdim, hdim], ?_⟩
  intro x' y' z' hx' hy' hz'
  have hv := q.val (fun l => [0, 0, 0, 0, 0, x', y', z'].getD l 0) (by
    rw [hdim]
    simp only [List.flatten_cons, List.flatten_nil, List.cons_append, List.nil_append, List.mem_cons, List.not_mem_nil, or_false]
    rintro l (rfl | rfl | rfl) <;> simpa)
  rw [hdim] at hv
  simp [gidx, ravel, sumOver, Function.update] at hv
  exact hv

theorem tmCore_up_in {X Y Z M N X' Y' Z' B : Nat} {T1 E A T2 : Tensor K} (h1 : T1.shape = [X', X, M]) (hE : E.shape = [X, Y, Z, B])
    (hA : A.shape = [Y', M, Y, N, B]) (h2 : T2.shape = [Z', N, Z]) :
    ∃ R, tmCore (tmAxes .up) T1 E A T2 = some R ∧ R.shape = [X', Y', Z'] ∧
      ∀ x' y' z', x' < X' → y' < Y' → z' < Z' → R.val [x', y', z'] = ∑ x ∈ Finset.range X, ∑ y ∈ Finset.range Y, ∑ z ∈ Finset.range Z, ∑ m ∈ Finset.range M, ∑ n ∈ Finset.range N, ∑ k ∈ Finset.range B, 
        E.val [x, y, z, k] * T1.val [x', x, m] * A.val [y', m, y, n, k] * T2.val [z', n, z] := by
  obtain ⟨dim, hdim⟩ : ∃ dim : Nat → Nat, dim = fun l => [X, Y, Z, M, N, X', Y', Z', B].getD l 0 := ⟨_, rfl⟩
  have d1 := Denotes.leaf dim T1 [[5], [0], [3]] (by simp [gdim, hdim, h1])
  have dE := Denotes.leaf dim E [[0], [1], [2], [8]] (by simp [gdim, hdim, hE])
  have dA := Denotes.leaf dim A [[6], [3], [1], [4], [8]] (by simp [gdim, hdim, hA])
  have d2 := Denotes.leaf dim T2 [[7], [4], [2]] (by simp [gdim, hdim, h2])
  obtain ⟨x1, e1, q1⟩ := Denotes.tensordot d1 dE [1] [0] (dotOK_iff (by decide))
  obtain ⟨x2, e2, q2⟩ := Denotes.tensordot q1 dA [1, 2, 4] [1, 2, 4] (dotOK_iff (by decide))
  obtain ⟨x3, e3, q3⟩ := Denotes.tensordot q2 d2 [1, 3] [2, 1] (dotOK_iff (by decide))
  have q : Denotes dim x3 [[5], [6], [7]] [0, 1, 2, 3, 4, 8] [0, 1, 2, 3, 4, 5, 6, 7, 8] (fun σ => E.val [σ 0, σ 1, σ 2, σ 8] * T1.val [σ 5, σ 0, σ 3] * A.val [σ 6, σ 3, σ 1, σ 4, σ 8] * T2.val [σ 7, σ 4, σ 2]) :=
    q3.congr (by decide) (by decide) (fun σ => by simp only [List.map_cons, List.map_nil, gidx_single] <;> ring)
  have hl : x3.shape.length = 3 := by rw [q3.shape, List.length_map]; rfl
  refine ⟨x3, by simp [tmCore, tmAxes, hE, e1, e2, e3, hl], by rw [q.shape]; simp [gdim, hdim], ?_⟩
  intro x' y' z' hx' hy' hz'
  have hv := q.val (fun l => [0, 0, 0, 0, 0, x', y', z'].getD l 0) (by
    rw [hdim]
    simp only [List.flatten_cons, List.flatten_nil, List.cons_append, List.nil_append, List.mem_cons, List.not_mem_nil, or_false]
    rintro l (rfl | rfl | rfl) <;> simpa)
  rw [hdim] at hv
  simp [gidx, ravel, sumOver, Function.update] at hv
  exact hv

/-- The entries of an edge. -/
def Rep (s : Nat × Nat × Nat) (E : Tensor K) (f : Spec.Vec K) : Prop :=
  E.shape = [s.1, s.2.1, s.2.2] ∧ ∀ x y z, x < s.1 → y < s.2.1 → z < s.2.2 → E.val [x, y, z] = f x y z

theorem shape_of {o : Option (Tensor K)} {t : Tensor K} {sh : List Nat} (h : Has o sh) (e : o = some t) : t.shape = sh := by
  obtain ⟨t', e', s⟩ := h
  rw [e] at e'
  cases e'
  exact s

theorem getEdge_up {D : Dims} {st : State K} {env : Env K} {N : Spec.Tensors K} (he : FitsEnv D st env) (hN : Spec.Reads st env N) (c : Coord) :
    ∃ E, getEdge st env .up c = some E ∧ Rep (D.el c, D.U c * D.U c, D.er c) E (Spec.edge N D .up c) := by
  have sA : (N.lu c).shape = _ := shape_of (he.lu c) (hN.lu c)
  have sT : (N.tu c).shape = _ := shape_of (he.tu c) (hN.tu c)
  have sB : (N.ru c).shape = _ := shape_of (he.ru c) (hN.ru c)
  obtain ⟨dim, hdim⟩ : ∃ dim : Nat → Nat, dim = fun l => [D.el c, D.U c * D.U c, D.er c, D.eu c, D.eu (rt c)].getD l 0 := ⟨_, rfl⟩
  have dA := Denotes.leaf dim (N.lu c) [[0], [3]] (by simp [gdim, hdim, sA])
  have dT := Denotes.leaf dim (N.tu c) [[3], [1], [4]] (by simp [gdim, hdim, sT])
  have dB := Denotes.leaf dim (N.ru c) [[4], [2]] (by simp [gdim, hdim, sB])
  obtain ⟨x1, e1, q1⟩ := Denotes.tensordot dT dB [2] [0] (dotOK_iff (by decide))
  obtain ⟨x2, e2, q2⟩ := Denotes.tensordot dA q1 [1] [0] (dotOK_iff (by decide))
  have q : Denotes dim x2 [[0], [1], [2]] [3, 4] [0, 1, 2, 3, 4] (fun σ => (N.lu c).val [σ 0, σ 3] * (N.tu c).val [σ 3, σ 1, σ 4] * (N.ru c).val [σ 4, σ 2]) :=
    q2.congr (by decide) (by decide) (fun σ => by simp only [List.map_cons, List.map_nil, gidx_single] <;> ring)
  refine ⟨x2, by simp [getEdge, Dir.vec, hN.lu c, hN.tu c, hN.ru c, e1, e2], by rw [q.shape]; simp [gdim, hdim], ?_⟩
  intro x y z hx hy hz
  have hv := q.val (fun l => [x, y, z].getD l 0) (by
    rw [hdim]
    simp only [List.flatten_cons, List.flatten_nil, List.cons_append, List.nil_append, List.mem_cons, List.not_mem_nil, or_false]
    rintro l (rfl | rfl | rfl) <;> simpa)
  rw [hdim] at hv
  simp [gidx, ravel, sumOver, Function.update] at hv
  exact hv

theorem getEdge_left {D : Dims} {st : State K} {env : Env K} {N : Spec.Tensors K} (he : FitsEnv D st env) (hN : Spec.Reads st env N) (c : Coord) :
    ∃ E, getEdge st env .left c = some E ∧ Rep (D.eu c, D.L c * D.L c, D.ed c) E (Spec.edge N D .left c) := by
  have sA : (N.lu c).shape = _ := shape_of (he.lu c) (hN.lu c)
  have sT : (N.tl c).shape = _ := shape_of (he.tl c) (hN.tl c)
  have sB : (N.ld c).shape = _ := shape_of (he.ld c) (hN.ld c)
  obtain ⟨dim, hdim⟩ : ∃ dim : Nat → Nat, dim = fun l => [D.eu c, D.L c * D.L c, D.ed c, D.el c, D.el (dn c)].getD l 0 := ⟨_, rfl⟩
  have dA := Denotes.leaf dim (N.lu c) [[3], [0]] (by simp [gdim, hdim, sA])
  have dT := Denotes.leaf dim (N.tl c) [[3], [4], [1]] (by simp [gdim, hdim, sT])
  have dB := Denotes.leaf dim (N.ld c) [[4], [2]] (by simp [gdim, hdim, sB])
  obtain ⟨x1, e1, q1⟩ := Denotes.tensordot dA dT [0] [0] (dotOK_iff (by decide))
  obtain ⟨x2, e2, q2⟩ := Denotes.tensordot q1 dB [1] [0] (dotOK_iff (by decide))
  have q : Denotes dim x2 [[0], [1], [2]] [3, 4] [0, 1, 2, 3, 4] (fun σ => (N.lu c).val [σ 3, σ 0] * (N.tl c).val [σ 3, σ 4, σ 1] * (N.ld c).val [σ 4, σ 2]) :=
    q2.congr (by decide) (by decide) (fun σ => by simp only [List.map_cons, List.map_nil, gidx_single] <;> ring)
  refine ⟨x2, by simp [getEdge, Dir.vec, hN.lu c, hN.tl c, hN.ld c, e1, e2], by rw [q.shape]; simp [gdim, hdim], ?_⟩
  intro x y z hx hy hz
  have hv := q.val (fun l => [x, y, z].getD l 0) (by
    rw [hdim]
    simp only [List.flatten_cons, List.flatten_nil, List.cons_append, List.nil_append, List.mem_cons, List.not_mem_nil, or_false]
    rintro l (rfl | rfl | rfl) <;> simpa)
  rw [hdim] at hv
  simp [gidx, ravel, sumOver, Function.update] at hv
  exact hv

theorem getEdge_down {D : Dims} {st : State K} {env : Env K} {N : Spec.Tensors K} (he : FitsEnv D st env) (hN : Spec.Reads st env N) (c : Coord) :
    ∃ E, getEdge st env .down c = some E ∧ Rep (D.el (dn c), D.U (dn c) * D.U (dn c), D.er (dn c)) E (Spec.edge N D .down c) := by
  have sA : (N.ld c).shape = _ := shape_of (he.ld c) (hN.ld c)
  have sT : (N.td c).shape = _ := shape_of (he.td c) (hN.td c)
  have sB : (N.rd c).shape = _ := shape_of (he.rd c) (hN.rd c)
  obtain ⟨dim, hdim⟩ : ∃ dim : Nat → Nat, dim = fun l => [D.el (dn c), D.U (dn c) * D.U (dn c), D.er (dn c), D.ed c, D.ed (rt c)].getD l 0 := ⟨_, rfl⟩
  have dA := Denotes.leaf dim (N.ld c) [[0], [3]] (by simp [gdim, hdim, sA])
  have dT := Denotes.leaf dim (N.td c) [[1], [3], [4]] (by simp [gdim, hdim, sT])
  have dB := Denotes.leaf dim (N.rd c) [[2], [4]] (by simp [gdim, hdim, sB])
  obtain ⟨x1, e1, q1⟩ := Denotes.tensordot dA dT [1] [1] (dotOK_iff (by decide))
  obtain ⟨x2, e2, q2⟩ := Denotes.tensordot q1 dB [2] [1] (dotOK_iff (by decide))
  have q : Denotes dim x2 [[0], [1], [2]] [3, 4] [0, 1, 2, 3, 4] (fun σ => (N.ld c).val [σ 0, σ 3] * (N.td c).val [σ 1, σ 3, σ 4] * (N.rd c).val [σ 2, σ 4]) :=
    q2.congr (by decide) (by decide) (fun σ => by simp only [List.map_cons, List.map_nil, gidx_single] <;> ring)
  refine ⟨x2, by simp [getEdge, Dir.vec, hN.ld c, hN.td c, hN.rd c, e1, e2], by rw [q.shape]; simp [gdim, hdim], ?_⟩
  intro x y z hx hy hz
  have hv := q.val (fun l => [x, y, z].getD l 0) (by
    rw [hdim]
    simp only [List.flatten_cons, List.flatten_nil, List.cons_append, List.nil_append, List.mem_cons, List.not_mem_nil, or_false]
    rintro l (rfl | rfl | rfl) <;> simpa)
  rw [hdim] at hv
  simp [gidx, ravel, sumOver, Function.update] at hv
  exact hv

theorem getEdge_right {D : Dims} {st : State K} {env : Env K} {N : Spec.Tensors K} (he : FitsEnv D st env) (hN : Spec.Reads st env N) (c : Coord) :
    ∃ E, getEdge st env .right c = some E ∧ Rep (D.eu (rt c), D.L (rt c) * D.L (rt c), D.ed (rt c)) E (Spec.edge N D .right c) := by
  have sA : (N.ru c).shape = _ := shape_of (he.ru c) (hN.ru c)
  have sT : (N.tr c).shape = _ := shape_of (he.tr c) (hN.tr c)
  have sB : (N.rd c).shape = _ := shape_of (he.rd c) (hN.rd c)
  obtain ⟨dim, hdim⟩ : ∃ dim : Nat → Nat, dim = fun l => [D.eu (rt c), D.L (rt c) * D.L (rt c), D.ed (rt c), D.er c, D.er (dn c)].getD l 0 := ⟨_, rfl⟩
  have dA := Denotes.leaf dim (N.ru c) [[0], [3]] (by simp [gdim, hdim, sA])
  have dT := Denotes.leaf dim (N.tr c) [[3], [1], [4]] (by simp [gdim, hdim, sT])
  have dB := Denotes.leaf dim (N.rd c) [[4], [2]] (by simp [gdim, hdim, sB])
  obtain ⟨x1, e1, q1⟩ := Denotes.tensordot dT dB [2] [0] (dotOK_iff (by decide))
  obtain ⟨x2, e2, q2⟩ := Denotes.tensordot dA q1 [1] [0] (dotOK_iff (by decide))
  have q : Denotes dim x2 [[0], [1], [2]] [3, 4] [0, 1, 2, 3, 4] (fun σ => (N.ru c).val [σ 0, σ 3] * (N.tr c).val [σ 3, σ 1, σ 4] * (N.rd c).val [σ 4, σ 2]) :=
    q2.congr (by decide) (by decide) (fun σ => by simp only [List.map_cons, List.map_nil, gidx_single] <;> ring)
  refine ⟨x2, by simp [getEdge, Dir.vec, hN.ru c, hN.tr c, hN.rd c, e1, e2], by rw [q.shape]; simp [gdim, hdim], ?_⟩
  intro x y z hx hy hz
  have hv := q.val (fun l => [x, y, z].getD l 0) (by
    rw [hdim]
    simp only [List.flatten_cons, List.flatten_nil, List.cons_append, List.nil_append, List.mem_cons, List.not_mem_nil, or_false]
    rintro l (rfl | rfl | rfl) <;> simpa)
  rw [hdim] at hv
  simp [gidx, ravel, sumOver, Function.update] at hv
  exact hv

end Verif.Corrf
