import Verif.Kagome.TriModel
import Verif.Kagome.TriSpec
import Verif.Kagome.Props
import Mathlib.Algebra.BigOperators.Fin
import Mathlib.Logic.Equiv.Fin.Basic
/-
An operator inserted into a double-layer tensor, and networks without open spins.
-/
namespace Verif.KagomeRdm
open Tensor Rdm Ctm
set_option linter.unusedSectionVars false
variable {K : Type} [RCLike K]

theorem index_enc {p : Nat} (s : Spec.Spins p) : Spec.index s = enc p (s 0) (s 1) (s 2) := by
  unfold Spec.index enc; ring

theorem index_lt {p : Nat} (s : Spec.Spins p) : Spec.index s < p ^ 3 := by
  have h0 := (s 0).2
  have h1 := (s 1).2
  have h2 := (s 2).2
  unfold Spec.index
  calc (s 0 : Nat) * p ^ 2 + s 1 * p + s 2 < s 0 * p ^ 2 + s 1 * p + p := by omega
    _ = s 0 * p ^ 2 + (s 1 + 1) * p := by ring
    _ ≤ s 0 * p ^ 2 + p * p := Nat.add_le_add_left (Nat.mul_le_mul_right p h1) _
    _ = (s 0 + 1) * p ^ 2 := by ring
    _ ≤ p * p ^ 2 := Nat.mul_le_mul_right _ h0
    _ = p ^ 3 := by ring

theorem sum_spins {M : Type} [AddCommMonoid M] (p : Nat) (f : Nat → M) : ∑ s ∈ Finset.range (p ^ 3), f s = ∑ s : Spec.Spins p, f (Spec.index s) := by
  rw [Finset.sum_range]
  refine (Fintype.sum_equiv ((Equiv.arrowCongr Fin.revPerm (Equiv.refl (Fin p))).trans finFunctionFinEquiv) _ _ (fun s => ?_)).symm
  simp only [Equiv.trans_apply, finFunctionFinEquiv_apply, Fin.sum_univ_three]
  congr 1
  unfold Spec.index
  simp [Equiv.arrowCongr, Fin.revPerm, Fin.rev]
  ring

theorem sum_pairs (p : Nat) (F : Nat → Nat → K) :
    ∑ s ∈ Finset.range (p ^ 3), ∑ t ∈ Finset.range (p ^ 3), F s t = ∑ s : Spec.Spins p, ∑ t : Spec.Spins p, F (Spec.index s) (Spec.index t) := by
  rw [sum_spins]
  exact Finset.sum_congr rfl fun s _ => sum_spins p _

theorem fuseOp_ok {p : Nat} {o : Tensor K} {O : Spec.Op3 K p} (h : Spec.Represents o O) :
    (o.shape.length = 2 ∨ o.shape.length = 6) ∧
      ∃ o', fuseOp o = some o' ∧ o'.shape = [p ^ 3, p ^ 3] ∧ ∀ t s : Spec.Spins p, o'.val [Spec.index t, Spec.index s] = O t s := by
  rcases h with ⟨h1, h2⟩ | ⟨h1, h2⟩
  · refine ⟨by simp [h1], ?_⟩
    unfold fuseOp
    rw [if_pos (by simp [h1]), if_pos (by simp [h1]), view, if_pos (by simp [h1, size]; ring)]
    refine ⟨_, rfl, by simp [size, h1], fun t s => ?_⟩
    have e : ravel [p ^ 3, p ^ 3] [Spec.index t, Spec.index s] = ravel [p, p, p, p, p, p] [t 0, t 1, t 2, s 0, s 1, s 2] := by
      simp [ravel, Spec.index]; ring
    simp only [size, h1, List.getD_cons_zero]
    rw [e, unravel_ravel (.cons (t 0).2 (.cons (t 1).2 (.cons (t 2).2 (.cons (s 0).2 (.cons (s 1).2 (.cons (s 2).2 .nil)))))), h2]
  · refine ⟨by simp [h1], o, ?_, h1, h2⟩
    unfold fuseOp
    rw [if_pos (by simp [h1]), if_neg (by simp [h1])]

theorem dlOp_val (A o : Tensor K) (P d1 d2 d3 d4 : Nat) (hA : A.shape = [P, d1, d2, d3, d4]) (ho : o.shape = [P, P]) :
    ∃ a, dlOp A o = some a ∧ a.shape = [d1 * d1, d2 * d2, d3 * d3, d4 * d4] ∧
      ∀ U L D R : Nat, U < d1 * d1 → L < d2 * d2 → D < d3 * d3 → R < d4 * d4 →
        a.val [U, L, D, R] = ∑ s ∈ Finset.range P, ∑ t ∈ Finset.range P, o.val [t, s] * lay A s t U L D R := by
  let dim : Nat → Nat := fun l => [P, d1, d2, d3, d4, d1, d2, d3, d4, P].getD l 0
  obtain ⟨a, e, q⟩ := dlOp_denotes dim A o 0 1 2 3 4 5 6 7 8 9 (by decide) (by simp [dim, hA]) (by simp [dim, ho]) rfl rfl rfl rfl rfl
  refine ⟨a, e, by rw [q.shape]; simp [gdim, dim], ?_⟩
  intro U L D R hU hL hD hR
  let σ : Nat → Nat := fun l => [0, U / d1, L / d2, D / d3, R / d4, U % d1, L % d2, D % d3, R % d4, 0].getD l 0
  have pos : ∀ {x d : Nat}, x < d * d → 0 < d := fun {x d} h => by
    rcases Nat.eq_zero_or_pos d with rfl | h'
    · simp at h
    · exact h'
  have hv := q.val σ (by
    simp only [List.flatten_cons, List.flatten_nil, List.append_nil, List.cons_append, List.nil_append, List.forall_mem_cons, List.not_mem_nil, false_imp_iff,
      implies_true, and_true]
    exact ⟨Nat.div_lt_of_lt_mul hU, Nat.mod_lt _ (pos hU), Nat.div_lt_of_lt_mul hL, Nat.mod_lt _ (pos hL), Nat.div_lt_of_lt_mul hD, Nat.mod_lt _ (pos hD),
      Nat.div_lt_of_lt_mul hR, Nat.mod_lt _ (pos hR)⟩)
  have hg : ∀ (x d i j : Nat), σ i = x / d → σ j = x % d → dim j = d → gidx dim σ [i, j] = x := by
    intro x d i j h1 h2 h3
    simp [gidx, ravel, h1, h2, h3, Nat.div_add_mod']
  simp only [List.map_cons, List.map_nil] at hv
  rw [hg U d1 1 5 rfl rfl rfl, hg L d2 2 6 rfl rfl rfl, hg D d3 3 7 rfl rfl rfl, hg R d4 4 8 rfl rfl rfl] at hv
  rw [hv]
  simp only [sumOver]
  refine Finset.sum_congr rfl fun s _ => Finset.sum_congr rfl fun t _ => ?_
  simp only [lay, size, hA, List.getD_cons_zero, List.getD_cons_succ]
  simp [Function.update, σ]
  ring

theorem dlClosed_val (A : Tensor K) (P d1 d2 d3 d4 : Nat) (hA : A.shape = [P, d1, d2, d3, d4]) :
    ∃ a, dlClosed A = some a ∧ a.shape = [d1 * d1, d2 * d2, d3 * d3, d4 * d4] ∧
      ∀ U L D R : Nat, U < d1 * d1 → L < d2 * d2 → D < d3 * d3 → R < d4 * d4 → a.val [U, L, D, R] = ∑ s ∈ Finset.range P, lay A s s U L D R := by
  let dim : Nat → Nat := fun l => [P, d1, d2, d3, d4, d1, d2, d3, d4].getD l 0
  have d0 := Denotes.leaf dim A (singles [0, 1, 2, 3, 4]) (by simp [singles, dim, hA])
  have d1' := (Denotes.leaf dim A (singles [0, 5, 6, 7, 8]) (by simp [singles, dim, hA])).conj
  obtain ⟨x1, e1, q1⟩ := Denotes.einsum' (OpsNet.cons d0 (OpsNet.cons d1' OpsNet.nil)) [1, 5, 2, 6, 3, 7, 4, 8] (by decide)
  obtain ⟨a, e2, q⟩ := q1.view [[1, 5], [2, 6], [3, 7], [4, 8]] [A.size 1 ^ 2, A.size 2 ^ 2, A.size 3 ^ 2, A.size 4 ^ 2] (by decide)
    (by simp [size, gdim, hA, dim, pow_two])
  refine ⟨a, by simp [dlClosed, e1, e2], by rw [q.shape]; simp [gdim, dim], ?_⟩
  intro U L D R hU hL hD hR
  let σ : Nat → Nat := fun l => [0, U / d1, L / d2, D / d3, R / d4, U % d1, L % d2, D % d3, R % d4].getD l 0
  have pos : ∀ {x d : Nat}, x < d * d → 0 < d := fun {x d} h => by
    rcases Nat.eq_zero_or_pos d with rfl | h'
    · simp at h
    · exact h'
  have hv := q.val σ (by
    simp only [List.flatten_cons, List.flatten_nil, List.append_nil, List.cons_append, List.nil_append, List.forall_mem_cons, List.not_mem_nil, false_imp_iff,
      implies_true, and_true]
    exact ⟨Nat.div_lt_of_lt_mul hU, Nat.mod_lt _ (pos hU), Nat.div_lt_of_lt_mul hL, Nat.mod_lt _ (pos hL), Nat.div_lt_of_lt_mul hD, Nat.mod_lt _ (pos hD),
      Nat.div_lt_of_lt_mul hR, Nat.mod_lt _ (pos hR)⟩)
  have hg : ∀ (x d i j : Nat), σ i = x / d → σ j = x % d → dim j = d → gidx dim σ [i, j] = x := by
    intro x d i j h1 h2 h3
    simp [gidx, ravel, h1, h2, h3, Nat.div_add_mod']
  simp only [List.map_cons, List.map_nil] at hv
  rw [hg U d1 1 5 rfl rfl rfl, hg L d2 2 6 rfl rfl rfl, hg D d3 3 7 rfl rfl rfl, hg R d4 4 8 rfl rfl rfl] at hv
  rw [hv]
  simp only [singles_gidx, mul_one]
  refine Finset.sum_congr rfl fun s _ => ?_
  simp only [lay, size, hA, List.getD_cons_zero, List.getD_cons_succ]
  rfl

theorem opened_closed (p : Nat) (A : Tensor K) (U L D R : Nat) : opened p A (fun _ => none) U L D R = ∑ s ∈ Finset.range (p ^ 3), lay A s s U L D R := by
  unfold opened
  rw [three_spins p (fun _ => none) (by simp) (fun s t => lay A s t U L D R)]
  simp only [pairSum]
  rw [sum_cube]

theorem opened_all {p : Nat} (A : Tensor K) (k b : Nat → Nat) (hk : ∀ x, k x < p) (hb : ∀ x, b x < p) (U L D R : Nat) :
    opened p A (pairOf [0, 1, 2] k b) U L D R = lay A (enc p (k 0) (k 1) (k 2)) (enc p (b 0) (b 1) (b 2)) U L D R := by
  unfold opened
  rw [three_spins p (pairOf [0, 1, 2] k b) (fun x => pairOf_lt _ hk hb x) (fun s t => lay A s t U L D R)]
  rfl

theorem marginal_nil {p n : Nat} (T : Tensor K) (k b : Nat → Nat) : Spec.marginal p n T [] k b = Matrix.trace (Rdm.Spec.op (List.replicate n (p ^ 3)) T) := by
  rw [trace_op]
  unfold Spec.marginal
  refine sumIdx_congr _ fun s hs => ?_
  rw [sumIdx_single _ s hs, if_pos]
  · intro x _; simp
  · intro t ht hne
    rw [if_neg]
    intro h
    exact hne (spins_inj ht hs (fun x hx => by have := h x hx; simpa using this.symm))

/-- The network without open spins, with any double-layer tensors of the right sizes. -/
theorem plaq_closed {dim : Nat → Nat} {e : PlaqEnv K} {s : PlaqSites K} (h : Rdm.Spec.FitsP dim e s) {A B E D : Tensor K}
    (sA : A.shape = [dim 2 * dim 2, dim 3 * dim 3, dim 16 * dim 16, dim 37 * dim 37]) (sB : B.shape = [dim 20 * dim 20, dim 37 * dim 37, dim 34 * dim 34, dim 21 * dim 21])
    (sE : E.shape = [dim 16 * dim 16, dim 9 * dim 9, dim 10 * dim 10, dim 39 * dim 39]) (sD : D.shape = [dim 34 * dim 34, dim 39 * dim 39, dim 29 * dim 29, dim 28 * dim 28])
    (f g i j : Nat → Nat → Nat → Nat → K)
    (vA : ∀ U L D' R, U < dim 2 * dim 2 → L < dim 3 * dim 3 → D' < dim 16 * dim 16 → R < dim 37 * dim 37 → A.val [U, L, D', R] = f U L D' R)
    (vB : ∀ U L D' R, U < dim 20 * dim 20 → L < dim 37 * dim 37 → D' < dim 34 * dim 34 → R < dim 21 * dim 21 → B.val [U, L, D', R] = g U L D' R)
    (vE : ∀ U L D' R, U < dim 16 * dim 16 → L < dim 9 * dim 9 → D' < dim 10 * dim 10 → R < dim 39 * dim 39 → E.val [U, L, D', R] = i U L D' R)
    (vD : ∀ U L D' R, U < dim 34 * dim 34 → L < dim 39 * dim 39 → D' < dim 29 * dim 29 → R < dim 28 * dim 28 → D.val [U, L, D', R] = j U L D' R) :
    ∃ LU RU LD RD X, lu e.C1 e.T1 e.T4 A false = some LU ∧ ru e.C2 e.T2x e.T1x B false = some RU ∧ ld e.C4 e.T4y e.T3y E false = some LD ∧
      rd e.C3 e.T3xy e.T2xy D false = some RD ∧ join2x2 LU RU RD LD false false false false = some X ∧ X.shape = [] ∧ X.val [] = plaqF dim e f g i j := by
  obtain ⟨hC1, hT1, hT4, hT4y, hC4, hT3y, hT1x, hC2, hT2x, hT2xy, hC3, hT3xy, ha, ha0, ha1, ha2, ha3, ha4, hax, hax0, hax1, hax2, hax3, hax4, hay, hay0, hay1, hay2, hay3, hay4, haxy, haxy0, haxy1, haxy2, haxy3, haxy4⟩ := h
  obtain ⟨LU, eLU, qLU⟩ := lu_denotes (fdim dim (fun _ => 0)) e.C1 e.T1 e.T4 A false (by simp [fdim, fused, hC1]) (by simp [fdim, fused, hT1, ha1])
    (by simp [fdim, fused, hT4, ha2]) (by rw [sA]; simp [fdim, fused, lab])
  obtain ⟨RU, eRU, qRU⟩ := ru_denotes (fdim dim (fun _ => 0)) e.C2 e.T2x e.T1x B false (by simp [fdim, fused, hC2]) (by simp [fdim, fused, hT2x, hax4])
    (by simp [fdim, fused, hT1x, hax1]) (by rw [sB]; simp [fdim, fused, lab])
  obtain ⟨RD, eRD, qRD⟩ := rd_denotes (fdim dim (fun _ => 0)) e.C3 e.T3xy e.T2xy D false (by simp [fdim, fused, hC3]) (by simp [fdim, fused, hT3xy, haxy3])
    (by simp [fdim, fused, hT2xy, haxy4]) (by rw [sD]; simp [fdim, fused, lab])
  obtain ⟨LD, eLD, qLD⟩ := ld_denotes (fdim dim (fun _ => 0)) e.C4 e.T4y e.T3y E false (by simp [fdim, fused, hC4]) (by simp [fdim, fused, hT4y, hay2])
    (by simp [fdim, fused, hT3y, hay3]) (by rw [sE]; simp [fdim, fused, lab])
  obtain ⟨X, eX, qX⟩ := join2x2_denotes (fdim dim (fun _ => 0)) false false false false qLU qRU qRD qLD
  refine ⟨LU, RU, LD, RD, X, eLU, eRU, eLD, eRD, eX, by rw [qX.shape]; rfl, ?_⟩
  have hv := qX.val (fun _ => 0) (by simp [lab, singles])
  refine (show X.val [] = _ from hv).trans ?_
  refine sumOver_plaq dim (fun _ => 0) e _ _ _ _ _ (fun _ => 0) (fun τ hb' _ => ?_)
  simp only [innerF, List.forall_mem_cons, List.not_mem_nil, false_imp_iff, implies_true, and_true] at hb'
  obtain ⟨b0, b1, b2, b3, b7, b8, b9, b10, b15, b16, b18, b19, b20, b21, b26, b27, b28, b29, b33, b34, b36, b37, b39, b41⟩ := hb'
  have l : ∀ n, lab false n = [] := fun _ => rfl
  simp only [l, List.map_nil, List.append_nil]
  rw [vA _ _ _ _ b2 b3 b16 b37, vB _ _ _ _ b20 b37 b34 b21, vE _ _ _ _ b16 b9 b10 b39, vD _ _ _ _ b34 b39 b29 b28]
  rfl

end Verif.KagomeRdm
