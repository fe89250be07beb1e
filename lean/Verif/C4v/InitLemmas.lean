import Verif.C4v.InitSpec
import Verif.C4v.Lemmas
import Verif.Tensor.Einsum
import Mathlib.LinearAlgebra.Matrix.NonsingularInverse
/-
Lemmas on the initial C4v environments.
-/
namespace Verif.C4v
open Tensor Ctm Corner.Spec
set_option linter.unusedSimpArgs false
variable {K : Type} [RCLike K]

/-- A network that is conjugated by a relabelling of its labels. -/
theorem net_herm {dim r : Nat → Nat} {O : List (List Nat)} {L : List Nat} {F : (Nat → Nat) → K} {N : Tensor K} (h : IsNetwork dim N O L F)
    (hr : ∀ l, r (r l) = l) (hd : ∀ l, dim (r l) = dim l) (hL : (L.map r).Perm L) (hO : ∀ l ∈ O.flatten, r l ∈ O.flatten)
    (hF : ∀ τ : Nat → Nat, (∀ l ∈ O.flatten ++ L, τ l < dim l) → F (fun l => τ (r l)) = star (F τ)) (σ : Nat → Nat) (hσ : ∀ l ∈ O.flatten, σ l < dim l) :
    N.val (O.map (gidx dim (fun l => σ (r l)))) = star (N.val (O.map (gidx dim σ))) := by
  have h1 := h.2 (fun l => σ (r l)) (fun g hg l hl => by
    rw [← hd l]; exact hσ _ (hO l (List.mem_flatten.2 ⟨g, hg, hl⟩)))
  have h2 := h.2 σ (fun g hg l hl => hσ _ (List.mem_flatten.2 ⟨g, hg, hl⟩))
  have e1 : N.val (O.map (gidx dim (fun l => σ (r l)))) = sumOver dim L F (fun l => σ (r l)) := h1
  have e2 : N.val (O.map (gidx dim σ)) = sumOver dim L F σ := h2
  rw [e1, e2, sumOver_relabel dim r hr hd, star_sumOver, sumOver_perm dim hL]
  refine sumOver_congr _ _ _ _ _ (fun τ t1 t2 => ?_)
  refine hF τ (fun l hl => ?_)
  by_cases hm : l ∈ L
  · exact t1 l hm
  · rw [t2 l hm]
    rcases List.mem_append.1 hl with hl | hl
    · exact hσ l hl
    · exact absurd hl hm

section
variable {p D : Nat} {a : Tensor K}

theorem legDim_eq (hs : a.shape = [p, D, D, D, D]) (l : Nat) : Ctm.Spec.legDim a l = if l % 5 = 0 then p else D := by
  have h : l % 5 = 0 ∨ l % 5 = 1 ∨ l % 5 = 2 ∨ l % 5 = 3 ∨ l % 5 = 4 := by omega
  rcases h with h | h | h | h | h <;> simp [Ctm.Spec.legDim, hs, h]

/-- Exchange of up with left and of down with right. -/
def rC (l : Nat) : Nat := if l < 10 then [0, 2, 1, 4, 3, 5, 7, 6, 9, 8].getD l 0 else l

/-- Exchange of up with down. -/
def rT (l : Nat) : Nat := if l < 10 then [0, 3, 2, 1, 4, 5, 8, 7, 6, 9].getD l 0 else l

theorem rC_rC (l : Nat) : rC (rC l) = l := by
  by_cases h : l < 10
  · revert l; decide
  · simp [rC, h]

theorem rT_rT (l : Nat) : rT (rT l) = l := by
  by_cases h : l < 10
  · revert l; decide
  · simp [rT, h]

theorem dim_rC (hs : a.shape = [p, D, D, D, D]) (l : Nat) : Ctm.Spec.legDim a (rC l) = Ctm.Spec.legDim a l := by
  rw [legDim_eq hs, legDim_eq hs]
  have : rC l % 5 = 0 ↔ l % 5 = 0 := by
    by_cases h : l < 10
    · revert l; decide
    · simp [rC, h]
  simp only [this]

theorem dim_rT (hs : a.shape = [p, D, D, D, D]) (l : Nat) : Ctm.Spec.legDim a (rT l) = Ctm.Spec.legDim a l := by
  rw [legDim_eq hs, legDim_eq hs]
  have : rT l % 5 = 0 ↔ l % 5 = 0 := by
    by_cases h : l < 10
    · revert l; decide
    · simp [rT, h]
  simp only [this]

theorem gdim2 (hs : a.shape = [p, D, D, D, D]) {k b : Nat} (hk : k % 5 ≠ 0) (hb : b % 5 ≠ 0) : gdim (Ctm.Spec.legDim a) [k, b] = D * D := by
  simp [gdim, legDim_eq hs, hk, hb]

/-- A network with the two open pairs of a corner is a Hermitian matrix. -/
theorem corner_herm (hs : a.shape = [p, D, D, D, D]) {L : List Nat} {F : (Nat → Nat) → K} {N : Tensor K}
    (h : IsNetwork (Ctm.Spec.legDim a) N [[3, 8], [4, 9]] L F) (hL : (L.map rC).Perm L)
    (hF : ∀ τ : Nat → Nat, (∀ l ∈ [3, 8, 4, 9] ++ L, τ l < Ctm.Spec.legDim a l) → F (fun l => τ (rC l)) = star (F τ)) :
    N.shape = [D * D, D * D] ∧ ∀ x y, x < D * D → y < D * D → N.val [x, y] = star (N.val [y, x]) := by
  have hsh : N.shape = [D * D, D * D] := by
    rw [h.1]; simp [legDim_eq hs]
  refine ⟨hsh, fun x y hx hy => ?_⟩
  have hidx : InB ([[3, 8], [4, 9]].map (gdim (Ctm.Spec.legDim a))) [y, x] := by
    simp only [List.map_cons, List.map_nil, gdim2 hs (k := 3) (b := 8) (by decide) (by decide), gdim2 hs (k := 4) (b := 9) (by decide) (by decide)]
    exact inB2 hy hx
  obtain ⟨σ, s1, hσ⟩ := exists_groups _ _ (by decide) [y, x] hidx
  have := net_herm h rC_rC (dim_rC hs) hL (by decide) hF σ s1
  rw [hσ] at this
  rw [← this]
  congr 1
  simp only [List.map_cons, List.map_nil, List.cons.injEq, and_true] at hσ
  rw [← hσ.1, ← hσ.2]
  simp [gidx, legDim_eq hs, rC]

/-- A network with the three open pairs of a half-row tensor is Hermitian in its first two. -/
theorem half_herm (hs : a.shape = [p, D, D, D, D]) {L : List Nat} {F : (Nat → Nat) → K} {N : Tensor K}
    (h : IsNetwork (Ctm.Spec.legDim a) N [[1, 6], [3, 8], [4, 9]] L F) (hL : (L.map rT).Perm L)
    (hF : ∀ τ : Nat → Nat, (∀ l ∈ [1, 6, 3, 8, 4, 9] ++ L, τ l < Ctm.Spec.legDim a l) → F (fun l => τ (rT l)) = star (F τ)) :
    N.shape = [D * D, D * D, D * D] ∧ ∀ x y s, x < D * D → y < D * D → s < D * D → N.val [x, y, s] = star (N.val [y, x, s]) := by
  have hsh : N.shape = [D * D, D * D, D * D] := by
    rw [h.1]; simp [legDim_eq hs]
  refine ⟨hsh, fun x y s hx hy hss => ?_⟩
  have hidx : InB ([[1, 6], [3, 8], [4, 9]].map (gdim (Ctm.Spec.legDim a))) [y, x, s] := by
    simp only [List.map_cons, List.map_nil, gdim2 hs (k := 3) (b := 8) (by decide) (by decide), gdim2 hs (k := 4) (b := 9) (by decide) (by decide),
      gdim2 hs (k := 1) (b := 6) (by decide) (by decide)]
    exact inB3 hy hx hss
  obtain ⟨σ, s1, hσ⟩ := exists_groups _ _ (by decide) [y, x, s] hidx
  have := net_herm h rT_rT (dim_rT hs) hL (by decide) hF σ s1
  rw [hσ] at this
  rw [← this]
  congr 1
  simp only [List.map_cons, List.map_nil, List.cons.injEq, and_true] at hσ
  rw [← hσ.1, ← hσ.2.1, ← hσ.2.2]
  simp [gidx, legDim_eq hs, rT]

theorem bnd (hs : a.shape = [p, D, D, D, D]) {ls : List Nat} {τ : Nat → Nat} (h : ∀ l ∈ ls, τ l < Ctm.Spec.legDim a l) :
    (0 ∈ ls → τ 0 < p) ∧ ∀ l ∈ ls, l % 5 ≠ 0 → τ l < D := by
  refine ⟨fun h0 => ?_, fun l hl hn => ?_⟩
  · have := h 0 h0; rwa [legDim_eq hs, if_pos (by decide)] at this
  · have := h l hl; rwa [legDim_eq hs, if_neg hn] at this

theorem pbcC_conj (hs : a.shape = [p, D, D, D, D]) (hr : Spec.Reflected D p a) (τ : Nat → Nat) (h : ∀ l ∈ [3, 8, 4, 9] ++ [0, 1, 2], τ l < Ctm.Spec.legDim a l) :
    Ctm.Spec.ketBra [0, 1, 2] a (fun l => τ (rC l)) = star (Ctm.Spec.ketBra [0, 1, 2] a τ) := by
  obtain ⟨h0, hb⟩ := bnd hs h
  have e1 : Ctm.Spec.ketBra [0, 1, 2] a (fun l => τ (rC l)) = a.val [τ 0, τ 2, τ 1, τ 4, τ 3] * star (a.val [τ 0, τ 2, τ 1, τ 9, τ 8]) := rfl
  have e2 : Ctm.Spec.ketBra [0, 1, 2] a τ = a.val [τ 0, τ 1, τ 2, τ 3, τ 4] * star (a.val [τ 0, τ 1, τ 2, τ 8, τ 9]) := rfl
  have b : ∀ l ∈ [1, 2, 3, 4, 8, 9], τ l < D := fun l hl => hb l (by revert l; decide) (by revert l; decide)
  rw [e1, e2, hr (τ 0) (τ 2) (τ 1) (τ 4) (τ 3) (h0 (by decide)) (b 2 (by decide)) (b 1 (by decide)) (b 4 (by decide)) (b 3 (by decide)),
    hr (τ 0) (τ 2) (τ 1) (τ 9) (τ 8) (h0 (by decide)) (b 2 (by decide)) (b 1 (by decide)) (b 9 (by decide)) (b 8 (by decide))]
  simp only [star_mul', star_star]

theorem pbcT_conj (hs : a.shape = [p, D, D, D, D]) (hr : Spec.Flipped D p a) (τ : Nat → Nat) (h : ∀ l ∈ [1, 6, 3, 8, 4, 9] ++ [0, 2], τ l < Ctm.Spec.legDim a l) :
    Ctm.Spec.ketBra [0, 2] a (fun l => τ (rT l)) = star (Ctm.Spec.ketBra [0, 2] a τ) := by
  obtain ⟨h0, hb⟩ := bnd hs h
  have e1 : Ctm.Spec.ketBra [0, 2] a (fun l => τ (rT l)) = a.val [τ 0, τ 3, τ 2, τ 1, τ 4] * star (a.val [τ 0, τ 8, τ 2, τ 6, τ 9]) := rfl
  have e2 : Ctm.Spec.ketBra [0, 2] a τ = a.val [τ 0, τ 1, τ 2, τ 3, τ 4] * star (a.val [τ 0, τ 6, τ 2, τ 8, τ 9]) := rfl
  have b : ∀ l ∈ [1, 2, 3, 4, 6, 8, 9], τ l < D := fun l hl => hb l (by revert l; decide) (by revert l; decide)
  rw [e1, e2, hr (τ 0) (τ 3) (τ 2) (τ 1) (τ 4) (h0 (by decide)) (b 3 (by decide)) (b 2 (by decide)) (b 1 (by decide)) (b 4 (by decide)),
    hr (τ 0) (τ 8) (τ 2) (τ 6) (τ 9) (h0 (by decide)) (b 8 (by decide)) (b 2 (by decide)) (b 6 (by decide)) (b 9 (by decide))]
  simp only [star_mul', star_star]

theorem obcC_conj (hs : a.shape = [p, D, D, D, D]) (hr : Spec.Reflected D p a) (τ : Nat → Nat) (h : ∀ l ∈ [3, 8, 4, 9] ++ [0, 1, 6, 2, 7], τ l < Ctm.Spec.legDim a l) :
    Ctm.Spec.ketBra [0] a (fun l => τ (rC l)) = star (Ctm.Spec.ketBra [0] a τ) := by
  obtain ⟨h0, hb⟩ := bnd hs h
  have e1 : Ctm.Spec.ketBra [0] a (fun l => τ (rC l)) = a.val [τ 0, τ 2, τ 1, τ 4, τ 3] * star (a.val [τ 0, τ 7, τ 6, τ 9, τ 8]) := rfl
  have e2 : Ctm.Spec.ketBra [0] a τ = a.val [τ 0, τ 1, τ 2, τ 3, τ 4] * star (a.val [τ 0, τ 6, τ 7, τ 8, τ 9]) := rfl
  have b : ∀ l ∈ [1, 2, 3, 4, 6, 7, 8, 9], τ l < D := fun l hl => hb l (by revert l; decide) (by revert l; decide)
  rw [e1, e2, hr (τ 0) (τ 2) (τ 1) (τ 4) (τ 3) (h0 (by decide)) (b 2 (by decide)) (b 1 (by decide)) (b 4 (by decide)) (b 3 (by decide)),
    hr (τ 0) (τ 7) (τ 6) (τ 9) (τ 8) (h0 (by decide)) (b 7 (by decide)) (b 6 (by decide)) (b 9 (by decide)) (b 8 (by decide))]
  simp only [star_mul', star_star]

theorem obcT_conj (hs : a.shape = [p, D, D, D, D]) (hr : Spec.Flipped D p a) (τ : Nat → Nat) (h : ∀ l ∈ [1, 6, 3, 8, 4, 9] ++ [0, 2, 7], τ l < Ctm.Spec.legDim a l) :
    Ctm.Spec.ketBra [0] a (fun l => τ (rT l)) = star (Ctm.Spec.ketBra [0] a τ) := by
  obtain ⟨h0, hb⟩ := bnd hs h
  have e1 : Ctm.Spec.ketBra [0] a (fun l => τ (rT l)) = a.val [τ 0, τ 3, τ 2, τ 1, τ 4] * star (a.val [τ 0, τ 8, τ 7, τ 6, τ 9]) := rfl
  have e2 : Ctm.Spec.ketBra [0] a τ = a.val [τ 0, τ 1, τ 2, τ 3, τ 4] * star (a.val [τ 0, τ 6, τ 7, τ 8, τ 9]) := rfl
  have b : ∀ l ∈ [1, 2, 3, 4, 6, 7, 8, 9], τ l < D := fun l hl => hb l (by revert l; decide) (by revert l; decide)
  rw [e1, e2, hr (τ 0) (τ 3) (τ 2) (τ 1) (τ 4) (h0 (by decide)) (b 3 (by decide)) (b 2 (by decide)) (b 1 (by decide)) (b 4 (by decide)),
    hr (τ 0) (τ 8) (τ 7) (τ 6) (τ 9) (h0 (by decide)) (b 8 (by decide)) (b 7 (by decide)) (b 6 (by decide)) (b 9 (by decide))]
  simp only [star_mul', star_star]

/-- Division by a positive number keeps conjugation. -/
theorem norm_conj {N N' : Tensor K} (hN : Ctm.Spec.Normalised true N N') {i j : List Nat} (hi : InB N.shape i) (hj : InB N.shape j) (h : N.val i = star (N.val j)) :
    N'.val i = star (N'.val j) := by
  obtain ⟨s, hs, hv⟩ := hN.scale
  have h1 := hv i hi
  have h2 := hv j hj
  have hs' : (s : K) ≠ 0 := RCLike.ofReal_ne_zero.2 hs.ne'
  have : N'.val i * (s : K) = star (N'.val j) * (s : K) := by
    rw [h1, h, ← h2]
    simp
  exact mul_right_cancel₀ hs' this

end

/-- The sum of squares of zeros. -/
theorem vecNorm_of_zero {A : Tensor K} (h : ∀ idx, InB A.shape idx → A.val idx = 0) : vecNorm false A = 0 := by
  have : (indices A.shape).map (fun i => ‖A.val i‖) = (indices A.shape).map (fun _ => (0 : ℝ)) :=
    List.map_congr_left (fun i hi => by rw [h i (mem_indices.1 hi), norm_zero])
  simp only [vecNorm, this]
  simp

theorem checkSym_ok {x y : Tensor K} (hs : x.shape = y.shape) (h0 : vecNorm true x ≠ 0) (h : ∀ idx, InB x.shape idx → y.val idx = x.val idx) :
    checkSym x y = .ok () := by
  unfold checkSym
  rw [if_pos]
  refine ⟨hs, h0, ?_⟩
  rw [vecNorm_of_zero (fun idx hi => by simp only [h idx hi, sub_self])]
  norm_num

theorem Normalised.ne {N N' : Tensor K} (h : Ctm.Spec.Normalised true N N') : vecNorm true N' ≠ 0 := by
  intro h0
  obtain ⟨idx, hi, h1⟩ := (h.unitInf rfl).2
  rw [vecNorm_zero h0 idx (by rw [h.shape]; exact hi), norm_zero] at h1
  exact zero_ne_one h1

/-- Orthonormal columns of a square matrix give orthonormal rows. -/
theorem unitary_of_cols {U : Nat → Nat → K} {n : Nat} (h : ∀ i j, i < n → j < n → ∑ x ∈ Finset.range n, star (U x i) * U x j = if i = j then 1 else 0) :
    Spec.Unitary U n := by
  refine ⟨h, fun x y hx hy => ?_⟩
  let V : Matrix (Fin n) (Fin n) K := fun x i => U x i
  have h1 : V.conjTranspose * V = 1 := by
    ext i j
    rw [Matrix.mul_apply, Matrix.one_apply]
    have := h i j i.2 j.2
    rw [Finset.sum_range] at this
    simp only [Matrix.conjTranspose_apply, V, Fin.ext_iff]
    exact this
  have h2 := mul_eq_one_comm.1 h1
  have := congrFun (congrFun h2 ⟨x, hx⟩) ⟨y, hy⟩
  rw [Matrix.mul_apply, Matrix.one_apply] at this
  rw [Finset.sum_range]
  simp only [Fin.ext_iff] at this
  exact this

theorem inB_of_embeds {n m k i j s : Nat} : InB [n, m, k] [i, j, s] ↔ i < n ∧ j < m ∧ s < k := by simp [InB]

theorem inB2' {n m i j : Nat} : InB [n, m] [i, j] ↔ i < n ∧ j < m := by simp [InB]

/-- Cut or padded with zeros. -/
theorem put_ok {chi : Nat} (ls : List (Nat × Bool)) (s : Nat → Nat) {a : Tensor K} (ha : a.shape = ls.map (fun l => s l.1)) :
    ∃ B, put (ls.map (fun l => if l.2 then chi else s l.1)) (ls.map (fun l => if l.2 then min chi (s l.1) else s l.1)) a = .ok B ∧
      B.shape = ls.map (fun l => if l.2 then chi else s l.1) ∧ Ctm.Spec.Embeds a B := by
  obtain ⟨a', B, e1, e2, e3, e4⟩ := slice_assign (chi := chi) ha
  refine ⟨B, ?_, e3, e4⟩
  unfold put
  rw [e1]
  simp only [lift, ok_bind]
  rw [e2]

/-- Change of basis of the half-row tensor. -/
theorem basis_val {U t : Tensor K} {n k : Nat} (hU : U.shape = [n, n]) (ht : t.shape = [n, n, k]) :
    ∃ N, einsum [(U, [0, 3]), (t, [0, 1, 2]), (U.conj, [1, 4])] [3, 4, 2] = some N ∧ N.shape = [n, n, k] ∧
      ∀ i j s, i < n → j < n → s < k → N.val [i, j, s] = ∑ x ∈ Finset.range n, ∑ y ∈ Finset.range n, U.val [x, i] * t.val [x, y, s] * star (U.val [y, j]) := by
  obtain ⟨N, e, hs, hv⟩ := einsum_ok (fun l => if l = 2 then k else n) [(U, [0, 3]), (t, [0, 1, 2]), (U.conj, [1, 4])] [3, 4, 2] (by
    intro q hq
    simp only [List.mem_cons, List.not_mem_nil, or_false] at hq
    rcases hq with rfl | rfl | rfl <;> simp [hU, ht, conj]) (by decide) (by
      show ∀ l ∈ [3, 4, 2], l ∈ [0, 3, 0, 1, 2, 1, 4]
      decide)
  refine ⟨N, e, by rw [hs]; rfl, fun i j s hi hj hss => ?_⟩
  have := hv (fun l => if l = 3 then i else if l = 4 then j else s) (by
    intro l hl
    simp only [List.mem_cons, List.not_mem_nil, or_false] at hl
    rcases hl with rfl | rfl | rfl <;> simp [hi, hj, hss])
  refine Eq.trans (by rfl) (this.trans ?_)
  have hL : (([(U, [0, 3]), (t, [0, 1, 2]), (U.conj, [1, 4])] : List (Tensor K × List Nat)).flatMap Prod.snd).dedup.filter (fun l => l ∉ [3, 4, 2]) = [0, 1] := by
    show ([0, 3, 0, 1, 2, 1, 4].dedup).filter (fun l => l ∉ [3, 4, 2]) = [0, 1]
    decide
  rw [hL]
  show ∑ x ∈ Finset.range n, ∑ y ∈ Finset.range n, _ = _
  refine Finset.sum_congr rfl (fun x _ => Finset.sum_congr rfl (fun y _ => ?_))
  show U.val [x, i] * (t.val [x, y, s] * (star (U.val [y, j]) * 1)) = _
  ring

end Verif.C4v
