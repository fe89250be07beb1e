import Verif.Ctm.MoveProj
import Mathlib.Data.Matrix.Mul
import Mathlib.LinearAlgebra.Matrix.ConjTranspose
/-
Property C23: the projectors of `ctm_get_projectors_from_matrices`.
-/
namespace Verif.Ctm
open Tensor Matrix
variable {K : Type} [RCLike K]

namespace Spec
/-- A rank-2 tensor as a matrix. -/
def mat (m n : Nat) (A : Tensor K) : Matrix (Fin m) (Fin n) K := fun i j => A.val [i, j]

/-- The `j`-th singular value. -/
def sv (d : Svd K) (j : Nat) : ℝ := d.S.getD j 0

/-- `d` consists of `k` singular triples of `M`, in order of decreasing singular value. The values left out are arbitrary. -/
structure TruncSvd {m n : Nat} (M : Matrix (Fin m) (Fin n) K) (d : Svd K) (k : Nat) : Prop where
  pos : 0 < k
  U : d.U.shape = [m, k]
  S : d.S.length = k
  V : d.V.shape = [n, k]
  orthU : (mat m k d.U)ᴴ * mat m k d.U = 1
  orthV : (mat n k d.V)ᴴ * mat n k d.V = 1
  right : M * mat n k d.V = mat m k d.U * diagonal (fun j : Fin k => ((sv d j : ℝ) : K))
  left : (mat m k d.U)ᴴ * M = diagonal (fun j : Fin k => ((sv d j : ℝ) : K)) * (mat n k d.V)ᴴ
  sorted : d.S.Pairwise (· ≥ ·)
  nonneg : ∀ s ∈ d.S, 0 ≤ s

/-- The singular values that are inverted: those above the relative tolerance. -/
def Kept (reltol : ℝ) (d : Svd K) (j : Nat) : Prop := sv d j / sv d 0 > reltol
end Spec
open Spec

theorem filter_sorted {p : ℝ → Bool} (hp : ∀ a b, p a = true → a ≤ b → p b = true) (l : List ℝ) (hl : l.Pairwise (· ≥ ·)) (j : Nat) (hj : j < l.length) :
    (j < (l.filter p).length ↔ p (l.getD j 0) = true) ∧ (j < (l.filter p).length → (l.filter p).getD j 0 = l.getD j 0) := by
  induction l generalizing j with
  | nil => simp at hj
  | cons a l ih =>
    rw [List.pairwise_cons] at hl
    by_cases ha : p a = true
    · rw [List.filter_cons_of_pos ha]
      cases j with
      | zero => simp [ha]
      | succ j =>
        have := ih hl.2 j (by simpa using hj)
        simpa using this
    · have h0 : l.filter p = [] := by
        rw [List.filter_eq_nil_iff]
        intro b hb hc
        exact ha (hp b a hc (hl.1 b hb))
      rw [List.filter_cons_of_neg ha, h0]
      refine ⟨⟨fun h => by simp at h, fun h => ?_⟩, fun h => by simp at h⟩
      exfalso
      cases j with
      | zero => exact ha (by simpa using h)
      | succ j =>
        have hjl : j < l.length := by simpa using hj
        have : l.getD j 0 ∈ l := by rw [List.getD_eq_getElem?_getD, List.getElem?_eq_getElem hjl]; exact List.getElem_mem hjl
        exact ha (hp _ a (by simpa using h) (hl.1 _ this))

open Classical in
theorem recipRoots_getD {r : ℝ} {S : List ℝ} (hs : S.Pairwise (· ≥ ·)) (hn : ∀ s ∈ S, 0 ≤ s) {j : Nat} (hj : j < S.length) :
    (recipRoots r S).getD j 0 = (if S.getD j 0 / S.getD 0 0 > r then 1 / Real.sqrt (S.getD j 0) else 0) ∧
    (j < (nonzero r S).length ↔ S.getD j 0 / S.getD 0 0 > r) := by
  have hh : S.headD 0 = S.getD 0 0 := by cases S <;> rfl
  have h0 : 0 ≤ S.getD 0 0 := by
    cases S with
    | nil => simp at hj
    | cons a l => exact hn a (by simp)
  have := filter_sorted (p := fun s => decide (s / S.headD 0 > r)) (by
    intro a b ha hab
    simp only [decide_eq_true_eq] at ha ⊢
    rw [hh] at ha ⊢
    exact lt_of_lt_of_le ha (div_le_div_of_nonneg_right hab h0)) S hs j hj
  have hf : S.filter (fun s => decide (s / S.headD 0 > r)) = nonzero r S := rfl
  rw [hf] at this
  simp only [decide_eq_true_eq, hh] at this
  refine ⟨?_, this.1⟩
  unfold recipRoots
  split
  · rename_i hc
    have hl := this.1.2 hc
    rw [← this.2 hl, List.getD_eq_getElem?_getD, List.getElem?_append_left (by simpa using hl), List.getElem?_map, List.getElem?_eq_getElem hl]
    simp [List.getElem?_eq_getElem hl]
  · rename_i hc
    have hl : ¬ j < (nonzero r S).length := fun h => hc (this.1.1 h)
    rw [List.getD_eq_getElem?_getD, List.getElem?_append_right (by simpa using hl), List.getElem?_replicate]
    split <;> rfl

open Classical in
/-- **C23**. For every truncated SVD of `R^T Rt`: the projectors are biorthogonal on the kept singular values and zero on the others;
`Pt P^T` is a projector; inserting it between `R` and `Rt` gives the truncated SVD of `R^T Rt`. If the decomposition is complete and only
zeros are cut off, `R^T Rt` is unchanged. -/
theorem C23_projectors {args : Args} {svd : Tensor K → Nat → Svd K} {R Rt : Tensor K} {x y chi k : Nat} (hR : R.shape = [x, y]) (hRt : Rt.shape = [x, y])
    (hr : 0 ≤ args.reltol) (hsvd : ∀ M, M.shape = [y, y] → mat y y M = (mat x y R)ᵀ * mat x y Rt → TruncSvd (mat y y M) (svd M chi) k) :
    ∃ P Pt n d, projectorsFrom args svd R Rt chi = some (P, Pt) ∧ P.shape = [x, n] ∧ Pt.shape = [x, n] ∧
      TruncSvd ((mat x y R)ᵀ * mat x y Rt) d k ∧
      (args.full = true → n = k) ∧ (args.full = false → ∀ j < k, j < n ↔ Kept args.reltol d j) ∧
      (mat x n P)ᵀ * mat x n Pt = diagonal (fun j : Fin n => if Kept args.reltol d j then 1 else 0) ∧
      (mat x n Pt * (mat x n P)ᵀ) * (mat x n Pt * (mat x n P)ᵀ) = mat x n Pt * (mat x n P)ᵀ ∧
      (mat x y R)ᵀ * (mat x n Pt * (mat x n P)ᵀ) * mat x y Rt =
        mat y k d.U * diagonal (fun j : Fin k => if Kept args.reltol d j then ((sv d j : ℝ) : K) else 0) * (mat y k d.V)ᴴ ∧
      ((mat x y R)ᵀ * mat x y Rt = mat y k d.U * diagonal (fun j : Fin k => ((sv d j : ℝ) : K)) * (mat y k d.V)ᴴ → (∀ j < k, ¬ Kept args.reltol d j → sv d j = 0) →
        (mat x y R)ᵀ * (mat x n Pt * (mat x n P)ᵀ) * mat x y Rt = (mat x y R)ᵀ * mat x y Rt) := by
  obtain ⟨X, -, e1, -, -, h1, v1⟩ := perm10 (Same.refl R) hR
  obtain ⟨M, -, e2, -, -, h2, v2⟩ := td10 (Same.refl X) (Same.refl Rt) h1 hRt
  have hM : mat y y (canon M) = (mat x y R)ᵀ * mat x y Rt := by
    ext i j
    simp only [mat, Matrix.mul_apply, transpose_apply]
    rw [← (canon_same M).2 _ (by rw [h2]; exact .cons i.2 (.cons j.2 .nil)), v2 i j i.2 j.2, Finset.sum_range]
    exact Finset.sum_congr rfl (fun l _ => by rw [v1 i l i.2 l.2])
  have hT := hsvd (canon M) h2 hM
  rw [hM] at hT
  generalize hd : svd (canon M) chi = d at hT
  have hU := hT.U
  have hV := hT.V
  have hS := hT.S
  have hne : d.S ≠ [] := by intro h; simp [h] at hS; have := hT.pos; omega
  set n := cols args d.S with hn
  have hnk : n ≤ k := hS ▸ cols_le args d.S
  have eU : firstCols n d.U = some ⟨[y, n], d.U.val⟩ := by simp [firstCols, hU, hnk]
  have eV : firstCols n d.V = some ⟨[y, n], d.V.val⟩ := by simp [firstCols, hV, hnk]
  have hl : ((recipRoots args.reltol d.S).take n).length = n := by simp [recipRoots_length, hS, hnk]
  obtain ⟨W, -, e3, -, -, h3, v3⟩ := td10 (Same.refl R) (Same.refl (Tensor.conj (⟨[y, n], d.U.val⟩ : Tensor K))) hR (z := n) rfl
  obtain ⟨Z, -, e4, -, -, h4, v4⟩ := td10 (Same.refl Rt) (Same.refl (⟨[y, n], d.V.val⟩ : Tensor K)) hRt (z := n) rfl
  obtain ⟨P, -, e5, -, -, h5, v5⟩ := scaleCols_same (Same.refl W) h3 hl
  obtain ⟨Pt, -, e6, -, -, h6, v6⟩ := scaleCols_same (Same.refl Z) h4 hl
  have hn' : (if args.full = true then d.S.length else (nonzero args.reltol d.S).length) = n := rfl
  have hkept : ∀ j < k, (recipRoots args.reltol d.S).getD j 0 = (if Kept args.reltol d j then 1 / Real.sqrt (sv d j) else 0) ∧
      (j < (nonzero args.reltol d.S).length ↔ Kept args.reltol d j) := fun j hj => recipRoots_getD hT.sorted hT.nonneg (hS ▸ hj)
  have hjn : ∀ j < k, Kept args.reltol d j → j < n := by
    intro j hj hK
    simp only [hn, cols]
    split
    · omega
    · exact (hkept j hj).2.2 hK
  set s : Fin n → K := fun j => (((if Kept args.reltol d j then 1 / Real.sqrt (sv d j) else 0 : ℝ)) : K) with hs
  have hsget : ∀ j : Fin n, ((((recipRoots args.reltol d.S).take n).getD j 0 : ℝ) : K) = s j := by
    intro j
    rw [hs]
    simp only
    rw [← (hkept j (lt_of_lt_of_le j.2 hnk)).1, List.getD_eq_getElem?_getD, List.getElem?_take_of_lt j.2, List.getD_eq_getElem?_getD]
  have mP : mat x n P = mat x y R * (mat y n d.U).map star * diagonal s := by
    ext i j
    rw [Matrix.mul_diagonal]
    simp only [mat, Matrix.mul_apply, Matrix.map_apply]
    rw [v5, v3 i j i.2 j.2, Finset.sum_range]
    congr 1
    exact hsget j
  have mPt : mat x n Pt = mat x y Rt * mat y n d.V * diagonal s := by
    ext i j
    rw [Matrix.mul_diagonal]
    simp only [mat, Matrix.mul_apply]
    rw [v6, v4 i j i.2 j.2, Finset.sum_range]
    congr 1
    exact hsget j
  have mPT : (mat x n P)ᵀ = diagonal s * (mat y n d.U)ᴴ * (mat x y R)ᵀ := by
    rw [mP, transpose_mul, transpose_mul, diagonal_transpose, Matrix.mul_assoc]
    rfl
  -- the first `n` singular triples
  have right' : (mat x y R)ᵀ * mat x y Rt * mat y n d.V = mat y n d.U * diagonal (fun j : Fin n => ((sv d j : ℝ) : K)) := by
    ext i j
    have := congrFun (congrFun hT.right i) (Fin.castLE hnk j)
    rw [Matrix.mul_diagonal] at this ⊢
    exact this
  have left' : (mat y n d.U)ᴴ * ((mat x y R)ᵀ * mat x y Rt) = diagonal (fun j : Fin n => ((sv d j : ℝ) : K)) * (mat y n d.V)ᴴ := by
    ext i j
    have := congrFun (congrFun hT.left (Fin.castLE hnk i)) j
    rw [Matrix.diagonal_mul] at this ⊢
    exact this
  have orth' : (mat y n d.U)ᴴ * mat y n d.U = 1 := by
    ext i j
    have := congrFun (congrFun hT.orthU (Fin.castLE hnk i)) (Fin.castLE hnk j)
    rw [Matrix.one_apply] at this ⊢
    simp only [Fin.castLE_inj] at this
    exact this
  have hss : ∀ j : Fin n, s j * ((sv d j : ℝ) : K) * s j = if Kept args.reltol d j then 1 else 0 := by
    intro j
    simp only [hs]
    split
    · rename_i hK
      have hpos : 0 < sv d j := by
        rcases lt_or_ge 0 (sv d j) with h | h
        · exact h
        · exfalso
          have hj : (j : Nat) < d.S.length := by rw [hS]; omega
          have h0 : 0 ≤ sv d j := by
            simp only [sv]
            rw [List.getD_eq_getElem?_getD, List.getElem?_eq_getElem hj]
            exact hT.nonneg _ (List.getElem_mem hj)
          have : sv d j = 0 := le_antisymm h h0
          simp only [Kept, this, zero_div] at hK
          linarith
      have hq : Real.sqrt (sv d j) ≠ 0 := (Real.sqrt_pos.2 hpos).ne'
      norm_cast
      have := Real.mul_self_sqrt hpos.le
      field_simp
      nlinarith
    · simp
  have bi : (mat x n P)ᵀ * mat x n Pt = diagonal (fun j : Fin n => if Kept args.reltol d j then 1 else 0) := by
    rw [mPT, mPt]
    have : diagonal s * (mat y n d.U)ᴴ * (mat x y R)ᵀ * (mat x y Rt * mat y n d.V * diagonal s) =
        diagonal s * ((mat y n d.U)ᴴ * ((mat x y R)ᵀ * mat x y Rt * mat y n d.V)) * diagonal s := by
      simp only [Matrix.mul_assoc]
    rw [this, right', ← Matrix.mul_assoc _ (mat y n d.U), orth', Matrix.one_mul, diagonal_mul_diagonal, diagonal_mul_diagonal]
    congr 1
    funext j
    exact hss j
  have ptD : mat x n Pt * diagonal (fun j : Fin n => if Kept args.reltol d j then (1 : K) else 0) = mat x n Pt := by
    rw [mPt, Matrix.mul_assoc, diagonal_mul_diagonal]
    congr 2
    funext j
    simp only [hs]
    split <;> simp
  have ins : (mat x y R)ᵀ * (mat x n Pt * (mat x n P)ᵀ) * mat x y Rt =
        mat y k d.U * diagonal (fun j : Fin k => if Kept args.reltol d j then ((sv d j : ℝ) : K) else 0) * (mat y k d.V)ᴴ := by
    have h1 : (mat x y R)ᵀ * (mat x n Pt * (mat x n P)ᵀ) * mat x y Rt =
        ((mat x y R)ᵀ * mat x y Rt * mat y n d.V) * (diagonal s * diagonal s) * ((mat y n d.U)ᴴ * ((mat x y R)ᵀ * mat x y Rt)) := by
      rw [mPT, mPt]
      simp only [Matrix.mul_assoc]
    rw [h1, right', left', diagonal_mul_diagonal]
    have h2 : mat y n d.U * diagonal (fun j : Fin n => ((sv d j : ℝ) : K)) * diagonal (fun i => s i * s i) * (diagonal (fun j : Fin n => ((sv d j : ℝ) : K)) * (mat y n d.V)ᴴ) =
        mat y n d.U * diagonal (fun j : Fin n => if Kept args.reltol d j then ((sv d j : ℝ) : K) else 0) * (mat y n d.V)ᴴ := by
      rw [← Matrix.mul_assoc, Matrix.mul_assoc (mat y n d.U), Matrix.mul_assoc (mat y n d.U), diagonal_mul_diagonal, diagonal_mul_diagonal]
      congr 3
      funext j
      have := hss j
      calc _ = (s j * ((sv d j : ℝ) : K) * s j) * ((sv d j : ℝ) : K) := by ring
        _ = _ := by rw [this]; split <;> simp
    rw [h2]
    ext a b
    rw [Matrix.mul_apply, Matrix.mul_apply]
    simp only [Matrix.mul_diagonal, conjTranspose_apply, mat]
    rw [← Finset.sum_range (fun j => d.U.val [a, j] * (if Kept args.reltol d j then ((sv d j : ℝ) : K) else 0) * star (d.V.val [b, j])),
      ← Finset.sum_range (fun j => d.U.val [a, j] * (if Kept args.reltol d j then ((sv d j : ℝ) : K) else 0) * star (d.V.val [b, j]))]
    refine Finset.sum_subset (Finset.range_subset_range.2 hnk) (fun j hj hj' => ?_)
    rw [if_neg (fun hK => hj' (Finset.mem_range.2 (hjn j (Finset.mem_range.1 hj) hK)))]
    simp
  refine ⟨P, Pt, n, d, ?_, h5, h6, hT, ?_, ?_, bi, ?_, ins, ?_⟩
  · simp only [projectorsFrom]
    rw [if_pos ⟨hR.trans hRt.symm, by simp [hR]⟩]
    simp [e1, e2, hd, hne, hn', eU, eV, e3, e4, e5, e6]
  · intro hf; simp [hn, cols, hf, hS]
  · intro hf j hj
    simp only [hn, cols, hf, Bool.false_eq_true, if_false]
    exact (hkept j hj).2
  · rw [← Matrix.mul_assoc, Matrix.mul_assoc (mat x n Pt), bi, ptD]
  · intro hfull hz
    rw [ins, hfull]
    congr 3
    funext j
    split
    · rfl
    · rename_i hK
      rw [hz j j.2 hK]; simp

/-! ### The hypotheses are met -/

/-- Exact decomposition of the 2x2 matrix diag(2, 0). -/
noncomputable def exSvd2 : Svd ℝ := ⟨⟨[2, 2], fun i => if i.getD 0 0 = i.getD 1 0 then 1 else 0⟩, [2, 0], ⟨[2, 2], fun i => if i.getD 0 0 = i.getD 1 0 then 1 else 0⟩⟩
noncomputable def exR : Tensor ℝ := ⟨[3, 2], fun i => if i = [0, 0] then 1 else if i = [1, 0] then 1 else if i = [2, 1] then 1 else 0⟩
noncomputable def exRt : Tensor ℝ := ⟨[3, 2], fun i => if i = [0, 0] then 1 else if i = [1, 0] then 1 else 0⟩

theorem exTrunc : TruncSvd ((mat 3 2 exR)ᵀ * mat 3 2 exRt) exSvd2 2 := by
  have hU : mat 2 2 exSvd2.U = 1 := by
    ext i j; fin_cases i <;> fin_cases j <;> simp [mat, exSvd2]
  have hV : mat 2 2 exSvd2.V = 1 := hU
  have hM : (mat 3 2 exR)ᵀ * mat 3 2 exRt = diagonal (fun j : Fin 2 => ((sv exSvd2 j : ℝ) : ℝ)) := by
    ext i j; fin_cases i <;> fin_cases j <;> simp [mat, exR, exRt, sv, exSvd2, Matrix.mul_apply, Fin.sum_univ_three] <;> norm_num
  refine ⟨by norm_num, rfl, rfl, rfl, ?_, ?_, ?_, ?_, ?_, ?_⟩
  · rw [hU]; simp
  · rw [hV]; simp
  · rw [hM, hV, hU]; simp
  · rw [hM, hV, hU]; simp
  · simp [exSvd2]
  · simp [exSvd2]

example := C23_projectors (args := ⟨true, true, 1 / 10, true, true⟩) (svd := fun _ _ => exSvd2) (R := exR) (Rt := exRt) (chi := 2) rfl rfl (by norm_num)
  (fun M _ h => by rw [h]; exact exTrunc)

end Verif.Ctm
