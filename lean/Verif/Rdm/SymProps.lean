import Verif.Rdm.Model
import Verif.Tensor.Subst
import Mathlib.LinearAlgebra.Matrix.PosDef
import Mathlib.Analysis.Matrix.Spectrum
/-
Property C30: the symmetrisation of a density matrix.
-/
namespace Verif.Rdm
open Tensor Ctm Matrix
open scoped ComplexOrder
set_option linter.unusedSectionVars false
variable {K : Type} [RCLike K]

namespace Spec
/-- A tensor with axes `s ++ s` as a matrix: rows are the multi-indices of the first half of the axes, in row-major order. -/
def op (s : List Nat) (T : Tensor K) : Matrix (Fin s.prod) (Fin s.prod) K := fun i j => T.val (unravel s i ++ unravel s j)

/-- `eigh` diagonalises Hermitian matrices: real eigenvalues `D` and a unitary matrix `U` of eigenvectors. -/
def Eigh (eigh : Tensor K → List ℝ × Tensor K) : Prop :=
  ∀ (n : Nat) (H : Tensor K), H.shape = [n, n] → (Matrix.of fun i j : Fin n => H.val [i, j]).IsHermitian →
    let U : Matrix (Fin n) (Fin n) K := .of fun i j => (eigh H).2.val [i, j]
    (eigh H).1.length = n ∧ (eigh H).2.shape = [n, n] ∧ Uᴴ * U = 1 ∧
      (Matrix.of fun i j : Fin n => H.val [i, j]) = U * diagonal (fun k : Fin n => (((eigh H).1.getD k 0 : ℝ) : K)) * Uᴴ
end Spec
open Spec

theorem op_view {s : List Nat} {T : Tensor K} (hT : T.shape = s ++ s) :
    ∃ M, view [s.prod, s.prod] T = some M ∧ M.shape = [s.prod, s.prod] ∧ ∀ i j : Fin s.prod, M.val [i, j] = op s T i j := by
  refine ⟨_, if_pos (by simp [hT]), rfl, fun i j => ?_⟩
  simp only [hT, op]
  congr 1
  rw [← unravel_append s s i j i.2 j.2]
  simp [ravel]

theorem view_op {s : List Nat} {R : Tensor K} (hR : R.shape = [s.prod, s.prod]) :
    ∃ M, view (s ++ s) R = some M ∧ M.shape = s ++ s ∧ ∀ i j : Fin s.prod, op s M i j = R.val [i, j] := by
  refine ⟨_, if_pos (by simp [hR]), rfl, fun i j => ?_⟩
  simp only [hR, op]
  congr 1
  obtain ⟨a1, a2⟩ := inB_unravel s i i.2
  obtain ⟨b1, b2⟩ := inB_unravel s j j.2
  rw [ravel_append _ _ _ _ a1.length, a2, b2]
  have : InB [s.prod, s.prod] [(i : Nat), (j : Nat)] := List.Forall₂.cons i.2 (List.Forall₂.cons j.2 List.Forall₂.nil)
  rw [← unravel_ravel this]
  simp [ravel]

theorem op_same {s : List Nat} {A B : Tensor K} (hA : A.shape = s ++ s) (hB : B.shape = s ++ s) (h : ∀ i j, op s A i j = op s B i j) : Same A B := by
  refine ⟨hA.trans hB.symm, fun idx hi => ?_⟩
  rw [hA] at hi
  have hlt := ravel_lt hi
  rw [List.prod_append] at hlt
  have hp : 0 < s.prod := Nat.pos_of_ne_zero (by rintro h0; simp [h0] at hlt)
  have h1 : ravel (s ++ s) idx / s.prod < s.prod := Nat.div_lt_of_lt_mul hlt
  have h2 : ravel (s ++ s) idx % s.prod < s.prod := Nat.mod_lt _ hp
  have key : idx = unravel s (ravel (s ++ s) idx / s.prod) ++ unravel s (ravel (s ++ s) idx % s.prod) := by
    rw [← unravel_append s s _ _ h1 h2, Nat.div_add_mod', unravel_ravel hi]
  rw [key]
  exact h ⟨_, h1⟩ ⟨_, h2⟩

/-- What the symmetrisation of a square matrix `X` computes. -/
theorem symMatrix_eq (eigh : Tensor K → List ℝ × Tensor K) (spd : Bool) {n : Nat} {M : Tensor K} (hM : M.shape = [n, n])
    (hE : spd = true → Eigh eigh) :
    ∃ Y : Matrix (Fin n) (Fin n) K, Y.IsHermitian ∧ (spd = true → Y.PosSemidef) ∧
      (spd = false → Y = (1 / 2 : K) • (.of (fun i j : Fin n => M.val [i, j]) + (.of (fun i j : Fin n => M.val [i, j]))ᴴ)) ∧
      (((1 / 2 : K) • (.of (fun i j : Fin n => M.val [i, j]) + (.of (fun i j : Fin n => M.val [i, j]))ᴴ)).PosSemidef →
        Y = (1 / 2 : K) • (.of (fun i j : Fin n => M.val [i, j]) + (.of (fun i j : Fin n => M.val [i, j]))ᴴ)) ∧
      RCLike.re (trace ((1 / 2 : K) • (.of (fun i j : Fin n => M.val [i, j]) + (.of (fun i j : Fin n => M.val [i, j]))ᴴ))) ≤ RCLike.re (trace Y) ∧
      (RCLike.re (trace Y) = 0 → symMatrix eigh spd M = .error .nan) ∧
      (RCLike.re (trace Y) ≠ 0 → ∃ R, symMatrix eigh spd M = .ok R ∧ R.shape = [n, n] ∧ ∀ i j : Fin n, R.val [i, j] = Y i j / ((RCLike.re (trace Y) : ℝ) : K)) := by
  classical
  obtain ⟨X, hX⟩ : ∃ X : Matrix (Fin n) (Fin n) K, X = .of (fun i j : Fin n => M.val [i, j]) := ⟨_, rfl⟩
  simp only [← hX]
  obtain ⟨H, hH⟩ : ∃ H : Tensor K, H = canon ⟨[n, n], fun idx => (1 / 2) * (M.val [idx.getD 0 0, idx.getD 1 0] + star (M.val [idx.getD 1 0, idx.getD 0 0]))⟩ := ⟨_, rfl⟩
  obtain ⟨Z, hZ⟩ : ∃ Z : Matrix (Fin n) (Fin n) K, Z = (1 / 2 : K) • (X + Xᴴ) := ⟨_, rfl⟩
  have hin : ∀ i j : Fin n, InB [n, n] [(i : Nat), (j : Nat)] := fun i j => List.Forall₂.cons i.2 (List.Forall₂.cons j.2 List.Forall₂.nil)
  have hHZ : ∀ i j : Fin n, H.val [i, j] = Z i j := by
    intro i j
    simp only [hH, canon, if_pos (hin i j), hZ, hX]
    simp
  have hZh : Z.IsHermitian := by
    rw [hZ]
    ext i j
    simp [conjTranspose_apply, add_comm, mul_add]
  obtain ⟨P, hP⟩ : ∃ P : Tensor K, P = canon ⟨[n, n], fun idx =>
        ∑ k ∈ Finset.range n, (eigh H).2.val [idx.getD 0 0, k] * ((max ((eigh H).1.getD k 0) 0 : ℝ) : K) * star ((eigh H).2.val [idx.getD 1 0, k])⟩ := ⟨_, rfl⟩
  let U : Matrix (Fin n) (Fin n) K := .of fun i j => (eigh H).2.val [i, j]
  obtain ⟨W, hW⟩ : ∃ W : Matrix (Fin n) (Fin n) K, W = U * diagonal (fun k : Fin n => ((max ((eigh H).1.getD k 0) 0 : ℝ) : K)) * Uᴴ := ⟨_, rfl⟩
  have hPW : ∀ i j : Fin n, P.val [i, j] = W i j := by
    intro i j
    simp only [hP, canon, if_pos (hin i j), hW]
    rw [Finset.sum_range, mul_apply]
    simp [mul_diagonal, conjTranspose_apply, U]
  have hWp : W.PosSemidef := by
    rw [hW]
    refine PosSemidef.mul_mul_conjTranspose_same ?_ U
    rw [posSemidef_diagonal_iff]
    intro i
    exact RCLike.ofReal_nonneg.2 (le_max_right _ _)
  obtain ⟨R, hR⟩ : ∃ R : Tensor K, R = (if spd = true ∧ ∃ d ∈ (eigh H).1, d < 0 then P else H) := ⟨_, rfl⟩
  obtain ⟨Y, hY⟩ : ∃ Y : Matrix (Fin n) (Fin n) K, Y = (if spd = true ∧ ∃ d ∈ (eigh H).1, d < 0 then W else Z) := ⟨_, rfl⟩
  have hRY : ∀ i j : Fin n, R.val [i, j] = Y i j := by
    intro i j
    rw [hR, hY]
    split
    · exact hPW i j
    · exact hHZ i j
  have htr : (∑ k ∈ Finset.range n, R.val [k, k]) = trace Y := by
    rw [Finset.sum_range]
    exact Finset.sum_congr rfl (fun i _ => hRY i i)
  have hsym : symMatrix eigh spd M = if RCLike.re (∑ k ∈ Finset.range n, R.val [k, k]) = 0 then .error .nan
      else .ok ⟨[n, n], fun idx => R.val idx / ((RCLike.re (∑ k ∈ Finset.range n, R.val [k, k]) : ℝ) : K)⟩ := by
    unfold symMatrix
    rw [hM]
    simp only [if_true, ← hH, ← hP, ← hR]
  have hHs : H.shape = [n, n] := by rw [hH]; rfl
  have hof : (Matrix.of fun i j : Fin n => H.val [i, j]) = Z := by ext i j; exact hHZ i j
  have hcon : spd = true → (eigh H).1.length = n ∧ Uᴴ * U = 1 ∧ Z = U * diagonal (fun k : Fin n => (((eigh H).1.getD k 0 : ℝ) : K)) * Uᴴ := by
    intro h
    have := hE h n H hHs (by rw [hof]; exact hZh)
    rw [hof] at this
    exact ⟨this.1, this.2.2.1, this.2.2.2⟩
  -- the diagonal in the eigenbasis
  have hdiag : spd = true → ∀ k : Fin n, (Uᴴ * Z * U) k k = (((eigh H).1.getD k 0 : ℝ) : K) := by
    intro h k
    obtain ⟨h1, h2, h3⟩ := hcon h
    rw [h3, show Uᴴ * (U * diagonal (fun k : Fin n => (((eigh H).1.getD k 0 : ℝ) : K)) * Uᴴ) * U =
      (Uᴴ * U) * diagonal (fun k : Fin n => (((eigh H).1.getD k 0 : ℝ) : K)) * (Uᴴ * U) by simp only [Matrix.mul_assoc], h2]
    simp
  have hposZ : spd = true → Z.PosSemidef → ¬ ∃ d ∈ (eigh H).1, d < 0 := by
    rintro h hp ⟨d, hd, hd0⟩
    obtain ⟨k, hk, rfl⟩ := List.getElem_of_mem hd
    have hkn : k < n := by rw [← (hcon h).1]; exact hk
    have := (hp.conjTranspose_mul_mul_same U).diag_nonneg (i := ⟨k, hkn⟩)
    rw [hdiag h] at this
    rw [RCLike.ofReal_nonneg] at this
    simp only [List.getD_eq_getElem?_getD, List.getElem?_eq_getElem hk, Option.getD_some] at this
    linarith
  refine ⟨Y, ?_, ?_, ?_, ?_, ?_, ?_, ?_⟩
  · rw [hY]; split
    · exact hWp.isHermitian
    · exact hZh
  · intro h
    rw [hY]
    split
    · exact hWp
    · rename_i hn
      obtain ⟨h1, h2, h3⟩ := hcon h
      rw [h3]
      refine PosSemidef.mul_mul_conjTranspose_same ?_ U
      rw [posSemidef_diagonal_iff]
      intro i
      rw [RCLike.ofReal_nonneg]
      have hi : (i : Nat) < (eigh H).1.length := by rw [h1]; exact i.2
      have : (eigh H).1.getD i 0 ∈ (eigh H).1 := by
        rw [List.getD_eq_getElem?_getD, List.getElem?_eq_getElem hi]; exact List.getElem_mem hi
      by_contra hc
      exact hn ⟨h, _, this, not_le.1 hc⟩
  · intro h; rw [hY, if_neg (by simp [h]), hZ]
  · intro hp
    rw [← hZ] at hp ⊢
    rw [hY]
    split
    · rename_i hc
      exact absurd hc.2 (hposZ hc.1 hp)
    · rfl
  · rw [← hZ, hY]
    split
    · rename_i hc
      obtain ⟨h1, h2, h3⟩ := hcon hc.1
      have tr : ∀ f : Fin n → K, trace (U * diagonal f * Uᴴ) = ∑ k, f k := by
        intro f
        rw [trace_mul_comm, ← Matrix.mul_assoc, h2, Matrix.one_mul, trace_diagonal]
      rw [hW, h3, tr, tr, map_sum, map_sum]
      apply Finset.sum_le_sum
      intro k _
      rw [RCLike.ofReal_re, RCLike.ofReal_re]
      exact le_max_left _ _
    · exact le_refl _
  · intro h
    rw [hsym, htr, if_pos h]
  · intro h
    rw [hsym, htr, if_neg h]
    exact ⟨_, rfl, rfl, fun i j => by simp only [hRY]⟩

theorem symRdm_eq (eigh : Tensor K → List ℝ × Tensor K) (spd : Bool) {s : List Nat} (hs : 0 < s.prod) {T : Tensor K} (hT : T.shape = s ++ s) (hE : spd = true → Eigh eigh) :
    ∃ Y : Matrix (Fin s.prod) (Fin s.prod) K, Y.IsHermitian ∧ (spd = true → Y.PosSemidef) ∧
      (spd = false → Y = (1 / 2 : K) • (op s T + (op s T)ᴴ)) ∧
      (((1 / 2 : K) • (op s T + (op s T)ᴴ)).PosSemidef → Y = (1 / 2 : K) • (op s T + (op s T)ᴴ)) ∧
      RCLike.re (trace ((1 / 2 : K) • (op s T + (op s T)ᴴ))) ≤ RCLike.re (trace Y) ∧
      (RCLike.re (trace Y) = 0 → symRdm eigh spd T = .error .nan) ∧
      (RCLike.re (trace Y) ≠ 0 → ∃ R, symRdm eigh spd T = .ok R ∧ R.shape = s ++ s ∧ ∀ i j, op s R i j = Y i j / ((RCLike.re (trace Y) : ℝ) : K)) := by
  obtain ⟨M, hM, sM, vM⟩ := op_view hT
  obtain ⟨Y, h1, h2, h3, h4, h5, h6, h7⟩ := symMatrix_eq eigh spd sM hE
  have e : (Matrix.of fun i j : Fin s.prod => M.val [i, j]) = op s T := by ext i j; exact vM i j
  rw [e] at h3 h4 h5
  have hstep : symRdm eigh spd T = (symMatrix eigh spd M >>= fun R => lift (view (s ++ s) R)) := by
    unfold symRdm
    have hl : T.shape.length % 2 = 0 := by rw [hT, List.length_append]; omega
    have hm : (T.shape.take (T.shape.length / 2)).prod = s.prod := by
      rw [hT, List.length_append, show (s.length + s.length) / 2 = s.length by omega, List.take_left]
    have hd : T.shape.prod / s.prod = s.prod := by rw [hT, List.prod_append]; exact Nat.mul_div_cancel _ hs
    rw [if_pos hl]
    simp only
    rw [hm, if_neg (Nat.pos_iff_ne_zero.1 hs), hd, hM, hT]
    rfl
  refine ⟨Y, h1, h2, h3, h4, h5, fun h => ?_, fun h => ?_⟩
  · rw [hstep, h6 h]; rfl
  · obtain ⟨R, e1, e2, e3⟩ := h7 h
    obtain ⟨R', f1, f2, f3⟩ := view_op e2
    refine ⟨R', ?_, f2, fun i j => by rw [f3, e3]⟩
    rw [hstep, e1]
    show lift (view (s ++ s) R) = .ok R'
    rw [f1]; rfl

theorem re_trace_herm {n : Nat} (X : Matrix (Fin n) (Fin n) K) : RCLike.re (trace ((1 / 2 : K) • (X + Xᴴ))) = RCLike.re (trace X) := by
  rw [trace_smul, trace_add, trace_conjTranspose, smul_eq_mul]
  have : (1 / 2 : K) = ((1 / 2 : ℝ) : K) := by push_cast; rfl
  rw [this, RCLike.re_ofReal_mul]
  simp
  ring

theorem trace_real {n : Nat} {Y : Matrix (Fin n) (Fin n) K} (h : Y.IsHermitian) : ((RCLike.re (trace Y) : ℝ) : K) = trace Y := by
  rw [← RCLike.conj_eq_iff_re]
  have := trace_conjTranspose Y
  rw [h.eq] at this
  exact this.symm

theorem op_div {n : Nat} {Y X : Matrix (Fin n) (Fin n) K} (hY : Y.IsHermitian) (h0 : RCLike.re (trace Y) ≠ 0)
    (h : ∀ i j, X i j = Y i j / ((RCLike.re (trace Y) : ℝ) : K)) : X.IsHermitian ∧ trace X = 1 := by
  constructor
  · ext i j
    have e : star (((RCLike.re (trace Y) : ℝ) : K)) = ((RCLike.re (trace Y) : ℝ) : K) := RCLike.conj_ofReal _
    rw [conjTranspose_apply, h, h, star_div₀, e, hY.apply i j]
  · have : trace X = trace Y / ((RCLike.re (trace Y) : ℝ) : K) := by
      simp only [trace, diag_apply, h, div_eq_mul_inv, Finset.sum_mul]
    rw [this, ← trace_real hY, RCLike.ofReal_re, div_self]
    exact_mod_cast h0

theorem psd_div {n : Nat} {Y X : Matrix (Fin n) (Fin n) K} (hY : Y.PosSemidef) (h0 : RCLike.re (trace Y) ≠ 0)
    (h : ∀ i j, X i j = Y i j / ((RCLike.re (trace Y) : ℝ) : K)) : X.PosSemidef := by
  have hp : 0 < RCLike.re (trace Y) := by
    have := hY.trace_nonneg
    rw [← trace_real hY.isHermitian, RCLike.ofReal_nonneg] at this
    exact lt_of_le_of_ne this (Ne.symm h0)
  have : X = ((1 / RCLike.re (trace Y) : ℝ) : K) • Y := by
    ext i j
    rw [h, Matrix.smul_apply, smul_eq_mul]
    push_cast
    rw [one_div, div_eq_inv_mul]
  rw [this]
  exact hY.smul (RCLike.ofReal_nonneg.2 (by positivity))

/-- Without `sym_pos_def`: the result is the Hermitian part of the argument divided by its trace. It exists unless the trace of the argument
has no real part. -/
theorem C30_hermitian (eigh : Tensor K → List ℝ × Tensor K) {s : List Nat} (hs : 0 < s.prod) {T : Tensor K} (hT : T.shape = s ++ s)
    (h : RCLike.re (trace (op s T)) ≠ 0) :
    ∃ R, symRdm eigh false T = .ok R ∧ R.shape = T.shape ∧ (op s R).IsHermitian ∧ trace (op s R) = 1 ∧
      op s R = (1 / (2 * ((RCLike.re (trace (op s T)) : ℝ) : K))) • (op s T + (op s T)ᴴ) := by
  obtain ⟨Y, h1, -, h3, -, -, -, h7⟩ := symRdm_eq eigh false hs hT (by simp)
  have hY := h3 rfl
  have htr : RCLike.re (trace Y) = RCLike.re (trace (op s T)) := by rw [hY, re_trace_herm]
  obtain ⟨R, e1, e2, e3⟩ := h7 (by rw [htr]; exact h)
  obtain ⟨a, b⟩ := op_div h1 (by rw [htr]; exact h) e3
  refine ⟨R, e1, e2.trans hT.symm, a, b, ?_⟩
  ext i j
  rw [e3, htr, hY]
  rw [Matrix.smul_apply, Matrix.smul_apply, smul_eq_mul, smul_eq_mul]
  field_simp

/-- With `sym_pos_def`: positive semi-definite too. It exists if the trace has positive real part. -/
theorem C30_positive {eigh : Tensor K → List ℝ × Tensor K} (hE : Eigh eigh) {s : List Nat} (hs : 0 < s.prod) {T : Tensor K} (hT : T.shape = s ++ s)
    (h : 0 < RCLike.re (trace (op s T))) :
    ∃ R, symRdm eigh true T = .ok R ∧ R.shape = T.shape ∧ (op s R).IsHermitian ∧ trace (op s R) = 1 ∧ (op s R).PosSemidef := by
  obtain ⟨Y, h1, h2, -, -, h5, -, h7⟩ := symRdm_eq eigh true hs hT (fun _ => hE)
  rw [re_trace_herm] at h5
  have h0 : 0 < RCLike.re (trace Y) := lt_of_lt_of_le h h5
  obtain ⟨R, e1, e2, e3⟩ := h7 h0.ne'
  obtain ⟨a, b⟩ := op_div h1 h0.ne' e3
  refine ⟨R, e1, e2.trans hT.symm, a, b, ?_⟩
  exact psd_div (h2 rfl) h0.ne' e3

/-- A density matrix is left unchanged (with `sym_pos_def`: if it is positive semi-definite). -/
theorem C30_unchanged {eigh : Tensor K → List ℝ × Tensor K} (spd : Bool) {s : List Nat} (hs : 0 < s.prod) {T : Tensor K} (hT : T.shape = s ++ s)
    (hh : (op s T).IsHermitian) (ht : trace (op s T) = 1) (hp : spd = true → Eigh eigh ∧ (op s T).PosSemidef) :
    ∃ R, symRdm eigh spd T = .ok R ∧ Same R T := by
  obtain ⟨Y, h1, h2, h3, h4, h5, -, h7⟩ := symRdm_eq eigh spd hs hT (fun h => (hp h).1)
  have hz : (1 / 2 : K) • (op s T + (op s T)ᴴ) = op s T := by
    rw [hh.eq, ← two_smul K, smul_smul]; simp
  rw [hz] at h3 h4
  have hY : Y = op s T := by
    cases spd with
    | false => exact h3 rfl
    | true => exact h4 (hp rfl).2
  rw [hY, ht] at h7
  obtain ⟨R, e1, e2, e3⟩ := h7 (by simp)
  exact ⟨R, e1, op_same e2 hT (fun i j => by rw [e3]; simp)⟩

/-- Whatever the argument, a result is Hermitian with trace one, and positive semi-definite if requested. -/
theorem C30_any {eigh : Tensor K → List ℝ × Tensor K} (spd : Bool) (hE : spd = true → Eigh eigh) {s : List Nat} (hs : 0 < s.prod) {T R : Tensor K} (hT : T.shape = s ++ s)
    (h : symRdm eigh spd T = .ok R) : (op s R).IsHermitian ∧ trace (op s R) = 1 ∧ (spd = true → (op s R).PosSemidef) := by
  obtain ⟨Y, h1, h2, -, -, -, h6, h7⟩ := symRdm_eq eigh spd hs hT hE
  by_cases h0 : RCLike.re (trace Y) = 0
  · rw [h6 h0] at h; cases h
  · obtain ⟨R', e1, e2, e3⟩ := h7 h0
    rw [h] at e1
    obtain rfl : R = R' := by injection e1
    refine ⟨(op_div h1 h0 e3).1, (op_div h1 h0 e3).2, fun hp => ?_⟩
    exact psd_div (h2 hp) h0 e3

/-! ### The hypotheses can be met -/

theorem exOp (M : Nat → Nat → ℝ) : ∀ i j : Fin ([2, 1] : List Nat).prod, op [2, 1] ⟨[2, 1, 2, 1], fun idx => M (idx.getD 0 0) (idx.getD 2 0)⟩ i j = M i j := by
  intro i j
  simp [op, unravel]

/-- A non-symmetric 2-site operator with trace 3. -/
def exT : Tensor ℝ := ⟨[2, 1, 2, 1], fun idx => if idx.getD 0 0 = 0 then (if idx.getD 2 0 = 0 then 4 else 2) else (if idx.getD 2 0 = 0 then 7 else -1)⟩

theorem exT_trace : trace (op [2, 1] exT) = 3 := by
  have : ∀ i j : Fin ([2, 1] : List Nat).prod, op [2, 1] exT i j = if (i : Nat) = 0 then (if (j : Nat) = 0 then 4 else 2) else (if (j : Nat) = 0 then 7 else -1) :=
    exOp (fun a b => if a = 0 then (if b = 0 then 4 else 2) else (if b = 0 then 7 else -1))
  simp only [trace, diag_apply, this]
  show ∑ x : Fin 2, _ = _
  rw [Fin.sum_univ_two]
  norm_num

/-- A backend with the required property exists. -/
theorem exEigh : ∃ eigh : Tensor K → List ℝ × Tensor K, Eigh eigh := by
  have : ∀ H : Tensor K, ∃ p : List ℝ × Tensor K, ∀ n, H.shape = [n, n] → (Matrix.of fun i j : Fin n => H.val [i, j]).IsHermitian →
      let U : Matrix (Fin n) (Fin n) K := .of fun i j => p.2.val [i, j]
      p.1.length = n ∧ p.2.shape = [n, n] ∧ Uᴴ * U = 1 ∧
      (Matrix.of fun i j : Fin n => H.val [i, j]) = U * diagonal (fun k : Fin n => ((p.1.getD k 0 : ℝ) : K)) * Uᴴ := by
    intro H
    by_cases h : ∃ n, H.shape = [n, n] ∧ (Matrix.of fun i j : Fin n => H.val [i, j]).IsHermitian
    · obtain ⟨n, h1, h2⟩ := h
      refine ⟨(List.ofFn h2.eigenvalues, ⟨[n, n], fun idx => if hh : idx.getD 0 0 < n ∧ idx.getD 1 0 < n then
        (h2.eigenvectorUnitary : Matrix (Fin n) (Fin n) K) ⟨_, hh.1⟩ ⟨_, hh.2⟩ else 0⟩), ?_⟩
      intro m hm _
      obtain rfl : n = m := by rw [h1] at hm; simpa using hm
      have hU : (Matrix.of fun i j : Fin n => (if hh : ([(i : Nat), (j : Nat)].getD 0 0 < n ∧ [(i : Nat), (j : Nat)].getD 1 0 < n) then
        (h2.eigenvectorUnitary : Matrix (Fin n) (Fin n) K) ⟨_, hh.1⟩ ⟨_, hh.2⟩ else 0)) = (h2.eigenvectorUnitary : Matrix (Fin n) (Fin n) K) := by
        ext i j
        simp
      refine ⟨by simp, rfl, ?_, ?_⟩
      · rw [hU]
        exact (Matrix.mem_unitaryGroup_iff').1 h2.eigenvectorUnitary.2
      · rw [hU]
        conv_lhs => rw [h2.spectral_theorem]
        rw [Unitary.conjStarAlgAut_apply]
        congr 2
        congr 1
        ext k
        simp
    · exact ⟨([], H), fun n h1 h2 => absurd ⟨n, h1, h2⟩ h⟩
  choose f hf using this
  exact ⟨f, fun n H h1 h2 => hf H n h1 h2⟩

example := C30_hermitian (fun _ => ([], exT)) (s := [2, 1]) (by decide) (T := exT) rfl (by rw [exT_trace]; norm_num)
/-- The completely mixed state of a two-level and a one-level site. -/
noncomputable def exMixed : Tensor ℝ := ⟨[2, 1, 2, 1], fun idx => if idx.getD 0 0 = idx.getD 2 0 then 1 / 2 else 0⟩

theorem exMixed_op : op [2, 1] exMixed = (1 / 2 : ℝ) • (1 : Matrix (Fin ([2, 1] : List Nat).prod) (Fin ([2, 1] : List Nat).prod) ℝ) := by
  ext i j
  rw [Matrix.smul_apply, Matrix.one_apply]
  have := exOp (fun a b => if a = b then (1 / 2 : ℝ) else 0) i j
  simp only [exMixed]
  rw [this]
  simp only [Fin.ext_iff]
  split <;> simp

example (eigh : Tensor ℝ → List ℝ × Tensor ℝ) (h : Eigh eigh) (spd : Bool) := C30_unchanged (eigh := eigh) spd (s := [2, 1]) (by decide) (T := exMixed) rfl
  (by rw [exMixed_op]; exact (PosSemidef.one.smul (by norm_num : (0:ℝ) ≤ 1 / 2)).isHermitian) (by rw [exMixed_op, trace_smul, trace_one]; simp)
  (fun _ => ⟨h, by rw [exMixed_op]; exact PosSemidef.one.smul (by norm_num)⟩)
example : ∃ eigh R, symRdm eigh true exT = .ok R ∧ (op [2, 1] R).PosSemidef := by
  obtain ⟨eigh, h⟩ := exEigh (K := ℝ)
  obtain ⟨R, h1, -, -, -, h2⟩ := C30_positive h (s := [2, 1]) (by decide) (T := exT) rfl (by rw [exT_trace]; norm_num)
  exact ⟨eigh, R, h1, h2⟩

end Verif.Rdm
