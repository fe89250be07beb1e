import Verif.Linalg.RsvdProps
import Mathlib.Analysis.Matrix.Spectrum
import Mathlib.Analysis.InnerProductSpace.PiL2
import Mathlib.Data.Fin.Tuple.Sort
/-
C152: the contract of the torch routines can be met, and the hypotheses of the theorems hold for a matrix that is not square.
-/
namespace Verif.Rsvd
open Matrix Spec
variable {K : Type} [RCLike K]

open scoped ComplexOrder in
/-- Orthogonal columns of descending norm: those beyond the number of rows vanish. -/
theorem tail_zero {a b : Nat} (W : Matrix (Fin a) (Fin b) K) (l : Fin b → ℝ) (hl : Antitone l) (h0 : ∀ i, 0 ≤ l i)
    (hW : Wᴴ * W = diagonal (fun i => ((l i : ℝ) : K))) (j : Fin b) (hj : a ≤ j) : l j = 0 := by
  by_contra hne
  have hpos : 0 < l j := lt_of_le_of_ne (h0 j) (Ne.symm hne)
  let c : Fin (j.1 + 1) → Fin b := Fin.castLE j.2
  have hc : Function.Injective c := Fin.castLE_injective _
  have h1 : (W.submatrix id c)ᴴ * W.submatrix id c = diagonal (fun i => ((l (c i) : ℝ) : K)) := by
    ext x y
    have := congrFun (congrFun hW (c x)) (c y)
    rw [Matrix.mul_apply] at this ⊢
    rw [diagonal_apply] at this ⊢
    simp only [hc.eq_iff] at this
    exact this
  have h2 := Matrix.rank_conjTranspose_mul_self (W.submatrix id c)
  rw [h1, Matrix.rank_diagonal] at h2
  have h3 : Fintype.card {i : Fin (j.1 + 1) // ((l (c i) : ℝ) : K) ≠ 0} = j.1 + 1 := by
    rw [Fintype.card_of_subtype Finset.univ]
    · simp
    · intro i
      simp only [Finset.mem_univ, true_iff]
      have : l j ≤ l (c i) := hl (Fin.le_def.2 (Nat.le_of_lt_succ i.2))
      exact_mod_cast (lt_of_lt_of_le hpos this).ne'
  have h4 := Matrix.rank_le_height (W.submatrix id c)
  omega

theorem col_zero {a b : Nat} (W : Matrix (Fin a) (Fin b) K) (l : Fin b → ℝ) (hW : Wᴴ * W = diagonal (fun i => ((l i : ℝ) : K))) (j : Fin b) (hj : l j = 0)
    (x : Fin a) : W x j = 0 := by
  have h := congrFun (congrFun hW j) j
  rw [Matrix.mul_apply, diagonal_apply_eq, hj] at h
  simp only [conjTranspose_apply, RCLike.star_def, RCLike.conj_mul] at h
  have h' : ∑ i, ‖W i j‖ ^ 2 = 0 := by exact_mod_cast h
  have := (Finset.sum_eq_zero_iff_of_nonneg (fun i _ => sq_nonneg ‖W i j‖)).1 h' x (Finset.mem_univ _)
  simpa using this

theorem left_factor {a b : Nat} (W : Matrix (Fin a) (Fin b) K) (l : Fin b → ℝ) (h0 : ∀ i, 0 ≤ l i)
    (hW : Wᴴ * W = diagonal (fun i => ((l i : ℝ) : K))) : ∃ U : Matrix (Fin a) (Fin (min a b)) K, Uᴴ * U = 1 ∧
      ∀ x (j : Fin (min a b)), W x (Fin.castLE (Nat.min_le_right a b) j) = ((Real.sqrt (l (Fin.castLE (Nat.min_le_right a b) j)) : ℝ) : K) * U x j := by
  classical
  let v : Fin a → EuclideanSpace K (Fin a) := fun i => if h : i.1 < b then WithLp.toLp 2 (fun x => W x ⟨i, h⟩ / ((Real.sqrt (l ⟨i, h⟩) : ℝ) : K)) else 0
  let s : Set (Fin a) := {i | ∃ h : i.1 < b, 0 < l ⟨i, h⟩}
  have hv : Orthonormal K (s.domRestrict v) := by
    rw [orthonormal_iff_ite]
    rintro ⟨i, hi, hi'⟩ ⟨j, hj, hj'⟩
    have h := congrFun (congrFun hW ⟨i, hi⟩) ⟨j, hj⟩
    rw [Matrix.mul_apply, diagonal_apply] at h
    simp only [Set.domRestrict_apply, v, hi, hj, dif_pos, PiLp.inner_apply, RCLike.inner_apply, Subtype.mk.injEq]
    have e : ∀ x, W x ⟨j, hj⟩ / ((Real.sqrt (l ⟨j, hj⟩) : ℝ) : K) * (starRingEnd K) (W x ⟨i, hi⟩ / ((Real.sqrt (l ⟨i, hi⟩) : ℝ) : K)) =
        Wᴴ ⟨i, hi⟩ x * W x ⟨j, hj⟩ / (((Real.sqrt (l ⟨i, hi⟩) : ℝ) : K) * ((Real.sqrt (l ⟨j, hj⟩) : ℝ) : K)) := by
      intro x
      rw [map_div₀, RCLike.conj_ofReal, conjTranspose_apply, RCLike.star_def]
      field_simp
    rw [Finset.sum_congr rfl (fun x _ => e x), ← Finset.sum_div, h]
    by_cases hij : i = j
    · subst hij
      simp only [if_true]
      rw [← RCLike.ofReal_mul, Real.mul_self_sqrt hi'.le, div_self]
      exact_mod_cast hi'.ne'
    · have : (⟨i.1, hi⟩ : Fin b) ≠ ⟨j.1, hj⟩ := by
        intro hh; exact hij (Fin.ext (Fin.mk.inj hh))
      simp [hij, this]
  obtain ⟨u, hu⟩ := hv.exists_orthonormalBasis_extension_of_card_eq (by simp)
  let U : Matrix (Fin a) (Fin (min a b)) K := fun x j => u (Fin.castLE (Nat.min_le_left a b) j) x
  refine ⟨U, ?_, ?_⟩
  · ext i j
    rw [Matrix.mul_apply, Matrix.one_apply]
    have ho := orthonormal_iff_ite.1 u.orthonormal (Fin.castLE (Nat.min_le_left a b) i) (Fin.castLE (Nat.min_le_left a b) j)
    rw [PiLp.inner_apply] at ho
    simp only [RCLike.inner_apply, (Fin.castLE_injective _).eq_iff] at ho
    rw [← ho]
    exact Finset.sum_congr rfl (fun x _ => mul_comm _ _)
  · intro x j
    have hj : j.1 < b := lt_of_lt_of_le j.2 (Nat.min_le_right a b)
    change W x ⟨j, hj⟩ = ((Real.sqrt (l ⟨j, hj⟩) : ℝ) : K) * u (Fin.castLE (Nat.min_le_left a b) j) x
    rcases (h0 ⟨j, hj⟩).eq_or_lt with h | h
    · rw [col_zero W l hW ⟨j, hj⟩ h.symm x, ← h]; simp
    · rw [hu (Fin.castLE (Nat.min_le_left a b) j) ⟨hj, h⟩]
      simp only [v, Fin.val_castLE, hj, dif_pos]
      have : ((Real.sqrt (l ⟨j, hj⟩) : ℝ) : K) ≠ 0 := by exact_mod_cast (Real.sqrt_pos.2 h).ne'
      field_simp

/-- Every matrix has a reduced singular value decomposition. -/
theorem exists_isSvd {a b : Nat} (A : Matrix (Fin a) (Fin b) K) : ∃ (d : Matrix (Fin a) (Fin (min a b)) K × (Fin (min a b) → ℝ) × Matrix (Fin b) (Fin (min a b)) K),
    IsSvd A d.1 d.2.1 d.2.2 := by
  have hA : (Aᴴ * A).IsHermitian := isHermitian_conjTranspose_mul_self A
  let σ := Tuple.sort (fun i => - hA.eigenvalues i)
  let e := hA.eigenvectorBasis
  let l : Fin b → ℝ := fun i => hA.eigenvalues (σ i)
  have hl : Antitone l := fun i j h => neg_le_neg_iff.1 (Tuple.monotone_sort (fun i => - hA.eigenvalues i) h)
  let V : Matrix (Fin b) (Fin b) K := fun x k => e (σ k) x
  have hV : Vᴴ * V = 1 := by
    ext i j
    rw [Matrix.mul_apply, Matrix.one_apply]
    have ho := orthonormal_iff_ite.1 e.orthonormal (σ i) (σ j)
    rw [PiLp.inner_apply] at ho
    simp only [RCLike.inner_apply, σ.injective.eq_iff] at ho
    rw [← ho]
    exact Finset.sum_congr rfl (fun x _ => mul_comm _ _)
  have hV' : V * Vᴴ = 1 := mul_eq_one_comm.mp hV
  have hAV : Aᴴ * A * V = V * diagonal (fun i => ((l i : ℝ) : K)) := by
    ext x k
    have hm := congrFun (hA.mulVec_eigenvectorBasis (σ k)) x
    simp only [Matrix.mulVec, dotProduct, Pi.smul_apply] at hm
    rw [RCLike.real_smul_eq_coe_mul] at hm
    rw [Matrix.mul_apply, Matrix.mul_diagonal, mul_comm]
    exact hm
  have hW : (A * V)ᴴ * (A * V) = diagonal (fun i => ((l i : ℝ) : K)) := by
    rw [conjTranspose_mul, Matrix.mul_assoc, ← Matrix.mul_assoc Aᴴ, hAV, ← Matrix.mul_assoc, hV, Matrix.one_mul]
  have h0 : ∀ i, 0 ≤ l i := by
    intro i
    have h := congrFun (congrFun hW i) i
    rw [Matrix.mul_apply, diagonal_apply_eq] at h
    simp only [conjTranspose_apply, RCLike.star_def, RCLike.conj_mul] at h
    have h' : ∑ x, ‖(A * V) x i‖ ^ 2 = l i := by exact_mod_cast h
    rw [← h']
    exact Finset.sum_nonneg (fun x _ => sq_nonneg _)
  obtain ⟨U, hU, hUW⟩ := left_factor (A * V) l h0 hW
  let c : Fin (min a b) → Fin b := Fin.castLE (Nat.min_le_right a b)
  have hc : Function.Injective c := Fin.castLE_injective _
  refine ⟨(U, fun i => Real.sqrt (l (c i)), V.submatrix id c), hU, ?_, ?_, fun i => Real.sqrt_nonneg _, ?_⟩
  · ext i j
    have := congrFun (congrFun hV (c i)) (c j)
    rw [Matrix.mul_apply] at this ⊢
    rw [Matrix.one_apply] at this ⊢
    simp only [hc.eq_iff] at this
    exact this
  · intro i j h
    exact Real.sqrt_le_sqrt (hl (by exact_mod_cast h))
  · ext x y
    have h1 : A x y = ∑ k, (A * V) x k * Vᴴ k y := by
      rw [← Matrix.mul_apply, Matrix.mul_assoc, hV', Matrix.mul_one]
    rw [h1, Matrix.mul_apply]
    have h2 : ∀ i : Fin (min a b), (U * diagonal (fun i => ((Real.sqrt (l (c i)) : ℝ) : K))) x i * (V.submatrix id c)ᴴ i y = (A * V) x (c i) * Vᴴ (c i) y := by
      intro i
      rw [Matrix.mul_diagonal, hUW x i, mul_comm (U x i)]
      rfl
    rw [Finset.sum_congr rfl (fun i _ => h2 i)]
    rw [← Finset.sum_image (f := fun k => (A * V) x k * Vᴴ k y) (fun i _ j _ h => hc h)]
    refine Finset.sum_subset (Finset.subset_univ _) (fun k _ hk => ?_)
    have hka : a ≤ k.1 := by
      by_contra hlt
      refine hk (Finset.mem_image.2 ⟨⟨k.1, by omega⟩, Finset.mem_univ _, Fin.ext rfl⟩)
    rw [col_zero (A * V) l hW k (tail_zero (A * V) l hl h0 hW k hka) x, zero_mul]

/-- The contract of the torch routines can be met. -/
theorem exists_backend : ∃ be : Backend K, Contract be := by
  choose d hd using fun (a b : Nat) (A : Matrix (Fin a) (Fin b) K) => exists_isSvd A
  refine ⟨⟨fun {a b} A => ((d a b A).1, diagonal (fun i => (((d a b A).2.1 i : ℝ) : K)) * (d a b A).2.2ᴴ), fun {a b} A => d a b A⟩, ?_, ?_⟩
  · intro a b A
    refine ⟨?_, (hd a b A).orthU⟩
    rw [← Matrix.mul_assoc]
    exact (hd a b A).eq
  · intro a b A
    exact ⟨(hd a b A).eq, (hd a b A).orthU, (hd a b A).orthV, (hd a b A).sorted, (hd a b A).nonneg⟩

/-- A matrix with three rows and two columns, and one sampled vector that spans its range. -/
def exM : Matrix (Fin 3) (Fin 2) ℝ := !![1, 2; 2, 4; 0, 0]

/-- Non-vacuity of `C152_exact`: five rounds with re-orthogonalisation at every third step. -/
example : ∃ (be : Backend ℝ) (o : Out ℝ 3 2), Contract be ∧ rsvd be exM 1 0 6 3 1 !![1; 0] = some o ∧ Leading exM 1 o ∧ o.r = 1 := by
  obtain ⟨be, hb⟩ := exists_backend (K := ℝ)
  have h : ∃ o, rsvd be exM 1 0 6 3 1 !![1; 0] = some o := ⟨_, by simp [rsvd]; rfl⟩
  obtain ⟨o, ho⟩ := h
  refine ⟨be, o, hb, ho, C152_exact hb exM 1 0 6 3 1 _ o (Or.inl rfl) ho ⟨!![1, 2], ?_⟩, C152_count exM 1 0 6 3 1 _ o (Or.inl rfl) ho⟩
  ext i j
  fin_cases i <;> fin_cases j <;> norm_num [exM, Matrix.mul_apply]

end Verif.Rsvd
