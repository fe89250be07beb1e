import Verif.Linalg.DecompModel
import Mathlib.Analysis.Calculus.Deriv.Add
import Mathlib.Analysis.Calculus.Deriv.Mul
import Mathlib.Analysis.Calculus.Deriv.Star
import Mathlib.Analysis.Calculus.Deriv.Comp
import Mathlib.Analysis.Calculus.FDeriv.Linear
import Mathlib.LinearAlgebra.Matrix.Trace
import Mathlib.LinearAlgebra.Matrix.Hermitian
import Mathlib.LinearAlgebra.Matrix.NonsingularInverse
import Mathlib.Tactic.LinearCombination
import Mathlib.Tactic.FinCases
import Mathlib.Analysis.SpecialFunctions.Trigonometric.Deriv
import Mathlib.LinearAlgebra.Matrix.Notation
import Mathlib.Tactic.Linarith
import Mathlib.Tactic.FieldSimp
/-
Properties C21 (backward of the symmetric eigensolver) and C54 (backward of the SVD): the returned
gradient is the adjoint of the derivative of the factors.
-/
namespace Verif.Decomp
open Matrix Filter Topology

variable {𝕜 : Type} [RCLike 𝕜] {n m k : Nat}

/-! ### Specification -/

/-- Real pairing of a gradient with a perturbation: `Re sum_ij conj(X_ij) Y_ij`, so that the change of a
real loss with gradient `X` under a perturbation `Y` is `pair X Y` (the convention of torch autograd). -/
def Spec.pair {a b : Nat} (X Y : Matrix (Fin a) (Fin b) 𝕜) : ℝ :=
  RCLike.re (∑ i, ∑ j, (starRingEnd 𝕜) (X i j) * Y i j)

/-- A differentiable curve of matrices with velocity `M'` at `t`. -/
def Spec.HasVelocity {a b : Nat} (M : ℝ → Matrix (Fin a) (Fin b) 𝕜) (M' : Matrix (Fin a) (Fin b) 𝕜) (t : ℝ) : Prop :=
  ∀ i j, HasDerivAt (fun s => M s i j) (M' i j) t

/-- A differentiable curve of real vectors. -/
def Spec.HasVelocityVec {a : Nat} (D : ℝ → Fin a → ℝ) (D' : Fin a → ℝ) (t : ℝ) : Prop :=
  ∀ i, HasDerivAt (fun s => D s i) (D' i) t

/-- Real diagonal matrix. -/
def Spec.diag (𝕜 : Type) [RCLike 𝕜] {a : Nat} (D : Fin a → ℝ) : Matrix (Fin a) (Fin a) 𝕜 :=
  Matrix.diagonal (fun i => (D i : 𝕜))

open Spec

/-! ### Lemmas -/

theorem pair_trace {a b : Nat} (X Y : Matrix (Fin a) (Fin b) 𝕜) : pair X Y = RCLike.re (Matrix.trace (Xᴴ * Y)) := by
  unfold pair Matrix.trace
  congr 1
  rw [Finset.sum_comm]
  apply Finset.sum_congr rfl
  intro j _
  simp [Matrix.mul_apply, RCLike.star_def]

theorem pair_add_left {a b : Nat} (X Z Y : Matrix (Fin a) (Fin b) 𝕜) : pair (X + Z) Y = pair X Y + pair Z Y := by
  simp [pair_trace, Matrix.add_mul]

theorem pair_add_right {a b : Nat} (X Z Y : Matrix (Fin a) (Fin b) 𝕜) : pair X (Y + Z) = pair X Y + pair X Z := by
  simp [pair_trace, Matrix.mul_add]

theorem pair_sub_right {a b : Nat} (X Z Y : Matrix (Fin a) (Fin b) 𝕜) : pair X (Y - Z) = pair X Y - pair X Z := by
  simp [pair_trace, Matrix.mul_sub]

theorem pair_mul_left {a b c : Nat} (U : Matrix (Fin a) (Fin b) 𝕜) (M : Matrix (Fin b) (Fin c) 𝕜)
    (Y : Matrix (Fin a) (Fin c) 𝕜) : pair (U * M) Y = pair M (Uᴴ * Y) := by
  rw [pair_trace, pair_trace, Matrix.conjTranspose_mul, Matrix.mul_assoc]

theorem pair_mul_right {a b c : Nat} (M : Matrix (Fin a) (Fin b) 𝕜) (V : Matrix (Fin b) (Fin c) 𝕜)
    (Y : Matrix (Fin a) (Fin c) 𝕜) : pair (M * V) Y = pair M (Y * Vᴴ) := by
  rw [pair_trace, pair_trace, Matrix.conjTranspose_mul, Matrix.mul_assoc, Matrix.trace_mul_comm, Matrix.mul_assoc]

/-- Pairing with adjoints on both sides. -/
theorem pair_conj {a b : Nat} (X Y : Matrix (Fin a) (Fin b) 𝕜) : pair Xᴴ Yᴴ = pair X Y := by
  rw [pair_trace, pair_trace, Matrix.conjTranspose_conjTranspose, ← RCLike.conj_re (Matrix.trace (Xᴴ * Y)),
    ← RCLike.star_def, ← Matrix.trace_conjTranspose, Matrix.conjTranspose_mul, Matrix.conjTranspose_conjTranspose,
    Matrix.trace_mul_comm]

theorem Spec.HasVelocity.mul {a b c : Nat} {M : ℝ → Matrix (Fin a) (Fin b) 𝕜} {N : ℝ → Matrix (Fin b) (Fin c) 𝕜}
    {M' N'} {t : ℝ} (hM : HasVelocity M M' t) (hN : HasVelocity N N' t) :
    HasVelocity (fun s => M s * N s) (M' * N t + M t * N') t := by
  intro i j
  have h := HasDerivAt.fun_sum (u := Finset.univ) (fun x (_ : x ∈ Finset.univ) => (hM i x).mul (hN x j))
  have e : (fun s => (M s * N s) i j) = fun s => ∑ x, M s i x * N s x j := by
    funext s; rw [Matrix.mul_apply]
  rw [e, Matrix.add_apply, Matrix.mul_apply, Matrix.mul_apply, ← Finset.sum_add_distrib]
  exact h

theorem Spec.HasVelocity.conjTranspose {a b : Nat} {M : ℝ → Matrix (Fin a) (Fin b) 𝕜} {M'} {t : ℝ}
    (hM : HasVelocity M M' t) : HasVelocity (fun s => (M s)ᴴ) M'ᴴ t := by
  intro i j
  exact (hM j i).star

theorem Spec.HasVelocityVec.diag {a : Nat} {D : ℝ → Fin a → ℝ} {D'} {t : ℝ} (hD : HasVelocityVec D D' t) :
    HasVelocity (fun s => Spec.diag 𝕜 (D s)) (Spec.diag 𝕜 D') t := by
  intro i j
  unfold Spec.diag
  by_cases h : i = j
  · subst h
    simp only [Matrix.diagonal_apply_eq]
    have h2 := (RCLike.ofRealCLM (K := 𝕜)).hasFDerivAt.comp_hasDerivAt t (hD i)
    simpa [Function.comp_def] using h2
  · simp only [Matrix.diagonal_apply_ne _ h]
    exact hasDerivAt_const t 0

theorem Spec.HasVelocity.unique {a b : Nat} {M N : ℝ → Matrix (Fin a) (Fin b) 𝕜} {M' N'} {t : ℝ}
    (hM : HasVelocity M M' t) (hN : HasVelocity N N' t) (h : ∀ᶠ s in 𝓝 t, M s = N s) : M' = N' := by
  ext i j
  have e : (fun s => M s i j) =ᶠ[𝓝 t] fun s => N s i j := by
    filter_upwards [h] with s hs; rw [hs]
  exact (hM i j).unique ((hN i j).congr_of_eventuallyEq e)

theorem Spec.HasVelocity.const {a b : Nat} (M : Matrix (Fin a) (Fin b) 𝕜) (t : ℝ) : HasVelocity (fun _ => M) 0 t := by
  intro i j; exact hasDerivAt_const t _

/-- A curve of isometries has anti-Hermitian `U^dagger U'`. -/
theorem antiherm {a b : Nat} {U : ℝ → Matrix (Fin a) (Fin b) 𝕜} {U'} {t : ℝ} (hU : HasVelocity U U' t)
    (h : ∀ᶠ s in 𝓝 t, (U s)ᴴ * U s = 1) : U'ᴴ * U t = - ((U t)ᴴ * U') := by
  have := (hU.conjTranspose.mul hU).unique (HasVelocity.const (1 : Matrix (Fin b) (Fin b) 𝕜) t) h
  exact eq_neg_of_add_eq_zero_left this

theorem pair_diag (d : Fin k → ℝ) (P : Matrix (Fin k) (Fin k) 𝕜) :
    pair (Spec.diag 𝕜 d) P = ∑ i, d i * RCLike.re (P i i) := by
  unfold pair Spec.diag
  rw [map_sum]
  apply Finset.sum_congr rfl
  intro i _
  rw [Finset.sum_eq_single i]
  · simp
  · intro j _ hj; simp [Matrix.diagonal_apply_ne _ (Ne.symm hj)]
  · simp

theorem safeInverse_zero {x : ℝ} (hx : x ≠ 0) : safeInverse x 0 = x⁻¹ := by
  unfold safeInverse; field_simp; simp

theorem pair_had (c : Matrix (Fin k) (Fin k) ℝ) (W P : Matrix (Fin k) (Fin k) 𝕜) :
    pair (had c W) P = pair W (had c P) := by
  unfold pair had
  congr 1
  apply Finset.sum_congr rfl; intro i _
  apply Finset.sum_congr rfl; intro j _
  simp only [Matrix.of_apply, map_mul, RCLike.conj_ofReal]
  ring

/-- Off-diagonal part plus diagonal part of a pairing. -/
theorem pair_split (W X Xo : Matrix (Fin k) (Fin k) 𝕜) (ho : ∀ i j, Xo i j = if i = j then 0 else X i j)
    (hd : ∀ i, RCLike.re (X i i) = 0) :
    pair W X = pair W Xo + ∑ i, RCLike.im (W i i) * RCLike.im (X i i) := by
  have : X = Xo + Matrix.diagonal (fun i => X i i) := by
    ext i j
    rw [Matrix.add_apply, ho]
    by_cases h : i = j
    · subst h; simp
    · simp [h]
  conv_lhs => rw [this]
  rw [pair_add_right]
  congr 1
  unfold pair
  rw [map_sum]
  apply Finset.sum_congr rfl
  intro i _
  rw [Finset.sum_eq_single i]
  · simp [hd i]
  · intro j _ hj; simp [Matrix.diagonal_apply_ne _ (Ne.symm hj)]
  · simp

/-! ### C21 -/

/-- C21. Let `A(t) = U(t) diag(D(t)) U(t)^dagger` be a differentiable curve of Hermitian matrices with
differentiable eigenvalues and eigenvectors, eigenvalues distinct at `t`. If `gD`, `gU` are the gradients of
a loss with respect to eigenvalues and eigenvectors, and the loss does not depend on the phases of the
eigenvectors (automatic for real matrices), the matrix returned by `backward` without regularisation is the
gradient of the loss with respect to `A`: its pairing with `A'` is the derivative of the loss. -/
theorem C21_eigh_backward (A U : ℝ → Matrix (Fin n) (Fin n) 𝕜) (D : ℝ → Fin n → ℝ) (A' U' : Matrix (Fin n) (Fin n) 𝕜)
    (D' : Fin n → ℝ) (t : ℝ) (hA : HasVelocity A A' t) (hU : HasVelocity U U' t) (hD : HasVelocityVec D D' t)
    (hUU : ∀ᶠ s in 𝓝 t, (U s)ᴴ * U s = 1) (hdec : ∀ᶠ s in 𝓝 t, A s = U s * Spec.diag 𝕜 (D s) * (U s)ᴴ)
    (hdist : ∀ i j, i ≠ j → D t i ≠ D t j)
    (gD : Fin n → ℝ) (gU : Matrix (Fin n) (Fin n) 𝕜) (hgauge : ∀ i, RCLike.im (((U t)ᴴ * gU) i i) = 0) :
    pair (symeigBackward (D t) (U t) 0 gD gU) A' = (∑ i, gD i * D' i) + pair gU U' := by
  have h1 : (U t)ᴴ * U t = 1 := hUU.self_of_nhds
  have h1' : U t * (U t)ᴴ = 1 := mul_eq_one_comm.1 h1
  have hanti := antiherm hU hUU
  have hA' : A' = (U' * Spec.diag 𝕜 (D t) + U t * Spec.diag 𝕜 D') * (U t)ᴴ + U t * Spec.diag 𝕜 (D t) * U'ᴴ :=
    hA.unique ((hU.mul hD.diag).mul hU.conjTranspose) hdec
  set X := (U t)ᴴ * U' with hX
  have hP : (U t)ᴴ * A' * U t = X * Spec.diag 𝕜 (D t) - Spec.diag 𝕜 (D t) * X + Spec.diag 𝕜 D' := by
    have e : (U t)ᴴ * A' * U t = (U t)ᴴ * U' * Spec.diag 𝕜 (D t) * ((U t)ᴴ * U t) +
        ((U t)ᴴ * U t) * Spec.diag 𝕜 D' * ((U t)ᴴ * U t) + ((U t)ᴴ * U t) * Spec.diag 𝕜 (D t) * (U'ᴴ * U t) := by
      rw [hA']; simp only [Matrix.mul_add, Matrix.add_mul, Matrix.mul_assoc]
    rw [e, h1, hanti, ← hX]
    simp only [Matrix.mul_one, Matrix.one_mul, Matrix.mul_neg]
    abel
  have hPe : ∀ i j, ((U t)ᴴ * A' * U t) i j = X i j * ((D t j - D t i : ℝ) : 𝕜) + if i = j then (D' i : 𝕜) else 0 := by
    intro i j
    rw [hP]
    simp only [Spec.diag, Matrix.add_apply, Matrix.sub_apply, Matrix.mul_diagonal, Matrix.diagonal_mul,
      Matrix.diagonal_apply]
    push_cast
    ring
  have hXd : ∀ i, RCLike.re (X i i) = 0 := by
    intro i
    have h2 : (Xᴴ) i i = (- X) i i := by
      rw [hX, Matrix.conjTranspose_mul, Matrix.conjTranspose_conjTranspose, hanti]
    rw [Matrix.conjTranspose_apply, Matrix.neg_apply, RCLike.star_def] at h2
    have := congrArg RCLike.re h2
    rw [RCLike.conj_re, map_neg] at this
    linarith
  unfold symeigBackward
  rw [pair_mul_right, Matrix.conjTranspose_conjTranspose, pair_mul_left, ← Matrix.mul_assoc, pair_add_left]
  congr 1
  · show pair (Spec.diag 𝕜 gD) _ = _
    rw [pair_diag]
    apply Finset.sum_congr rfl
    intro i _
    rw [hPe]
    simp
  · rw [pair_had]
    have e : U' = U t * X := by rw [hX, ← Matrix.mul_assoc, h1', Matrix.one_mul]
    have e2 : pair gU U' = pair ((U t)ᴴ * gU) X := by
      rw [pair_mul_left, Matrix.conjTranspose_conjTranspose, ← e]
    rw [e2, pair_split _ X (had (Fmat (D t) 0) ((U t)ᴴ * A' * U t)) ?_ hXd]
    · have : ∑ i, RCLike.im (((U t)ᴴ * gU) i i) * RCLike.im (X i i) = 0 :=
        Finset.sum_eq_zero (fun i _ => by rw [hgauge i, zero_mul])
      rw [this, add_zero]
    · intro i j
      unfold had Fmat
      simp only [Matrix.of_apply]
      by_cases h : i = j
      · simp [h]
      · have hne : D t j - D t i ≠ 0 := sub_ne_zero.2 (hdist j i (Ne.symm h))
        rw [if_neg h, if_neg h, safeInverse_zero hne, hPe, if_neg h, add_zero]
        have : ((D t j - D t i : ℝ) : 𝕜) ≠ 0 := by exact_mod_cast hne
        rw [RCLike.ofReal_inv]
        field_simp

/-! ### C54 -/

theorem pair_antisym (c : Matrix (Fin k) (Fin k) ℝ) (W P : Matrix (Fin k) (Fin k) 𝕜) :
    pair (had c (W - Wᴴ)) P = pair W (had c P - had cᵀ Pᴴ) := by
  have h1 : pair (had c Wᴴ) P = pair W (had cᵀ Pᴴ) := by
    rw [pair_had, ← pair_conj, Matrix.conjTranspose_conjTranspose]
    congr 1
    ext i j
    simp [had, RCLike.star_def]
  have h2 : had c (W - Wᴴ) = had c W - had c Wᴴ := by
    ext i j; simp [had, mul_sub]
  rw [pair_sub_right, ← h1, ← pair_had, h2, sub_eq_add_neg, pair_add_left, sub_eq_add_neg]
  congr 1
  rw [pair_trace, pair_trace]; simp

theorem isometry_square {a b : Nat} (u : Matrix (Fin a) (Fin b) 𝕜) (h : uᴴ * u = 1) (hab : ¬ b < a) : u * uᴴ = 1 := by
  have hle : b ≤ a := by
    have h1 : Function.Injective u.mulVec := by
      intro x y e
      have := congrArg (uᴴ.mulVec) e
      simpa [Matrix.mulVec_mulVec, h] using this
    have := LinearMap.finrank_le_finrank_of_injective (f := Matrix.mulVecLin u) h1
    simpa using this
  have e : a = b := by omega
  subst e
  exact mul_eq_one_comm.1 h

/-- C54. Let `A(t) = U(t) diag(S(t)) V(t)^dagger` be a differentiable curve of `m x n` matrices with
differentiable factors, `U`, `V` isometries with `k` columns, singular values positive and distinct at
`t`. If `gU`, `gS`, `gV` are the gradients of a loss with respect to the factors, and the loss does not
depend on the common phases of the columns of `U` and `V` (automatic for real matrices), then the matrix
returned by `backward` without regularisation is the gradient with respect to `A`. -/
theorem C54_svd_backward (A : ℝ → Matrix (Fin m) (Fin n) 𝕜) (U : ℝ → Matrix (Fin m) (Fin k) 𝕜)
    (S : ℝ → Fin k → ℝ) (V : ℝ → Matrix (Fin n) (Fin k) 𝕜) (A' U' S' V') (t s0 : ℝ)
    (hA : HasVelocity A A' t) (hU : HasVelocity U U' t) (hS : HasVelocityVec S S' t) (hV : HasVelocity V V' t)
    (hUU : ∀ᶠ s in 𝓝 t, (U s)ᴴ * U s = 1) (hVV : ∀ᶠ s in 𝓝 t, (V s)ᴴ * V s = 1)
    (hdec : ∀ᶠ s in 𝓝 t, A s = U s * Spec.diag 𝕜 (S s) * (V s)ᴴ)
    (hpos : ∀ i, 0 < S t i) (hdist : ∀ i j, i ≠ j → S t i ≠ S t j)
    (gU : Matrix (Fin m) (Fin k) 𝕜) (gS : Fin k → ℝ) (gV : Matrix (Fin n) (Fin k) 𝕜)
    (hgauge : ∀ i, RCLike.im (((U t)ᴴ * gU) i i) + RCLike.im (((V t)ᴴ * gV) i i) = 0) :
    pair (svdBackward (U t) (S t) (V t) s0 0 gU gS gV) A' = pair gU U' + (∑ i, gS i * S' i) + pair gV V' := by
  have hu1 : (U t)ᴴ * U t = 1 := hUU.self_of_nhds
  have hv1 : (V t)ᴴ * V t = 1 := hVV.self_of_nhds
  have hantiU := antiherm hU hUU
  have hantiV := antiherm hV hVV
  have hA' : A' = (U' * Spec.diag 𝕜 (S t) + U t * Spec.diag 𝕜 S') * (V t)ᴴ + U t * Spec.diag 𝕜 (S t) * V'ᴴ :=
    hA.unique ((hU.mul hS.diag).mul hV.conjTranspose) hdec
  generalize hu : U t = u at *
  generalize hv : V t = v at *
  generalize hs : S t = s at *
  set Sg := Spec.diag 𝕜 s with hSg
  set X := uᴴ * U' with hX
  set Y := vᴴ * V' with hY
  set W := uᴴ * gU with hW
  set Z := vᴴ * gV with hZ
  set P := uᴴ * A' * v with hPdef
  have hXd : Xᴴ = -X := by rw [hX, Matrix.conjTranspose_mul, Matrix.conjTranspose_conjTranspose, hantiU]
  have hYd : Yᴴ = -Y := by rw [hY, Matrix.conjTranspose_mul, Matrix.conjTranspose_conjTranspose, hantiV]
  have hP : P = X * Sg - Sg * Y + Spec.diag 𝕜 S' := by
    have e : P = uᴴ * U' * Sg * (vᴴ * v) + (uᴴ * u) * Spec.diag 𝕜 S' * (vᴴ * v) + (uᴴ * u) * Sg * (V'ᴴ * v) := by
      rw [hPdef, hA']; simp only [Matrix.mul_add, Matrix.add_mul, Matrix.mul_assoc]
    rw [e, hu1, hv1, hantiV, ← hX]
    simp only [Matrix.mul_one, Matrix.one_mul, Matrix.mul_neg]
    abel
  have hPe : ∀ i j, P i j = X i j * (s j : 𝕜) - (s i : 𝕜) * Y i j + if i = j then (S' i : 𝕜) else 0 := by
    intro i j
    rw [hP, hSg]
    simp only [Spec.diag, Matrix.add_apply, Matrix.sub_apply, Matrix.mul_diagonal, Matrix.diagonal_mul,
      Matrix.diagonal_apply]
  have hXe : ∀ i j, star (X j i) = - X i j := fun i j => congrFun (congrFun hXd i) j
  have hYe : ∀ i j, star (Y j i) = - Y i j := fun i j => congrFun (congrFun hYd i) j
  have hXr : ∀ i, RCLike.re (X i i) = 0 := by
    intro i
    have := congrArg RCLike.re (hXe i i)
    rw [RCLike.star_def, RCLike.conj_re, map_neg] at this
    linarith
  have hYr : ∀ i, RCLike.re (Y i i) = 0 := by
    intro i
    have := congrArg RCLike.re (hYe i i)
    rw [RCLike.star_def, RCLike.conj_re, map_neg] at this
    linarith
  have hsinv : ∀ i, safeInverse2 (s i) (s0 * 0) = (s i)⁻¹ := by
    intro i
    unfold safeInverse2
    rw [mul_zero, if_neg (not_lt.2 (abs_nonneg _))]
  -- the projector terms
  set sinv := Matrix.diagonal (fun i => ((safeInverse2 (s i) (s0 * 0) : ℝ) : 𝕜)) with hsi
  have hSsinv : Sg * sinv = 1 := by
    rw [hSg, hsi, Spec.diag, Matrix.diagonal_mul_diagonal, ← Matrix.diagonal_one]
    congr 1
    funext i
    rw [hsinv, RCLike.ofReal_inv]
    have : (s i : 𝕜) ≠ 0 := by exact_mod_cast ne_of_gt (hpos i)
    exact mul_inv_cancel₀ this
  have hsinvH : sinvᴴ = sinv := by
    rw [hsi, Matrix.diagonal_conjTranspose]
    congr 1
    funext i
    simp [RCLike.star_def]
  have hSgH : Sgᴴ = Sg := by
    rw [hSg, Spec.diag, Matrix.diagonal_conjTranspose]
    congr 1
    funext i
    simp [RCLike.star_def]
  have hprojU : pair ((1 - u * uᴴ) * (gU * sinv) * vᴴ) A' = pair gU ((1 - u * uᴴ) * U') := by
    have e1 : A' * v = U' * Sg + u * (Spec.diag 𝕜 S' - Sg * Y) := by
      rw [hA']
      simp only [Matrix.add_mul, Matrix.mul_assoc, hv1, hantiV, Matrix.mul_one, Matrix.mul_neg, Matrix.mul_sub]
      abel
    have e2 : (1 - u * uᴴ) * u = 0 := by
      rw [Matrix.sub_mul, Matrix.mul_assoc, hu1]; simp
    rw [pair_mul_right, Matrix.conjTranspose_conjTranspose, pair_mul_left, pair_mul_right, hsinvH]
    congr 1
    rw [e1, Matrix.conjTranspose_sub, Matrix.conjTranspose_one, Matrix.conjTranspose_mul,
      Matrix.conjTranspose_conjTranspose, Matrix.mul_add, ← Matrix.mul_assoc _ u, e2, Matrix.zero_mul, add_zero,
      Matrix.mul_assoc, Matrix.mul_assoc, hSsinv, Matrix.mul_one]
  have hprojV : pair (u * (sinv * (gVᴴ * (1 - v * vᴴ)))) A' = pair gV ((1 - v * vᴴ) * V') := by
    have e1 : A'ᴴ * u = V' * Sg + v * ((Spec.diag 𝕜 S')ᴴ - Sg * X) := by
      rw [hA']
      simp only [Matrix.conjTranspose_add, Matrix.conjTranspose_mul, Matrix.conjTranspose_conjTranspose,
        Matrix.add_mul, Matrix.mul_assoc, Matrix.mul_add, hu1, hantiU, Matrix.mul_one, Matrix.mul_neg, Matrix.mul_sub, hSgH]
      abel
    have e2 : (1 - v * vᴴ) * v = 0 := by
      rw [Matrix.sub_mul, Matrix.mul_assoc, hv1]; simp
    rw [pair_mul_left, pair_mul_left, hsinvH, ← pair_conj, Matrix.conjTranspose_mul gVᴴ,
      Matrix.conjTranspose_conjTranspose, Matrix.conjTranspose_mul, Matrix.conjTranspose_mul,
      Matrix.conjTranspose_conjTranspose, hsinvH, pair_mul_left]
    congr 1
    rw [e1, Matrix.conjTranspose_conjTranspose, Matrix.add_mul, Matrix.mul_add, Matrix.mul_assoc v,
      ← Matrix.mul_assoc _ v, e2, Matrix.zero_mul, add_zero, Matrix.mul_assoc, hSsinv, Matrix.mul_one]
  -- the core
  have hcoef : ∀ i j, i ≠ j → ((1 / 2 : ℝ) * ((Fmat s (s0 * 0) + Gmat s (s0 * 0)) i j) = s j / (s j ^ 2 - s i ^ 2)) ∧
      ((1 / 2 : ℝ) * ((Fmat s (s0 * 0) - Gmat s (s0 * 0)) i j) = s i / (s j ^ 2 - s i ^ 2)) := by
    intro i j h
    have h1 : s j - s i ≠ 0 := sub_ne_zero.2 (hdist j i (Ne.symm h))
    have h2 : s j + s i ≠ 0 := by have := hpos i; have := hpos j; linarith
    have h3 : s j ^ 2 - s i ^ 2 = (s j - s i) * (s j + s i) := by ring
    unfold Fmat Gmat
    rw [Matrix.add_apply, Matrix.sub_apply, mul_zero]
    simp only [Matrix.of_apply, if_neg h, safeInverse_zero h1, safeInverse_zero h2, h3]
    constructor <;> (field_simp; ring)
  have hcoef0 : ∀ i, (Fmat s (s0 * 0) + Gmat s (s0 * 0)) i i = 0 ∧ (Fmat s (s0 * 0) - Gmat s (s0 * 0)) i i = 0 := by
    intro i
    unfold Fmat Gmat
    simp
  set cp : Matrix (Fin k) (Fin k) ℝ := Matrix.of fun i j => 1 / 2 * (Fmat s (s0 * 0) + Gmat s (s0 * 0)) i j with hcp
  set cm : Matrix (Fin k) (Fin k) ℝ := Matrix.of fun i j => 1 / 2 * (Fmat s (s0 * 0) - Gmat s (s0 * 0)) i j with hcm
  have hhalf : ∀ (c : Matrix (Fin k) (Fin k) ℝ) (M : Matrix (Fin k) (Fin k) 𝕜),
      (1 / 2 : 𝕜) • had c M = had (Matrix.of fun i j => 1 / 2 * c i j) M := by
    intro c M
    ext i j
    simp only [had, Matrix.smul_apply, Matrix.of_apply, smul_eq_mul]
    push_cast
    ring
  have hXo : ∀ i j, (had cp P - had cpᵀ Pᴴ) i j = if i = j then 0 else X i j := by
    intro i j
    by_cases h : i = j
    · subst h
      have c0 : cp i i = 0 := by rw [hcp, Matrix.of_apply, (hcoef0 i).1, mul_zero]
      simp [had, c0]
    · rw [if_neg h]
      have c1 : cp i j = _ := (hcoef i j h).1
      have c2 : cp j i = _ := (hcoef j i (Ne.symm h)).1
      have h3 : ((s j : 𝕜) ^ 2 - (s i : 𝕜) ^ 2) ≠ 0 := by
        have h1 : s j - s i ≠ 0 := sub_ne_zero.2 (hdist j i (Ne.symm h))
        have h2 : s j + s i ≠ 0 := by have := hpos i; have := hpos j; linarith
        have : s j ^ 2 - s i ^ 2 ≠ 0 := by
          rw [show s j ^ 2 - s i ^ 2 = (s j - s i) * (s j + s i) by ring]; exact mul_ne_zero h1 h2
        exact_mod_cast this
      have h4 : ((s i : 𝕜) ^ 2 - (s j : 𝕜) ^ 2) ≠ 0 := by rw [← neg_sub]; exact neg_ne_zero.2 h3
      simp only [had, Matrix.sub_apply, Matrix.of_apply, Matrix.transpose_apply, Matrix.conjTranspose_apply, c1, c2]
      rw [hPe i j, hPe j i, if_neg h, if_neg (Ne.symm h)]
      have e : star (X j i * (s i : 𝕜) - (s j : 𝕜) * Y j i + 0) = - X i j * s i + s j * Y i j := by
        simp only [add_zero, star_sub, star_mul, hXe, hYe]
        simp [RCLike.star_def]; ring
      rw [e]
      push_cast
      rw [show ((s i : 𝕜) / ((s i : 𝕜) ^ 2 - (s j : 𝕜) ^ 2)) = - ((s i : 𝕜) / ((s j : 𝕜) ^ 2 - (s i : 𝕜) ^ 2)) by
        rw [← neg_sub ((s j : 𝕜) ^ 2), div_neg]]
      field_simp
      ring
  have hYo : ∀ i j, (had cm P - had cmᵀ Pᴴ) i j = if i = j then 0 else Y i j := by
    intro i j
    by_cases h : i = j
    · subst h
      have c0 : cm i i = 0 := by rw [hcm, Matrix.of_apply, (hcoef0 i).2, mul_zero]
      simp [had, c0]
    · rw [if_neg h]
      have c1 : cm i j = _ := (hcoef i j h).2
      have c2 : cm j i = _ := (hcoef j i (Ne.symm h)).2
      have h3 : ((s j : 𝕜) ^ 2 - (s i : 𝕜) ^ 2) ≠ 0 := by
        have h1 : s j - s i ≠ 0 := sub_ne_zero.2 (hdist j i (Ne.symm h))
        have h2 : s j + s i ≠ 0 := by have := hpos i; have := hpos j; linarith
        have : s j ^ 2 - s i ^ 2 ≠ 0 := by
          rw [show s j ^ 2 - s i ^ 2 = (s j - s i) * (s j + s i) by ring]; exact mul_ne_zero h1 h2
        exact_mod_cast this
      simp only [had, Matrix.sub_apply, Matrix.of_apply, Matrix.transpose_apply, Matrix.conjTranspose_apply, c1, c2]
      rw [hPe i j, hPe j i, if_neg h, if_neg (Ne.symm h)]
      have e : star (X j i * (s i : 𝕜) - (s j : 𝕜) * Y j i + 0) = - X i j * s i + s j * Y i j := by
        simp only [add_zero, star_sub, star_mul, hXe, hYe]
        simp [RCLike.star_def]; ring
      rw [e]
      push_cast
      rw [show ((s j : 𝕜) / ((s i : 𝕜) ^ 2 - (s j : 𝕜) ^ 2)) = - ((s j : 𝕜) / ((s j : 𝕜) ^ 2 - (s i : 𝕜) ^ 2)) by
        rw [← neg_sub ((s j : 𝕜) ^ 2), div_neg]]
      field_simp
      ring
  have hWH : gUᴴ * u = Wᴴ := by rw [hW, Matrix.conjTranspose_mul, Matrix.conjTranspose_conjTranspose]
  have hZH : gVᴴ * v = Zᴴ := by rw [hZ, Matrix.conjTranspose_mul, Matrix.conjTranspose_conjTranspose]
  have hsand : ∀ M : Matrix (Fin k) (Fin k) 𝕜, pair (u * M * vᴴ) A' = pair M P := by
    intro M
    rw [pair_mul_right, Matrix.conjTranspose_conjTranspose, pair_mul_left, ← Matrix.mul_assoc]
  -- the diagonal term
  have hL : pair (Matrix.diagonal (fun i => RCLike.I * ((RCLike.im (W i i) * safeInverse2 (s i) (s0 * 0) : ℝ) : 𝕜))) P =
      ∑ i, RCLike.im (W i i) * (RCLike.im (X i i) - RCLike.im (Y i i)) := by
    unfold pair
    rw [map_sum]
    apply Finset.sum_congr rfl
    intro i _
    rw [Finset.sum_eq_single i]
    · have hc : (starRingEnd 𝕜) (RCLike.I * ((RCLike.im (W i i) * safeInverse2 (s i) (s0 * 0) : ℝ) : 𝕜)) =
          -RCLike.I * ((RCLike.im (W i i) * safeInverse2 (s i) (s0 * 0) : ℝ) : 𝕜) := by
        rw [RingHom.map_mul, RCLike.conj_I, RCLike.conj_ofReal]
      rw [Matrix.diagonal_apply_eq, hc, hPe, if_pos rfl, hsinv]
      have hi : s i ≠ 0 := ne_of_gt (hpos i)
      have e : -(RCLike.I : 𝕜) * ((RCLike.im (W i i) * (s i)⁻¹ : ℝ) : 𝕜) * (X i i * (s i : 𝕜) - (s i : 𝕜) * Y i i + (S' i : 𝕜)) =
          ((-(RCLike.im (W i i) * (s i)⁻¹) : ℝ) : 𝕜) * (RCLike.I * (X i i * (s i : 𝕜) - (s i : 𝕜) * Y i i + (S' i : 𝕜))) := by
        push_cast; ring
      rw [e, RCLike.re_ofReal_mul, RCLike.I_mul_re]
      simp only [map_add, map_sub, RCLike.im_ofReal_mul, RCLike.ofReal_im, add_zero]
      rw [mul_comm (X i i), RCLike.im_ofReal_mul]
      field_simp
    · intro j _ hj; simp [Matrix.diagonal_apply_ne _ (Ne.symm hj)]
    · simp
  have hfullU : pair gU U' = pair W X + pair gU ((1 - u * uᴴ) * U') := by
    rw [hW, pair_mul_left, Matrix.conjTranspose_conjTranspose, ← pair_add_right]
    congr 1
    rw [hX, Matrix.sub_mul, Matrix.one_mul, Matrix.mul_assoc]; abel
  have hfullV : pair gV V' = pair Z Y + pair gV ((1 - v * vᴴ) * V') := by
    rw [hZ, pair_mul_left, Matrix.conjTranspose_conjTranspose, ← pair_add_right]
    congr 1
    rw [hY, Matrix.sub_mul, Matrix.one_mul, Matrix.mul_assoc]; abel
  have hrealS : pair (Spec.diag 𝕜 gS) P = ∑ i, gS i * S' i := by
    rw [pair_diag]
    apply Finset.sum_congr rfl
    intro i _
    rw [hPe, if_pos rfl]
    congr 1
    simp [hXr, hYr]
  have hUterm : pair ((if k < m then (1 / 2 : 𝕜) • (u * had (Fmat s (s0 * 0) + Gmat s (s0 * 0)) (uᴴ * gU - gUᴴ * u)) +
      (1 - u * uᴴ) * (gU * sinv) else (1 / 2 : 𝕜) • (u * had (Fmat s (s0 * 0) + Gmat s (s0 * 0)) (uᴴ * gU - gUᴴ * u))) * vᴴ) A' =
      pair (had cp (W - Wᴴ)) P + pair gU ((1 - u * uᴴ) * U') := by
    have e : (1 / 2 : 𝕜) • (u * had (Fmat s (s0 * 0) + Gmat s (s0 * 0)) (uᴴ * gU - gUᴴ * u)) = u * had cp (W - Wᴴ) := by
      rw [← Matrix.mul_smul, hhalf, hWH]
    rw [e]
    split
    · rw [Matrix.add_mul, pair_add_left, hsand, hprojU]
    · rename_i hkm
      rw [hsand, isometry_square u hu1 hkm]
      simp [pair]
  have hVterm : pair (u * (if k < n then (1 / 2 : 𝕜) • (had (Fmat s (s0 * 0) - Gmat s (s0 * 0)) (vᴴ * gV - gVᴴ * v) * vᴴ) +
      sinv * (gVᴴ * (1 - v * vᴴ)) else (1 / 2 : 𝕜) • (had (Fmat s (s0 * 0) - Gmat s (s0 * 0)) (vᴴ * gV - gVᴴ * v) * vᴴ))) A' =
      pair (had cm (Z - Zᴴ)) P + pair gV ((1 - v * vᴴ) * V') := by
    have e : (1 / 2 : 𝕜) • (had (Fmat s (s0 * 0) - Gmat s (s0 * 0)) (vᴴ * gV - gVᴴ * v) * vᴴ) = had cm (Z - Zᴴ) * vᴴ := by
      rw [← Matrix.smul_mul, hhalf, hZH]
    rw [e]
    split
    · rw [Matrix.mul_add, pair_add_left, ← Matrix.mul_assoc, hsand, hprojV]
    · rename_i hkn
      rw [← Matrix.mul_assoc, hsand, isometry_square v hv1 hkn]
      simp [pair]
  unfold svdBackward
  simp only [pair_add_left]
  have hLt : pair (u * Matrix.diagonal (fun i => RCLike.I * ((RCLike.im ((uᴴ * gU) i i) *
      safeInverse2 (s i) (s0 * 0) : ℝ) : 𝕜)) * vᴴ) A' =
      ∑ i, RCLike.im (W i i) * (RCLike.im (X i i) - RCLike.im (Y i i)) := by
    rw [hsand]; exact hL
  have hsig : pair (u * Matrix.diagonal (fun i => (gS i : 𝕜)) * vᴴ) A' = ∑ i, gS i * S' i := by
    rw [hsand]; exact hrealS
  rw [hUterm, hsig, hVterm, hLt, pair_antisym, pair_antisym, hfullU, hfullV, pair_split W X _ hXo hXr, pair_split Z Y _ hYo hYr]
  have hg : ∑ i, RCLike.im (W i i) * (RCLike.im (X i i) - RCLike.im (Y i i)) =
      ∑ i, RCLike.im (W i i) * RCLike.im (X i i) + ∑ i, RCLike.im (Z i i) * RCLike.im (Y i i) := by
    rw [← Finset.sum_add_distrib]
    apply Finset.sum_congr rfl
    intro i _
    have := hgauge i
    have e : RCLike.im (Z i i) = - RCLike.im (W i i) := by linarith
    rw [e]; ring
  rw [hg]
  ring

/-! ### A concrete case: a rotating frame with two moving eigenvalues / singular values -/

/-- Rotation by the angle `s`. -/
noncomputable def exR (s : ℝ) : Matrix (Fin 2) (Fin 2) ℝ := !![Real.cos s, -Real.sin s; Real.sin s, Real.cos s]

/-- Values `3, 1 + s`. -/
def exD (s : ℝ) : Fin 2 → ℝ := ![3, 1 + s]

theorem exR_vel : HasVelocity exR !![0, -1; 1, 0] 0 := by
  have hc : HasDerivAt (fun s : ℝ => Real.cos s) 0 0 := by simpa using Real.hasDerivAt_cos 0
  have hs : HasDerivAt (fun s : ℝ => Real.sin s) 1 0 := by simpa using Real.hasDerivAt_sin 0
  intro i j
  fin_cases i <;> fin_cases j
  · simpa [exR] using hc
  · simpa [exR] using hs.fun_neg
  · simpa [exR] using hs
  · simpa [exR] using hc

theorem exD_vel : HasVelocityVec exD ![0, 1] 0 := by
  intro i
  fin_cases i
  · simpa [exD] using hasDerivAt_const (0 : ℝ) (3 : ℝ)
  · simpa [exD] using (hasDerivAt_id (0 : ℝ)).const_add 1

theorem exR_orth (s : ℝ) : (exR s)ᴴ * exR s = 1 := by
  ext i j
  fin_cases i <;> fin_cases j <;> simp [exR, Matrix.mul_apply, Fin.sum_univ_two]
  · linear_combination Real.cos_sq_add_sin_sq s
  · ring
  · ring
  · linear_combination Real.cos_sq_add_sin_sq s

theorem exD_dist : ∀ i j, i ≠ j → exD 0 i ≠ exD 0 j := by
  intro i j h
  fin_cases i <;> fin_cases j <;> simp_all [exD]

/-- C21 applies to the rotating symmetric matrix with a gradient that is neither symmetric nor zero. -/
example : pair (symeigBackward (exD 0) (exR 0) 0 ![1, 2] !![1, 2; 3, 4])
      ((!![0, -1; 1, 0] * Spec.diag ℝ (exD 0) + exR 0 * Spec.diag ℝ ![0, 1]) * (exR 0)ᴴ +
        exR 0 * Spec.diag ℝ (exD 0) * (!![0, -1; 1, 0])ᴴ) = 3 := by
  rw [C21_eigh_backward (fun s => exR s * Spec.diag ℝ (exD s) * (exR s)ᴴ) exR exD _ _ ![0, 1] 0
    ((exR_vel.mul exD_vel.diag).mul exR_vel.conjTranspose) exR_vel exD_vel
    (Eventually.of_forall exR_orth) (Eventually.of_forall fun _ => rfl) exD_dist _ _ (by simp)]
  norm_num [pair, Fin.sum_univ_two]

/-- C54 applies to the same curve with a constant right factor. -/
example : pair (svdBackward (exR 0) (exD 0) (1 : Matrix (Fin 2) (Fin 2) ℝ) 3 0 !![1, 2; 3, 4] ![1, 2] !![5, 6; 7, 8])
      ((!![0, -1; 1, 0] * Spec.diag ℝ (exD 0) + exR 0 * Spec.diag ℝ ![0, 1]) * (1 : Matrix (Fin 2) (Fin 2) ℝ)ᴴ +
        exR 0 * Spec.diag ℝ (exD 0) * (0 : Matrix (Fin 2) (Fin 2) ℝ)ᴴ) = 3 := by
  rw [C54_svd_backward (fun s => exR s * Spec.diag ℝ (exD s) * (1 : Matrix (Fin 2) (Fin 2) ℝ)ᴴ) exR exD
    (fun _ => 1) _ _ ![0, 1] 0 0 3
    ((exR_vel.mul exD_vel.diag).mul (Spec.HasVelocity.const 1 0).conjTranspose) exR_vel exD_vel (Spec.HasVelocity.const 1 0)
    (Eventually.of_forall exR_orth) (Eventually.of_forall fun _ => by simp) (Eventually.of_forall fun _ => rfl)
    (by intro i; fin_cases i <;> simp [exD]) exD_dist _ _ _ (by simp)]
  norm_num [pair, Fin.sum_univ_two]

end Verif.Decomp
