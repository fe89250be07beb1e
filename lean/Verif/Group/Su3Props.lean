import Verif.Group.Su3
import Mathlib.LinearAlgebra.Matrix.Hermitian
import Mathlib.Tactic.Ring
import Mathlib.Tactic.LinearCombination
import Mathlib.Tactic.FinCases
import Mathlib.Tactic.Linarith
/-
Property C118: the defining representation of su(3) and its Casimir operators.
-/
namespace Verif.Su3
open Matrix

namespace Spec

/-- The Gell-Mann matrices. -/
noncomputable def lambda : Fin 8 → Op :=
  ![!![0, 1, 0; 1, 0, 0; 0, 0, 0], !![0, -Complex.I, 0; Complex.I, 0, 0; 0, 0, 0], !![1, 0, 0; 0, -1, 0; 0, 0, 0],
    !![0, 0, 1; 0, 0, 0; 1, 0, 0], !![0, 0, -Complex.I; 0, 0, 0; Complex.I, 0, 0], !![0, 0, 0; 0, 0, 1; 0, 1, 0],
    !![0, 0, 0; 0, 0, -Complex.I; 0, Complex.I, 0], (1 / ((Real.sqrt 3 : ℝ) : ℂ)) • !![1, 0, 0; 0, 1, 0; 0, 0, -2]]

/-- The generators `F_k = lambda_k / 2`. -/
noncomputable def F (k : Fin 8) : Op := (1 / 2 : ℂ) • lambda k

/-- Operators on two sites. -/
abbrev Op2 := Matrix (Fin 3 × Fin 3) (Fin 3 × Fin 3) ℂ

/-- `A` on the first and `B` on the second site. -/
def prod2 (A B : Op) : Op2 := Matrix.of fun t s => A t.1 s.1 * B t.2 s.2

/-- The exchange of two sites. -/
def exchange : Op2 := Matrix.of fun t s => if t = s.swap then 1 else 0

/-- Operators on three sites. -/
abbrev Op3 := Matrix (Fin 3 × Fin 3 × Fin 3) (Fin 3 × Fin 3 × Fin 3) ℂ

/-- A product of operators on three sites. -/
def prod3 (A B C : Op) : Op3 := Matrix.of fun t s => A t.1 s.1 * B t.2.1 s.2.1 * C t.2.2 s.2.2

/-- The permutations of three sites, as permutations of configurations. -/
def permute3 (f : Fin 3 × Fin 3 × Fin 3 → Fin 3 × Fin 3 × Fin 3) : Op3 := Matrix.of fun t s => if t = f s then 1 else 0

/-- Exchanges and cyclic permutations. -/
def P12 : Op3 := permute3 fun s => (s.2.1, s.1, s.2.2)
def P13 : Op3 := permute3 fun s => (s.2.2, s.2.1, s.1)
def P23 : Op3 := permute3 fun s => (s.1, s.2.2, s.2.1)
def P123 : Op3 := permute3 fun s => (s.2.2, s.1, s.2.1)
def P132 : Op3 := permute3 fun s => (s.2.1, s.2.2, s.1)

/-- The symmetric structure constants. -/
noncomputable def d (a b c : Fin 8) : ℂ := 1 / 4 * Matrix.trace ((lambda a * lambda b + lambda b * lambda a) * lambda c)

end Spec
open Spec

theorem sqrt3 : ((Real.sqrt 3 : ℝ) : ℂ) * ((Real.sqrt 3 : ℝ) : ℂ) = 3 := by
  rw [← Complex.ofReal_mul, Real.mul_self_sqrt (by norm_num)]; norm_num

theorem sqrt3_ne : ((Real.sqrt 3 : ℝ) : ℂ) ≠ 0 := by
  intro h; have := sqrt3; rw [h] at this; norm_num at this

theorem sqrt3_inv : (((Real.sqrt 3 : ℝ) : ℂ))⁻¹ = ((Real.sqrt 3 : ℝ) : ℂ) / 3 := by
  have h := sqrt3
  have h0 := sqrt3_ne
  field_simp
  linear_combination -h

/-- `J_Gell_Mann` are the Gell-Mann matrices. -/
theorem C118_gellMann : gellMann = lambda := by
  funext k
  ext i j
  fin_cases k <;> fin_cases i <;> fin_cases j <;> simp [gellMann, lambda, TP, TM, TZ, VP, VM, UP, UM, Y, sqrt3_inv] <;> ring

/-- `C2` uses the generators `F_k`. -/
theorem Fs_eq : Fs = F := by
  funext k
  ext i j
  fin_cases k <;> fin_cases i <;> fin_cases j <;> simp [Fs, F, lambda, TP, TM, TZ, VP, VM, UP, UM, Y, sqrt3_inv] <;> ring

/-- The Cartan-Weyl basis in terms of the Gell-Mann matrices, as documented. -/
theorem C118_cartanWeyl :
    cartanWeyl 0 = (1/2 : ℂ) • (lambda 0 + Complex.I • lambda 1) ∧ cartanWeyl 1 = (1/2 : ℂ) • (lambda 0 - Complex.I • lambda 1) ∧ cartanWeyl 2 = (1/2 : ℂ) • lambda 2 ∧
    cartanWeyl 3 = (1/2 : ℂ) • (lambda 3 + Complex.I • lambda 4) ∧ cartanWeyl 4 = (1/2 : ℂ) • (lambda 3 - Complex.I • lambda 4) ∧
    cartanWeyl 5 = (1/2 : ℂ) • (lambda 5 + Complex.I • lambda 6) ∧ cartanWeyl 6 = (1/2 : ℂ) • (lambda 5 - Complex.I • lambda 6) ∧
    cartanWeyl 7 = (1 / ((Real.sqrt 3 : ℝ) : ℂ)) • lambda 7 := by
  have h3 := sqrt3
  refine ⟨?_, ?_, ?_, ?_, ?_, ?_, ?_, ?_⟩ <;> ext i j <;> fin_cases i <;> fin_cases j <;>
    simp [cartanWeyl, lambda, TP, TM, TZ, VP, VM, UP, UM, Y, sqrt3_inv] <;> first | done | (ring; done) | linear_combination (-(1/9) : ℂ) * h3 | linear_combination (-(2/9) : ℂ) * h3

/-- The unit matrix, as numbers. -/
def δ (i j : Fin 3) : ℂ := if i = j then 1 else 0

/-- Completeness of the generators. -/
theorem C118_complete (i j k l : Fin 3) : ∑ a, F a i j * F a k l = 1 / 2 * ((if i = l ∧ k = j then 1 else 0) - 1 / 3 * (if i = j ∧ k = l then 1 else 0)) := by
  have h3 := sqrt3
  have hI := Complex.I_mul_I
  fin_cases i <;> fin_cases j <;> fin_cases k <;> fin_cases l <;>
    simp [F, lambda, Fin.sum_univ_eight, sqrt3_inv] <;>
    first | done | (ring_nf; simp; done) | (ring_nf; simp; ring_nf; done) | linear_combination ((1/36 : ℂ)) * h3 | linear_combination ((1/18 : ℂ)) * h3 | linear_combination ((1/9 : ℂ)) * h3 | linear_combination (-(1/4 : ℂ)) * hI | linear_combination ((1/4 : ℂ)) * hI

theorem complete (i j k l : Fin 3) : ∑ a, F a i j * F a k l = 1 / 2 * (δ i l * δ k j - 1 / 3 * (δ i j * δ k l)) := by
  rw [C118_complete]
  unfold δ
  simp only [ite_and, ite_mul, one_mul, zero_mul]

/-- The generators are Hermitian, traceless and orthogonal. -/
theorem C118_basis : (∀ a, (lambda a).IsHermitian) ∧ (∀ a, Matrix.trace (lambda a) = 0) ∧ ∀ a b, Matrix.trace (lambda a * lambda b) = if a = b then 2 else 0 := by
  have h3 := sqrt3
  have hI := Complex.I_mul_I
  refine ⟨fun a => ?_, fun a => ?_, fun a b => ?_⟩
  · ext i j
    fin_cases a <;> fin_cases i <;> fin_cases j <;> simp [lambda]
  · fin_cases a <;> simp [lambda, Matrix.trace, Fin.sum_univ_three] <;> ring
  · fin_cases a <;> fin_cases b <;> simp [lambda, Matrix.trace, Fin.sum_univ_three, Matrix.mul_apply, sqrt3_inv] <;>
      first | done | (ring; done) | (norm_num; done) | linear_combination ((2/3 : ℂ)) * h3

theorem C1_F (i a j b : Fin 3) : C1 i a j b = ∑ k, F k i j * F k a b := by
  have h3 := sqrt3
  have hI := Complex.I_mul_I
  rw [← Fs_eq]
  unfold C1
  simp only [Fin.sum_univ_eight]
  simp only [Fs, Matrix.smul_apply, Matrix.add_apply, Matrix.sub_apply, smul_eq_mul, Matrix.cons_val]
  push_cast
  linear_combination (-(1/4) * (TP i j - TM i j) * (TP a b - TM a b) - 1/4 * (VP i j - VM i j) * (VP a b - VM a b) - 1/4 * (UP i j - UM i j) * (UP a b - UM a b)) * hI
    - (1/4 * Y i j * Y a b) * h3

/-- `C1` is the sum of the products of the generators on two sites; it is one half of the exchange less one sixth. -/
theorem C118_C1 : (Matrix.of fun t s : Fin 3 × Fin 3 => C1 t.1 t.2 s.1 s.2) = ∑ k, prod2 (F k) (F k) ∧
    (Matrix.of fun t s : Fin 3 × Fin 3 => C1 t.1 t.2 s.1 s.2) = (1 / 2 : ℂ) • exchange - (1 / 6 : ℂ) • (1 : Op2) := by
  constructor
  · ext t s
    rw [Matrix.sum_apply]
    exact C1_F _ _ _ _
  · ext ⟨i, a⟩ ⟨j, b⟩
    simp only [Matrix.of_apply, C1_F, C118_complete, Matrix.sub_apply, Matrix.smul_apply, exchange, Matrix.one_apply, Prod.swap, Prod.mk.injEq, smul_eq_mul]
    ring

/-! ### The cubic Casimir operator -/

theorem δ_comm (i j : Fin 3) : δ i j = δ j i := by unfold δ; simp [eq_comm]

theorem sum_δ (i : Fin 3) (f : Fin 3 → ℂ) : ∑ x, δ i x * f x = f i := by simp [δ]

/-- Summation over one generator in a trace. -/
theorem trace_sum (M : Op) (a b : Fin 3) : ∑ x, Matrix.trace (F x * M) * F x a b = 1 / 2 * (M a b - 1 / 3 * Matrix.trace M * δ a b) := by
  have h1 : ∀ x, Matrix.trace (F x * M) * F x a b = ∑ i, ∑ j, M j i * (F x i j * F x a b) := by
    intro x
    simp only [Matrix.trace, Matrix.diag_apply, Matrix.mul_apply, Finset.sum_mul]
    exact Finset.sum_congr rfl fun i _ => Finset.sum_congr rfl fun j _ => by ring
  simp only [h1]
  rw [Finset.sum_comm]
  have h2 : ∀ i, ∑ x, ∑ j, M j i * (F x i j * F x a b) = ∑ j, M j i * (1 / 2 * (δ i b * δ a j - 1 / 3 * (δ i j * δ a b))) := by
    intro i
    rw [Finset.sum_comm]
    exact Finset.sum_congr rfl fun j _ => by rw [← complete, Finset.mul_sum]
  simp only [h2]
  have h3 : ∀ i, ∑ j, M j i * (1 / 2 * (δ i b * δ a j - 1 / 3 * (δ i j * δ a b))) = 1 / 2 * (δ b i * M a i) - 1 / 6 * δ a b * M i i := by
    intro i
    rw [← sum_δ a (fun j => M j i), ← sum_δ i (fun j => M j i), Finset.mul_sum, Finset.mul_sum, Finset.mul_sum, ← Finset.sum_sub_distrib]
    exact Finset.sum_congr rfl fun j _ => by rw [δ_comm b i]; ring
  simp only [h3, Finset.sum_sub_distrib, ← Finset.mul_sum]
  rw [sum_δ b (fun i => M a i)]
  simp only [Matrix.trace, Matrix.diag_apply]
  ring

/-- Summation over a generator that is a factor of a product. -/
theorem left_sum (N : Op) (a b c d : Fin 3) : ∑ x, (F x * N) a b * F x c d = 1 / 2 * (δ a d * N c b - 1 / 3 * δ c d * N a b) := by
  have h1 : ∀ x, (F x * N) a b * F x c d = ∑ j, N j b * (F x a j * F x c d) := by
    intro x
    simp only [Matrix.mul_apply, Finset.sum_mul]
    exact Finset.sum_congr rfl fun j _ => by ring
  simp only [h1]
  rw [Finset.sum_comm]
  have h2 : ∀ j, ∑ x, N j b * (F x a j * F x c d) = 1 / 2 * δ a d * (δ c j * N j b) - 1 / 6 * δ c d * (δ a j * N j b) := by
    intro j
    rw [← Finset.mul_sum, complete]; ring
  simp only [h2, Finset.sum_sub_distrib, ← Finset.mul_sum, sum_δ]
  ring

theorem F_trace (x : Fin 8) : Matrix.trace (F x) = 0 := by
  unfold F; rw [Matrix.trace_smul, C118_basis.2.1, smul_zero]

/-- The sum over three generators with the trace of their product. -/
theorem cubic (i j k a b c : Fin 3) : ∑ x, ∑ y, ∑ z, Matrix.trace (F x * F y * F z) * (F x i a * F y j b * F z k c) =
    1 / 8 * (δ i b * δ j c * δ k a) - 1 / 24 * (δ i b * δ j a * δ k c + δ i c * δ k a * δ j b + δ j c * δ k b * δ i a) + 1 / 36 * (δ i a * δ j b * δ k c) := by
  have h1 : ∀ y z, ∑ x, Matrix.trace (F x * F y * F z) * (F x i a * F y j b * F z k c) =
      1 / 2 * ((F y * F z) i a * F y j b) * F z k c - 1 / 6 * δ i a * (Matrix.trace (F y * F z) * F y j b) * F z k c := by
    intro y z
    have : ∀ x, Matrix.trace (F x * F y * F z) * (F x i a * F y j b * F z k c) = (Matrix.trace (F x * (F y * F z)) * F x i a) * (F y j b * F z k c) := by
      intro x; rw [mul_assoc (F x)]; ring
    rw [Finset.sum_congr rfl fun x _ => this x, ← Finset.sum_mul, trace_sum]
    ring
  have h2 : ∀ z, ∑ y, ∑ x, Matrix.trace (F x * F y * F z) * (F x i a * F y j b * F z k c) =
      1 / 4 * δ i b * (F z j a * F z k c) - 1 / 12 * δ j b * (F z i a * F z k c) - 1 / 12 * δ i a * (F z j b * F z k c) := by
    intro z
    simp only [h1]
    rw [Finset.sum_sub_distrib, ← Finset.sum_mul, ← Finset.mul_sum, left_sum, ← Finset.sum_mul, ← Finset.mul_sum, trace_sum, F_trace]
    ring
  calc _ = ∑ z, ∑ y, ∑ x, Matrix.trace (F x * F y * F z) * (F x i a * F y j b * F z k c) := by
        rw [Finset.sum_comm, Finset.sum_congr rfl fun y _ => Finset.sum_comm, Finset.sum_comm]
    _ = _ := by
        simp only [h2, Finset.sum_sub_distrib, ← Finset.mul_sum, complete]
        ring

theorem C2_eq (i j k a b c : Fin 3) : C2 i j k a b c = 1 / 4 * (δ i b * δ j c * δ k a + δ i c * δ j a * δ k b) -
    1 / 6 * (δ i b * δ j a * δ k c + δ i c * δ k a * δ j b + δ j c * δ k b * δ i a) + 1 / 9 * (δ i a * δ j b * δ k c) := by
  unfold C2 dFactor
  rw [Fs_eq]
  have h : ∀ x y z, 2 * Matrix.trace ((F x * F y + F y * F x) * F z) * (F x i a * F y j b * F z k c) =
      2 * (Matrix.trace (F x * F y * F z) * (F x i a * F y j b * F z k c)) + 2 * (Matrix.trace (F y * F x * F z) * (F y j b * F x i a * F z k c)) := by
    intro x y z
    rw [add_mul, Matrix.trace_add]; ring
  simp only [h, Finset.sum_add_distrib, ← Finset.mul_sum]
  have h2 : ∑ x, ∑ y, ∑ z, Matrix.trace (F y * F x * F z) * (F y j b * F x i a * F z k c) = _ := Finset.sum_comm.trans (cubic j i k b a c)
  rw [cubic, h2]
  ring

/-- `C2` in terms of the permutations of three sites. -/
theorem C118_C2 : (Matrix.of fun t s : Fin 3 × Fin 3 × Fin 3 => C2 t.1 t.2.1 t.2.2 s.1 s.2.1 s.2.2) =
    (1 / 4 : ℂ) • (P123 + P132) - (1 / 6 : ℂ) • (P12 + P13 + P23) + (1 / 9 : ℂ) • (1 : Op3) := by
  ext ⟨i, j, k⟩ ⟨a, b, c⟩
  simp only [Matrix.of_apply, C2_eq, Matrix.sub_apply, Matrix.add_apply, Matrix.smul_apply, P12, P13, P23, P123, P132, permute3, Matrix.one_apply, Prod.mk.injEq, smul_eq_mul]
  have h3 : ∀ p q r : Prop, ∀ [Decidable p] [Decidable q] [Decidable r], (if p ∧ q ∧ r then (1 : ℂ) else 0) = (if p then 1 else 0) * (if q then 1 else 0) * (if r then 1 else 0) := by
    intro p q r _ _ _
    split_ifs <;> simp_all
  simp only [h3]
  unfold δ
  ring

theorem dFactor_eq (a b c : Fin 8) : dFactor a b c = Spec.d a b c := by
  unfold dFactor Spec.d
  rw [Fs_eq]
  unfold F
  simp only [Matrix.smul_mul, Matrix.mul_smul, ← smul_add, Matrix.trace_smul, smul_eq_mul]
  ring

/-- `C2` is the sum of the products of the generators on three sites with the symmetric structure constants. -/
theorem C118_C2_sum : (Matrix.of fun t s : Fin 3 × Fin 3 × Fin 3 => C2 t.1 t.2.1 t.2.2 s.1 s.2.1 s.2.2) = ∑ a, ∑ b, ∑ c, Spec.d a b c • prod3 (F a) (F b) (F c) := by
  ext t s
  simp only [Matrix.sum_apply, Matrix.smul_apply, Matrix.of_apply, prod3, smul_eq_mul, C2, dFactor_eq, Fs_eq]

/-- The structure constants are those of the anticommutators. -/
theorem C118_anticommutator (a b : Fin 8) : lambda a * lambda b + lambda b * lambda a = (if a = b then (4 / 3 : ℂ) else 0) • (1 : Op) + (2 : ℂ) • ∑ c, Spec.d a b c • lambda c := by
  ext i j
  have h := trace_sum (lambda a * lambda b + lambda b * lambda a) i j
  have ht : Matrix.trace (lambda a * lambda b + lambda b * lambda a) = if a = b then 4 else 0 := by
    rw [Matrix.trace_add, C118_basis.2.2, C118_basis.2.2]
    by_cases hab : a = b
    · subst hab; simp; norm_num
    · simp [hab, Ne.symm hab]
  have h2 : ∀ c, Matrix.trace (F c * (lambda a * lambda b + lambda b * lambda a)) * F c i j = Spec.d a b c * lambda c i j := by
    intro c
    unfold F Spec.d
    rw [Matrix.smul_mul, Matrix.trace_smul, Matrix.trace_mul_comm, Matrix.smul_apply, smul_eq_mul, smul_eq_mul]
    ring
  rw [Finset.sum_congr rfl fun c _ => h2 c, ht] at h
  have h4 : ((2 : ℂ) • ∑ c, Spec.d a b c • lambda c) i j = 2 * ∑ c, Spec.d a b c * lambda c i j := by
    simp only [Matrix.smul_apply, Matrix.sum_apply, smul_eq_mul]
  rw [Matrix.add_apply _ ((2 : ℂ) • _), h4, h, Matrix.smul_apply, smul_eq_mul, Matrix.one_apply]
  unfold δ
  split_ifs <;> ring

theorem permute3_comm (U : Op) (f g : Fin 3 × Fin 3 × Fin 3 → Fin 3 × Fin 3 × Fin 3) (h1 : ∀ s, f (g s) = s) (h2 : ∀ s, g (f s) = s) (h : ∀ t s, prod3 U U U t (f s) = prod3 U U U (g t) s) :
    prod3 U U U * permute3 f = permute3 f * prod3 U U U := by
  ext t s
  simp only [Matrix.mul_apply, permute3, Matrix.of_apply, mul_ite, ite_mul, mul_one, mul_zero, one_mul, zero_mul]
  rw [Finset.sum_ite_eq' Finset.univ (f s), if_pos (Finset.mem_univ _), h]
  have : ∀ u, (t = f u) = (g t = u) := by
    intro u
    apply propext
    constructor
    · rintro rfl; exact h2 u
    · rintro rfl; exact (h1 t).symm
  simp only [this]
  rw [Finset.sum_ite_eq Finset.univ (g t), if_pos (Finset.mem_univ _)]

/-- Both Casimir operators commute with every change of basis that acts on all sites alike. -/
theorem C118_invariant (U : Op) :
    (prod2 U U * Matrix.of fun t s : Fin 3 × Fin 3 => C1 t.1 t.2 s.1 s.2) = (Matrix.of fun t s : Fin 3 × Fin 3 => C1 t.1 t.2 s.1 s.2) * prod2 U U ∧
    (prod3 U U U * Matrix.of fun t s : Fin 3 × Fin 3 × Fin 3 => C2 t.1 t.2.1 t.2.2 s.1 s.2.1 s.2.2) =
      (Matrix.of fun t s : Fin 3 × Fin 3 × Fin 3 => C2 t.1 t.2.1 t.2.2 s.1 s.2.1 s.2.2) * prod3 U U U := by
  constructor
  · rw [C118_C1.2, mul_sub, sub_mul, Matrix.mul_smul, Matrix.smul_mul, Matrix.mul_smul, Matrix.smul_mul, mul_one, one_mul]
    congr 2
    ext t s
    simp only [Matrix.mul_apply, exchange, prod2, Matrix.of_apply, mul_ite, ite_mul, mul_one, mul_zero, one_mul, zero_mul]
    rw [Finset.sum_ite_eq' Finset.univ s.swap, if_pos (Finset.mem_univ _)]
    have : ∀ u : Fin 3 × Fin 3, (t = u.swap) = (t.swap = u) := fun u => propext ⟨fun h => by rw [h]; rfl, fun h => by rw [← h]; rfl⟩
    simp only [this]
    rw [Finset.sum_ite_eq Finset.univ t.swap, if_pos (Finset.mem_univ _)]
    exact mul_comm _ _
  · rw [C118_C2]
    have p1 : prod3 U U U * P12 = P12 * prod3 U U U := permute3_comm U _ (fun s => (s.2.1, s.1, s.2.2)) (fun _ => rfl) (fun _ => rfl) (fun t s => by simp only [prod3, Matrix.of_apply]; ring)
    have p2 : prod3 U U U * P13 = P13 * prod3 U U U := permute3_comm U _ (fun s => (s.2.2, s.2.1, s.1)) (fun _ => rfl) (fun _ => rfl) (fun t s => by simp only [prod3, Matrix.of_apply]; ring)
    have p3 : prod3 U U U * P23 = P23 * prod3 U U U := permute3_comm U _ (fun s => (s.1, s.2.2, s.2.1)) (fun _ => rfl) (fun _ => rfl) (fun t s => by simp only [prod3, Matrix.of_apply]; ring)
    have p4 : prod3 U U U * P123 = P123 * prod3 U U U := permute3_comm U _ (fun s => (s.2.1, s.2.2, s.1)) (fun _ => rfl) (fun _ => rfl) (fun t s => by simp only [prod3, Matrix.of_apply]; ring)
    have p5 : prod3 U U U * P132 = P132 * prod3 U U U := permute3_comm U _ (fun s => (s.2.2, s.1, s.2.1)) (fun _ => rfl) (fun _ => rfl) (fun t s => by simp only [prod3, Matrix.of_apply]; ring)
    simp only [mul_add, add_mul, mul_sub, sub_mul, Matrix.mul_smul, Matrix.smul_mul, p1, p2, p3, p4, p5, mul_one, one_mul]

end Verif.Su3
