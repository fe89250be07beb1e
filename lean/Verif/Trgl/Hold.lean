import Verif.Trgl.Spins
import Verif.Trgl.Model
import Verif.Kagome.Ham
/-
The contractions of spin_triangular.py as products and traces of operators on the spins.
-/
namespace Verif.Trgl
open Tensor Ctm Rdm Models Spec
variable {p : Nat}

theorem sum_cons {n : Nat} {α : Type} [Fintype α] [DecidableEq α] (F : (Fin (n + 1) → α) → ℂ) : ∑ t, F t = ∑ a, ∑ t : Fin n → α, F (Matrix.vecCons a t) := by
  rw [← Fintype.sum_prod_type' (f := fun a t => F (Matrix.vecCons a t))]
  exact Fintype.sum_equiv (Fin.consEquiv (fun _ => α)).symm _ _ (fun t => by simp [Fin.consEquiv, Matrix.vecCons])

theorem sum2 (F : (Fin 2 → Fin p) → ℂ) : ∑ t, F t = ∑ i, ∑ j, F ![i, j] := by
  rw [sum_cons]
  refine Finset.sum_congr rfl fun i _ => ?_
  rw [sum_cons]
  exact Finset.sum_congr rfl fun j _ => by rw [Fintype.sum_unique]; congr 3

theorem sum3 (F : (Fin 3 → Fin p) → ℂ) : ∑ t, F t = ∑ i, ∑ j, ∑ k, F ![i, j, k] := by
  rw [sum_cons]
  refine Finset.sum_congr rfl fun i _ => ?_
  rw [sum2 (fun t => F (Matrix.vecCons i t))]

/-- The tensor holds the matrix elements of the operator; rows first. -/
def Holds2 (T : Tensor ℂ) (O : OpN 2 p) : Prop := T.shape = [p, p, p, p] ∧ ∀ i j a b : Fin p, T.val [(i : Nat), (j : Nat), (a : Nat), (b : Nat)] = O ![i, j] ![a, b]

def Holds3 (T : Tensor ℂ) (O : OpN 3 p) : Prop :=
  T.shape = [p, p, p, p, p, p] ∧ ∀ i j k a b c : Fin p, T.val [(i : Nat), (j : Nat), (k : Nat), (a : Nat), (b : Nat), (c : Nat)] = O ![i, j, k] ![a, b, c]

theorem dens2 {R : Tensor ℂ} (h : R.shape = [p, p, p, p]) : Holds2 R (dens 2 p R) := ⟨h, fun i j a b => by simp [dens]⟩

theorem dens3 {R : Tensor ℂ} (h : R.shape = [p, p, p, p, p, p]) : Holds3 R (dens 3 p R) := ⟨h, fun i j k a b c => by simp [dens]⟩

theorem full4_val {x y : Tensor ℂ} {A B : OpN 2 p} (hx : Holds2 x A) (hy : Holds2 y B) : full4 x y = some (Matrix.trace (A * B)) := by
  obtain ⟨R, e, s, v⟩ := einsum_ok (fun _ => p) [(x, [0, 1, 2, 3]), (y, [2, 3, 0, 1])] [] (by simp [hx.1, hy.1]) (by simp) (by simp)
  have h := v (fun _ => 0) (by simp)
  have hl : (([(x, [0, 1, 2, 3]), (y, [2, 3, 0, 1])] : List (Tensor ℂ × List Nat)).flatMap Prod.snd).dedup.filter (fun l => l ∉ ([] : List Nat)) = [2, 3, 0, 1] := by
    simp only [List.flatMap_cons, List.flatMap_nil]; decide
  rw [hl] at h
  unfold full4
  rw [e]
  show some (R.val []) = _
  rw [List.map_nil] at h
  rw [h, Matrix.trace_mul_comm]
  congr 1
  simp only [sumOver, termOf, List.map_cons, List.map_nil, List.prod_cons, List.prod_nil, mul_one, Finset.sum_range]
  simp only [Matrix.trace, Matrix.diag, Matrix.mul_apply, sum2]
  refine Finset.sum_congr rfl fun a _ => Finset.sum_congr rfl fun b _ => Finset.sum_congr rfl fun i _ => Finset.sum_congr rfl fun j _ => ?_
  rw [← hx.2, ← hy.2, mul_comm]
  simp [Function.update]

theorem prod2_apply (A B : Su2.Op p) (i j a b : Fin p) : prod ![A, B] ![i, j] ![a, b] = A i a * B j b := by
  simp [prod, Fin.prod_univ_two]

theorem prod3_apply (A B C : Su2.Op p) (i j k a b c : Fin p) : prod ![A, B, C] ![i, j, k] ![a, b, c] = A i a * B j b * C k c := by
  simp [prod, Fin.prod_univ_three]

/-- A rotation of the operator on the second spin. -/
theorem rotSecond_holds {x : Tensor ℂ} {A : OpN 2 p} (hx : Holds2 x A) (R : Su2.Op p) :
    ∃ y, rotSecond p x R = some y ∧ Holds2 y ((prod ![1, R]).transpose * A * prod ![1, R]) := by
  obtain ⟨Y, e, s, v⟩ := einsum_ok (fun _ => p) [(x, [0, 4, 2, 5]), (opP p R, [4, 1]), (opP p R, [5, 3])] [0, 1, 2, 3] (by simp [hx.1, opP]) (by simp) (by simp)
  refine ⟨Y, e, s, fun i j a b => ?_⟩
  have h := v ([(i : Nat), j, a, b].getD · 0) (by
    intro q hq
    have : q = 0 ∨ q = 1 ∨ q = 2 ∨ q = 3 := by simpa using hq
    rcases this with rfl | rfl | rfl | rfl <;> exact Fin.isLt _)
  have hl : (([(x, [0, 4, 2, 5]), (opP p R, [4, 1]), (opP p R, [5, 3])] : List (Tensor ℂ × List Nat)).flatMap Prod.snd).dedup.filter (fun l => l ∉ [0, 1, 2, 3]) = [4, 5] := by
    simp only [List.flatMap_cons, List.flatMap_nil]; decide
  rw [hl] at h
  refine Eq.trans h ?_
  simp only [sumOver, termOf, List.map_cons, List.map_nil, List.prod_cons, List.prod_nil, mul_one, Finset.sum_range]
  simp only [Matrix.mul_apply, sum2, Matrix.transpose_apply, prod2_apply, Matrix.one_apply]
  simp only [ite_mul, one_mul, zero_mul, mul_ite, mul_zero, Finset.sum_ite_irrel, Finset.sum_const_zero, Finset.sum_ite_eq, Finset.sum_ite_eq', Finset.mem_univ, if_true]
  simp only [Finset.sum_mul]
  rw [Finset.sum_comm]
  refine Finset.sum_congr rfl fun c _ => Finset.sum_congr rfl fun d _ => ?_
  rw [← hx.2, ← KagomeRdm.opP_val R, ← KagomeRdm.opP_val R]
  simp [Function.update]
  ring

/-- A rotation of the operator on the first spin. -/
theorem rotFirst_holds {x : Tensor ℂ} {A : OpN 2 p} (hx : Holds2 x A) (R : Su2.Op p) :
    ∃ y, rotFirst p x R = some y ∧ Holds2 y ((prod ![R, 1]).transpose * A * prod ![R, 1]) := by
  obtain ⟨Y, e, s, v⟩ := einsum_ok (fun _ => p) [(x, [4, 1, 5, 3]), (opP p R, [4, 0]), (opP p R, [5, 2])] [0, 1, 2, 3] (by simp [hx.1, opP]) (by simp) (by simp)
  refine ⟨Y, e, s, fun i j a b => ?_⟩
  have h := v ([(i : Nat), j, a, b].getD · 0) (by
    intro q hq
    have : q = 0 ∨ q = 1 ∨ q = 2 ∨ q = 3 := by simpa using hq
    rcases this with rfl | rfl | rfl | rfl <;> exact Fin.isLt _)
  have hl : (([(x, [4, 1, 5, 3]), (opP p R, [4, 0]), (opP p R, [5, 2])] : List (Tensor ℂ × List Nat)).flatMap Prod.snd).dedup.filter (fun l => l ∉ [0, 1, 2, 3]) = [4, 5] := by
    simp only [List.flatMap_cons, List.flatMap_nil]; decide
  rw [hl] at h
  refine Eq.trans h ?_
  simp only [sumOver, termOf, List.map_cons, List.map_nil, List.prod_cons, List.prod_nil, mul_one, Finset.sum_range]
  simp only [Matrix.mul_apply, sum2, Matrix.transpose_apply, prod2_apply, Matrix.one_apply]
  simp only [ite_mul, one_mul, zero_mul, mul_ite, mul_one, mul_zero, Finset.sum_ite_irrel, Finset.sum_const_zero, Finset.sum_ite_eq, Finset.sum_ite_eq', Finset.mem_univ, if_true]
  simp only [Finset.sum_mul]
  rw [Finset.sum_comm]
  refine Finset.sum_congr rfl fun c _ => Finset.sum_congr rfl fun d _ => ?_
  rw [← hx.2, ← KagomeRdm.opP_val R, ← KagomeRdm.opP_val R]
  simp [Function.update]
  ring

theorem in6 (i j k a b c : Fin p) : ∀ l ∈ [0, 2, 4, 1, 3, 5], ([(i : Nat), a, j, b, k, c].getD · 0) l < p := by
  intro q hq
  have : q = 0 ∨ q = 2 ∨ q = 4 ∨ q = 1 ∨ q = 3 ∨ q = 5 := by simpa using hq
  rcases this with rfl | rfl | rfl | rfl | rfl | rfl <;> exact Fin.isLt _

/-- A rotation of the first two of three spins. -/
theorem rot01_holds {x : Tensor ℂ} {A : OpN 3 p} (hx : Holds3 x A) (R Q : Su2.Op p) :
    ∃ y, rot01 p x R Q = some y ∧ Holds3 y (prod ![R, Q, 1] * A * (prod ![R, Q, 1]).transpose) := by
  obtain ⟨Y, e, s, v⟩ := einsum_ok (fun _ => p) [(x, [10, 12, 4, 11, 13, 5]), (opP p R, [0, 10]), (opP p R, [1, 11]), (opP p Q, [2, 12]), (opP p Q, [3, 13])] [0, 2, 4, 1, 3, 5]
    (by simp [hx.1, opP]) (by simp) (by simp)
  refine ⟨Y, e, s, fun i j k a b c => ?_⟩
  have h := v ([(i : Nat), a, j, b, k, c].getD · 0) (in6 i j k a b c)
  have hl : (([(x, [10, 12, 4, 11, 13, 5]), (opP p R, [0, 10]), (opP p R, [1, 11]), (opP p Q, [2, 12]), (opP p Q, [3, 13])] : List (Tensor ℂ × List Nat)).flatMap Prod.snd).dedup.filter
      (fun l => l ∉ [0, 2, 4, 1, 3, 5]) = [10, 11, 12, 13] := by
    simp only [List.flatMap_cons, List.flatMap_nil]; decide
  rw [hl, sumOver_perm _ (show [10, 11, 12, 13].Perm [11, 13, 10, 12] by decide)] at h
  refine Eq.trans h ?_
  simp only [sumOver, termOf, List.map_cons, List.map_nil, List.prod_cons, List.prod_nil, mul_one, Finset.sum_range]
  simp only [Matrix.mul_apply, sum3, Matrix.transpose_apply, prod3_apply, Matrix.one_apply]
  simp only [ite_mul, one_mul, zero_mul, mul_ite, mul_one, mul_zero, Finset.sum_ite_irrel, Finset.sum_const_zero, Finset.sum_ite_eq, Finset.sum_ite_eq', Finset.mem_univ, if_true]
  simp only [Finset.sum_mul]
  refine Finset.sum_congr rfl fun x _ => Finset.sum_congr rfl fun y _ => Finset.sum_congr rfl fun u _ => Finset.sum_congr rfl fun w _ => ?_
  rw [← hx.2, ← KagomeRdm.opP_val R, ← KagomeRdm.opP_val R, ← KagomeRdm.opP_val Q, ← KagomeRdm.opP_val Q]
  simp [Function.update]
  ring

/-- A rotation of the last two of three spins. -/
theorem rot12_holds {x : Tensor ℂ} {A : OpN 3 p} (hx : Holds3 x A) (R Q : Su2.Op p) :
    ∃ y, rot12 p x R Q = some y ∧ Holds3 y (prod ![1, R, Q] * A * (prod ![1, R, Q]).transpose) := by
  obtain ⟨Y, e, s, v⟩ := einsum_ok (fun _ => p) [(x, [0, 10, 12, 1, 11, 13]), (opP p R, [2, 10]), (opP p R, [3, 11]), (opP p Q, [4, 12]), (opP p Q, [5, 13])] [0, 2, 4, 1, 3, 5]
    (by simp [hx.1, opP]) (by simp) (by simp)
  refine ⟨Y, e, s, fun i j k a b c => ?_⟩
  have h := v ([(i : Nat), a, j, b, k, c].getD · 0) (in6 i j k a b c)
  have hl : (([(x, [0, 10, 12, 1, 11, 13]), (opP p R, [2, 10]), (opP p R, [3, 11]), (opP p Q, [4, 12]), (opP p Q, [5, 13])] : List (Tensor ℂ × List Nat)).flatMap Prod.snd).dedup.filter
      (fun l => l ∉ [0, 2, 4, 1, 3, 5]) = [10, 11, 12, 13] := by
    simp only [List.flatMap_cons, List.flatMap_nil]; decide
  rw [hl, sumOver_perm _ (show [10, 11, 12, 13].Perm [11, 13, 10, 12] by decide)] at h
  refine Eq.trans h ?_
  simp only [sumOver, termOf, List.map_cons, List.map_nil, List.prod_cons, List.prod_nil, mul_one, Finset.sum_range]
  simp only [Matrix.mul_apply, sum3, Matrix.transpose_apply, prod3_apply, Matrix.one_apply]
  simp only [ite_mul, one_mul, zero_mul, mul_ite, mul_one, mul_zero, Finset.sum_ite_irrel, Finset.sum_const_zero, Finset.sum_ite_eq, Finset.sum_ite_eq', Finset.mem_univ, if_true]
  simp only [Finset.sum_mul]
  refine Finset.sum_congr rfl fun x _ => Finset.sum_congr rfl fun y _ => Finset.sum_congr rfl fun u _ => Finset.sum_congr rfl fun w _ => ?_
  rw [← hx.2, ← KagomeRdm.opP_val R, ← KagomeRdm.opP_val R, ← KagomeRdm.opP_val Q, ← KagomeRdm.opP_val Q]
  simp [Function.update]
  ring

/-! ### Products of spins -/

theorem ss_sum (i j a b : Fin p) : Su2.SS p (1, 1, 1) i j a b = ∑ c, spin p c i a * spin p c j b := by
  simp only [Fin.sum_univ_three, spin, Su2.SS, Su2.Spec.Sx, Su2.Spec.Sy, Matrix.add_apply, Matrix.smul_apply, Matrix.sub_apply, smul_eq_mul]
  linear_combination (-(1/4 : ℂ)) * (Su2.SP p i a - Su2.SM p i a) * (Su2.SP p j b - Su2.SM p j b) * Complex.I_mul_I

theorem ssP_val (i j a b : Fin p) : (ssP p).val [(i : Nat), (j : Nat), (a : Nat), (b : Nat)] = Su2.SS p (1, 1, 1) i j a b := by
  simp [ssP]

theorem dot2_apply (i j a b : Fin p) : dot 2 p 0 1 ![i, j] ![a, b] = Su2.SS p (1, 1, 1) i j a b := by
  rw [ss_sum, dot, Matrix.sum_apply]
  refine Finset.sum_congr rfl fun c _ => ?_
  unfold on
  rw [prod_mul, prod, Matrix.of_apply, Fin.prod_univ_two]
  simp [Function.update]

theorem ssP_holds (p : Nat) : Holds2 (ssP p) (dot 2 p 0 1) := ⟨rfl, fun i j a b => by rw [ssP_val, dot2_apply]⟩

theorem dot3_12 (i j k a b c : Fin p) : dot 3 p 1 2 ![i, j, k] ![a, b, c] = if i = a then Su2.SS p (1, 1, 1) j k b c else 0 := by
  rw [ss_sum, dot, Matrix.sum_apply]
  have : ∀ d, (on 1 (spin p d) * on 2 (spin p d) : OpN 3 p) ![i, j, k] ![a, b, c] = if i = a then spin p d j b * spin p d k c else 0 := by
    intro d
    unfold on
    rw [prod_mul, prod, Matrix.of_apply, Fin.prod_univ_three]
    simp [Function.update, Matrix.one_apply]
  simp only [this]
  split <;> simp

theorem dot3_02 (i j k a b c : Fin p) : dot 3 p 0 2 ![i, j, k] ![a, b, c] = if j = b then Su2.SS p (1, 1, 1) i k a c else 0 := by
  rw [ss_sum, dot, Matrix.sum_apply]
  have : ∀ d, (on 0 (spin p d) * on 2 (spin p d) : OpN 3 p) ![i, j, k] ![a, b, c] = if j = b then spin p d i a * spin p d k c else 0 := by
    intro d
    unfold on
    rw [prod_mul, prod, Matrix.of_apply, Fin.prod_univ_three]
    simp [Function.update, Matrix.one_apply]
  simp only [this]
  split <;> simp

theorem dot3_01 (i j k a b c : Fin p) : dot 3 p 0 1 ![i, j, k] ![a, b, c] = if k = c then Su2.SS p (1, 1, 1) i j a b else 0 := by
  rw [ss_sum, dot, Matrix.sum_apply]
  have : ∀ d, (on 0 (spin p d) * on 1 (spin p d) : OpN 3 p) ![i, j, k] ![a, b, c] = if k = c then spin p d i a * spin p d j b else 0 := by
    intro d
    unfold on
    rw [prod_mul, prod, Matrix.of_apply, Fin.prod_univ_three]
    simp [Function.update, Matrix.one_apply]
  simp only [this]
  split <;> simp

theorem last2_val {r : Tensor ℂ} {B : OpN 3 p} (hr : Holds3 r B) : last2 (ssP p) r = some (Matrix.trace (B * dot 3 p 1 2)) := by
  obtain ⟨R, e, s, v⟩ := einsum_ok (fun _ => p) [(ssP p, [0, 1, 2, 3]), (r, [4, 2, 3, 4, 0, 1])] [] (by simp [ssP, hr.1]) (by simp) (by simp)
  have h := v (fun _ => 0) (by simp)
  have hl : ((([(ssP p, [0, 1, 2, 3]), (r, [4, 2, 3, 4, 0, 1])] : List (Tensor ℂ × List Nat)).flatMap Prod.snd).dedup.filter (fun l => l ∉ ([] : List Nat))).Perm [4, 2, 3, 0, 1] := by
    simp only [List.flatMap_cons, List.flatMap_nil]; decide
  rw [sumOver_perm _ hl] at h
  unfold last2
  rw [e]
  show some (R.val []) = _
  rw [List.map_nil] at h
  rw [h]
  congr 1
  simp only [sumOver, termOf, List.map_cons, List.map_nil, List.prod_cons, List.prod_nil, mul_one, Finset.sum_range]
  simp only [Matrix.trace, Matrix.diag, Matrix.mul_apply, sum3, dot3_12]
  simp only [mul_ite, mul_zero, Finset.sum_ite_irrel, Finset.sum_const_zero, Finset.sum_ite_eq, Finset.sum_ite_eq', Finset.mem_univ, if_true]
  refine Finset.sum_congr rfl fun m _ => Finset.sum_congr rfl fun a _ => Finset.sum_congr rfl fun b _ => Finset.sum_congr rfl fun i _ => Finset.sum_congr rfl fun j _ => ?_
  rw [← ssP_val, ← hr.2, mul_comm]
  simp [Function.update]

theorem outer2_val {r : Tensor ℂ} {B : OpN 3 p} (hr : Holds3 r B) : outer2 (ssP p) r = some (Matrix.trace (B * dot 3 p 0 2)) := by
  obtain ⟨R, e, s, v⟩ := einsum_ok (fun _ => p) [(ssP p, [0, 1, 2, 3]), (r, [2, 4, 3, 0, 4, 1])] [] (by simp [ssP, hr.1]) (by simp) (by simp)
  have h := v (fun _ => 0) (by simp)
  have hl : ((([(ssP p, [0, 1, 2, 3]), (r, [2, 4, 3, 0, 4, 1])] : List (Tensor ℂ × List Nat)).flatMap Prod.snd).dedup.filter (fun l => l ∉ ([] : List Nat))).Perm [2, 4, 3, 0, 1] := by
    simp only [List.flatMap_cons, List.flatMap_nil]; decide
  rw [sumOver_perm _ hl] at h
  unfold outer2
  rw [e]
  show some (R.val []) = _
  rw [List.map_nil] at h
  rw [h]
  congr 1
  simp only [sumOver, termOf, List.map_cons, List.map_nil, List.prod_cons, List.prod_nil, mul_one, Finset.sum_range]
  simp only [Matrix.trace, Matrix.diag, Matrix.mul_apply, sum3, dot3_02]
  simp only [mul_ite, mul_zero, Finset.sum_ite_irrel, Finset.sum_const_zero, Finset.sum_ite_eq, Finset.sum_ite_eq', Finset.mem_univ, if_true]
  refine Finset.sum_congr rfl fun a _ => Finset.sum_congr rfl fun m _ => Finset.sum_congr rfl fun b _ => Finset.sum_congr rfl fun i _ => Finset.sum_congr rfl fun j _ => ?_
  rw [← ssP_val, ← hr.2, mul_comm]
  simp [Function.update]

theorem first2_val {r : Tensor ℂ} {B : OpN 3 p} (hr : Holds3 r B) : first2 (ssP p) r = some (Matrix.trace (B * dot 3 p 0 1)) := by
  obtain ⟨R, e, s, v⟩ := einsum_ok (fun _ => p) [(ssP p, [0, 1, 2, 3]), (r, [2, 3, 4, 0, 1, 4])] [] (by simp [ssP, hr.1]) (by simp) (by simp)
  have h := v (fun _ => 0) (by simp)
  have hl : ((([(ssP p, [0, 1, 2, 3]), (r, [2, 3, 4, 0, 1, 4])] : List (Tensor ℂ × List Nat)).flatMap Prod.snd).dedup.filter (fun l => l ∉ ([] : List Nat))).Perm [2, 3, 4, 0, 1] := by
    simp only [List.flatMap_cons, List.flatMap_nil]; decide
  rw [sumOver_perm _ hl] at h
  unfold first2
  rw [e]
  show some (R.val []) = _
  rw [List.map_nil] at h
  rw [h]
  congr 1
  simp only [sumOver, termOf, List.map_cons, List.map_nil, List.prod_cons, List.prod_nil, mul_one, Finset.sum_range]
  simp only [Matrix.trace, Matrix.diag, Matrix.mul_apply, sum3, dot3_01]
  simp only [mul_ite, mul_zero, Finset.sum_ite_irrel, Finset.sum_const_zero, Finset.sum_ite_eq, Finset.sum_ite_eq', Finset.mem_univ, if_true]
  refine Finset.sum_congr rfl fun a _ => Finset.sum_congr rfl fun b _ => Finset.sum_congr rfl fun m _ => Finset.sum_congr rfl fun i _ => Finset.sum_congr rfl fun j _ => ?_
  rw [← ssP_val, ← hr.2, mul_comm]
  simp [Function.update]

theorem hChi_eq (p : Nat) : KagomeRdm.Spec.chirality p = triple 3 p 0 1 2 := by
  have h : ∀ (x : Fin 3) (A : Su2.Op p), KagomeRdm.Spec.at' x A = on x A := fun _ _ => rfl
  have hs : KagomeRdm.Spec.spins p = spin p := by funext a; fin_cases a <;> rfl
  have c1 : ∀ A B : Su2.Op p, (on (n := 3) 1 A : OpN 3 p) * on 0 B = on 0 B * on 1 A := fun A B => on_comm (by decide) A B
  have c2 : ∀ A B : Su2.Op p, (on (n := 3) 2 A : OpN 3 p) * on 0 B = on 0 B * on 2 A := fun A B => on_comm (by decide) A B
  simp only [KagomeRdm.Spec.chirality, KagomeRdm.Spec.cross, triple, Fin.sum_univ_three, h, hs]
  rw [show (0 + 1 : Fin 3) = 1 from rfl, show (0 + 2 : Fin 3) = 2 from rfl, show (1 + 1 : Fin 3) = 2 from rfl, show (1 + 2 : Fin 3) = 0 from rfl,
    show (2 + 1 : Fin 3) = 0 from rfl, show (2 + 2 : Fin 3) = 1 from rfl]
  simp only [mul_sub, sub_mul, ← mul_assoc]
  abel

theorem hChi_holds (p : Nat) : ∃ T, KagomeRdm.tripleT p = some T ∧ Holds3 T (triple 3 p 0 1 2) := by
  obtain ⟨T, e, s, v⟩ := KagomeRdm.triple_holds p
  refine ⟨T, e, s, fun i j k a b c => ?_⟩
  rw [← hChi_eq]
  exact v ![i, j, k] ![a, b, c]

theorem all3_val {o r : Tensor ℂ} {A B : OpN 3 p} (ho : Holds3 o A) (hr : Holds3 r B) : all3 o r = some (Matrix.trace (B * A)) := by
  obtain ⟨R, e, s, v⟩ := einsum_ok (fun _ => p) [(o, [0, 1, 2, 3, 4, 5]), (r, [3, 4, 5, 0, 1, 2])] [] (by simp [ho.1, hr.1]) (by simp) (by simp)
  have h := v (fun _ => 0) (by simp)
  have hl : ((([(o, [0, 1, 2, 3, 4, 5]), (r, [3, 4, 5, 0, 1, 2])] : List (Tensor ℂ × List Nat)).flatMap Prod.snd).dedup.filter (fun l => l ∉ ([] : List Nat))).Perm [3, 4, 5, 0, 1, 2] := by
    simp only [List.flatMap_cons, List.flatMap_nil]; decide
  rw [sumOver_perm _ hl] at h
  unfold all3
  rw [e]
  show some (R.val []) = _
  rw [List.map_nil] at h
  rw [h]
  congr 1
  simp only [sumOver, termOf, List.map_cons, List.map_nil, List.prod_cons, List.prod_nil, mul_one, Finset.sum_range]
  simp only [Matrix.trace, Matrix.diag, Matrix.mul_apply, sum3]
  refine Finset.sum_congr rfl fun a _ => Finset.sum_congr rfl fun b _ => Finset.sum_congr rfl fun c _ => Finset.sum_congr rfl fun i _ => Finset.sum_congr rfl fun j _ =>
    Finset.sum_congr rfl fun k _ => ?_
  rw [← ho.2, ← hr.2, mul_comm]
  simp [Function.update]

/-- Three spins in the reverse order. -/
def rev3 (t : Fin 3 → Fin p) : Fin 3 → Fin p := ![t 2, t 1, t 0]

/-- The operator with the spins in the reverse order. -/
theorem all3rev_val {o r : Tensor ℂ} {A B : OpN 3 p} (ho : Holds3 o A) (hr : Holds3 r B) :
    all3rev o r = some (Matrix.trace (B * A.submatrix rev3 rev3)) := by
  obtain ⟨R, e, s, v⟩ := einsum_ok (fun _ => p) [(o, [0, 1, 2, 3, 4, 5]), (r, [5, 4, 3, 2, 1, 0])] [] (by simp [ho.1, hr.1]) (by simp) (by simp)
  have h := v (fun _ => 0) (by simp)
  have hl : ((([(o, [0, 1, 2, 3, 4, 5]), (r, [5, 4, 3, 2, 1, 0])] : List (Tensor ℂ × List Nat)).flatMap Prod.snd).dedup.filter (fun l => l ∉ ([] : List Nat))).Perm [5, 4, 3, 2, 1, 0] := by
    simp only [List.flatMap_cons, List.flatMap_nil]; decide
  rw [sumOver_perm _ hl] at h
  unfold all3rev
  rw [e]
  show some (R.val []) = _
  rw [List.map_nil] at h
  rw [h]
  congr 1
  simp only [sumOver, termOf, List.map_cons, List.map_nil, List.prod_cons, List.prod_nil, mul_one, Finset.sum_range]
  simp only [Matrix.trace, Matrix.diag, Matrix.mul_apply, sum3, Matrix.submatrix_apply]
  refine Finset.sum_congr rfl fun a _ => Finset.sum_congr rfl fun b _ => Finset.sum_congr rfl fun c _ => Finset.sum_congr rfl fun i _ => Finset.sum_congr rfl fun j _ =>
    Finset.sum_congr rfl fun k _ => ?_
  rw [← hr.2]
  show _ = _ * A ![k, j, i] ![c, b, a]
  rw [← ho.2, mul_comm]
  simp [Function.update]

theorem on_rev (x : Fin 3) (A : Su2.Op p) : (on x A : OpN 3 p).submatrix rev3 rev3 = on (2 - x) A := by
  ext t s
  simp only [on, prod, Matrix.submatrix_apply, Matrix.of_apply, Fin.prod_univ_three]
  fin_cases x
  · show A (t 2) (s 2) * (1 : Su2.Op p) (t 1) (s 1) * (1 : Su2.Op p) (t 0) (s 0) = (1 : Su2.Op p) (t 0) (s 0) * (1 : Su2.Op p) (t 1) (s 1) * A (t 2) (s 2)
    ring
  · show (1 : Su2.Op p) (t 2) (s 2) * A (t 1) (s 1) * (1 : Su2.Op p) (t 0) (s 0) = (1 : Su2.Op p) (t 0) (s 0) * A (t 1) (s 1) * (1 : Su2.Op p) (t 2) (s 2)
    ring
  · show (1 : Su2.Op p) (t 2) (s 2) * (1 : Su2.Op p) (t 1) (s 1) * A (t 0) (s 0) = A (t 0) (s 0) * (1 : Su2.Op p) (t 1) (s 1) * (1 : Su2.Op p) (t 2) (s 2)
    ring

theorem mul_rev (A B : OpN 3 p) : (A * B).submatrix rev3 rev3 =
    A.submatrix rev3 rev3 * B.submatrix rev3 rev3 := by
  let e : (Fin 3 → Fin p) ≃ (Fin 3 → Fin p) := ⟨rev3, rev3, fun t => by funext x; fin_cases x <;> rfl, fun t => by funext x; fin_cases x <;> rfl⟩
  exact (Matrix.submatrix_mul_equiv A B e e e).symm

theorem triple_rev (p : Nat) : (triple 3 p 0 1 2).submatrix rev3 rev3 = triple 3 p 2 1 0 := by
  simp only [triple, Fin.sum_univ_three, Matrix.submatrix_add, Matrix.submatrix_sub, Pi.add_apply, Pi.sub_apply, mul_rev, on_rev]
  rfl

end Verif.Trgl
