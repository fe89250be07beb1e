import Verif.Trgl.RingModel
import Verif.Trgl.Energy
import Verif.Models.PlaqProps
/-
The contractions with four spins as products and traces of operators.
-/
namespace Verif.Trgl
open Tensor Ctm Rdm Models Spec
variable {n p : Nat}

theorem sum4 (F : (Fin 4 → Fin p) → ℂ) : ∑ t, F t = ∑ i, ∑ j, ∑ k, ∑ l, F ![i, j, k, l] := by
  rw [sum_cons]
  refine Finset.sum_congr rfl fun i _ => ?_
  rw [sum3 (fun t => F (Matrix.vecCons i t))]

/-- The tensor holds the matrix elements of the operator; rows first. -/
def Holds4 (T : Tensor ℂ) (O : OpN 4 p) : Prop :=
  T.shape = [p, p, p, p, p, p, p, p] ∧ ∀ i j k l a b c d : Fin p,
    T.val [(i : Nat), (j : Nat), (k : Nat), (l : Nat), (a : Nat), (b : Nat), (c : Nat), (d : Nat)] = O ![i, j, k, l] ![a, b, c, d]

theorem dens4 {R : Tensor ℂ} (h : R.shape = [p, p, p, p, p, p, p, p]) : Holds4 R (dens 4 p R) := ⟨h, fun i j k l a b c d => by simp [dens]⟩

theorem prod4_apply (A B C D : Su2.Op p) (i j k l a b c d : Fin p) : prod ![A, B, C, D] ![i, j, k, l] ![a, b, c, d] = A i a * B j b * C k c * D l d := by
  simp [prod, Fin.prod_univ_four]

theorem in8 (i j k l a b c d : Fin p) : ∀ m ∈ [0, 2, 4, 6, 1, 3, 5, 7], ([(i : Nat), a, j, b, k, c, l, d].getD · 0) m < p := by
  intro q hq
  have : q = 0 ∨ q = 2 ∨ q = 4 ∨ q = 6 ∨ q = 1 ∨ q = 3 ∨ q = 5 ∨ q = 7 := by simpa using hq
  rcases this with rfl | rfl | rfl | rfl | rfl | rfl | rfl | rfl <;> exact Fin.isLt _

theorem in8' (i j k l a b c d : Fin p) : ∀ m ∈ [0, 1, 2, 3, 4, 5, 6, 7], ([(i : Nat), j, k, l, a, b, c, d].getD · 0) m < p := by
  intro q hq
  have : q = 0 ∨ q = 1 ∨ q = 2 ∨ q = 3 ∨ q = 4 ∨ q = 5 ∨ q = 6 ∨ q = 7 := by simpa using hq
  rcases this with rfl | rfl | rfl | rfl | rfl | rfl | rfl | rfl <;> exact Fin.isLt _

/-- A rotation of the last three of four spins. -/
theorem rot123_holds {x : Tensor ℂ} {X : OpN 4 p} (hx : Holds4 x X) (A B C : Su2.Op p) :
    ∃ y, rot123 p x A B C = some y ∧ Holds4 y (prod ![1, A, B, C] * X * (prod ![1, A, B, C]).transpose) := by
  obtain ⟨Y, e, s, v⟩ := einsum_ok (fun _ => p) [(x, [0, 10, 12, 14, 1, 11, 13, 15]), (opP p A, [2, 10]), (opP p A, [3, 11]), (opP p B, [4, 12]), (opP p B, [5, 13]), (opP p C, [6, 14]),
    (opP p C, [7, 15])] [0, 2, 4, 6, 1, 3, 5, 7] (by simp [hx.1, opP]) (by simp) (by simp)
  refine ⟨Y, e, s, fun i j k l a b c d => ?_⟩
  have h := v ([(i : Nat), a, j, b, k, c, l, d].getD · 0) (in8 i j k l a b c d)
  have hl : (([(x, [0, 10, 12, 14, 1, 11, 13, 15]), (opP p A, [2, 10]), (opP p A, [3, 11]), (opP p B, [4, 12]), (opP p B, [5, 13]), (opP p C, [6, 14]),
      (opP p C, [7, 15])] : List (Tensor ℂ × List Nat)).flatMap Prod.snd).dedup.filter (fun l => l ∉ [0, 2, 4, 6, 1, 3, 5, 7]) = [10, 11, 12, 13, 14, 15] := by
    simp only [List.flatMap_cons, List.flatMap_nil]; decide
  rw [hl, sumOver_perm _ (show [10, 11, 12, 13, 14, 15].Perm [11, 13, 15, 10, 12, 14] by decide)] at h
  refine Eq.trans h ?_
  simp only [sumOver, termOf, List.map_cons, List.map_nil, List.prod_cons, List.prod_nil, mul_one, Finset.sum_range]
  simp only [Matrix.mul_apply, sum4, Matrix.transpose_apply, prod4_apply, Matrix.one_apply]
  simp only [ite_mul, one_mul, zero_mul, mul_ite, mul_one, mul_zero, Finset.sum_ite_irrel, Finset.sum_const_zero, Finset.sum_ite_eq, Finset.sum_ite_eq', Finset.mem_univ, if_true]
  simp only [Finset.sum_mul]
  refine Finset.sum_congr rfl fun x _ => Finset.sum_congr rfl fun y _ => Finset.sum_congr rfl fun z _ => Finset.sum_congr rfl fun u _ => Finset.sum_congr rfl fun w _ =>
    Finset.sum_congr rfl fun z' _ => ?_
  rw [← hx.2, ← KagomeRdm.opP_val A, ← KagomeRdm.opP_val A, ← KagomeRdm.opP_val B, ← KagomeRdm.opP_val B, ← KagomeRdm.opP_val C, ← KagomeRdm.opP_val C]
  simp [Function.update]
  ring

/-- A rotation of the second and the last of four spins. -/
theorem rot13_holds {x : Tensor ℂ} {X : OpN 4 p} (hx : Holds4 x X) (A C : Su2.Op p) :
    ∃ y, rot13 p x A C = some y ∧ Holds4 y (prod ![1, A, 1, C] * X * (prod ![1, A, 1, C]).transpose) := by
  obtain ⟨Y, e, s, v⟩ := einsum_ok (fun _ => p) [(x, [0, 10, 4, 12, 1, 11, 5, 13]), (opP p A, [2, 10]), (opP p A, [3, 11]), (opP p C, [6, 12]), (opP p C, [7, 13])] [0, 2, 4, 6, 1, 3, 5, 7]
    (by simp [hx.1, opP]) (by simp) (by simp)
  refine ⟨Y, e, s, fun i j k l a b c d => ?_⟩
  have h := v ([(i : Nat), a, j, b, k, c, l, d].getD · 0) (in8 i j k l a b c d)
  have hl : (([(x, [0, 10, 4, 12, 1, 11, 5, 13]), (opP p A, [2, 10]), (opP p A, [3, 11]), (opP p C, [6, 12]), (opP p C, [7, 13])] : List (Tensor ℂ × List Nat)).flatMap Prod.snd).dedup.filter
      (fun l => l ∉ [0, 2, 4, 6, 1, 3, 5, 7]) = [10, 11, 12, 13] := by
    simp only [List.flatMap_cons, List.flatMap_nil]; decide
  rw [hl, sumOver_perm _ (show [10, 11, 12, 13].Perm [11, 13, 10, 12] by decide)] at h
  refine Eq.trans h ?_
  simp only [sumOver, termOf, List.map_cons, List.map_nil, List.prod_cons, List.prod_nil, mul_one, Finset.sum_range]
  simp only [Matrix.mul_apply, sum4, Matrix.transpose_apply, prod4_apply, Matrix.one_apply]
  simp only [ite_mul, one_mul, zero_mul, mul_ite, mul_one, mul_zero, Finset.sum_ite_irrel, Finset.sum_const_zero, Finset.sum_ite_eq, Finset.sum_ite_eq', Finset.mem_univ, if_true]
  simp only [Finset.sum_mul]
  refine Finset.sum_congr rfl fun x _ => Finset.sum_congr rfl fun y _ => Finset.sum_congr rfl fun u _ => Finset.sum_congr rfl fun w _ => ?_
  rw [← hx.2, ← KagomeRdm.opP_val A, ← KagomeRdm.opP_val A, ← KagomeRdm.opP_val C, ← KagomeRdm.opP_val C]
  simp [Function.update]
  ring

theorem all4_val {o r : Tensor ℂ} {A B : OpN 4 p} (ho : Holds4 o A) (hr : Holds4 r B) : all4 r o = some (Matrix.trace (B * A)) := by
  obtain ⟨R, e, s, v⟩ := einsum_ok (fun _ => p) [(r, [0, 1, 2, 3, 4, 5, 6, 7]), (o, [4, 5, 6, 7, 0, 1, 2, 3])] [] (by simp [ho.1, hr.1]) (by simp) (by simp)
  have h := v (fun _ => 0) (by simp)
  have hl : ((([(r, [0, 1, 2, 3, 4, 5, 6, 7]), (o, [4, 5, 6, 7, 0, 1, 2, 3])] : List (Tensor ℂ × List Nat)).flatMap Prod.snd).dedup.filter (fun l => l ∉ ([] : List Nat))).Perm
      [0, 1, 2, 3, 4, 5, 6, 7] := by
    simp only [List.flatMap_cons, List.flatMap_nil]; decide
  rw [sumOver_perm _ hl] at h
  unfold all4
  rw [e]
  show some (R.val []) = _
  rw [List.map_nil] at h
  rw [h]
  congr 1
  simp (config := {maxSteps := 1000000}) only [sumOver, termOf, List.map_cons, List.map_nil, List.prod_cons, List.prod_nil, mul_one, Finset.sum_range]
  simp only [Matrix.trace, Matrix.diag, Matrix.mul_apply, sum4]
  refine Finset.sum_congr rfl fun i _ => Finset.sum_congr rfl fun j _ => Finset.sum_congr rfl fun k _ => Finset.sum_congr rfl fun l _ => Finset.sum_congr rfl fun a _ =>
    Finset.sum_congr rfl fun b _ => Finset.sum_congr rfl fun c _ => Finset.sum_congr rfl fun d _ => ?_
  rw [← ho.2, ← hr.2]
  simp [Function.update]

theorem dot4_02 (i j k l a b c d : Fin p) : dot 4 p 0 2 ![i, j, k, l] ![a, b, c, d] = if j = b then if l = d then Su2.SS p (1, 1, 1) i k a c else 0 else 0 := by
  rw [ss_sum, dot, Matrix.sum_apply]
  have : ∀ e, (Trgl.Spec.on 0 (Trgl.Spec.spin p e) * Trgl.Spec.on 2 (Trgl.Spec.spin p e) : OpN 4 p) ![i, j, k, l] ![a, b, c, d] = if j = b then if l = d then Trgl.Spec.spin p e i a * Trgl.Spec.spin p e k c else 0 else 0 := by
    intro e
    unfold Trgl.Spec.on
    rw [prod_mul, prod, Matrix.of_apply, Fin.prod_univ_four]
    simp [Function.update, Matrix.one_apply]
    split <;> split <;> simp
  simp only [this]
  split
  · split <;> simp
  · simp

theorem long2_val {r : Tensor ℂ} {B : OpN 4 p} (hr : Holds4 r B) : long2 r (ssP p) = some (Matrix.trace (B * dot 4 p 0 2)) := by
  obtain ⟨R, e, s, v⟩ := einsum_ok (fun _ => p) [(r, [0, 1, 2, 3, 4, 1, 6, 3]), (ssP p, [4, 6, 0, 2])] [] (by simp [ssP, hr.1]) (by simp) (by simp)
  have h := v (fun _ => 0) (by simp)
  have hl : ((([(r, [0, 1, 2, 3, 4, 1, 6, 3]), (ssP p, [4, 6, 0, 2])] : List (Tensor ℂ × List Nat)).flatMap Prod.snd).dedup.filter (fun l => l ∉ ([] : List Nat))).Perm [0, 1, 2, 3, 4, 6] := by
    simp only [List.flatMap_cons, List.flatMap_nil]; decide
  rw [sumOver_perm _ hl] at h
  unfold long2
  rw [e]
  show some (R.val []) = _
  rw [List.map_nil] at h
  rw [h]
  congr 1
  simp only [sumOver, termOf, List.map_cons, List.map_nil, List.prod_cons, List.prod_nil, mul_one, Finset.sum_range]
  simp only [Matrix.trace, Matrix.diag, Matrix.mul_apply, sum4, dot4_02]
  simp only [mul_ite, mul_zero, Finset.sum_ite_irrel, Finset.sum_const_zero, Finset.sum_ite_eq, Finset.sum_ite_eq', Finset.mem_univ, if_true]
  refine Finset.sum_congr rfl fun m _ => Finset.sum_congr rfl fun a _ => Finset.sum_congr rfl fun b _ => Finset.sum_congr rfl fun i _ => Finset.sum_congr rfl fun j _ =>
    Finset.sum_congr rfl fun k _ => ?_
  rw [← ssP_val, ← hr.2]
  simp [Function.update]

end Verif.Trgl
