import Verif.Trgl.RingPerm
import Verif.Trgl.NnnProps
/-
C128: the energy of the triangular models with the interaction on rhombi.
-/
namespace Verif.Trgl
open Tensor Ctm Rdm Models Spec
variable {p : Nat}

theorem t013 (i j k l a b c d : Fin p) : triple 4 p 0 1 3 ![i, j, k, l] ![a, b, c, d] = if k = c then triple 3 p 0 1 2 ![i, j, l] ![a, b, d] else 0 := (triple4 _ _).1
theorem t123 (i j k l a b c d : Fin p) : triple 4 p 1 2 3 ![i, j, k, l] ![a, b, c, d] = if i = a then triple 3 p 0 1 2 ![j, k, l] ![b, c, d] else 0 := (triple4 _ _).2.1
theorem t031 (i j k l a b c d : Fin p) : triple 4 p 0 3 1 ![i, j, k, l] ![a, b, c, d] = if k = c then triple 3 p 0 1 2 ![i, l, j] ![a, d, b] else 0 := (triple4 _ _).2.2.1
theorem t132 (i j k l a b c d : Fin p) : triple 4 p 1 3 2 ![i, j, k, l] ![a, b, c, d] = if i = a then triple 3 p 0 1 2 ![j, l, k] ![b, d, c] else 0 := (triple4 _ _).2.2.2

section
variable {o r : Tensor ℂ} {B : OpN 4 p} (ho : Holds3 o (triple 3 p 0 1 2)) (hr : Holds4 r B)
include ho hr

theorem tri013_val : tri013 r o = some (Matrix.trace (B * triple 4 p 0 1 3)) := by
  obtain ⟨R, e, s, v⟩ := einsum_ok (fun _ => p) [(r, [0, 1, 6, 3, 4, 5, 6, 7]), (o, [4, 5, 7, 0, 1, 3])] [] (by simp [ho.1, hr.1]) (by simp) (by simp)
  have h := v (fun _ => 0) (by simp)
  have hl : ((([(r, [0, 1, 6, 3, 4, 5, 6, 7]), (o, [4, 5, 7, 0, 1, 3])] : List (Tensor ℂ × List Nat)).flatMap Prod.snd).dedup.filter (fun l => l ∉ ([] : List Nat))).Perm [0, 1, 6, 3, 4, 5, 7] := by
    simp only [List.flatMap_cons, List.flatMap_nil]; decide
  rw [sumOver_perm _ hl] at h
  unfold tri013
  rw [e]
  show some (R.val []) = _
  rw [List.map_nil] at h
  rw [h]
  congr 1
  simp (config := {maxSteps := 1000000}) only [sumOver, termOf, List.map_cons, List.map_nil, List.prod_cons, List.prod_nil, mul_one, Finset.sum_range]
  simp only [Matrix.trace, Matrix.diag, Matrix.mul_apply, sum4, t013]
  simp only [mul_ite, mul_zero, Finset.sum_ite_irrel, Finset.sum_const_zero, Finset.sum_ite_eq', Finset.mem_univ, if_true]
  refine Finset.sum_congr rfl fun m _ => Finset.sum_congr rfl fun a _ => Finset.sum_congr rfl fun b _ => Finset.sum_congr rfl fun i _ => Finset.sum_congr rfl fun j _ =>
    Finset.sum_congr rfl fun k _ => Finset.sum_congr rfl fun l _ => ?_
  rw [← ho.2, ← hr.2]
  simp [Function.update]

theorem tri123_val : tri123 r o = some (Matrix.trace (B * triple 4 p 1 2 3)) := by
  obtain ⟨R, e, s, v⟩ := einsum_ok (fun _ => p) [(r, [4, 1, 2, 3, 4, 5, 6, 7]), (o, [5, 6, 7, 1, 2, 3])] [] (by simp [ho.1, hr.1]) (by simp) (by simp)
  have h := v (fun _ => 0) (by simp)
  have hl : ((([(r, [4, 1, 2, 3, 4, 5, 6, 7]), (o, [5, 6, 7, 1, 2, 3])] : List (Tensor ℂ × List Nat)).flatMap Prod.snd).dedup.filter (fun l => l ∉ ([] : List Nat))).Perm [4, 1, 2, 3, 5, 6, 7] := by
    simp only [List.flatMap_cons, List.flatMap_nil]; decide
  rw [sumOver_perm _ hl] at h
  unfold tri123
  rw [e]
  show some (R.val []) = _
  rw [List.map_nil] at h
  rw [h]
  congr 1
  simp (config := {maxSteps := 1000000}) only [sumOver, termOf, List.map_cons, List.map_nil, List.prod_cons, List.prod_nil, mul_one, Finset.sum_range]
  simp only [Matrix.trace, Matrix.diag, Matrix.mul_apply, sum4, t123]
  simp only [mul_ite, mul_zero, Finset.sum_ite_irrel, Finset.sum_const_zero, Finset.sum_ite_eq', Finset.mem_univ, if_true]
  refine Finset.sum_congr rfl fun m _ => Finset.sum_congr rfl fun a _ => Finset.sum_congr rfl fun b _ => Finset.sum_congr rfl fun i _ => Finset.sum_congr rfl fun j _ =>
    Finset.sum_congr rfl fun k _ => Finset.sum_congr rfl fun l _ => ?_
  rw [← ho.2, ← hr.2]
  simp [Function.update]

theorem tri031_val : tri031 r o = some (Matrix.trace (B * triple 4 p 0 3 1)) := by
  obtain ⟨R, e, s, v⟩ := einsum_ok (fun _ => p) [(r, [0, 1, 6, 3, 4, 5, 6, 7]), (o, [4, 7, 5, 0, 3, 1])] [] (by simp [ho.1, hr.1]) (by simp) (by simp)
  have h := v (fun _ => 0) (by simp)
  have hl : ((([(r, [0, 1, 6, 3, 4, 5, 6, 7]), (o, [4, 7, 5, 0, 3, 1])] : List (Tensor ℂ × List Nat)).flatMap Prod.snd).dedup.filter (fun l => l ∉ ([] : List Nat))).Perm [0, 1, 6, 3, 4, 5, 7] := by
    simp only [List.flatMap_cons, List.flatMap_nil]; decide
  rw [sumOver_perm _ hl] at h
  unfold tri031
  rw [e]
  show some (R.val []) = _
  rw [List.map_nil] at h
  rw [h]
  congr 1
  simp (config := {maxSteps := 1000000}) only [sumOver, termOf, List.map_cons, List.map_nil, List.prod_cons, List.prod_nil, mul_one, Finset.sum_range]
  simp only [Matrix.trace, Matrix.diag, Matrix.mul_apply, sum4, t031]
  simp only [mul_ite, mul_zero, Finset.sum_ite_irrel, Finset.sum_const_zero, Finset.sum_ite_eq', Finset.mem_univ, if_true]
  refine Finset.sum_congr rfl fun m _ => Finset.sum_congr rfl fun a _ => Finset.sum_congr rfl fun b _ => Finset.sum_congr rfl fun i _ => Finset.sum_congr rfl fun j _ =>
    Finset.sum_congr rfl fun k _ => Finset.sum_congr rfl fun l _ => ?_
  rw [← ho.2, ← hr.2]
  simp [Function.update]

theorem tri132_val : tri132 r o = some (Matrix.trace (B * triple 4 p 1 3 2)) := by
  obtain ⟨R, e, s, v⟩ := einsum_ok (fun _ => p) [(r, [4, 1, 2, 3, 4, 5, 6, 7]), (o, [5, 7, 6, 1, 3, 2])] [] (by simp [ho.1, hr.1]) (by simp) (by simp)
  have h := v (fun _ => 0) (by simp)
  have hl : ((([(r, [4, 1, 2, 3, 4, 5, 6, 7]), (o, [5, 7, 6, 1, 3, 2])] : List (Tensor ℂ × List Nat)).flatMap Prod.snd).dedup.filter (fun l => l ∉ ([] : List Nat))).Perm [4, 1, 2, 3, 5, 6, 7] := by
    simp only [List.flatMap_cons, List.flatMap_nil]; decide
  rw [sumOver_perm _ hl] at h
  unfold tri132
  rw [e]
  show some (R.val []) = _
  rw [List.map_nil] at h
  rw [h]
  congr 1
  simp (config := {maxSteps := 1000000}) only [sumOver, termOf, List.map_cons, List.map_nil, List.prod_cons, List.prod_nil, mul_one, Finset.sum_range]
  simp only [Matrix.trace, Matrix.diag, Matrix.mul_apply, sum4, t132]
  simp only [mul_ite, mul_zero, Finset.sum_ite_irrel, Finset.sum_const_zero, Finset.sum_ite_eq', Finset.mem_univ, if_true]
  refine Finset.sum_congr rfl fun m _ => Finset.sum_congr rfl fun a _ => Finset.sum_congr rfl fun b _ => Finset.sum_congr rfl fun i _ => Finset.sum_congr rfl fun j _ =>
    Finset.sum_congr rfl fun k _ => Finset.sum_congr rfl fun l _ => ?_
  rw [← ho.2, ← hr.2]
  simp [Function.update]

end

/-- The operators of `get_h`. -/
structure HoldsOps (p : Nat) (o : RingOps) : Prop where
  nn : Holds4 o.nn (sides p 0 1 2 3)
  ss : o.ss = ssP p
  chi : Holds3 o.chi (triple 3 p 0 1 2)
  p : Holds4 o.p (ring p 0 1 2 3)

theorem ringOps_holds (p : Nat) : ∃ o, ringOps p = some o ∧ HoldsOps p o := by
  obtain ⟨a, ea, ha⟩ := hSides_holds p
  obtain ⟨b, eb, hb⟩ := hChi_holds p
  obtain ⟨c, ec, hc⟩ := hRing_holds p
  exact ⟨⟨a, ssP p, b, c⟩, by simp [ringOps, ea, eb, ec], ha, rfl, hb, hc⟩

/-- The four sums of a rhombus with the vertices `i j k l` around it, for a density matrix `M`. -/
noncomputable def termsOf (M : OpN 4 p) (i j k l : Fin 4) : Terms :=
  ⟨Matrix.trace (M * sides p i j k l), Matrix.trace (M * dot 4 p i k), Matrix.trace (M * triple 4 p i j l) + Matrix.trace (M * triple 4 p j k l), Matrix.trace (M * ring p i j k l)⟩

theorem slanted_val {o : RingOps} (ho : HoldsOps p o) {r : Tensor ℂ} {X : OpN 4 p} (hr : Holds4 r X) (A B C : Su2.Op p) :
    slanted p o r A B C = some (termsOf (prod ![1, A, B, C] * X * (prod ![1, A, B, C]).transpose) 0 1 2 3) := by
  obtain ⟨y, e, hy⟩ := rot123_holds hr A B C
  unfold slanted
  rw [e, ho.ss]
  simp only [Option.bind_eq_bind, Option.bind_some, all4_val ho.nn hy, all4_val ho.p hy, long2_val hy, tri013_val ho.chi hy, tri123_val ho.chi hy]
  rfl

theorem sides_rev (i j k l : Fin 4) : sides p i l k j = sides p i j k l := by
  simp only [sides]
  rw [dot_comm i l, dot_comm l k, dot_comm k j, dot_comm j i]
  abel

theorem ring_rev (i j k l : Fin 4) : ring p i l k j = ring p i j k l := by
  simp only [ring]
  rw [dot_comm k j, dot_comm l k, dot_comm l j]
  abel

theorem triple_cyc {n : Nat} {x y z : Fin n} (h : x ≠ y) (h' : x ≠ z) : triple n p x y z = triple n p y z x := by
  unfold triple
  rw [Fin.sum_univ_three, Fin.sum_univ_three]
  have c := fun a b => (on_comm h (Trgl.Spec.spin p a) (Trgl.Spec.spin p b)).eq
  have d := fun a b => (on_comm h' (Trgl.Spec.spin p a) (Trgl.Spec.spin p b)).eq
  have e : ∀ a b g, Trgl.Spec.on x (Trgl.Spec.spin p a) * (Trgl.Spec.on y (Trgl.Spec.spin p b) * Trgl.Spec.on z (Trgl.Spec.spin p g)) =
      Trgl.Spec.on y (Trgl.Spec.spin p b) * (Trgl.Spec.on z (Trgl.Spec.spin p g) * Trgl.Spec.on x (Trgl.Spec.spin p a)) := by
    intro a b g
    rw [← mul_assoc, c, mul_assoc, d]
  simp only [mul_sub, e]
  simp only [show (0 : Fin 3) + 1 = 1 from rfl, show (0 : Fin 3) + 2 = 2 from rfl, show (1 : Fin 3) + 1 = 2 from rfl, show (1 : Fin 3) + 2 = 0 from rfl, show (2 : Fin 3) + 1 = 0 from rfl,
    show (2 : Fin 3) + 2 = 1 from rfl]
  abel

theorem upright_val {o : RingOps} (ho : HoldsOps p o) {r : Tensor ℂ} {X : OpN 4 p} (hr : Holds4 r X) (A C : Su2.Op p) :
    upright p o r A C = some (termsOf (prod ![1, A, 1, C] * X * (prod ![1, A, 1, C]).transpose) 0 3 2 1) := by
  obtain ⟨y, e, hy⟩ := rot13_holds hr A C
  unfold upright
  rw [e, ho.ss]
  simp only [Option.bind_eq_bind, Option.bind_some, all4_val ho.nn hy, all4_val ho.p hy, long2_val hy, tri031_val ho.chi hy, tri132_val ho.chi hy, termsOf, sides_rev, ring_rev]
  rw [triple_cyc (x := 1) (y := 3) (z := 2) (by decide) (by decide)]
  rfl

theorem terms_relabel (f : Equiv.Perm (Fin 4)) (M : OpN 4 p) (i j k l : Fin 4) : termsOf (relabel f M) i j k l = termsOf M (f i) (f j) (f k) (f l) := by
  have hd : ∀ x y, dot 4 p x y = relabel f (dot 4 p (f x) (f y)) := fun x y => by rw [relabel_dot]; simp
  have ht : ∀ x y z, triple 4 p x y z = relabel f (triple 4 p (f x) (f y) (f z)) := fun x y z => by rw [relabel_triple]; simp
  have hs : sides p i j k l = relabel f (sides p (f i) (f j) (f k) (f l)) := by simp only [sides, relabel_add, ← hd]
  have hg : ring p i j k l = relabel f (ring p (f i) (f j) (f k) (f l)) := by simp only [ring, relabel_add, relabel_sub, relabel_mul, ← hd]
  simp only [termsOf]
  rw [hs, hg, hd i k, ht i j l, ht j k l]
  simp only [← relabel_mul, trace_relabel]

theorem turned_relabel (f : Equiv.Perm (Fin 4)) (V : Fin 4 → Su2.Op p) (X : OpN 4 p) :
    prod V * relabel f X * (prod V).transpose = relabel f (prod (V ∘ f.symm) * X * (prod (V ∘ f.symm)).transpose) := by
  rw [relabel_mul, relabel_mul, relabel_transpose, relabel_prod]
  have : (V ∘ f.symm) ∘ f = V := by funext x; simp
  rw [this]

namespace Spec

/-- The sums of a rhombus in the spiral state. -/
noncomputable def rhombus (q : ℝ × ℝ) (r : Fin 4 → Coord) (R : Tensor ℂ) (i j k l : Fin 4) : Terms :=
  ⟨expect q r R (sides p i j k l), expect q r R (dot 4 p i k), expect q r R (triple 4 p i j l) + expect q r R (triple 4 p j k l), expect q r R (ring p i j k l)⟩

end Spec

/-- The spiral around one of its sites. -/
theorem rhombus_eq (q : ℝ × ℝ) (c : Coord) (d : Fin 4 → Coord) (V : Fin 4 → Su2.Op p) (hV : ∀ i, V i = turn p (2 * Real.pi * (q.1 * (d i).1 + q.2 * (d i).2))) (R : Tensor ℂ) (i j k l : Fin 4) :
    rhombus (p := p) q (fun i => (c.1 + (d i).1, c.2 + (d i).2)) R i j k l = termsOf (prod V * dens 4 p R * (prod V).transpose) i j k l := by
  have e : spiral p q d = prod V := by
    unfold spiral
    congr 1
    funext i
    rw [hV]
  have hs : ad 4 (sides p i j k l) = 0 := by simp only [sides, ad_add, ad_dot, add_zero]
  have hr : ad 4 (ring p i j k l) = 0 := by simp only [ring, ad_add, ad_sub, ad_mul, ad_dot, zero_mul, mul_zero, add_zero, sub_zero]
  simp only [rhombus, termsOf]
  rw [expect_shift hs, expect_shift hr, expect_shift (ad_dot _ _), expect_shift (ad_triple _ _ _), expect_shift (ad_triple _ _ _)]
  simp only [expect_turns, e]

end Verif.Trgl
