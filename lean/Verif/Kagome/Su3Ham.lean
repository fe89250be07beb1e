import Verif.Kagome.Su3Model
import Verif.Kagome.Obs
import Verif.Group.Su3Props
/-
The tensors of su3_kagome.py hold the operators of the specification.
-/
namespace Verif.KagomeRdm
open Tensor Ctm Rdm Ctm.Spec Spec
open Su3 (δ)

/-- Four indices of a tensor over three levels. -/
def Is4 (T : Tensor ℂ) (F : Fin 3 → Fin 3 → Fin 3 → Fin 3 → ℂ) : Prop :=
  T.shape = [3, 3, 3, 3] ∧ ∀ i j k l : Fin 3, T.val [(i : Nat), (j : Nat), (k : Nat), (l : Nat)] = F i j k l

theorem c1T_is : Is4 c1T fun i a j b => Su3.C1 i a j b := ⟨rfl, fun i j k l => by simp [c1T]⟩

theorem eyeT_val (n i j : Nat) : (eyeT n).val [i, j] = if i = j then 1 else 0 := rfl

theorem eye3_val (i j : Fin 3) : (eyeT 3).val [(i : Nat), (j : Nat)] = δ i j := by
  rw [eyeT_val]; unfold δ; simp [Fin.ext_iff]

theorem idp2_is : ∃ E, idp2 = some E ∧ Is4 E fun i j k l => δ i k * δ j l := by
  refine ⟨_, rfl, rfl, fun i j k l => ?_⟩
  fin_cases i <;> fin_cases j <;> fin_cases k <;> fin_cases l <;> simp [eyeT, δ, ravel, unravel]

theorem perm2_is : ∃ P, perm2 = some P ∧ Is4 P fun i j k l => δ i l * δ j k := by
  obtain ⟨E, e, h⟩ := idp2_is
  have e' : view [3, 3, 3, 3] (eyeT 9) = some E := e
  refine ⟨_, by simp only [perm2, e', Option.bind_eq_bind, Option.bind_some]; rfl, rfl, fun i j k l => ?_⟩
  simp only [Models.lin, List.map_cons, List.map_nil, List.sum_cons, List.sum_nil, c1T_is.2, h.2, Su3.C1_F, Su3.complete]
  ring

theorem range3 (f : Nat → ℂ) : ∑ x ∈ Finset.range 3, f x = ∑ x : Fin 3, f x := (Fin.sum_univ_eq_sum_range f 3).symm

/-- The cyclic permutation, as numbers. -/
theorem cyclic_δ (t s : Spins 3) : cyclic 3 t s = δ (t 0) (s 2) * δ (t 1) (s 0) * δ (t 2) (s 1) := by
  unfold cyclic δ
  rw [Matrix.of_apply]
  by_cases h0 : t 0 = s 2 <;> by_cases h1 : t 1 = s 0 <;> by_cases h2 : t 2 = s 1 <;> simp [h0, h1, h2]

theorem cyclicH_δ (t s : Spins 3) : (cyclic 3).conjTranspose t s = δ (t 0) (s 1) * δ (t 1) (s 2) * δ (t 2) (s 0) := by
  rw [Matrix.conjTranspose_apply, cyclic_δ]
  have hs : ∀ i j, star (δ i j) = δ j i := by intro i j; unfold δ; by_cases h : i = j <;> simp [h, eq_comm]
  simp only [star_mul, hs]
  ring

theorem permL_holds : ∃ T, permL = some T ∧ Holds T (cyclic 3) := by
  obtain ⟨P, eP, sP, vP⟩ := perm2_is
  obtain ⟨T, e, s, v⟩ := einsum6 (fun _ => 3) (fun _ _ => rfl) [(P, [0, 1, 3, 6]), (P, [6, 2, 4, 5])] (by simp [sP]) (by simp)
  refine ⟨T, by simp only [permL, eP, Option.bind_eq_bind, Option.bind_some, e], s, fun t u => ?_⟩
  rw [v]
  have hl : (([(P, [0, 1, 3, 6]), (P, [6, 2, 4, 5])] : List (Tensor ℂ × List Nat)).flatMap Prod.snd).dedup.filter (fun l => l ∉ [0, 1, 2, 3, 4, 5]) = [6] := by
    simp only [List.flatMap_cons, List.flatMap_nil]; decide
  rw [hl]
  simp only [sumOver, termOf, List.map_cons, List.map_nil, at6, Function.update, List.getD_cons_zero, List.getD_cons_succ, List.prod_cons, List.prod_nil, mul_one]
  simp only [Nat.reduceEqDiff, dite_true, dite_false]
  rw [range3]
  simp [vP, cyclic_δ, δ]

theorem permR_holds : ∃ T, permR = some T ∧ Holds T (cyclic 3).conjTranspose := by
  obtain ⟨P, eP, sP, vP⟩ := perm2_is
  obtain ⟨T, e, s, v⟩ := einsum6 (fun _ => 3) (fun _ _ => rfl) [(P, [0, 2, 3, 6]), (P, [1, 6, 4, 5])] (by simp [sP]) (by simp)
  refine ⟨T, by simp only [permR, eP, Option.bind_eq_bind, Option.bind_some, e], s, fun t u => ?_⟩
  rw [v]
  have hl : (([(P, [0, 2, 3, 6]), (P, [1, 6, 4, 5])] : List (Tensor ℂ × List Nat)).flatMap Prod.snd).dedup.filter (fun l => l ∉ [0, 1, 2, 3, 4, 5]) = [6] := by
    simp only [List.flatMap_cons, List.flatMap_nil]; decide
  rw [hl]
  simp only [sumOver, termOf, List.map_cons, List.map_nil, at6, Function.update, List.getD_cons_zero, List.getD_cons_succ, List.prod_cons, List.prod_nil, mul_one]
  simp only [Nat.reduceEqDiff, dite_true, dite_false]
  rw [range3]
  simp only [eq_rec_constant, vP, cyclicH_δ]
  simp only [Fin.sum_univ_three]
  generalize t 0 = a, t 1 = b, t 2 = c, u 0 = i, u 1 = j, u 2 = k
  unfold δ
  by_cases h : a = j
  · subst h
    fin_cases a <;> simp <;> split_ifs <;> simp_all
  · fin_cases a <;> fin_cases j <;> simp at h ⊢

/-- An operator on the spins `x` and `y` with the entries `F`; the identity on spin `z`. -/
def pairOn (x y z : Fin 3) (F : Fin 3 → Fin 3 → Fin 3 → Fin 3 → ℂ) : Op3 ℂ 3 := Matrix.of fun t s => F (t x) (t y) (s x) (s y) * δ (t z) (s z)

theorem on_holds {X : Tensor ℂ} {F : Fin 3 → Fin 3 → Fin 3 → Fin 3 → ℂ} (h : Is4 X F) :
    (∃ T, on01 X = some T ∧ Holds T (pairOn 0 1 2 F)) ∧ (∃ T, on02 X = some T ∧ Holds T (pairOn 0 2 1 F)) ∧ (∃ T, on12 X = some T ∧ Holds T (pairOn 1 2 0 F)) := by
  have hE : (eyeT 3).shape = [3, 3] := rfl
  obtain ⟨sX, vX⟩ := h
  refine ⟨?_, ?_, ?_⟩
  · obtain ⟨T, e, s, v⟩ := einsum6 (fun _ => 3) (fun _ _ => rfl) [(X, [0, 1, 3, 4]), (eyeT 3, [2, 5])] (by simp [sX, hE]) (by simp)
    refine ⟨T, e, s, fun t u => ?_⟩
    rw [v]
    have hl : (([(X, [0, 1, 3, 4]), (eyeT 3, [2, 5])] : List (Tensor ℂ × List Nat)).flatMap Prod.snd).dedup.filter (fun l => l ∉ [0, 1, 2, 3, 4, 5]) = [] := by
      simp only [List.flatMap_cons, List.flatMap_nil]; decide
    rw [hl]
    simp only [sumOver, termOf, List.map_cons, List.map_nil, at6, List.getD_cons_zero, List.getD_cons_succ, List.prod_cons, List.prod_nil, mul_one, vX, eye3_val, pairOn, Matrix.of_apply]
  · obtain ⟨T, e, s, v⟩ := einsum6 (fun _ => 3) (fun _ _ => rfl) [(X, [0, 2, 3, 5]), (eyeT 3, [1, 4])] (by simp [sX, hE]) (by simp)
    refine ⟨T, e, s, fun t u => ?_⟩
    rw [v]
    have hl : (([(X, [0, 2, 3, 5]), (eyeT 3, [1, 4])] : List (Tensor ℂ × List Nat)).flatMap Prod.snd).dedup.filter (fun l => l ∉ [0, 1, 2, 3, 4, 5]) = [] := by
      simp only [List.flatMap_cons, List.flatMap_nil]; decide
    rw [hl]
    simp only [sumOver, termOf, List.map_cons, List.map_nil, at6, List.getD_cons_zero, List.getD_cons_succ, List.prod_cons, List.prod_nil, mul_one, vX, eye3_val, pairOn, Matrix.of_apply]
  · obtain ⟨T, e, s, v⟩ := einsum6 (fun _ => 3) (fun _ _ => rfl) [(X, [1, 2, 4, 5]), (eyeT 3, [0, 3])] (by simp [sX, hE]) (by simp)
    refine ⟨T, e, s, fun t u => ?_⟩
    rw [v]
    have hl : (([(X, [1, 2, 4, 5]), (eyeT 3, [0, 3])] : List (Tensor ℂ × List Nat)).flatMap Prod.snd).dedup.filter (fun l => l ∉ [0, 1, 2, 3, 4, 5]) = [] := by
      simp only [List.flatMap_cons, List.flatMap_nil]; decide
    rw [hl]
    simp only [sumOver, termOf, List.map_cons, List.map_nil, at6, List.getD_cons_zero, List.getD_cons_succ, List.prod_cons, List.prod_nil, mul_one, vX, eye3_val, pairOn, Matrix.of_apply]

theorem swap_comm (p : Nat) (x y : Fin 3) : swap p x y = swap p y x := by unfold swap; rw [Equiv.swap_comm]

theorem spins_ext {p : Nat} (t s : Spins p) : t = s ↔ t 0 = s 0 ∧ t 1 = s 1 ∧ t 2 = s 2 :=
  ⟨fun h => by simp [h], fun ⟨a, b, c⟩ => funext fun i => by fin_cases i <;> assumption⟩

theorem swap_pairOn : swap 3 0 1 = pairOn 0 1 2 (fun i j k l => δ i l * δ j k) ∧ swap 3 0 2 = pairOn 0 2 1 (fun i j k l => δ i l * δ j k) ∧
    swap 3 1 2 = pairOn 1 2 0 (fun i j k l => δ i l * δ j k) := by
  refine ⟨?_, ?_, ?_⟩ <;> ext t s <;> simp only [swap, pairOn, Matrix.of_apply, spins_ext, Function.comp, δ]
  · rw [show Equiv.swap (0 : Fin 3) 1 0 = 1 by decide, show Equiv.swap (0 : Fin 3) 1 1 = 0 by decide, show Equiv.swap (0 : Fin 3) 1 2 = 2 by decide]
    split_ifs <;> simp_all
  · rw [show Equiv.swap (0 : Fin 3) 2 0 = 2 by decide, show Equiv.swap (0 : Fin 3) 2 1 = 1 by decide, show Equiv.swap (0 : Fin 3) 2 2 = 0 by decide]
    split_ifs <;> simp_all
  · rw [show Equiv.swap (1 : Fin 3) 2 0 = 0 by decide, show Equiv.swap (1 : Fin 3) 2 1 = 2 by decide, show Equiv.swap (1 : Fin 3) 2 2 = 1 by decide]
    split_ifs <;> simp_all

theorem perm2Tri_holds : ∃ T, perm2Tri = some T ∧ Holds T (swaps 3) := by
  obtain ⟨P, eP, hP⟩ := perm2_is
  obtain ⟨⟨A, eA, hA⟩, ⟨B, eB, hB⟩, ⟨C, eC, hC⟩⟩ := on_holds hP
  refine ⟨_, by simp only [perm2Tri, eP, eA, eB, eC, Option.bind_eq_bind, Option.bind_some]; rfl, ?_⟩
  have := lin_holds_cons (z := 1) hA (lin_holds_cons (z := 1) hB (lin_holds_cons (z := 1) hC lin_holds_nil))
  rw [← swap_pairOn.1, ← swap_pairOn.2.1, ← swap_pairOn.2.2, one_smul, one_smul, one_smul, add_zero] at this
  unfold swaps
  rw [swap_comm 3 2 0, add_assoc, add_comm (swap 3 1 2)]
  exact this

theorem su3H_holds (m : Su3Couplings) : ∃ T, su3H m = some T ∧ Holds T (su3Triangle m) := by
  obtain ⟨B, eB, hB⟩ := perm2Tri_holds
  obtain ⟨L, eL, hL⟩ := permL_holds
  obtain ⟨R, eR, hR⟩ := permR_holds
  refine ⟨_, by simp only [su3H, eB, eL, eR, Option.bind_eq_bind, Option.bind_some]; rfl, ?_⟩
  have := lin_holds_cons (z := (m.j : ℂ)) hB (lin_holds_cons (z := m.k + m.h * Complex.I) hL (lin_holds_cons (z := m.k - m.h * Complex.I) hR lin_holds_nil))
  have e : su3Triangle m = (m.j : ℂ) • swaps 3 + ((m.k + m.h * Complex.I) • cyclic 3 + ((m.k - m.h * Complex.I) • (cyclic 3).conjTranspose + 0)) := by
    unfold su3Triangle
    module
  rw [e]; exact this

theorem su3Chirality_holds : ∃ T, su3Chirality = some T ∧ Holds T su3Chi := by
  obtain ⟨L, eL, hL⟩ := permL_holds
  obtain ⟨R, eR, hR⟩ := permR_holds
  refine ⟨_, by simp only [su3Chirality, eL, eR, Option.bind_eq_bind, Option.bind_some]; rfl, ?_⟩
  have := lin_holds_cons (z := Complex.I) hL (lin_holds_cons (z := -Complex.I) hR lin_holds_nil)
  have e : su3Chi = Complex.I • cyclic 3 + (-Complex.I • (cyclic 3).conjTranspose + 0) := by
    unfold su3Chi
    module
  rw [e]; exact this

theorem swap_herm (p : Nat) (x y : Fin 3) : (swap p x y).conjTranspose = swap p x y := by
  ext t s
  simp only [Matrix.conjTranspose_apply, swap, Matrix.of_apply]
  have h : s = t ∘ Equiv.swap x y ↔ t = s ∘ Equiv.swap x y := by
    constructor <;> rintro rfl <;> funext i <;> simp
  by_cases h1 : t = s ∘ Equiv.swap x y
  · rw [if_pos h1, if_pos (h.2 h1), star_one]
  · rw [if_neg h1, if_neg (fun h2 => h1 (h.1 h2)), star_zero]

theorem swaps_herm (p : Nat) : (swaps p).IsHermitian := by
  unfold Matrix.IsHermitian swaps
  simp only [Matrix.conjTranspose_add, swap_herm]

theorem su3Chi_herm : su3Chi.IsHermitian := by
  unfold Matrix.IsHermitian su3Chi
  have hI : star Complex.I = -Complex.I := Complex.conj_I
  rw [Matrix.conjTranspose_smul, Matrix.conjTranspose_sub, Matrix.conjTranspose_conjTranspose, hI]
  module

theorem su3Triangle_eq (m : Su3Couplings) : su3Triangle m = (m.j : ℂ) • swaps 3 + (m.k : ℂ) • (cyclic 3 + (cyclic 3).conjTranspose) + (m.h : ℂ) • su3Chi := by
  unfold su3Triangle su3Chi
  module

theorem su3Triangle_herm (m : Su3Couplings) : (su3Triangle m).IsHermitian := by
  have hr : ∀ r : ℝ, star (r : ℂ) = r := fun r => Complex.conj_ofReal r
  rw [su3Triangle_eq]
  unfold Matrix.IsHermitian
  simp only [Matrix.conjTranspose_add, Matrix.conjTranspose_smul, hr, (swaps_herm 3).eq, su3Chi_herm.eq, Matrix.conjTranspose_conjTranspose]
  rw [add_comm (cyclic 3).conjTranspose]

/-! ### Generators and Casimir operators -/

theorem at_eval (x : Fin 3) (A : Su2.Op 3) (t s : Spins 3) : at' x A t s = ∏ y, if y = x then A (t x) (s x) else δ (t y) (s y) := by
  unfold at' tensor δ
  rw [Matrix.of_apply]
  refine Finset.prod_congr rfl fun y _ => ?_
  by_cases h : y = x
  · subst h; simp
  · simp [h, Matrix.one_apply]

theorem genOp_holds (J : Su3.Op) (x : Fin 3) : ∃ T, genOp J x = some T ∧ Holds T (at' x J) := by
  obtain ⟨E, eE, sE, vE⟩ := idp2_is
  have hJ : (Models.opP 3 J).shape = [3, 3] := rfl
  fin_cases x
  · obtain ⟨T, e, s, v⟩ := einsum6 (fun _ => 3) (fun _ _ => rfl) [(Models.opP 3 J, [0, 3]), (E, [1, 2, 4, 5])] (by simp [sE, hJ]) (by simp)
    refine ⟨T, by simp only [genOp, eE, Option.bind_eq_bind, Option.bind_some]; exact e, s, fun t u => ?_⟩
    rw [v]
    have hl : (([(Models.opP 3 J, [0, 3]), (E, [1, 2, 4, 5])] : List (Tensor ℂ × List Nat)).flatMap Prod.snd).dedup.filter (fun l => l ∉ [0, 1, 2, 3, 4, 5]) = [] := by
      simp only [List.flatMap_cons, List.flatMap_nil]; decide
    rw [hl]
    simp only [sumOver, termOf, List.map_cons, List.map_nil, at6, List.getD_cons_zero, List.getD_cons_succ, List.prod_cons, List.prod_nil, mul_one, vE, opP_val, at_eval, Fin.prod_univ_three]
    simp
    ring
  · obtain ⟨T, e, s, v⟩ := einsum6 (fun _ => 3) (fun _ _ => rfl) [(Models.opP 3 J, [1, 4]), (E, [0, 2, 3, 5])] (by simp [sE, hJ]) (by simp)
    refine ⟨T, by simp only [genOp, eE, Option.bind_eq_bind, Option.bind_some]; exact e, s, fun t u => ?_⟩
    rw [v]
    have hl : (([(Models.opP 3 J, [1, 4]), (E, [0, 2, 3, 5])] : List (Tensor ℂ × List Nat)).flatMap Prod.snd).dedup.filter (fun l => l ∉ [0, 1, 2, 3, 4, 5]) = [] := by
      simp only [List.flatMap_cons, List.flatMap_nil]; decide
    rw [hl]
    simp only [sumOver, termOf, List.map_cons, List.map_nil, at6, List.getD_cons_zero, List.getD_cons_succ, List.prod_cons, List.prod_nil, mul_one, vE, opP_val, at_eval, Fin.prod_univ_three]
    simp
    ring
  · obtain ⟨T, e, s, v⟩ := einsum6 (fun _ => 3) (fun _ _ => rfl) [(Models.opP 3 J, [2, 5]), (E, [0, 1, 3, 4])] (by simp [sE, hJ]) (by simp)
    refine ⟨T, by simp only [genOp, eE, Option.bind_eq_bind, Option.bind_some]; exact e, s, fun t u => ?_⟩
    rw [v]
    have hl : (([(Models.opP 3 J, [2, 5]), (E, [0, 1, 3, 4])] : List (Tensor ℂ × List Nat)).flatMap Prod.snd).dedup.filter (fun l => l ∉ [0, 1, 2, 3, 4, 5]) = [] := by
      simp only [List.flatMap_cons, List.flatMap_nil]; decide
    rw [hl]
    simp only [sumOver, termOf, List.map_cons, List.map_nil, at6, List.getD_cons_zero, List.getD_cons_succ, List.prod_cons, List.prod_nil, mul_one, vE, opP_val, at_eval, Fin.prod_univ_three]
    simp
    ring

theorem at_at {p : Nat} {x y : Fin 3} (h : x ≠ y) (A B : Su2.Op p) : at' x A * at' y B = tensor (Function.update (Function.update (fun _ => 1) x A) y B) := by
  unfold at'
  rw [tensor_mul]
  congr 1
  funext z
  by_cases h1 : z = y
  · subst h1; simp [Ne.symm h]
  · by_cases h2 : z = x
    · subst h2; simp [h1]
    · simp [h1, h2]

theorem at_at_eval {x y z : Fin 3} (h : x ≠ y) (hz : z ≠ x ∧ z ≠ y) (A B : Su2.Op 3) (t s : Spins 3) : (at' x A * at' y B) t s = A (t x) (s x) * B (t y) (s y) * δ (t z) (s z) := by
  rw [at_at h]
  unfold tensor δ
  rw [Matrix.of_apply, Fin.prod_univ_three]
  obtain ⟨h1, h2⟩ := hz
  fin_cases x <;> fin_cases y <;> fin_cases z <;> simp [Function.update, Matrix.one_apply] at h h1 h2 ⊢ <;> ring

theorem casimir1_pairOn {x y z : Fin 3} (h : x ≠ y) (hz : z ≠ x ∧ z ≠ y) : casimir1 x y = pairOn x y z (fun i a j b => Su3.C1 i a j b) := by
  ext t s
  unfold casimir1 pairOn
  rw [Matrix.sum_apply, Matrix.of_apply]
  show _ = Su3.C1 (t x) (t y) (s x) (s y) * δ (t z) (s z)
  rw [Su3.C1_F, Finset.sum_mul]
  exact Finset.sum_congr rfl fun k _ => at_at_eval h hz _ _ _ _

theorem casimir1_comm {x y : Fin 3} (h : x ≠ y) : casimir1 x y = casimir1 y x := by
  unfold casimir1
  exact Finset.sum_congr rfl fun k _ => at_comm h _ _

theorem c2T_holds : Holds c2T casimir2 := by
  refine ⟨rfl, fun t s => ?_⟩
  have h := congrFun (congrFun Su3.C118_C2_sum (t 0, t 1, t 2)) (s 0, s 1, s 2)
  have e : c2T.val [(t 0 : Nat), t 1, t 2, s 0, s 1, s 2] = Su3.C2 (t 0) (t 1) (t 2) (s 0) (s 1) (s 2) := by simp [c2T]
  rw [e]
  refine h.trans ?_
  unfold casimir2
  simp only [Matrix.sum_apply, Matrix.smul_apply, smul_eq_mul, at012, Su3.Spec.prod3, Matrix.of_apply]

theorem F_herm (k : Fin 8) : (Su3.Spec.F k).conjTranspose = Su3.Spec.F k := by
  unfold Su3.Spec.F
  rw [Matrix.conjTranspose_smul, (Su3.C118_basis.1 k).eq]
  norm_num

theorem casimir1_herm {x y : Fin 3} (h : x ≠ y) : (casimir1 x y).IsHermitian := by
  unfold Matrix.IsHermitian casimir1
  rw [Matrix.conjTranspose_sum]
  refine Finset.sum_congr rfl fun k _ => ?_
  rw [Matrix.conjTranspose_mul, at_conj, at_conj, F_herm, at_comm h.symm]

theorem d_real (a b c : Fin 8) : star (Su3.Spec.d a b c) = Su3.Spec.d a b c := by
  unfold Su3.Spec.d
  rw [star_mul', ← Matrix.trace_conjTranspose, Matrix.conjTranspose_mul, Matrix.conjTranspose_add, Matrix.conjTranspose_mul, Matrix.conjTranspose_mul, (Su3.C118_basis.1 a).eq,
    (Su3.C118_basis.1 b).eq, (Su3.C118_basis.1 c).eq, Matrix.trace_mul_comm, add_comm]
  norm_num

theorem casimir2_herm : casimir2.IsHermitian := by
  unfold Matrix.IsHermitian casimir2
  simp only [Matrix.conjTranspose_sum, Matrix.conjTranspose_smul, d_real]
  refine Finset.sum_congr rfl fun a _ => Finset.sum_congr rfl fun b _ => Finset.sum_congr rfl fun c _ => congrArg _ ?_
  rw [Matrix.conjTranspose_mul, Matrix.conjTranspose_mul, at_conj, at_conj, at_conj, F_herm, F_herm, F_herm, ← mul_assoc, mul_assoc, at_comm (by decide : (1 : Fin 3) ≠ 0),
    ← mul_assoc, at_comm (by decide : (2 : Fin 3) ≠ 0), mul_assoc, at_comm (by decide : (2 : Fin 3) ≠ 1), mul_assoc]

end Verif.KagomeRdm
