import Verif.Kagome.HamModel
import Verif.Kagome.UpProps
import Mathlib.Algebra.BigOperators.Ring.Finset
import Mathlib.Data.Matrix.Mul
/-
The tensors of the triangle Hamiltonian hold the operators of the specification.
-/
namespace Verif.KagomeRdm
open Tensor Ctm Rdm Spec

variable {p : Nat}

/-! ### Products of operators on three spins -/

theorem tensor_mul (A B : Fin 3 → Su2.Op p) : tensor A * tensor B = tensor (fun x => A x * B x) := by
  ext t s
  simp only [Matrix.mul_apply, tensor, Matrix.of_apply, ← Finset.prod_mul_distrib]
  rw [Finset.prod_univ_sum, Fintype.piFinset_univ]

theorem tensor_conj (A : Fin 3 → Su2.Op p) : (tensor A).conjTranspose = tensor (fun x => (A x).conjTranspose) := by
  ext t s
  simp only [Matrix.conjTranspose_apply, tensor, Matrix.of_apply, star_prod]

theorem tensor_rot (A : Fin 3 → Su2.Op p) (e : Equiv.Perm (Fin 3)) : (tensor A).submatrix (fun t => t ∘ e.symm) (fun t => t ∘ e.symm) = tensor (A ∘ e) := by
  ext t s
  simp only [tensor, Matrix.submatrix_apply, Matrix.of_apply, Function.comp]
  exact (Equiv.prod_comp e (fun x => A x (t (e.symm x)) (s (e.symm x)))).symm.trans (by simp)

theorem at_rot (x : Fin 3) (A : Su2.Op p) (e : Equiv.Perm (Fin 3)) : (at' x A).submatrix (fun t => t ∘ e.symm) (fun t => t ∘ e.symm) = at' (e.symm x) A := by
  unfold at'
  rw [tensor_rot, Function.update_comp_equiv]
  rfl

theorem mul_rot (A B : Op3 ℂ p) (e : Equiv.Perm (Fin 3)) : (A * B).submatrix (fun t => t ∘ e.symm) (fun t => t ∘ e.symm) =
    A.submatrix (fun t => t ∘ e.symm) (fun t => t ∘ e.symm) * B.submatrix (fun t => t ∘ e.symm) (fun t => t ∘ e.symm) :=
  (Matrix.submatrix_mul_equiv A B _ (Equiv.arrowCongr e (Equiv.refl (Fin p))) _).symm

theorem dot_rot (x y : Fin 3) (e : Equiv.Perm (Fin 3)) : (dot p x y).submatrix (fun t => t ∘ e.symm) (fun t => t ∘ e.symm) = dot p (e.symm x) (e.symm y) := by
  unfold dot
  simp only [Fin.sum_univ_three, Matrix.submatrix_add, Pi.add_apply, mul_rot, at_rot]

theorem cross_rot (x y a : Fin 3) (e : Equiv.Perm (Fin 3)) : (cross p x y a).submatrix (fun t => t ∘ e.symm) (fun t => t ∘ e.symm) = cross p (e.symm x) (e.symm y) a := by
  unfold cross
  simp only [Matrix.submatrix_sub, Pi.sub_apply, mul_rot, at_rot]

/-- Cyclic shifts. -/
def e120 : Equiv.Perm (Fin 3) := ⟨![1, 2, 0], ![2, 0, 1], by decide, by decide⟩
def e201 : Equiv.Perm (Fin 3) := ⟨![2, 0, 1], ![1, 2, 0], by decide, by decide⟩
/-- Exchanges. -/
def e210 : Equiv.Perm (Fin 3) := ⟨![2, 1, 0], ![2, 1, 0], by decide, by decide⟩
def e021 : Equiv.Perm (Fin 3) := ⟨![0, 2, 1], ![0, 2, 1], by decide, by decide⟩

/-- The axes `permute` gets for a permutation of the spins. -/
def axes (e : Equiv.Perm (Fin 3)) : List Nat := [e 0, e 1, e 2, 3 + e 0, 3 + e 1, 3 + e 2]

theorem permute_holds {T : Tensor ℂ} {O : Op3 ℂ p} (h : Holds T O) (e : Equiv.Perm (Fin 3)) :
    ∃ T', permute (axes e) T = some T' ∧ Holds T' (O.submatrix (fun t => t ∘ e.symm) (fun t => t ∘ e.symm)) := by
  have h6 : T.shape.length = 6 := by rw [h.1]; rfl
  have hp : (axes e).length = 6 ∧ (axes e).Nodup ∧ (∀ x ∈ axes e, x < 6) ∧ ∀ i : Fin 3, (axes e).idxOf (i : Nat) = e.symm i ∧ (axes e).idxOf (3 + (i : Nat)) = 3 + e.symm i := by
    revert e; decide +kernel
  obtain ⟨h1, h2, h3, h4⟩ := hp
  refine ⟨_, by rw [permute, if_pos ⟨by rw [h1, h6], h2, by rw [h6]; exact h3⟩], ?_, ?_⟩
  · simp only [h.1]
    refine Eq.trans (List.map_congr_left (g := fun _ => p) (fun x hx => ?_)) (by rw [List.map_const', h1]; rfl)
    have := h3 x hx
    have : x = 0 ∨ x = 1 ∨ x = 2 ∨ x = 3 ∨ x = 4 ∨ x = 5 := by omega
    rcases this with rfl | rfl | rfl | rfl | rfl | rfl <;> rfl
  · intro t s
    have := h.2 (t ∘ e.symm) (s ∘ e.symm)
    simp only [Matrix.submatrix_apply]
    rw [← this, h6]
    have ht : ∀ i : Fin 3, [(t 0 : Nat), t 1, t 2, s 0, s 1, s 2].getD (e.symm i) 0 = t (e.symm i) := by
      intro i; generalize e.symm i = j; fin_cases j <;> rfl
    have hs' : ∀ i : Fin 3, [(t 0 : Nat), t 1, t 2, s 0, s 1, s 2].getD (3 + e.symm i) 0 = s (e.symm i) := by
      intro i; generalize e.symm i = j; fin_cases j <;> rfl
    have k := fun i => (h4 i).1
    have k' := fun i => (h4 i).2
    have k0 := k 0; have k1 := k 1; have k2 := k 2; have k3 := k' 0; have k4 := k' 1; have k5 := k' 2
    simp only [Fin.isValue, Fin.val_zero, Fin.val_one, Fin.val_two, Nat.add_zero, Nat.reduceAdd] at k0 k1 k2 k3 k4 k5
    refine congrArg T.val ?_
    show List.map _ [0, 1, 2, 3, 4, 5] = _
    simp only [List.map_cons, List.map_nil, k0, k1, k2, k3, k4, k5, ht, hs', Function.comp]

theorem lin_holds_nil : Holds (Models.lin [p, p, p, p, p, p] []) (0 : Op3 ℂ p) := ⟨rfl, fun _ _ => by simp [Models.lin]⟩

theorem lin_holds_cons {z : ℂ} {T : Tensor ℂ} {l : List (ℂ × Tensor ℂ)} {A B : Op3 ℂ p} (h : Holds T A) (hl : Holds (Models.lin [p, p, p, p, p, p] l) B) :
    Holds (Models.lin [p, p, p, p, p, p] ((z, T) :: l)) (z • A + B) := by
  refine ⟨rfl, fun t s => ?_⟩
  have h1 := h.2 t s
  have h2 := hl.2 t s
  simp only [Models.lin, List.map_cons, List.sum_cons, Matrix.add_apply, Matrix.smul_apply, smul_eq_mul] at h2 ⊢
  rw [h1, h2]

theorem threeTurns_holds {T : Tensor ℂ} {O : Op3 ℂ p} (h : Holds T O) : ∃ T', threeTurns p T = some T' ∧
    Holds T' (O + O.submatrix (fun t => t ∘ e120.symm) (fun t => t ∘ e120.symm) + O.submatrix (fun t => t ∘ e201.symm) (fun t => t ∘ e201.symm)) := by
  obtain ⟨Y, eY, hY⟩ := permute_holds h e120
  obtain ⟨Z, eZ, hZ⟩ := permute_holds h e201
  rw [show axes e120 = [1, 2, 0, 4, 5, 3] by decide] at eY
  rw [show axes e201 = [2, 0, 1, 5, 3, 4] by decide] at eZ
  refine ⟨_, by simp only [threeTurns, eY, eZ, Option.bind_eq_bind, Option.bind_some]; rfl, ?_⟩
  have := lin_holds_cons (z := 1) h (lin_holds_cons (z := 1) hY (lin_holds_cons (z := 1) hZ lin_holds_nil))
  rw [one_smul, one_smul, one_smul, add_zero, ← add_assoc] at this
  exact this

/-! ### Operators on the first two spins -/

/-- An operator on the spins 0 and 1 with the entries `F`. -/
def pair01 (F : Fin p → Fin p → Fin p → Fin p → ℂ) : Op3 ℂ p := Matrix.of fun t s => if t 2 = s 2 then F (t 0) (t 1) (s 0) (s 1) else 0

/-- The labels of an index. -/
def at6 (t s : Spins p) : Nat → Nat := ([(t 0 : Nat), t 1, t 2, s 0, s 1, s 2].getD · 0)

theorem einsum6 (dim : Nat → Nat) (hd : ∀ l < 6, dim l = p) (ops : List (Tensor ℂ × List Nat)) (hs : ∀ q ∈ ops, q.1.shape = q.2.map dim)
    (ho : ∀ l ∈ [0, 1, 2, 3, 4, 5], l ∈ ops.flatMap Prod.snd) :
    ∃ T, einsum ops [0, 1, 2, 3, 4, 5] = some T ∧ T.shape = [p, p, p, p, p, p] ∧ ∀ t s : Spins p, T.val [t 0, t 1, t 2, s 0, s 1, s 2] =
      sumOver dim ((ops.flatMap Prod.snd).dedup.filter (fun l => l ∉ [0, 1, 2, 3, 4, 5])) (termOf ops) (at6 t s) := by
  obtain ⟨T, e, sh, v⟩ := einsum_ok dim ops [0, 1, 2, 3, 4, 5] hs (by decide) ho
  refine ⟨T, e, by rw [sh]; simp [hd], fun t s => ?_⟩
  exact v (at6 t s) (by
    intro l hl
    have : l = 0 ∨ l = 1 ∨ l = 2 ∨ l = 3 ∨ l = 4 ∨ l = 5 := by simpa using hl
    rcases this with rfl | rfl | rfl | rfl | rfl | rfl <;> rw [hd _ (by decide)] <;> exact Fin.isLt _)

theorem one_val (i j : Fin p) : (Models.opP p 1).val [(i : Nat), (j : Nat)] = if i = j then 1 else 0 := by
  simp [Models.opP, Matrix.one_apply, Fin.ext_iff]

theorem opP_val (O : Su2.Op p) (i j : Fin p) : (Models.opP p O).val [(i : Nat), (j : Nat)] = O i j := by
  simp [Models.opP]

theorem pairId_holds {x : Tensor ℂ} {F : Fin p → Fin p → Fin p → Fin p → ℂ} (sx : x.shape = [p, p, p, p])
    (vx : ∀ i j k l : Fin p, x.val [(i : Nat), (j : Nat), (k : Nat), (l : Nat)] = F i j k l) : ∃ T, pairId p x = some T ∧ Holds T (pair01 F) := by
  obtain ⟨T, e, s, v⟩ := einsum6 (fun _ => p) (fun _ _ => rfl) [(x, [0, 1, 3, 4]), (Models.opP p 1, [2, 5])] (by simp [sx, Models.opP]) (by simp)
  refine ⟨T, e, s, fun t u => ?_⟩
  rw [v]
  have hl : (([(x, [0, 1, 3, 4]), (Models.opP p 1, [2, 5])] : List (Tensor ℂ × List Nat)).flatMap Prod.snd).dedup.filter (fun l => l ∉ [0, 1, 2, 3, 4, 5]) = [] := by
    simp only [List.flatMap_cons, List.flatMap_nil]; decide
  rw [hl]
  simp only [sumOver, termOf, List.map_cons, List.map_nil, at6, List.getD_cons_zero, List.getD_cons_succ, List.prod_cons, List.prod_nil, mul_one, vx, one_val, pair01,
    Matrix.of_apply, mul_ite, mul_zero]

theorem siteId_holds (o : Su2.Op p) : ∃ T, siteId p o = some T ∧ Holds T (at' 0 o) := by
  obtain ⟨T, e, s, v⟩ := einsum6 (fun _ => p) (fun _ _ => rfl) [(Models.opP p o, [0, 3]), (Models.opP p 1, [1, 4]), (Models.opP p 1, [2, 5])] (by simp [Models.opP]) (by simp)
  refine ⟨T, e, s, fun t u => ?_⟩
  rw [v]
  have hl : (([(Models.opP p o, [0, 3]), (Models.opP p 1, [1, 4]), (Models.opP p 1, [2, 5])] : List (Tensor ℂ × List Nat)).flatMap Prod.snd).dedup.filter
      (fun l => l ∉ [0, 1, 2, 3, 4, 5]) = [] := by
    simp only [List.flatMap_cons, List.flatMap_nil]; decide
  rw [hl]
  simp only [sumOver, termOf, List.map_cons, List.map_nil, at6, List.getD_cons_zero, List.getD_cons_succ, List.prod_cons, List.prod_nil, mul_one, opP_val,
    at', tensor, Matrix.of_apply, Fin.prod_univ_three]
  simp [Function.update, mul_assoc]

theorem ssXyz_val (xyz : ℂ × ℂ × ℂ) (i j k l : Fin p) : (ssXyz p xyz).val [(i : Nat), (j : Nat), (k : Nat), (l : Nat)] = Su2.SS p xyz i j k l := by
  simp [ssXyz]

theorem at01 (A B : Su2.Op p) : at' 0 A * at' 1 B = pair01 (fun i j k l => A i k * B j l) := by
  unfold at'
  rw [tensor_mul]
  ext t s
  simp only [tensor, pair01, Matrix.of_apply, Fin.prod_univ_three]
  simp [Function.update, Matrix.one_apply]

theorem pair01_add (F G : Fin p → Fin p → Fin p → Fin p → ℂ) : pair01 F + pair01 G = pair01 (fun i j k l => F i j k l + G i j k l) := by
  ext t s; simp only [pair01, Matrix.add_apply, Matrix.of_apply]; split <;> simp

theorem pair01_smul (z : ℂ) (F : Fin p → Fin p → Fin p → Fin p → ℂ) : z • pair01 F = pair01 (fun i j k l => z * F i j k l) := by
  ext t s; simp only [pair01, Matrix.smul_apply, Matrix.of_apply, smul_eq_mul]; split <;> simp

theorem pair01_sub (F G : Fin p → Fin p → Fin p → Fin p → ℂ) : pair01 F - pair01 G = pair01 (fun i j k l => F i j k l - G i j k l) := by
  ext t s; simp only [pair01, Matrix.sub_apply, Matrix.of_apply]; split <;> simp

theorem pair01_mul (F G : Fin p → Fin p → Fin p → Fin p → ℂ) : pair01 F * pair01 G = pair01 (fun i j k l => ∑ a, ∑ b, F i j a b * G a b k l) := by
  ext t s
  simp only [pair01, Matrix.mul_apply, Matrix.of_apply]
  have := (Fintype.sum_equiv (Fin.consEquiv (fun _ : Fin 3 => Fin p)) (fun q => (if t 2 = q.2 1 then F (t 0) (t 1) q.1 (q.2 0) else 0) * if q.2 1 = s 2 then G q.1 (q.2 0) (s 0) (s 1) else 0)
    (fun u => (if t 2 = u 2 then F (t 0) (t 1) (u 0) (u 1) else 0) * if u 2 = s 2 then G (u 0) (u 1) (s 0) (s 1) else 0) (fun q => rfl)).symm
  rw [this, Fintype.sum_prod_type]
  have h2 : ∀ a : Fin p, ∑ q : Fin 2 → Fin p, ((if t 2 = q 1 then F (t 0) (t 1) a (q 0) else 0) * if q 1 = s 2 then G a (q 0) (s 0) (s 1) else 0) =
      ∑ b, ∑ c, ((if t 2 = c then F (t 0) (t 1) a b else 0) * if c = s 2 then G a b (s 0) (s 1) else 0) := by
    intro a
    rw [← Fintype.sum_prod_type']
    exact Fintype.sum_equiv (finTwoArrowEquiv (Fin p)) _ _ (fun q => rfl)
  rw [Finset.sum_congr rfl fun a _ => h2 a]
  have h3 : ∀ a b : Fin p, ∑ c, ((if t 2 = c then F (t 0) (t 1) a b else 0) * if c = s 2 then G a b (s 0) (s 1) else 0) =
      if t 2 = s 2 then F (t 0) (t 1) a b * G a b (s 0) (s 1) else 0 := by
    intro a b
    rw [Finset.sum_eq_single (t 2)]
    · simp
    · intro c _ hc; rw [if_neg (Ne.symm hc), zero_mul]
    · intro h; simp at h
  simp only [h3]
  split <;> simp

theorem dot01 : dot p 0 1 = pair01 (Su2.SS p (1, 1, 1)) := by
  unfold dot
  simp only [Fin.sum_univ_three, spins, at01, pair01_add]
  congr 1
  funext i j k l
  simp only [Su2.SS, Su2.Spec.Sx, Su2.Spec.Sy, Matrix.add_apply, Matrix.smul_apply, Matrix.sub_apply, smul_eq_mul]
  linear_combination ((1/4 : ℂ)) * (Su2.SP p i k - Su2.SM p i k) * (Su2.SP p j l - Su2.SM p j l) * Complex.I_mul_I

theorem ssJD_holds (m : Couplings) : (ssJD m).shape = [m.p, m.p, m.p, m.p] ∧ ∀ i j k l : Fin m.p,
    (ssJD m).val [(i : Nat), (j : Nat), (k : Nat), (l : Nat)] = Su2.SS m.p ((m.j1 : ℂ), m.j1 + Complex.I * m.JD, m.j1 - Complex.I * m.JD) i j k l := by
  unfold ssJD
  split
  · next h =>
    refine ⟨rfl, fun i j k l => ?_⟩
    simp only [Models.lin, List.map_cons, List.map_nil, List.sum_cons, List.sum_nil, ssXyz_val, h]
    simp only [Su2.SS]
    push_cast
    ring
  · exact ⟨rfl, fun i j k l => ssXyz_val _ i j k l⟩

theorem bond01 (m : Couplings) : (m.j1 : ℂ) • dot m.p 0 1 + (m.JD : ℂ) • cross m.p 0 1 2 =
    pair01 (Su2.SS m.p ((m.j1 : ℂ), m.j1 + Complex.I * m.JD, m.j1 - Complex.I * m.JD)) := by
  rw [dot01]
  unfold cross
  rw [show (2 + 1 : Fin 3) = 0 from rfl, show (2 + 2 : Fin 3) = 1 from rfl]
  simp only [spins, at01, pair01_sub, pair01_smul, pair01_add]
  congr 1
  funext i j k l
  simp only [Su2.SS, Su2.Spec.Sx, Su2.Spec.Sy, Matrix.add_apply, Matrix.smul_apply, Matrix.sub_apply, smul_eq_mul]
  ring

theorem ssnn_holds (m : Couplings) : ∃ T, ssnnId m = some T ∧ Holds T ((m.j1 : ℂ) • dot m.p 0 1 + (m.JD : ℂ) • cross m.p 0 1 2) := by
  rw [bond01]
  exact pairId_holds (ssJD_holds m).1 (ssJD_holds m).2

theorem ss2_holds (p : Nat) : ∃ S T, einsum [(ssXyz p (1, 1, 1), [0, 1, 4, 5]), (ssXyz p (1, 1, 1), [4, 5, 2, 3])] [0, 1, 2, 3] = some S ∧ pairId p S = some T ∧
    Holds T (dot p 0 1 * dot p 0 1) := by
  obtain ⟨S, e, s, v⟩ := einsum_ok (fun _ => p) [(ssXyz p (1, 1, 1), [0, 1, 4, 5]), (ssXyz p (1, 1, 1), [4, 5, 2, 3])] [0, 1, 2, 3] (by simp [ssXyz]) (by decide) (by simp)
  rw [dot01, pair01_mul]
  obtain ⟨T, eT, hT⟩ := pairId_holds (x := S) (F := fun i j k l => ∑ a, ∑ b, Su2.SS p (1, 1, 1) i j a b * Su2.SS p (1, 1, 1) a b k l) s (fun i j k l => by
    have := v ([(i : Nat), j, k, l].getD · 0) (by
      intro q hq
      have : q = 0 ∨ q = 1 ∨ q = 2 ∨ q = 3 := by simpa using hq
      rcases this with rfl | rfl | rfl | rfl <;> exact Fin.isLt _)
    refine Eq.trans this ?_
    have hl : (([(ssXyz p (1, 1, 1), [0, 1, 4, 5]), (ssXyz p (1, 1, 1), [4, 5, 2, 3])] : List (Tensor ℂ × List Nat)).flatMap Prod.snd).dedup.filter (fun l => l ∉ [0, 1, 2, 3]) = [4, 5] := by
      simp only [List.flatMap_cons, List.flatMap_nil]; decide
    rw [hl]
    simp only [sumOver, termOf, List.map_cons, List.map_nil, List.prod_cons, List.prod_nil, mul_one, Finset.sum_range]
    refine Finset.sum_congr rfl fun a _ => Finset.sum_congr rfl fun b _ => ?_
    rw [← ssXyz_val, ← ssXyz_val]
    simp [Function.update])
  exact ⟨S, T, e, eT, hT⟩

/-! ### Three spins -/

theorem svec_val (a : Fin 3) (i j : Fin p) : (svecT p).val [(a : Nat), (i : Nat), (j : Nat)] = Su2.Svec p a i j := by
  simp [svecT]

theorem svec_spins : Su2.Svec p 0 = spins p 2 ∧ Su2.Svec p 1 = spins p 0 ∧ Su2.Svec p 2 = spins p 1 := by
  refine ⟨rfl, ?_, ?_⟩
  · ext i j; simp [Su2.Svec, spins, Su2.Spec.Sx]
  · ext i j
    simp only [Su2.Svec, spins, Su2.Spec.Sy, Matrix.smul_apply, Matrix.sub_apply, Matrix.of_apply, smul_eq_mul]
    ring

theorem at012 (A B C : Su2.Op p) (t s : Spins p) : (at' 0 A * at' 1 B * at' 2 C) t s = A (t 0) (s 0) * B (t 1) (s 1) * C (t 2) (s 2) := by
  unfold at'
  rw [tensor_mul, tensor_mul]
  simp only [tensor, Matrix.of_apply, Fin.prod_univ_three]
  simp [Function.update]

theorem triple_holds (p : Nat) : ∃ T, tripleT p = some T ∧ Holds T (chirality p) := by
  obtain ⟨T, e, s, v⟩ := einsum6 (p := p) (fun l => if l < 6 then p else 3) (fun l hl => if_pos hl)
    [(levi, [6, 7, 8]), (svecT p, [7, 0, 3]), (svecT p, [8, 1, 4]), (svecT p, [6, 2, 5])] (by simp [levi, svecT]) (by simp)
  refine ⟨T, e, s, fun t u => ?_⟩
  rw [v]
  have hl : (([(levi, [6, 7, 8]), (svecT p, [7, 0, 3]), (svecT p, [8, 1, 4]), (svecT p, [6, 2, 5])] : List (Tensor ℂ × List Nat)).flatMap Prod.snd).dedup.filter
      (fun l => l ∉ [0, 1, 2, 3, 4, 5]) = [7, 8, 6] := by
    simp only [List.flatMap_cons, List.flatMap_nil]; decide
  rw [hl]
  have key : ∀ b c a : Fin 3, termOf ([(levi, [6, 7, 8]), (svecT p, [7, 0, 3]), (svecT p, [8, 1, 4]), (svecT p, [6, 2, 5])] : List (Tensor ℂ × List Nat))
      (Function.update (Function.update (Function.update (at6 t u) 7 b) 8 c) 6 a) =
      levi.val [(a : Nat), b, c] * (Su2.Svec p b (t 0) (u 0) * Su2.Svec p c (t 1) (u 1) * Su2.Svec p a (t 2) (u 2)) := by
    intro b c a
    rw [← svec_val, ← svec_val, ← svec_val]
    simp [termOf, Function.update, at6, mul_assoc]
  obtain ⟨z0, z1, z2⟩ := svec_spins (p := p)
  have hsum : sumOver (fun l => if l < 6 then p else 3) [7, 8, 6] (termOf ([(levi, [6, 7, 8]), (svecT p, [7, 0, 3]), (svecT p, [8, 1, 4]), (svecT p, [6, 2, 5])] : List (Tensor ℂ × List Nat)))
      (at6 t u) = ∑ b : Fin 3, ∑ c : Fin 3, ∑ a : Fin 3, levi.val [(a : Nat), b, c] * (Su2.Svec p b (t 0) (u 0) * Su2.Svec p c (t 1) (u 1) * Su2.Svec p a (t 2) (u 2)) := by
    simp only [sumOver]
    rw [show (if 7 < 6 then p else 3) = 3 from rfl, show (if 8 < 6 then p else 3) = 3 from rfl, show (if 6 < 6 then p else 3) = 3 from rfl]
    simp only [Finset.sum_range]
    exact Finset.sum_congr rfl fun b _ => Finset.sum_congr rfl fun c _ => Finset.sum_congr rfl fun a _ => key b c a
  rw [hsum]
  simp only [Fin.sum_univ_three, z0, z1, z2]
  simp only [chirality, Fin.sum_univ_three, cross, sub_mul, Matrix.add_apply, Matrix.sub_apply, at012]
  rw [show (0 + 1 : Fin 3) = 1 from rfl, show (0 + 2 : Fin 3) = 2 from rfl, show (1 + 1 : Fin 3) = 2 from rfl, show (1 + 2 : Fin 3) = 0 from rfl,
    show (2 + 1 : Fin 3) = 0 from rfl, show (2 + 2 : Fin 3) = 1 from rfl]
  simp [levi]
  ring

theorem perm_holds (p : Nat) : Holds (permT p) (cyclic p) := by
  refine ⟨rfl, fun t s => ?_⟩
  simp only [permT, cyclic, Matrix.of_apply, List.getD_cons_zero, List.getD_cons_succ]
  refine if_congr ?_ rfl rfl
  simp only [Fin.ext_iff]
  constructor <;> rintro ⟨a, b, c⟩ <;> exact ⟨a.symm, b.symm, c.symm⟩

theorem permInv_holds (p : Nat) : Holds (permInvT p) (cyclic p).conjTranspose := by
  refine ⟨rfl, fun t s => ?_⟩
  simp only [permInvT, cyclic, Matrix.conjTranspose_apply, Matrix.of_apply, List.getD_cons_zero, List.getD_cons_succ]
  rw [apply_ite star, star_one, star_zero]
  refine if_congr ?_ rfl rfl
  simp only [Fin.ext_iff]
  constructor
  · rintro ⟨a, b, c⟩; exact ⟨b, c, a⟩
  · rintro ⟨a, b, c⟩; exact ⟨c, a, b⟩

end Verif.KagomeRdm
