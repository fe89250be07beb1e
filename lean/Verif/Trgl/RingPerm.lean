import Verif.Trgl.RingHold
/-
Permutations of four spins, and the operators on the sites of a rhombus.
-/
namespace Verif.Trgl
open Tensor Ctm Rdm Models Spec
variable {n p : Nat}

theorem eta4 {α : Type} (t : Fin 4 → α) : ![t 0, t 1, t 2, t 3] = t := by funext i; fin_cases i <;> rfl

theorem Holds4.at {T : Tensor ℂ} {O : OpN 4 p} (h : Holds4 T O) (t s : Fin 4 → Fin p) : T.val [t 0, t 1, t 2, t 3, s 0, s 1, s 2, s 3] = O t s := by
  rw [h.2, eta4, eta4]

theorem Holds4.congr {T : Tensor ℂ} {O P : OpN 4 p} (h : Holds4 T O) (e : O = P) : Holds4 T P := e ▸ h

/-- The operator with the spins in another order: spin `i` of the result is spin `f i` of the operator. -/
def relabel (f : Equiv.Perm (Fin n)) (A : OpN n p) : OpN n p := A.submatrix (fun t => t ∘ f.symm) (fun t => t ∘ f.symm)

theorem relabel_mul (f : Equiv.Perm (Fin n)) (A B : OpN n p) : relabel f (A * B) = relabel f A * relabel f B := by
  let e : (Fin n → Fin p) ≃ (Fin n → Fin p) := ⟨fun t => t ∘ f.symm, fun t => t ∘ f, fun t => by funext x; simp, fun t => by funext x; simp⟩
  exact (Matrix.submatrix_mul_equiv A B e e e).symm

theorem trace_relabel (f : Equiv.Perm (Fin n)) (A : OpN n p) : Matrix.trace (relabel f A) = Matrix.trace A := by
  let e : (Fin n → Fin p) ≃ (Fin n → Fin p) := ⟨fun t => t ∘ f.symm, fun t => t ∘ f, fun t => by funext x; simp, fun t => by funext x; simp⟩
  exact Fintype.sum_equiv e _ _ fun t => rfl

theorem relabel_add (f : Equiv.Perm (Fin n)) (A B : OpN n p) : relabel f (A + B) = relabel f A + relabel f B := rfl
theorem relabel_sub (f : Equiv.Perm (Fin n)) (A B : OpN n p) : relabel f (A - B) = relabel f A - relabel f B := rfl
theorem relabel_transpose (f : Equiv.Perm (Fin n)) (A : OpN n p) : relabel f A.transpose = (relabel f A).transpose := rfl

theorem relabel_sum {ι : Type} (f : Equiv.Perm (Fin n)) (s : Finset ι) (A : ι → OpN n p) : relabel f (∑ i ∈ s, A i) = ∑ i ∈ s, relabel f (A i) := by
  ext t u
  simp [relabel, Matrix.sum_apply]

theorem relabel_prod (f : Equiv.Perm (Fin n)) (A : Fin n → Su2.Op p) : relabel f (prod A) = prod (A ∘ f) := by
  ext t s
  simp only [relabel, prod, Matrix.submatrix_apply, Matrix.of_apply, Function.comp]
  exact (Fintype.prod_equiv f _ _ fun x => by simp).symm

theorem relabel_on (f : Equiv.Perm (Fin n)) (x : Fin n) (A : Su2.Op p) : relabel f (Trgl.Spec.on x A) = Trgl.Spec.on (f.symm x) A := by
  unfold Trgl.Spec.on
  rw [relabel_prod]
  congr 1
  funext y
  by_cases h : f y = x
  · subst h; simp
  · have : y ≠ f.symm x := fun e => h (by simp [e])
    simp [Function.update, h, this]

theorem relabel_dot (f : Equiv.Perm (Fin n)) (x y : Fin n) : relabel f (dot n p x y) = dot n p (f.symm x) (f.symm y) := by
  simp only [Trgl.Spec.dot, relabel_sum, relabel_mul, relabel_on]

theorem relabel_triple (f : Equiv.Perm (Fin n)) (x y z : Fin n) : relabel f (triple n p x y z) = triple n p (f.symm x) (f.symm y) (f.symm z) := by
  simp only [triple, relabel_sum, relabel_mul, relabel_sub, relabel_on]

/-- The axes `permute` gets for a permutation of four spins. -/
def axes4 (e : Equiv.Perm (Fin 4)) : List Nat := [e 0, e 1, e 2, e 3, 4 + e 0, 4 + e 1, 4 + e 2, 4 + e 3]

theorem permute_holds4 {T : Tensor ℂ} {O : OpN 4 p} (h : Holds4 T O) (e : Equiv.Perm (Fin 4)) : ∃ T', permute (axes4 e) T = some T' ∧ Holds4 T' (relabel e O) := by
  have h6 : T.shape.length = 8 := by rw [h.1]; rfl
  have hp : (axes4 e).length = 8 ∧ (axes4 e).Nodup ∧ (∀ x ∈ axes4 e, x < 8) ∧ ∀ i : Fin 4, (axes4 e).idxOf (i : Nat) = e.symm i ∧ (axes4 e).idxOf (4 + (i : Nat)) = 4 + e.symm i := by
    revert e; decide +kernel
  obtain ⟨h1, h2, h3, h4⟩ := hp
  refine ⟨_, by rw [permute, if_pos ⟨by rw [h1, h6], h2, by rw [h6]; exact h3⟩], ?_, ?_⟩
  · simp only [h.1]
    refine Eq.trans (List.map_congr_left (g := fun _ => p) (fun x hx => ?_)) (by rw [List.map_const', h1]; rfl)
    have := h3 x hx
    have : x = 0 ∨ x = 1 ∨ x = 2 ∨ x = 3 ∨ x = 4 ∨ x = 5 ∨ x = 6 ∨ x = 7 := by omega
    rcases this with rfl | rfl | rfl | rfl | rfl | rfl | rfl | rfl <;> rfl
  · intro i j k l a b c d
    obtain ⟨t, ht0⟩ : ∃ t : Fin 4 → Fin p, t = ![i, j, k, l] := ⟨_, rfl⟩
    obtain ⟨s, hs0⟩ : ∃ t : Fin 4 → Fin p, t = ![a, b, c, d] := ⟨_, rfl⟩
    have := h.at (t ∘ e.symm) (s ∘ e.symm)
    rw [← ht0, ← hs0]
    show _ = O (t ∘ e.symm) (s ∘ e.symm)
    rw [← this, h6]
    have ht : ∀ x : Fin 4, [(i : Nat), j, k, l, a, b, c, d].getD (e.symm x) 0 = t (e.symm x) := by
      intro x; rw [ht0]; generalize e.symm x = y; fin_cases y <;> rfl
    have hs' : ∀ x : Fin 4, [(i : Nat), j, k, l, a, b, c, d].getD (4 + e.symm x) 0 = s (e.symm x) := by
      intro x; rw [hs0]; generalize e.symm x = y; fin_cases y <;> rfl
    have k0 := (h4 0).1; have k1 := (h4 1).1; have k2 := (h4 2).1; have k3 := (h4 3).1
    have k4 := (h4 0).2; have k5 := (h4 1).2; have k6 := (h4 2).2; have k7 := (h4 3).2
    simp only [Fin.val_zero, Fin.val_one, Fin.val_two, show ((3 : Fin 4) : Nat) = 3 from rfl] at k0 k1 k2 k3 k4 k5 k6 k7
    rw [show List.range 8 = [0, 1, 2, 3, 4 + 0, 4 + 1, 4 + 2, 4 + 3] from rfl]
    simp only [List.map_cons, List.map_nil, k0, k1, k2, k3, k4, k5, k6, k7, ht, hs', Function.comp]

theorem lin4_nil : Holds4 (lin (List.replicate 8 p) []) (0 : OpN 4 p) := ⟨rfl, fun _ _ _ _ _ _ _ _ => by simp [lin]⟩

theorem lin4_cons {z : ℂ} {T : Tensor ℂ} {l : List (ℂ × Tensor ℂ)} {A B : OpN 4 p} (h : Holds4 T A) (hl : Holds4 (lin (List.replicate 8 p) l) B) :
    Holds4 (lin (List.replicate 8 p) ((z, T) :: l)) (z • A + B) := by
  refine ⟨rfl, fun i j k l a b c d => ?_⟩
  have h1 := h.2 i j k l a b c d
  have h2 := hl.2 i j k l a b c d
  simp only [lin, List.map_cons, List.sum_cons, Matrix.add_apply, Matrix.smul_apply, smul_eq_mul] at h2 ⊢
  rw [h1, h2]

/-! ### The operators on the sites of a rhombus -/

theorem dot4_01 (i j k l a b c d : Fin p) : dot 4 p 0 1 ![i, j, k, l] ![a, b, c, d] = if k = c ∧ l = d then Su2.SS p (1, 1, 1) i j a b else 0 := by
  rw [ss_sum, Trgl.Spec.dot, Matrix.sum_apply]
  have : ∀ e, (Trgl.Spec.on 0 (Trgl.Spec.spin p e) * Trgl.Spec.on 1 (Trgl.Spec.spin p e) : OpN 4 p) ![i, j, k, l] ![a, b, c, d] =
      if k = c ∧ l = d then Trgl.Spec.spin p e i a * Trgl.Spec.spin p e j b else 0 := by
    intro e
    unfold Trgl.Spec.on
    rw [prod_mul, prod, Matrix.of_apply, Fin.prod_univ_four]
    simp [Function.update, Matrix.one_apply, ite_and]
    split <;> split <;> simp
  simp only [this]
  split <;> simp

theorem ssss_apply (i j k l a b c d : Fin p) : (dot 4 p 0 1 * dot 4 p 2 3) ![i, j, k, l] ![a, b, c, d] = Su2.SS p (1, 1, 1) i j a b * Su2.SS p (1, 1, 1) k l c d := by
  rw [ss_sum, ss_sum, Trgl.Spec.dot, Trgl.Spec.dot, Finset.sum_mul_sum, Finset.sum_mul_sum, Matrix.sum_apply]
  refine Finset.sum_congr rfl fun e _ => ?_
  rw [Matrix.sum_apply]
  refine Finset.sum_congr rfl fun f _ => ?_
  unfold Trgl.Spec.on
  rw [prod_mul, prod_mul, prod_mul, prod, Matrix.of_apply, Fin.prod_univ_four]
  simp [Function.update]
  ring

theorem pair_holds (p : Nat) : ∃ T, pairOpP p (ssP p) = some T ∧ Holds4 T (dot 4 p 0 1) := by
  obtain ⟨I, eI, sI, vI⟩ := idP_val p
  obtain ⟨T, e, s, v⟩ := einsum_ok (fun _ => p) [(ssP p, [0, 1, 4, 5]), (I, [2, 3, 6, 7])] [0, 1, 2, 3, 4, 5, 6, 7] (by simp [ssP, sI]) (by decide) (by simp)
  refine ⟨T, by simp only [pairOpP, eI, Option.bind_eq_bind, Option.bind_some, e], s, fun i j k l a b c d => ?_⟩
  have h := v ([(i : Nat), j, k, l, a, b, c, d].getD · 0) (in8' i j k l a b c d)
  rw [show ((([(ssP p, [0, 1, 4, 5]), (I, [2, 3, 6, 7])] : List (Tensor ℂ × List Nat)).flatMap Prod.snd).dedup.filter (fun l => l ∉ [0, 1, 2, 3, 4, 5, 6, 7])) = [] from rfl] at h
  refine Eq.trans h ?_
  rw [dot4_01, ← ssP_val]
  have := vI k l c d k.2 l.2 c.2 d.2
  simp [sumOver, termOf, this, Fin.ext_iff]

theorem ssss_holds (p : Nat) : ∃ T, ssss p = some T ∧ Holds4 T (dot 4 p 0 1 * dot 4 p 2 3) := by
  obtain ⟨T, e, s, v⟩ := einsum_ok (fun _ => p) [(ssP p, [0, 1, 4, 5]), (ssP p, [2, 3, 6, 7])] [0, 1, 2, 3, 4, 5, 6, 7] (by simp [ssP]) (by decide) (by simp)
  refine ⟨T, e, s, fun i j k l a b c d => ?_⟩
  have h := v ([(i : Nat), j, k, l, a, b, c, d].getD · 0) (in8' i j k l a b c d)
  rw [show ((([(ssP p, [0, 1, 4, 5]), (ssP p, [2, 3, 6, 7])] : List (Tensor ℂ × List Nat)).flatMap Prod.snd).dedup.filter (fun l => l ∉ [0, 1, 2, 3, 4, 5, 6, 7])) = [] from rfl] at h
  refine Eq.trans h ?_
  rw [ssss_apply, ← ssP_val, ← ssP_val]
  simp [sumOver, termOf]

def f0321 : Equiv.Perm (Fin 4) := ⟨![0, 3, 2, 1], ![0, 3, 2, 1], by decide, by decide⟩
def f0213 : Equiv.Perm (Fin 4) := ⟨![0, 2, 1, 3], ![0, 2, 1, 3], by decide, by decide⟩
def f2301 : Equiv.Perm (Fin 4) := ⟨![2, 3, 0, 1], ![2, 3, 0, 1], by decide, by decide⟩
def f2013 : Equiv.Perm (Fin 4) := ⟨![2, 0, 1, 3], ![1, 2, 0, 3], by decide, by decide⟩
def f2310 : Equiv.Perm (Fin 4) := ⟨![2, 3, 1, 0], ![3, 2, 0, 1], by decide, by decide⟩
def f1320 : Equiv.Perm (Fin 4) := ⟨![1, 3, 2, 0], ![3, 0, 2, 1], by decide, by decide⟩
def f0132 : Equiv.Perm (Fin 4) := ⟨![0, 1, 3, 2], ![0, 1, 3, 2], by decide, by decide⟩

/-- The four sides of a rhombus with the vertices `i j k l` around it. -/
noncomputable def Spec.sides (p : Nat) (i j k l : Fin 4) : OpN 4 p := dot 4 p i j + dot 4 p j k + dot 4 p k l + dot 4 p l i

/-- The interaction of the four spins of a rhombus with the vertices `i j k l` around it. -/
noncomputable def Spec.ring (p : Nat) (i j k l : Fin 4) : OpN 4 p := dot 4 p i j * dot 4 p k l + dot 4 p i l * dot 4 p j k - dot 4 p i k * dot 4 p j l

theorem hSides_holds (p : Nat) : ∃ T, hSides p = some T ∧ Holds4 T (Spec.sides p 0 1 2 3) := by
  obtain ⟨X, eX, hX⟩ := pair_holds p
  obtain ⟨Y, eY, hY⟩ := permute_holds4 hX f0321
  obtain ⟨Z, eZ, hZ⟩ := permute_holds4 hX f2301
  obtain ⟨W, eW, hW⟩ := permute_holds4 hX f2013
  rw [show axes4 f0321 = [0, 3, 2, 1, 4, 7, 6, 5] by decide] at eY
  rw [show axes4 f2301 = [2, 3, 0, 1, 6, 7, 4, 5] by decide] at eZ
  rw [show axes4 f2013 = [2, 0, 1, 3, 6, 4, 5, 7] by decide] at eW
  refine ⟨_, by simp only [hSides, eX, eY, eZ, eW, Option.bind_eq_bind, Option.bind_some]; rfl, ?_⟩
  refine (lin4_cons (z := 1) hX (lin4_cons (z := 1) hY (lin4_cons (z := 1) hZ (lin4_cons (z := 1) hW lin4_nil)))).congr ?_
  simp only [relabel_dot, one_smul, add_zero, Spec.sides]
  rw [dot_comm 3 0]
  show dot 4 p 0 1 + (dot 4 p 0 3 + (dot 4 p 2 3 + dot 4 p 1 2)) = _
  abel

theorem hRing_holds (p : Nat) : ∃ T, hRing p = some T ∧ Holds4 T (Spec.ring p 0 1 2 3) := by
  obtain ⟨X, eX, hX⟩ := ssss_holds p
  obtain ⟨Y, eY, hY⟩ := permute_holds4 hX f0321
  obtain ⟨Z, eZ, hZ⟩ := permute_holds4 hX f0213
  rw [show axes4 f0321 = [0, 3, 2, 1, 4, 7, 6, 5] by decide] at eY
  rw [show axes4 f0213 = [0, 2, 1, 3, 4, 6, 5, 7] by decide] at eZ
  refine ⟨_, by simp only [hRing, eX, eY, eZ, Option.bind_eq_bind, Option.bind_some]; rfl, ?_⟩
  refine (lin4_cons (z := 1) hX (lin4_cons (z := 1) hY (lin4_cons (z := -1) hZ lin4_nil))).congr ?_
  simp only [relabel_mul, relabel_dot, one_smul, add_zero, neg_smul, Spec.ring]
  rw [dot_comm 1 2]
  show dot 4 p 0 1 * dot 4 p 2 3 + (dot 4 p 0 3 * dot 4 p 2 1 + -(dot 4 p 0 2 * dot 4 p 1 3)) = _
  abel

/-! ### Three of the four spins -/

theorem on3 (A B C : Su2.Op p) (t s : Fin 4 → Fin p) :
    (Trgl.Spec.on 0 A * Trgl.Spec.on 1 B * Trgl.Spec.on 3 C : OpN 4 p) t s = (if t 2 = s 2 then A (t 0) (s 0) * B (t 1) (s 1) * C (t 3) (s 3) else 0) ∧
    (Trgl.Spec.on 1 A * Trgl.Spec.on 2 B * Trgl.Spec.on 3 C : OpN 4 p) t s = (if t 0 = s 0 then A (t 1) (s 1) * B (t 2) (s 2) * C (t 3) (s 3) else 0) ∧
    (Trgl.Spec.on 0 A * Trgl.Spec.on 3 B * Trgl.Spec.on 1 C : OpN 4 p) t s = (if t 2 = s 2 then A (t 0) (s 0) * B (t 3) (s 3) * C (t 1) (s 1) else 0) ∧
    (Trgl.Spec.on 1 A * Trgl.Spec.on 3 B * Trgl.Spec.on 2 C : OpN 4 p) t s = (if t 0 = s 0 then A (t 1) (s 1) * B (t 3) (s 3) * C (t 2) (s 2) else 0) := by
  unfold Trgl.Spec.on
  simp only [prod_mul]
  simp only [prod, Matrix.of_apply, Fin.prod_univ_four]
  refine ⟨?_, ?_, ?_, ?_⟩ <;>
  · simp [Function.update, Matrix.one_apply]
    try (split <;> ring)

theorem on3' (A B C : Su2.Op p) (t s : Fin 3 → Fin p) : (Trgl.Spec.on 0 A * Trgl.Spec.on 1 B * Trgl.Spec.on 2 C : OpN 3 p) t s = A (t 0) (s 0) * B (t 1) (s 1) * C (t 2) (s 2) := by
  unfold Trgl.Spec.on
  simp only [prod_mul]
  simp only [prod, Matrix.of_apply, Fin.prod_univ_three]
  simp [Function.update]

theorem triple4 (t s : Fin 4 → Fin p) :
    triple 4 p 0 1 3 t s = (if t 2 = s 2 then triple 3 p 0 1 2 ![t 0, t 1, t 3] ![s 0, s 1, s 3] else 0) ∧
    triple 4 p 1 2 3 t s = (if t 0 = s 0 then triple 3 p 0 1 2 ![t 1, t 2, t 3] ![s 1, s 2, s 3] else 0) ∧
    triple 4 p 0 3 1 t s = (if t 2 = s 2 then triple 3 p 0 1 2 ![t 0, t 3, t 1] ![s 0, s 3, s 1] else 0) ∧
    triple 4 p 1 3 2 t s = (if t 0 = s 0 then triple 3 p 0 1 2 ![t 1, t 3, t 2] ![s 1, s 3, s 2] else 0) := by
  have k := fun A B C => on3 A B C t s
  refine ⟨?_, ?_, ?_, ?_⟩ <;>
  · simp only [triple, mul_sub, ← mul_assoc, Matrix.sum_apply, Matrix.sub_apply, (k _ _ _).1, (k _ _ _).2.1, (k _ _ _).2.2.1, (k _ _ _).2.2.2, on3']
    split <;> simp

end Verif.Trgl
