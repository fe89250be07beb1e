import Verif.Trgl.Spec
/-
The rotations of the spins: they are unitary, and turning all spins alike changes neither scalar nor triple products.
-/
namespace Verif.Trgl
open Tensor Ctm Spec
variable {n p : Nat}

theorem prod_mul (A B : Fin n → Su2.Op p) : prod A * prod B = prod (fun x => A x * B x) := by
  ext t s
  simp only [prod, Matrix.mul_apply, Matrix.of_apply, Finset.prod_univ_sum, Fintype.piFinset_univ, Finset.prod_mul_distrib]

theorem prod_conj (A : Fin n → Su2.Op p) : (prod A).conjTranspose = prod (fun x => (A x).conjTranspose) := by
  ext t s
  simp [prod, Matrix.conjTranspose_apply, star_prod]

theorem prod_transpose (A : Fin n → Su2.Op p) : (prod A).transpose = prod (fun x => (A x).transpose) := by
  ext t s
  simp [prod, Matrix.transpose_apply]

theorem prod_one : prod (fun _ => (1 : Su2.Op p)) = (1 : OpN n p) := by
  ext t s
  simp only [prod, Matrix.of_apply, Matrix.one_apply]
  by_cases h : t = s
  · simp [h]
  · rw [if_neg h]
    obtain ⟨x, hx⟩ := Function.ne_iff.1 h
    exact Finset.prod_eq_zero (Finset.mem_univ x) (if_neg hx)

theorem on_apply (x : Fin n) (A : Su2.Op p) (t s : Fin n → Fin p) : on x A t s = A (t x) (s x) * ∏ y ∈ Finset.univ.erase x, (1 : Su2.Op p) (t y) (s y) := by
  unfold on prod
  rw [Matrix.of_apply, ← Finset.mul_prod_erase _ _ (Finset.mem_univ x), Function.update_self]
  congr 1
  exact Finset.prod_congr rfl fun y hy => by rw [Function.update_of_ne (Finset.ne_of_mem_erase hy)]

theorem on_add (x : Fin n) (A B : Su2.Op p) : on x (A + B) = on x A + on x B := by
  ext t s; simp only [Matrix.add_apply, on_apply]; ring

theorem on_smul (x : Fin n) (z : ℂ) (A : Su2.Op p) : on x (z • A) = z • on x A := by
  ext t s; simp only [Matrix.smul_apply, smul_eq_mul, on_apply]; ring

theorem on_sub (x : Fin n) (A B : Su2.Op p) : on x (A - B) = on x A - on x B := by
  ext t s; simp only [Matrix.sub_apply, on_apply]; ring

theorem on_one (x : Fin n) : on x (1 : Su2.Op p) = 1 := by
  unfold on
  rw [show Function.update (fun _ => (1 : Su2.Op p)) x 1 = fun _ => 1 from Function.update_eq_self x _, prod_one]

theorem on_mul (x : Fin n) (A B : Su2.Op p) : on x (A * B) = on x A * on x B := by
  unfold on
  rw [prod_mul]
  congr 1
  funext y
  by_cases h : y = x
  · subst h; simp
  · simp [h]

/-- An operator acts on its spin as a ring homomorphism. -/
noncomputable def onHom (x : Fin n) : Su2.Op p →+* OpN n p where
  toFun := on x
  map_one' := on_one x
  map_mul' := on_mul x
  map_zero' := by ext t s; simp [on_apply]
  map_add' := on_add x

theorem onHom_continuous (x : Fin n) : Continuous (onHom (p := p) x) := by
  refine continuous_matrix fun t s => ?_
  show Continuous fun A => on x A t s
  simp only [on_apply]
  exact (continuous_id.matrix_elem _ _).mul continuous_const

theorem on_exp (x : Fin n) (A : Su2.Op p) : on x (NormedSpace.exp A) = NormedSpace.exp (on x A) := by
  letI : NormedRing (Su2.Op p) := Matrix.linftyOpNormedRing
  letI : NormedAlgebra ℂ (Su2.Op p) := Matrix.linftyOpNormedAlgebra
  letI : NormedRing (OpN n p) := Matrix.linftyOpNormedRing
  letI : NormedAlgebra ℂ (OpN n p) := Matrix.linftyOpNormedAlgebra
  letI : NormedAlgebra ℚ (Su2.Op p) := NormedAlgebra.restrictScalars ℚ ℂ _
  exact NormedSpace.map_exp (onHom x) (onHom_continuous x) A

theorem on_comm {x y : Fin n} (h : x ≠ y) (A B : Su2.Op p) : Commute (on x A) (on y B) := by
  show on x A * on y B = on y B * on x A
  unfold on
  rw [prod_mul, prod_mul]
  congr 1
  funext z
  by_cases hx : z = x
  · subst hx; simp [h]
  · by_cases hy : z = y
    · subst hy; simp [hx]
    · simp [hx, hy]

/-- The sum of an operator over the spins. -/
noncomputable def total (n : Nat) (A : Su2.Op p) : OpN n p := ∑ x, on x A

theorem exp_total (A : Su2.Op p) : NormedSpace.exp (total n A) = prod (fun _ => NormedSpace.exp A) := by
  unfold total
  have hc : Set.Pairwise ((Finset.univ : Finset (Fin n)) : Set (Fin n)) (Function.onFun Commute fun x => on x A) := fun x _ y _ hxy => on_comm hxy A A
  rw [Matrix.exp_sum_of_commute _ _ hc]
  have key : ∀ (s : Finset (Fin n)) (hs : Set.Pairwise (s : Set (Fin n)) (Function.onFun Commute fun x => NormedSpace.exp (on x A))),
      s.noncommProd (fun x => NormedSpace.exp (on x A)) hs = prod (fun x => if x ∈ s then NormedSpace.exp A else 1) := by
    intro s
    induction s using Finset.induction_on with
    | empty => intro hs; simp [prod_one]
    | insert a s ha ih =>
      intro hs
      rw [Finset.noncommProd_insert_of_notMem _ _ _ _ ha, ih, ← on_exp, on, prod_mul]
      congr 1
      funext x
      by_cases hx : x = a
      · subst hx; simp [ha]
      · simp [hx]
  exact (key _ _).trans (by simp)

/-! ### One spin -/

theorem sy_conj (p : Nat) : (Su2.Spec.Sy p).conjTranspose = Su2.Spec.Sy p := by
  simp only [Su2.Spec.Sy, Matrix.conjTranspose_smul, Matrix.conjTranspose_sub, Su2.SP_conj, Su2.SM_conj]
  ext i j
  simp only [Matrix.smul_apply, Matrix.sub_apply, smul_eq_mul]
  simp
  ring

theorem sy_transpose (p : Nat) : (Su2.Spec.Sy p).transpose = -Su2.Spec.Sy p := by
  simp only [Su2.Spec.Sy, Matrix.transpose_smul, Matrix.transpose_sub, Su2.SM_eq_transpose, Matrix.transpose_transpose]
  ext i j
  simp only [Matrix.smul_apply, Matrix.sub_apply, Matrix.neg_apply, smul_eq_mul]
  ring

theorem turn_conj (φ : ℝ) : (turn p φ).conjTranspose = turn p (-φ) := by
  unfold turn
  rw [← Matrix.exp_conjTranspose, Matrix.conjTranspose_smul, sy_conj]
  congr 2
  simp

theorem turn_transpose (φ : ℝ) : (turn p φ).transpose = turn p (-φ) := by
  unfold turn
  rw [← Matrix.exp_transpose, Matrix.transpose_smul, sy_transpose]
  congr 1
  rw [smul_neg, ← neg_smul]
  congr 1
  push_cast
  ring

theorem turn_add (φ ψ : ℝ) : turn p (φ + ψ) = turn p φ * turn p ψ := by
  unfold turn
  rw [← Matrix.exp_add_of_commute _ _ ((Commute.refl _).smul_left _ |>.smul_right _), ← add_smul]
  congr 2
  push_cast
  ring

theorem turn_zero : turn p 0 = 1 := by simp [turn]

/-- Turning all spins by the same angle. -/
theorem turn_all (φ : ℝ) : prod (fun _ : Fin n => turn p φ) = NormedSpace.exp ((-(φ : ℂ) * Complex.I) • total n (Su2.Spec.Sy p)) := by
  unfold turn
  rw [← exp_total]
  congr 1
  simp only [total, on_smul, Finset.smul_sum]

/-! ### Products of spins -/

/-- `[S^y, .]` of the components of a spin. -/
theorem sy_comm (p : Nat) : (Su2.Spec.Sy p * spin p 0 - spin p 0 * Su2.Spec.Sy p = -Complex.I • spin p 2) ∧
    (Su2.Spec.Sy p * spin p 1 - spin p 1 * Su2.Spec.Sy p = 0) ∧ (Su2.Spec.Sy p * spin p 2 - spin p 2 * Su2.Spec.Sy p = Complex.I • spin p 0) := by
  have h1 := Su2.SZ_SP p
  have h2 := Su2.SZ_SM p
  have h3 := Su2.SP_SM p
  refine ⟨?_, by simp [spin], ?_⟩
  · simp only [spin, Su2.Spec.Sy, Su2.Spec.Sx, smul_mul_assoc, mul_smul_comm, sub_mul, mul_sub, add_mul, mul_add, h3]
    match_scalars <;> ring_nf
  · simp only [spin, Su2.Spec.Sy, Su2.Spec.Sx, smul_mul_assoc, mul_smul_comm, sub_mul, mul_sub, h1, h2]
    match_scalars <;> ring_nf

/-- The commutator with the total `S^y`. -/
noncomputable def ad (n : Nat) (O : OpN n p) : OpN n p := total n (Su2.Spec.Sy p) * O - O * total n (Su2.Spec.Sy p)

theorem ad_on (x : Fin n) (A : Su2.Op p) : ad n (on x A) = on x (Su2.Spec.Sy p * A - A * Su2.Spec.Sy p) := by
  unfold ad total
  rw [Finset.sum_mul, Finset.mul_sum, ← Finset.sum_sub_distrib, Finset.sum_eq_single x]
  · rw [on_sub, on_mul, on_mul]
  · intro y _ hy
    rw [(on_comm hy (Su2.Spec.Sy p) A).eq, sub_self]
  · intro h; exact absurd (Finset.mem_univ x) h

theorem ad_mul (A B : OpN n p) : ad n (A * B) = ad n A * B + A * ad n B := by
  unfold ad; noncomm_ring

theorem ad_add (A B : OpN n p) : ad n (A + B) = ad n A + ad n B := by
  unfold ad; noncomm_ring

theorem ad_sub (A B : OpN n p) : ad n (A - B) = ad n A - ad n B := by
  unfold ad; noncomm_ring

theorem ad_spin (x : Fin n) : ad n (on x (spin p 0)) = -Complex.I • on x (spin p 2) ∧ ad n (on x (spin p 1)) = 0 ∧ ad n (on x (spin p 2)) = Complex.I • on x (spin p 0) := by
  obtain ⟨h0, h1, h2⟩ := sy_comm p
  simp only [ad_on, h0, h1, h2, on_smul]
  exact ⟨trivial, (onHom x).map_zero, trivial⟩

theorem ad_dot (x y : Fin n) : ad n (dot n p x y) = 0 := by
  obtain ⟨a0, a1, a2⟩ := ad_spin (p := p) x
  obtain ⟨b0, b1, b2⟩ := ad_spin (p := p) y
  simp only [dot, Fin.sum_univ_three, ad_add, ad_mul, a0, a1, a2, b0, b1, b2, smul_mul_assoc, mul_smul_comm, zero_mul, mul_zero]
  module

theorem ad_triple (x y z : Fin n) : ad n (triple n p x y z) = 0 := by
  obtain ⟨a0, a1, a2⟩ := ad_spin (p := p) x
  obtain ⟨b0, b1, b2⟩ := ad_spin (p := p) y
  obtain ⟨c0, c1, c2⟩ := ad_spin (p := p) z
  simp only [triple, Fin.sum_univ_three]
  rw [show (0 + 1 : Fin 3) = 1 from rfl, show (0 + 2 : Fin 3) = 2 from rfl, show (1 + 1 : Fin 3) = 2 from rfl, show (1 + 2 : Fin 3) = 0 from rfl,
    show (2 + 1 : Fin 3) = 0 from rfl, show (2 + 2 : Fin 3) = 1 from rfl]
  simp only [ad_add, ad_sub, ad_mul, a0, a1, a2, b0, b1, b2, c0, c1, c2, smul_mul_assoc, mul_smul_comm, zero_mul, mul_zero, mul_sub, mul_add]
  module

/-- An operator that commutes with the total `S^y` is not changed if all spins are turned alike. -/
theorem turn_all_comm {O : OpN n p} (h : ad n O = 0) (φ : ℝ) : Commute (prod (fun _ : Fin n => turn p φ)) O := by
  rw [turn_all]
  refine Commute.exp_left (Commute.smul_left ?_ _)
  exact sub_eq_zero.1 h

/-- The position of the origin does not matter. -/
theorem expect_shift {O : OpN n p} (h : ad n O = 0) (q : ℝ × ℝ) (c : Coord) (r : Fin n → Coord) (R : Tensor ℂ) :
    expect q (fun i => (c.1 + (r i).1, c.2 + (r i).2)) R O = expect q r R O := by
  have e : spiral p q (fun i => (c.1 + (r i).1, c.2 + (r i).2)) = prod (fun _ : Fin n => turn p (2 * Real.pi * (q.1 * c.1 + q.2 * c.2))) * spiral p q r := by
    unfold spiral
    rw [prod_mul]
    congr 1
    funext i
    rw [← turn_add]
    congr 1
    push_cast
    ring
  unfold expect
  rw [e]
  obtain ⟨A, hA⟩ : ∃ A, A = prod (fun _ : Fin n => turn p (2 * Real.pi * (q.1 * c.1 + q.2 * c.2))) := ⟨_, rfl⟩
  have hu : A.conjTranspose * A = 1 := by
    rw [hA, prod_conj, prod_mul, ← prod_one]
    congr 1
    funext i
    rw [turn_conj, ← turn_add, neg_add_cancel, turn_zero]
  have hc : A * O = O * A := by rw [hA]; exact turn_all_comm h _
  rw [← hA, Matrix.conjTranspose_mul]
  calc _ = Matrix.trace (A * (spiral p q r * dens n p R * (spiral p q r).conjTranspose * A.conjTranspose * O)) := by simp only [Matrix.mul_assoc]
    _ = Matrix.trace (spiral p q r * dens n p R * (spiral p q r).conjTranspose * (A.conjTranspose * (O * A))) := by
      rw [Matrix.trace_mul_comm]; simp only [Matrix.mul_assoc]
    _ = _ := by rw [← hc, ← Matrix.mul_assoc A.conjTranspose, hu, Matrix.one_mul]

end Verif.Trgl
