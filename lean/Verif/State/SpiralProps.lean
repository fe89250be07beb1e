import Verif.State.SpiralModel
import Verif.Group.Su2Props
/-
C145: the state generated by `gen_3site` is a spiral.
-/
namespace Verif.Spiral
open Verif.Su2 Matrix
open Verif.Lattice (Vertex)
variable {m : Nat} {ι : Type}

/-- Specification: acting with a matrix on the physical index. -/
def Spec.act (R : Matrix (Fin m) (Fin m) ℂ) (A : Site m ι) : Site m ι := fun s i => ∑ p, R s p * A p i

/-- Specification: the spin rotation about the y axis by an angle, `exp(i θ S^y)` with `S^y = (S^+ - S^-)/(2i)`. -/
noncomputable def Spec.rotation (m : Nat) (θ : ℝ) : Matrix (Fin m) (Fin m) ℂ := NormedSpace.exp ((θ * Complex.I : ℂ) • SY m)

/-- An intertwiner of two matrices intertwines their exponentials. -/
theorem exp_intertwine {G H E : Matrix (Fin m) (Fin m) ℂ} (h : G * E = E * H) : NormedSpace.exp G * E = E * NormedSpace.exp H := by
  open scoped Matrix.Norms.Operator in
  have h1 := (NormedSpace.exp_series_hasSum_exp' (𝕂 := ℂ) G).mul_right E
  have h2 := (NormedSpace.exp_series_hasSum_exp' (𝕂 := ℂ) H).mul_left E
  have hp : ∀ n : ℕ, G ^ n * E = E * H ^ n := by
    intro n
    induction n with
    | zero => simp
    | succ n ih => rw [pow_succ, mul_assoc, h, ← mul_assoc, ih, mul_assoc, ← pow_succ]
  have e : (fun n : ℕ => ((n.factorial : ℂ)⁻¹ • G ^ n) * E) = fun n : ℕ => E * ((n.factorial : ℂ)⁻¹ • H ^ n) := by
    funext n
    rw [smul_mul_assoc, hp, mul_smul_comm]
  rw [e] at h1
  exact h1.unique h2

theorem exp_shift (G : Matrix (Fin m) (Fin m) ℂ) (c : ℂ) : NormedSpace.exp (G + c • (1 : Matrix (Fin m) (Fin m) ℂ)) = Complex.exp c • NormedSpace.exp G := by
  rw [Matrix.exp_add_of_commute _ _ ((Commute.one_right G).smul_right c)]
  have : NormedSpace.exp (c • (1 : Matrix (Fin m) (Fin m) ℂ)) = Complex.exp c • (1 : Matrix (Fin m) (Fin m) ℂ) := by
    rw [Matrix.smul_one_eq_diagonal, Matrix.exp_diagonal, Matrix.smul_one_eq_diagonal]
    congr 1
    funext i
    rw [Complex.exp_eq_exp_ℂ]
    rw [Pi.coe_exp]
  rw [this, mul_smul_comm, mul_one]

/-- The generator. -/
noncomputable def gen (m : Nat) : Op m := SP m - SM m

theorem gen_ladder (m : Nat) (a : ℂ) (ha : a * a = -1 / 4) :
    gen m * (SZ m + a • (SP m + SM m)) = (SZ m + a • (SP m + SM m)) * (gen m + (4 * a) • (1 : Op m)) := by
  have z1 := SZ_SP m
  have z2 := SZ_SM m
  have z3 := SP_SM m
  unfold gen
  have eR : (SZ m + a • (SP m + SM m)) * (SP m - SM m + (4 * a) • (1 : Op m)) = (SZ m + a • (SP m + SM m)) * (SP m - SM m) + (4 * a) • (SZ m + a • (SP m + SM m)) := by
    rw [mul_add (SZ m + a • (SP m + SM m)), mul_smul_comm, mul_one]
  rw [eR]
  have e1 : (SP m - SM m) * (SZ m + a • (SP m + SM m)) - (SZ m + a • (SP m + SM m)) * (SP m - SM m) =
      (SP m * SZ m - SZ m * SP m) - (SM m * SZ m - SZ m * SM m) + (2 * a) • (SP m * SM m - SM m * SP m) := by
    simp only [sub_mul, mul_add, add_mul, mul_sub, smul_add, mul_smul_comm, smul_mul_assoc, two_mul, add_smul, smul_sub]
    abel
  rw [z1, z2, z3] at e1
  have e2 : (4 * a) • (SZ m + a • (SP m + SM m)) = (4 * a) • SZ m - (SP m + SM m) := by
    rw [smul_add, smul_smul]
    have : 4 * a * a = -1 := by rw [mul_assoc, ha]; norm_num
    rw [this, neg_one_smul, sub_eq_add_neg]
  rw [e2]
  rw [sub_eq_iff_eq_add] at e1
  rw [e1]
  have e3 : (2 * a) • (SM m * SP m + (2 : ℂ) • SZ m - SM m * SP m) = (4 * a) • SZ m := by
    rw [add_sub_cancel_left, smul_smul]
    congr 1
    ring
  rw [e3]
  abel

/-- A full turn commutes with all spin matrices. -/
theorem turn_comm (m : Nat) (k : Int) :
    NormedSpace.exp (((Real.pi * k : ℝ) : ℂ) • gen m) * SZ m = SZ m * NormedSpace.exp (((Real.pi * k : ℝ) : ℂ) • gen m) ∧
    NormedSpace.exp (((Real.pi * k : ℝ) : ℂ) • gen m) * SP m = SP m * NormedSpace.exp (((Real.pi * k : ℝ) : ℂ) • gen m) := by
  set t : ℂ := ((Real.pi * k : ℝ) : ℂ) with ht
  set W := NormedSpace.exp (t • gen m) with hW
  have key : ∀ a : ℂ, a * a = -1 / 4 → Complex.exp (t * (4 * a)) = 1 → W * (SZ m + a • (SP m + SM m)) = (SZ m + a • (SP m + SM m)) * W := by
    intro a ha he
    have h := gen_ladder m a ha
    have h2 : (t • gen m) * (SZ m + a • (SP m + SM m)) = (SZ m + a • (SP m + SM m)) * (t • gen m + (t * (4 * a)) • (1 : Op m)) := by
      have e : t • gen m + (t * (4 * a)) • (1 : Op m) = t • (gen m + (4 * a) • (1 : Op m)) := by rw [smul_add, smul_smul]
      rw [e, smul_mul_assoc, h, mul_smul_comm]
    have h3 := exp_intertwine h2
    rw [exp_shift, he, one_smul] at h3
    exact h3
  have ep : Complex.exp (t * (4 * (Complex.I / 2))) = 1 := by
    rw [Complex.exp_eq_one_iff]
    exact ⟨k, by rw [ht]; push_cast; ring⟩
  have em : Complex.exp (t * (4 * (-Complex.I / 2))) = 1 := by
    rw [Complex.exp_eq_one_iff]
    exact ⟨-k, by rw [ht]; push_cast; ring⟩
  have hp := key (Complex.I / 2) (by ring_nf; rw [Complex.I_sq]; ring) ep
  have hm := key (-Complex.I / 2) (by ring_nf; rw [Complex.I_sq]; ring) em
  have hz : W * SZ m = SZ m * W := by
    have := congrArg₂ (· + ·) hp hm
    simp only [mul_add, add_mul, mul_smul_comm, smul_mul_assoc, smul_add] at this
    have h2 : (2 : ℂ) • (W * SZ m) = (2 : ℂ) • (SZ m * W) := by
      rw [two_smul, two_smul]
      have en : ∀ X : Op m, (-Complex.I / 2) • X = -((Complex.I / 2) • X) := fun X => by rw [neg_div, neg_smul]
      simp only [en] at this
      have t1 : W * SZ m + W * SZ m = W * SZ m + (Complex.I / 2) • (W * SP m) + (Complex.I / 2) • (W * SM m) + (W * SZ m + -((Complex.I / 2) • (W * SP m)) + -((Complex.I / 2) • (W * SM m))) := by abel
      have t2 : SZ m * W + SZ m * W = SZ m * W + (Complex.I / 2) • (SP m * W) + (Complex.I / 2) • (SM m * W) + (SZ m * W + -((Complex.I / 2) • (SP m * W)) + -((Complex.I / 2) • (SM m * W))) := by abel
      rw [t1, t2]
      simpa only [add_assoc] using this
    exact smul_right_injective _ (two_ne_zero : (2 : ℂ) ≠ 0) h2
  have hx : W * (SP m + SM m) = (SP m + SM m) * W := by
    rw [mul_add, add_mul, hz, mul_smul_comm, smul_mul_assoc] at hp
    have h2 := add_left_cancel hp
    exact smul_right_injective _ (by simp [Complex.I_ne_zero] : (Complex.I / 2 : ℂ) ≠ 0) h2
  have hy : W * (SP m - SM m) = (SP m - SM m) * W := by
    have hc : (t • gen m) * gen m = gen m * (t • gen m) := by rw [smul_mul_assoc, mul_smul_comm]
    exact exp_intertwine hc
  refine ⟨hz, ?_⟩
  have h2 : (2 : ℂ) • (W * SP m) = (2 : ℂ) • (SP m * W) := by
    have := congrArg₂ (· + ·) hx hy
    simp only [mul_add, add_mul, mul_sub, sub_mul] at this
    rw [two_smul, two_smul]
    have t1 : W * SP m + W * SP m = W * SP m + W * SM m + (W * SP m - W * SM m) := by abel
    have t2 : SP m * W + SP m * W = SP m * W + SM m * W + (SP m * W - SM m * W) := by abel
    rw [t1, t2]
    exact this
  exact smul_right_injective _ (two_ne_zero : (2 : ℂ) ≠ 0) h2

/-- The spin matrices are irreducible. -/
theorem scalar_of_comm {W : Op m} (hz : W * SZ m = SZ m * W) (hp : W * SP m = SP m * W) : ∃ c : ℂ, W = c • (1 : Op m) := by
  have hoff : ∀ i j, i ≠ j → W i j = 0 := by
    intro i j hij
    have h := congrFun (congrFun hz i) j
    rw [SZ_eq_diag, Matrix.mul_diagonal, Matrix.diagonal_mul, szEntry_eq, szEntry_eq] at h
    have hne : ((i.val : ℂ) - j.val) ≠ 0 := by
      rw [sub_ne_zero]
      intro e
      exact hij (Fin.ext (by exact_mod_cast e))
    have : W i j * ((i.val : ℂ) - j.val) = 0 := by
      push_cast at h
      linear_combination h
    exact (mul_eq_zero.mp this).resolve_right hne
  have hstep : ∀ (i : Nat) (hi : i + 1 < m), W ⟨i, by omega⟩ ⟨i, by omega⟩ = W ⟨i + 1, hi⟩ ⟨i + 1, hi⟩ := by
    intro i hi
    have h := congrFun (congrFun hp ⟨i, by omega⟩) ⟨i + 1, hi⟩
    rw [Matrix.mul_apply, Matrix.mul_apply, Finset.sum_eq_single ⟨i, by omega⟩ (fun k _ hk => by rw [hoff _ _ (Ne.symm hk), zero_mul]) (by simp),
      Finset.sum_eq_single ⟨i + 1, hi⟩ (fun k _ hk => by rw [hoff _ _ hk, mul_zero]) (by simp)] at h
    have hne : SP m ⟨i, by omega⟩ ⟨i + 1, hi⟩ ≠ 0 := by
      have hs := sp_sq m i (by omega)
      have hpos : (0 : ℝ) < ((i : ℝ) + 1) * ((m : ℝ) - 1 - i) := by
        have : ((i : ℝ) + 1) < m := by exact_mod_cast hi
        apply mul_pos <;> linarith [(Nat.cast_nonneg i : (0 : ℝ) ≤ i)]
      have : spEntry m i ≠ 0 := fun e => by rw [e] at hs; linarith [hs, hpos]
      simp only [SP, Matrix.of_apply]
      rw [if_pos ⟨by omega, trivial⟩]
      exact_mod_cast this
    rw [mul_comm] at h
    exact mul_left_cancel₀ hne h
  by_cases hm : 0 < m
  · have hall : ∀ (i : Nat) (hi : i < m), W ⟨i, hi⟩ ⟨i, hi⟩ = W ⟨0, hm⟩ ⟨0, hm⟩ := by
      intro i
      induction i with
      | zero => intro hi; rfl
      | succ i ih => intro hi; rw [← hstep i hi]; exact ih (by omega)
    refine ⟨W ⟨0, hm⟩ ⟨0, hm⟩, ?_⟩
    ext i j
    by_cases hij : i = j
    · subst hij; simp [hall i.val i.isLt]
    · simp [hoff i j hij, Matrix.one_apply_ne hij]
  · exact ⟨0, by ext i; exact absurd i.isLt (by omega)⟩

theorem gen_transpose (m : Nat) : (gen m)ᵀ = -gen m := by
  unfold gen
  rw [Matrix.transpose_sub, SM_eq_transpose, Matrix.transpose_transpose, neg_sub]

theorem exp_orth (m : Nat) (t : ℂ) : (NormedSpace.exp (t • gen m))ᵀ = NormedSpace.exp (-(t • gen m)) ∧
    NormedSpace.exp (-(t • gen m)) * NormedSpace.exp (t • gen m) = 1 ∧ NormedSpace.exp (t • gen m) * NormedSpace.exp (-(t • gen m)) = 1 := by
  refine ⟨?_, ?_, ?_⟩
  · rw [← Matrix.exp_transpose, Matrix.transpose_smul, gen_transpose, smul_neg]
  · rw [← Matrix.exp_add_of_commute _ _ (Commute.refl (t • gen m)).neg_left, neg_add_cancel, NormedSpace.exp_zero]
  · rw [← Matrix.exp_add_of_commute _ _ (Commute.refl (t • gen m)).neg_right, add_neg_cancel, NormedSpace.exp_zero]

/-- A full turn is the identity up to sign, for every spin. -/
theorem turn (m : Nat) (k : Int) : ∃ c : ℂ, (c = 1 ∨ c = -1) ∧ NormedSpace.exp (((Real.pi * k : ℝ) : ℂ) • gen m) = c • (1 : Op m) := by
  obtain ⟨hz, hp⟩ := turn_comm m k
  obtain ⟨c, hc⟩ := scalar_of_comm hz hp
  by_cases hm : 0 < m
  · refine ⟨c, ?_, hc⟩
    obtain ⟨h1, h2, -⟩ := exp_orth m ((Real.pi * k : ℝ) : ℂ)
    rw [← h1, hc] at h2
    have h3 := congrFun (congrFun h2 ⟨0, hm⟩) ⟨0, hm⟩
    simp at h3
    have : (c - 1) * (c + 1) = 0 := by linear_combination h3
    rcases mul_eq_zero.mp this with h | h
    · exact .inl (sub_eq_zero.mp h)
    · exact .inr (eq_neg_of_add_eq_zero_left h)
  · exact ⟨1, .inl rfl, by ext i; exact absurd i.isLt (by omega)⟩

theorem rotation_eq (m : Nat) (θ : ℝ) : Spec.rotation m θ = NormedSpace.exp (((θ / 2 : ℝ) : ℂ) • gen m) := by
  unfold Spec.rotation
  congr 1
  ext i j
  simp only [SY, gen, Matrix.smul_apply, Matrix.of_apply, Matrix.sub_apply, smul_eq_mul]
  push_cast
  have : Complex.I * Complex.I = -1 := Complex.I_mul_I
  linear_combination (-(1 / 2) * (θ : ℂ) * (SP m i j - SM m i j)) * this

theorem act_smul (c : ℂ) (W : Op m) (A : Site m ι) : Spec.act (c • W) A = c • Spec.act W A := by
  funext s i
  simp only [Spec.act, Pi.smul_apply, Matrix.smul_apply, smul_eq_mul, Finset.mul_sum, mul_assoc]

theorem act_one (A : Site m ι) : Spec.act (1 : Op m) A = A := by
  funext s i
  unfold Spec.act
  rw [Finset.sum_eq_single s (fun p _ hp => by rw [Matrix.one_apply_ne (Ne.symm hp), zero_mul]) (by simp), Matrix.one_apply_eq, one_mul]

/-- **C145**: for every spin, every tensor and every `q` that is a multiple of one third (the default is minus one third), the generated state is the spiral with wave vector `(q, -q)`:
up to sign, the tensor at `(x, y)` is the given one rotated about the y axis of spin space by the angle `2π q (x - y)`. -/
theorem C145_spiral (k : Int) (A : Site m ι) (x y : Int) : ∃ ε : ℂ, (ε = 1 ∨ ε = -1) ∧
    siteAt ((k : ℝ) / 3) A (x, y) = some (ε • Spec.act (Spec.rotation m (2 * Real.pi * ((k : ℝ) / 3) * (x - y : Int))) A) := by
  have hgen : ∀ (j e : Int), x - y = 3 * j + e → ∃ ε : ℂ, (ε = 1 ∨ ε = -1) ∧
      Spec.act (NormedSpace.exp (((Real.pi * (k / 3) * e : ℝ) : ℂ) • gen m)) A = ε • Spec.act (Spec.rotation m (2 * Real.pi * ((k : ℝ) / 3) * (x - y : Int))) A := by
    intro j e h
    obtain ⟨c, hc, ht⟩ := turn m (k * j)
    refine ⟨c, hc, ?_⟩
    have hr : Spec.rotation m (2 * Real.pi * ((k : ℝ) / 3) * (x - y : Int)) = c • NormedSpace.exp (((Real.pi * (k / 3) * e : ℝ) : ℂ) • gen m) := by
      rw [rotation_eq, h]
      have : (((2 * Real.pi * ((k : ℝ) / 3) * ((3 * j + e : Int) : ℝ) / 2 : ℝ)) : ℂ) • gen m =
          ((Real.pi * (k * j : Int) : ℝ) : ℂ) • gen m + ((Real.pi * (k / 3) * e : ℝ) : ℂ) • gen m := by
        rw [← add_smul]
        congr 1
        push_cast
        ring
      rw [this, Matrix.exp_add_of_commute _ _ (((Commute.refl (gen m)).smul_left _).smul_right _), ht, smul_mul_assoc, one_mul]
    rw [hr, act_smul, smul_smul]
    have : c * c = 1 := by rcases hc with rfl | rfl <;> norm_num
    rw [this, one_smul]
  have h3 : (x - y) % 3 = 0 ∨ (x - y) % 3 = 1 ∨ (x - y) % 3 = 2 := by omega
  rcases h3 with h | h | h
  · obtain ⟨ε, hε, e⟩ := hgen ((x - y) / 3) 0 (by omega)
    refine ⟨ε, hε, ?_⟩
    rw [← e]
    have ht : tiling (x, y) = (0, 0) := by unfold tiling; ext <;> simp; omega
    unfold siteAt
    rw [ht]
    simp only [sites, Int.cast_zero, mul_zero, Complex.ofReal_zero, zero_smul, NormedSpace.exp_zero, act_one]
    rfl
  · obtain ⟨ε, hε, e⟩ := hgen ((x - y) / 3) 1 (by omega)
    refine ⟨ε, hε, ?_⟩
    rw [← e]
    have ht : tiling (x, y) = (1, 0) := by unfold tiling; ext <;> simp; omega
    unfold siteAt
    rw [ht]
    simp only [sites, Int.cast_one, mul_one]
    rfl
  · obtain ⟨ε, hε, e⟩ := hgen ((x - y) / 3 + 1) (-1) (by omega)
    refine ⟨ε, hε, ?_⟩
    rw [← e]
    have ht : tiling (x, y) = (2, 0) := by unfold tiling; ext <;> simp; omega
    unfold siteAt
    rw [ht]
    have hR : (((Real.pi * (k / 3) * ((-1 : Int) : ℝ) : ℝ)) : ℂ) • gen m = -(((Real.pi * (k / 3) : ℝ) : ℂ) • gen m) := by
      rw [← neg_smul]
      congr 1
      push_cast
      ring
    rw [hR, ← (exp_orth m _).1]
    rfl

/-- **C145**: neighbouring tensors of the generated state are related by one and the same rotation, up to sign. -/
theorem C145_neighbours (k : Int) (A : Site m ι) (x y : Int) : ∃ B C D : Site m ι, siteAt ((k : ℝ) / 3) A (x, y) = some B ∧
    siteAt ((k : ℝ) / 3) A (x + 1, y) = some C ∧ siteAt ((k : ℝ) / 3) A (x, y + 1) = some D ∧
    (C = Spec.act (Spec.rotation m (2 * Real.pi * (k / 3))) B ∨ C = -Spec.act (Spec.rotation m (2 * Real.pi * (k / 3))) B) ∧
    (B = Spec.act (Spec.rotation m (2 * Real.pi * (k / 3))) D ∨ B = -Spec.act (Spec.rotation m (2 * Real.pi * (k / 3))) D) := by
  obtain ⟨b, hb, hB⟩ := C145_spiral k A x y
  obtain ⟨c, hc, hC⟩ := C145_spiral k A (x + 1) y
  obtain ⟨d, hd, hD⟩ := C145_spiral k A x (y + 1)
  refine ⟨_, _, _, hB, hC, hD, ?_, ?_⟩
  all_goals
    have key : ∀ (n n' : Int), n' = n + 1 → Spec.act (Spec.rotation m (2 * Real.pi * (k / 3) * n')) A =
        Spec.act (Spec.rotation m (2 * Real.pi * (k / 3))) (Spec.act (Spec.rotation m (2 * Real.pi * (k / 3) * n)) A) := by
      intro n n' h
      have hr : Spec.rotation m (2 * Real.pi * (k / 3) * n') = Spec.rotation m (2 * Real.pi * (k / 3)) * Spec.rotation m (2 * Real.pi * (k / 3) * n) := by
        rw [rotation_eq, rotation_eq, rotation_eq, ← Matrix.exp_add_of_commute _ _ (((Commute.refl (gen m)).smul_left _).smul_right _), ← add_smul, h]
        congr 3
        push_cast
        ring
      rw [hr]
      funext s i
      simp only [Spec.act, Matrix.mul_apply, Finset.sum_mul, Finset.mul_sum, mul_assoc]
      rw [Finset.sum_comm]
    have lin : ∀ (a : ℂ) (X : Site m ι), Spec.act (Spec.rotation m (2 * Real.pi * (k / 3))) (a • X) = a • Spec.act (Spec.rotation m (2 * Real.pi * (k / 3))) X := by
      intro a X
      funext s i
      simp only [Spec.act, Pi.smul_apply, smul_eq_mul, Finset.mul_sum]
      exact Finset.sum_congr rfl fun p _ => by ring
  · rw [lin, key (x - y) (x + 1 - y) (by ring)]
    rcases hb with rfl | rfl <;> rcases hc with rfl | rfl <;> simp
  · rw [lin, key (x - (y + 1)) (x - y) (by ring)]
    rcases hb with rfl | rfl <;> rcases hd with rfl | rfl <;> simp

/-- The rotation is orthogonal, so expectation values of a rotated tensor are those of the rotated operator. -/
theorem C145_orthogonal (m : Nat) (θ : ℝ) : (Spec.rotation m θ)ᵀ * Spec.rotation m θ = 1 ∧ Spec.rotation m θ * (Spec.rotation m θ)ᵀ = 1 := by
  rw [rotation_eq]
  obtain ⟨h1, h2, h3⟩ := exp_orth m ((θ / 2 : ℝ) : ℂ)
  rw [h1]
  exact ⟨h2, h3⟩

/-- **C145**: the state repeats with its cell. -/
theorem C145_cell (q : ℝ) (A : Site m ι) (x y a b : Int) : siteAt q A (x + a * cell.1, y + b * cell.2) = siteAt q A (x, y) := by
  have : tiling (x + a * cell.1, y + b * cell.2) = tiling (x, y) := by
    unfold tiling cell
    ext <;> simp
    omega
  unfold siteAt
  rw [this]

/-- The default of the code, minus one third, at a vertex three columns away: the given tensor up to sign. -/
example (A : Site 2 (Fin 4)) : ∃ ε : ℂ, (ε = 1 ∨ ε = -1) ∧ siteAt (((-1 : Int) : ℝ) / 3) A (4, 1) = some (ε • Spec.act (Spec.rotation 2 (2 * Real.pi * (((-1 : Int) : ℝ) / 3) * ((4 - 1 : Int) : ℝ))) A) :=
  C145_spiral (-1) A 4 1

/-- For a spin one half the rotation is not trivial: its generator is not zero. -/
example : gen 2 0 1 ≠ 0 := by
  have hs := sp_sq 2 0 (by decide)
  have h0 : spEntry 2 0 ≠ 0 := fun e => by rw [e] at hs; norm_num at hs
  simp [gen, SP, SM, h0]

end Verif.Spiral
