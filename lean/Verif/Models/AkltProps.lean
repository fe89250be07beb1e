import Verif.Models.AkltModel
import Verif.Models.AkltTable
import Verif.Models.Witness
import Verif.C4v.CorrfProps
import Mathlib.Analysis.Matrix.Spectrum
/-
C107: the Hamiltonian of akltS2.py is twice the projector to the states of total spin four, and what the energy of one-site states is.
-/
namespace Verif.Models
open Tensor Ctm Ctm.Spec Spec Su2 Su2.Spec
open Corrf (pEnv)
open scoped Kronecker Matrix

/-! ### The projector -/

noncomputable section

/-- The square root of six. -/
def root6 : {r : ℂ // r * r = ((6 : ℤ) : ℂ)} := ⟨((Real.sqrt 6 : ℝ) : ℂ), by rw [← Complex.ofReal_mul, Real.mul_self_sqrt (by norm_num)]; norm_num⟩
def emb : Aklt.Z6 →+* ℂ := Zsqrtd.lift root6

theorem up_emb (i : Nat) (h : i < 4) : (spEntry 5 i : ℂ) = emb (Aklt.up i) := by
  have s4 : Real.sqrt 4 = 2 := by
    rw [show (4 : ℝ) = 2 ^ 2 by norm_num]
    exact Real.sqrt_sq (by norm_num)
  have h0 : spEntry 5 0 = 2 := by
    refine Eq.trans ?_ s4
    rw [spEntry]
    norm_num
  have h1 : spEntry 5 1 = Real.sqrt 6 := by
    rw [spEntry]
    norm_num
  have h2 : spEntry 5 2 = Real.sqrt 6 := by
    rw [spEntry]
    norm_num
  have h3 : spEntry 5 3 = 2 := by
    refine Eq.trans ?_ s4
    rw [spEntry]
    norm_num
  have e6 : emb (⟨0, 1⟩ : Aklt.Z6) = ((Real.sqrt 6 : ℝ) : ℂ) := by simp [emb, Zsqrtd.lift, root6]
  interval_cases i
  · rw [h0, Aklt.up, map_ofNat]; norm_num
  · rw [h1, Aklt.up, e6]
  · rw [h2, Aklt.up, e6]
  · rw [h3, show Aklt.up 3 = 2 from rfl, map_ofNat]; norm_num

theorem X_emb (r s : Fin 5 × Fin 5) : exchange 5 1 1 1 r s = emb (Aklt.x r s) := by
  have h2 : (2 : ℂ) * exchange 5 1 1 1 r s = emb (Aklt.twice r s) := by
    obtain ⟨a, b⟩ := r
    obtain ⟨c, d⟩ := s
    rw [← C11_is_dot_product, asMatrix_SS]
    simp only [Matrix.add_apply, Matrix.smul_apply, Matrix.kroneckerMap_apply, SP_apply, SM_apply, smul_eq_mul, Aklt.twice, map_add, map_mul, map_ofNat, apply_ite emb, map_zero, map_intCast, Int.cast_ite, Int.cast_zero]
    have hz : (SZ 5 a c * SZ 5 b d) = if (a, b) = (c, d) then (((2 - (a.val : ℤ)) * (2 - (b.val : ℤ)) : ℤ) : ℂ) else 0 := by
      simp only [SZ, Matrix.of_apply, szEntry_eq, Prod.mk.injEq]
      by_cases h : a = c
      · by_cases h' : b = d
        · subst h h'
          simp
          ring
        · simp [h']
      · simp [h]
    rw [hz]
    have hu : ∀ (i j k l : Fin 5), ((if j.val = i.val + 1 then (spEntry 5 i : ℂ) else 0) * if k.val = l.val + 1 then (spEntry 5 l : ℂ) else 0) =
        if j.val = i.val + 1 ∧ k.val = l.val + 1 then emb (Aklt.up i) * emb (Aklt.up l) else 0 := by
      intro i j k l
      by_cases h : j.val = i.val + 1
      · by_cases h' : k.val = l.val + 1
        · rw [if_pos h, if_pos h', if_pos ⟨h, h'⟩, up_emb i (by omega), up_emb l (by omega)]
        · simp [h']
      · simp [h]
    rw [hu a c b d, hu c a d b]
    ring
  have h := Aklt.x_twice r s
  rw [h, map_mul, map_ofNat] at h2
  exact mul_left_cancel₀ two_ne_zero h2

theorem X_map : exchange 5 1 1 1 = Aklt.x.map emb := Matrix.ext X_emb

/-- The five values of the exchange of two spins of size two. -/
theorem X_minimal : exchange 5 1 1 1 * (exchange 5 1 1 1 + (3 : ℂ) • 1) * (exchange 5 1 1 1 + (5 : ℂ) • 1) * (exchange 5 1 1 1 + (6 : ℂ) • 1) * (exchange 5 1 1 1 + (-4 : ℂ) • (1 : Op2 5)) = 0 := by
  have h := congrArg (fun A : Aklt.Mat => emb.mapMatrix A) Aklt.minimal
  simp only [map_mul, map_add, map_zero] at h
  have e : ∀ z : Aklt.Z6, emb.mapMatrix (z • (1 : Aklt.Mat)) = emb z • (1 : Op2 5) := by
    intro z
    ext r s
    simp [Matrix.one_apply, apply_ite emb]
  simp only [e, map_neg, map_ofNat, RingHom.mapMatrix_apply, ← X_map] at h
  exact h

theorem aklt_factors : Spec.aklt = (1 / 1260 : ℂ) • (exchange 5 1 1 1 * (exchange 5 1 1 1 + (3 : ℂ) • 1) * (exchange 5 1 1 1 + (5 : ℂ) • 1) * (exchange 5 1 1 1 + (6 : ℂ) • 1)) := by
  rw [Spec.aklt]
  generalize exchange 5 1 1 1 = X
  simp only [mul_add, add_mul, mul_smul_comm, smul_mul_assoc, mul_one, smul_add, smul_smul, pow_succ, pow_zero, one_mul, mul_assoc]
  ext r s
  simp only [Matrix.add_apply, Matrix.smul_apply, smul_eq_mul]
  ring

/-- The exchange is four where the Hamiltonian does not vanish. -/
theorem aklt_X : exchange 5 1 1 1 * Spec.aklt = (4 : ℂ) • Spec.aklt := by
  have h : Spec.aklt * exchange 5 1 1 1 = (4 : ℂ) • Spec.aklt := by
    have := X_minimal
    rw [mul_add, mul_smul_comm, mul_one] at this
    have h' := eq_neg_of_add_eq_zero_left this
    rw [aklt_factors, smul_mul_assoc, h', ← neg_smul, neg_neg, smul_comm]
  have c : Commute (exchange 5 1 1 1) Spec.aklt := by
    rw [Spec.aklt]
    refine Commute.smul_right (((Commute.refl _ |>.add_right ?_).add_right ?_).add_right ?_) _ <;> exact ((Commute.refl _).pow_right _).smul_right _
  rw [c.eq, h]

/-- The square of the total spin of two spins. -/
def Spec.totalSq (p : Nat) : Op2 p := Su2.Spec.total (Su2.Spec.Sx p) ^ 2 + Su2.Spec.total (Su2.Spec.Sy p) ^ 2 + Su2.Spec.total (SZ p) ^ 2

theorem totalSq_eq : Spec.totalSq 5 = (12 : ℂ) • (1 : Op2 5) + (2 : ℂ) • exchange 5 1 1 1 := by
  have hc : Su2.Spec.Sx 5 * Su2.Spec.Sx 5 + Su2.Spec.Sy 5 * Su2.Spec.Sy 5 + SZ 5 * SZ 5 = (6 : ℂ) • (1 : Op 5) := by
    obtain ⟨Z, P, M, e1, e2, e3, -, -, -, -, -, h⟩ := C10_spin_algebra 5
    obtain rfl : SZ 5 = Z := Option.some.inj e1
    obtain rfl : SP 5 = P := Option.some.inj e2
    obtain rfl : SM 5 = M := Option.some.inj e3
    have h6 : ((((5 : ℕ) : ℂ) - 1) / 2 * ((((5 : ℕ) : ℂ) - 1) / 2 + 1)) = 6 := by norm_num
    rw [h6] at h
    rw [← h, Su2.Spec.Sx, Su2.Spec.Sy]
    simp only [mul_smul_comm, smul_mul_assoc, smul_smul, mul_add, add_mul, mul_sub, sub_mul]
    ext i j
    simp only [Matrix.add_apply, Matrix.smul_apply, Matrix.sub_apply, smul_eq_mul]
    linear_combination (1 / 4 : ℂ) * ((SP 5 * SP 5) i j - (SM 5 * SP 5) i j - (SP 5 * SM 5) i j + (SM 5 * SM 5) i j) * Complex.I_mul_I
  have sq : ∀ A : Op 5, Su2.Spec.total A ^ 2 = (A * A) ⊗ₖ (1 : Op 5) + (1 : Op 5) ⊗ₖ (A * A) + (2 : ℂ) • (A ⊗ₖ A) := by
    intro A
    rw [Su2.Spec.total, pow_two]
    simp only [mul_add, add_mul, ← Matrix.mul_kronecker_mul, mul_one, one_mul, two_smul]
    abel
  rw [Spec.totalSq, sq, sq, sq]
  have h1 : ((6 : ℂ) • (1 : Op 5)) ⊗ₖ (1 : Op 5) = (6 : ℂ) • (1 : Op2 5) := by rw [Matrix.smul_kronecker, Matrix.one_kronecker_one]
  have h2 : (1 : Op 5) ⊗ₖ ((6 : ℂ) • (1 : Op 5)) = (6 : ℂ) • (1 : Op2 5) := by rw [Matrix.kronecker_smul, Matrix.one_kronecker_one]
  rw [← hc] at h1 h2
  rw [Matrix.add_kronecker, Matrix.add_kronecker] at h1
  rw [Matrix.kronecker_add, Matrix.kronecker_add] at h2
  have h12 : (12 : ℂ) • (1 : Op2 5) = (6 : ℂ) • (1 : Op2 5) + (6 : ℂ) • (1 : Op2 5) := by rw [← add_smul]; norm_num
  rw [h12]
  nth_rewrite 1 [← h1]
  rw [← h2, exchange]
  simp only [one_smul, smul_add]
  abel

/-- C107. The Hamiltonian of akltS2.py is twice the projector to the states of two spins with total spin four (`S(S+1) = 20`). -/
theorem C107_projector : ∃ (h : Tensor ℂ) (P : Op2 5), akltH = some h ∧ Is4 5 h ((2 : ℂ) • P) ∧ P.IsHermitian ∧ P * P = P ∧
    ∀ v : Fin 5 × Fin 5 → ℂ, Spec.totalSq 5 *ᵥ v = (20 : ℂ) • v ↔ P *ᵥ v = v := by
  obtain ⟨h, e, i⟩ := akltH_ok
  have h2 : Spec.aklt * Spec.aklt = (2 : ℂ) • Spec.aklt := by
    have hX := aklt_X
    have hp : ∀ n, exchange 5 1 1 1 ^ n * Spec.aklt = (4 ^ n : ℂ) • Spec.aklt := by
      intro n
      induction n with
      | zero => simp
      | succ n ih => rw [pow_succ, mul_assoc, hX, mul_smul_comm, ih, smul_smul, pow_succ, mul_comm]
    conv_lhs => rw [show Spec.aklt * Spec.aklt = ((1 / 14 : ℂ) • (exchange 5 1 1 1 + (7 / 10 : ℂ) • exchange 5 1 1 1 ^ 2 + (7 / 45 : ℂ) • exchange 5 1 1 1 ^ 3 + (1 / 90 : ℂ) • exchange 5 1 1 1 ^ 4)) * Spec.aklt from rfl]
    rw [smul_mul_assoc, add_mul, add_mul, add_mul, smul_mul_assoc, smul_mul_assoc, smul_mul_assoc, hX, hp, hp, hp]
    simp only [smul_smul, ← add_smul]
    norm_num
  refine ⟨h, (1 / 2 : ℂ) • Spec.aklt, e, ?_, ?_, ?_, fun v => ⟨fun hv => ?_, fun hv => ?_⟩⟩
  · rw [smul_smul]
    norm_num
    exact i
  · have := smul_herm aklt_herm (1 / 2)
    simpa using this
  · rw [smul_mul_assoc, mul_smul_comm, h2, smul_smul, smul_smul]
    norm_num
  · have hX : exchange 5 1 1 1 *ᵥ v = (4 : ℂ) • v := by
      rw [totalSq_eq, Matrix.add_mulVec, Matrix.smul_mulVec, Matrix.smul_mulVec, Matrix.one_mulVec] at hv
      have : (2 : ℂ) • (exchange 5 1 1 1 *ᵥ v) = (2 : ℂ) • ((4 : ℂ) • v) := by
        rw [eq_sub_of_add_eq' hv, smul_smul, ← sub_smul]
        norm_num
      exact smul_right_injective _ (two_ne_zero (α := ℂ)) this
    have hp : ∀ n, exchange 5 1 1 1 ^ n *ᵥ v = (4 ^ n : ℂ) • v := by
      intro n
      induction n with
      | zero => simp
      | succ n ih => rw [pow_succ, ← Matrix.mulVec_mulVec, hX, Matrix.mulVec_smul, ih, smul_smul, pow_succ, mul_comm]
    rw [Spec.aklt]
    simp only [Matrix.smul_mulVec, Matrix.add_mulVec, hp, hX, smul_smul, ← add_smul]
    norm_num
  · have hX : exchange 5 1 1 1 *ᵥ v = (4 : ℂ) • v := by
      conv_lhs => rw [← hv]
      rw [Matrix.mulVec_mulVec, mul_smul_comm, aklt_X, smul_comm, Matrix.smul_mulVec, hv]
    rw [totalSq_eq, Matrix.add_mulVec, Matrix.smul_mulVec, Matrix.smul_mulVec, Matrix.one_mulVec, hX, smul_smul, ← add_smul]
    norm_num

/-! ### The energy of one-site states -/

/-- An operator on neighbours in the frame in which the spins of the odd sublattice are rotated: `c` is the first of the two sites. -/
def Spec.rotatedP {p : Nat} (H : Op2 p) (c : Coord) : Op2 p :=
  if (c.1 + c.2) % 2 = 0 then ((1 : Op p) ⊗ₖ (rotOp p)ᵀ) * H * ((1 : Op p) ⊗ₖ rotOp p) else ((rotOp p)ᵀ ⊗ₖ (1 : Op p)) * H * (rotOp p ⊗ₖ (1 : Op p))

theorem rot_T5 : (rotOp 5)ᵀ = rotOp 5 := by
  ext i j
  fin_cases i <;> fin_cases j <;> simp [rotOp] <;> norm_num

/-- Conjugation of the second spin. -/
theorem rot2_ok {p : Nat} {O : Tensor ℂ} {H : Op2 p} (h : Is4 p O H) : ∃ R, rot2 p O = some R ∧ Is4 p R (((1 : Op p) ⊗ₖ rotOp p) * H * ((1 : Op p) ⊗ₖ rotOp p)) := by
  obtain ⟨R, e, s, v⟩ := einsum_ok (fun _ => p) [(opP p (rotOp p), [1, 10]), (O, [0, 10, 2, 11]), (opP p (rotOp p), [11, 3])] [0, 1, 2, 3] (by simp [h.shape, opP]) (by decide) (by simp)
  refine ⟨R, e, s, fun i j a b => ?_⟩
  have hv := v (fun n => [(i : Nat), j, a, b].getD n 0) (by
    intro n hn
    simp only [List.mem_cons, List.not_mem_nil, or_false] at hn
    rcases hn with rfl | rfl | rfl | rfl <;> simp)
  have hL : ((List.flatMap Prod.snd [(opP p (rotOp p), [1, 10]), (O, [0, 10, 2, 11]), (opP p (rotOp p), [11, 3])]).dedup.filter (fun l => l ∉ ([0, 1, 2, 3] : List Nat))) = [10, 11] := by
    simp only [List.flatMap_cons, List.flatMap_nil]
    decide
  rw [hL] at hv
  refine (show R.val [(i : Nat), j, a, b] = _ from hv).trans ?_
  have hr : (((1 : Op p) ⊗ₖ rotOp p) * H * ((1 : Op p) ⊗ₖ rotOp p)) (i, j) (a, b) = ∑ k, ∑ l, rotOp p j k * H (i, k) (a, l) * rotOp p l b := by
    simp only [Matrix.mul_apply, Fintype.sum_prod_type, Matrix.kroneckerMap_apply, Matrix.one_apply]
    simp [Finset.sum_mul]
    rw [Finset.sum_comm]
  rw [hr]
  simp only [sumOver, Finset.sum_range]
  refine Finset.sum_congr rfl fun k _ => Finset.sum_congr rfl fun l _ => ?_
  rw [← h.val, ← opP_val (rotOp p) j k, ← opP_val (rotOp p) l b]
  simp [termOf, Function.update]
  ring

/-- A polynomial in the exchange can be rotated on either spin. -/
theorem rotated_pow (p : Nat) (n : Nat) : ((1 : Op p) ⊗ₖ (rotOp p)ᵀ) * exchange p 1 1 1 ^ n * ((1 : Op p) ⊗ₖ rotOp p) = ((rotOp p)ᵀ ⊗ₖ (1 : Op p)) * exchange p 1 1 1 ^ n * (rotOp p ⊗ₖ (1 : Op p)) := by
  obtain ⟨u1, u2, _, hz, hp, hm⟩ := C13_rotation p
  have base : ((1 : Op p) ⊗ₖ (rotOp p)ᵀ) * exchange p 1 1 1 * ((1 : Op p) ⊗ₖ rotOp p) = ((rotOp p)ᵀ ⊗ₖ (1 : Op p)) * exchange p 1 1 1 * (rotOp p ⊗ₖ (1 : Op p)) := by
    rw [← C11_is_dot_product, ← (C13_rotated_exchange p 1 1).1, (C13_rotated_exchange p 1 1).2, one_smul, asMatrix_SS]
    simp only [mul_add, add_mul, mul_smul_comm, smul_mul_assoc, ← Matrix.mul_kronecker_mul, mul_one, one_mul, hz, hp, hm]
    ext ⟨i, j⟩ ⟨a, b⟩
    simp only [Matrix.add_apply, Matrix.smul_apply, Matrix.neg_apply, Matrix.kroneckerMap_apply, smul_eq_mul]
    ring
  have i1 : ((1 : Op p) ⊗ₖ rotOp p) * ((1 : Op p) ⊗ₖ (rotOp p)ᵀ) = 1 := by rw [← Matrix.mul_kronecker_mul, u2, one_mul, Matrix.one_kronecker_one]
  have i2 : (rotOp p ⊗ₖ (1 : Op p)) * ((rotOp p)ᵀ ⊗ₖ (1 : Op p)) = 1 := by rw [← Matrix.mul_kronecker_mul, u2, one_mul, Matrix.one_kronecker_one]
  have j1 : ((1 : Op p) ⊗ₖ (rotOp p)ᵀ) * ((1 : Op p) ⊗ₖ rotOp p) = 1 := by rw [← Matrix.mul_kronecker_mul, u1, one_mul, Matrix.one_kronecker_one]
  have j2 : ((rotOp p)ᵀ ⊗ₖ (1 : Op p)) * (rotOp p ⊗ₖ (1 : Op p)) = 1 := by rw [← Matrix.mul_kronecker_mul, u1, one_mul, Matrix.one_kronecker_one]
  have step : ∀ {U V : Op2 p}, V * U = 1 → U * V = 1 → ∀ n, U * exchange p 1 1 1 ^ n * V = (U * exchange p 1 1 1 * V) ^ n := by
    intro U V h h' n
    induction n with
    | zero => simp [h']
    | succ n ih =>
      rw [pow_succ (U * _ * V), ← ih, pow_succ]
      calc U * (exchange p 1 1 1 ^ n * exchange p 1 1 1) * V = U * exchange p 1 1 1 ^ n * 1 * exchange p 1 1 1 * V := by simp only [mul_assoc, mul_one, one_mul]
        _ = _ := by rw [← h]; simp only [mul_assoc]
  rw [step i1 j1, step i2 j2, base]

theorem rotated_aklt (c : Coord) : Spec.rotatedP Spec.aklt c = ((1 : Op 5) ⊗ₖ (rotOp 5)ᵀ) * Spec.aklt * ((1 : Op 5) ⊗ₖ rotOp 5) := by
  unfold Spec.rotatedP
  by_cases h : (c.1 + c.2) % 2 = 0
  · rw [if_pos h]
  · rw [if_neg h, Spec.aklt]
    have h1 := rotated_pow 5 1
    rw [pow_one] at h1
    simp only [mul_add, add_mul, mul_smul_comm, smul_mul_assoc, rotated_pow, h1]

theorem rotated_aklt_herm (c : Coord) : (Spec.rotatedP Spec.aklt c).IsHermitian := by
  obtain ⟨_, _, hr, _⟩ := C13_rotation 5
  have hc : (rotOp 5)ᴴ = (rotOp 5)ᵀ := by
    conv_rhs => rw [← hr]
    rfl
  have hct : ((rotOp 5)ᵀ)ᴴ = rotOp 5 := by rw [← hc, Matrix.conjTranspose_conjTranspose]
  rw [rotated_aklt]
  unfold Matrix.IsHermitian
  rw [Matrix.conjTranspose_mul, Matrix.conjTranspose_mul, Matrix.conjTranspose_kronecker, Matrix.conjTranspose_kronecker, aklt_herm.eq, hc, hct, Matrix.conjTranspose_one, mul_assoc]

theorem rotated_aklt_T (c : Coord) : (Spec.rotatedP Spec.aklt c)ᵀ = Spec.rotatedP Spec.aklt c := by
  rw [rotated_aklt, Matrix.transpose_mul, Matrix.transpose_mul, aklt_T, ← Matrix.kroneckerMap_transpose, ← Matrix.kroneckerMap_transpose, Matrix.transpose_transpose, Matrix.transpose_one, mul_assoc]

section
variable {chi D : Nat} {a : Tensor ℂ} {env : C4v.Env ℂ}

/-- All bonds of a rotation-invariant one-site state are equivalent. -/
theorem bond_turn {p : Nat} (hf : C4v.Spec.Fits chi D p a env) (hr : C4v.Spec.Rotated D p a) (d : Dir) (c : Coord) (H : Op2 p) :
    bond (C4v.tensors a env) (C4v.Spec.dims chi D p) d c H = bond (C4v.tensors a env) (C4v.Spec.dims chi D p) .right (0, 0) H := by
  have h1 : bondNet (C4v.tensors a env) (C4v.Spec.dims chi D p) d c H = bondNet (C4v.tensors a env) (C4v.Spec.dims chi D p) .right (0, 0) H := by
    rw [bondNet, bondNet]
    refine Finset.sum_congr rfl fun r _ => Finset.sum_congr rfl fun s _ => ?_
    rw [Corrf.Spec.twoPoint, C4v.network_turn hf hr d c (0, 0), Corrf.Spec.twoPoint]
  have h2 : Corrf.Spec.norm (C4v.tensors a env) (C4v.Spec.dims chi D p) d c 2 = Corrf.Spec.norm (C4v.tensors a env) (C4v.Spec.dims chi D p) .right (0, 0) 2 := by
    rw [Corrf.Spec.norm, C4v.network_turn hf hr d c (0, 0), Corrf.Spec.norm]
  rw [bond, h1, h2, bond]

/-- C107. What `AKLTS2_C4V_BIPARTITE.energy_1x1` returns: the energy of one bond, half of the energy per site of the checkerboard of `A` and `R A`. -/
theorem C107_energy (eigh : Tensor ℂ → List ℝ × Tensor ℂ) (hchi : 0 < chi) (hD : 0 < D) (hf : C4v.Spec.Fits chi D 5 a env) (hr : C4v.Spec.Rotated D 5 a) (hS : C4v.Spec.CSymm chi env)
    (h0 : (Corrf.Spec.norm (C4v.tensors a env) (C4v.Spec.dims chi D 5) .right (0, 0) 2).re ≠ 0) :
    akltC4v eigh a env = .ok (bond (C4v.tensors a env) (C4v.Spec.dims chi D 5) .right (0, 0) (Spec.rotatedP Spec.aklt (0, 0))) ∧
    akltC4v eigh a env = .ok (1 / 2 * energy (C4v.tensors a env) (C4v.Spec.dims chi D 5) [(0, 0), (1, 0)] (Spec.rotatedP Spec.aklt) (Spec.rotatedP Spec.aklt)) := by
  have h1 : akltC4v eigh a env = .ok (bond (C4v.tensors a env) (C4v.Spec.dims chi D 5) .right (0, 0) (Spec.rotatedP Spec.aklt (0, 0))) := by
    obtain ⟨h, e, i⟩ := akltH_ok
    obtain ⟨g, e', i'⟩ := rot2_ok i
    have hi : Is4 5 g (Spec.rotatedP Spec.aklt (0, 0)) := by
      rw [rotated_aklt, rot_T5]
      exact i'
    obtain ⟨R, r1, r2, r3⟩ := (pairP eigh (by decide : 0 < 5) (C4v.fitsState hD (by decide) hf) (C4v.fitsEnv hchi hf) (fun _ => rfl) (C4v.reads a env) (0, 0)).1 h0
    have r1' := (C4v.C74_row eigh false false hchi hD (by decide) hf hr hS (0, 0)).trans r1
    rw [akltC4v, e, C4v.lift_some, e', C4v.lift_some, r1', Energy.bindOk, full4_is r2 hi (rotated_aklt_T _), C4v.lift_some, r3 _ (rotated_aklt_herm _)]
    rfl
  refine ⟨h1, h1.trans ?_⟩
  have hc : ∀ c, Spec.rotatedP Spec.aklt c = Spec.rotatedP Spec.aklt (0, 0) := fun c => by rw [rotated_aklt, rotated_aklt (0, 0)]
  simp only [energy, hc]
  simp only [List.map_cons, List.map_nil, List.sum_cons, List.sum_nil, bond_turn hf hr, List.length_cons, List.length_nil]
  congr 1
  push_cast
  ring
end

/-! ### The counterexample -/

theorem aklt_neel : Spec.aklt (0, 4) (0, 4) = 1 / 35 ∧ Spec.aklt (4, 0) (4, 0) = 1 / 35 := by
  have h : Spec.aklt = (1 / 1260 : ℂ) • Aklt.a3.map emb := by
    rw [aklt_factors]
    have h := congrArg (fun A : Aklt.Mat => emb.mapMatrix A) Aklt.product
    simp only [map_mul, map_add] at h
    have e : ∀ z : Aklt.Z6, emb.mapMatrix (z • (1 : Aklt.Mat)) = emb z • (1 : Op2 5) := by
      intro z
      ext r s
      simp [Matrix.one_apply, apply_ite emb]
    simp only [e, map_ofNat, RingHom.mapMatrix_apply, ← X_map] at h
    rw [h]
  have h1 : Aklt.a3 (0, 4) (0, 4) = 36 := by decide +kernel
  have h2 : Aklt.a3 (4, 0) (4, 0) = 36 := by decide +kernel
  constructor
  · rw [h, Matrix.smul_apply, Matrix.map_apply, h1, map_ofNat]
    norm_num
  · rw [h, Matrix.smul_apply, Matrix.map_apply, h2, map_ofNat]
    norm_num

/-- C107. The antiferromagnetic product state: its energy per site is `2/35`, `AKLTS2.energy_2x1_1x2` returns it for the cell of two sites, `AKLTS2_C4V_BIPARTITE.energy_1x1` returns `1/35` for the one-site
state with the same density matrices. -/
theorem C107_violated (eigh : Tensor ℂ → List ℝ × Tensor ℂ) : ∃ (a : Tensor ℂ) (env : C4v.Env ℂ), C4v.Spec.Fits 1 1 5 a env ∧ C4v.Spec.Rotated 1 5 a ∧ C4v.Spec.CSymm 1 env ∧
    energy (C4v.tensors a env) (C4v.Spec.dims 1 1 5) [(0, 0), (1, 0)] (Spec.rotatedP Spec.aklt) (Spec.rotatedP Spec.aklt) = 2 / 35 ∧ akltC4v eigh a env = .ok (1 / 35) ∧
    akltEnergy eigh (neelState 5 (by decide)) pEnv = .ok (2 / 35) := by
  have hf : C4v.Spec.Fits 1 1 5 (gSite 5 (ket 0)) (C4v.oneEnv (K := ℂ)) := ⟨rfl, rfl, rfl, rfl⟩
  have hr : C4v.Spec.Rotated 1 5 (gSite 5 (ket 0)) := ⟨1, by simp, fun i u l d r _ _ _ _ _ => by simp [gSite]⟩
  have hS : C4v.Spec.CSymm 1 (C4v.oneEnv (K := ℂ)) := C4v.oneEnv_c
  have ht : C4v.tensors (gSite 5 (ket 0)) C4v.oneEnv = gTensors 5 id fun _ => ket 0 := rfl
  have hd : C4v.Spec.dims 1 1 5 = gDims 5 := rfl
  obtain ⟨k1, k2⟩ := C107_energy eigh (by decide) (by decide) hf hr hS (by
    rw [ht, hd, gNorm _ _ (fun c => ket_norm (by decide))]
    simp)
  have hb : bond (C4v.tensors (gSite 5 (ket 0)) C4v.oneEnv) (C4v.Spec.dims 1 1 5) .right (0, 0) (Spec.rotatedP Spec.aklt (0, 0)) = 1 / 35 := by
    rw [ht, hd]
    have := ketBond id (fun _ => (0 : Fin 5)) .right (0, 0) (Spec.rotatedP Spec.aklt (0, 0))
    refine this.trans ?_
    have hv : Spec.rotatedP Spec.aklt (0, 0) ((0 : Fin 5), (0 : Fin 5)) (0, 0) = Spec.aklt (0, 4) (0, 4) := by
      rw [rotated_aklt]
      simp [Matrix.mul_apply, Fintype.sum_prod_type, Matrix.kroneckerMap_apply, Matrix.one_apply, Fin.sum_univ_five, rotOp]
      ring
    rw [hv, aklt_neel.1]
    norm_num
  rw [hb] at k1
  have k3 := k1.symm.trans k2
  refine ⟨gSite 5 (ket 0), C4v.oneEnv, hf, hr, hS, ?_, k1, ?_⟩
  · have := Except.ok.inj k3
    linarith
  · rw [C105_aklt (st := neelState 5 (by decide)) (N := gTensors 5 neelVts fun c => ket (neel 5 (by decide) c)) eigh (gFitsState _ _ _ (by decide)) (gFitsEnv _ _ _) (neelTiling 5 (by decide)) (fun _ => rfl) (gReads _ _ _)
      (fun c _ => by rw [gNorm _ _ (fun c => ket_norm (Fin.isLt _)), gNorm _ _ (fun c => ket_norm (Fin.isLt _))]; simp)]
    congr 1
    simp only [energy, ketBond]
    have h1 := aklt_neel.1
    have h2 := aklt_neel.2
    have e1 : neel 5 (by decide) (neelVts (0, 0)) = 0 := rfl
    have e2 : neel 5 (by decide) (neelVts (1, 0)) = 4 := rfl
    have e3 : neel 5 (by decide) (neelVts (Corrf.Spec.ahead .right (0, 0) 1)) = 4 := rfl
    have e4 : neel 5 (by decide) (neelVts (Corrf.Spec.ahead .down (0, 0) 1)) = 4 := rfl
    have e5 : neel 5 (by decide) (neelVts (Corrf.Spec.ahead .right (1, 0) 1)) = 0 := rfl
    have e6 : neel 5 (by decide) (neelVts (Corrf.Spec.ahead .down (1, 0) 1)) = 0 := rfl
    simp only [neelState, gState, List.map_cons, List.map_nil, e1, e2, e3, e4, e5, e6, h1, h2]
    norm_num

end
end Verif.Models
