import Verif.Models.PairLemmas
import Verif.Energy.C4vLowmem
/-
C105. The energies of `HB`, `COUPLEDCHAINS`, `AKLTS2` and the coupled ladders are the energies per site of the Hamiltonians that they document.
-/
namespace Verif.Models
open Tensor Ctm Ctm.Spec Spec Su2 Su2.Spec
open scoped Kronecker Matrix

/-! ### The exchange operator -/

theorem SZ_T (p : Nat) : (SZ p)ᵀ = SZ p := by
  ext i j
  simp only [Matrix.transpose_apply, SZ, Matrix.of_apply, Fin.ext_iff]
  by_cases h : (i : Nat) = j
  · simp [h]
  · rw [if_neg h, if_neg (Ne.symm h)]

theorem SP_T (p : Nat) : (SP p)ᵀ = SM p := by
  ext i j
  rw [Matrix.transpose_apply, SP_apply, SM_apply]

theorem SM_T (p : Nat) : (SM p)ᵀ = SP p := by rw [← SP_T, Matrix.transpose_transpose]

theorem ssT_T (p : Nat) : (asMatrix (SS p (1, 1, 1)))ᵀ = asMatrix (SS p (1, 1, 1)) := by
  rw [asMatrix_SS]
  simp only [Matrix.transpose_add, Matrix.transpose_smul, ← Matrix.kroneckerMap_transpose, SZ_T, SP_T, SM_T]
  abel

/-- `j X + k X^2` in the model. -/
theorem h2_ok (p : Nat) (j k : ℝ) : ∃ h, h2 p j k = some h ∧ Is4 p h ((j : ℂ) • exchange p 1 1 1 + (k : ℂ) • exchange p 1 1 1 ^ 2) := by
  obtain ⟨M, e1, h1⟩ := toMat_ok (ssP_is p)
  rw [C11_is_dot_product] at h1
  obtain ⟨M2, e2, h2'⟩ := mm_ok h1 h1
  have h3 := lin_cons (z := (j : ℂ)) h1 (lin_cons (z := (k : ℂ)) h2' lin_nil)
  obtain ⟨T, e3, h4⟩ := toTen_ok h3
  refine ⟨T, ?_, ?_⟩
  · rw [h2, e1, Option.bind_eq_bind, Option.bind_some, e2]
    simp only [Option.bind_eq_bind, Option.bind_some, e3]
  · rw [pow_two]
    simpa using h4

theorem X_herm (p : Nat) : (exchange p 1 1 1).IsHermitian := by
  rw [← C11_is_dot_product]
  exact C11_hermitian p

theorem X_T (p : Nat) : (exchange p 1 1 1)ᵀ = exchange p 1 1 1 := by
  rw [← C11_is_dot_product]
  exact ssT_T p

theorem smul_herm {n : Type} {A : Matrix n n ℂ} (h : A.IsHermitian) (x : ℝ) : ((x : ℂ) • A).IsHermitian := by
  unfold Matrix.IsHermitian
  rw [Matrix.conjTranspose_smul, h]
  simp

theorem h2_herm (p : Nat) (j k : ℝ) : ((j : ℂ) • exchange p 1 1 1 + (k : ℂ) • exchange p 1 1 1 ^ 2).IsHermitian :=
  (smul_herm (X_herm p) j).add (smul_herm ((X_herm p).pow 2) k)

theorem h2_T (p : Nat) (j k : ℝ) : ((j : ℂ) • exchange p 1 1 1 + (k : ℂ) • exchange p 1 1 1 ^ 2)ᵀ = (j : ℂ) • exchange p 1 1 1 + (k : ℂ) • exchange p 1 1 1 ^ 2 := by
  rw [Matrix.transpose_add, Matrix.transpose_smul, Matrix.transpose_smul, Matrix.transpose_pow, X_T]

section
variable {D : Dims} {st : State ℂ} {env : Env ℂ} {N : Corrf.Spec.Tensors ℂ}

/-- C105. `HB.energy_2x1_1x2` for spins of any size. -/
theorem C105_heisenberg (eigh : Tensor ℂ → List ℝ × Tensor ℂ) {p : Nat} (hp0 : 0 < p) (j k : ℝ) (hs : FitsState D st) (he : FitsEnv D st env) (ht : Tiling st) (hp : ∀ c, D.p c = p) (hN : Corrf.Spec.Reads st env N)
    (h0 : ∀ c ∈ st.keys, (Corrf.Spec.norm N D .right c 2).re ≠ 0 ∧ (Corrf.Spec.norm N D .down c 2).re ≠ 0) :
    hbEnergy eigh p j k st env = .ok (energy N D st.keys (p := p)
      (fun _ => (j : ℂ) • exchange p 1 1 1 + (k : ℂ) • exchange p 1 1 1 ^ 2) (fun _ => (j : ℂ) • exchange p 1 1 1 + (k : ℂ) • exchange p 1 1 1 ^ 2) : ℂ) := by
  obtain ⟨h, e, i⟩ := h2_ok p j k
  rw [hbEnergy, e, C4v.lift_some]
  exact bondEnergy_ok eigh hp0 hs he ht hp hN (fun _ => i) (fun _ => i) (fun _ => h2_T p j k) (fun _ => h2_T p j k) (fun _ => h2_herm p j k) (fun _ => h2_herm p j k) h0

/-- C105. `COUPLEDCHAINS.energy_2x1_1x2`: the couplings along x belong to the bonds to the right. -/
theorem C105_chains (eigh : Tensor ℂ → List ℝ × Tensor ℂ) {p : Nat} (hp0 : 0 < p) (jx jy kx ky : ℝ) (hs : FitsState D st) (he : FitsEnv D st env) (ht : Tiling st) (hp : ∀ c, D.p c = p) (hN : Corrf.Spec.Reads st env N)
    (h0 : ∀ c ∈ st.keys, (Corrf.Spec.norm N D .right c 2).re ≠ 0 ∧ (Corrf.Spec.norm N D .down c 2).re ≠ 0) :
    chainsEnergy eigh p jx jy kx ky st env = .ok (energy N D st.keys (p := p)
      (fun _ => (jx : ℂ) • exchange p 1 1 1 + (kx : ℂ) • exchange p 1 1 1 ^ 2) (fun _ => (jy : ℂ) • exchange p 1 1 1 + (ky : ℂ) • exchange p 1 1 1 ^ 2) : ℂ) := by
  obtain ⟨h, e, i⟩ := h2_ok p jx kx
  obtain ⟨h', e', i'⟩ := h2_ok p jy ky
  rw [chainsEnergy, e, C4v.lift_some, e', C4v.lift_some]
  exact bondEnergy_ok eigh hp0 hs he ht hp hN (fun _ => i) (fun _ => i') (fun _ => h2_T p jx kx) (fun _ => h2_T p jy ky) (fun _ => h2_herm p jx kx) (fun _ => h2_herm p jy ky) h0

/-- The polynomial of akltS2.py in the exchange operator. -/
noncomputable def Spec.aklt : Op2 5 :=
  (1 / 14 : ℂ) • (exchange 5 1 1 1 + (7 / 10 : ℂ) • exchange 5 1 1 1 ^ 2 + (7 / 45 : ℂ) • exchange 5 1 1 1 ^ 3 + (1 / 90 : ℂ) • exchange 5 1 1 1 ^ 4)

theorem akltH_ok : ∃ h, akltH = some h ∧ Is4 5 h Spec.aklt := by
  obtain ⟨M, e1, h1⟩ := toMat_ok (ssP_is 5)
  rw [C11_is_dot_product] at h1
  obtain ⟨M2, e2, h2'⟩ := mm_ok h1 h1
  obtain ⟨M3, e3, h3⟩ := mm_ok h2' h1
  obtain ⟨M4, e4, h4⟩ := mm_ok h3 h1
  have h5 := lin_cons (z := 1 / 14) h1 (lin_cons (z := 1 / 14 * (7 / 10)) h2' (lin_cons (z := 1 / 14 * (7 / 45)) h3 (lin_cons (z := 1 / 14 * (1 / 90)) h4 lin_nil)))
  obtain ⟨T, e5, h6⟩ := toTen_ok h5
  refine ⟨T, ?_, ?_⟩
  · rw [akltH, e1, Option.bind_eq_bind, Option.bind_some, e2]
    simp only [Option.bind_eq_bind, Option.bind_some, e3, e4]
    exact e5
  · have : Spec.aklt = (1 / 14 : ℂ) • exchange 5 1 1 1 + ((1 / 14 * (7 / 10) : ℂ) • (exchange 5 1 1 1 * exchange 5 1 1 1) +
        ((1 / 14 * (7 / 45) : ℂ) • (exchange 5 1 1 1 * exchange 5 1 1 1 * exchange 5 1 1 1) +
        ((1 / 14 * (1 / 90) : ℂ) • (exchange 5 1 1 1 * exchange 5 1 1 1 * exchange 5 1 1 1 * exchange 5 1 1 1) + 0))) := by
      rw [Spec.aklt, smul_add, smul_add, smul_add, smul_smul, smul_smul, smul_smul, add_zero, pow_succ _ 3, pow_succ _ 2, pow_two]
      abel
    rw [this]
    exact h6

theorem aklt_herm : Spec.aklt.IsHermitian := by
  have e : Spec.aklt = ((1 / 14 : ℝ) : ℂ) • (exchange 5 1 1 1 + ((7 / 10 : ℝ) : ℂ) • exchange 5 1 1 1 ^ 2 + ((7 / 45 : ℝ) : ℂ) • exchange 5 1 1 1 ^ 3 + ((1 / 90 : ℝ) : ℂ) • exchange 5 1 1 1 ^ 4) := by
    rw [Spec.aklt]
    push_cast
    rfl
  rw [e]
  exact smul_herm ((((X_herm 5).add (smul_herm ((X_herm 5).pow 2) _)).add (smul_herm ((X_herm 5).pow 3) _)).add (smul_herm ((X_herm 5).pow 4) _)) _

theorem aklt_T : Spec.akltᵀ = Spec.aklt := by
  rw [Spec.aklt]
  simp only [Matrix.transpose_add, Matrix.transpose_smul, Matrix.transpose_pow, X_T]

/-- C105. `AKLTS2.energy_2x1_1x2`. -/
theorem C105_aklt (eigh : Tensor ℂ → List ℝ × Tensor ℂ) (hs : FitsState D st) (he : FitsEnv D st env) (ht : Tiling st) (hp : ∀ c, D.p c = 5) (hN : Corrf.Spec.Reads st env N)
    (h0 : ∀ c ∈ st.keys, (Corrf.Spec.norm N D .right c 2).re ≠ 0 ∧ (Corrf.Spec.norm N D .down c 2).re ≠ 0) :
    akltEnergy eigh st env = .ok (energy N D st.keys (fun _ => Spec.aklt) (fun _ => Spec.aklt)) := by
  obtain ⟨h, e, i⟩ := akltH_ok
  rw [akltEnergy, e, C4v.lift_some, bondEnergy_ok eigh (by decide) hs he ht hp hN (fun _ => i) (fun _ => i) (fun _ => aklt_T) (fun _ => aklt_T) (fun _ => aklt_herm) (fun _ => aklt_herm) h0]
  rfl

/-! ### Coupled ladders -/

/-- The interaction of coupledLadders.py along the column `c`, `c + (0,1)`: the rungs of the ladders join rows `2m` and `2m+1`, ladders are coupled by `alpha`. -/
noncomputable def Spec.rung (alpha : ℝ) (c : Coord) : ℝ := if c.2 % 2 = 0 then 1 else alpha

/-- The staggered field `B (-1)^(x+y)`. -/
noncomputable def Spec.stagger (B : ℝ) (c : Coord) : ℝ := B * (-1) ^ (c.1 + c.2)

theorem staggered_spec (B : ℝ) (c : Coord) : staggered B c = Spec.stagger B c := by
  unfold staggered Spec.stagger
  by_cases h : (c.1 + c.2) % 2 = 0
  · rw [if_pos h, Even.neg_one_zpow (Int.even_iff.2 h)]
  · rw [if_neg h, Odd.neg_one_zpow (Int.odd_iff.2 (by omega))]

theorem opP_val {p : Nat} (O : Op p) (i j : Fin p) : (opP p O).val [i, j] = O i j := by simp [opP]

theorem kronP_ok {p : Nat} (A B : Op p) : ∃ R, Energy.kron (opP p A) (opP p B) = some R ∧ Is4 p R (A ⊗ₖ B) := by
  obtain ⟨R, e, s, v⟩ := einsum_ok (fun _ => p) [(opP p A, [0, 2]), (opP p B, [1, 3])] [0, 1, 2, 3] (by simp [opP]) (by decide) (by simp)
  refine ⟨R, e, s, fun i j a b => ?_⟩
  have hv := v (fun n => [(i : Nat), j, a, b].getD n 0) (by
    intro n hn
    simp only [List.mem_cons, List.not_mem_nil, or_false] at hn
    rcases hn with rfl | rfl | rfl | rfl <;> simp)
  have hL : ((List.flatMap Prod.snd [(opP p A, [0, 2]), (opP p B, [1, 3])]).dedup.filter (fun l => l ∉ ([0, 1, 2, 3] : List Nat))) = [] := by
    simp only [List.flatMap_cons, List.flatMap_nil]
    decide
  rw [hL] at hv
  refine (show R.val [(i : Nat), j, a, b] = _ from hv).trans ?_
  simp [sumOver, termOf, opP_val, Matrix.kroneckerMap_apply]

theorem expectP_add {p : Nat} (r : Tensor ℂ) (A B : Op2 p) : expectP r (A + B) = expectP r A + expectP r B := by simp [expectP, mul_add, Finset.sum_add_distrib]

theorem SZ_herm (p : Nat) : (SZ p ⊗ₖ (1 : Op p)).IsHermitian := by
  unfold Matrix.IsHermitian
  rw [Matrix.conjTranspose_kronecker, SZ_conj, Matrix.conjTranspose_one]

theorem SZ1_T (p : Nat) : (SZ p ⊗ₖ (1 : Op p))ᵀ = SZ p ⊗ₖ (1 : Op p) := by
  rw [← Matrix.kroneckerMap_transpose, SZ_T, Matrix.transpose_one]

theorem rung_is (alpha : ℝ) (c : Coord) : Is4 2 (if c.2 % 2 = 0 then ssP 2 else lin [2, 2, 2, 2] [((alpha : ℂ), ssP 2)]) ((Spec.rung alpha c : ℂ) • exchange 2 1 1 1) := by
  have h := ssP_is 2
  rw [C11_is_dot_product] at h
  unfold Spec.rung
  by_cases hc : c.2 % 2 = 0
  · rw [if_pos hc, if_pos hc]
    simpa using h
  · rw [if_neg hc, if_neg hc]
    exact scale4 h

/-- C105. `COUPLEDLADDERS.energy_2x1_1x2`: `S.S` along the rows, the couplings of `Spec.rung` along the columns, the staggered field on every site. -/
theorem C105_ladders (eigh : Tensor ℂ → List ℝ × Tensor ℂ) (alpha bz : ℝ) (hs : FitsState D st) (he : FitsEnv D st env) (ht : Tiling st) (hp : ∀ c, D.p c = 2) (hN : Corrf.Spec.Reads st env N)
    (h0 : ∀ c ∈ st.keys, (Corrf.Spec.norm N D .right c 2).re ≠ 0 ∧ (Corrf.Spec.norm N D .down c 2).re ≠ 0) :
    ladderEnergy eigh alpha bz st env = .ok (energy N D st.keys (p := 2) (fun _ => exchange 2 1 1 1)
      (fun c => (Spec.rung alpha c : ℂ) • exchange 2 1 1 1 + (Spec.stagger bz c : ℂ) • (SZ 2 ⊗ₖ (1 : Op 2)))) := by
  obtain ⟨h1, e, i⟩ := kronP_ok (SZ 2) (1 : Op 2)
  have hss := ssP_is 2
  rw [C11_is_dot_product] at hss
  have loop : ∀ (l : List Coord) (acc : ℂ), (∀ c ∈ l, (Corrf.Spec.norm N D .right c 2).re ≠ 0 ∧ (Corrf.Spec.norm N D .down c 2).re ≠ 0) →
      l.foldlM (ladderStep eigh alpha bz h1 st env) acc = .ok (acc + ((l.map fun c => bond N D .right c (exchange 2 1 1 1) +
        bond N D .down c ((Spec.rung alpha c : ℂ) • exchange 2 1 1 1 + (Spec.stagger bz c : ℂ) • (SZ 2 ⊗ₖ (1 : Op 2)))).sum : ℝ)) := by
    intro l
    induction l with
    | nil => intro acc _; simp [pure, Except.pure]
    | cons c l ih =>
      intro acc h0
      obtain ⟨q1, q2⟩ := pairP eigh (by decide : 0 < 2) hs he hp hN c
      obtain ⟨R, e1, e2, e3⟩ := q1 (h0 c (.head _)).1
      obtain ⟨R', e1', e2', e3'⟩ := q2 (h0 c (.head _)).2
      have a1 := full4_is e2 hss (X_T 2)
      have a2 := full4_is e2' (rung_is alpha c) (by rw [Matrix.transpose_smul, X_T])
      have a3 := full4_is e2' (scale4 (z := (staggered bz c : ℂ)) i) (by rw [Matrix.transpose_smul, SZ1_T])
      have : ladderStep eigh alpha bz h1 st env acc c = .ok (acc + (bond N D .right c (exchange 2 1 1 1) : ℂ) +
          (bond N D .down c ((Spec.rung alpha c : ℂ) • exchange 2 1 1 1 + (Spec.stagger bz c : ℂ) • (SZ 2 ⊗ₖ (1 : Op 2))) : ℂ)) := by
        rw [ladderStep, e1, Energy.bindOk, e1', Energy.bindOk, a1, C4v.lift_some, a2, C4v.lift_some, a3, C4v.lift_some, e3 _ (X_herm 2), staggered_spec,
          ← e3' _ ((smul_herm (X_herm 2) _).add (smul_herm (SZ_herm 2) _)), expectP_add]
        simp only [pure, Except.pure]
        rw [add_assoc (acc + _)]
      rw [List.foldlM_cons, this, Energy.bindOk, ih _ (fun c hc => h0 c (.tail _ hc))]
      congr 1
      rw [List.map_cons, List.sum_cons]
      push_cast
      ring
  have hk : st.keys ≠ [] := List.ne_nil_of_mem (ht.mem (0, 0))
  rw [ladderEnergy, e, C4v.lift_some, loop st.keys 0 h0, Energy.bindOk, if_neg hk, zero_add, energy]
  congr 1
  rw [← Complex.ofReal_natCast, ← Complex.ofReal_div, Complex.ofReal_re]

/-- The exchange of two spins in the frame in which the spins of the odd sublattice are rotated by `u`: `c` is on the odd sublattice if `x + y` is odd. -/
noncomputable def Spec.rotated (c : Coord) : Op2 2 :=
  if (c.1 + c.2) % 2 = 0 then ((1 : Op 2) ⊗ₖ (rotOp 2)ᵀ) * exchange 2 1 1 1 * ((1 : Op 2) ⊗ₖ rotOp 2) else ((rotOp 2)ᵀ ⊗ₖ (1 : Op 2)) * exchange 2 1 1 1 * (rotOp 2 ⊗ₖ (1 : Op 2))

theorem rotated_val (c : Coord) : Spec.rotated c = -((SZ 2 ⊗ₖ SZ 2) + (1 / 2 : ℂ) • (SM 2 ⊗ₖ SM 2 + SP 2 ⊗ₖ SP 2)) := by
  unfold Spec.rotated
  by_cases h : (c.1 + c.2) % 2 = 0
  · rw [if_pos h, ← C11_is_dot_product, asMatrix_SS]
    obtain ⟨_, _, _, hz, hp, hm⟩ := C13_rotation 2
    simp only [mul_add, add_mul, mul_smul_comm, smul_mul_assoc, ← Matrix.mul_kronecker_mul, mul_one, one_mul, hz, hp, hm]
    ext ⟨i, j⟩ ⟨a, b⟩
    simp only [Matrix.add_apply, Matrix.smul_apply, Matrix.neg_apply, Matrix.kroneckerMap_apply, smul_eq_mul]
    ring
  · rw [if_neg h, ← C11_is_dot_product, ← (C13_rotated_exchange 2 1 1).1, (C13_rotated_exchange 2 1 1).2, one_smul]

theorem rotated_T (c : Coord) : (Spec.rotated c)ᵀ = Spec.rotated c := by
  rw [rotated_val]
  simp only [Matrix.transpose_neg, Matrix.transpose_add, Matrix.transpose_smul, ← Matrix.kroneckerMap_transpose, SZ_T, SP_T, SM_T]
  rw [add_comm (SP 2 ⊗ₖ SP 2)]

theorem rotated_herm (c : Coord) : (Spec.rotated c).IsHermitian := by
  rw [rotated_val]
  unfold Matrix.IsHermitian
  simp only [Matrix.conjTranspose_neg, Matrix.conjTranspose_add, Matrix.conjTranspose_smul, Matrix.conjTranspose_kronecker, SZ_conj, SP_conj, SM_conj]
  simp [add_comm]

theorem rotated_swap (c : Coord) (r s : Fin 2 × Fin 2) : Spec.rotated c (r.2, r.1) (s.2, s.1) = Spec.rotated c r s := by
  rw [rotated_val]
  simp only [Matrix.add_apply, Matrix.smul_apply, Matrix.neg_apply, Matrix.kroneckerMap_apply, smul_eq_mul]
  ring

/-- Conjugation of the first spin. -/
theorem rot1_ok {p : Nat} {O : Tensor ℂ} {H : Op2 p} (h : Is4 p O H) : ∃ R, rot1 p O = some R ∧ Is4 p R (((rotOp p)ᵀ ⊗ₖ (1 : Op p)) * H * (rotOp p ⊗ₖ (1 : Op p))) := by
  obtain ⟨R, e, s, v⟩ := einsum_ok (fun _ => p) [(opP p (rotOp p), [10, 0]), (O, [10, 1, 11, 3]), (opP p (rotOp p), [11, 2])] [0, 1, 2, 3] (by simp [h.shape, opP]) (by decide) (by simp)
  refine ⟨R, e, s, fun i j a b => ?_⟩
  have hv := v (fun n => [(i : Nat), j, a, b].getD n 0) (by
    intro n hn
    simp only [List.mem_cons, List.not_mem_nil, or_false] at hn
    rcases hn with rfl | rfl | rfl | rfl <;> simp)
  have hL : ((List.flatMap Prod.snd [(opP p (rotOp p), [10, 0]), (O, [10, 1, 11, 3]), (opP p (rotOp p), [11, 2])]).dedup.filter (fun l => l ∉ ([0, 1, 2, 3] : List Nat))) = [10, 11] := by
    simp only [List.flatMap_cons, List.flatMap_nil]
    decide
  rw [hL] at hv
  refine (show R.val [(i : Nat), j, a, b] = _ from hv).trans ?_
  have hr : (((rotOp p)ᵀ ⊗ₖ (1 : Op p)) * H * (rotOp p ⊗ₖ (1 : Op p))) (i, j) (a, b) = ∑ k, ∑ l, rotOp p k i * H (k, j) (l, b) * rotOp p l a := by
    simp only [Matrix.mul_apply, Fintype.sum_prod_type, Matrix.kroneckerMap_apply, Matrix.transpose_apply, Matrix.one_apply]
    rw [Finset.sum_comm]
    simp [Finset.sum_mul]
    rw [Finset.sum_comm]
  rw [hr]
  simp only [sumOver, Finset.sum_range]
  refine Finset.sum_congr rfl fun k _ => Finset.sum_congr rfl fun l _ => ?_
  rw [← h.val, ← opP_val (rotOp p) k i, ← opP_val (rotOp p) l a]
  simp [termOf, Function.update]
  ring

theorem rotFirst_is : ∃ h, rot1 2 (ssP 2) = some h ∧ ∀ c, Is4 2 h (Spec.rotated c) := by
  have h := ssP_is 2
  rw [C11_is_dot_product] at h
  obtain ⟨R, e, hR⟩ := rot1_ok h
  refine ⟨R, e, fun c => ?_⟩
  have h1 := rotated_val (1, 0)
  rw [Spec.rotated, if_neg (by decide)] at h1
  rw [rotated_val c, ← h1]
  exact hR

theorem full4rev_is {r h : Tensor ℂ} {H : Op2 2} (hr : r.shape = [2, 2, 2, 2]) (hh : Is4 2 h H) (hT : Hᵀ = H) (hw : ∀ r s : Fin 2 × Fin 2, H (r.2, r.1) (s.2, s.1) = H r s) :
    full4rev r h = some (expectP r H) := by
  obtain ⟨R, e, -, v⟩ := einsum_ok (fun _ => 2) [(r, [0, 1, 2, 3]), (h, [1, 0, 3, 2])] [] (by simp [hr, hh.shape]) (by decide) (by simp)
  have hv := v (fun _ => 0) (by simp)
  rw [List.map_nil] at hv
  have hL : ((List.flatMap Prod.snd [(r, [0, 1, 2, 3]), (h, [1, 0, 3, 2])]).dedup.filter (fun l => l ∉ ([] : List Nat))) = [1, 0, 3, 2] := by
    simp only [List.flatMap_cons, List.flatMap_nil]
    decide
  rw [hL] at hv
  unfold full4rev
  rw [e]
  refine congrArg some (hv.trans ?_)
  simp only [sumOver, expectP]
  rw [sumFin2 (fun j i b a => _)]
  rw [← (Equiv.prodComm (Fin 2) (Fin 2)).sum_comp]
  refine Finset.sum_congr rfl fun r _ => ?_
  rw [← (Equiv.prodComm (Fin 2) (Fin 2)).sum_comp]
  refine Finset.sum_congr rfl fun s _ => ?_
  have : H s r = H (r.2, r.1) (s.2, s.1) := by rw [← Matrix.transpose_apply H, hT, hw]
  rw [this, ← hh.val]
  simp [termOf, Function.update]

/-- C105. `COUPLEDLADDERS_D2_BIPARTITE.energy_2x1_1x2`: the same couplings in the rotated frame. -/
theorem C105_rotated_ladders (eigh : Tensor ℂ → List ℝ × Tensor ℂ) (alpha : ℝ) (hs : FitsState D st) (he : FitsEnv D st env) (ht : Tiling st) (hp : ∀ c, D.p c = 2) (hN : Corrf.Spec.Reads st env N)
    (h0 : ∀ c ∈ st.keys, (Corrf.Spec.norm N D .right c 2).re ≠ 0 ∧ (Corrf.Spec.norm N D .down c 2).re ≠ 0) :
    d2Energy eigh alpha st env = .ok (energy N D st.keys (p := 2) Spec.rotated (fun c => (Spec.rung alpha c : ℂ) • Spec.rotated c)) := by
  obtain ⟨h, e, i⟩ := rotFirst_is
  have loop : ∀ (l : List Coord) (acc : ℂ), (∀ c ∈ l, (Corrf.Spec.norm N D .right c 2).re ≠ 0 ∧ (Corrf.Spec.norm N D .down c 2).re ≠ 0) →
      l.foldlM (d2Step eigh alpha h st env) acc = .ok (acc + ((l.map fun c => bond N D .right c (Spec.rotated c) + bond N D .down c ((Spec.rung alpha c : ℂ) • Spec.rotated c)).sum : ℝ)) := by
    intro l
    induction l with
    | nil => intro acc _; simp [pure, Except.pure]
    | cons c l ih =>
      intro acc h0
      obtain ⟨q1, q2⟩ := pairP eigh (by decide : 0 < 2) hs he hp hN c
      obtain ⟨R, e1, e2, e3⟩ := q1 (h0 c (.head _)).1
      obtain ⟨R', e1', e2', e3'⟩ := q2 (h0 c (.head _)).2
      have a1 := full4_is e2 (i c) (rotated_T c)
      have a2 : (if c.2 % 2 = 0 then Energy.full4 R' h else full4rev R' (lin [2, 2, 2, 2] [((alpha : ℂ), h)])) = some (expectP R' ((Spec.rung alpha c : ℂ) • Spec.rotated c)) := by
        unfold Spec.rung
        by_cases hc : c.2 % 2 = 0
        · rw [if_pos hc, if_pos hc]
          simpa using full4_is e2' (i c) (rotated_T c)
        · rw [if_neg hc, if_neg hc]
          refine full4rev_is e2' (scale4 (i c)) (by rw [Matrix.transpose_smul, rotated_T]) fun r s => ?_
          rw [Matrix.smul_apply, Matrix.smul_apply, rotated_swap]
      have : d2Step eigh alpha h st env acc c = .ok (acc + (bond N D .right c (Spec.rotated c) : ℂ) + (bond N D .down c ((Spec.rung alpha c : ℂ) • Spec.rotated c) : ℂ)) := by
        rw [d2Step, e1, Energy.bindOk, e1', Energy.bindOk, a1, C4v.lift_some, a2, C4v.lift_some, e3 _ (rotated_herm c), e3' _ (smul_herm (rotated_herm c) _)]
        rfl
      rw [List.foldlM_cons, this, Energy.bindOk, ih _ (fun c hc => h0 c (.tail _ hc))]
      congr 1
      rw [List.map_cons, List.sum_cons]
      push_cast
      ring
  have hk : st.keys ≠ [] := List.ne_nil_of_mem (ht.mem (0, 0))
  rw [d2Energy, e, C4v.lift_some, loop st.keys 0 h0, Energy.bindOk, if_neg hk, zero_add, energy]
  congr 1
  rw [← Complex.ofReal_natCast, ← Complex.ofReal_div, Complex.ofReal_re]
end

end Verif.Models
