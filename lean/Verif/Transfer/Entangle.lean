import Verif.Transfer.Witness
/-
C97: the entanglement spectrum of a cylinder and the values of `get_EH_spec_Ttensor`.
-/
namespace Verif.Transfer
open Tensor Ctm Ctm.Spec Spec Corrf.Spec
open scoped Matrix

namespace Spec
variable {α β κ : Type} [Fintype α] [DecidableEq α] [Fintype β] [Fintype κ]

/-- The two halves of a cylinder as maps between the cut bonds and the physical indices of the halves: `A a k` on the left, `B k b` on the right. The wavefunction is their product. -/
noncomputable def wave (A : Matrix α κ ℂ) (B : Matrix κ β ℂ) : α → β → ℂ := fun a b => ∑ k, A a k * B k b

/-- The reduced density operator of the left half, not normalised: the trace over the physical indices of the right half. -/
noncomputable def reduced (A : Matrix α κ ℂ) (B : Matrix κ β ℂ) : Matrix α α ℂ := fun a a' => ∑ b, wave A B a b * star (wave A B a' b)

/-- The boundary operators (rows: ket, columns: bra) are those of the halves `A`, `B`. -/
def Halves (A : Matrix α κ ℂ) (B : Matrix κ β ℂ) (sL sR : Matrix κ κ ℂ) : Prop :=
  (∀ k k', sL k k' = ∑ a, A a k * star (A a k')) ∧ ∀ k k', sR k k' = ∑ b, B k b * star (B k' b)

/-- `r` lists `n` leading eigenvalues of `ρ`, where zeros do not count, multiplied by a common positive number, in any order. -/
def Entanglement (ρ : Matrix α α ℂ) (n : Nat) (r : List (ℝ × ℝ)) : Prop :=
  r.length = n ∧ ∃ s : ℝ, 0 < s ∧ ∃ rest : Multiset ℂ, ρ.charpoly.roots.filter (· ≠ 0) = ((r.map (fun p => (s : ℂ) * row p) : List ℂ) : Multiset ℂ).filter (· ≠ 0) + rest ∧
    ∀ x ∈ rest, ∀ p ∈ r, ‖x‖ ≤ ‖(s : ℂ) * row p‖

end Spec

section
variable {α β κ : Type} [Fintype α] [DecidableEq α] [Fintype β] [DecidableEq β] [Fintype κ] [DecidableEq κ]

/-- The nonzero eigenvalues of the reduced density operator are those of the product of the right boundary operator and the TRANSPOSE of the left one. -/
theorem reduced_same {A : Matrix α κ ℂ} {B : Matrix κ β ℂ} {sL sR : Matrix κ κ ℂ} (h : Halves A B sL sR) : SameNonzero (reduced A B) (sLᵀ * sR) := by
  have e1 : reduced A B = A * (B * (A * B)ᴴ) := by
    rw [← Matrix.mul_assoc]
    ext a a'
    simp [reduced, wave, Matrix.mul_apply, mul_comm]
  have e2 : B * (A * B)ᴴ * A = sR * sLᵀ := by
    rw [Matrix.conjTranspose_mul, ← Matrix.mul_assoc, Matrix.mul_assoc]
    congr 1
    · ext k k'
      simp [h.2, Matrix.mul_apply]
    · ext k k'
      simp [h.1, Matrix.mul_apply, mul_comm]
  rw [e1]
  refine (sameNonzero_mul_comm _ _).trans ?_
  rw [e2]
  exact sameNonzero_mul_comm _ _

theorem entanglement_of {ρ : Matrix α α ℂ} {M : Matrix κ κ ℂ} (h : SameNonzero M ρ) {n : Nat} {r : List (ℝ × ℝ)} {s : ℝ} (s0 : 0 < s) (hl : Leading M n (r.map (fun p => (s : ℂ) * row p))) :
    Entanglement ρ n r := by
  obtain ⟨h1, rest, h2, h3⟩ := hl
  refine ⟨by simpa using h1, s, s0, rest.filter (· ≠ 0), ?_, ?_⟩
  · rw [← h, h2, Multiset.filter_add]
  · intro x hx p hp
    exact h3 x (Multiset.mem_filter.1 hx).1 _ (List.mem_map_of_mem hp)

end

section
variable {D : Dims} {st : State ℂ} {env : Env ℂ} {N : Tensors ℂ}

/-- **C97.** If the half-row tensors are exact, i.e. the rings of them are the boundary operators of the halves `A`, `B` of a cylinder, then `get_EH_spec_Ttensor` returns the leading part of
the entanglement spectrum of the cylinder up to a common factor. Partial: provided that the left boundary operator is symmetric (for instance real). -/
theorem C97_partial {α β : Type} [Fintype α] [DecidableEq α] [Fintype β] [DecidableEq β] {eigs : Eigs} (hei : Solves eigs) (ht : Tiling st) (hs : FitsState D st) (he : FitsEnv D st env) (hN : Reads st env N)
    (hp : Periodic st) (hU : Uniform D env.chi) (n L : Nat) (c : Coord) (d : Dir) (A : Matrix α (Fin (cutBonds D d (growDir d) c L).prod) ℂ) (B : Matrix (Fin (cutBonds D d (growDir d) c L).prod) β ℂ)
    (hAB : Halves A B (boundary N D env.chi (Corrf.rev d) (growDir d) c L (cutBonds D d (growDir d) c L)) (boundary N D env.chi d (growDir d) c L (cutBonds D d (growDir d) c L)))
    (hsym : (boundary N D env.chi (Corrf.rev d) (growDir d) c L (cutBonds D d (growDir d) c L)).IsSymm)
    {r : List (ℝ × ℝ)} (h : specEH eigs n L c d st env = .ok (some r)) : Entanglement (reduced A B) n r := by
  obtain ⟨⟨s, s0, hl⟩, _⟩ := C95_values_partial hei ht hs he hN hp hU n L c d h
  have h1 := reduced_same hAB
  rw [hsym.eq] at h1
  exact entanglement_of h1.symm s0 hl

end

/-! ### A state for which it fails -/

/-- `[[2, i], [-i, 2]]` and its square `[[5, 4i], [-4i, 5]]`. -/
noncomputable def hRoot (i j : Nat) : ℂ := if i = j then 2 else if i < j then Complex.I else -Complex.I
noncomputable def hSq (i j : Nat) : ℂ := if i = j then 5 else if i < j then 4 * Complex.I else -(4 * Complex.I)

noncomputable def eHalf (i : Nat) : ℂ := hSq (i / 2) (i % 2)

noncomputable def eTensors : Tensors ℂ where
  lu := fun _ => ⟨[1, 1], fun _ => 1⟩
  ru := fun _ => ⟨[1, 1], fun _ => 1⟩
  rd := fun _ => ⟨[1, 1], fun _ => 1⟩
  ld := fun _ => ⟨[1, 1], fun _ => 1⟩
  tu := fun _ => ⟨[1, 4, 1], fun i => eHalf (i.getD 1 0)⟩
  tl := fun _ => ⟨[1, 1, 4], fun i => eHalf (i.getD 2 0)⟩
  td := fun _ => ⟨[4, 1, 1], fun i => eHalf (i.getD 0 0)⟩
  tr := fun _ => ⟨[1, 4, 1], fun i => eHalf (i.getD 1 0)⟩
  a := fun _ => ⟨[1, 2, 2, 2, 2], fun _ => 1⟩

noncomputable def eEnv : Env ℂ where
  chi := 1
  C := fun _ => some ⟨[1, 1], fun _ => 1⟩
  T := fun k =>
    if k.2 = (0, -1) then some ⟨[1, 4, 1], fun i => eHalf (i.getD 1 0)⟩
    else if k.2 = (-1, 0) then some ⟨[1, 1, 4], fun i => eHalf (i.getD 2 0)⟩
    else if k.2 = (0, 1) then some ⟨[4, 1, 1], fun i => eHalf (i.getD 0 0)⟩
    else if k.2 = (1, 0) then some ⟨[1, 4, 1], fun i => eHalf (i.getD 1 0)⟩
    else none

theorem eReads : Reads bState eEnv eTensors := by
  constructor <;> intro c <;> simp [eEnv, bState, eTensors]

theorem eFitsEnv : FitsEnv bDims bState eEnv := by
  have hN := eReads
  exact ⟨fun c => ⟨_, hN.lu c, rfl⟩, fun c => ⟨_, hN.ru c, rfl⟩, fun c => ⟨_, hN.rd c, rfl⟩, fun c => ⟨_, hN.ld c, rfl⟩, fun c => ⟨_, hN.tu c, rfl⟩, fun c => ⟨_, hN.tl c, rfl⟩,
    fun c => ⟨_, hN.td c, rfl⟩, fun c => ⟨_, hN.tr c, rfl⟩, bSizes one_pos, bSizes one_pos, bSizes one_pos, bSizes one_pos⟩

/-- Two sites side by side. -/
noncomputable def pair (g : Nat → Nat → ℂ) : Matrix (Fin 4) (Fin 4) ℂ := fun i j => g (i.1 / 2) (j.1 / 2) * g (i.1 % 2) (j.1 % 2)

theorem ring_pair {ts : List (Nat → Nat → Nat → Nat → ℂ)} (hts : ts = [fun _ _ k j => eHalf (k * 2 + j), fun _ _ k j => eHalf (k * 2 + j)]) :
    ringMatrix 1 ts [2, 2] = pair hSq := by
  subst hts
  ext i j
  change Fin 4 at i j
  fin_cases i <;> fin_cases j <;> simp [ringMatrix, ring, block, unravel, eHalf, pair, Matrix.trace, Matrix.mul_apply]

theorem e_left : boundary eTensors bDims 1 (Corrf.rev .right) (growDir .right) (0, 0) 2 (cutBonds bDims .right (growDir .right) (0, 0) 2) = pair hSq := ring_pair rfl
theorem e_right : boundary eTensors bDims 1 .right (growDir .right) (0, 0) 2 (cutBonds bDims .right (growDir .right) (0, 0) 2) = pair hSq := ring_pair rfl

/-- Eigenvectors of the factors: `(1, -i)` and `(1, i)`. -/
noncomputable def hVec (i j : Nat) : ℂ := if i = 0 then 1 else if j = 0 then -Complex.I else Complex.I
noncomputable def hInv (i j : Nat) : ℂ := if j = 0 then 1 / 2 else if i = 0 then Complex.I / 2 else -Complex.I / 2

/-- Eigenvalues of the factors: 9 and 1. -/
noncomputable def hVal (i : Fin 4) : ℂ := (if i.1 / 2 = 0 then 9 else 1) * (if i.1 % 2 = 0 then 9 else 1)

theorem pair_mul (g h : Nat → Nat → ℂ) : pair g * pair h = pair (fun i j => g i 0 * h 0 j + g i 1 * h 1 j) := by
  ext i j
  simp [pair, Matrix.mul_apply, Fin.sum_univ_four]
  ring

theorem pair_congr {g h : Nat → Nat → ℂ} (e : ∀ i < 2, ∀ j < 2, g i j = h i j) : pair g = pair h := by
  ext i j
  simp only [pair]
  rw [e _ (by omega) _ (by omega), e _ (by omega) _ (by omega)]

theorem pair_one : pair (fun i j => if i = j then 1 else 0) = 1 := by
  ext i j
  fin_cases i <;> fin_cases j <;> simp [pair]

theorem two_cases {P : Nat → Nat → Prop} (h00 : P 0 0) (h01 : P 0 1) (h10 : P 1 0) (h11 : P 1 1) : ∀ i < 2, ∀ j < 2, P i j := by
  intro i hi j hj
  have a1 : i = 0 ∨ i = 1 := by omega
  have a2 : j = 0 ∨ j = 1 := by omega
  rcases a1 with rfl | rfl <;> rcases a2 with rfl | rfl <;> assumption

theorem pair_diagonal : pair (fun i j => if i = j then (if i = 0 then 9 else 1) else 0) = Matrix.diagonal hVal := by
  ext i j
  fin_cases i <;> fin_cases j <;> simp [pair, hVal]

theorem inv_vec : pair hInv * pair hVec = 1 := by
  rw [pair_mul, ← pair_one]
  refine pair_congr (two_cases ?_ ?_ ?_ ?_) <;> simp [hInv, hVec] <;> apply Complex.ext <;> simp <;> norm_num

theorem sq_vec : pair hSq = pair hVec * (Matrix.diagonal hVal * pair hInv) := by
  rw [← pair_diagonal, pair_mul, pair_mul]
  refine pair_congr (two_cases ?_ ?_ ?_ ?_) <;> simp [hInv, hVec, hSq] <;> apply Complex.ext <;> simp <;> norm_num

/-- The square of the boundary operator has eigenvalues 6561, 81, 81, 1. -/
theorem sq_roots : (pair hSq * pair hSq).charpoly.roots = {6561, 81, 81, 1} := by
  have e : pair hSq * pair hSq = pair hVec * (Matrix.diagonal hVal * Matrix.diagonal hVal * pair hInv) := by
    conv_lhs => rw [sq_vec]
    rw [Matrix.mul_assoc, Matrix.mul_assoc, ← Matrix.mul_assoc (pair hInv) (pair hVec), inv_vec, Matrix.one_mul, Matrix.mul_assoc]
  rw [e, Matrix.charpoly_mul_comm, Matrix.mul_assoc, inv_vec, Matrix.mul_one, Matrix.diagonal_mul_diagonal, Matrix.charpoly_diagonal]
  have : (∏ i, (Polynomial.X - Polynomial.C (hVal i * hVal i))) = ((Finset.univ.val.map (fun i => hVal i * hVal i)).map (fun a => Polynomial.X - Polynomial.C a)).prod := by
    rw [Multiset.map_map]; rfl
  rw [this, Polynomial.roots_multiset_prod_X_sub_C]
  have : (Finset.univ : Finset (Fin 4)).val = (([0, 1, 2, 3] : List (Fin 4)) : Multiset (Fin 4)) := rfl
  rw [this]
  simp [hVal]
  norm_num
  rfl

/-- The halves: on the left the transpose of the square root of the boundary operator, on the right the root. -/
theorem eHalves : Halves (pair (fun i j => hRoot j i)) (pair hRoot) (pair hSq) (pair hSq) := by
  have e1 : pair hSq = pair (fun i j => hRoot i 0 * star (hRoot j 0) + hRoot i 1 * star (hRoot j 1)) := by
    refine pair_congr (two_cases ?_ ?_ ?_ ?_) <;> simp [hRoot, hSq] <;> apply Complex.ext <;> simp <;> norm_num
  constructor <;> intro k k' <;> rw [e1] <;> simp [pair, Fin.sum_univ_four] <;> ring

theorem eReduced : reduced (pair (fun i j => hRoot j i)) (pair hRoot) = Matrix.diagonal (fun _ => 81) := by
  have e1 : (pair (fun i j => hRoot j i)) * pair hRoot = pair (fun i j => if i = j then 3 else 0) := by
    rw [pair_mul]
    refine pair_congr (two_cases ?_ ?_ ?_ ?_) <;> simp [hRoot] <;> apply Complex.ext <;> simp <;> norm_num
  have e2 : wave (pair (fun i j => hRoot j i)) (pair hRoot) = pair (fun i j => if i = j then 3 else 0) := e1
  ext a a'
  rw [reduced, e2]
  simp only [Fin.sum_univ_four]
  fin_cases a <;> fin_cases a' <;> simp [pair] <;> norm_num

/-- **C97 fails.** A complex state whose entanglement spectrum is flat: all eigenvalues of the reduced density operator are equal. Whatever the solver, the two values returned are not the leading part of it (not
even up to a factor): their moduli are in the ratio of 1 to 81. Values are returned. -/
theorem C97_violated : ∃ (st : State ℂ) (env : Env ℂ) (N : Tensors ℂ) (D : Dims) (A B : Matrix (Fin 4) (Fin 4) ℂ), Tiling st ∧ FitsState D st ∧ FitsEnv D st env ∧ Reads st env N ∧ Periodic st ∧ Uniform D env.chi ∧
    Halves A B (boundary N D env.chi (Corrf.rev .right) (growDir .right) (0, 0) 2 [2, 2]) (boundary N D env.chi .right (growDir .right) (0, 0) 2 [2, 2]) ∧
    cutBonds D .right (growDir .right) (0, 0) 2 = [2, 2] ∧
    (∀ eigs, Solves eigs → ∀ r, specEH eigs 2 2 (0, 0) .right st env = .ok (some r) → ¬ Entanglement (reduced A B) 2 r) ∧
    ∃ r, specEH ideal 2 2 (0, 0) .right st env = .ok (some r) := by
  refine ⟨bState, eEnv, eTensors, bDims, pair (fun i j => hRoot j i), pair hRoot, bTiling, bFitsState, eFitsEnv, eReads, bPeriodic, bUniform, ?_, rfl, ?_, ?_⟩
  · exact (show Halves _ _ (boundary eTensors bDims 1 (Corrf.rev .right) (growDir .right) (0, 0) 2 [2, 2]) (boundary eTensors bDims 1 .right (growDir .right) (0, 0) 2 [2, 2]) from by
      rw [show boundary eTensors bDims 1 (Corrf.rev .right) (growDir .right) (0, 0) 2 [2, 2] = pair hSq from e_left, show boundary eTensors bDims 1 .right (growDir .right) (0, 0) 2 [2, 2] = pair hSq from e_right]
      exact eHalves)
  · intro eigs hei r h ⟨hlen, s, s0, rest, hr, hrest⟩
    obtain ⟨⟨t, t0, hl⟩, _⟩ := C95_values_partial hei bTiling bFitsState eFitsEnv eReads bPeriodic bUniform 2 2 (0, 0) .right h
    have hM : boundary eTensors bDims eEnv.chi (Corrf.rev .right) (growDir .right) (0, 0) 2 (cutBonds bDims .right (growDir .right) (0, 0) 2) *
        boundary eTensors bDims eEnv.chi .right (growDir .right) (0, 0) 2 (cutBonds bDims .right (growDir .right) (0, 0) 2) = pair hSq * pair hSq := by
      rw [show boundary eTensors bDims eEnv.chi (Corrf.rev .right) (growDir .right) (0, 0) 2 (cutBonds bDims .right (growDir .right) (0, 0) 2) = pair hSq from e_left,
        show boundary eTensors bDims eEnv.chi .right (growDir .right) (0, 0) 2 (cutBonds bDims .right (growDir .right) (0, 0) 2) = pair hSq from e_right]
      rfl
    have hroots : (boundary eTensors bDims eEnv.chi (Corrf.rev .right) (growDir .right) (0, 0) 2 (cutBonds bDims .right (growDir .right) (0, 0) 2) *
        boundary eTensors bDims eEnv.chi .right (growDir .right) (0, 0) 2 (cutBonds bDims .right (growDir .right) (0, 0) 2)).charpoly.roots = {6561, 81, 81, 1} := by
      rw [hM]; exact sq_roots
    obtain ⟨_, rest', hr', hb⟩ := hl
    rw [hroots] at hr'
    obtain ⟨p, q, rfl⟩ := List.length_eq_two.1 hlen
    simp only [List.map_cons, List.map_nil] at hr' hb hr
    have hval : ∀ x ∈ ({6561, 81, 81, 1} : Multiset ℂ), x = 6561 ∨ x = 81 ∨ x = 1 := by intro x hx; simpa using hx
    have hp := hval (t * row p) (by rw [hr']; simp)
    have hq := hval (t * row q) (by rw [hr']; simp)
    have hp0 : row p ≠ 0 := by rintro e; simp [e] at hp
    have hq0 : row q ≠ 0 := by rintro e; simp [e] at hq
    have hs0 : (s : ℂ) ≠ 0 := by exact_mod_cast s0.ne'
    rw [eReduced, Matrix.charpoly_diagonal] at hr
    have h81 : ∀ x ∈ ((∏ i : Fin 4, (Polynomial.X - Polynomial.C (81 : ℂ))).roots.filter (· ≠ 0)), x = 81 := by
      intro x hx
      have := (Multiset.mem_filter.1 hx).1
      rw [Finset.prod_const, Polynomial.roots_pow] at this
      have := Multiset.mem_of_mem_nsmul this
      rw [Polynomial.roots_X_sub_C] at this
      simpa using this
    have ep : (s : ℂ) * row p = 81 := h81 _ (by rw [hr]; exact Multiset.mem_add.2 (.inl (Multiset.mem_filter.2 ⟨by simp, mul_ne_zero hs0 hp0⟩)))
    have eq : (s : ℂ) * row q = 81 := h81 _ (by rw [hr]; exact Multiset.mem_add.2 (.inl (Multiset.mem_filter.2 ⟨by simp, mul_ne_zero hs0 hq0⟩)))
    have hpq : row p = row q := mul_left_cancel₀ hs0 (ep.trans eq.symm)
    rw [← hpq] at hr' hb
    generalize (t : ℂ) * row p = v at hr' hb hp
    have h6 : (6561 : ℂ) ∈ ((([v, v] : List ℂ)) : Multiset ℂ) + rest' := by rw [← hr']; simp
    have hne : v ≠ 6561 := by
      rintro rfl
      have h1 : ({6561, 81, 81, 1} : Multiset ℂ) = 6561 ::ₘ {81, 81, 1} := rfl
      have h2 : ((([6561, 6561] : List ℂ)) : Multiset ℂ) + rest' = 6561 ::ₘ (6561 ::ₘ rest') := by
        rw [← Multiset.cons_coe, Multiset.cons_add, ← Multiset.cons_coe, Multiset.cons_add]; simp
      rw [h1, h2, Multiset.cons_inj_right] at hr'
      have : (6561 : ℂ) ∈ ({81, 81, 1} : Multiset ℂ) := by rw [hr']; simp
      simp at this
    have h7 : (6561 : ℂ) ∈ rest' := by
      rcases Multiset.mem_add.1 h6 with h7 | h7
      · simp at h7; exact absurd h7.symm hne
      · exact h7
    have h8 := hb _ h7 v (by simp)
    rcases hp with rfl | rfl | rfl
    · exact hne rfl
    · norm_num at h8
    · norm_num at h8
  · refine C95_defined ideal_solves ideal_ascending bTiling bFitsState eFitsEnv eReads bPeriodic bUniform 2 2 (0, 0) .right (by omega) (by omega) ⟨rfl, rfl⟩ (by decide)
      ⟨1, ?_, one_ne_zero⟩ (fun f M hM => ideal_some hM (by decide) false)
    have hM : boundary eTensors bDims eEnv.chi (Corrf.rev .right) (growDir .right) (0, 0) 2 (cutBonds bDims .right (growDir .right) (0, 0) 2) *
        boundary eTensors bDims eEnv.chi .right (growDir .right) (0, 0) 2 (cutBonds bDims .right (growDir .right) (0, 0) 2) = pair hSq * pair hSq := by
      rw [show boundary eTensors bDims eEnv.chi (Corrf.rev .right) (growDir .right) (0, 0) 2 (cutBonds bDims .right (growDir .right) (0, 0) 2) = pair hSq from e_left,
        show boundary eTensors bDims eEnv.chi .right (growDir .right) (0, 0) 2 (cutBonds bDims .right (growDir .right) (0, 0) 2) = pair hSq from e_right]
      rfl
    rw [hM]
    exact (show (1 : ℂ) ∈ (pair hSq * pair hSq).charpoly.roots from by rw [sq_roots]; simp)

/-- The hypotheses of C97_partial are met: the state of C95, with `A` the identity and `B` the root of the right boundary operator. -/
example : ∃ (A B : Matrix (Fin 4) (Fin 4) ℂ), Halves A B (boundary bTensors bDims 1 (Corrf.rev .right) (growDir .right) (0, 0) 2 (cutBonds bDims .right (growDir .right) (0, 0) 2))
      (boundary bTensors bDims 1 .right (growDir .right) (0, 0) 2 (cutBonds bDims .right (growDir .right) (0, 0) 2)) ∧
    (boundary bTensors bDims 1 (Corrf.rev .right) (growDir .right) (0, 0) 2 (cutBonds bDims .right (growDir .right) (0, 0) 2)).IsSymm := by
  have h1 : boundary bTensors bDims 1 (Corrf.rev .right) (growDir .right) (0, 0) 2 (cutBonds bDims .right (growDir .right) (0, 0) 2) =
      (Matrix.diagonal (fun i : Fin [2, 2].prod => (if i.1 / 2 = 0 then 1 else 1) * (if i.1 % 2 = 0 then 1 else 1)) : Matrix (Fin [2, 2].prod) (Fin [2, 2].prod) ℂ) := ring_diag (s := 1) rfl
  have h2 : boundary bTensors bDims 1 .right (growDir .right) (0, 0) 2 (cutBonds bDims .right (growDir .right) (0, 0) 2) =
      Matrix.diagonal (fun i : Fin [2, 2].prod => (if i.1 / 2 = 0 then 1 else 2) * (if i.1 % 2 = 0 then 1 else 2)) := ring_diag (s := 2) rfl
  refine ⟨1, Matrix.diagonal (fun i => ((Real.sqrt ((if i.1 / 2 = 0 then 1 else 2) * (if i.1 % 2 = 0 then 1 else 2)) : ℝ) : ℂ)), ?_, ?_⟩
  · rw [h1, h2]
    constructor
    · intro k k'
      change Fin 4 at k k'
      fin_cases k <;> fin_cases k' <;> simp [Matrix.one_apply]
    · intro k k'
      change Fin 4 at k k'
      fin_cases k <;> fin_cases k' <;> simp [Fin.sum_univ_four] <;> first | (rw [← Complex.ofReal_mul, Real.mul_self_sqrt (by norm_num)]; norm_num) | exact (Complex.conj_ofNat 2).symm | (apply Complex.ext <;> simp)
  · rw [h1]; exact Matrix.isSymm_diagonal _

end Verif.Transfer
