import Verif.Transfer.C4v
/-
Concrete states: the hypotheses of C93 - C96 are satisfiable; C94 fails in a cell of three sites.
-/
namespace Verif.Transfer
open Tensor Ctm Ctm.Spec Spec Corrf.Spec

theorem nonzero_root {ι : Type} [Fintype ι] [DecidableEq ι] {M : Matrix ι ι ℂ} (h : M.trace ≠ 0) : ∃ x ∈ M.charpoly.roots, x ≠ 0 := by
  by_contra hc
  push Not at hc
  refine h ?_
  rw [Matrix.trace_eq_sum_roots_charpoly]
  exact Multiset.sum_eq_zero hc

/-! ### Cells of `n` sites in a row; the upper environment row is made of the matrices `U x`, the lower one of the identity -/

/-- All bonds of the state have size one, those of the environment two. -/
def rDims : Dims := ⟨fun _ => 1, fun _ => 1, fun _ => 1, fun _ => 2, fun _ => 2, fun _ => 2, fun _ => 2⟩

noncomputable def rTensors (n : Nat) (U : Int → Nat → Nat → ℂ) : Tensors ℂ where
  lu := fun _ => ⟨[2, 2], fun _ => 1⟩
  ru := fun _ => ⟨[2, 2], fun _ => 1⟩
  rd := fun _ => ⟨[2, 2], fun _ => 1⟩
  ld := fun _ => ⟨[2, 2], fun _ => 1⟩
  tu := fun c => ⟨[2, 1, 2], fun i => U (c.1 % n) (i.getD 0 0) (i.getD 2 0)⟩
  tl := fun _ => ⟨[2, 2, 1], fun _ => 1⟩
  td := fun _ => ⟨[1, 2, 2], fun i => if i.getD 1 0 = i.getD 2 0 then 1 else 0⟩
  tr := fun _ => ⟨[2, 1, 2], fun _ => 1⟩
  a := fun _ => ⟨[1, 1, 1, 1, 1], fun _ => 1⟩

noncomputable def rState (n : Nat) : State ℂ where
  keys := (List.range n).map (fun x : Nat => ((x : Int), 0))
  sites := fun _ => some ⟨[1, 1, 1, 1, 1], fun _ => 1⟩
  vts := fun c => (c.1 % n, 0)
  lX := n
  lY := 1

noncomputable def rEnv (n : Nat) (U : Int → Nat → Nat → ℂ) : Env ℂ where
  chi := 2
  C := fun _ => some ⟨[2, 2], fun _ => 1⟩
  T := fun k =>
    if k.2 = (0, -1) then some ⟨[2, 1, 2], fun i => U (k.1.1 % n) (i.getD 0 0) (i.getD 2 0)⟩
    else if k.2 = (-1, 0) then some ⟨[2, 2, 1], fun _ => 1⟩
    else if k.2 = (0, 1) then some ⟨[1, 2, 2], fun i => if i.getD 1 0 = i.getD 2 0 then 1 else 0⟩
    else if k.2 = (1, 0) then some ⟨[2, 1, 2], fun _ => 1⟩
    else none

theorem rTiling {n : Nat} (hn : 0 < n) : Tiling (rState n) where
  shift c v := by simp [rState, Int.add_emod]
  mem c := by
    have h1 := Int.emod_nonneg c.1 (b := n) (by omega)
    have h2 := Int.emod_lt_of_pos c.1 (b := n) (by omega)
    simp only [rState, List.mem_map, List.mem_range]
    exact ⟨(c.1 % n).toNat, by omega, by simp [Int.toNat_of_nonneg h1]⟩
  fix c hc := by
    simp only [rState, List.mem_map, List.mem_range] at hc ⊢
    obtain ⟨x, hx, rfl⟩ := hc
    simp only [Prod.mk.injEq, and_true]
    exact Int.emod_eq_of_lt (by omega) (by omega)
  nodup := by
    refine List.Nodup.map (fun a b h => ?_) List.nodup_range
    simpa using h

theorem rSizes (n : Nat) {m : Nat} (hm : 0 < m) : Sizes (rState n) (fun _ => m) := ⟨fun _ => hm, fun _ => rfl⟩

theorem rFitsState (n : Nat) : FitsState rDims (rState n) :=
  ⟨fun _ => ⟨_, rfl, rfl⟩, rSizes n one_pos, rSizes n one_pos, rSizes n one_pos⟩

theorem rReads (n : Nat) (U : Int → Nat → Nat → ℂ) : Reads (rState n) (rEnv n U) (rTensors n U) := by
  constructor <;> intro c <;> simp [rEnv, rState, rTensors]

theorem rFitsEnv (n : Nat) (U : Int → Nat → Nat → ℂ) : FitsEnv rDims (rState n) (rEnv n U) := by
  have hN := rReads n U
  exact ⟨fun c => ⟨_, hN.lu c, rfl⟩, fun c => ⟨_, hN.ru c, rfl⟩, fun c => ⟨_, hN.rd c, rfl⟩, fun c => ⟨_, hN.ld c, rfl⟩, fun c => ⟨_, hN.tu c, rfl⟩, fun c => ⟨_, hN.tl c, rfl⟩,
    fun c => ⟨_, hN.td c, rfl⟩, fun c => ⟨_, hN.tr c, rfl⟩, rSizes n two_pos, rSizes n two_pos, rSizes n two_pos, rSizes n two_pos⟩

theorem rPeriodic (n : Nat) : Periodic (rState n) := fun c => ⟨by simp [rState], rfl⟩

theorem rUniform : Uniform rDims 2 := fun _ => ⟨rfl, rfl, rfl, rfl⟩

/-- One step to the right. -/
theorem rStep (n : Nat) (U : Int → Nat → Nat → ℂ) (c : Coord) (E : Vec2) {x z : Nat} (hz : z < 2) :
    step0 (rTensors n U) rDims .right c E x z = E 0 z * U (c.1 % n) 0 x + E 1 z * U (c.1 % n) 1 x := by
  have : z = 0 ∨ z = 1 := by omega
  rcases this with rfl | rfl <;> simp [step0, cut0, cut, rDims, sides, first, second, rTensors, Finset.sum_range_succ]

/-- Matrix elements of a step to the left. -/
theorem rKer (n : Nat) (U : Int → Nat → Nat → ℂ) (c : Coord) (j i : Nat × Nat) :
    siteKer0 (rTensors n U) rDims .left c j i = U (c.1 % n) i.1 j.1 * if i.2 = j.2 then 1 else 0 := by
  simp [siteKer0, rDims, sides, first, second, rTensors]

/-! ### C94 in a cell of three sites -/

/-- The matrices `σx`, `σz` and `iσy`. -/
noncomputable def pauli (x : Int) (i j : Nat) : ℂ :=
  if x = 0 then (if i = j then 0 else 1)
  else if x = 1 then (if i = j then (if i = 0 then 1 else -1) else 0)
  else (if i = j then 0 else if i = 0 then 1 else -1)

theorem period_pauli : period0 (rState 3) (rTensors 3 pauli) rDims .right (0, 0) = 1 := by
  ext ⟨i1, i2⟩ ⟨j1, j2⟩
  rw [show (1 : Matrix (Idx2 (cut0 rDims .right (0, 0))) (Idx2 (cut0 rDims .right (0, 0))) ℂ) (i1, i2) (j1, j2) = if i1.1 = j1.1 ∧ i2.1 = j2.1 then 1 else 0 by
    simp [Matrix.one_apply, Prod.ext_iff, Fin.ext_iff]]
  show grow0 _ _ _ _ 3 _ _ _ = _
  simp only [grow0]
  have h2 : i2.1 < 2 := i2.2
  simp only [rStep 3 pauli _ _ h2, ahead, Dir.vec]
  change Fin 2 at i1 i2 j1 j2
  fin_cases i1 <;> fin_cases i2 <;> fin_cases j1 <;> fin_cases j2 <;> simp [pauli]

theorem code_pauli : cmat (cutSet0 rDims .left) (siteKer0 (rTensors 3 pauli) rDims .left) (nxt .right) 3 (0, 0) (cutSet0 rDims .left (0, 0)) (cutSet0 rDims .left (0, 0)) = -1 := by
  ext ⟨⟨i1, i2⟩, hi⟩ ⟨⟨j1, j2⟩, hj⟩
  have hi' := (mem_box2 (s := (2, 2)) rfl _).1 hi
  have hj' := (mem_box2 (s := (2, 2)) rfl _).1 hj
  have hS : ∀ c, cutSet0 rDims .left c = Finset.range 2 ×ˢ Finset.range 2 := fun _ => rfl
  simp only [cmat, chain, hS, rKer, Finset.sum_product, Finset.sum_range_succ, Finset.sum_range_zero, zero_add, nxt, ahead, Dir.vec]
  have a1 : i1 = 0 ∨ i1 = 1 := by omega
  have a2 : i2 = 0 ∨ i2 = 1 := by omega
  have a3 : j1 = 0 ∨ j1 = 1 := by omega
  have a4 : j2 = 0 ∨ j2 = 1 := by omega
  rcases a1 with rfl | rfl <;> rcases a2 with rfl | rfl <;> rcases a3 with rfl | rfl <;> rcases a4 with rfl | rfl <;> simp [pauli, Matrix.one_apply, Pi.single_apply]

/-- The function handed to the solver multiplies by `-1`. -/
theorem mv0_pauli : ∃ M : Matrix (Fin (2 * 2)) (Fin (2 * 2)) ℂ, Multiplies (mv0 (rState 3) (rEnv 3 pauli) .right (0, 0) 2 2) M ∧ M = -1 := by
  obtain ⟨e, hM⟩ := mv0_multiplies (rTiling (by omega)) (rFitsEnv 3 pauli) (rReads 3 pauli) .right (fun _ => rfl) (0, 0) rfl
  refine ⟨_, hM, ?_⟩
  have : cmat (cutSet0 rDims (base .right)) (siteKer0 (rTensors 3 pauli) rDims (base .right)) (nxt .right) (cellLen (rState 3) .right) (0, 0) (cutSet0 rDims (base .right) (0, 0))
      (cutSet0 rDims (base .right) (0, 0)) = -1 := code_pauli
  rw [this]
  have h1 : ∀ i j : Fin (2 * 2), (-1 : Matrix (Fin (2 * 2)) (Fin (2 * 2)) ℂ) i j = -(if i = j then 1 else 0) := by
    intro i j
    simp [Matrix.one_apply]
  ext i j
  refine Eq.trans ?_ (h1 i j).symm
  simp [Matrix.one_apply]
  rfl

theorem roots_one {ι : Type} [Fintype ι] [DecidableEq ι] (x : ℂ) (hx : x ∈ (1 : Matrix ι ι ℂ).charpoly.roots) : x = 1 := by
  rw [Matrix.charpoly_one, Polynomial.roots_pow] at hx
  have := Multiset.mem_of_mem_nsmul hx
  rw [show (Polynomial.X - 1 : Polynomial ℂ) = Polynomial.X - Polynomial.C 1 by simp, Polynomial.roots_X_sub_C] at this
  simpa using this

theorem roots_neg_one {n : Nat} (x : ℂ) (hx : x ∈ (-1 : Matrix (Fin n) (Fin n) ℂ).charpoly.roots) : x = -1 := by
  obtain ⟨v, _, ⟨i, hi⟩, h⟩ := exists_eigenvector _ x hx
  have := h i
  simp [Matrix.neg_apply, Matrix.one_apply] at this
  have h2 : (x + 1) * v.val [i.1] = 0 := by linear_combination -this
  rcases mul_eq_zero.1 h2 with h3 | h3
  · linear_combination h3
  · exact absurd h3 hi

/-- **C94 fails.** In a cell of three sites in a row with equal bonds, whatever the solver, the values returned for direction right are not eigenvalues of the transfer operator (also after rescaling): the
operator is the identity, all values returned are `-1`. A result is returned. -/
theorem C94_violated : Tiling (rState 3) ∧ FitsState rDims (rState 3) ∧ FitsEnv rDims (rState 3) (rEnv 3 pauli) ∧ Reads (rState 3) (rEnv 3 pauli) (rTensors 3 pauli) ∧ Periodic (rState 3) ∧ Uniform rDims 2 ∧
    (∀ eigs argsort, Solves eigs → Sorts argsort → ∀ n L, topSpec0 eigs argsort n (0, 0) .right (rState 3) (rEnv 3 pauli) = .ok L →
      ¬ Spectrum (period0 (rState 3) (rTensors 3 pauli) rDims .right (0, 0)) n L) ∧
    ∃ L, topSpec0 ideal idealSort 4 (0, 0) .right (rState 3) (rEnv 3 pauli) = .ok L := by
  have ht := rTiling (n := 3) (by omega)
  have hN := rReads 3 pauli
  have he := rFitsEnv 3 pauli
  obtain ⟨M, hM, hM1⟩ := mv0_pauli
  have hg : getChis (rState 3) (rEnv 3 pauli) (0, 0) .right = some (2, 2) := getChis_ok ht he hN .right (0, 0)
  refine ⟨ht, rFitsState 3, he, hN, rPeriodic 3, rUniform, ?_, ?_⟩
  · intro eigs argsort hei har n L h hS
    unfold topSpec0 at h
    rw [hg] at h
    obtain ⟨q, hq, h⟩ := bind_ok'.1 h
    cases lift_ok'.1 hq
    obtain ⟨r, h1, h2⟩ := bind_ok'.1 h
    cases h2
    obtain ⟨⟨⟨_, p, hp, hp1⟩, s, s0, hs⟩, _⟩ := sorted_ok hei har hM h1
    obtain ⟨_, s', s0', hs'⟩ := hS
    have hmem : p ∈ r.1 := List.mem_of_mem_head? hp
    have e1 : (s : ℂ) * row p = -1 := by
      refine roots_neg_one (n := 2 * 2) _ ?_
      obtain ⟨_, rest, hr, _⟩ := hs
      rw [← hM1, hr, Multiset.mem_add]
      exact .inl (Multiset.mem_coe.2 (List.mem_map_of_mem hmem))
    have e2 : (s' : ℂ) * row p = 1 := by
      obtain ⟨_, rest, hr, _⟩ := hs'
      rw [period_pauli] at hr
      refine roots_one (ι := Idx2 (cut0 rDims .right (0, 0))) _ ?_
      rw [hr, Multiset.mem_add]
      exact .inl (Multiset.mem_coe.2 (List.mem_map_of_mem hmem))
    have h3 := congrArg Complex.re e1
    have h4 := congrArg Complex.re e2
    simp at h3 h4
    nlinarith
  · obtain ⟨r, hr⟩ := sorted_defined ideal_solves idealSort_sorts (b := false) (n := 4) hM (by omega) (nonzero_root (by rw [hM1]; simp [Matrix.trace])) (ideal_some hM (by omega) false)
    refine ⟨r.1, ?_⟩
    unfold topSpec0
    rw [hg]
    exact bind_ok'.2 ⟨_, lift_ok'.2 rfl, bind_ok'.2 ⟨r, hr, rfl⟩⟩

/-! ### A cell of two sites -/

/-- The matrices `diag(1, 2)` and `diag(3, 4)`. -/
noncomputable def ladder (x : Int) (i j : Nat) : ℂ := if i = j then (if x = 0 then 1 else 3) + (i : ℂ) else 0

theorem ladder_trace : (period0 (rState 2) (rTensors 2 ladder) rDims .right (0, 0)).trace ≠ 0 := by
  have h : ∀ i j : Idx2 (cut0 rDims .right (0, 0)), period0 (rState 2) (rTensors 2 ladder) rDims .right (0, 0) i j =
      if i.1.1 = j.1.1 ∧ i.2.1 = j.2.1 then (1 + (i.1.1 : ℂ)) * (3 + (i.1.1 : ℂ)) else 0 := by
    intro ⟨i1, i2⟩ ⟨j1, j2⟩
    show grow0 _ _ _ _ 2 _ _ _ = _
    simp only [grow0]
    have h2 : i2.1 < 2 := i2.2
    simp only [rStep 2 ladder _ _ h2, ahead, Dir.vec]
    change Fin 2 at i1 i2 j1 j2
    fin_cases i1 <;> fin_cases i2 <;> fin_cases j1 <;> fin_cases j2 <;> simp [ladder]
  have : (period0 (rState 2) (rTensors 2 ladder) rDims .right (0, 0)).trace = ∑ i : Fin 2 × Fin 2, (1 + (i.1.1 : ℂ)) * (3 + (i.1.1 : ℂ)) := by
    unfold Matrix.trace
    exact Finset.sum_congr rfl (fun i _ => by rw [Matrix.diag_apply, h]; simp)
  rw [this]
  simp [Fintype.sum_prod_type, Fin.sum_univ_two]
  norm_num

/-- The hypotheses of C94_partial and C94_defined are met, and values are returned. -/
example : ∃ L, topSpec0 ideal idealSort 2 (0, 0) .right (rState 2) (rEnv 2 ladder) = .ok L ∧ Spectrum (period0 (rState 2) (rTensors 2 ladder) rDims .right (0, 0)) 2 L := by
  obtain ⟨L, hL⟩ := C94_defined ideal_solves idealSort_sorts (rTiling (by omega)) (rFitsState 2) (rFitsEnv 2 ladder) (rReads 2 ladder) (rPeriodic 2) 2 (0, 0) .right rUniform (.inr rfl) (by omega)
    (nonzero_root ladder_trace) (fun f M hM => ideal_some hM (by omega) false)
  exact ⟨L, hL, C94_partial ideal_solves idealSort_sorts (rTiling (by omega)) (rFitsState 2) (rFitsEnv 2 ladder) (rReads 2 ladder) (rPeriodic 2) 2 (0, 0) .right rUniform (.inr rfl) hL⟩

theorem rStep1 (n : Nat) (U : Int → Nat → Nat → ℂ) (c : Coord) (E : Vec ℂ) {x z : Nat} (hz : z < 2) :
    step (rTensors n U) rDims .right c one E x 0 z = E 0 0 z * U (c.1 % n) 0 x + E 1 0 z * U (c.1 % n) 1 x := by
  have : z = 0 ∨ z = 1 := by omega
  rcases this with rfl | rfl <;> simp [step, cut, rDims, sides, first, second, middle, layer, one, size, rTensors, Finset.sum_range_succ]

theorem period_pauli1 : period (rState 3) (rTensors 3 pauli) rDims .right (0, 0) = 1 := by
  ext ⟨i1, i0, i2⟩ ⟨j1, j0, j2⟩
  rw [show (1 : Matrix (Idx (cut rDims .right (0, 0))) (Idx (cut rDims .right (0, 0))) ℂ) (i1, i0, i2) (j1, j0, j2) = if i1.1 = j1.1 ∧ i0.1 = j0.1 ∧ i2.1 = j2.1 then 1 else 0 by
    simp [Matrix.one_apply, Prod.ext_iff, Fin.ext_iff]]
  have h0 : i0.1 = 0 := Nat.lt_one_iff.1 i0.2
  have h0' : j0.1 = 0 := Nat.lt_one_iff.1 j0.2
  have h2 : i2.1 < 2 := i2.2
  show grow _ _ _ _ [one, one, one] _ _ _ _ = _
  simp only [grow, h0]
  simp only [rStep1 3 pauli _ _ h2, ahead, Dir.vec, single, h0']
  change Fin 2 at i1 i2 j1 j2
  fin_cases i1 <;> fin_cases i2 <;> fin_cases j1 <;> fin_cases j2 <;> simp [pauli]

theorem pauli_defined (b : Bool) (n : Nat) (h0 : 0 < n) (hn : n ≤ 4) : ∃ r, topSpec ideal idealSort b n (0, 0) .right (rState 3) (rEnv 3 pauli) = .ok r :=
  C93_defined ideal_solves idealSort_sorts (rTiling (by omega)) (rFitsState 3) (rFitsEnv 3 pauli) (rReads 3 pauli) (rPeriodic 3) b n (0, 0) .right h0
    (nonzero_root (by rw [period_pauli1]; rw [Matrix.trace_one]; exact Nat.cast_ne_zero.2 (by decide)))
    (fun m f M hm hM => ideal_some hM (by have : Fintype.card (Idx (cut rDims .right (0, 0))) = 4 := rfl; omega) b)

/-- The hypotheses of C93 are met, and values and vectors are returned. -/
example : ∃ r, topSpec ideal idealSort true 3 (0, 0) .right (rState 3) (rEnv 3 pauli) = .ok r ∧ Spectrum (period (rState 3) (rTensors 3 pauli) rDims .right (0, 0)) 3 r.1 := by
  obtain ⟨r, hr⟩ := pauli_defined true 3 (by omega) (by omega)
  exact ⟨r, hr, (C93_leading ideal_solves idealSort_sorts (rTiling (by omega)) (rFitsState 3) (rFitsEnv 3 pauli) (rReads 3 pauli) (rPeriodic 3) true 3 (0, 0) .right hr).1⟩

/-! ### The order of the solver -/

/-- A solver that returns its values by decreasing modulus. -/
noncomputable def decreasing : Eigs := fun b n f k => (ideal b n f k).map (fun p => (p.1.reverse, p.2.reverse))

theorem decreasing_solves : Solves decreasing := by
  intro b n f k vals vecs h M hM
  obtain ⟨p, hp, hq⟩ := Option.map_eq_some_iff.1 h
  cases hq
  obtain ⟨h1, h2⟩ := ideal_solves b n f k p.1 p.2 hp M hM
  exact ⟨Leading.perm h1 (List.reverse_perm _), fun hb => List.rel_reverse (h2 hb)⟩

theorem reversed_decreasing {n dim : Nat} {f : Tensor ℂ → Option (Tensor ℂ)} {r : List (ℝ × ℝ)} (h : reversed decreasing n dim f = .ok r) :
    (r.map (fun p => ‖row p‖)).Pairwise (· ≤ ·) := by
  unfold reversed at h
  obtain ⟨⟨vals, vecs⟩, hq, h⟩ := bind_ok'.1 h
  obtain ⟨p, hp, hq⟩ := Option.map_eq_some_iff.1 (lift_ok'.1 hq)
  cases hq
  obtain ⟨ws, hw, h⟩ := bind_ok'.1 h
  simp only [List.reverse_reverse] at hw
  have ha := ideal_ascending _ _ _ _ _ _ hp
  unfold columns at h
  by_cases hl : ws.length = n
  swap
  · rw [if_neg hl] at h; cases h
  rw [if_pos hl] at h
  cases h
  have e1 : (ws.map (fun v => (v.re, v.im))).map (fun p => ‖row p‖) = ws.map (fun v => ‖v‖) := by
    rw [List.map_map]; exact List.map_congr_left (fun v _ => by rw [Function.comp, row_re_im])
  rw [e1]
  cases hv : p.1 with
  | nil => rw [hv, normalise] at hw; cases hw
  | cons v vs =>
    rw [hv, normalise] at hw
    by_cases h0 : ‖v‖ = 0
    · rw [if_pos h0] at hw; cases hw
    rw [if_neg h0] at hw
    cases hw
    rw [hv] at ha
    rw [List.pairwise_map] at ha ⊢
    rw [List.pairwise_map]
    refine ha.imp (fun {x y} hxy => ?_)
    rw [norm_mul, norm_mul]
    exact mul_le_mul_of_nonneg_left hxy (norm_nonneg _)

theorem reversed_decreasing_some {n dim : Nat} {f : Tensor ℂ → Option (Tensor ℂ)} {M : Matrix (Fin dim) (Fin dim) ℂ} (hM : Multiplies f M) (h0 : 0 < n) (hn : n ≤ dim)
    (hz : ∀ x ∈ M.charpoly.roots, x ≠ 0) : ∃ r, reversed decreasing n dim f = .ok r := by
  obtain ⟨p, hp⟩ := Option.isSome_iff_exists.1 (ideal_some hM hn false)
  obtain ⟨⟨hl, rest, hr, _⟩, _⟩ := ideal_solves _ _ _ _ _ _ hp M hM
  obtain ⟨vals, vecs⟩ := p
  cases vals with
  | nil => simp at hl; omega
  | cons v vs =>
    have hv : v ≠ 0 := hz v (by rw [hr]; simp)
    refine ⟨(v :: vs).map (fun w => ((((1 / ‖v‖ : ℝ) : ℂ) * w).re, (((1 / ‖v‖ : ℝ) : ℂ) * w).im)), bind_ok'.2 ⟨((v :: vs).reverse, vecs.reverse), lift_ok'.2 (by rw [decreasing, hp]; rfl), bind_ok'.2 ⟨(v :: vs).map (fun w => ((1 / ‖v‖ : ℝ) : ℂ) * w), ?_, ?_⟩⟩⟩
    · rw [List.reverse_reverse, normalise, if_neg (by simpa using hv)]
    · rw [columns, if_pos (by simpa using hl), List.map_map]; rfl

/-- Eigenvalues 1, 2, 2, 4. -/
def Four {ι : Type} [Fintype ι] [DecidableEq ι] (M : Matrix ι ι ℂ) : Prop := M.charpoly.roots = {1, 2, 2, 4}

theorem four_diagonal {ι : Type} [Fintype ι] [DecidableEq ι] {M : Matrix ι ι ℂ} (d : ι → ℂ) (h : M = Matrix.diagonal d) (hd : Finset.univ.val.map d = {1, 2, 2, 4}) : Four M := by
  rw [Four, h, Matrix.charpoly_diagonal, ← hd]
  have : (∏ i, (Polynomial.X - Polynomial.C (d i))) = ((Finset.univ.val.map d).map (fun a => Polynomial.X - Polynomial.C a)).prod := by
    rw [Multiset.map_map]; rfl
  rw [this, Polynomial.roots_multiset_prod_X_sub_C]

theorem four_one {ι : Type} [Fintype ι] [DecidableEq ι] {M : Matrix ι ι ℂ} (h : Four M) : 1 ∈ M.charpoly.roots := by rw [h]; simp

theorem four_spectrum {ι : Type} [Fintype ι] [DecidableEq ι] {M : Matrix ι ι ℂ} (h : Four M) : Spectrum M 2 [(1, 0), (1 / 2, 0)] := by
  have e1 : row (1, 0) = 1 := rfl
  have e2 : row (1 / 2, 0) = 1 / 2 := by apply Complex.ext <;> simp [row]
  refine ⟨⟨?_, ⟨(1, 0), rfl, by rw [e1]; simp⟩⟩, 4, by norm_num, rfl, {1, 2}, ?_, ?_⟩
  · simp only [List.map_cons, List.map_nil, e1, e2]; simp; norm_num
  · rw [h]
    simp only [List.map_cons, List.map_nil, e1, e2]
    rw [show ((4 : ℝ) : ℂ) * 1 = 4 by norm_num, show ((4 : ℝ) : ℂ) * (1 / 2) = 2 by norm_num]
    rw [show ({1, 2, 2, 4} : Multiset ℂ) = ((([1, 2, 2, 4] : List ℂ)) : Multiset ℂ) from rfl, show ({1, 2} : Multiset ℂ) = (([1, 2] : List ℂ) : Multiset ℂ) from rfl,
      Multiset.coe_add, Multiset.coe_eq_coe]
    have : ([1, 2, 2, 4] : List ℂ).reverse = [4, 2, 2, 1] := rfl
    refine (List.reverse_perm _).symm.trans ?_
    rw [this]
    exact ((List.Perm.swap _ _ _).cons _).cons _
  · intro r hr v hv
    simp only [List.map_cons, List.map_nil, e1, e2, List.mem_cons, List.not_mem_nil, or_false] at hv
    have hr' : r = 1 ∨ r = 2 := by simpa using hr
    rcases hr' with rfl | rfl <;> rcases hv with rfl | rfl <;> norm_num

/-- With eigenvalues 1, 2, 2, 4 the two values that come out of a solver of this kind are not in descending order. -/
theorem four_unsorted {ι : Type} [Fintype ι] [DecidableEq ι] {M : Matrix ι ι ℂ} (h : Four M) {dim : Nat} {f : Tensor ℂ → Option (Tensor ℂ)} {r : List (ℝ × ℝ)} (hr : reversed decreasing 2 dim f = .ok r) :
    ¬ Spectrum M 2 r := by
  intro hs
  have h1 := spectrum_unique hs (four_spectrum h) rfl
  have h2 := reversed_decreasing hr
  rw [h1] at h2
  have e1 : row (1, 0) = 1 := rfl
  have e2 : row (1 / 2, 0) = 1 / 2 := by apply Complex.ext <;> simp [row]
  simp only [List.map_cons, List.map_nil, e1, e2] at h2
  simp at h2
  norm_num at h2

theorem four_defined {ι : Type} [Fintype ι] [DecidableEq ι] {M : Matrix ι ι ℂ} (h : Four M) {dim : Nat} {M' : Matrix (Fin dim) (Fin dim) ℂ} (hc : M.charpoly = M'.charpoly) {f : Tensor ℂ → Option (Tensor ℂ)} (hM : Multiplies f M') :
    ∃ r, reversed decreasing 2 dim f = .ok r := by
  have h4 : dim = 4 := by
    have := card_roots M'
    rw [← hc, h] at this
    simpa using this.symm
  refine reversed_decreasing_some hM (by omega) (by omega) (fun x hx => ?_)
  rw [← hc, h] at hx
  have : x = 1 ∨ x = 2 ∨ x = 4 := by simpa using hx
  rcases this with rfl | rfl | rfl <;> norm_num

/-! ### C95: a site with bonds of size two, an environment with bonds of size one -/

/-- Columns facing right: `diag(1, 2)`; all others: the identity. -/
noncomputable def gDiag (s : ℂ) (i : Nat) : ℂ := if i = 0 then 1 else if i = 3 then s else 0

def bDims : Dims := ⟨fun _ => 1, fun _ => 2, fun _ => 2, fun _ => 1, fun _ => 1, fun _ => 1, fun _ => 1⟩

noncomputable def bTensors : Tensors ℂ where
  lu := fun _ => ⟨[1, 1], fun _ => 1⟩
  ru := fun _ => ⟨[1, 1], fun _ => 1⟩
  rd := fun _ => ⟨[1, 1], fun _ => 1⟩
  ld := fun _ => ⟨[1, 1], fun _ => 1⟩
  tu := fun _ => ⟨[1, 4, 1], fun i => gDiag 1 (i.getD 1 0)⟩
  tl := fun _ => ⟨[1, 1, 4], fun i => gDiag 1 (i.getD 2 0)⟩
  td := fun _ => ⟨[4, 1, 1], fun i => gDiag 1 (i.getD 0 0)⟩
  tr := fun _ => ⟨[1, 4, 1], fun i => gDiag 2 (i.getD 1 0)⟩
  a := fun _ => ⟨[1, 2, 2, 2, 2], fun _ => 1⟩

noncomputable def bState : State ℂ where
  keys := [(0, 0)]
  sites := fun _ => some ⟨[1, 2, 2, 2, 2], fun _ => 1⟩
  vts := fun _ => (0, 0)
  lX := 1
  lY := 1

noncomputable def bEnv : Env ℂ where
  chi := 1
  C := fun _ => some ⟨[1, 1], fun _ => 1⟩
  T := fun k =>
    if k.2 = (0, -1) then some ⟨[1, 4, 1], fun i => gDiag 1 (i.getD 1 0)⟩
    else if k.2 = (-1, 0) then some ⟨[1, 1, 4], fun i => gDiag 1 (i.getD 2 0)⟩
    else if k.2 = (0, 1) then some ⟨[4, 1, 1], fun i => gDiag 1 (i.getD 0 0)⟩
    else if k.2 = (1, 0) then some ⟨[1, 4, 1], fun i => gDiag 2 (i.getD 1 0)⟩
    else none

theorem bTiling : Tiling bState where
  shift _ _ := rfl
  mem _ := by simp [bState]
  fix c hc := by simp [bState] at hc ⊢; exact hc.symm
  nodup := by simp [bState]

theorem bSizes {m : Nat} (hm : 0 < m) : Sizes bState (fun _ => m) := ⟨fun _ => hm, fun _ => rfl⟩

theorem bFitsState : FitsState bDims bState := ⟨fun _ => ⟨_, rfl, rfl⟩, bSizes one_pos, bSizes two_pos, bSizes two_pos⟩

theorem bReads : Reads bState bEnv bTensors := by
  constructor <;> intro c <;> simp [bEnv, bState, bTensors]

theorem bFitsEnv : FitsEnv bDims bState bEnv := by
  have hN := bReads
  exact ⟨fun c => ⟨_, hN.lu c, rfl⟩, fun c => ⟨_, hN.ru c, rfl⟩, fun c => ⟨_, hN.rd c, rfl⟩, fun c => ⟨_, hN.ld c, rfl⟩, fun c => ⟨_, hN.tu c, rfl⟩, fun c => ⟨_, hN.tl c, rfl⟩,
    fun c => ⟨_, hN.td c, rfl⟩, fun c => ⟨_, hN.tr c, rfl⟩, bSizes one_pos, bSizes one_pos, bSizes one_pos, bSizes one_pos⟩

theorem bPeriodic : Periodic bState := fun _ => ⟨rfl, rfl⟩

theorem bUniform : Uniform bDims 1 := fun _ => ⟨rfl, rfl, rfl, rfl⟩

/-- A ring of two tensors without environment bonds. -/
theorem ring_diag {ts : List (Nat → Nat → Nat → Nat → ℂ)} {s : ℂ} (hts : ts = [fun _ _ k j => gDiag s (k * 2 + j), fun _ _ k j => gDiag s (k * 2 + j)]) :
    ringMatrix 1 ts [2, 2] = Matrix.diagonal (fun i : Fin [2, 2].prod => (if i.1 / 2 = 0 then 1 else s) * (if i.1 % 2 = 0 then 1 else s)) := by
  subst hts
  ext i j
  change Fin 4 at i j
  fin_cases i <;> fin_cases j <;> simp [ringMatrix, ring, block, unravel, gDiag, Matrix.trace, Matrix.mul_apply]

theorem b_product : boundary bTensors bDims 1 (Corrf.rev .right) (growDir .right) (0, 0) 2 (cutBonds bDims .right (growDir .right) (0, 0) 2) *
    boundary bTensors bDims 1 .right (growDir .right) (0, 0) 2 (cutBonds bDims .right (growDir .right) (0, 0) 2) =
      Matrix.diagonal (fun i : Fin [2, 2].prod => (if i.1 / 2 = 0 then 1 else 2) * (if i.1 % 2 = 0 then 1 else 2)) := by
  have h1 : boundary bTensors bDims 1 (Corrf.rev .right) (growDir .right) (0, 0) 2 (cutBonds bDims .right (growDir .right) (0, 0) 2) = (1 : Matrix (Fin [2, 2].prod) (Fin [2, 2].prod) ℂ) := by
    refine (ring_diag (s := 1) rfl).trans ?_
    simp
    exact Matrix.diagonal_one
  have h2 : boundary bTensors bDims 1 .right (growDir .right) (0, 0) 2 (cutBonds bDims .right (growDir .right) (0, 0) 2) =
      Matrix.diagonal (fun i : Fin [2, 2].prod => (if i.1 / 2 = 0 then 1 else 2) * (if i.1 % 2 = 0 then 1 else 2)) := ring_diag (s := 2) rfl
  rw [h1, h2]
  exact one_mul _

theorem four_ring {M : Matrix (Fin [2, 2].prod) (Fin [2, 2].prod) ℂ} (h : M = Matrix.diagonal (fun i : Fin [2, 2].prod => (if i.1 / 2 = 0 then 1 else 2) * (if i.1 % 2 = 0 then 1 else 2))) : Four M := by
  refine four_diagonal _ h ?_
  have : (Finset.univ : Finset (Fin [2, 2].prod)).val = (([0, 1, 2, 3] : List (Fin 4)) : Multiset (Fin 4)) := rfl
  rw [this]
  simp
  norm_num
  rfl

/-- **C95: the order fails.** The comment says "descending order", but the values are only reversed: with a solver that returns the leading values by decreasing modulus the result is not
ordered by decreasing modulus and the largest modulus is not one. -/
theorem C95_order_violated : ∃ eigs, Solves eigs ∧ ∃ st env N D, Tiling st ∧ FitsState D st ∧ FitsEnv D st env ∧ Reads st env N ∧ Periodic st ∧ Uniform D env.chi ∧
    ∃ r, specEH eigs 2 2 (0, 0) .right st env = .ok (some r) ∧
      ¬ Spectrum (boundary N D env.chi (Corrf.rev .right) (growDir .right) (0, 0) 2 (cutBonds D .right (growDir .right) (0, 0) 2) *
        boundary N D env.chi .right (growDir .right) (0, 0) 2 (cutBonds D .right (growDir .right) (0, 0) 2)) 2 r := by
  refine ⟨decreasing, decreasing_solves, bState, bEnv, bTensors, bDims, bTiling, bFitsState, bFitsEnv, bReads, bPeriodic, bUniform, ?_⟩
  have h4 := four_ring b_product
  have hM := mvEH_multiplies bTiling bFitsState bFitsEnv bReads bUniform rfl bPeriodic ⟨rfl, rfl⟩ .right (L := 2) (by omega) (0, 0) rfl
  have hc := boundary_charpoly bTiling bFitsState bReads bPeriodic ⟨rfl, rfl⟩ .right (Corrf.rev .right) (growDir .right) 1 2 2 (0, 0)
  obtain ⟨r, hr⟩ := four_defined h4 hc hM
  refine ⟨r, ?_, four_unsorted h4 hr⟩
  unfold specEH
  rw [if_neg (by omega), if_neg (by simp [bState]), cutDims_ok bFitsState]
  refine bind_ok'.2 ⟨_, lift_ok'.2 rfl, ?_⟩
  rw [if_neg (by decide)]
  exact bind_ok'.2 ⟨r, hr, rfl⟩

/-- The hypotheses of C95 are met, and values are returned. -/
example : ∃ r, specEH ideal 2 2 (0, 0) .right bState bEnv = .ok (some r) :=
  C95_defined ideal_solves ideal_ascending bTiling bFitsState bFitsEnv bReads bPeriodic bUniform 2 2 (0, 0) .right (by omega) (by omega) ⟨rfl, rfl⟩ (by decide)
    ⟨1, four_one (four_ring b_product), one_ne_zero⟩ (fun f M hM => ideal_some hM (by decide) false)

/-! ### C96 -/

theorem C96_defined {eigs : Eigs} {argsort : Argsort} {chi D p : Nat} {a : Tensor ℂ} {env : C4v.Env ℂ} {N : Tensors ℂ} (hei : Solves eigs) (har : Sorts argsort) (hf : C4v.Spec.Fits chi D p a env) (hchi : env.chi = chi)
    (hN : Reads (C4v.Spec.cell a) (C4v.Spec.unfold env) N) (c : Coord) (b : Bool) (n : Nat) (hn : 0 < n) (hz : ∃ x ∈ (period (C4v.Spec.cell a) N (C4v.Spec.dims chi D p) .right c).charpoly.roots, x ≠ 0)
    (hsol : ∀ f (M : Matrix (Fin (chi * D * D * chi)) (Fin (chi * D * D * chi)) ℂ), Multiplies f M → (eigs b (chi * D * D * chi) f n).isSome) :
    ∃ r, topC4v eigs argsort true b n a env = .ok r := by
  obtain ⟨e, hM⟩ := mvC4v_multiplies hf hchi hN c
  have hD : a.size 1 = D := by simp [size, hf.site]
  simp only [topC4v, hD, hchi]
  obtain ⟨x, hx, hx0⟩ := hz
  refine sorted_defined hei har hM hn ⟨x, ?_, hx0⟩ (hsol _ _ hM)
  have := Matrix.charpoly_reindex e (period (C4v.Spec.cell a) N (C4v.Spec.dims chi D p) .right c)
  exact this ▸ hx

noncomputable def site1 : Tensor ℂ := ⟨[1, 1, 1, 1, 1], fun _ => 1⟩

/-- Half-row tensor `diag(1, 2)`. -/
noncomputable def env1 : C4v.Env ℂ := ⟨2, ⟨[2, 2], fun i => if i.getD 0 0 = i.getD 1 0 then 1 else 0⟩, ⟨[2, 2, 1], fun i => if i.getD 0 0 = i.getD 1 0 then 1 + (i.getD 0 0 : ℂ) else 0⟩⟩

theorem fits1 : C4v.Spec.Fits 2 1 1 site1 env1 := ⟨rfl, rfl, rfl, rfl⟩

theorem wide1 (c : Coord) : Four (wideStrip (C4v.tensors site1 env1) (C4v.Spec.dims 2 1 1) .right c (2, 1 * 1, 1 * 1, 2) (2, 1 * 1, 1 * 1, 2)) := by
  refine four_diagonal (fun i => (1 + (i.1.1 : ℂ)) * (1 + (i.2.2.2.1 : ℂ))) ?_ ?_
  · ext ⟨i1, i2, i3, i4⟩ ⟨j1, j2, j3, j4⟩
    have h2 : i2.1 = 0 := Nat.lt_one_iff.1 i2.2
    have h3 : i3.1 = 0 := Nat.lt_one_iff.1 i3.2
    have k2 : j2.1 = 0 := Nat.lt_one_iff.1 j2.2
    have k3 : j3.1 = 0 := Nat.lt_one_iff.1 j3.2
    rw [Matrix.diagonal_apply]
    simp only [Prod.ext_iff, Fin.ext_iff, h2, h3, k2, k3, wideStrip]
    change Fin 2 at i1 i4 j1 j4
    fin_cases i1 <;> fin_cases i4 <;> fin_cases j1 <;> fin_cases j4 <;>
      simp [wide, cut2, cut, sides, first, second, middle, C4v.tensors, C4v.Spec.dims, layer, one, site1, env1, size]
    rfl
  · have : (Finset.univ : Finset (Idx4 (2, 1 * 1, 1 * 1, 2))).val = ↑([((0 : Fin 2), (0 : Fin 1), (0 : Fin 1), (0 : Fin 2)), (0, 0, 0, 1), (1, 0, 0, 0), (1, 0, 0, 1)] : List (Fin 2 × Fin 1 × Fin 1 × Fin 2)) := rfl
    rw [this]
    simp
    norm_num
    rfl

/-- **C96: the order fails** for the transfer operator of width two. -/
theorem C96_top2_violated : ∃ eigs, Solves eigs ∧ ∃ a env N, C4v.Spec.Fits 2 1 1 a env ∧ env.chi = 2 ∧ Reads (C4v.Spec.cell a) (C4v.Spec.unfold env) N ∧
    ∃ r, top2C4v eigs 2 a env = .ok r ∧ ∀ c, ¬ Spectrum (wideStrip N (C4v.Spec.dims 2 1 1) .right c (2, 1 * 1, 1 * 1, 2) (2, 1 * 1, 1 * 1, 2)) 2 r := by
  refine ⟨decreasing, decreasing_solves, site1, env1, _, fits1, rfl, C4v.reads site1 env1, ?_⟩
  obtain ⟨e, hM⟩ := mvC4v2_multiplies fits1 rfl (C4v.reads site1 env1) (0, 0)
  obtain ⟨r, hr⟩ := four_defined (wide1 (0, 0)) (Matrix.charpoly_reindex e _).symm hM
  exact ⟨r, hr, fun c => four_unsorted (wide1 c) hr⟩

noncomputable def site2 : Tensor ℂ := ⟨[1, 2, 2, 2, 2], fun _ => 1⟩

noncomputable def env2 : C4v.Env ℂ := ⟨1, ⟨[1, 1], fun _ => 1⟩, ⟨[1, 1, 4], fun i => gDiag 2 (i.getD 2 0)⟩⟩

theorem fits2 : C4v.Spec.Fits 1 2 1 site2 env2 := ⟨rfl, rfl, rfl, rfl⟩

theorem ring2 (c : Coord) : Four (boundary (C4v.tensors site2 env2) (C4v.Spec.dims 1 2 1) 1 .left .down c 2 (List.replicate 2 2)) := four_ring (ring_diag (s := 2) rfl)

/-- **C96: the order fails** for the boundary operator. -/
theorem C96_boundary_violated : ∃ eigs, Solves eigs ∧ ∃ a env N, C4v.Spec.Fits 1 2 1 a env ∧ env.chi = 1 ∧ Reads (C4v.Spec.cell a) (C4v.Spec.unfold env) N ∧
    ∃ r, specC4vEH eigs 2 2 a env = .ok r ∧ ∀ c, ¬ Spectrum (boundary N (C4v.Spec.dims 1 2 1) 1 .left .down c 2 (List.replicate 2 2)) 2 r := by
  refine ⟨decreasing, decreasing_solves, site2, env2, _, fits2, rfl, C4v.reads site2 env2, ?_⟩
  obtain ⟨T, hT, _⟩ := split_view fits2.half
  obtain ⟨e, hM⟩ := mvC4vEH_multiplies fits2 (C4v.reads site2 env2) (0, 0) (L := 2) (by omega) hT rfl
  obtain ⟨r, hr⟩ := four_defined (ring2 (0, 0)) (Matrix.charpoly_reindex _ _).symm hM
  refine ⟨r, ?_, fun c => four_unsorted (ring2 c) hr⟩
  unfold specC4vEH
  rw [if_neg (by omega)]
  exact bind_ok'.2 ⟨T, lift_ok'.2 hT, hr⟩

/-- The hypotheses of C96 are met, and values are returned in the order stated if the solver returns them by increasing modulus. -/
example : ∃ r, top2C4v ideal 2 site1 env1 = .ok r ∧ Spectrum (wideStrip (C4v.tensors site1 env1) (C4v.Spec.dims 2 1 1) .right (0, 0) (2, 1 * 1, 1 * 1, 2) (2, 1 * 1, 1 * 1, 2)) 2 r := by
  obtain ⟨e, hM⟩ := mvC4v2_multiplies fits1 rfl (C4v.reads site1 env1) (0, 0)
  obtain ⟨r, hr⟩ := reversed_defined (n := 2) ideal_solves ideal_ascending hM (by omega) ⟨1, by rw [Matrix.charpoly_reindex]; exact four_one (wide1 (0, 0)), one_ne_zero⟩ (ideal_some hM (by decide) false)
  exact ⟨r, hr, (C96_top2_partial ideal_solves fits1 rfl (C4v.reads site1 env1) (0, 0) 2 hr).2 ideal_ascending⟩

example : ∃ r, specC4vEH ideal 2 2 site2 env2 = .ok r ∧ Spectrum (boundary (C4v.tensors site2 env2) (C4v.Spec.dims 1 2 1) 1 .left .down (0, 0) 2 (List.replicate 2 2)) 2 r := by
  obtain ⟨T, hT, _⟩ := split_view fits2.half
  obtain ⟨e, hM⟩ := mvC4vEH_multiplies fits2 (C4v.reads site2 env2) (0, 0) (L := 2) (by omega) hT rfl
  obtain ⟨r, hr⟩ := reversed_defined (n := 2) ideal_solves ideal_ascending hM (by omega) ⟨1, by rw [Matrix.charpoly_reindex]; exact four_one (ring2 (0, 0)), one_ne_zero⟩ (ideal_some hM (by decide) false)
  have h : specC4vEH ideal 2 2 site2 env2 = .ok r := by
    unfold specC4vEH
    rw [if_neg (by omega)]
    exact bind_ok'.2 ⟨T, lift_ok'.2 hT, hr⟩
  exact ⟨r, h, (C96_boundary_partial ideal_solves fits2 rfl (C4v.reads site2 env2) (0, 0) 2 2 h).2.2 ideal_ascending⟩

theorem strip1 (c : Coord) : (period (C4v.Spec.cell site1) (C4v.tensors site1 env1) (C4v.Spec.dims 2 1 1) .right c).trace = 9 := by
  have : (period (C4v.Spec.cell site1) (C4v.tensors site1 env1) (C4v.Spec.dims 2 1 1) .right c).trace = ∑ i : Fin 2 × Fin 1 × Fin 2,
      step (C4v.tensors site1 env1) (C4v.Spec.dims 2 1 1) .right c one (single (s := (2, 1, 2)) i) i.1 i.2.1 i.2.2 := rfl
  rw [this]
  simp [Fintype.sum_prod_type, Fin.sum_univ_two, single, step, cut, sides, first, second, middle, C4v.tensors, C4v.Spec.dims, layer, one, site1, env1, size]
  norm_num

example (b : Bool) : ∃ r, topC4v ideal idealSort true b 3 site1 env1 = .ok r ∧ Spectrum (period (C4v.Spec.cell site1) (C4v.tensors site1 env1) (C4v.Spec.dims 2 1 1) .right (0, 0)) 3 r.1 := by
  obtain ⟨r, hr⟩ := C96_defined (eigs := ideal) (argsort := idealSort) ideal_solves idealSort_sorts fits1 rfl (C4v.reads site1 env1) (0, 0) b 3 (by omega) (nonzero_root (by rw [strip1]; norm_num)) (fun f M hM => ideal_some hM (by decide) b)
  exact ⟨r, hr, (C96_top ideal_solves idealSort_sorts fits1 rfl (C4v.reads site1 env1) (0, 0) true b 3 hr).1 rfl⟩

end Verif.Transfer
