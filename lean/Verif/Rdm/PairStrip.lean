import Verif.Rdm.RowStrip
/-
Two neighbouring sites with an operator on each, and one site with an operator, as the networks of their density matrices (labels of Spec) and as the strips of the correlation functions.
-/
namespace Verif.Rdm
open Tensor Ctm Ctm.Spec Rdm.Spec
set_option linter.unusedSimpArgs false
variable {K : Type} [RCLike K]

theorem ahead_down (c : Coord) (n : Nat) : Corrf.Spec.ahead .down c (n + 1) = Corrf.Spec.ahead .down (dn c) n := by
  simp only [Corrf.Spec.ahead, Dir.vec, dn, Prod.mk.injEq]
  push_cast
  constructor <;> ring

/-- One site of a strip growing downwards, with all double-layer indices split. -/
theorem step_sum_down {N : Corrf.Spec.Tensors K} {D : Dims} {c : Coord} (ha : (N.a c).shape = [D.p c, D.U c, D.L c, D.U (dn c), D.L (rt c)]) (o : Corrf.Spec.Op K) (E : Corrf.Spec.Vec K) {x y1 y2 z : Nat} (hy : y2 < D.U (dn c)) :
    Corrf.Spec.step N D .down c o E x (y1 * D.U (dn c) + y2) z =
      ∑ x0 ∈ Finset.range (D.el c), ∑ i ∈ Finset.range (D.U c), ∑ j ∈ Finset.range (D.U c), ∑ z0 ∈ Finset.range (D.er c), ∑ m1 ∈ Finset.range (D.L c), ∑ m2 ∈ Finset.range (D.L c),
        ∑ n1 ∈ Finset.range (D.L (rt c)), ∑ n2 ∈ Finset.range (D.L (rt c)), ∑ s' ∈ Finset.range (D.p c), ∑ s ∈ Finset.range (D.p c),
          E x0 (i * D.U c + j) z0 * ((N.tl c).val [x0, x, m1 * D.L c + m2] * (star ((N.a c).val [s', j, m2, y2, n2]) * o s' s * (N.a c).val [s, i, m1, y1, n1]) * (N.tr c).val [z0, n1 * D.L (rt c) + n2, z]) := by
  simp only [Corrf.Spec.step, Corrf.Spec.cut, Corrf.Spec.sides, Corrf.Spec.first, Corrf.Spec.second, Corrf.Spec.middle]
  refine Finset.sum_congr rfl fun x0 _ => ?_
  rw [sum_range_mul]
  refine Finset.sum_congr rfl fun i _ => Finset.sum_congr rfl fun j hj => Finset.sum_congr rfl fun z0 _ => ?_
  rw [sum_range_mul]
  refine Finset.sum_congr rfl fun m1 _ => Finset.sum_congr rfl fun m2 hm => ?_
  rw [sum_range_mul]
  refine Finset.sum_congr rfl fun n1 _ => Finset.sum_congr rfl fun n2 hn => ?_
  rw [layer_sum ha o (Finset.mem_range.1 hj) (Finset.mem_range.1 hm) hy (Finset.mem_range.1 hn)]
  simp only [Finset.mul_sum, Finset.sum_mul]
  refine Finset.sum_congr rfl fun s' _ => Finset.sum_congr rfl fun s _ => ?_
  ring

/-- Two sites in a row with an operator on each. -/
def pairRowTerm (dim : Nat → Nat) (N : Corrf.Spec.Tensors K) (c : Coord) (o1 o2 : Corrf.Spec.Op K) (σ : Nat → Nat) : K :=
  (N.lu c).val [σ 0, σ 1] * (N.tl c).val [σ 0, σ 9, σ 3 * dim 6 + σ 6] * (N.ld c).val [σ 9, σ 8] *
  ((N.tu c).val [σ 1, σ 2 * dim 5 + σ 5, σ 24] * (star ((N.a c).val [σ 7, σ 5, σ 6, σ 11, σ 27]) * o1 (σ 7) (σ 4) * (N.a c).val [σ 4, σ 2, σ 3, σ 10, σ 26]) * (N.td c).val [σ 10 * dim 11 + σ 11, σ 8, σ 25]) *
  ((N.tu (rt c)).val [σ 24, σ 14 * dim 17 + σ 17, σ 12] * (star ((N.a (rt c)).val [σ 19, σ 17, σ 27, σ 23, σ 18]) * o2 (σ 19) (σ 16) * (N.a (rt c)).val [σ 16, σ 14, σ 26, σ 22, σ 15]) * (N.td (rt c)).val [σ 22 * dim 23 + σ 23, σ 25, σ 20]) *
  ((N.ru (rt c)).val [σ 12, σ 13] * (N.tr (rt c)).val [σ 13, σ 15 * dim 18 + σ 18, σ 21] * (N.rd (rt c)).val [σ 21, σ 20])

section
variable {N : Corrf.Spec.Tensors K} {D : Dims} (ha : ∀ c, (N.a c).shape = [D.p c, D.U c, D.L c, D.U (dn c), D.L (rt c)]) (c : Coord) (o1 o2 : Corrf.Spec.Op K)
include ha

theorem pairRow_step0 {dim : Nat → Nat} (hd : dim = dimsH D c) {E : Corrf.Spec.Vec K} (o : Corrf.Spec.Op K) (τ : Nat → Nat) (h : τ 27 < dim 27) :
    Corrf.Spec.step N D .right c o E (τ 24) (τ 26 * dim 27 + τ 27) (τ 25) =
      sumOver dim [1, 3, 6, 8, 2, 5, 10, 11, 7, 4] (fun σ => E (σ 1) (σ 3 * dim 6 + σ 6) (σ 8) *
        ((N.tu c).val [σ 1, σ 2 * dim 5 + σ 5, σ 24] * (star ((N.a c).val [σ 7, σ 5, σ 6, σ 11, σ 27]) * o (σ 7) (σ 4) * (N.a c).val [σ 4, σ 2, σ 3, σ 10, σ 26]) * (N.td c).val [σ 10 * dim 11 + σ 11, σ 8, σ 25])) τ := by
  have g : dim 27 = D.L (rt c) := by rw [hd]; rfl
  rw [g] at h ⊢
  rw [step_sum (ha c) o E h]
  subst hd
  rfl

theorem pairRow_step1 {dim : Nat → Nat} (hd : dim = dimsH D c) {E : Corrf.Spec.Vec K} (o : Corrf.Spec.Op K) (τ : Nat → Nat) (h : τ 18 < dim 18) :
    Corrf.Spec.step N D .right (rt c) o E (τ 12) (τ 15 * dim 18 + τ 18) (τ 20) =
      sumOver dim [24, 26, 27, 25, 14, 17, 22, 23, 19, 16] (fun σ => E (σ 24) (σ 26 * dim 27 + σ 27) (σ 25) *
        ((N.tu (rt c)).val [σ 24, σ 14 * dim 17 + σ 17, σ 12] * (star ((N.a (rt c)).val [σ 19, σ 17, σ 27, σ 23, σ 18]) * o (σ 19) (σ 16) * (N.a (rt c)).val [σ 16, σ 14, σ 26, σ 22, σ 15]) * (N.td (rt c)).val [σ 22 * dim 23 + σ 23, σ 25, σ 20])) τ := by
  have g : dim 18 = D.L (rt (rt c)) := by rw [hd]; rfl
  rw [g] at h ⊢
  rw [step_sum (ha (rt c)) o E h]
  subst hd
  rfl

/-- The strip as one sum over the labels of the density matrix. -/
theorem pairRow_strip {dim : Nat → Nat} (hd : dim = dimsH D c) (σ0 : Nat → Nat) :
    Corrf.Spec.twoPoint N D .right c o1 o2 0 = sumOver dim ([4, 7, 16, 19] ++ inner2) (pairRowTerm dim N c o1 o2) σ0 := by
  have e0 : ∀ τ : Nat → Nat, Corrf.Spec.edge N D .left c (τ 1) (τ 3 * dim 6 + τ 6) (τ 8) =
      sumOver dim [0, 9] (fun σ => (N.lu c).val [σ 0, σ 1] * (N.tl c).val [σ 0, σ 9, σ 3 * dim 6 + σ 6] * (N.ld c).val [σ 9, σ 8]) τ := by
    intro τ
    subst hd
    rfl
  have e4 : ∀ τ : Nat → Nat, Corrf.Spec.edge N D .right (rt c) (τ 12) (τ 15 * dim 18 + τ 18) (τ 20) =
      sumOver dim [13, 21] (fun σ => (N.ru (rt c)).val [σ 12, σ 13] * (N.tr (rt c)).val [σ 13, σ 15 * dim 18 + σ 18, σ 21] * (N.rd (rt c)).val [σ 21, σ 20]) τ := by
    intro τ
    subst hd
    rfl
  obtain ⟨E0, hE0⟩ : ∃ E, E = Corrf.Spec.edge N D .left c := ⟨_, rfl⟩
  rw [← hE0] at e0
  obtain ⟨E1, hE1⟩ : ∃ E, E = Corrf.Spec.step N D .right c o1 E0 := ⟨_, rfl⟩
  obtain ⟨E2, hE2⟩ : ∃ E, E = Corrf.Spec.step N D .right (rt c) o2 E1 := ⟨_, rfl⟩
  have hnet : Corrf.Spec.twoPoint N D .right c o1 o2 0 = sumOver dim [12, 15, 18, 20] (fun τ => E2 (τ 12) (τ 15 * dim 18 + τ 18) (τ 20) * Corrf.Spec.edge N D .right (rt c) (τ 12) (τ 15 * dim 18 + τ 18) (τ 20)) σ0 := by
    have a1 : Corrf.Spec.ahead .right c 1 = rt c := by rw [ahead_right, ahead_zero]
    have a2 : Corrf.Spec.ahead .right c 2 = rt (rt c) := by rw [ahead_right, ahead_right, ahead_zero]
    have : Corrf.Spec.twoPoint N D .right c o1 o2 0 = Corrf.Spec.dot (Corrf.Spec.cut D .right (Corrf.Spec.ahead .right c 2))
      (Corrf.Spec.step N D .right (Corrf.Spec.ahead .right c 1) o2 (Corrf.Spec.step N D .right c o1 (Corrf.Spec.edge N D .left c)))
      (Corrf.Spec.edge N D .right (Corrf.Spec.ahead .right c 1)) := rfl
    rw [this, a1, a2, ← hE0, ← hE1, ← hE2]
    simp only [Corrf.Spec.dot, Corrf.Spec.cut]
    have hs : ∀ f : Nat → Nat → Nat → K, (∑ x ∈ Finset.range (D.eu (rt (rt c))), ∑ y ∈ Finset.range (D.L (rt (rt c)) * D.L (rt (rt c))), ∑ z ∈ Finset.range (D.ed (rt (rt c))), f x y z) =
        ∑ x ∈ Finset.range (D.eu (rt (rt c))), ∑ i ∈ Finset.range (D.L (rt (rt c))), ∑ j ∈ Finset.range (D.L (rt (rt c))), ∑ z ∈ Finset.range (D.ed (rt (rt c))), f x (i * D.L (rt (rt c)) + j) z :=
      fun f => Finset.sum_congr rfl fun x _ => sum_range_mul _ _ _
    rw [hs]
    subst hd
    rfl
  have f1 : ∀ τ : Nat → Nat, τ 27 < dim 27 → E1 (τ 24) (τ 26 * dim 27 + τ 27) (τ 25) = sumOver dim ([1, 3, 6, 8, 2, 5, 10, 11, 7, 4] ++ [0, 9]) (fun σ =>
      (N.lu c).val [σ 0, σ 1] * (N.tl c).val [σ 0, σ 9, σ 3 * dim 6 + σ 6] * (N.ld c).val [σ 9, σ 8] * ((N.tu c).val [σ 1, σ 2 * dim 5 + σ 5, σ 24] * (star ((N.a c).val [σ 7, σ 5, σ 6, σ 11, σ 27]) * o1 (σ 7) (σ 4) * (N.a c).val [σ 4, σ 2, σ 3, σ 10, σ 26]) * (N.td c).val [σ 10 * dim 11 + σ 11, σ 8, σ 25])) τ := by
    intro τ hτ
    rw [hE1, pairRow_step0 ha c hd o1 τ hτ]
    simp only [e0]
    refine sumOver_inner dim _ _ [1, 2, 5, 24, 10, 11, 8, 25, 7, 6, 27, 4, 3, 26] _ _ _ (fun σ τ h => ?_) (by decide)
    simp only [List.forall_mem_cons] at h
    simp only [h]
  have f2 : ∀ τ : Nat → Nat, τ 18 < dim 18 → E2 (τ 12) (τ 15 * dim 18 + τ 18) (τ 20) = sumOver dim ([24, 26, 27, 25, 14, 17, 22, 23, 19, 16] ++ ([1, 3, 6, 8, 2, 5, 10, 11, 7, 4] ++ [0, 9])) (fun σ =>
      (N.lu c).val [σ 0, σ 1] * (N.tl c).val [σ 0, σ 9, σ 3 * dim 6 + σ 6] * (N.ld c).val [σ 9, σ 8] * ((N.tu c).val [σ 1, σ 2 * dim 5 + σ 5, σ 24] * (star ((N.a c).val [σ 7, σ 5, σ 6, σ 11, σ 27]) * o1 (σ 7) (σ 4) * (N.a c).val [σ 4, σ 2, σ 3, σ 10, σ 26]) * (N.td c).val [σ 10 * dim 11 + σ 11, σ 8, σ 25]) * ((N.tu (rt c)).val [σ 24, σ 14 * dim 17 + σ 17, σ 12] * (star ((N.a (rt c)).val [σ 19, σ 17, σ 27, σ 23, σ 18]) * o2 (σ 19) (σ 16) * (N.a (rt c)).val [σ 16, σ 14, σ 26, σ 22, σ 15]) * (N.td (rt c)).val [σ 22 * dim 23 + σ 23, σ 25, σ 20])) τ := by
    intro τ hτ
    rw [hE2, pairRow_step1 ha c hd o2 τ hτ]
    refine (sumOver_congr dim _ _ _ _ fun ρ hρ _ => ?_).trans (sumOver_inner dim _ _ [24, 14, 17, 12, 22, 23, 25, 20, 19, 27, 18, 16, 26, 15] _ _ _ (fun σ τ h => ?_) (by decide))
    · rw [f1 ρ (hρ 27 (by decide))]
    · simp only [List.forall_mem_cons] at h
      simp only [h]
  rw [hnet]
  refine (sumOver_congr dim _ _ (fun τ => sumOver dim (([24, 26, 27, 25, 14, 17, 22, 23, 19, 16] ++ ([1, 3, 6, 8, 2, 5, 10, 11, 7, 4] ++ [0, 9])) ++ [13, 21]) (pairRowTerm dim N c o1 o2) τ) _ fun ρ hρ _ => ?_).trans ?_
  · rw [f2 ρ (hρ 18 (by decide)), e4]
    refine sumOver_mul_sumOver dim _ _ ([24, 26, 27, 25, 14, 17, 22, 23, 19, 16] ++ ([1, 3, 6, 8, 2, 5, 10, 11, 7, 4] ++ [0, 9]) ++ [12, 15, 18, 20]) [12, 13, 15, 18, 21, 20] _ _ _
      (fun σ τ h => ?_) (fun σ τ h => ?_) (by decide) (by decide)
    · simp only [List.cons_append, List.nil_append, List.forall_mem_cons] at h
      simp only [h]
    · simp only [List.forall_mem_cons] at h
      simp only [h]
  · rw [← sumOver_append]
    exact sumOver_perm dim (by decide) _ _
end

/-- The trace of the density matrix with the operators is the strip with these operators. -/
theorem pairRow_expect {D : Dims} {st : State K} {env : Env K} {N : Corrf.Spec.Tensors K} (hs : FitsState D st) (hN : Corrf.Spec.Reads st env N) {c : Coord} {e : PairEnv K} {a b : Tensor K} (he : AroundRow st env c e a b) {rho : Tensor K}
    (hr : Corner.Spec.IsNetwork (dimsH D c) rho [[4], [16], [7], [19]] inner2 (Spec.rhoH (dimsH D c) e a b)) (o1 o2 : Corrf.Spec.Op K) :
    ∑ i ∈ Finset.range (D.p c), ∑ a ∈ Finset.range (D.p c), ∑ j ∈ Finset.range (D.p (rt c)), ∑ b ∈ Finset.range (D.p (rt c)), rho.val [i, j, a, b] * (o1 a i * o2 b j) =
      Corrf.Spec.twoPoint N D .right c o1 o2 0 := by
  have ha : ∀ c, (N.a c).shape = [D.p c, D.U c, D.L c, D.U (dn c), D.L (rt c)] := by
    intro c
    obtain ⟨t, h1, h2⟩ := hs.site c
    rw [← h2, Option.some.inj ((hN.a c).symm.trans h1)]
  obtain ⟨dim, hd⟩ : ∃ dim, dim = dimsH D c := ⟨_, rfl⟩
  rw [pairRow_strip ha c o1 o2 hd (fun _ => 0), sumOver_append]
  rw [← hd] at hr
  have g4 : dim 4 = D.p c := by rw [hd]; rfl
  have g7 : dim 7 = D.p c := by rw [hd]; rfl
  have g16 : dim 16 = D.p (rt c) := by rw [hd]; rfl
  have g19 : dim 19 = D.p (rt c) := by rw [hd]; rfl
  have hv : ∀ σ : Nat → Nat, σ 4 < D.p c → σ 7 < D.p c → σ 16 < D.p (rt c) → σ 19 < D.p (rt c) →
      rho.val [σ 4, σ 16, σ 7, σ 19] * (o1 (σ 7) (σ 4) * o2 (σ 19) (σ 16)) = sumOver dim inner2 (pairRowTerm dim N c o1 o2) σ := by
    intro σ h4 h7 h16 h19
    have := hr.2 σ (by simp [g4, g7, g16, g19, h4, h7, h16, h19])
    have r1 : ∀ d n : Nat, ravel [d] [n] = n := fun d n => by simp [ravel]
    simp only [List.map_cons, List.map_nil, r1] at this
    rw [this, sumOver_mul]
    refine sumOver_congr dim _ _ _ _ fun τ _ hτ => ?_
    rw [← hτ 4 (by decide), ← hτ 7 (by decide), ← hτ 16 (by decide), ← hτ 19 (by decide)]
    have q0 := Option.some.inj ((hN.lu c).symm.trans he.C1)
    have q1 := Option.some.inj ((hN.ru (rt c)).symm.trans he.C2)
    have q2 := Option.some.inj ((hN.rd (rt c)).symm.trans he.C3)
    have q3 := Option.some.inj ((hN.ld c).symm.trans he.C4)
    have q4 := Option.some.inj ((hN.tu c).symm.trans he.T1)
    have q5 := Option.some.inj ((hN.tu (rt c)).symm.trans he.T1b)
    have q6 := Option.some.inj ((hN.td c).symm.trans he.T3)
    have q7 := Option.some.inj ((hN.td (rt c)).symm.trans he.T3b)
    have q8 := Option.some.inj ((hN.tl c).symm.trans he.S)
    have q9 := Option.some.inj ((hN.tr (rt c)).symm.trans he.Sb)
    have q10 := Option.some.inj ((hN.a c).symm.trans he.ket)
    have q11 := Option.some.inj ((hN.a (rt c)).symm.trans he.ket')
    simp only [pairRowTerm, Spec.rhoH, Corner.Spec.fused, q0, q1, q2, q3, q4, q5, q6, q7, q8, q9, q10, q11]
    ring
  simp only [sumOver, g4, g7, g16, g19]
  refine Finset.sum_congr rfl fun i hi => Finset.sum_congr rfl fun a ha => Finset.sum_congr rfl fun j hj => Finset.sum_congr rfl fun b hb => ?_
  rw [← hv]
  · simp [Function.update]
  · simpa [Function.update] using hi
  · simpa [Function.update] using ha
  · simpa [Function.update] using hj
  · simpa [Function.update] using hb

/-- Two sites in a column with an operator on each. -/
def pairColTerm (dim : Nat → Nat) (N : Corrf.Spec.Tensors K) (c : Coord) (o1 o2 : Corrf.Spec.Op K) (σ : Nat → Nat) : K :=
  (N.lu c).val [σ 0, σ 1] * (N.tu c).val [σ 1, σ 2 * dim 5 + σ 5, σ 9] * (N.ru c).val [σ 9, σ 8] *
  ((N.tl c).val [σ 0, σ 24, σ 3 * dim 6 + σ 6] * (star ((N.a c).val [σ 7, σ 5, σ 6, σ 26, σ 11]) * o1 (σ 7) (σ 4) * (N.a c).val [σ 4, σ 2, σ 3, σ 25, σ 10]) * (N.tr c).val [σ 8, σ 10 * dim 11 + σ 11, σ 27]) *
  ((N.tl (dn c)).val [σ 24, σ 13, σ 14 * dim 17 + σ 17] * (star ((N.a (dn c)).val [σ 19, σ 26, σ 17, σ 18, σ 23]) * o2 (σ 19) (σ 16) * (N.a (dn c)).val [σ 16, σ 25, σ 14, σ 15, σ 22]) * (N.tr (dn c)).val [σ 27, σ 22 * dim 23 + σ 23, σ 20]) *
  ((N.ld (dn c)).val [σ 13, σ 12] * (N.td (dn c)).val [σ 15 * dim 18 + σ 18, σ 12, σ 21] * (N.rd (dn c)).val [σ 20, σ 21])

section
variable {N : Corrf.Spec.Tensors K} {D : Dims} (ha : ∀ c, (N.a c).shape = [D.p c, D.U c, D.L c, D.U (dn c), D.L (rt c)]) (c : Coord) (o1 o2 : Corrf.Spec.Op K)
include ha

theorem pairCol_step0 {dim : Nat → Nat} (hd : dim = dimsV D c) {E : Corrf.Spec.Vec K} (o : Corrf.Spec.Op K) (τ : Nat → Nat) (h : τ 26 < dim 26) :
    Corrf.Spec.step N D .down c o E (τ 24) (τ 25 * dim 26 + τ 26) (τ 27) =
      sumOver dim [0, 2, 5, 8, 3, 6, 10, 11, 7, 4] (fun σ => E (σ 0) (σ 2 * dim 5 + σ 5) (σ 8) *
        ((N.tl c).val [σ 0, σ 24, σ 3 * dim 6 + σ 6] * (star ((N.a c).val [σ 7, σ 5, σ 6, σ 26, σ 11]) * o (σ 7) (σ 4) * (N.a c).val [σ 4, σ 2, σ 3, σ 25, σ 10]) * (N.tr c).val [σ 8, σ 10 * dim 11 + σ 11, σ 27])) τ := by
  have g : dim 26 = D.U (dn c) := by rw [hd]; rfl
  rw [g] at h ⊢
  rw [step_sum_down (ha c) o E h]
  subst hd
  rfl

theorem pairCol_step1 {dim : Nat → Nat} (hd : dim = dimsV D c) {E : Corrf.Spec.Vec K} (o : Corrf.Spec.Op K) (τ : Nat → Nat) (h : τ 18 < dim 18) :
    Corrf.Spec.step N D .down (dn c) o E (τ 13) (τ 15 * dim 18 + τ 18) (τ 20) =
      sumOver dim [24, 25, 26, 27, 14, 17, 22, 23, 19, 16] (fun σ => E (σ 24) (σ 25 * dim 26 + σ 26) (σ 27) *
        ((N.tl (dn c)).val [σ 24, σ 13, σ 14 * dim 17 + σ 17] * (star ((N.a (dn c)).val [σ 19, σ 26, σ 17, σ 18, σ 23]) * o (σ 19) (σ 16) * (N.a (dn c)).val [σ 16, σ 25, σ 14, σ 15, σ 22]) * (N.tr (dn c)).val [σ 27, σ 22 * dim 23 + σ 23, σ 20])) τ := by
  have g : dim 18 = D.U (dn (dn c)) := by rw [hd]; rfl
  rw [g] at h ⊢
  rw [step_sum_down (ha (dn c)) o E h]
  subst hd
  rfl

/-- The strip as one sum over the labels of the density matrix. -/
theorem pairCol_strip {dim : Nat → Nat} (hd : dim = dimsV D c) (σ0 : Nat → Nat) :
    Corrf.Spec.twoPoint N D .down c o1 o2 0 = sumOver dim ([4, 7, 16, 19] ++ inner2) (pairColTerm dim N c o1 o2) σ0 := by
  have e0 : ∀ τ : Nat → Nat, Corrf.Spec.edge N D .up c (τ 0) (τ 2 * dim 5 + τ 5) (τ 8) =
      sumOver dim [1, 9] (fun σ => (N.lu c).val [σ 0, σ 1] * (N.tu c).val [σ 1, σ 2 * dim 5 + σ 5, σ 9] * (N.ru c).val [σ 9, σ 8]) τ := by
    intro τ
    subst hd
    rfl
  have e4 : ∀ τ : Nat → Nat, Corrf.Spec.edge N D .down (dn c) (τ 13) (τ 15 * dim 18 + τ 18) (τ 20) =
      sumOver dim [12, 21] (fun σ => (N.ld (dn c)).val [σ 13, σ 12] * (N.td (dn c)).val [σ 15 * dim 18 + σ 18, σ 12, σ 21] * (N.rd (dn c)).val [σ 20, σ 21]) τ := by
    intro τ
    subst hd
    rfl
  obtain ⟨E0, hE0⟩ : ∃ E, E = Corrf.Spec.edge N D .up c := ⟨_, rfl⟩
  rw [← hE0] at e0
  obtain ⟨E1, hE1⟩ : ∃ E, E = Corrf.Spec.step N D .down c o1 E0 := ⟨_, rfl⟩
  obtain ⟨E2, hE2⟩ : ∃ E, E = Corrf.Spec.step N D .down (dn c) o2 E1 := ⟨_, rfl⟩
  have hnet : Corrf.Spec.twoPoint N D .down c o1 o2 0 = sumOver dim [13, 15, 18, 20] (fun τ => E2 (τ 13) (τ 15 * dim 18 + τ 18) (τ 20) * Corrf.Spec.edge N D .down (dn c) (τ 13) (τ 15 * dim 18 + τ 18) (τ 20)) σ0 := by
    have a1 : Corrf.Spec.ahead .down c 1 = dn c := by rw [ahead_down, ahead_zero]
    have a2 : Corrf.Spec.ahead .down c 2 = dn (dn c) := by rw [ahead_down, ahead_down, ahead_zero]
    have : Corrf.Spec.twoPoint N D .down c o1 o2 0 = Corrf.Spec.dot (Corrf.Spec.cut D .down (Corrf.Spec.ahead .down c 2))
      (Corrf.Spec.step N D .down (Corrf.Spec.ahead .down c 1) o2 (Corrf.Spec.step N D .down c o1 (Corrf.Spec.edge N D .up c)))
      (Corrf.Spec.edge N D .down (Corrf.Spec.ahead .down c 1)) := rfl
    rw [this, a1, a2, ← hE0, ← hE1, ← hE2]
    simp only [Corrf.Spec.dot, Corrf.Spec.cut]
    have hs : ∀ f : Nat → Nat → Nat → K, (∑ x ∈ Finset.range (D.el (dn (dn c))), ∑ y ∈ Finset.range (D.U (dn (dn c)) * D.U (dn (dn c))), ∑ z ∈ Finset.range (D.er (dn (dn c))), f x y z) =
        ∑ x ∈ Finset.range (D.el (dn (dn c))), ∑ i ∈ Finset.range (D.U (dn (dn c))), ∑ j ∈ Finset.range (D.U (dn (dn c))), ∑ z ∈ Finset.range (D.er (dn (dn c))), f x (i * D.U (dn (dn c)) + j) z :=
      fun f => Finset.sum_congr rfl fun x _ => sum_range_mul _ _ _
    rw [hs]
    subst hd
    rfl
  have f1 : ∀ τ : Nat → Nat, τ 26 < dim 26 → E1 (τ 24) (τ 25 * dim 26 + τ 26) (τ 27) = sumOver dim ([0, 2, 5, 8, 3, 6, 10, 11, 7, 4] ++ [1, 9]) (fun σ =>
      (N.lu c).val [σ 0, σ 1] * (N.tu c).val [σ 1, σ 2 * dim 5 + σ 5, σ 9] * (N.ru c).val [σ 9, σ 8] * ((N.tl c).val [σ 0, σ 24, σ 3 * dim 6 + σ 6] * (star ((N.a c).val [σ 7, σ 5, σ 6, σ 26, σ 11]) * o1 (σ 7) (σ 4) * (N.a c).val [σ 4, σ 2, σ 3, σ 25, σ 10]) * (N.tr c).val [σ 8, σ 10 * dim 11 + σ 11, σ 27])) τ := by
    intro τ hτ
    rw [hE1, pairCol_step0 ha c hd o1 τ hτ]
    simp only [e0]
    refine sumOver_inner dim _ _ [0, 24, 3, 6, 8, 10, 11, 27, 7, 5, 26, 4, 2, 25] _ _ _ (fun σ τ h => ?_) (by decide)
    simp only [List.forall_mem_cons] at h
    simp only [h]
  have f2 : ∀ τ : Nat → Nat, τ 18 < dim 18 → E2 (τ 13) (τ 15 * dim 18 + τ 18) (τ 20) = sumOver dim ([24, 25, 26, 27, 14, 17, 22, 23, 19, 16] ++ ([0, 2, 5, 8, 3, 6, 10, 11, 7, 4] ++ [1, 9])) (fun σ =>
      (N.lu c).val [σ 0, σ 1] * (N.tu c).val [σ 1, σ 2 * dim 5 + σ 5, σ 9] * (N.ru c).val [σ 9, σ 8] * ((N.tl c).val [σ 0, σ 24, σ 3 * dim 6 + σ 6] * (star ((N.a c).val [σ 7, σ 5, σ 6, σ 26, σ 11]) * o1 (σ 7) (σ 4) * (N.a c).val [σ 4, σ 2, σ 3, σ 25, σ 10]) * (N.tr c).val [σ 8, σ 10 * dim 11 + σ 11, σ 27]) * ((N.tl (dn c)).val [σ 24, σ 13, σ 14 * dim 17 + σ 17] * (star ((N.a (dn c)).val [σ 19, σ 26, σ 17, σ 18, σ 23]) * o2 (σ 19) (σ 16) * (N.a (dn c)).val [σ 16, σ 25, σ 14, σ 15, σ 22]) * (N.tr (dn c)).val [σ 27, σ 22 * dim 23 + σ 23, σ 20])) τ := by
    intro τ hτ
    rw [hE2, pairCol_step1 ha c hd o2 τ hτ]
    refine (sumOver_congr dim _ _ _ _ fun ρ hρ _ => ?_).trans (sumOver_inner dim _ _ [24, 13, 14, 17, 27, 22, 23, 20, 19, 26, 18, 16, 25, 15] _ _ _ (fun σ τ h => ?_) (by decide))
    · rw [f1 ρ (hρ 26 (by decide))]
    · simp only [List.forall_mem_cons] at h
      simp only [h]
  rw [hnet]
  refine (sumOver_congr dim _ _ (fun τ => sumOver dim (([24, 25, 26, 27, 14, 17, 22, 23, 19, 16] ++ ([0, 2, 5, 8, 3, 6, 10, 11, 7, 4] ++ [1, 9])) ++ [12, 21]) (pairColTerm dim N c o1 o2) τ) _ fun ρ hρ _ => ?_).trans ?_
  · rw [f2 ρ (hρ 18 (by decide)), e4]
    refine sumOver_mul_sumOver dim _ _ ([24, 25, 26, 27, 14, 17, 22, 23, 19, 16] ++ ([0, 2, 5, 8, 3, 6, 10, 11, 7, 4] ++ [1, 9]) ++ [13, 15, 18, 20]) [13, 12, 15, 18, 21, 20] _ _ _
      (fun σ τ h => ?_) (fun σ τ h => ?_) (by decide) (by decide)
    · simp only [List.cons_append, List.nil_append, List.forall_mem_cons] at h
      simp only [h]
    · simp only [List.forall_mem_cons] at h
      simp only [h]
  · rw [← sumOver_append]
    exact sumOver_perm dim (by decide) _ _
end

/-- The trace of the density matrix with the operators is the strip with these operators. -/
theorem pairCol_expect {D : Dims} {st : State K} {env : Env K} {N : Corrf.Spec.Tensors K} (hs : FitsState D st) (hN : Corrf.Spec.Reads st env N) {c : Coord} {e : PairEnv K} {a b : Tensor K} (he : AroundColumn st env c e a b) {rho : Tensor K}
    (hr : Corner.Spec.IsNetwork (dimsV D c) rho [[4], [16], [7], [19]] inner2 (Spec.rhoV (dimsV D c) e a b)) (o1 o2 : Corrf.Spec.Op K) :
    ∑ i ∈ Finset.range (D.p c), ∑ a ∈ Finset.range (D.p c), ∑ j ∈ Finset.range (D.p (dn c)), ∑ b ∈ Finset.range (D.p (dn c)), rho.val [i, j, a, b] * (o1 a i * o2 b j) =
      Corrf.Spec.twoPoint N D .down c o1 o2 0 := by
  have ha : ∀ c, (N.a c).shape = [D.p c, D.U c, D.L c, D.U (dn c), D.L (rt c)] := by
    intro c
    obtain ⟨t, h1, h2⟩ := hs.site c
    rw [← h2, Option.some.inj ((hN.a c).symm.trans h1)]
  obtain ⟨dim, hd⟩ : ∃ dim, dim = dimsV D c := ⟨_, rfl⟩
  rw [pairCol_strip ha c o1 o2 hd (fun _ => 0), sumOver_append]
  rw [← hd] at hr
  have g4 : dim 4 = D.p c := by rw [hd]; rfl
  have g7 : dim 7 = D.p c := by rw [hd]; rfl
  have g16 : dim 16 = D.p (dn c) := by rw [hd]; rfl
  have g19 : dim 19 = D.p (dn c) := by rw [hd]; rfl
  have hv : ∀ σ : Nat → Nat, σ 4 < D.p c → σ 7 < D.p c → σ 16 < D.p (dn c) → σ 19 < D.p (dn c) →
      rho.val [σ 4, σ 16, σ 7, σ 19] * (o1 (σ 7) (σ 4) * o2 (σ 19) (σ 16)) = sumOver dim inner2 (pairColTerm dim N c o1 o2) σ := by
    intro σ h4 h7 h16 h19
    have := hr.2 σ (by simp [g4, g7, g16, g19, h4, h7, h16, h19])
    have r1 : ∀ d n : Nat, ravel [d] [n] = n := fun d n => by simp [ravel]
    simp only [List.map_cons, List.map_nil, r1] at this
    rw [this, sumOver_mul]
    refine sumOver_congr dim _ _ _ _ fun τ _ hτ => ?_
    rw [← hτ 4 (by decide), ← hτ 7 (by decide), ← hτ 16 (by decide), ← hτ 19 (by decide)]
    have q0 := Option.some.inj ((hN.lu c).symm.trans he.C1)
    have q1 := Option.some.inj ((hN.ru c).symm.trans he.C2)
    have q2 := Option.some.inj ((hN.rd (dn c)).symm.trans he.C3)
    have q3 := Option.some.inj ((hN.ld (dn c)).symm.trans he.C4)
    have q4 := Option.some.inj ((hN.tl c).symm.trans he.T1)
    have q5 := Option.some.inj ((hN.tl (dn c)).symm.trans he.T1b)
    have q6 := Option.some.inj ((hN.tr c).symm.trans he.T3)
    have q7 := Option.some.inj ((hN.tr (dn c)).symm.trans he.T3b)
    have q8 := Option.some.inj ((hN.tu c).symm.trans he.S)
    have q9 := Option.some.inj ((hN.td (dn c)).symm.trans he.Sb)
    have q10 := Option.some.inj ((hN.a c).symm.trans he.ket)
    have q11 := Option.some.inj ((hN.a (dn c)).symm.trans he.ket')
    simp only [pairColTerm, Spec.rhoV, Corner.Spec.fused, q0, q1, q2, q3, q4, q5, q6, q7, q8, q9, q10, q11]
    ring
  simp only [sumOver, g4, g7, g16, g19]
  refine Finset.sum_congr rfl fun i hi => Finset.sum_congr rfl fun a ha => Finset.sum_congr rfl fun j hj => Finset.sum_congr rfl fun b hb => ?_
  rw [← hv]
  · simp [Function.update]
  · simpa [Function.update] using hi
  · simpa [Function.update] using ha
  · simpa [Function.update] using hj
  · simpa [Function.update] using hb

/-- One site with an operator. -/
def singleTerm (dim : Nat → Nat) (N : Corrf.Spec.Tensors K) (c : Coord) (o1 : Corrf.Spec.Op K) (σ : Nat → Nat) : K :=
  (N.lu c).val [σ 0, σ 1] * (N.tl c).val [σ 0, σ 14, σ 3 * dim 6 + σ 6] * (N.ld c).val [σ 14, σ 12] *
  ((N.tu c).val [σ 1, σ 2 * dim 5 + σ 5, σ 9] * (star ((N.a c).val [σ 7, σ 5, σ 6, σ 16, σ 11]) * o1 (σ 7) (σ 4) * (N.a c).val [σ 4, σ 2, σ 3, σ 15, σ 10]) * (N.td c).val [σ 15 * dim 16 + σ 16, σ 12, σ 13]) *
  ((N.ru c).val [σ 9, σ 8] * (N.tr c).val [σ 8, σ 10 * dim 11 + σ 11, σ 17] * (N.rd c).val [σ 17, σ 13])

section
variable {N : Corrf.Spec.Tensors K} {D : Dims} (ha : ∀ c, (N.a c).shape = [D.p c, D.U c, D.L c, D.U (dn c), D.L (rt c)]) (c : Coord) (o1 : Corrf.Spec.Op K)
include ha

theorem single_step0 {dim : Nat → Nat} (hd : dim = dims1 D c) {E : Corrf.Spec.Vec K} (o : Corrf.Spec.Op K) (τ : Nat → Nat) (h : τ 11 < dim 11) :
    Corrf.Spec.step N D .right c o E (τ 9) (τ 10 * dim 11 + τ 11) (τ 13) =
      sumOver dim [1, 3, 6, 12, 2, 5, 15, 16, 7, 4] (fun σ => E (σ 1) (σ 3 * dim 6 + σ 6) (σ 12) *
        ((N.tu c).val [σ 1, σ 2 * dim 5 + σ 5, σ 9] * (star ((N.a c).val [σ 7, σ 5, σ 6, σ 16, σ 11]) * o (σ 7) (σ 4) * (N.a c).val [σ 4, σ 2, σ 3, σ 15, σ 10]) * (N.td c).val [σ 15 * dim 16 + σ 16, σ 12, σ 13])) τ := by
  have g : dim 11 = D.L (rt c) := by rw [hd]; rfl
  rw [g] at h ⊢
  rw [step_sum (ha c) o E h]
  subst hd
  rfl

/-- The strip as one sum over the labels of the density matrix. -/
theorem single_strip {dim : Nat → Nat} (hd : dim = dims1 D c) (σ0 : Nat → Nat) :
    Corrf.Spec.network N D .right c [o1] = sumOver dim ([4, 7] ++ inner1) (singleTerm dim N c o1) σ0 := by
  have e0 : ∀ τ : Nat → Nat, Corrf.Spec.edge N D .left c (τ 1) (τ 3 * dim 6 + τ 6) (τ 12) =
      sumOver dim [0, 14] (fun σ => (N.lu c).val [σ 0, σ 1] * (N.tl c).val [σ 0, σ 14, σ 3 * dim 6 + σ 6] * (N.ld c).val [σ 14, σ 12]) τ := by
    intro τ
    subst hd
    rfl
  have e4 : ∀ τ : Nat → Nat, Corrf.Spec.edge N D .right c (τ 9) (τ 10 * dim 11 + τ 11) (τ 13) =
      sumOver dim [8, 17] (fun σ => (N.ru c).val [σ 9, σ 8] * (N.tr c).val [σ 8, σ 10 * dim 11 + σ 11, σ 17] * (N.rd c).val [σ 17, σ 13]) τ := by
    intro τ
    subst hd
    rfl
  obtain ⟨E0, hE0⟩ : ∃ E, E = Corrf.Spec.edge N D .left c := ⟨_, rfl⟩
  rw [← hE0] at e0
  obtain ⟨E1, hE1⟩ : ∃ E, E = Corrf.Spec.step N D .right c o1 E0 := ⟨_, rfl⟩
  have hnet : Corrf.Spec.network N D .right c [o1] = sumOver dim [9, 10, 11, 13] (fun τ => E1 (τ 9) (τ 10 * dim 11 + τ 11) (τ 13) * Corrf.Spec.edge N D .right c (τ 9) (τ 10 * dim 11 + τ 11) (τ 13)) σ0 := by
    have a1 : Corrf.Spec.ahead .right c 1 = rt c := by rw [ahead_right, ahead_zero]
    have : Corrf.Spec.network N D .right c [o1] = Corrf.Spec.dot (Corrf.Spec.cut D .right (Corrf.Spec.ahead .right c 1))
      (Corrf.Spec.step N D .right c o1 (Corrf.Spec.edge N D .left c)) (Corrf.Spec.edge N D .right (Corrf.Spec.ahead .right c 0)) := rfl
    rw [this, a1, ahead_zero, ← hE0, ← hE1]
    simp only [Corrf.Spec.dot, Corrf.Spec.cut]
    have hs : ∀ f : Nat → Nat → Nat → K, (∑ x ∈ Finset.range (D.eu (rt c)), ∑ y ∈ Finset.range (D.L (rt c) * D.L (rt c)), ∑ z ∈ Finset.range (D.ed (rt c)), f x y z) =
        ∑ x ∈ Finset.range (D.eu (rt c)), ∑ i ∈ Finset.range (D.L (rt c)), ∑ j ∈ Finset.range (D.L (rt c)), ∑ z ∈ Finset.range (D.ed (rt c)), f x (i * D.L (rt c) + j) z :=
      fun f => Finset.sum_congr rfl fun x _ => sum_range_mul _ _ _
    rw [hs]
    subst hd
    rfl
  have f1 : ∀ τ : Nat → Nat, τ 11 < dim 11 → E1 (τ 9) (τ 10 * dim 11 + τ 11) (τ 13) = sumOver dim ([1, 3, 6, 12, 2, 5, 15, 16, 7, 4] ++ [0, 14]) (fun σ =>
      (N.lu c).val [σ 0, σ 1] * (N.tl c).val [σ 0, σ 14, σ 3 * dim 6 + σ 6] * (N.ld c).val [σ 14, σ 12] * ((N.tu c).val [σ 1, σ 2 * dim 5 + σ 5, σ 9] * (star ((N.a c).val [σ 7, σ 5, σ 6, σ 16, σ 11]) * o1 (σ 7) (σ 4) * (N.a c).val [σ 4, σ 2, σ 3, σ 15, σ 10]) * (N.td c).val [σ 15 * dim 16 + σ 16, σ 12, σ 13])) τ := by
    intro τ hτ
    rw [hE1, single_step0 ha c hd o1 τ hτ]
    simp only [e0]
    refine sumOver_inner dim _ _ [1, 2, 5, 9, 15, 16, 12, 13, 7, 6, 11, 4, 3, 10] _ _ _ (fun σ τ h => ?_) (by decide)
    simp only [List.forall_mem_cons] at h
    simp only [h]
  rw [hnet]
  refine (sumOver_congr dim _ _ (fun τ => sumOver dim (([1, 3, 6, 12, 2, 5, 15, 16, 7, 4] ++ [0, 14]) ++ [8, 17]) (singleTerm dim N c o1) τ) _ fun ρ hρ _ => ?_).trans ?_
  · rw [f1 ρ (hρ 11 (by decide)), e4]
    refine sumOver_mul_sumOver dim _ _ ([1, 3, 6, 12, 2, 5, 15, 16, 7, 4] ++ [0, 14] ++ [9, 10, 11, 13]) [9, 8, 10, 11, 17, 13] _ _ _
      (fun σ τ h => ?_) (fun σ τ h => ?_) (by decide) (by decide)
    · simp only [List.cons_append, List.nil_append, List.forall_mem_cons] at h
      simp only [h]
    · simp only [List.forall_mem_cons] at h
      simp only [h]
  · rw [← sumOver_append]
    exact sumOver_perm dim (by decide) _ _
end

/-- The trace of the density matrix with the operators is the strip with these operators. -/
theorem single_expect {D : Dims} {st : State K} {env : Env K} {N : Corrf.Spec.Tensors K} (hs : FitsState D st) (hN : Corrf.Spec.Reads st env N) {c : Coord} {e : SiteEnv K} {a : Tensor K} (he : AroundSite st env c e a) {rho : Tensor K}
    (hr : Corner.Spec.IsNetwork (dims1 D c) rho [[4], [7]] inner1 (Spec.rho1 (dims1 D c) e a)) (o1 : Corrf.Spec.Op K) :
    ∑ i ∈ Finset.range (D.p c), ∑ a ∈ Finset.range (D.p c), rho.val [i, a] * (o1 a i) =
      Corrf.Spec.network N D .right c [o1] := by
  have ha : ∀ c, (N.a c).shape = [D.p c, D.U c, D.L c, D.U (dn c), D.L (rt c)] := by
    intro c
    obtain ⟨t, h1, h2⟩ := hs.site c
    rw [← h2, Option.some.inj ((hN.a c).symm.trans h1)]
  obtain ⟨dim, hd⟩ : ∃ dim, dim = dims1 D c := ⟨_, rfl⟩
  rw [single_strip ha c o1 hd (fun _ => 0), sumOver_append]
  rw [← hd] at hr
  have g4 : dim 4 = D.p c := by rw [hd]; rfl
  have g7 : dim 7 = D.p c := by rw [hd]; rfl
  have hv : ∀ σ : Nat → Nat, σ 4 < D.p c → σ 7 < D.p c →
      rho.val [σ 4, σ 7] * (o1 (σ 7) (σ 4)) = sumOver dim inner1 (singleTerm dim N c o1) σ := by
    intro σ h4 h7
    have := hr.2 σ (by simp [g4, g7, h4, h7])
    have r1 : ∀ d n : Nat, ravel [d] [n] = n := fun d n => by simp [ravel]
    simp only [List.map_cons, List.map_nil, r1] at this
    rw [this, sumOver_mul]
    refine sumOver_congr dim _ _ _ _ fun τ _ hτ => ?_
    rw [← hτ 4 (by decide), ← hτ 7 (by decide)]
    have q0 := Option.some.inj ((hN.lu c).symm.trans he.C1)
    have q1 := Option.some.inj ((hN.ru c).symm.trans he.C2)
    have q2 := Option.some.inj ((hN.rd c).symm.trans he.C3)
    have q3 := Option.some.inj ((hN.ld c).symm.trans he.C4)
    have q4 := Option.some.inj ((hN.tu c).symm.trans he.T1)
    have q5 := Option.some.inj ((hN.tr c).symm.trans he.T2)
    have q6 := Option.some.inj ((hN.td c).symm.trans he.T3)
    have q7 := Option.some.inj ((hN.tl c).symm.trans he.T4)
    have q8 := Option.some.inj ((hN.a c).symm.trans he.ket)
    simp only [singleTerm, Spec.rho1, Corner.Spec.fused, q0, q1, q2, q3, q4, q5, q6, q7, q8]
    ring
  simp only [sumOver, g4, g7]
  refine Finset.sum_congr rfl fun i hi => Finset.sum_congr rfl fun a ha => ?_
  rw [← hv]
  · simp [Function.update]
  · simpa [Function.update] using hi
  · simpa [Function.update] using ha

end Verif.Rdm
