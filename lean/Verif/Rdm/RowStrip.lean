import Verif.Rdm.TripleProps
import Verif.Corrf.Spec
import Verif.C4v.RdmSpec
/-
Three sites in a row with two operators at the ends, as the network of the density matrix of three sites (labels of TripleSpec) and as the strip of the correlation functions.
-/
namespace Verif.Rdm
open Tensor Ctm Ctm.Spec Rdm.Spec
set_option linter.unusedSimpArgs false
variable {K : Type} [RCLike K]

theorem ahead_right (c : Coord) (n : Nat) : Corrf.Spec.ahead .right c (n + 1) = Corrf.Spec.ahead .right (rt c) n := by
  simp only [Corrf.Spec.ahead, Dir.vec, rt, Prod.mk.injEq]
  push_cast
  constructor <;> ring

theorem ahead_zero (d : Dir) (c : Coord) : Corrf.Spec.ahead d c 0 = c := by simp [Corrf.Spec.ahead]

theorem layer_sum {a : Tensor K} {p u l d r : Nat} (ha : a.shape = [p, u, l, d, r]) (o : Corrf.Spec.Op K) {m1 m2 y1 y2 n1 n2 z1 z2 : Nat} (h1 : m2 < u) (h2 : y2 < l) (h3 : n2 < d) (h4 : z2 < r) :
    Corrf.Spec.layer a o (m1 * u + m2) (y1 * l + y2) (n1 * d + n2) (z1 * r + z2) =
      ∑ s' ∈ Finset.range p, ∑ s ∈ Finset.range p, star (a.val [s', m2, y2, n2, z2]) * o s' s * a.val [s, m1, y1, n1, z1] := by
  have e : ∀ {i j k : Nat}, j < k → (i * k + j) % k = j ∧ (i * k + j) / k = i := by
    intro i j k h
    rw [mul_comm, Nat.mul_add_mod, Nat.mod_eq_of_lt h, Nat.mul_add_div (by omega), Nat.div_eq_of_lt h]
    exact ⟨rfl, rfl⟩
  simp only [Corrf.Spec.layer, Tensor.size, ha, List.getD_cons_zero, List.getD_cons_succ, (e h1).1, (e h1).2, (e h2).1, (e h2).2, (e h3).1, (e h3).2, (e h4).1, (e h4).2]

/-- One site of the strip, with all double-layer indices split. -/
theorem step_sum {N : Corrf.Spec.Tensors K} {D : Dims} {c : Coord} (ha : (N.a c).shape = [D.p c, D.U c, D.L c, D.U (dn c), D.L (rt c)]) (o : Corrf.Spec.Op K) (E : Corrf.Spec.Vec K) {x y1 y2 z : Nat} (hy : y2 < D.L (rt c)) :
    Corrf.Spec.step N D .right c o E x (y1 * D.L (rt c) + y2) z =
      ∑ x0 ∈ Finset.range (D.eu c), ∑ i ∈ Finset.range (D.L c), ∑ j ∈ Finset.range (D.L c), ∑ z0 ∈ Finset.range (D.ed c), ∑ m1 ∈ Finset.range (D.U c), ∑ m2 ∈ Finset.range (D.U c),
        ∑ n1 ∈ Finset.range (D.U (dn c)), ∑ n2 ∈ Finset.range (D.U (dn c)), ∑ s' ∈ Finset.range (D.p c), ∑ s ∈ Finset.range (D.p c),
          E x0 (i * D.L c + j) z0 * ((N.tu c).val [x0, m1 * D.U c + m2, x] * (star ((N.a c).val [s', m2, j, n2, y2]) * o s' s * (N.a c).val [s, m1, i, n1, y1]) * (N.td c).val [n1 * D.U (dn c) + n2, z0, z]) := by
  simp only [Corrf.Spec.step, Corrf.Spec.cut, Corrf.Spec.sides, Corrf.Spec.first, Corrf.Spec.second, Corrf.Spec.middle]
  refine Finset.sum_congr rfl fun x0 _ => ?_
  rw [sum_range_mul]
  refine Finset.sum_congr rfl fun i _ => Finset.sum_congr rfl fun j hj => Finset.sum_congr rfl fun z0 _ => ?_
  rw [sum_range_mul]
  refine Finset.sum_congr rfl fun m1 _ => Finset.sum_congr rfl fun m2 hm => ?_
  rw [sum_range_mul]
  refine Finset.sum_congr rfl fun n1 _ => Finset.sum_congr rfl fun n2 hn => ?_
  rw [layer_sum ha o (Finset.mem_range.1 hm) (Finset.mem_range.1 hj) (Finset.mem_range.1 hn) hy]
  simp only [Finset.mul_sum, Finset.sum_mul]
  refine Finset.sum_congr rfl fun s' _ => Finset.sum_congr rfl fun s _ => ?_
  ring

/-- Operators on the first and the third site of the row. -/
def rowTerm (dim : Nat → Nat) (N : Corrf.Spec.Tensors K) (c : Coord) (o1 o2 : Corrf.Spec.Op K) (σ : Nat → Nat) : K :=
  (N.lu c).val [σ 0, σ 1] * (N.tl c).val [σ 0, σ 26, σ 12 * dim 16 + σ 16] * (N.ld c).val [σ 26, σ 28] *
  ((N.tu c).val [σ 1, σ 2 * dim 3 + σ 3, σ 4] * (star ((N.a c).val [σ 101, σ 3, σ 16, σ 21, σ 17]) * o1 (σ 101) (σ 100) * (N.a c).val [σ 100, σ 2, σ 12, σ 20, σ 13]) * (N.td c).val [σ 20 * dim 21 + σ 21, σ 28, σ 29]) *
  ((N.tu (rt c)).val [σ 4, σ 5 * dim 6 + σ 6, σ 7] * (star ((N.a (rt c)).val [σ 102, σ 6, σ 17, σ 23, σ 18]) * (N.a (rt c)).val [σ 102, σ 5, σ 13, σ 22, σ 14]) * (N.td (rt c)).val [σ 22 * dim 23 + σ 23, σ 29, σ 30]) *
  ((N.tu (rt (rt c))).val [σ 7, σ 8 * dim 9 + σ 9, σ 10] * (star ((N.a (rt (rt c))).val [σ 105, σ 9, σ 18, σ 25, σ 19]) * o2 (σ 105) (σ 104) * (N.a (rt (rt c))).val [σ 104, σ 8, σ 14, σ 24, σ 15]) *
    (N.td (rt (rt c))).val [σ 24 * dim 25 + σ 25, σ 30, σ 31]) *
  ((N.ru (rt (rt c))).val [σ 10, σ 11] * (N.tr (rt (rt c))).val [σ 11, σ 15 * dim 19 + σ 19, σ 27] * (N.rd (rt (rt c))).val [σ 27, σ 31])

theorem sumOver_inner (dim : Nat → Nat) (L1 L2 S : List Nat) (f g : (Nat → Nat) → K) (σ : Nat → Nat) (hg : ∀ σ τ, (∀ l ∈ S, σ l = τ l) → g σ = g τ) (h : ∀ l ∈ L2, l ∉ S) :
    sumOver dim L1 (fun τ => sumOver dim L2 f τ * g τ) σ = sumOver dim (L1 ++ L2) (fun τ => f τ * g τ) σ := by
  rw [sumOver_append]
  refine sumOver_congr dim _ _ _ _ fun τ _ _ => ?_
  rw [sumOver_mul]
  refine sumOver_congr dim _ _ _ _ fun ρ _ hρ => ?_
  rw [hg τ ρ fun l hl => (hρ l fun h' => h l h' hl).symm]

section
variable {N : Corrf.Spec.Tensors K} {D : Dims} (ha : ∀ c, (N.a c).shape = [D.p c, D.U c, D.L c, D.U (dn c), D.L (rt c)]) (c : Coord) (o1 o2 : Corrf.Spec.Op K)
include ha

theorem row_first {dim : Nat → Nat} (hd : dim = dimsRow D c (fun _ => 0)) {E : Corrf.Spec.Vec K} (o : Corrf.Spec.Op K) (τ : Nat → Nat) (h : τ 17 < dim 17) :
    Corrf.Spec.step N D .right c o E (τ 4) (τ 13 * dim 17 + τ 17) (τ 29) =
      sumOver dim [1, 12, 16, 28, 2, 3, 20, 21, 101, 100] (fun σ => E (σ 1) (σ 12 * dim 16 + σ 16) (σ 28) *
        ((N.tu c).val [σ 1, σ 2 * dim 3 + σ 3, σ 4] * (star ((N.a c).val [σ 101, σ 3, σ 16, σ 21, σ 17]) * o (σ 101) (σ 100) * (N.a c).val [σ 100, σ 2, σ 12, σ 20, σ 13]) * (N.td c).val [σ 20 * dim 21 + σ 21, σ 28, σ 29])) τ := by
  have g17 : dim 17 = D.L (rt c) := by rw [hd]; rfl
  rw [g17] at h ⊢
  rw [step_sum (ha c) o E h]
  subst hd
  rfl

theorem row_second {dim : Nat → Nat} (hd : dim = dimsRow D c (fun _ => 0)) {E : Corrf.Spec.Vec K} (τ : Nat → Nat) (h : τ 18 < dim 18) :
    Corrf.Spec.step N D .right (rt c) Corrf.Spec.one E (τ 7) (τ 14 * dim 18 + τ 18) (τ 30) =
      sumOver dim [4, 13, 17, 29, 5, 6, 22, 23, 102] (fun σ => E (σ 4) (σ 13 * dim 17 + σ 17) (σ 29) *
        ((N.tu (rt c)).val [σ 4, σ 5 * dim 6 + σ 6, σ 7] * (star ((N.a (rt c)).val [σ 102, σ 6, σ 17, σ 23, σ 18]) * (N.a (rt c)).val [σ 102, σ 5, σ 13, σ 22, σ 14]) * (N.td (rt c)).val [σ 22 * dim 23 + σ 23, σ 29, σ 30])) τ := by
  have g18 : dim 18 = D.L (rt (rt c)) := by rw [hd]; rfl
  rw [g18] at h ⊢
  rw [step_sum (ha (rt c)) _ E h]
  have : ∀ (x0 i j z0 m1 m2 n1 n2 s' : Nat), s' < D.p (rt c) → (∑ s ∈ Finset.range (D.p (rt c)), E x0 (i * D.L (rt c) + j) z0 * ((N.tu (rt c)).val [x0, m1 * D.U (rt c) + m2, τ 7] *
      (star ((N.a (rt c)).val [s', m2, j, n2, τ 18]) * Corrf.Spec.one s' s * (N.a (rt c)).val [s, m1, i, n1, τ 14]) * (N.td (rt c)).val [n1 * D.U (dn (rt c)) + n2, z0, τ 30])) =
      E x0 (i * D.L (rt c) + j) z0 * ((N.tu (rt c)).val [x0, m1 * D.U (rt c) + m2, τ 7] *
      (star ((N.a (rt c)).val [s', m2, j, n2, τ 18]) * (N.a (rt c)).val [s', m1, i, n1, τ 14]) * (N.td (rt c)).val [n1 * D.U (dn (rt c)) + n2, z0, τ 30]) := by
    intro x0 i j z0 m1 m2 n1 n2 s' hs
    rw [Finset.sum_eq_single s']
    · simp [Corrf.Spec.one]
    · intro b _ hb
      simp [Corrf.Spec.one, hb.symm]
    · intro h'
      exact absurd (Finset.mem_range.2 hs) h'
  have key : ∀ f g : Nat → Nat → Nat → Nat → Nat → Nat → Nat → Nat → Nat → K, (∀ x0 i j z0 m1 m2 n1 n2 s', s' < D.p (rt c) → f x0 i j z0 m1 m2 n1 n2 s' = g x0 i j z0 m1 m2 n1 n2 s') →
      (∑ x0 ∈ Finset.range (D.eu (rt c)), ∑ i ∈ Finset.range (D.L (rt c)), ∑ j ∈ Finset.range (D.L (rt c)), ∑ z0 ∈ Finset.range (D.ed (rt c)), ∑ m1 ∈ Finset.range (D.U (rt c)), ∑ m2 ∈ Finset.range (D.U (rt c)),
        ∑ n1 ∈ Finset.range (D.U (dn (rt c))), ∑ n2 ∈ Finset.range (D.U (dn (rt c))), ∑ s' ∈ Finset.range (D.p (rt c)), f x0 i j z0 m1 m2 n1 n2 s') =
      (∑ x0 ∈ Finset.range (D.eu (rt c)), ∑ i ∈ Finset.range (D.L (rt c)), ∑ j ∈ Finset.range (D.L (rt c)), ∑ z0 ∈ Finset.range (D.ed (rt c)), ∑ m1 ∈ Finset.range (D.U (rt c)), ∑ m2 ∈ Finset.range (D.U (rt c)),
        ∑ n1 ∈ Finset.range (D.U (dn (rt c))), ∑ n2 ∈ Finset.range (D.U (dn (rt c))), ∑ s' ∈ Finset.range (D.p (rt c)), g x0 i j z0 m1 m2 n1 n2 s') := by
    intro f g hfg
    exact Finset.sum_congr rfl fun x0 _ => Finset.sum_congr rfl fun i _ => Finset.sum_congr rfl fun j _ => Finset.sum_congr rfl fun z0 _ => Finset.sum_congr rfl fun m1 _ => Finset.sum_congr rfl fun m2 _ =>
      Finset.sum_congr rfl fun n1 _ => Finset.sum_congr rfl fun n2 _ => Finset.sum_congr rfl fun s' hs => hfg _ _ _ _ _ _ _ _ _ (Finset.mem_range.1 hs)
  rw [key _ _ this]
  subst hd
  rfl

theorem row_third {dim : Nat → Nat} (hd : dim = dimsRow D c (fun _ => 0)) {E : Corrf.Spec.Vec K} (o : Corrf.Spec.Op K) (τ : Nat → Nat) (h : τ 19 < dim 19) :
    Corrf.Spec.step N D .right (rt (rt c)) o E (τ 10) (τ 15 * dim 19 + τ 19) (τ 31) =
      sumOver dim [7, 14, 18, 30, 8, 9, 24, 25, 105, 104] (fun σ => E (σ 7) (σ 14 * dim 18 + σ 18) (σ 30) *
        ((N.tu (rt (rt c))).val [σ 7, σ 8 * dim 9 + σ 9, σ 10] * (star ((N.a (rt (rt c))).val [σ 105, σ 9, σ 18, σ 25, σ 19]) * o (σ 105) (σ 104) * (N.a (rt (rt c))).val [σ 104, σ 8, σ 14, σ 24, σ 15]) *
          (N.td (rt (rt c))).val [σ 24 * dim 25 + σ 25, σ 30, σ 31])) τ := by
  have g19 : dim 19 = D.L (rt (rt (rt c))) := by rw [hd]; rfl
  rw [g19] at h ⊢
  rw [step_sum (ha (rt (rt c))) o E h]
  subst hd
  rfl

/-- The strip of three sites as one sum over the labels of the density matrix. -/
theorem row_strip {dim : Nat → Nat} (hd : dim = dimsRow D c (fun _ => 0)) (σ0 : Nat → Nat) :
    Corrf.Spec.twoPoint N D .right c o1 o2 1 = sumOver dim ([100, 101, 104, 105] ++ C4v.Spec.inner3) (rowTerm dim N c o1 o2) σ0 := by
  have e0 : ∀ τ : Nat → Nat, Corrf.Spec.edge N D .left c (τ 1) (τ 12 * dim 16 + τ 16) (τ 28) =
      sumOver dim [0, 26] (fun σ => (N.lu c).val [σ 0, σ 1] * (N.tl c).val [σ 0, σ 26, σ 12 * dim 16 + σ 16] * (N.ld c).val [σ 26, σ 28]) τ := by
    intro τ
    subst hd
    rfl
  have e4 : ∀ τ : Nat → Nat, Corrf.Spec.edge N D .right (rt (rt c)) (τ 10) (τ 15 * dim 19 + τ 19) (τ 31) =
      sumOver dim [11, 27] (fun σ => (N.ru (rt (rt c))).val [σ 10, σ 11] * (N.tr (rt (rt c))).val [σ 11, σ 15 * dim 19 + σ 19, σ 27] * (N.rd (rt (rt c))).val [σ 27, σ 31]) τ := by
    intro τ
    subst hd
    rfl
  obtain ⟨E0, hE0⟩ : ∃ E, E = Corrf.Spec.edge N D .left c := ⟨_, rfl⟩
  rw [← hE0] at e0
  obtain ⟨E1, hE1⟩ : ∃ E, E = Corrf.Spec.step N D .right c o1 E0 := ⟨_, rfl⟩
  obtain ⟨E2, hE2⟩ : ∃ E, E = Corrf.Spec.step N D .right (rt c) Corrf.Spec.one E1 := ⟨_, rfl⟩
  obtain ⟨E3, hE3⟩ : ∃ E, E = Corrf.Spec.step N D .right (rt (rt c)) o2 E2 := ⟨_, rfl⟩
  have hnet : Corrf.Spec.twoPoint N D .right c o1 o2 1 = sumOver dim [10, 15, 19, 31] (fun τ => E3 (τ 10) (τ 15 * dim 19 + τ 19) (τ 31) * Corrf.Spec.edge N D .right (rt (rt c)) (τ 10) (τ 15 * dim 19 + τ 19) (τ 31)) σ0 := by
    have a0 : Corrf.Spec.ahead .right c 1 = rt c := by rw [ahead_right, ahead_zero]
    have a1 : Corrf.Spec.ahead .right (rt c) 1 = rt (rt c) := by rw [ahead_right, ahead_zero]
    have a3 : Corrf.Spec.ahead .right c 3 = rt (rt (rt c)) := by rw [ahead_right, ahead_right, ahead_right, ahead_zero]
    have a2 : Corrf.Spec.ahead .right c 2 = rt (rt c) := by rw [ahead_right, ahead_right, ahead_zero]
    have : Corrf.Spec.twoPoint N D .right c o1 o2 1 = Corrf.Spec.dot (Corrf.Spec.cut D .right (Corrf.Spec.ahead .right c 3))
      (Corrf.Spec.step N D .right (Corrf.Spec.ahead .right (Corrf.Spec.ahead .right c 1) 1) o2 (Corrf.Spec.step N D .right (Corrf.Spec.ahead .right c 1) Corrf.Spec.one (Corrf.Spec.step N D .right c o1 (Corrf.Spec.edge N D .left c))))
      (Corrf.Spec.edge N D .right (Corrf.Spec.ahead .right c 2)) := rfl
    rw [this, a0, a1, a2, a3, ← hE0, ← hE1, ← hE2, ← hE3]
    simp only [Corrf.Spec.dot, Corrf.Spec.cut]
    have hs : ∀ f : Nat → Nat → Nat → K, (∑ x ∈ Finset.range (D.eu (rt (rt (rt c)))), ∑ y ∈ Finset.range (D.L (rt (rt (rt c))) * D.L (rt (rt (rt c)))), ∑ z ∈ Finset.range (D.ed (rt (rt (rt c)))), f x y z) =
        ∑ x ∈ Finset.range (D.eu (rt (rt (rt c)))), ∑ i ∈ Finset.range (D.L (rt (rt (rt c)))), ∑ j ∈ Finset.range (D.L (rt (rt (rt c)))), ∑ z ∈ Finset.range (D.ed (rt (rt (rt c)))), f x (i * D.L (rt (rt (rt c))) + j) z :=
      fun f => Finset.sum_congr rfl fun x _ => sum_range_mul _ _ _
    rw [hs]
    subst hd
    rfl
  have f1 : ∀ τ : Nat → Nat, τ 17 < dim 17 → E1 (τ 4) (τ 13 * dim 17 + τ 17) (τ 29) = sumOver dim ([1, 12, 16, 28, 2, 3, 20, 21, 101, 100] ++ [0, 26]) (fun σ =>
      (N.lu c).val [σ 0, σ 1] * (N.tl c).val [σ 0, σ 26, σ 12 * dim 16 + σ 16] * (N.ld c).val [σ 26, σ 28] *
      ((N.tu c).val [σ 1, σ 2 * dim 3 + σ 3, σ 4] * (star ((N.a c).val [σ 101, σ 3, σ 16, σ 21, σ 17]) * o1 (σ 101) (σ 100) * (N.a c).val [σ 100, σ 2, σ 12, σ 20, σ 13]) * (N.td c).val [σ 20 * dim 21 + σ 21, σ 28, σ 29])) τ := by
    intro τ hτ
    rw [hE1, row_first ha c hd o1 τ hτ]
    simp only [e0]
    refine sumOver_inner dim _ _ [1, 2, 3, 4, 101, 16, 21, 17, 100, 12, 20, 13, 28, 29] _ _ _ (fun σ τ h => ?_) (by decide)
    simp only [List.forall_mem_cons] at h
    simp only [h]
  have f2 : ∀ τ : Nat → Nat, τ 18 < dim 18 → E2 (τ 7) (τ 14 * dim 18 + τ 18) (τ 30) = sumOver dim ([4, 13, 17, 29, 5, 6, 22, 23, 102] ++ ([1, 12, 16, 28, 2, 3, 20, 21, 101, 100] ++ [0, 26])) (fun σ =>
      (N.lu c).val [σ 0, σ 1] * (N.tl c).val [σ 0, σ 26, σ 12 * dim 16 + σ 16] * (N.ld c).val [σ 26, σ 28] *
      ((N.tu c).val [σ 1, σ 2 * dim 3 + σ 3, σ 4] * (star ((N.a c).val [σ 101, σ 3, σ 16, σ 21, σ 17]) * o1 (σ 101) (σ 100) * (N.a c).val [σ 100, σ 2, σ 12, σ 20, σ 13]) * (N.td c).val [σ 20 * dim 21 + σ 21, σ 28, σ 29]) *
      ((N.tu (rt c)).val [σ 4, σ 5 * dim 6 + σ 6, σ 7] * (star ((N.a (rt c)).val [σ 102, σ 6, σ 17, σ 23, σ 18]) * (N.a (rt c)).val [σ 102, σ 5, σ 13, σ 22, σ 14]) * (N.td (rt c)).val [σ 22 * dim 23 + σ 23, σ 29, σ 30])) τ := by
    intro τ hτ
    rw [hE2, row_second ha c hd τ hτ]
    refine (sumOver_congr dim _ _ _ _ fun ρ hρ _ => ?_).trans (sumOver_inner dim _ _ [4, 5, 6, 7, 102, 17, 23, 18, 13, 22, 14, 29, 30] _ _ _ (fun σ τ h => ?_) (by decide))
    · rw [f1 ρ (hρ 17 (by decide))]
    · simp only [List.forall_mem_cons] at h
      simp only [h]
  have f3 : ∀ τ : Nat → Nat, τ 19 < dim 19 → E3 (τ 10) (τ 15 * dim 19 + τ 19) (τ 31) =
      sumOver dim ([7, 14, 18, 30, 8, 9, 24, 25, 105, 104] ++ ([4, 13, 17, 29, 5, 6, 22, 23, 102] ++ ([1, 12, 16, 28, 2, 3, 20, 21, 101, 100] ++ [0, 26]))) (fun σ =>
      (N.lu c).val [σ 0, σ 1] * (N.tl c).val [σ 0, σ 26, σ 12 * dim 16 + σ 16] * (N.ld c).val [σ 26, σ 28] *
      ((N.tu c).val [σ 1, σ 2 * dim 3 + σ 3, σ 4] * (star ((N.a c).val [σ 101, σ 3, σ 16, σ 21, σ 17]) * o1 (σ 101) (σ 100) * (N.a c).val [σ 100, σ 2, σ 12, σ 20, σ 13]) * (N.td c).val [σ 20 * dim 21 + σ 21, σ 28, σ 29]) *
      ((N.tu (rt c)).val [σ 4, σ 5 * dim 6 + σ 6, σ 7] * (star ((N.a (rt c)).val [σ 102, σ 6, σ 17, σ 23, σ 18]) * (N.a (rt c)).val [σ 102, σ 5, σ 13, σ 22, σ 14]) * (N.td (rt c)).val [σ 22 * dim 23 + σ 23, σ 29, σ 30]) *
      ((N.tu (rt (rt c))).val [σ 7, σ 8 * dim 9 + σ 9, σ 10] * (star ((N.a (rt (rt c))).val [σ 105, σ 9, σ 18, σ 25, σ 19]) * o2 (σ 105) (σ 104) * (N.a (rt (rt c))).val [σ 104, σ 8, σ 14, σ 24, σ 15]) *
        (N.td (rt (rt c))).val [σ 24 * dim 25 + σ 25, σ 30, σ 31])) τ := by
    intro τ hτ
    rw [hE3, row_third ha c hd o2 τ hτ]
    refine (sumOver_congr dim _ _ _ _ fun ρ hρ _ => ?_).trans (sumOver_inner dim _ _ [7, 8, 9, 10, 105, 18, 25, 19, 104, 14, 24, 15, 30, 31] _ _ _ (fun σ τ h => ?_) (by decide))
    · rw [f2 ρ (hρ 18 (by decide))]
    · simp only [List.forall_mem_cons] at h
      simp only [h]
  rw [hnet]
  have step1 := fun τ (hτ : ∀ l ∈ [10, 15, 19, 31], τ l < dim l) => f3 τ (hτ 19 (by decide))
  refine (sumOver_congr dim _ _ (fun τ => sumOver dim (([7, 14, 18, 30, 8, 9, 24, 25, 105, 104] ++ ([4, 13, 17, 29, 5, 6, 22, 23, 102] ++ ([1, 12, 16, 28, 2, 3, 20, 21, 101, 100] ++ [0, 26]))) ++ [11, 27])
    (rowTerm dim N c o1 o2) τ) _ fun ρ hρ _ => ?_).trans ?_
  · rw [step1 ρ hρ, e4]
    refine sumOver_mul_sumOver dim _ _ ([7, 14, 18, 30, 8, 9, 24, 25, 105, 104] ++ ([4, 13, 17, 29, 5, 6, 22, 23, 102] ++ ([1, 12, 16, 28, 2, 3, 20, 21, 101, 100] ++ [0, 26])) ++ [10, 15, 19, 31]) [10, 11, 15, 19, 27, 31] _ _ _
      (fun σ τ h => ?_) (fun σ τ h => ?_) (by decide) (by decide)
    · simp only [List.cons_append, List.nil_append, List.forall_mem_cons] at h
      simp only [h]
    · simp only [List.forall_mem_cons] at h
      simp only [h]
  · rw [← sumOver_append]
    exact sumOver_perm dim (by decide) _ _
end

/-- The trace of the density matrix of the ends of the row with two operators is the strip with these operators. -/
theorem row_expect {D : Dims} {st : State K} {env : Env K} {N : Corrf.Spec.Tensors K} (hs : FitsState D st) (hN : Corrf.Spec.Reads st env N) {c : Coord} {e : Row3 K} (he : AroundRow3 st env c e) {rho : Tensor K}
    (hr : Corner.Spec.IsNetwork (dimsRow D c (fun _ => 0)) rho [[100], [104], [101], [105]] C4v.Spec.inner3 (C4v.Spec.rho3 (dimsRow D c (fun _ => 0)) e)) (o1 o2 : Corrf.Spec.Op K) :
    ∑ i ∈ Finset.range (D.p c), ∑ a ∈ Finset.range (D.p c), ∑ j ∈ Finset.range (D.p (rt (rt c))), ∑ b ∈ Finset.range (D.p (rt (rt c))), rho.val [i, j, a, b] * (o1 a i * o2 b j) =
      Corrf.Spec.twoPoint N D .right c o1 o2 1 := by
  have ha : ∀ c, (N.a c).shape = [D.p c, D.U c, D.L c, D.U (dn c), D.L (rt c)] := by
    intro c
    obtain ⟨t, h1, h2⟩ := hs.site c
    rw [← h2, Option.some.inj ((hN.a c).symm.trans h1)]
  obtain ⟨dim, hd⟩ : ∃ dim, dim = dimsRow D c (fun _ => 0) := ⟨_, rfl⟩
  rw [row_strip ha c o1 o2 hd (fun _ => 0), sumOver_append]
  rw [← hd] at hr
  have g0 : dim 100 = D.p c := by rw [hd]; rfl
  have g1 : dim 101 = D.p c := by rw [hd]; rfl
  have g4 : dim 104 = D.p (rt (rt c)) := by rw [hd]; rfl
  have g5 : dim 105 = D.p (rt (rt c)) := by rw [hd]; rfl
  have hv : ∀ σ : Nat → Nat, σ 100 < D.p c → σ 101 < D.p c → σ 104 < D.p (rt (rt c)) → σ 105 < D.p (rt (rt c)) →
      rho.val [σ 100, σ 104, σ 101, σ 105] * (o1 (σ 101) (σ 100) * o2 (σ 105) (σ 104)) = sumOver dim C4v.Spec.inner3 (rowTerm dim N c o1 o2) σ := by
    intro σ h0 h1 h4 h5
    have := hr.2 σ (by simp [g0, g1, g4, g5, h0, h1, h4, h5])
    have r1 : ∀ d n : Nat, ravel [d] [n] = n := fun d n => by simp [ravel]
    simp only [List.map_cons, List.map_nil, r1] at this
    rw [this, sumOver_mul]
    refine sumOver_congr dim _ _ _ _ fun τ _ hτ => ?_
    rw [← hτ 100 (by decide), ← hτ 101 (by decide), ← hτ 104 (by decide), ← hτ 105 (by decide)]
    have q1 := Option.some.inj ((hN.lu c).symm.trans he.C1)
    have q2 := Option.some.inj ((hN.ru (rt (rt c))).symm.trans he.C2)
    have q3 := Option.some.inj ((hN.rd (rt (rt c))).symm.trans he.C3)
    have q4 := Option.some.inj ((hN.ld c).symm.trans he.C4)
    have q5 := Option.some.inj ((hN.tu c).symm.trans he.T1)
    have q6 := Option.some.inj ((hN.tu (rt c)).symm.trans he.T1x)
    have q7 := Option.some.inj ((hN.tu (rt (rt c))).symm.trans he.T1z)
    have q8 := Option.some.inj ((hN.tr (rt (rt c))).symm.trans he.T2)
    have q9 := Option.some.inj ((hN.td c).symm.trans he.T3)
    have q10 := Option.some.inj ((hN.td (rt c)).symm.trans he.T3x)
    have q11 := Option.some.inj ((hN.td (rt (rt c))).symm.trans he.T3z)
    have q12 := Option.some.inj ((hN.tl c).symm.trans he.T4)
    have q13 := Option.some.inj ((hN.a c).symm.trans he.a)
    have q14 := Option.some.inj ((hN.a (rt c)).symm.trans he.ax)
    have q15 := Option.some.inj ((hN.a (rt (rt c))).symm.trans he.az)
    simp only [rowTerm, C4v.Spec.rho3, Corner.Spec.fused, q1, q2, q3, q4, q5, q6, q7, q8, q9, q10, q11, q12, q13, q14, q15]
    ring
  simp only [sumOver, g0, g1, g4, g5]
  refine Finset.sum_congr rfl fun i hi => Finset.sum_congr rfl fun a ha => Finset.sum_congr rfl fun j hj => Finset.sum_congr rfl fun b hb => ?_
  rw [← hv]
  · simp [Function.update]
  · simpa [Function.update] using hi
  · simpa [Function.update] using ha
  · simpa [Function.update] using hj
  · simpa [Function.update] using hb

end Verif.Rdm
