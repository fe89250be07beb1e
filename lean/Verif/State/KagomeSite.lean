import Verif.State.KagomeModel
import Verif.State.KagomeTorus
import Verif.Tensor.Einsum
import Mathlib.Algebra.BigOperators.Field
/-
The site tensor of a simplex state.
-/
namespace Verif.Kagome
open Spec
open Verif.Tensor
open Verif.State (dictFind dictSet)

theorem le_foldr_max (l : List ℝ) : ∀ x ∈ l, x ≤ l.foldr max 0 := by
  induction l with
  | nil => simp
  | cons a l ih =>
    intro x hx
    rcases List.mem_cons.1 hx with rfl | h
    · exact le_max_left _ _
    · exact (ih x h).trans (le_max_right _ _)

theorem foldr_max_mem (l : List ℝ) (h0 : ∀ x ∈ l, 0 ≤ x) (hl : l ≠ []) : l.foldr max 0 ∈ l := by
  induction l with
  | nil => exact absurd rfl hl
  | cons a l ih =>
    have ha := h0 a (by simp)
    rcases l with _ | ⟨b, l⟩
    · simp [max_eq_left ha]
    · have := ih (fun x hx => h0 x (by simp [hx])) (by simp)
      simp only [List.foldr_cons] at this ⊢
      rcases max_choice a (max b (List.foldr max 0 l)) with e | e
      · rw [e]; simp
      · rw [e]; exact List.mem_cons_of_mem _ this

theorem le_maxAbs (A : Tensor ℂ) (i : List Nat) (h : InB A.shape i) : ‖A.val i‖ ≤ maxAbs A :=
  le_foldr_max _ _ (List.mem_map.2 ⟨i, mem_indices.2 h, rfl⟩)

theorem maxAbs_mem (A : Tensor ℂ) (h : indices A.shape ≠ []) : ∃ i, InB A.shape i ∧ ‖A.val i‖ = maxAbs A := by
  have := foldr_max_mem ((indices A.shape).map (fun i => ‖A.val i‖)) (by
    intro x hx
    obtain ⟨i, _, rfl⟩ := List.mem_map.1 hx
    exact norm_nonneg _) (by simpa using h)
  obtain ⟨i, hi, e⟩ := List.mem_map.1 this
  exact ⟨i, mem_indices.1 hi, e⟩

theorem maxAbs_eq {A : Tensor ℂ} {M : ℝ} (h1 : ∀ i, InB A.shape i → ‖A.val i‖ ≤ M) (h2 : ∃ i, InB A.shape i ∧ ‖A.val i‖ = M) : maxAbs A = M := by
  obtain ⟨i, hi, e⟩ := h2
  apply le_antisymm
  · obtain ⟨j, hj, e'⟩ := maxAbs_mem A (fun hn => by have := mem_indices.2 hi; rw [hn] at this; simp at this)
    rw [← e']; exact h1 j hj
  · rw [← e]; exact le_maxAbs A i hi

theorem maxAbs_nonneg (A : Tensor ℂ) : 0 ≤ maxAbs A := by
  by_cases h : indices A.shape = []
  · simp [maxAbs, h]
  · obtain ⟨i, _, e⟩ := maxAbs_mem A h
    rw [← e]; exact norm_nonneg _

/-- The einsum of the five tensors. -/
theorem contract_ok {Tu Bc Td Bb Ba : Tensor ℂ} {pC pB pA nI nJ nK nL nA nB nC nD : Nat}
    (h : Fit Tu Bc Td Bb Ba pC pB pA nI nJ nK nL nA nB nC nD) :
    ∃ R, contract Tu Bc Td Bb Ba = some R ∧ R.shape = [pC, pB, pA, nA, nB, nC, nD] ∧
      ∀ u v w a b c d, u < pC → v < pB → w < pA → a < nA → b < nB → c < nC → d < nD →
        R.val [u, v, w, a, b, c, d] = site Tu Bc Td Bb Ba nI nJ nK nL u v w a b c d := by
  obtain ⟨R, e, hs, hv⟩ := einsum_ok (fun l => [nI, nA, nB, pC, nJ, nK, nL, pB, nC, pA, nD].getD l 0)
    [(Tu, [0, 1, 2]), (Bc, [3, 4, 0]), (Td, [4, 5, 6]), (Bb, [7, 5, 8]), (Ba, [9, 6, 10])] [3, 7, 9, 1, 2, 8, 10]
    (by
      intro p hp
      simp only [List.mem_cons, List.not_mem_nil, or_false] at hp
      rcases hp with rfl | rfl | rfl | rfl | rfl
      · exact h.tu
      · exact h.bc
      · exact h.td
      · exact h.bb
      · exact h.ba) (by decide) (by simp)
  refine ⟨R, e, hs, ?_⟩
  intro u v w a b c d hu hv' hw ha hb hc hd
  have := hv (fun l => [0, a, b, u, 0, 0, 0, v, c, w, d].getD l 0) (by
    intro l hl
    simp only [List.mem_cons, List.not_mem_nil, or_false] at hl
    rcases hl with rfl | rfl | rfl | rfl | rfl | rfl | rfl <;> assumption)
  have e2 : R.val [u, v, w, a, b, c, d] = _ := this
  rw [e2]
  have hd : (([(Tu, [0, 1, 2]), (Bc, [3, 4, 0]), (Td, [4, 5, 6]), (Bb, [7, 5, 8]), (Ba, [9, 6, 10])] :
      List (Tensor ℂ × List Nat)).flatMap Prod.snd).dedup.filter (fun l => l ∉ [3, 7, 9, 1, 2, 8, 10]) = [0, 4, 5, 6] := by
    have : ([(Tu, [0, 1, 2]), (Bc, [3, 4, 0]), (Td, [4, 5, 6]), (Bb, [7, 5, 8]), (Ba, [9, 6, 10])] :
      List (Tensor ℂ × List Nat)).flatMap Prod.snd = [0, 1, 2, 3, 4, 0, 4, 5, 6, 7, 5, 8, 9, 6, 10] := rfl
    rw [this]
    decide
  rw [hd]
  unfold site
  simp only [sumOver, List.getD_cons_zero, List.getD_cons_succ]
  refine Finset.sum_congr rfl (fun i _ => Finset.sum_congr rfl (fun j _ => Finset.sum_congr rfl (fun k _ => Finset.sum_congr rfl (fun l _ => ?_))))
  simp [termOf, Function.update]
  ring

/-- Contraction succeeds only if the sizes fit. -/
theorem contract_fit {Tu Bc Td Bb Ba R : Tensor ℂ} (h : contract Tu Bc Td Bb Ba = some R) :
    ∃ pC pB pA nI nJ nK nL nA nB nC nD, Fit Tu Bc Td Bb Ba pC pB pA nI nJ nK nL nA nB nC nD := by
  obtain ⟨dim, hs, _, _⟩ := einsum_some h
  refine ⟨dim 3, dim 7, dim 9, dim 0, dim 4, dim 5, dim 6, dim 1, dim 2, dim 8, dim 10, ?_, ?_, ?_, ?_, ?_⟩
  · exact hs (Tu, [0, 1, 2]) (by simp)
  · exact hs (Bc, [3, 4, 0]) (by simp)
  · exact hs (Td, [4, 5, 6]) (by simp)
  · exact hs (Bb, [7, 5, 8]) (by simp)
  · exact hs (Ba, [9, 6, 10]) (by simp)

theorem inB_iff5 {a b c d e : Nat} {i : List Nat} : InB [a, b, c, d, e] i ↔ ∃ x y z u v, i = [x, y, z, u, v] ∧ x < a ∧ y < b ∧ z < c ∧ u < d ∧ v < e := by
  constructor
  · intro h
    unfold InB at h
    rcases h with _ | ⟨h1, h⟩
    rcases h with _ | ⟨h2, h⟩
    rcases h with _ | ⟨h3, h⟩
    rcases h with _ | ⟨h4, h⟩
    rcases h with _ | ⟨h5, h⟩
    cases h
    exact ⟨_, _, _, _, _, rfl, h1, h2, h3, h4, h5⟩
  · rintro ⟨x, y, z, u, v, rfl, h1, h2, h3, h4, h5⟩
    exact .cons h1 (.cons h2 (.cons h3 (.cons h4 (.cons h5 .nil))))

theorem inB_iff3 {a b c : Nat} {i : List Nat} : InB [a, b, c] i ↔ ∃ x y z, i = [x, y, z] ∧ x < a ∧ y < b ∧ z < c := by
  constructor
  · intro h
    unfold InB at h
    rcases h with _ | ⟨h1, h⟩
    rcases h with _ | ⟨h2, h⟩
    rcases h with _ | ⟨h3, h⟩
    cases h
    exact ⟨_, _, _, rfl, h1, h2, h3⟩
  · rintro ⟨x, y, z, rfl, h1, h2, h3⟩
    exact .cons h1 (.cons h2 (.cons h3 .nil))

/-- The reshaped network before normalisation. -/
theorem fused_ok {Tu Bc Td Bb Ba : Tensor ℂ} {pC pB pA nI nJ nK nL nA nB nC nD : Nat}
    (h : Fit Tu Bc Td Bb Ba pC pB pA nI nJ nK nL nA nB nC nD) :
    ∃ R, ((contract Tu Bc Td Bb Ba).bind
        (view [size Ba 0 * size Bb 0 * size Bc 0, size Tu 1, size Tu 2, size Bb 2, size Ba 2])) = some R ∧
      R.shape = [pA * pB * pC, nA, nB, nC, nD] ∧
      ∀ u v w a b c d, u < pC → v < pB → w < pA → a < nA → b < nB → c < nC → d < nD →
        R.val [(u * pB + v) * pA + w, a, b, c, d] = site Tu Bc Td Bb Ba nI nJ nK nL u v w a b c d := by
  obtain ⟨R, e, hs, hv⟩ := contract_ok h
  have hsz : [size Ba 0 * size Bb 0 * size Bc 0, size Tu 1, size Tu 2, size Bb 2, size Ba 2] = [pA * pB * pC, nA, nB, nC, nD] := by
    simp [size, h.tu, h.bc, h.bb, h.ba]
  rw [e, Option.bind_some, hsz]
  have hp : [pA * pB * pC, nA, nB, nC, nD].prod = R.shape.prod := by rw [hs]; simp [List.prod_cons]; ring
  refine ⟨⟨[pA * pB * pC, nA, nB, nC, nD], fun idx => R.val (unravel R.shape (ravel [pA * pB * pC, nA, nB, nC, nD] idx))⟩, if_pos hp, rfl, ?_⟩
  intro u v w a b c d hu hv' hw ha hb hc hd
  show R.val _ = _
  rw [← hv u v w a b c d hu hv' hw ha hb hc hd]
  congr 1
  rw [hs]
  have : ravel [pA * pB * pC, nA, nB, nC, nD] [(u * pB + v) * pA + w, a, b, c, d] = ravel [pC, pB, pA, nA, nB, nC, nD] [u, v, w, a, b, c, d] := by
    simp [ravel, List.prod_cons]
    ring
  rw [this]
  exact unravel_ravel (.cons hu (.cons hv' (.cons hw (.cons ha (.cons hb (.cons hc (.cons hd .nil)))))))

/-- Every physical index is a combination of three. -/
theorem unfuse {pC pB pA s : Nat} (hs : s < pA * pB * pC) : ∃ u v w, u < pC ∧ v < pB ∧ w < pA ∧ s = (u * pB + v) * pA + w := by
  have hA : 0 < pA := by
    rcases Nat.eq_zero_or_pos pA with rfl | h
    · simp at hs
    · exact h
  have hB : 0 < pB := by
    rcases Nat.eq_zero_or_pos pB with rfl | h
    · simp at hs
    · exact h
  refine ⟨s / pA / pB, (s / pA) % pB, s % pA, ?_, Nat.mod_lt _ hB, Nat.mod_lt _ hA, ?_⟩
  · rw [Nat.div_div_eq_div_mul]
    exact Nat.div_lt_of_lt_mul hs
  · rw [Nat.div_add_mod' (s / pA) pB, Nat.div_add_mod' s pA]

/-- The five tensors of a site, by name, have a common dtype. -/
structure Five (d : List (Name × Ten)) (cplx : Bool) (Tu Bc Td Bb Ba : Tensor ℂ) : Prop where
  tu : dictFind d .Tu = some ⟨cplx, Tu⟩
  bc : dictFind d .Bc = some ⟨cplx, Bc⟩
  td : dictFind d .Td = some ⟨cplx, Td⟩
  bb : dictFind d .Bb = some ⟨cplx, Bb⟩
  ba : dictFind d .Ba = some ⟨cplx, Ba⟩

theorem look_some {κ α : Type} [DecidableEq κ] {d : List (κ × α)} {k : κ} {v : α} (h : dictFind d k = some v) : look d k = .ok v := by
  simp [look, h]

theorem look_ok {κ α : Type} [DecidableEq κ] {d : List (κ × α)} {k : κ} {v : α} (h : look d k = .ok v) : dictFind d k = some v := by
  unfold look at h
  split at h
  · rename_i w hw; rw [hw]; exact congrArg some (Except.ok.inj h)
  · cases h

theorem bind_ok {α β : Type} {x : Except Err α} {f : α → Except Err β} {b : β} : (x.bind f = .ok b) ↔ ∃ a, x = .ok a ∧ f a = .ok b := by
  cases x <;> simp [Except.bind]

theorem lift_ok {α : Type} {x : Option α} {a : α} : lift x = .ok a ↔ x = some a := by
  cases x <;> simp [lift]

theorem buildSite_five {d : List (Name × Ten)} {cplx : Bool} {Tu Bc Td Bb Ba : Tensor ℂ} (h : Five d cplx Tu Bc Td Bb Ba) :
    buildSite d = (do
      let A ← lift (contract Tu Bc Td Bb Ba)
      let A ← lift (view [size Ba 0 * size Bb 0 * size Bc 0, size Tu 1, size Tu 2, size Bb 2, size Ba 2] A)
      let A ← normMax A
      .ok ⟨cplx, A⟩) := by
  unfold buildSite
  simp only [look_some h.tu, look_some h.bc, look_some h.td, look_some h.bb, look_some h.ba]
  exact if_pos ⟨rfl, rfl, rfl, rfl⟩

/-- Normalised tensor. -/
theorem normMax_ok {R : Tensor ℂ} (h : ∃ i, InB R.shape i ∧ R.val i ≠ 0) :
    0 < maxAbs R ∧ normMax R = .ok ⟨R.shape, fun i => R.val i / ((maxAbs R : ℝ) : ℂ)⟩ := by
  obtain ⟨i, hi, hne⟩ := h
  have hpos : 0 < maxAbs R := lt_of_lt_of_le (norm_pos_iff.2 hne) (le_maxAbs R i hi)
  refine ⟨hpos, ?_⟩
  unfold normMax
  rw [if_neg (fun hn => by have := mem_indices.2 hi; rw [hn] at this; simp at this), if_neg hpos.ne']

theorem normMax_zero {R : Tensor ℂ} (h0 : ∃ i, InB R.shape i) (h : ∀ i, InB R.shape i → R.val i = 0) : normMax R = .error .nan := by
  obtain ⟨i, hi⟩ := h0
  have hne : indices R.shape ≠ [] := fun hn => by have := mem_indices.2 hi; rw [hn] at this; simp at this
  unfold normMax
  rw [if_neg hne, if_pos]
  obtain ⟨j, hj, e⟩ := maxAbs_mem R hne
  rw [← e, h j hj, norm_zero]

/-- What the site tensor is: the network of the five tensors divided by its largest modulus `M`. -/
structure SiteOf (Tu Bc Td Bb Ba : Tensor ℂ) (pC pB pA nI nJ nK nL nA nB nC nD : Nat) (A : Tensor ℂ) (M : ℝ) : Prop where
  shape : A.shape = [pA * pB * pC, nA, nB, nC, nD]
  pos : 0 < M
  val : ∀ u v w a b c d, u < pC → v < pB → w < pA → a < nA → b < nB → c < nC → d < nD →
    A.val [(u * pB + v) * pA + w, a, b, c, d] = site Tu Bc Td Bb Ba nI nJ nK nL u v w a b c d / (M : ℂ)
  le : ∀ u v w a b c d, u < pC → v < pB → w < pA → a < nA → b < nB → c < nC → d < nD →
    ‖site Tu Bc Td Bb Ba nI nJ nK nL u v w a b c d‖ ≤ M
  attained : ∃ u v w a b c d, u < pC ∧ v < pB ∧ w < pA ∧ a < nA ∧ b < nB ∧ c < nC ∧ d < nD ∧
    ‖site Tu Bc Td Bb Ba nI nJ nK nL u v w a b c d‖ = M

theorem buildSite_ok {d : List (Name × Ten)} {cplx : Bool} {Tu Bc Td Bb Ba : Tensor ℂ} (h : Five d cplx Tu Bc Td Bb Ba)
    {pC pB pA nI nJ nK nL nA nB nC nD : Nat} (hf : Fit Tu Bc Td Bb Ba pC pB pA nI nJ nK nL nA nB nC nD)
    (hne : ∃ u v w a b c d, u < pC ∧ v < pB ∧ w < pA ∧ a < nA ∧ b < nB ∧ c < nC ∧ d < nD ∧
      site Tu Bc Td Bb Ba nI nJ nK nL u v w a b c d ≠ 0) :
    ∃ A M, buildSite d = .ok ⟨cplx, A⟩ ∧ SiteOf Tu Bc Td Bb Ba pC pB pA nI nJ nK nL nA nB nC nD A M := by
  obtain ⟨R, e, hs, hv⟩ := fused_ok hf
  have hin : ∀ u v w a b c d, u < pC → v < pB → w < pA → a < nA → b < nB → c < nC → d < nD → InB R.shape [(u * pB + v) * pA + w, a, b, c, d] := by
    intro u v w a b c d hu hv' hw ha hb hc hd
    rw [hs, inB_iff5]
    refine ⟨_, _, _, _, _, rfl, ?_, ha, hb, hc, hd⟩
    have h1 : u * pB + v < pC * pB := by
      have := Nat.mul_le_mul_right pB (show u + 1 ≤ pC from hu)
      have e : (u + 1) * pB = u * pB + pB := by ring
      omega
    have h2 := Nat.mul_le_mul_right pA (show u * pB + v + 1 ≤ pC * pB from h1)
    have e : (u * pB + v + 1) * pA = (u * pB + v) * pA + pA := by ring
    have e2 : pC * pB * pA = pA * pB * pC := by ring
    omega
  obtain ⟨u, v, w, a, b, c, d', hu, hv', hw, ha, hb, hc, hd, hne⟩ := hne
  obtain ⟨hpos, hn⟩ := normMax_ok (R := R) ⟨_, hin u v w a b c d' hu hv' hw ha hb hc hd, by rw [hv u v w a b c d' hu hv' hw ha hb hc hd]; exact hne⟩
  rw [Option.bind_eq_some_iff] at e
  obtain ⟨R0, e0, e1⟩ := e
  refine ⟨⟨R.shape, fun i => R.val i / ((maxAbs R : ℝ) : ℂ)⟩, maxAbs R, ?_, hs, hpos, ?_, ?_, ?_⟩
  · rw [buildSite_five h, e0]
    show (lift (view _ R0)).bind _ = _
    rw [e1]
    show (normMax R).bind _ = _
    rw [hn]
    rfl
  · intro u v w a b c d hu hv' hw ha hb hc hd
    show R.val _ / _ = _
    rw [hv u v w a b c d hu hv' hw ha hb hc hd]
  · intro u v w a b c d hu hv' hw ha hb hc hd
    rw [← hv u v w a b c d hu hv' hw ha hb hc hd]
    exact le_maxAbs R _ (hin u v w a b c d hu hv' hw ha hb hc hd)
  · obtain ⟨i, hi, em⟩ := maxAbs_mem R (fun hn => by
      have := mem_indices.2 (hin u v w a b c d' hu hv' hw ha hb hc hd); rw [hn] at this; simp at this)
    rw [hs, inB_iff5] at hi
    obtain ⟨s, a, b, c, d, rfl, h1, ha, hb, hc, hd⟩ := hi
    obtain ⟨u, v, w, hu, hv', hw, rfl⟩ := unfuse h1
    rw [hv u v w a b c d hu hv' hw ha hb hc hd] at em
    exact ⟨u, v, w, a, b, c, d, hu, hv', hw, ha, hb, hc, hd, em⟩

theorem buildSite_nan {d : List (Name × Ten)} {cplx : Bool} {Tu Bc Td Bb Ba : Tensor ℂ} (h : Five d cplx Tu Bc Td Bb Ba)
    {pC pB pA nI nJ nK nL nA nB nC nD : Nat} (hf : Fit Tu Bc Td Bb Ba pC pB pA nI nJ nK nL nA nB nC nD)
    (hp : 0 < pC ∧ 0 < pB ∧ 0 < pA ∧ 0 < nA ∧ 0 < nB ∧ 0 < nC ∧ 0 < nD)
    (h0 : ∀ u v w a b c d, u < pC → v < pB → w < pA → a < nA → b < nB → c < nC → d < nD →
      site Tu Bc Td Bb Ba nI nJ nK nL u v w a b c d = 0) : buildSite d = .error .nan := by
  obtain ⟨R, e, hs, hv⟩ := fused_ok hf
  rw [Option.bind_eq_some_iff] at e
  obtain ⟨R0, e0, e1⟩ := e
  obtain ⟨p1, p2, p3, p4, p5, p6, p7⟩ := hp
  have hn : normMax R = .error .nan := by
    apply normMax_zero
    · refine ⟨[0, 0, 0, 0, 0], ?_⟩
      rw [hs, inB_iff5]
      exact ⟨_, _, _, _, _, rfl, Nat.mul_pos (Nat.mul_pos p3 p2) p1, p4, p5, p6, p7⟩
    · intro i hi
      rw [hs, inB_iff5] at hi
      obtain ⟨s, a, b, c, d, rfl, h1, ha, hb, hc, hd⟩ := hi
      obtain ⟨u, v, w, hu, hv', hw, rfl⟩ := unfuse h1
      rw [hv u v w a b c d hu hv' hw ha hb hc hd]
      exact h0 u v w a b c d hu hv' hw ha hb hc hd
  rw [buildSite_five h, e0]
  show (lift (view _ R0)).bind _ = _
  rw [e1]
  show (normMax R).bind _ = _
  rw [hn]
  rfl

/-- Decomposition of a successful construction. -/
theorem buildSite_inv {d : List (Name × Ten)} {X : Ten} (h : buildSite d = .ok X) :
    ∃ Tu Bc Td Bb Ba pC pB pA nI nJ nK nL nA nB nC nD M, Five d X.cplx Tu Bc Td Bb Ba ∧
      Fit Tu Bc Td Bb Ba pC pB pA nI nJ nK nL nA nB nC nD ∧
      SiteOf Tu Bc Td Bb Ba pC pB pA nI nJ nK nL nA nB nC nD X.t M := by
  have h' := h
  unfold buildSite at h
  obtain ⟨Tu, h1, h⟩ := bind_ok.1 h
  obtain ⟨Bc, h2, h⟩ := bind_ok.1 h
  obtain ⟨Td, h3, h⟩ := bind_ok.1 h
  obtain ⟨Bb, h4, h⟩ := bind_ok.1 h
  obtain ⟨Ba, h5, h⟩ := bind_ok.1 h
  split at h
  · rename_i hc
    obtain ⟨c1, c2, c3, c4⟩ := hc
    obtain ⟨R0, e0, h⟩ := bind_ok.1 h
    obtain ⟨R, e1, h⟩ := bind_ok.1 h
    obtain ⟨A, e2, h⟩ := bind_ok.1 h
    rw [lift_ok] at e0 e1
    have hX : X.cplx = Tu.cplx := by cases h; rfl
    have five : Five d X.cplx Tu.t Bc.t Td.t Bb.t Ba.t := by
      rw [hX]
      refine ⟨look_ok h1, ?_, ?_, ?_, ?_⟩
      · rw [look_ok h2, ← c1]
      · rw [look_ok h3, ← c2]
      · rw [look_ok h4, ← c3]
      · rw [look_ok h5, ← c4]
    obtain ⟨pC, pB, pA, nI, nJ, nK, nL, nA, nB, nC, nD, fit⟩ := contract_fit e0
    refine ⟨Tu.t, Bc.t, Td.t, Bb.t, Ba.t, pC, pB, pA, nI, nJ, nK, nL, nA, nB, nC, nD, ?_⟩
    obtain ⟨R', e', hs, hv⟩ := fused_ok fit
    rw [e0, Option.bind_some, e1, Option.some.injEq] at e'
    subst e'
    have hne : ∃ i, InB R.shape i ∧ R.val i ≠ 0 := by
      by_contra hc
      push Not at hc
      unfold normMax at e2
      split at e2
      · cases e2
      · rename_i hi
        have : maxAbs R = 0 := by
          obtain ⟨i, hi, e⟩ := maxAbs_mem R hi
          rw [← e, hc i hi, norm_zero]
        rw [if_pos this] at e2
        cases e2
    obtain ⟨i, hi, hne⟩ := hne
    rw [hs, inB_iff5] at hi
    obtain ⟨s, a, b, c, d, rfl, h1, ha, hb, hc, hd⟩ := hi
    obtain ⟨u, v, w, hu, hv', hw, rfl⟩ := unfuse h1
    rw [hv u v w a b c d hu hv' hw ha hb hc hd] at hne
    obtain ⟨A', M, e, hA⟩ := buildSite_ok five fit ⟨u, v, w, a, b, c, d, hu, hv', hw, ha, hb, hc, hd, hne⟩
    rw [h', Except.ok.injEq] at e
    rw [e] at five ⊢
    exact ⟨M, five, fit, hA⟩
  · cases h

theorem fin3_prod (f : Fin 3 → ℂ) : ∏ e, f e = f 0 * f 1 * f 2 := by
  rw [Fin.prod_univ_three]

/-- Amplitudes of the square-lattice state are amplitudes of the simplex state, up to the normalisation. -/
theorem square_eq {n m : Nat} [NeZero n] [NeZero m] {Tu Bc Td Bb Ba A : Tensor ℂ} {p D : Nat} {M : ℝ}
    (hA : SiteOf Tu Bc Td Bb Ba p p p D D D D D D D D A M) (σ : Fin 3 → ZMod n × ZMod m → Nat) (hσ : ∀ e r, σ e r < p) :
    squareAmplitude D A (fused p σ) = amplitude D Tu Td ![Bc, Bb, Ba] σ / (M : ℂ) ^ (n * m) := by
  unfold squareAmplitude amplitude
  have h1 : ∀ (v h : ZMod n × ZMod m → Fin D), ∏ r, A.val [fused p σ r, v (r - (0, 1)), h (r - (1, 0)), v r, h r] =
      (∑ q : ZMod n × ZMod m → (Fin D × Fin D × Fin D × Fin D), ∏ r,
        (Tu.val [(q r).1, v (r - (0, 1)), h (r - (1, 0))] * Bc.val [σ 0 r, (q r).2.1, (q r).1] *
          Td.val [(q r).2.1, (q r).2.2.1, (q r).2.2.2] * Bb.val [σ 1 r, (q r).2.2.1, v r] * Ba.val [σ 2 r, (q r).2.2.2, h r])) / (M : ℂ) ^ (n * m) := by
    intro v h
    have h2 : ∀ r, A.val [fused p σ r, v (r - (0, 1)), h (r - (1, 0)), v r, h r] =
        (∑ q : Fin D × Fin D × Fin D × Fin D, Tu.val [q.1, v (r - (0, 1)), h (r - (1, 0))] * Bc.val [σ 0 r, q.2.1, q.1] *
          Td.val [q.2.1, q.2.2.1, q.2.2.2] * Bb.val [σ 1 r, q.2.2.1, v r] * Ba.val [σ 2 r, q.2.2.2, h r]) / (M : ℂ) := by
      intro r
      unfold fused
      rw [hA.val _ _ _ _ _ _ _ (hσ 0 r) (hσ 1 r) (hσ 2 r) (Fin.isLt _) (Fin.isLt _) (Fin.isLt _) (Fin.isLt _)]
      congr 1
      unfold site
      simp only [Finset.sum_range, Fintype.sum_prod_type]
    rw [Fintype.prod_congr _ _ h2, Finset.prod_div_distrib, Finset.prod_const, Finset.card_univ, Fintype.card_prod, ZMod.card, ZMod.card]
    congr 1
    rw [Finset.prod_univ_sum, Fintype.piFinset_univ]
  simp only [h1]
  simp only [← Finset.sum_div]
  congr 1
  have h3 : ∀ F : (ZMod n × ZMod m → Fin D) → (ZMod n × ZMod m → Fin D) → (ZMod n × ZMod m → (Fin D × Fin D × Fin D × Fin D)) → ℂ,
      ∑ v, ∑ h, ∑ q, F v h q = ∑ z : (ZMod n × ZMod m → Fin D) × (ZMod n × ZMod m → Fin D) × (ZMod n × ZMod m → (Fin D × Fin D × Fin D × Fin D)), F z.1 z.2.1 z.2.2 := by
    intro F
    simp only [Fintype.sum_prod_type]
  have h4 : ∀ F : (Fin 3 → ZMod n × ZMod m → Fin D) → (Fin 3 → ZMod n × ZMod m → Fin D) → ℂ,
      ∑ x, ∑ y, F x y = ∑ z : (Fin 3 → ZMod n × ZMod m → Fin D) × (Fin 3 → ZMod n × ZMod m → Fin D), F z.1 z.2 := by
    intro F
    simp only [Fintype.sum_prod_type]
  rw [h3, h4]
  let φ : (ZMod n × ZMod m → Fin D) × (ZMod n × ZMod m → Fin D) × (ZMod n × ZMod m → (Fin D × Fin D × Fin D × Fin D)) ≃
      (Fin 3 → ZMod n × ZMod m → Fin D) × (Fin 3 → ZMod n × ZMod m → Fin D) :=
    ⟨fun z => (![fun r => (z.2.2 r).2.1, fun r => (z.2.2 r).2.2.1, fun r => (z.2.2 r).2.2.2], ![fun r => (z.2.2 r).1, z.1, z.2.1]),
      fun w => (w.2 1, w.2 2, fun r => (w.2 0 r, w.1 0 r, w.1 1 r, w.1 2 r)),
      fun z => rfl,
      fun w => by
        refine Prod.ext ?_ ?_
        · funext e; fin_cases e <;> rfl
        · funext e; fin_cases e <;> rfl⟩
  apply Fintype.sum_equiv φ
  intro z
  apply Fintype.prod_congr
  intro r
  rw [fin3_prod]
  have e0 : r - offset 0 = r := by simp [offset]
  show _ = Td.val [(z.2.2 r).2.1, (z.2.2 r).2.2.1, (z.2.2 r).2.2.2] * Tu.val [(z.2.2 (r - offset 0)).1, z.1 (r - offset 1), z.2.1 (r - offset 2)] *
    (Bc.val [σ 0 r, (z.2.2 r).2.1, (z.2.2 r).1] * Bb.val [σ 1 r, (z.2.2 r).2.2.1, z.1 r] * Ba.val [σ 2 r, (z.2.2 r).2.2.2, z.2.1 r])
  rw [e0]
  show _ = _ * Tu.val [(z.2.2 r).1, z.1 (r - (0, 1)), z.2.1 (r - (1, 0))] * _
  ring

end Verif.Kagome
