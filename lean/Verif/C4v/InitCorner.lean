import Verif.C4v.InitProps2
import Verif.C4v.Props
/-
Property C137: the first enlarged corner of the initial environment is that of the traced site, in another basis.
-/
namespace Verif.C4v
open Tensor Ctm Corner.Spec
set_option linter.unusedSimpArgs false
variable {K : Type} [RCLike K]

/-- The values of ket and bra on the internal bonds and the physical index. -/
def inner5 (D p : Nat) : Finset (Nat × Nat × Nat × Nat × Nat) :=
  Finset.range D ×ˢ Finset.range D ×ˢ Finset.range D ×ˢ Finset.range D ×ˢ Finset.range p

/-- The product of ket and bra in an enlarged corner. -/
def siteOf (a : Tensor K) (k b k' b' : Nat) (ρ : Nat × Nat × Nat × Nat × Nat) : K :=
  a.val [ρ.2.2.2.2, ρ.1, ρ.2.2.1, k, k'] * star (a.val [ρ.2.2.2.2, ρ.2.1, ρ.2.2.2.1, b, b'])

/-- An element of the enlarged corner as a sum over the two environment bonds and the rest. -/
theorem corner_sum {chi D p : Nat} {a : Tensor K} {env : Env K} (h : Spec.Fits chi D p a env) {M : Tensor K} (hM : c2x2Sl a env.C env.T = some M)
    {i j k b k' b' : Nat} (hi : i < chi) (hj : j < chi) (hk : k < D) (hb : b < D) (hk' : k' < D) (hb' : b' < D) :
    M.val [(i * D + k) * D + b, (j * D + k') * D + b'] = ∑ s0 ∈ Finset.range chi, ∑ s1 ∈ Finset.range chi, ∑ ρ ∈ inner5 D p,
      env.C.val [s0, s1] * env.T.val [j, s1, ρ.1 * D + ρ.2.1] * env.T.val [s0, i, ρ.2.2.1 * D + ρ.2.2.2.1] * siteOf a k b k' b' ρ := by
  obtain ⟨M', eM, d⟩ := c2x2Sl_net (dim := Spec.dim chi D p) rfl h.site h.corner h.half
  rw [hM] at eM
  cases eM
  have hv := d.val (fun l => if l = 3 then i else if l = 8 then k else if l = 9 then b else if l = 2 then j else if l = 10 then k' else if l = 11 then b' else 0) (by
    intro l hl
    have hl : l ∈ [3, 8, 9, 2, 10, 11] := hl
    simp only [List.mem_cons, List.not_mem_nil, or_false] at hl
    rcases hl with rfl | rfl | rfl | rfl | rfl | rfl <;> simp [Spec.dim, hi, hj, hk, hb, hk', hb'])
  refine Eq.trans (congrArg M.val ?_) (hv.trans ?_)
  · simp [gidx, ravel, Spec.dim]
    constructor <;> ring
  · simp only [inner5, Finset.sum_product]
    rfl

theorem absorb_left {n : Nat} {U : Nat → Nat → K} (hU : Spec.Unitary U n) (t : Nat → Nat → K) (v : Nat → K) {x : Nat} (hx : x < n) :
    ∑ s ∈ Finset.range n, star (U x s) * (∑ a ∈ Finset.range n, ∑ b ∈ Finset.range n, U a s * t a b * v b) = ∑ b ∈ Finset.range n, t x b * v b := by
  have e : ∀ s, star (U x s) * (∑ a ∈ Finset.range n, ∑ b ∈ Finset.range n, U a s * t a b * v b) =
      ∑ a ∈ Finset.range n, (U a s * star (U x s)) * ∑ b ∈ Finset.range n, t a b * v b := by
    intro s
    rw [Finset.mul_sum]
    refine Finset.sum_congr rfl (fun a _ => ?_)
    rw [Finset.mul_sum, Finset.mul_sum]
    exact Finset.sum_congr rfl (fun b _ => by ring)
  simp only [e]
  rw [Finset.sum_comm]
  simp only [← Finset.sum_mul]
  rw [Finset.sum_congr rfl (fun a ha => by rw [hU.rows a x (Finset.mem_range.1 ha) hx])]
  simp [hx]

theorem absorb_right {n : Nat} {U : Nat → Nat → K} (hU : Spec.Unitary U n) (t : Nat → Nat → K) (v : Nat → K) {y : Nat} (hy : y < n) :
    ∑ s ∈ Finset.range n, U y s * (∑ a ∈ Finset.range n, ∑ b ∈ Finset.range n, v a * t a b * star (U b s)) = ∑ a ∈ Finset.range n, v a * t a y := by
  have e : ∀ s, U y s * (∑ a ∈ Finset.range n, ∑ b ∈ Finset.range n, v a * t a b * star (U b s)) =
      ∑ b ∈ Finset.range n, (U y s * star (U b s)) * ∑ a ∈ Finset.range n, v a * t a b := by
    intro s
    rw [Finset.sum_comm, Finset.mul_sum]
    refine Finset.sum_congr rfl (fun b _ => ?_)
    rw [Finset.mul_sum, Finset.mul_sum]
    exact Finset.sum_congr rfl (fun a _ => by ring)
  simp only [e]
  rw [Finset.sum_comm]
  simp only [← Finset.sum_mul]
  rw [Finset.sum_congr rfl (fun b hb => by rw [hU.rows y b hy (Finset.mem_range.1 hb)])]
  simp [hy]

/-- Both bonds of a corner in another basis. -/
theorem corner_basis {n : Nat} {U : Nat → Nat → K} (hU : Spec.Unitary U n) (c f g : Nat → Nat → K) (i j : Nat) :
    ∑ s0 ∈ Finset.range n, ∑ s1 ∈ Finset.range n, (∑ x ∈ Finset.range n, ∑ y ∈ Finset.range n, star (U x s0) * c x y * U y s1) *
        (∑ z ∈ Finset.range n, ∑ y ∈ Finset.range n, U z j * f z y * star (U y s1)) * (∑ x ∈ Finset.range n, ∑ w ∈ Finset.range n, U x s0 * g x w * star (U w i)) =
      ∑ w ∈ Finset.range n, ∑ z ∈ Finset.range n, star (U w i) * (∑ x ∈ Finset.range n, ∑ y ∈ Finset.range n, c x y * f z y * g x w) * U z j := by
  have e1 : ∀ s0 s1, (∑ x ∈ Finset.range n, ∑ y ∈ Finset.range n, star (U x s0) * c x y * U y s1) *
        (∑ z ∈ Finset.range n, ∑ y ∈ Finset.range n, U z j * f z y * star (U y s1)) * (∑ x ∈ Finset.range n, ∑ w ∈ Finset.range n, U x s0 * g x w * star (U w i)) =
      (∑ x ∈ Finset.range n, ∑ w ∈ Finset.range n, U x s0 * g x w * star (U w i)) * (∑ x ∈ Finset.range n, ∑ y ∈ Finset.range n, star (U x s0) * c x y * U y s1) *
        (∑ z ∈ Finset.range n, ∑ y ∈ Finset.range n, U z j * f z y * star (U y s1)) := fun s0 s1 => by ring
  simp only [e1]
  rw [sum4 (fun s0 => ∑ x ∈ Finset.range n, ∑ w ∈ Finset.range n, U x s0 * g x w * star (U w i)) (fun x s => star (U x s)) c (fun y s => U y s)
    (fun s1 => ∑ z ∈ Finset.range n, ∑ y ∈ Finset.range n, U z j * f z y * star (U y s1))]
  have e2 : ∀ x ∈ Finset.range n, ∀ y ∈ Finset.range n,
      (∑ s ∈ Finset.range n, (∑ x ∈ Finset.range n, ∑ w ∈ Finset.range n, U x s * g x w * star (U w i)) * star (U x s)) * c x y *
        (∑ s ∈ Finset.range n, U y s * ∑ z ∈ Finset.range n, ∑ y ∈ Finset.range n, U z j * f z y * star (U y s)) =
      ∑ q ∈ Finset.range n ×ˢ Finset.range n, star (U q.1 i) * (c x y * f q.2 y * g x q.1) * U q.2 j := by
    intro x hx y hy
    have a1 : ∑ s ∈ Finset.range n, (∑ x ∈ Finset.range n, ∑ w ∈ Finset.range n, U x s * g x w * star (U w i)) * star (U x s) = ∑ w ∈ Finset.range n, g x w * star (U w i) := by
      rw [← absorb_left hU g (fun w => star (U w i)) (Finset.mem_range.1 hx)]
      exact Finset.sum_congr rfl (fun s _ => mul_comm _ _)
    rw [a1, absorb_right hU f (fun z => U z j) (Finset.mem_range.1 hy), Finset.sum_mul, Finset.sum_mul_sum, ← Finset.sum_product']
    exact Finset.sum_congr rfl (fun q _ => by ring)
  rw [Finset.sum_congr rfl (fun x hx => Finset.sum_congr rfl (fun y hy => e2 x hx y hy))]
  have c1 : ∀ F : Nat → Nat → K, ∑ i ∈ Finset.range n, ∑ j ∈ Finset.range n, F i j = ∑ q ∈ Finset.range n ×ˢ Finset.range n, F q.1 q.2 := fun F => (Finset.sum_product' _ _ _).symm
  rw [c1, c1, Finset.sum_comm]
  refine Finset.sum_congr rfl (fun q _ => ?_)
  rw [c1, Finset.mul_sum, Finset.sum_mul]

theorem pull2 (A B : Finset Nat) (F : Nat → Nat → K) (S : K) : ∑ x ∈ A, ∑ y ∈ B, F x y * S = (∑ x ∈ A, ∑ y ∈ B, F x y) * S := by
  simp only [Finset.sum_mul]

theorem swap3 {ι : Type} (A B : Finset Nat) (R : Finset ι) (F : Nat → Nat → ι → K) : ∑ x ∈ A, ∑ y ∈ B, ∑ r ∈ R, F x y r = ∑ r ∈ R, ∑ x ∈ A, ∑ y ∈ B, F x y r := by
  rw [Finset.sum_congr rfl (fun x _ => Finset.sum_comm), Finset.sum_comm]

section
variable {p D : Nat} {a : Tensor K} {env : Env K} {eig : Tensor K → Nat → List ℝ × Tensor K}

/-- `CTMRG` with an environment dimension of at least the square of the bond dimension: nothing is lost. The enlarged corner, on which the first move acts, is that of the
traced site, transformed with the unitary `U`, and padded with zeros. -/
theorem C137_corner (hs : a.shape = [p, D, D, D, D]) (h0 : ∃ idx, InB a.shape idx ∧ a.val idx ≠ 0) (hr : Spec.Reflected D p a) (hf : Spec.Flipped D p a)
    (he : Spec.FullEig eig) (hchi : D * D ≤ env.chi) {env' : Env K} (hok : initEnv eig .ctmrg none a env = .ok env') :
    ∃ c t U M M', Spec.TracedCorner a c ∧ Spec.TracedHalf a t ∧ Spec.Unitary U (D * D) ∧ c2x2Sl a c t = some M ∧ c2x2Sl a env'.C env'.T = some M' ∧
      ∀ i j k b k' b', i < env.chi → j < env.chi → k < D → b < D → k' < D → b' < D →
        M'.val [(i * D + k) * D + b, (j * D + k') * D + b'] = if i < D * D ∧ j < D * D then
          ∑ w ∈ Finset.range (D * D), ∑ z ∈ Finset.range (D * D), star (U w i) * M.val [(w * D + k) * D + b, (z * D + k') * D + b'] * U z j else 0 := by
  obtain ⟨env1, c, t, U, ok1, hfit, -, -, hc, ht, hU, vC, vT⟩ := C137_ctmrg (env := env) hs h0 hr hf he
  rw [hok] at ok1
  cases ok1
  obtain ⟨sc, -, -⟩ := tracedCorner_herm hs hr hc
  obtain ⟨st, -, -⟩ := tracedHalf_herm hs hf ht
  have hfit0 : Spec.Fits (D * D) D p a ⟨D * D, c, t⟩ := ⟨hs, rfl, sc, st⟩
  obtain ⟨M, eM, -⟩ := c2x2Sl_net (dim := Spec.dim (D * D) D p) rfl hs hfit0.corner hfit0.half
  obtain ⟨M', eM', -⟩ := c2x2Sl_net (dim := Spec.dim env.chi D p) rfl hs hfit.corner hfit.half
  refine ⟨c, t, U, M, M', hc, ht, hU, eM, eM', fun i j k b k' b' hi hj hk hb hk' hb' => ?_⟩
  rw [corner_sum hfit eM' hi hj hk hb hk' hb']
  have hρ : ∀ ρ ∈ inner5 D p, ρ.1 * D + ρ.2.1 < D * D ∧ ρ.2.2.1 * D + ρ.2.2.2.1 < D * D := by
    intro ρ hρ
    simp only [inner5, Finset.mem_product, Finset.mem_range] at hρ
    have : ∀ x y, x < D → y < D → x * D + y < D * D := by
      intro x y hx hy
      calc x * D + y < x * D + D := by omega
        _ = (x + 1) * D := by ring
        _ ≤ D * D := Nat.mul_le_mul_right _ hx
    exact ⟨this _ _ hρ.1 hρ.2.1, this _ _ hρ.2.2.1 hρ.2.2.2.1⟩
  by_cases hij : i < D * D ∧ j < D * D
  · rw [if_pos hij]
    have hR : ∀ w ∈ Finset.range (D * D), ∀ z ∈ Finset.range (D * D), star (U w i) * M.val [(w * D + k) * D + b, (z * D + k') * D + b'] * U z j =
        ∑ ρ ∈ inner5 D p, star (U w i) * (∑ x ∈ Finset.range (D * D), ∑ y ∈ Finset.range (D * D),
          c.val [x, y] * t.val [z, y, ρ.1 * D + ρ.2.1] * t.val [x, w, ρ.2.2.1 * D + ρ.2.2.2.1]) * U z j * siteOf a k b k' b' ρ := by
      intro w hw z hz
      rw [corner_sum hfit0 eM (Finset.mem_range.1 hw) (Finset.mem_range.1 hz) hk hb hk' hb']
      rw [Finset.sum_congr rfl (fun x _ => Finset.sum_comm), Finset.sum_comm, Finset.mul_sum, Finset.sum_mul]
      refine Finset.sum_congr rfl (fun ρ _ => ?_)
      rw [pull2]
      ring
    rw [Finset.sum_congr rfl (fun w hw => Finset.sum_congr rfl (fun z hz => hR w hw z hz))]
    rw [swap3, swap3]
    refine Finset.sum_congr rfl (fun ρ hρ' => ?_)
    rw [pull2, pull2]
    congr 1
    rw [← corner_basis hU (fun x y => c.val [x, y]) (fun z y => t.val [z, y, ρ.1 * D + ρ.2.1]) (fun x w => t.val [x, w, ρ.2.2.1 * D + ρ.2.2.2.1]) i j]
    have hz : ∀ s0 s1, s0 < env.chi → s1 < env.chi → (D * D ≤ s0 ∨ D * D ≤ s1) → env'.C.val [s0, s1] = 0 := by
      intro s0 s1 h1 h2 h
      rw [vC s0 s1 h1 h2, if_neg (by omega)]
    have cut : ∀ (F : Nat → Nat → K), ∑ s0 ∈ Finset.range env.chi, ∑ s1 ∈ Finset.range env.chi, env'.C.val [s0, s1] * F s0 s1 =
        ∑ s0 ∈ Finset.range (D * D), ∑ s1 ∈ Finset.range (D * D), env'.C.val [s0, s1] * F s0 s1 := by
      intro F
      have : ∑ s0 ∈ Finset.range (D * D), ∑ s1 ∈ Finset.range env.chi, env'.C.val [s0, s1] * F s0 s1 = ∑ s0 ∈ Finset.range env.chi, ∑ s1 ∈ Finset.range env.chi, env'.C.val [s0, s1] * F s0 s1 :=
        Finset.sum_subset (fun i hi => by simp at hi ⊢; omega) (fun s0 h1 h2 => Finset.sum_eq_zero (fun s1 h3 => by
          rw [hz s0 s1 (Finset.mem_range.1 h1) (Finset.mem_range.1 h3) (.inl (by simpa using h2)), zero_mul]))
      rw [← this]
      refine Finset.sum_congr rfl (fun s0 h0 => (Finset.sum_subset (fun i hi => by simp at hi ⊢; omega) (fun s1 h1 h2 => ?_)).symm)
      rw [hz s0 s1 (by simp at h0; omega) (Finset.mem_range.1 h1) (.inr (by simpa using h2)), zero_mul]
    simp only [mul_assoc]
    rw [cut (fun s0 s1 => env'.T.val [j, s1, ρ.1 * D + ρ.2.1] * env'.T.val [s0, i, ρ.2.2.1 * D + ρ.2.2.2.1])]
    refine Finset.sum_congr rfl (fun s0 h0 => Finset.sum_congr rfl (fun s1 h1 => ?_))
    rw [Finset.mem_range] at h0 h1
    rw [vC s0 s1 (by omega) (by omega), vT j s1 _ hj (by omega) (hρ ρ hρ').1, vT s0 i _ (by omega) hi (hρ ρ hρ').2, if_pos ⟨h0, h1⟩, if_pos ⟨hij.2, h1⟩, if_pos ⟨h0, hij.1⟩]
    simp only [mul_assoc]
  · rw [if_neg hij]
    refine Finset.sum_eq_zero (fun s0 h0 => Finset.sum_eq_zero (fun s1 h1 => Finset.sum_eq_zero (fun ρ hρ' => ?_)))
    rw [Finset.mem_range] at h0 h1
    rw [vT j s1 _ hj h1 (hρ ρ hρ').1, vT s0 i _ h0 hi (hρ ρ hρ').2]
    by_cases h : i < D * D
    · rw [if_neg (c := j < D * D ∧ s1 < D * D) (by omega)]; simp
    · rw [if_neg (c := s0 < D * D ∧ i < D * D) (by omega)]; simp

/-- From the initialisation on, for every number of moves and every convergence check, the environment is Hermitian. -/
theorem C137_run {H : Type} {inf : Bool} {eig' : Tensor K → Nat → List ℝ × Tensor K} (hs : a.shape = [p, D, D, D, D]) (h0 : ∃ idx, InB a.shape idx ∧ a.val idx ≠ 0)
    (hr : Spec.Reflected D p a) (hf : Spec.Flipped D p a) (he : Spec.FullEig eig) (he' : Spec.EigShape eig') (init n : Nat) (conv : Option (Env K → Option H → Bool × H))
    {env' : Env K} {r : Env K × Option H} (hok : initEnv eig .ctmrg none a env = .ok env')
    (hrun : run inf eig' none init n a conv env' = .ok r ∨ runDl inf eig' n a conv env' = .ok r) :
    Spec.Fits env.chi D p a r.1 ∧ Spec.Hermitian r.1 ∧ Spec.Diagonal r.1 := by
  obtain ⟨env1, c, t, U, ok1, hfit, hh, hd, -⟩ := C137_ctmrg (env := env) hs h0 hr hf he
  rw [hok] at ok1
  cases ok1
  have hD : 0 < D := by
    obtain ⟨idx, hi, -⟩ := h0
    rw [hs] at hi
    cases hi with
    | cons _ h2 => cases h2 with
      | cons h3 _ => omega
  obtain ⟨h1, h2, h3⟩ := C48_run_partial hfit hh hD he' init n conv r hrun
  refine ⟨h1, h2, ?_⟩
  cases n with
  | succ n => exact h3 (by omega)
  | zero =>
    rcases hrun with hrun | hrun
    · simp only [run, loop, Except.ok.injEq] at hrun
      rw [← hrun]; exact hd
    · simp only [runDl, loop, Except.ok.injEq] at hrun
      rw [← hrun]; exact hd

end

end Verif.C4v
