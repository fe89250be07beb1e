import Verif.Trgl.Props
import Verif.Kagome.Su3Witness
/-
Density matrices of product states for any physical dimension.
-/
namespace Verif.Trgl
open Tensor Ctm Rdm Models Spec Corrf
variable {p : Nat}

/-- A vector of norm one. -/
def Unit (p : Nat) (w : Nat → ℂ) : Prop := ∑ a ∈ Finset.range p, w a * star (w a) = 1

theorem pure_sym (eigh : Tensor ℂ → List ℝ × Tensor ℂ) {s : List Nat} {T : Tensor ℂ} (hT : T.shape = s ++ s) (h0 : 0 < s.prod) (htr : Matrix.trace (Rdm.Spec.op s T) = 1)
    (hh : ∀ k b, InB s k → InB s b → star (T.val (b ++ k)) = T.val (k ++ b)) :
    ∃ R, symRdm eigh false T = .ok R ∧ R.shape = s ++ s ∧ ∀ k b, InB s k → InB s b → R.val (k ++ b) = T.val (k ++ b) := by
  obtain ⟨R, e, sh, v⟩ := symRdm_entries eigh hT h0 (by rw [htr]; simp)
  refine ⟨R, e, sh, fun k b hk hb => ?_⟩
  rw [v k b hk hb, hh k b hk hb, htr]
  simp
  ring

/-- The projection on a vector. -/
def ketbra (p : Nat) (w : Nat → ℂ) : Su2.Op p := Matrix.of fun s t => w s * star (w t)

theorem pure2 (eigh : Tensor ℂ → List ℝ × Tensor ℂ) (hp : 0 < p) {T : Tensor ℂ} (hT : T.shape = [p, p, p, p]) {a b : Nat → ℂ} (ha : Unit p a) (hb : Unit p b)
    (h : ∀ s0 s1 t0 t1 : Nat, s0 < p → s1 < p → t0 < p → t1 < p → T.val [s0, s1, t0, t1] = a s0 * star (a t0) * (b s1 * star (b t1))) :
    ∃ R, symRdm eigh false T = .ok R ∧ dens 2 p R = prod ![ketbra p a, ketbra p b] := by
  obtain ⟨R, e, sh, v⟩ := pure_sym eigh (s := [p, p]) hT (by simp [hp]) (by
    rw [trace_op]
    simp only [sumIdx]
    rw [← mul_one (1 : ℂ)]
    nth_rw 1 [← ha]
    rw [← hb, Finset.sum_mul_sum]
    exact Finset.sum_congr rfl fun s hs => Finset.sum_congr rfl fun t ht => h s t s t (Finset.mem_range.1 hs) (Finset.mem_range.1 ht) (Finset.mem_range.1 hs) (Finset.mem_range.1 ht)) (by
    rintro k b (_ | ⟨k0, _ | ⟨k1, ⟨⟩⟩⟩) (_ | ⟨b0, _ | ⟨b1, ⟨⟩⟩⟩)
    simp only [List.cons_append, List.nil_append]
    rw [h _ _ _ _ b0 b1 k0 k1, h _ _ _ _ k0 k1 b0 b1]
    simp only [star_mul', star_star]
    ring)
  refine ⟨R, e, ?_⟩
  ext s t
  rw [dens, Matrix.of_apply, v _ _ (by simp [InB]) (by simp [InB])]
  simp only [List.ofFn_succ, List.ofFn_zero, List.cons_append, List.nil_append]
  rw [h _ _ _ _ (s _).2 (s _).2 (t _).2 (t _).2]
  simp [prod, ketbra, Fin.prod_univ_two]

theorem pure3 (eigh : Tensor ℂ → List ℝ × Tensor ℂ) (hp : 0 < p) {T : Tensor ℂ} (hT : T.shape = [p, p, p, p, p, p]) {a b c : Nat → ℂ} (ha : Unit p a) (hb : Unit p b) (hc : Unit p c)
    (h : ∀ s0 s1 s2 t0 t1 t2 : Nat, s0 < p → s1 < p → s2 < p → t0 < p → t1 < p → t2 < p → T.val [s0, s1, s2, t0, t1, t2] =
      a s0 * star (a t0) * (b s1 * star (b t1)) * (c s2 * star (c t2))) :
    ∃ R, symRdm eigh false T = .ok R ∧ dens 3 p R = prod ![ketbra p a, ketbra p b, ketbra p c] := by
  obtain ⟨R, e, sh, v⟩ := pure_sym eigh (s := [p, p, p]) hT (by simp [hp]) (by
    rw [trace_op]
    simp only [sumIdx]
    have : (1 : ℂ) = (∑ s ∈ Finset.range p, a s * star (a s)) * ((∑ s ∈ Finset.range p, b s * star (b s)) * ∑ s ∈ Finset.range p, c s * star (c s)) := by
      rw [ha, hb, hc]; simp
    rw [this, Finset.sum_mul_sum, Finset.sum_mul_sum]
    refine Finset.sum_congr rfl fun s hs => Finset.sum_congr rfl fun t ht => ?_
    rw [Finset.mul_sum]
    refine Finset.sum_congr rfl fun u hu => ?_
    rw [← mul_assoc]
    exact h s t u s t u (Finset.mem_range.1 hs) (Finset.mem_range.1 ht) (Finset.mem_range.1 hu) (Finset.mem_range.1 hs) (Finset.mem_range.1 ht) (Finset.mem_range.1 hu)) (by
    rintro k b (_ | ⟨k0, _ | ⟨k1, _ | ⟨k2, ⟨⟩⟩⟩⟩) (_ | ⟨b0, _ | ⟨b1, _ | ⟨b2, ⟨⟩⟩⟩⟩)
    simp only [List.cons_append, List.nil_append]
    rw [h _ _ _ _ _ _ b0 b1 b2 k0 k1 k2, h _ _ _ _ _ _ k0 k1 k2 b0 b1 b2]
    simp only [star_mul', star_star]
    ring)
  refine ⟨R, e, ?_⟩
  ext s t
  rw [dens, Matrix.of_apply, v _ _ (by simp [InB]) (by simp [InB])]
  simp only [List.ofFn_succ, List.ofFn_zero, List.cons_append, List.nil_append]
  rw [h _ _ _ _ _ _ (s _).2 (s _).2 (s _).2 (t _).2 (t _).2 (t _).2]
  simp [prod, ketbra, Fin.prod_univ_three]

theorem sumOver_base {dim : Nat → Nat} (N : List Nat) (hd : ∀ l ∈ N, dim l = 1) (F : (Nat → Nat) → ℂ) (σ : Nat → Nat) (h0 : ∀ l ∈ N, σ l = 0) : sumOver dim N F σ = F σ := by
  induction N with
  | nil => rfl
  | cons l ls ih =>
    simp only [sumOver]
    rw [hd l (by simp), Finset.sum_range_one, Function.update_eq_self_iff.2 (h0 l (by simp)).symm]
    exact ih (fun l hl => hd l (by simp [hl])) fun l hl => h0 l (by simp [hl])

/-- The density matrix of a plaquette is determined by the state and its environment. -/
theorem plaq_unique {D : Dims} {st : State ℂ} {env : Env ℂ} {c : Coord} {A B : Tensor ℂ} (hA : Rdm.Spec.IsPlaq D st env c A) (hB : Rdm.Spec.IsPlaq D st env c B)
    (σ : Nat → Nat) (hσ : ∀ l ∈ [100, 102, 104, 106, 101, 103, 105, 107], σ l < Rdm.Spec.dimsP D c l) :
    A.val [σ 100, σ 102, σ 104, σ 106, σ 101, σ 103, σ 105, σ 107] = B.val [σ 100, σ 102, σ 104, σ 106, σ 101, σ 103, σ 105, σ 107] := by
  obtain ⟨e, s, h, -, n⟩ := hA
  obtain ⟨e', s', h', -, n'⟩ := hB
  have he : e = e' := by
    have k1 := Option.some.inj (h.C1.symm.trans h'.C1)
    have k2 := Option.some.inj (h.C2.symm.trans h'.C2)
    have k3 := Option.some.inj (h.C3.symm.trans h'.C3)
    have k4 := Option.some.inj (h.C4.symm.trans h'.C4)
    have k5 := Option.some.inj (h.T1.symm.trans h'.T1)
    have k6 := Option.some.inj (h.T4.symm.trans h'.T4)
    have k7 := Option.some.inj (h.T1x.symm.trans h'.T1x)
    have k8 := Option.some.inj (h.T2x.symm.trans h'.T2x)
    have k9 := Option.some.inj (h.T2xy.symm.trans h'.T2xy)
    have k10 := Option.some.inj (h.T3xy.symm.trans h'.T3xy)
    have k11 := Option.some.inj (h.T3y.symm.trans h'.T3y)
    have k12 := Option.some.inj (h.T4y.symm.trans h'.T4y)
    cases e; cases e'
    simp_all
  have hs : s = s' := by
    have k1 := Option.some.inj (h.a.symm.trans h'.a)
    have k2 := Option.some.inj (h.ax.symm.trans h'.ax)
    have k3 := Option.some.inj (h.ay.symm.trans h'.ay)
    have k4 := Option.some.inj (h.axy.symm.trans h'.axy)
    cases s; cases s'
    simp_all
  subst he hs
  have hg : ∀ g ∈ [[100], [102], [104], [106], [101], [103], [105], [107]], ∀ l ∈ g, σ l < Rdm.Spec.dimsP D c l := by
    intro g hg l hl
    apply hσ
    fin_cases hg <;> fin_cases hl <;> simp
  have := (n σ hg).trans (n' σ hg).symm
  simpa [ravel] using this

section
variable (keys : List Coord) (vts : Coord → Coord) (v : Coord → Nat → ℂ) (eigh : Tensor ℂ → List ℝ × Tensor ℂ) (hp : 0 < p) (hv : ∀ c, Unit p (v c))
include hp hv

theorem envC : ∀ k T, (pEnv (K := ℂ)).C k = some T → T.val = fun _ => 1 := by
  intro k T h; simp only [pEnv] at h; injection h with h; rw [← h]
theorem envT : ∀ k T, (pEnv (K := ℂ)).T k = some T → T.val = fun _ => 1 := by
  intro k T h; simp only [pEnv] at h; injection h with h; rw [← h]

theorem gFd : ∀ (N : List Nat) (dim : Nat → Nat), (∀ l ∈ N, ¬ 100 ≤ l) → (∀ l ∈ N, dim l = 1) → ∀ l ∈ N, KagomeRdm.fdim dim (fun _ => 0) l = 1 := by
  intro N dim h1 h2 l hl
  unfold KagomeRdm.fdim
  rw [if_neg (h1 l hl), h2 l hl]
  split <;> rfl

/-- Two sites in a row. -/
theorem gRow (c : Coord) : ∃ R, rdm2x1 eigh true false (gState p keys vts v) pEnv c = .ok R ∧ dens 2 p R = prod ![ketbra p (v (vts c)), ketbra p (v (vts (rt c)))] := by
  have hs : FitsState (gDims p) (gState p keys vts v) := gFitsState keys vts _ hp
  have he : FitsEnv (gDims p) (gState p keys vts v) pEnv := gFitsEnv keys vts _
  obtain ⟨e, a, b, e1, h0, h2⟩ := pairH_ok hs he c
  obtain ⟨T, eT, sT, vT⟩ := KagomeRdm.fullH h2 (P := p) rfl rfl
  obtain ⟨R, hR, hd⟩ := pure2 eigh hp sT (hv (vts c)) (hv (vts (rt c))) (by
    intro s0 s1 t0 t1 k0 k1 l0 l1
    refine (vT s0 s1 t0 t1 k0 k1 l0 l1).trans ?_
    obtain ⟨c1, c2, c3, c4, u1, u2, u3, u4, u5, u6, a1, a2⟩ := h0
    unfold KagomeRdm.netH
    rw [KagomeRdm.sumOver_zero _ (gFd v hp hv _ _ (by decide) (by intro l hl; fin_cases hl <;> rfl))]
    have ea : a = gSite p (v (vts c)) := (Option.some.inj a1).symm
    have eb : b = gSite p (v (vts (rt c))) := (Option.some.inj a2).symm
    simp only [KagomeRdm.bodyH, envC v hp hv _ _ c1, envC v hp hv _ _ c2, envC v hp hv _ _ c3, envC v hp hv _ _ c4, envT v hp hv _ _ u1, envT v hp hv _ _ u2, envT v hp hv _ _ u3,
      envT v hp hv _ _ u4, envT v hp hv _ _ u5, envT v hp hv _ _ u6, ea, eb, KagomeRdm.lay_g]
    ring)
  refine ⟨R, ?_, hd⟩
  rw [(C32_row eigh false hs he c).1, ← hR]
  unfold rdm2x1; rw [e1]
  show (lift (dl2x1 e a b) >>= _) = _
  rw [eT]; rfl

/-- Two sites in a column. -/
theorem gColumn (c : Coord) : ∃ R, rdm1x2 eigh true false (gState p keys vts v) pEnv c = .ok R ∧ dens 2 p R = prod ![ketbra p (v (vts c)), ketbra p (v (vts (dn c)))] := by
  have hs : FitsState (gDims p) (gState p keys vts v) := gFitsState keys vts _ hp
  have he : FitsEnv (gDims p) (gState p keys vts v) pEnv := gFitsEnv keys vts _
  obtain ⟨e, a, b, e1, h0, h2⟩ := pairV_ok hs he c
  obtain ⟨T, eT, sT, vT⟩ := KagomeRdm.fullV h2 (P := p) rfl rfl
  obtain ⟨R, hR, hd⟩ := pure2 eigh hp sT (hv (vts c)) (hv (vts (dn c))) (by
    intro s0 s1 t0 t1 k0 k1 l0 l1
    refine (vT s0 s1 t0 t1 k0 k1 l0 l1).trans ?_
    obtain ⟨c1, c2, c3, c4, u1, u2, u3, u4, u5, u6, a1, a2⟩ := h0
    unfold KagomeRdm.netV
    rw [KagomeRdm.sumOver_zero _ (gFd v hp hv _ _ (by decide) (by intro l hl; fin_cases hl <;> rfl))]
    have ea : a = gSite p (v (vts c)) := (Option.some.inj a1).symm
    have eb : b = gSite p (v (vts (dn c))) := (Option.some.inj a2).symm
    simp only [KagomeRdm.bodyV, envC v hp hv _ _ c1, envC v hp hv _ _ c2, envC v hp hv _ _ c3, envC v hp hv _ _ c4, envT v hp hv _ _ u1, envT v hp hv _ _ u2, envT v hp hv _ _ u3,
      envT v hp hv _ _ u4, envT v hp hv _ _ u5, envT v hp hv _ _ u6, ea, eb, KagomeRdm.lay_g]
    ring)
  refine ⟨R, ?_, hd⟩
  rw [(C32_column eigh false hs he c).1, ← hR]
  unfold rdm1x2; rw [e1]
  show (lift (dl1x2 e a b) >>= _) = _
  rw [eT]; rfl

/-- The plaquette. -/
theorem gPlaquette (c : Coord) : ∃ e s T, plaq (gState p keys vts v) pEnv c = some (e, s) ∧ T.shape = List.replicate 4 p ++ List.replicate 4 p ∧
    (∀ s0 s1 s2 s3 t0 t1 t2 t3 : Nat, s0 < p → s1 < p → s2 < p → s3 < p → t0 < p → t1 < p → t2 < p → t3 < p → T.val [s0, s1, s2, s3, t0, t1, t2, t3] =
      v (vts c) s0 * star (v (vts c) t0) * (v (vts (rt c)) s1 * star (v (vts (rt c)) t1)) * (v (vts (dn c)) s2 * star (v (vts (dn c)) t2)) *
        (v (vts (dn (rt c))) s3 * star (v (vts (dn (rt c))) t3))) ∧
    Rdm.Spec.IsPlaq (gDims p) (gState p keys vts v) pEnv c T ∧ ∀ os : List Nat, os.Nodup → (∀ x ∈ os, x < 4) → rdm2x2 eigh false (gState p keys vts v) pEnv c os = symRdm eigh false (ptrace (Rdm.Spec.physP (gDims p) c) os T) := by
  obtain ⟨e, s, h1, h0, h2⟩ := plaq_ok (gFitsState keys vts v hp) (gFitsEnv keys vts v) c
  obtain ⟨T, eT, sT, vT⟩ := KagomeRdm.plaq_full h2 (P := p) rfl rfl rfl rfl
  obtain ⟨R4, e4, q4⟩ := oe2x2_denotes (Rdm.Spec.dimsP (gDims p) c) e s h2 [0, 1, 2, 3] (by decide)
  rw [eT] at e4
  obtain rfl := Option.some.inj e4
  refine ⟨e, s, T, h1, sT, ?_, ⟨e, s, h0, Corner.isNetwork q4⟩, fun os hn hlt => ?_⟩
  · intro s0 s1 s2 s3 t0 t1 t2 t3 k0 k1 k2 k3 l0 l1 l2 l3
    refine (vT s0 s1 s2 s3 t0 t1 t2 t3 k0 k1 k2 k3 l0 l1 l2 l3).trans ?_
    rw [KagomeRdm.plaqF_ones e ⟨envC v hp hv _ _ h0.C1, envC v hp hv _ _ h0.C2, envC v hp hv _ _ h0.C3, envC v hp hv _ _ h0.C4⟩
      ⟨envT v hp hv _ _ h0.T1, envT v hp hv _ _ h0.T4, envT v hp hv _ _ h0.T1x, envT v hp hv _ _ h0.T2x, envT v hp hv _ _ h0.T2xy, envT v hp hv _ _ h0.T3xy,
        envT v hp hv _ _ h0.T3y, envT v hp hv _ _ h0.T4y⟩ (fun l hl => by fin_cases hl <;> rfl)]
    have a0 : s.a = gSite p (v (vts c)) := (Option.some.inj h0.a).symm
    have a1 : s.ax = gSite p (v (vts (rt c))) := (Option.some.inj h0.ax).symm
    have a2 : s.ay = gSite p (v (vts (dn c))) := (Option.some.inj h0.ay).symm
    have a3 : s.axy = gSite p (v (vts (dn (rt c)))) := (Option.some.inj h0.axy).symm
    rw [a0, a1, a2, a3]
    simp only [KagomeRdm.lay_g]
  · obtain ⟨R, eR, hS⟩ := ptrace_same (Rdm.Spec.dimsP (gDims p) c) e s h2 q4 os
    rw [dimsP_phys] at hS
    rw [rdm2x2_eq eigh false h1 ⟨hn, hlt⟩ eR]
    rw [symRdm_same eigh false hS]

/-- Upper right and lower left. -/
theorem gDiagonal (c : Coord) : ∃ R, rdm2x2 eigh false (gState p keys vts v) pEnv c [1, 2] = .ok R ∧ dens 2 p R = prod ![ketbra p (v (vts (rt c))), ketbra p (v (vts (dn c)))] := by
  obtain ⟨e, s, T, -, sT, vT, -, hR⟩ := gPlaquette keys vts v eigh hp hv c
  rw [hR _ (by decide) (by decide)]
  refine pure2 eigh hp rfl (hv _) (hv _) fun s0 s1 t0 t1 k0 k1 l0 l1 => ?_
  show (∑ x ∈ Finset.range p, ∑ y ∈ Finset.range p, T.val [x, s0, s1, y, x, t0, t1, y]) = _
  rw [Finset.sum_congr rfl fun x hx => Finset.sum_congr rfl fun y hy => vT x s0 s1 y x t0 t1 y (Finset.mem_range.1 hx) k0 k1 (Finset.mem_range.1 hy) (Finset.mem_range.1 hx) l0 l1 (Finset.mem_range.1 hy)]
  simp only [← Finset.mul_sum, ← Finset.sum_mul]
  rw [show ∑ a ∈ Finset.range p, v (vts (dn (rt c))) a * star (v (vts (dn (rt c))) a) = 1 from hv _, show ∑ a ∈ Finset.range p, v (vts c) a * star (v (vts c) a) = 1 from hv _]
  ring

/-- The site and its upper right neighbour. -/
theorem gAnti (ht : Tiling (gState p keys vts v)) (c : Coord) : ∃ R, rdm1n1 eigh false (gState p keys vts v) pEnv c = .ok R ∧
    dens 2 p R = prod ![ketbra p (v (vts c)), ketbra p (v (vts (c.1 + 1, c.2 - 1)))] := by
  obtain ⟨e, s, T, -, sT, vT, hT, -⟩ := gPlaquette keys vts v eigh hp hv (c.1, c.2 - 1)
  obtain ⟨-, rho, Y, hr, e1, sY, vY⟩ := C67_antidiagonal eigh false ht (gFitsState keys vts v hp) (gFitsEnv keys vts v) c
  rw [e1]
  refine pure2 eigh hp sY (hv _) (hv _) fun s0 s1 t0 t1 k0 k1 l0 l1 => ?_
  rw [vY s0 s1 t0 t1 k0 k1 l0 l1]
  show (∑ x ∈ Finset.range p, ∑ y ∈ Finset.range p, rho.val [x, s1, s0, y, x, t1, t0, y]) = _
  have hd : dn (c.1, c.2 - 1) = c := by simp [dn]
  have hq : rt (c.1, c.2 - 1) = (c.1 + 1, c.2 - 1) := rfl
  rw [hd, hq] at vT
  have hx : ∀ x ∈ Finset.range p, ∀ y ∈ Finset.range p, rho.val [x, s1, s0, y, x, t1, t0, y] = v (vts (c.1, c.2 - 1)) x * star (v (vts (c.1, c.2 - 1)) x) *
      (v (vts (c.1 + 1, c.2 - 1)) s1 * star (v (vts (c.1 + 1, c.2 - 1)) t1)) * (v (vts c) s0 * star (v (vts c) t0)) *
        (v (vts (dn (c.1 + 1, c.2 - 1))) y * star (v (vts (dn (c.1 + 1, c.2 - 1))) y)) := by
    intro x hx y hy
    rw [← vT x s1 s0 y x t1 t0 y (Finset.mem_range.1 hx) k1 k0 (Finset.mem_range.1 hy) (Finset.mem_range.1 hx) l1 l0 (Finset.mem_range.1 hy)]
    refine plaq_unique hr hT (fun l => if l = 100 ∨ l = 101 then x else if l = 102 then s1 else if l = 103 then t1 else if l = 104 then s0 else if l = 105 then t0 else y) ?_
    intro l hl
    have hX := Finset.mem_range.1 hx
    have hY := Finset.mem_range.1 hy
    fin_cases hl <;> assumption
  rw [Finset.sum_congr rfl fun x h1 => Finset.sum_congr rfl fun y h2 => hx x h1 y h2]
  simp only [← Finset.mul_sum, ← Finset.sum_mul]
  rw [show ∑ a ∈ Finset.range p, v (vts (dn (c.1 + 1, c.2 - 1))) a * star (v (vts (dn (c.1 + 1, c.2 - 1))) a) = 1 from hv _,
    show ∑ a ∈ Finset.range p, v (vts (c.1, c.2 - 1)) a * star (v (vts (c.1, c.2 - 1)) a) = 1 from hv _]
  ring

/-- One site. -/
theorem gOne (ht : Tiling (gState p keys vts v)) (c : Coord) : ∃ R, rdm1x1 eigh true false (gState p keys vts v) pEnv c none = .ok R ∧
    ∀ s t : Nat, s < p → t < p → R.val [s, t] = v (vts c) s * star (v (vts c) t) := by
  obtain ⟨e, a, rho, r, h0, hn, e1, -⟩ := C31_expectation eigh true false ht (gFitsState keys vts v hp) (gFitsEnv keys vts v) c (.inl rfl) ⟨[p, p], fun _ => 0⟩ rfl
  rw [e1]
  have hr : ∀ s t : Nat, s < p → t < p → rho.val [s, t] = v (vts c) s * star (v (vts c) t) := by
    intro s t hs ht
    have := hn.2 (fun l => if l = 4 then s else if l = 7 then t else 0) (by
      intro g hg l hl
      fin_cases hg <;> fin_cases hl <;> assumption)
    rw [sumOver_base _ (by intro l hl; fin_cases hl <;> rfl) _ _ (by intro l hl; fin_cases hl <;> rfl)] at this
    obtain ⟨c1, c2, c3, c4, u1, u2, u3, u4, a1⟩ := h0
    have ea : a = gSite p (v (vts c)) := (Option.some.inj a1).symm
    simp only [Rdm.Spec.rho1, envC v hp hv _ _ c1, envC v hp hv _ _ c2, envC v hp hv _ _ c3, envC v hp hv _ _ c4, envT v hp hv _ _ u1, envT v hp hv _ _ u2,
      envT v hp hv _ _ u3, envT v hp hv _ _ u4, ea, gSite] at this
    simpa [ravel] using this
  have hsh : rho.shape = [p, p] := by rw [hn.1]; simp [Rdm.Spec.dims1, gDims]
  obtain ⟨R, e, sh, w⟩ := pure_sym eigh (s := [p]) hsh (by simpa using hp) (by
    rw [trace_op]
    simp only [sumIdx]
    rw [← hv (vts c)]
    exact Finset.sum_congr rfl fun s hs => hr s s (Finset.mem_range.1 hs) (Finset.mem_range.1 hs)) (by
    rintro k b (_ | ⟨k0, ⟨⟩⟩) (_ | ⟨b0, ⟨⟩⟩)
    simp only [List.cons_append, List.nil_append]
    rw [hr _ _ b0 k0, hr _ _ k0 b0]
    simp only [star_mul', star_star]
    ring)
  exact ⟨R, e, fun s t hs ht => (w [s] [t] (.cons hs .nil) (.cons ht .nil)).trans (hr s t hs ht)⟩

/-- All but the upper left. -/
theorem gLower (c : Coord) : ∃ R, rdm2x2 eigh false (gState p keys vts v) pEnv c [1, 2, 3] = .ok R ∧
    dens 3 p R = prod ![ketbra p (v (vts (rt c))), ketbra p (v (vts (dn c))), ketbra p (v (vts (dn (rt c))))] := by
  obtain ⟨e, s, T, -, sT, vT, -, hR⟩ := gPlaquette keys vts v eigh hp hv c
  rw [hR _ (by decide) (by decide)]
  refine pure3 eigh hp rfl (hv _) (hv _) (hv _) fun s0 s1 s2 t0 t1 t2 k0 k1 k2 l0 l1 l2 => ?_
  show (∑ x ∈ Finset.range p, T.val [x, s0, s1, s2, x, t0, t1, t2]) = _
  rw [Finset.sum_congr rfl fun x hx => vT x s0 s1 s2 x t0 t1 t2 (Finset.mem_range.1 hx) k0 k1 k2 (Finset.mem_range.1 hx) l0 l1 l2]
  simp only [← Finset.mul_sum, ← Finset.sum_mul]
  rw [show ∑ a ∈ Finset.range p, v (vts c) a * star (v (vts c) a) = 1 from hv _]
  ring

/-- All but the lower right. -/
theorem gUpper (c : Coord) : ∃ R, rdm2x2 eigh false (gState p keys vts v) pEnv c [0, 1, 2] = .ok R ∧
    dens 3 p R = prod ![ketbra p (v (vts c)), ketbra p (v (vts (rt c))), ketbra p (v (vts (dn c)))] := by
  obtain ⟨e, s, T, -, sT, vT, -, hR⟩ := gPlaquette keys vts v eigh hp hv c
  rw [hR _ (by decide) (by decide)]
  refine pure3 eigh hp rfl (hv _) (hv _) (hv _) fun s0 s1 s2 t0 t1 t2 k0 k1 k2 l0 l1 l2 => ?_
  show (∑ x ∈ Finset.range p, T.val [s0, s1, s2, x, t0, t1, t2, x]) = _
  rw [Finset.sum_congr rfl fun x hx => vT s0 s1 s2 x t0 t1 t2 x k0 k1 k2 (Finset.mem_range.1 hx) l0 l1 l2 (Finset.mem_range.1 hx)]
  simp only [← Finset.mul_sum]
  rw [show ∑ a ∈ Finset.range p, v (vts (dn (rt c))) a * star (v (vts (dn (rt c))) a) = 1 from hv _]
  ring

end
end Verif.Trgl
