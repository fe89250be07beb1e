import Verif.Models.JqPlaqProps
import Verif.Models.JqWitness
/-
C111. The antiferromagnetic state of spins, held in tensors of four spins.
-/
namespace Verif.Models
open Tensor Ctm Ctm.Spec
open Corrf (pEnv)
open Spec (spin spins onSpins dot inside across below corner bond Op2)

section
variable {p : Nat} (keys : List Coord) (vts : Coord → Coord) (v : Coord → Nat → ℂ)

/-- The network of a plaquette of a product state. -/
theorem gRaw (hp : 0 < p) (c : Coord) :
    ∃ e s R4, Rdm.plaq (gState p keys vts v) pEnv c = some (e, s) ∧ Rdm.oe2x2 e s [0, 1, 2, 3] = some R4 ∧ R4.shape = [p, p, p, p] ++ [p, p, p, p] ∧
      ∀ i j k l a b c' d, i < p → j < p → k < p → l < p → a < p → b < p → c' < p → d < p →
        R4.val [i, j, k, l, a, b, c', d] = (Energy.prodRdm (fun x => v (vts (Energy.vertex c x)))).val [i, j, k, l, a, b, c', d] := by
  obtain ⟨e, s, h1, h0, h2⟩ := Rdm.plaq_ok (gFitsState keys vts v hp) (gFitsEnv keys vts v) c
  obtain ⟨R4, e4, q4⟩ := Rdm.oe2x2_denotes _ e s h2 [0, 1, 2, 3] (by decide)
  have h4 : R4.shape = [p, p, p, p] ++ [p, p, p, p] := by
    rw [q4.shape, singles_gdim]
    simp [Rdm.outLabels, Rdm.siteSet, List.range_succ, Rdm.Spec.dimsP, Rdm.Spec.physP, gDims]
  have hC : ∀ k T, (pEnv (K := ℂ)).C k = some T → T.val = fun _ => 1 := by
    intro k T h; simp only [pEnv] at h; injection h with h; rw [← h]
  have hT : ∀ k T, (pEnv (K := ℂ)).T k = some T → T.val = fun _ => 1 := by
    intro k T h; simp only [pEnv] at h; injection h with h; rw [← h]
  have hS : ∀ k T, (gState p keys vts v).sites k = some T → T.val = fun idx => v k (idx.getD 0 0) := by
    intro k T h; simp only [gState] at h; injection h with h; rw [← h]; rfl
  refine ⟨e, s, R4, h1, e4, h4, ?_⟩
  intro i j k l a b c' d hi hj hk hl ha hb hc hd
  have := q4.val (fun x => [i, a, j, b, k, c', l, d].getD (x - 100) 0) (by
    rw [singles_flatten]
    intro x hx
    fin_cases hx <;> assumption)
  rw [singles_gidx] at this
  refine this.trans ?_
  rw [Energy.sumOver_trivial _ _ [100, 101, 102, 103, 104, 105, 106, 107]]
  · simp [Rdm.Spec.rhoP, hC _ _ h0.C1, hC _ _ h0.C2, hC _ _ h0.C3, hC _ _ h0.C4, hT _ _ h0.T1, hT _ _ h0.T4, hT _ _ h0.T1x, hT _ _ h0.T2x, hT _ _ h0.T2xy,
      hT _ _ h0.T3xy, hT _ _ h0.T3y, hT _ _ h0.T4y, hS _ _ h0.a, hS _ _ h0.ax, hS _ _ h0.ay, hS _ _ h0.axy, Rdm.Spec.bra, Energy.prodRdm, Energy.vertex, gState]
  · intro x hx
    fin_cases hx <;> rfl
  · intro σ τ h
    simp only [List.forall_mem_cons] at h
    simp [Rdm.Spec.rhoP, hC _ _ h0.C1, hC _ _ h0.C2, hC _ _ h0.C3, hC _ _ h0.C4, hT _ _ h0.T1, hT _ _ h0.T4, hT _ _ h0.T1x, hT _ _ h0.T2x, hT _ _ h0.T2xy,
      hT _ _ h0.T3xy, hT _ _ h0.T3y, hT _ _ h0.T4y, hS _ _ h0.a, hS _ _ h0.ax, hS _ _ h0.ay, hS _ _ h0.axy, Rdm.Spec.bra, h]
  · decide

theorem inB_four {n : Nat} {l : List Nat} (h : InB [n, n, n, n] l) : ∃ a b c d, a < n ∧ b < n ∧ c < n ∧ d < n ∧ l = [a, b, c, d] := by
  match l, h with
  | [a, b, c, d], .cons h1 (.cons h2 (.cons h3 (.cons h4 .nil))) => exact ⟨a, b, c, d, h1, h2, h3, h4, rfl⟩

end

theorem sum_ket {p m : Nat} (hm : m < p) (f : Nat → ℂ) : ∑ i ∈ Finset.range p, ket m i * f i = f m := by simp [ket, hm]
theorem sum_ket' {p m : Nat} (hm : m < p) (f : Nat → ℂ) : ∑ i ∈ Finset.range p, star (ket m i) * f i = f m := by
  rw [← sum_ket hm f]
  refine Finset.sum_congr rfl fun i _ => ?_
  unfold ket
  split_ifs <;> simp

/-- The density matrix of four tensors of a product of basis vectors. -/
theorem gKet (eigh : Tensor ℂ → List ℝ × Tensor ℂ) {p : Nat} (keys : List Coord) (vts : Coord → Coord) (x : Coord → Fin p) (c : Coord) :
    ∃ R, Rdm.rdm2x2 eigh false (gState p keys vts fun c => ket (x c)) pEnv c [0, 1, 2, 3] = .ok R ∧ ∀ O : List Nat → List Nat → ℂ,
      sumIdx [p, p, p, p] (fun s => sumIdx [p, p, p, p] fun t => R.val (s ++ t) * O t s) =
        O [x (vts (Energy.vertex c 0)), x (vts (Energy.vertex c 1)), x (vts (Energy.vertex c 2)), x (vts (Energy.vertex c 3))]
          [x (vts (Energy.vertex c 0)), x (vts (Energy.vertex c 1)), x (vts (Energy.vertex c 2)), x (vts (Energy.vertex c 3))] := by
  have hp : 0 < p := lt_of_le_of_lt (Nat.zero_le _) (x c).isLt
  obtain ⟨e, s, R4, h1, e4, h4, hval⟩ := gRaw keys vts (fun c => ket (x c)) hp c
  rw [Rdm.rdm2x2_eq eigh false h1 (by decide) e4]
  have hval' : ∀ k b, InB [p, p, p, p] k → InB [p, p, p, p] b → R4.val (k ++ b) = (Energy.prodRdm (fun n => ket (x (vts (Energy.vertex c n))))).val (k ++ b) := by
    intro k b hk hb
    obtain ⟨a1, a2, a3, a4, g1, g2, g3, g4, rfl⟩ := inB_four hk
    obtain ⟨b1, b2, b3, b4, f1, f2, f3, f4, rfl⟩ := inB_four hb
    exact hval a1 a2 a3 a4 b1 b2 b3 b4 g1 g2 g3 g4 f1 f2 f3 f4
  have hq : 0 < ([p, p, p, p] : List Nat).prod := by simp [hp]
  have hherm : (Rdm.Spec.op [p, p, p, p] R4).IsHermitian := by
    ext i j
    obtain ⟨a1, a2, a3, a4, g1, g2, g3, g4, g5⟩ := inB_four (inB_unravel [p, p, p, p] i i.2).1
    obtain ⟨b1, b2, b3, b4, f1, f2, f3, f4, f5⟩ := inB_four (inB_unravel [p, p, p, p] j j.2).1
    simp only [Matrix.conjTranspose_apply, Rdm.Spec.op, g5, f5, List.cons_append, List.nil_append]
    rw [hval a1 a2 a3 a4 b1 b2 b3 b4 g1 g2 g3 g4 f1 f2 f3 f4, hval b1 b2 b3 b4 a1 a2 a3 a4 f1 f2 f3 f4 g1 g2 g3 g4]
    simp only [Energy.prodRdm, List.getD_cons_zero, List.getD_cons_succ, star_mul', star_star]
    ring
  have hexp : ∀ (R : Tensor ℂ) (O : List Nat → List Nat → ℂ), (∀ k b, InB [p, p, p, p] k → InB [p, p, p, p] b → R.val (k ++ b) = (Energy.prodRdm (fun n => ket (x (vts (Energy.vertex c n))))).val (k ++ b)) →
      sumIdx [p, p, p, p] (fun s => sumIdx [p, p, p, p] fun t => R.val (s ++ t) * O t s) =
        O [x (vts (Energy.vertex c 0)), x (vts (Energy.vertex c 1)), x (vts (Energy.vertex c 2)), x (vts (Energy.vertex c 3))]
          [x (vts (Energy.vertex c 0)), x (vts (Energy.vertex c 1)), x (vts (Energy.vertex c 2)), x (vts (Energy.vertex c 3))] := by
    intro R O hR
    obtain ⟨n, hn⟩ : ∃ n : Nat → Fin p, ∀ y, n y = x (vts (Energy.vertex c y)) := ⟨_, fun _ => rfl⟩
    simp only [← hn] at hR ⊢
    have e : sumIdx [p, p, p, p] (fun s => sumIdx [p, p, p, p] fun t => R.val (s ++ t) * O t s) = ∑ i ∈ Finset.range p, ket (n 0) i * ∑ j ∈ Finset.range p, ket (n 1) j * ∑ k ∈ Finset.range p, ket (n 2) k *
        ∑ l ∈ Finset.range p, ket (n 3) l * ∑ a ∈ Finset.range p, star (ket (n 0) a) * ∑ b ∈ Finset.range p, star (ket (n 1) b) * ∑ c ∈ Finset.range p, star (ket (n 2) c) *
        ∑ d ∈ Finset.range p, star (ket (n 3) d) * O [a, b, c, d] [i, j, k, l] := by
      simp only [sumIdx, Finset.mul_sum]
      refine Finset.sum_congr rfl fun i hi => Finset.sum_congr rfl fun j hj => Finset.sum_congr rfl fun k hk => Finset.sum_congr rfl fun l hl =>
        Finset.sum_congr rfl fun a ha => Finset.sum_congr rfl fun b hb => Finset.sum_congr rfl fun c hc => Finset.sum_congr rfl fun d hd => ?_
      rw [hR _ _ (C4v.inB4 (Finset.mem_range.1 hi) (Finset.mem_range.1 hj) (Finset.mem_range.1 hk) (Finset.mem_range.1 hl)) (C4v.inB4 (Finset.mem_range.1 ha) (Finset.mem_range.1 hb) (Finset.mem_range.1 hc) (Finset.mem_range.1 hd))]
      simp only [Energy.prodRdm, List.cons_append, List.nil_append, List.getD_cons_zero, List.getD_cons_succ]
      ring
    rw [e, sum_ket (n 0).isLt, sum_ket (n 1).isLt, sum_ket (n 2).isLt, sum_ket (n 3).isLt, sum_ket' (n 0).isLt, sum_ket' (n 1).isLt, sum_ket' (n 2).isLt, sum_ket' (n 3).isLt]
  have htr : Matrix.trace (Rdm.Spec.op [p, p, p, p] R4) = 1 := by
    rw [Rdm.trace_op]
    obtain ⟨n, hn⟩ : ∃ n : Nat → Fin p, ∀ y, n y = x (vts (Energy.vertex c y)) := ⟨_, fun _ => rfl⟩
    have e : sumIdx [p, p, p, p] (fun s => R4.val (s ++ s)) = ∑ i ∈ Finset.range p, ket (n 0) i * (star (ket (n 0) i) * ∑ j ∈ Finset.range p, ket (n 1) j * (star (ket (n 1) j) * ∑ k ∈ Finset.range p, ket (n 2) k *
        (star (ket (n 2) k) * ∑ l ∈ Finset.range p, ket (n 3) l * star (ket (n 3) l)))) := by
      simp only [sumIdx, Finset.mul_sum]
      refine Finset.sum_congr rfl fun i hi => Finset.sum_congr rfl fun j hj => Finset.sum_congr rfl fun k hk => Finset.sum_congr rfl fun l hl => ?_
      have hb := C4v.inB4 (Finset.mem_range.1 hi) (Finset.mem_range.1 hj) (Finset.mem_range.1 hk) (Finset.mem_range.1 hl)
      rw [hval' _ _ hb hb]
      simp only [Energy.prodRdm, List.cons_append, List.nil_append, List.getD_cons_zero, List.getD_cons_succ, ← hn]
      ring
    rw [e, sum_ket (n 0).isLt, sum_ket (n 1).isLt, sum_ket (n 2).isLt, sum_ket (n 3).isLt]
    simp [ket]
  obtain ⟨R, eR, sR⟩ := Rdm.C30_unchanged (eigh := eigh) false hq h4 hherm htr (by simp)
  refine ⟨R, eR, fun O => hexp R O fun k b hk hb => ?_⟩
  rw [← hval' k b hk hb]
  obtain ⟨a1, a2, a3, a4, g1, g2, g3, g4, rfl⟩ := inB_four hk
  obtain ⟨b1, b2, b3, b4, f1, f2, f3, f4, rfl⟩ := inB_four hb
  exact sR.2 _ (by rw [sR.1, h4]; exact .cons g1 (.cons g2 (.cons g3 (.cons g4 (.cons f1 (.cons f2 (.cons f3 (.cons f4 .nil))))))))

/-- The expectation value on one site of a product of basis vectors. -/
theorem ketSite {p : Nat} (vts : Coord → Coord) (x : Coord → Fin p) (c : Coord) (o : Corrf.Spec.Op ℂ) :
    Energy.Spec.onsite (gTensors p vts (fun c => ket (x c))) (gDims p) c o = (o (x (vts c)) (x (vts c))).re := by
  rw [Energy.Spec.onsite, gNorm _ _ (fun c => ket_norm (x c).isLt), gNetwork]
  simp only [gAlong, mul_one, Complex.one_re, div_one, gExpect]
  congr 1
  have e : ∑ s' ∈ Finset.range p, ∑ s ∈ Finset.range p, star (ket (x (vts c)) s') * o s' s * ket (x (vts c)) s = ∑ s' ∈ Finset.range p, star (ket (x (vts c)) s') * ∑ s ∈ Finset.range p, ket (x (vts c)) s * o s' s := by
    simp only [Finset.mul_sum]
    refine Finset.sum_congr rfl fun i _ => Finset.sum_congr rfl fun j _ => ?_
    ring
  rw [e, sum_ket' (x (vts c)).isLt, sum_ket (x (vts c)).isLt]

/-- The tensor whose spins are `0 1 / 1 0`. -/
noncomputable def neelTensor : Tensor ℂ := gSite 16 (ket 6)

theorem neelTensor_fits : C4v.Spec.Fits 1 1 16 neelTensor C4v.oneEnv := ⟨rfl, rfl, rfl, rfl⟩
theorem neelTensor_rotated : C4v.Spec.Rotated 1 16 neelTensor := ⟨1, by simp, fun i u l d r _ _ _ _ _ => by simp [neelTensor, gSite]⟩

theorem neelTensor_value (eigh : Tensor ℂ → List ℝ × Tensor ℂ) (j q qi : ℝ) : jqPlaq eigh j q qi neelTensor C4v.oneEnv = .ok ((-j / 2 - q / 8 - qi / 4 : ℝ) : ℂ) := by
  have ht : C4v.tensors neelTensor C4v.oneEnv = gTensors 16 id fun _ => ket 6 := rfl
  have hd : C4v.Spec.dims 1 1 16 = gDims 16 := rfl
  have hn : ∀ n, (Corrf.Spec.norm (C4v.tensors neelTensor C4v.oneEnv) (C4v.Spec.dims 1 1 16) .right (0, 0) n).re ≠ 0 := fun n => by
    rw [ht, hd, gNorm _ _ (fun c => ket_norm (by decide))]
    simp
  rw [C111_value eigh j q qi (by decide) (by decide) neelTensor_fits neelTensor_rotated C4v.oneEnv_c (hn 1) (hn 2), ht, hd]
  have h1 := ketSite id (fun _ => (6 : Fin 16)) (0, 0) (inside j q)
  have h2 := ketBond id (fun _ => (6 : Fin 16)) .right (0, 0) (across j qi)
  have h3 := ketBond id (fun _ => (6 : Fin 16)) .down (0, 0) (below j qi)
  rw [show (fun _ : Coord => ket 6) = fun _ => ket ((6 : Fin 16) : Nat) from rfl, h1, h2, h3]
  have g1 : inside j q 6 6 = ((-j - q / 2 : ℝ) : ℂ) := by
    simp [inside, onSpins, List.range_succ, spins, spin, dot, Spec.ring, Spec.onTwo, Spec.dimerPart, Energy.Spec.heis, Energy.Spec.sz, Energy.Spec.sx, Energy.Spec.sy]
    ring
  have g2 : across j qi (6, 6) (6, 6) = ((-j / 2 - qi / 2 : ℝ) : ℂ) := by
    simp [across, onSpins, List.range_succ, spins, spin, dot, Spec.ring, Spec.onTwo, Spec.dimerPart, Energy.Spec.heis, Energy.Spec.sz, Energy.Spec.sx, Energy.Spec.sy]
    ring
  have g3 : below j qi (6, 6) (6, 6) = ((-j / 2 - qi / 2 : ℝ) : ℂ) := by
    simp [below, onSpins, List.range_succ, spins, spin, dot, Spec.ring, Spec.onTwo, Spec.dimerPart, Energy.Spec.heis, Energy.Spec.sz, Energy.Spec.sx, Energy.Spec.sy]
    ring
  have g1' : inside j q ((6 : Fin 16) : Nat) ((6 : Fin 16) : Nat) = _ := g1
  rw [g1', g2, g3, Complex.ofReal_re, Complex.ofReal_re]
  congr 2
  ring

/-- C111: without the four-spin terms the result is the energy of the Heisenberg model. -/
example (eigh : Tensor ℂ → List ℝ × Tensor ℂ) (j : ℝ) : jqPlaq eigh j 0 0 neelTensor C4v.oneEnv = .ok ((-j / 2 : ℝ) : ℂ) := by
  rw [neelTensor_value]
  norm_num

/-- C111. The antiferromagnetic state of spins has the energy `-j/2 - q/2` per spin. `JQ_C4V_PLAQUETTE.energy_1x1` with `q_inter = q` returns `-j/2 - 3q/8`. -/
theorem C111_violated (eigh : Tensor ℂ → List ℝ × Tensor ℂ) (j q : ℝ) (hq : q ≠ 0) : ∃ (a : Tensor ℂ) (env : C4v.Env ℂ) (r : Tensor ℂ), C4v.Spec.Fits 1 1 16 a env ∧ C4v.Spec.Rotated 1 16 a ∧ C4v.Spec.CSymm 1 env ∧
    Rdm.rdm2x2 eigh false (Energy.Spec.single a) (C4v.Spec.unfold env) (0, 0) [0, 1, 2, 3] = .ok r ∧
    Spec.fourSpinEnergy (C4v.tensors a env) (C4v.Spec.dims 1 1 16) r j q = -j / 2 - q / 2 ∧ jqPlaq eigh j q q a env = .ok ((-j / 2 - 3 * q / 8 : ℝ) : ℂ) ∧
    jqPlaq eigh j q q a env ≠ .ok (Spec.fourSpinEnergy (C4v.tensors a env) (C4v.Spec.dims 1 1 16) r j q : ℂ) := by
  obtain ⟨R, e, h⟩ := gKet eigh [(0, 0)] (fun _ => (0, 0)) (fun _ => (6 : Fin 16)) (0, 0)
  have hv := neelTensor_value eigh j q q
  have hx : -j / 2 - q / 8 - q / 4 = -j / 2 - 3 * q / 8 := by ring
  rw [hx] at hv
  have hc : Spec.expect4 R corner = 1 / 2 := by
    refine (h corner).trans ?_
    simp [corner, onSpins, List.range_succ, spins, spin, Spec.ring, Spec.onTwo, Spec.dimerPart, Energy.Spec.heis, Energy.Spec.sz, Energy.Spec.sx, Energy.Spec.sy]
    ring
  have hE : Spec.fourSpinEnergy (C4v.tensors neelTensor C4v.oneEnv) (C4v.Spec.dims 1 1 16) R j q = -j / 2 - q / 2 := by
    have ht : C4v.tensors neelTensor C4v.oneEnv = gTensors 16 id fun _ => ket 6 := rfl
    have hd : C4v.Spec.dims 1 1 16 = gDims 16 := rfl
    have hn : ∀ n, (Corrf.Spec.norm (C4v.tensors neelTensor C4v.oneEnv) (C4v.Spec.dims 1 1 16) .right (0, 0) n).re ≠ 0 := fun n => by
      rw [ht, hd, gNorm _ _ (fun c => ket_norm (by decide))]
      simp
    have k := (C111_value eigh j q q (by decide) (by decide) neelTensor_fits neelTensor_rotated C4v.oneEnv_c (hn 1) (hn 2)).symm.trans hv
    have k' := Complex.ofReal_injective (Except.ok.inj k)
    rw [Spec.fourSpinEnergy, hc]
    norm_num
    linarith
  refine ⟨neelTensor, C4v.oneEnv, R, neelTensor_fits, neelTensor_rotated, C4v.oneEnv_c, e, hE, hv, ?_⟩
  rw [hv, hE]
  intro hh
  have := Complex.ofReal_injective (Except.ok.inj hh)
  apply hq
  linarith

end Verif.Models
