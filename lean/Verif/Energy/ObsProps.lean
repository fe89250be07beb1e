import Verif.Energy.ObsModel
import Verif.Energy.CorrC4v
import Verif.Energy.C4vLowmem
import Verif.Rdm.PairStrip
/-
C103: the observables of the J1-J2 model.
-/
namespace Verif.Energy
open Tensor Ctm Ctm.Spec
set_option linter.unusedSimpArgs false

namespace Spec

/-- The expectation value of a Hermitian operator on site `c`: the real part of the network with the operator over the real part of the network without it. -/
noncomputable def onsite (N : Corrf.Spec.Tensors ℂ) (D : Dims) (c : Coord) (o : Corrf.Spec.Op ℂ) : ℝ :=
  (Corrf.Spec.network N D .right c [o]).re / (Corrf.Spec.norm N D .right c 1).re

/-- The strip of two sites with `S.S = Sz Sz + Sx Sx + Sy Sy`. -/
noncomputable def dotNet (N : Corrf.Spec.Tensors ℂ) (D : Dims) (d : Dir) (c : Coord) (r : Nat) : ℂ :=
  Corrf.Spec.twoPoint N D d c sz sz r + Corrf.Spec.twoPoint N D d c sx sx r + Corrf.Spec.twoPoint N D d c sy sy r

/-- The expectation value of `S.S` on `c` and its next neighbour in direction `d`. -/
noncomputable def bond (N : Corrf.Spec.Tensors ℂ) (D : Dims) (d : Dir) (c : Coord) : ℝ := (dotNet N D d c 0).re / (Corrf.Spec.norm N D d c 2).re

/-- The length of the vector of the expectation values of the spin. -/
noncomputable def moment (N : Corrf.Spec.Tensors ℂ) (D : Dims) (c : Coord) : ℝ := Real.sqrt (onsite N D c sx ^ 2 + onsite N D c sy ^ 2 + onsite N D c sz ^ 2)

/-- What the labels say: `M c` is the state in which the bonds of `c` are measured. -/
noncomputable def observable (N : Corrf.Spec.Tensors ℂ) (M : Coord → Corrf.Spec.Tensors ℂ) (D : Dims) (keys : List Coord) : Label → ℂ
  | .avgM => (((keys.map (moment N D)).sum / keys.length : ℝ) : ℂ)
  | .m c => (moment N D c : ℂ)
  | .sz c => (onsite N D c sz : ℂ)
  | .sp c => (onsite N D c sx : ℂ) + Complex.I * (onsite N D c sy : ℂ)
  | .sm c => (onsite N D c sx : ℂ) - Complex.I * (onsite N D c sy : ℂ)
  | .ss2x1 c => (bond (M c) D .right c : ℂ)
  | .ss1x2 c => (bond (M c) D .down c : ℂ)

end Spec

/-! ### Density matrices of one and two sites -/

/-- The Hermitian part of a density matrix with a Hermitian operator. -/
theorem sym_expect1 (eigh : Tensor ℂ → List ℝ × Tensor ℂ) {rho : Tensor ℂ} (hs : rho.shape = [2, 2]) (h0 : (Spec.expect1 rho Corrf.Spec.one).re ≠ 0) :
    ∃ R, Rdm.symRdm eigh false rho = .ok R ∧ R.shape = [2, 2] ∧ ∀ o, (∀ i j, star (o i j) = o j i) →
      Spec.expect1 R o = (((Spec.expect1 rho o).re / (Spec.expect1 rho Corrf.Spec.one).re : ℝ) : ℂ) := by
  have ht : Matrix.trace (Rdm.Spec.op [2] rho) = Spec.expect1 rho Corrf.Spec.one := by
    rw [Rdm.trace_op]
    simp [sumIdx, Spec.expect1, sum_range2, Corrf.Spec.one]
  obtain ⟨R, e1, e2, e3⟩ := Rdm.symRdm_entries eigh (s := [2]) (T := rho) hs (by decide) (by rw [ht]; exact h0)
  refine ⟨R, e1, e2, fun o ho => ?_⟩
  rw [ht] at e3
  obtain ⟨n, hn⟩ : ∃ n : ℝ, n = (Spec.expect1 rho Corrf.Spec.one).re := ⟨_, rfl⟩
  rw [← hn] at h0 ⊢
  have e3' : ∀ i < 2, ∀ j < 2, R.val [i, j] = 1 / (2 * (n : ℂ)) * (rho.val [i, j] + star (rho.val [j, i])) := by
    intro i hi j hj
    have := e3 [i] [j] (.cons hi .nil) (.cons hj .nil)
    rw [hn]
    simpa using this
  have hX : Spec.expect1 rho o + star (Spec.expect1 rho o) = ((2 * (Spec.expect1 rho o).re : ℝ) : ℂ) := by
    have := Complex.add_conj (Spec.expect1 rho o)
    simpa using this
  have hY : Spec.expect1 R o = 1 / (2 * (n : ℂ)) * (Spec.expect1 rho o + star (Spec.expect1 rho o)) := by
    have hst : star (Spec.expect1 rho o) = ∑ i ∈ Finset.range 2, ∑ j ∈ Finset.range 2, star (rho.val [j, i]) * o j i := by
      unfold Spec.expect1
      rw [Finset.sum_comm]
      simp only [star_sum, star_mul', ho]
    rw [hst]
    unfold Spec.expect1
    simp only [Finset.mul_sum, ← Finset.sum_add_distrib]
    refine Finset.sum_congr rfl fun i hi => Finset.sum_congr rfl fun j hj => ?_
    rw [e3' i (Finset.mem_range.1 hi) j (Finset.mem_range.1 hj)]
    ring
  rw [hY, hX]
  have : (n : ℂ) ≠ 0 := by exact_mod_cast h0
  push_cast
  field_simp

/-- The same for two sites. -/
theorem sym_expect2 (eigh : Tensor ℂ → List ℝ × Tensor ℂ) {rho : Tensor ℂ} (hs : rho.shape = [2, 2, 2, 2])
    (h0 : (Spec.expect2 rho fun a b i j => Corrf.Spec.one a i * Corrf.Spec.one b j).re ≠ 0) :
    ∃ R, Rdm.symRdm eigh false rho = .ok R ∧ R.shape = [2, 2, 2, 2] ∧ ∀ O : Nat → Nat → Nat → Nat → ℂ, (∀ a < 2, ∀ b < 2, ∀ i < 2, ∀ j < 2, star (O a b i j) = O i j a b) →
      Spec.expect2 R O = (((Spec.expect2 rho O).re / (Spec.expect2 rho fun a b i j => Corrf.Spec.one a i * Corrf.Spec.one b j).re : ℝ) : ℂ) := by
  have ht : Matrix.trace (Rdm.Spec.op [2, 2] rho) = Spec.expect2 rho fun a b i j => Corrf.Spec.one a i * Corrf.Spec.one b j := by
    rw [Rdm.trace_op]
    simp [sumIdx, Spec.expect2, sum_range2, Corrf.Spec.one]
  obtain ⟨R, e1, e2, e3⟩ := Rdm.symRdm_entries eigh (s := [2, 2]) (T := rho) hs (by decide) (by rw [ht]; exact h0)
  refine ⟨R, e1, e2, fun O ho => ?_⟩
  rw [ht] at e3
  obtain ⟨n, hn⟩ : ∃ n : ℝ, n = (Spec.expect2 rho fun a b i j => Corrf.Spec.one a i * Corrf.Spec.one b j).re := ⟨_, rfl⟩
  rw [← hn] at h0 ⊢
  have e3' : ∀ i < 2, ∀ j < 2, ∀ a < 2, ∀ b < 2, R.val [i, j, a, b] = 1 / (2 * (n : ℂ)) * (rho.val [i, j, a, b] + star (rho.val [a, b, i, j])) := by
    intro i hi j hj a ha b hb
    have := e3 [i, j] [a, b] (.cons hi (.cons hj .nil)) (.cons ha (.cons hb .nil))
    rw [hn]
    simpa using this
  have hX : Spec.expect2 rho O + star (Spec.expect2 rho O) = ((2 * (Spec.expect2 rho O).re : ℝ) : ℂ) := by
    have := Complex.add_conj (Spec.expect2 rho O)
    simpa using this
  have hY : Spec.expect2 R O = 1 / (2 * (n : ℂ)) * (Spec.expect2 rho O + star (Spec.expect2 rho O)) := by
    have hst : star (Spec.expect2 rho O) = ∑ i ∈ Finset.range 2, ∑ a ∈ Finset.range 2, ∑ j ∈ Finset.range 2, ∑ b ∈ Finset.range 2, star (rho.val [a, b, i, j]) * O a b i j := by
      unfold Spec.expect2
      rw [Finset.sum_comm]
      simp only [star_sum, star_mul']
      refine Finset.sum_congr rfl fun i hi => Finset.sum_congr rfl fun a ha => ?_
      rw [Finset.sum_comm]
      refine Finset.sum_congr rfl fun j hj => Finset.sum_congr rfl fun b hb => ?_
      rw [ho _ (Finset.mem_range.1 hi) _ (Finset.mem_range.1 hj) _ (Finset.mem_range.1 ha) _ (Finset.mem_range.1 hb)]
    rw [hst]
    unfold Spec.expect2
    simp only [Finset.mul_sum, ← Finset.sum_add_distrib]
    refine Finset.sum_congr rfl fun i hi => Finset.sum_congr rfl fun a ha => Finset.sum_congr rfl fun j hj => Finset.sum_congr rfl fun b hb => ?_
    rw [e3' i (Finset.mem_range.1 hi) j (Finset.mem_range.1 hj) a (Finset.mem_range.1 ha) b (Finset.mem_range.1 hb)]
    ring
  rw [hY, hX]
  have : (n : ℂ) ≠ 0 := by exact_mod_cast h0
  push_cast
  field_simp

section
variable {D : Dims} {st : State ℂ} {env : Env ℂ} {N : Corrf.Spec.Tensors ℂ}

/-- The density matrix of one site. -/
theorem site_rdm (eigh : Tensor ℂ → List ℝ × Tensor ℂ) (hs : FitsState D st) (he : FitsEnv D st env) (ht : Tiling st) (hp : ∀ c, D.p c = 2) (hN : Corrf.Spec.Reads st env N) (c : Coord)
    (h0 : (Corrf.Spec.norm N D .right c 1).re ≠ 0) :
    ∃ R, Rdm.rdm1x1 eigh true false st env c none = .ok R ∧ R.shape = [2, 2] ∧ ∀ o, (∀ i j, star (o i j) = o j i) → Spec.expect1 R o = (Spec.onsite N D c o : ℂ) := by
  obtain ⟨e, a, rho, r, h1, h2, h3, -⟩ := Rdm.C31_expectation eigh true false ht hs he c (.inl rfl) (opT 1) (by rw [hp]; rfl)
  have hx : ∀ o, Spec.expect1 rho o = Corrf.Spec.network N D .right c [o] := by
    intro o
    have := Rdm.single_expect hs hN h1 h2 o
    rw [hp] at this
    exact this
  have hsh : rho.shape = [2, 2] := by
    rw [h2.1]
    simp [Rdm.Spec.dims1, hp]
  have hn : Spec.expect1 rho Corrf.Spec.one = Corrf.Spec.norm N D .right c 1 := hx _
  obtain ⟨R, e1, e2, e3⟩ := sym_expect1 eigh hsh (by rw [hn]; exact h0)
  refine ⟨R, h3.trans e1, e2, fun o ho => ?_⟩
  rw [e3 o ho, hx, hn]
  rfl

theorem heis_net {rho : Tensor ℂ} {d : Dir} {c : Coord} {r : Nat} (hx : ∀ o o', Spec.expect2 rho (fun a b i j => o a i * o' b j) = Corrf.Spec.twoPoint N D d c o o' r) :
    Spec.expect2 rho (Spec.heis 1) = Spec.dotNet N D d c r := by
  rw [Spec.dotNet, ← hx, ← hx, ← hx]
  simp only [Spec.expect2, ← Finset.sum_add_distrib]
  refine Finset.sum_congr rfl fun i hi => Finset.sum_congr rfl fun a ha => Finset.sum_congr rfl fun j hj => Finset.sum_congr rfl fun b hb => ?_
  simp only [Spec.heis]
  push_cast
  ring

/-- The density matrices of two neighbours: the raw network and the symmetrised result. -/
theorem pair_rdm (eigh : Tensor ℂ → List ℝ × Tensor ℂ) (hs : FitsState D st) (he : FitsEnv D st env) (hp : ∀ c, D.p c = 2) (hN : Corrf.Spec.Reads st env N) (c : Coord) :
    ((Corrf.Spec.norm N D .right c 2).re ≠ 0 → ∃ rho R, Rdm.rdm2x1 eigh true false st env c = .ok R ∧ R.shape = [2, 2, 2, 2] ∧
      (∀ o o', Spec.expect2 rho (fun a b i j => o a i * o' b j) = Corrf.Spec.twoPoint N D .right c o o' 0) ∧
      ∀ O : Nat → Nat → Nat → Nat → ℂ, (∀ a < 2, ∀ b < 2, ∀ i < 2, ∀ j < 2, star (O a b i j) = O i j a b) →
        Spec.expect2 R O = (((Spec.expect2 rho O).re / (Corrf.Spec.norm N D .right c 2).re : ℝ) : ℂ)) ∧
    ((Corrf.Spec.norm N D .down c 2).re ≠ 0 → ∃ rho R, Rdm.rdm1x2 eigh true false st env c = .ok R ∧ R.shape = [2, 2, 2, 2] ∧
      (∀ o o', Spec.expect2 rho (fun a b i j => o a i * o' b j) = Corrf.Spec.twoPoint N D .down c o o' 0) ∧
      ∀ O : Nat → Nat → Nat → Nat → ℂ, (∀ a < 2, ∀ b < 2, ∀ i < 2, ∀ j < 2, star (O a b i j) = O i j a b) →
        Spec.expect2 R O = (((Spec.expect2 rho O).re / (Corrf.Spec.norm N D .down c 2).re : ℝ) : ℂ)) := by
  constructor
  · intro h0
    obtain ⟨-, e, a, b, rho, h1, h2, h3⟩ := Rdm.C32_row eigh false hs he c
    have hx : ∀ o o', Spec.expect2 rho (fun a b i j => o a i * o' b j) = Corrf.Spec.twoPoint N D .right c o o' 0 := by
      intro o o'
      have := Rdm.pairRow_expect hs hN h1 h2 o o'
      simp only [hp] at this
      exact this
    have hsh : rho.shape = [2, 2, 2, 2] := by
      rw [h2.1]
      simp [Rdm.Spec.dimsH, hp]
    have hn : (Spec.expect2 rho fun a b i j => Corrf.Spec.one a i * Corrf.Spec.one b j) = Corrf.Spec.norm N D .right c 2 := hx _ _
    obtain ⟨R, e1, e2, e3⟩ := sym_expect2 eigh hsh (by rw [hn]; exact h0)
    refine ⟨rho, R, h3.trans e1, e2, hx, fun O ho => ?_⟩
    rw [e3 O ho, hn]
  · intro h0
    obtain ⟨-, e, a, b, rho, h1, h2, h3⟩ := Rdm.C32_column eigh false hs he c
    have hx : ∀ o o', Spec.expect2 rho (fun a b i j => o a i * o' b j) = Corrf.Spec.twoPoint N D .down c o o' 0 := by
      intro o o'
      have := Rdm.pairCol_expect hs hN h1 h2 o o'
      simp only [hp] at this
      exact this
    have hsh : rho.shape = [2, 2, 2, 2] := by
      rw [h2.1]
      simp [Rdm.Spec.dimsV, hp]
    have hn : (Spec.expect2 rho fun a b i j => Corrf.Spec.one a i * Corrf.Spec.one b j) = Corrf.Spec.norm N D .down c 2 := hx _ _
    obtain ⟨R, e1, e2, e3⟩ := sym_expect2 eigh hsh (by rw [hn]; exact h0)
    refine ⟨rho, R, h3.trans e1, e2, hx, fun O ho => ?_⟩
    rw [e3 O ho, hn]

/-! ### The loops -/

theorem sz_herm (i j : Nat) : star (Spec.sz i j) = Spec.sz j i := sz_conj i j

theorem expect1_sz (R : Tensor ℂ) : Spec.expect1 R (fun i j => (opT (Su2.SZ 2)).val [i, j]) = Spec.expect1 R Spec.sz := by
  refine Finset.sum_congr rfl fun i hi => Finset.sum_congr rfl fun j hj => ?_
  rw [← sz_val (Finset.mem_range.1 hj) (Finset.mem_range.1 hi)]
  rfl

theorem expect1_sp (R : Tensor ℂ) : Spec.expect1 R (fun i j => (opT (Su2.SP 2)).val [i, j]) = Spec.expect1 R Spec.sx + Complex.I * Spec.expect1 R Spec.sy := by
  have : ∀ i < 2, ∀ j < 2, (opT (Su2.SP 2)).val [j, i] = Spec.sx j i + Complex.I * Spec.sy j i := by
    intro i hi j hj
    have := sp_val hj hi
    have h2 : (opT (Su2.SP 2)).val [j, i] = Spec.sp j i := by rw [← this]; rfl
    rw [h2]
    rcases lt2 hi with rfl | rfl <;> rcases lt2 hj with rfl | rfl <;> simp [Spec.sp, Spec.sx, Spec.sy] <;> ring_nf <;> simp <;> ring
  simp only [Spec.expect1, Finset.mul_sum, ← Finset.sum_add_distrib]
  refine Finset.sum_congr rfl fun i hi => Finset.sum_congr rfl fun j hj => ?_
  rw [this i (Finset.mem_range.1 hi) j (Finset.mem_range.1 hj)]
  ring

theorem expect1_sm (R : Tensor ℂ) : Spec.expect1 R (fun i j => (opT (Su2.SM 2)).val [i, j]) = Spec.expect1 R Spec.sx - Complex.I * Spec.expect1 R Spec.sy := by
  have : ∀ i < 2, ∀ j < 2, (opT (Su2.SM 2)).val [j, i] = Spec.sx j i - Complex.I * Spec.sy j i := by
    intro i hi j hj
    have := sm_val hj hi
    have h2 : (opT (Su2.SM 2)).val [j, i] = Spec.sm j i := by rw [← this]; rfl
    rw [h2]
    rcases lt2 hi with rfl | rfl <;> rcases lt2 hj with rfl | rfl <;> simp [Spec.sm, Spec.sx, Spec.sy] <;> ring_nf <;> simp <;> ring
  simp only [Spec.expect1, Finset.mul_sum, ← Finset.sum_sub_distrib]
  refine Finset.sum_congr rfl fun i hi => Finset.sum_congr rfl fun j hj => ?_
  rw [this i (Finset.mem_range.1 hi) j (Finset.mem_range.1 hj)]
  ring

/-- The root of the code is the length of the vector of spin. -/
theorem magnitude_val (x y z : ℝ) : magnitude (z : ℂ) ((x : ℂ) + Complex.I * (y : ℂ)) ((x : ℂ) - Complex.I * (y : ℂ)) = ((Real.sqrt (x ^ 2 + y ^ 2 + z ^ 2) : ℝ) : ℂ) := by
  have : (z : ℂ) ^ 2 + ((x : ℂ) + Complex.I * y) * ((x : ℂ) - Complex.I * y) = ((x ^ 2 + y ^ 2 + z ^ 2 : ℝ) : ℂ) := by
    push_cast
    linear_combination (-(y : ℂ) ^ 2) * Complex.I_sq
  rw [magnitude, this, Complex.norm_real, Real.norm_of_nonneg (by positivity)]

theorem siteObs_ok (eigh : Tensor ℂ → List ℝ × Tensor ℂ) (hs : FitsState D st) (he : FitsEnv D st env) (ht : Tiling st) (hp : ∀ c, D.p c = 2) (hN : Corrf.Spec.Reads st env N) (c : Coord)
    (h0 : (Corrf.Spec.norm N D .right c 1).re ≠ 0) (M : Coord → Corrf.Spec.Tensors ℂ) (keys : List Coord) (o : Obs Label) (t : ℂ) (hT : o .avgM = some t) :
    siteObs eigh st env o c = .ok ((((((o.put (.sz c) (Spec.observable N M D keys (.sz c))).put (.sp c) (Spec.observable N M D keys (.sp c))).put (.sm c) (Spec.observable N M D keys (.sm c))).put (.m c)
      (Spec.observable N M D keys (.m c))).put .avgM (t + (Spec.moment N D c : ℂ)))) := by
  obtain ⟨R, e1, e2, e3⟩ := site_rdm eigh hs he ht hp hN c h0
  have hz : traceMul R (opT (Su2.SZ 2)) = some (Spec.observable N M D keys (.sz c)) := by
    rw [traceMul_val e2 rfl, expect1_sz, e3 _ sz_conj]
    rfl
  have hpp : traceMul R (opT (Su2.SP 2)) = some (Spec.observable N M D keys (.sp c)) := by
    rw [traceMul_val e2 rfl, expect1_sp, e3 _ sx_conj, e3 _ sy_conj]
    rfl
  have hm : traceMul R (opT (Su2.SM 2)) = some (Spec.observable N M D keys (.sm c)) := by
    rw [traceMul_val e2 rfl, expect1_sm, e3 _ sx_conj, e3 _ sy_conj]
    rfl
  have hmag : magnitude (Spec.observable N M D keys (.sz c)) (Spec.observable N M D keys (.sp c)) (Spec.observable N M D keys (.sm c)) = Spec.observable N M D keys (.m c) := magnitude_val _ _ _
  rw [siteObs, e1, bindOk, hz, C4v.lift_some, hpp, C4v.lift_some, hm, C4v.lift_some]
  simp only [hmag]
  have hA : (((((o.put (.sz c) (Spec.observable N M D keys (.sz c))).put (.sp c) (Spec.observable N M D keys (.sp c))).put (.sm c) (Spec.observable N M D keys (.sm c))).put (.m c)
      (Spec.observable N M D keys (.m c))) .avgM) = some t := by
    simp [Obs.put, hT]
  rw [hA, C4v.lift_some]
  rfl

/-- After the first loop. -/
theorem siteLoop (eigh : Tensor ℂ → List ℝ × Tensor ℂ) (hs : FitsState D st) (he : FitsEnv D st env) (ht : Tiling st) (hp : ∀ c, D.p c = 2) (hN : Corrf.Spec.Reads st env N)
    (M : Coord → Corrf.Spec.Tensors ℂ) (keys : List Coord) (l : List Coord) (h0 : ∀ c ∈ l, (Corrf.Spec.norm N D .right c 1).re ≠ 0) : ∀ (o : Obs Label) (t : ℂ), o .avgM = some t →
    ∃ o', l.foldlM (siteObs eigh st env) o = .ok o' ∧ o' .avgM = some (t + ((l.map (Spec.moment N D)).sum : ℝ)) ∧
      ∀ c, (c ∈ l → ∀ x ∈ [Label.m c, .sz c, .sp c, .sm c], o' x = some (Spec.observable N M D keys x)) ∧ (c ∉ l → ∀ x ∈ [Label.m c, .sz c, .sp c, .sm c], o' x = o x) := by
  induction l with
  | nil => exact fun o t hT => ⟨o, rfl, by simp [hT], fun c => ⟨by simp, fun _ _ _ => rfl⟩⟩
  | cons c l ih =>
    intro o t hT
    obtain ⟨o', e, hA, hv⟩ := ih (fun c hc => h0 c (.tail _ hc)) _ (t + (Spec.moment N D c : ℂ))
      (show ((((((o.put (.sz c) (Spec.observable N M D keys (.sz c))).put (.sp c) (Spec.observable N M D keys (.sp c))).put (.sm c) (Spec.observable N M D keys (.sm c))).put (.m c)
      (Spec.observable N M D keys (.m c))).put .avgM (t + (Spec.moment N D c : ℂ))) .avgM) = _ by simp [Obs.put])
    refine ⟨o', ?_, ?_, fun d => ?_⟩
    · rw [List.foldlM_cons, siteObs_ok eigh hs he ht hp hN c (h0 c (.head _)) M keys o t hT, bindOk]
      exact e
    · rw [hA, List.map_cons, List.sum_cons]
      push_cast
      rw [add_assoc]
    · refine ⟨fun hd x hx => ?_, fun hd x hx => ?_⟩
      · by_cases h : d ∈ l
        · exact (hv d).1 h x hx
        · obtain rfl : d = c := by
            rcases List.mem_cons.1 hd with h' | h'
            · exact h'
            · exact absurd h' h
          rw [(hv d).2 h x hx]
          simp only [List.mem_cons, List.not_mem_nil, or_false] at hx
          rcases hx with rfl | rfl | rfl | rfl <;> simp [Obs.put]
      · rw [List.mem_cons, not_or] at hd
        rw [(hv d).2 hd.2 x hx]
        simp only [List.mem_cons, List.not_mem_nil, or_false] at hx
        rcases hx with rfl | rfl | rfl | rfl <;> simp [Obs.put, hd.1]

/-- `ss` measures `S.S` in the state `M c`. -/
def Measures (ss : Tensor ℂ) (D : Dims) (N : Corrf.Spec.Tensors ℂ) (M : Coord → Corrf.Spec.Tensors ℂ) : Prop :=
  ss.shape = [2, 2, 2, 2] ∧ ∀ (d : Dir) (c : Coord), (∀ n, Corrf.Spec.norm (M c) D d c n = Corrf.Spec.norm N D d c n) ∧ ∃ O : Nat → Nat → Nat → Nat → ℂ,
    (∀ a < 2, ∀ b < 2, ∀ i < 2, ∀ j < 2, star (O a b i j) = O i j a b) ∧ (∀ i j a b, i < 2 → j < 2 → a < 2 → b < 2 → ss.val [i, j, a, b] = O a b i j) ∧
    ∀ rho, (∀ o o', Spec.expect2 rho (fun a b i j => o a i * o' b j) = Corrf.Spec.twoPoint N D d c o o' 0) → Spec.expect2 rho O = Spec.dotNet (M c) D d c 0

theorem bondObs_ok (eigh : Tensor ℂ → List ℝ × Tensor ℂ) (hs : FitsState D st) (he : FitsEnv D st env) (hp : ∀ c, D.p c = 2) (hN : Corrf.Spec.Reads st env N) (c : Coord)
    (h0 : (Corrf.Spec.norm N D .right c 2).re ≠ 0) (h1 : (Corrf.Spec.norm N D .down c 2).re ≠ 0) {M : Coord → Corrf.Spec.Tensors ℂ} {ss : Tensor ℂ} (hM : Measures ss D N M) (keys : List Coord) (o : Obs Label) :
    bondObs eigh ss st env o c = .ok ((o.put (.ss2x1 c) (Spec.observable N M D keys (.ss2x1 c))).put (.ss1x2 c) (Spec.observable N M D keys (.ss1x2 c))) := by
  obtain ⟨q1, q2⟩ := pair_rdm eigh hs he hp hN c
  obtain ⟨rho, R, e1, e2, e3, e4⟩ := q1 h0
  obtain ⟨rho', R', e1', e2', e3', e4'⟩ := q2 h1
  obtain ⟨hsh, hd⟩ := hM
  obtain ⟨n1, O, o1, o2, o3⟩ := hd .right c
  obtain ⟨n1', O', o1', o2', o3'⟩ := hd .down c
  rw [bondObs, e1, bindOk, e1', bindOk, full4_val e2 hsh o2, C4v.lift_some, full4_val e2' hsh o2', C4v.lift_some, e4 O o1, e4' O' o1', o3 rho e3, o3' rho' e3', ← n1, ← n1']
  rfl

theorem bondLoop (eigh : Tensor ℂ → List ℝ × Tensor ℂ) (hs : FitsState D st) (he : FitsEnv D st env) (hp : ∀ c, D.p c = 2) (hN : Corrf.Spec.Reads st env N)
    {M : Coord → Corrf.Spec.Tensors ℂ} {ss : Tensor ℂ} (hM : Measures ss D N M) (keys : List Coord) (l : List Coord) (h0 : ∀ c ∈ l, (Corrf.Spec.norm N D .right c 2).re ≠ 0)
    (h1 : ∀ c ∈ l, (Corrf.Spec.norm N D .down c 2).re ≠ 0) : ∀ (o : Obs Label),
    ∃ o', l.foldlM (bondObs eigh ss st env) o = .ok o' ∧ o' .avgM = o .avgM ∧
      ∀ c, (∀ x ∈ [Label.m c, .sz c, .sp c, .sm c], o' x = o x) ∧ (c ∈ l → ∀ x ∈ [Label.ss2x1 c, .ss1x2 c], o' x = some (Spec.observable N M D keys x)) ∧ (c ∉ l → ∀ x ∈ [Label.ss2x1 c, .ss1x2 c], o' x = o x) := by
  induction l with
  | nil => exact fun o => ⟨o, rfl, rfl, fun c => ⟨fun _ _ => rfl, by simp, fun _ _ _ => rfl⟩⟩
  | cons c l ih =>
    intro o
    obtain ⟨o', e, hA, hv⟩ := ih (fun c hc => h0 c (.tail _ hc)) (fun c hc => h1 c (.tail _ hc)) ((o.put (.ss2x1 c) (Spec.observable N M D keys (.ss2x1 c))).put (.ss1x2 c) (Spec.observable N M D keys (.ss1x2 c)))
    refine ⟨o', ?_, ?_, fun d => ⟨fun x hx => ?_, fun hd x hx => ?_, fun hd x hx => ?_⟩⟩
    · rw [List.foldlM_cons, bondObs_ok eigh hs he hp hN c (h0 c (.head _)) (h1 c (.head _)) hM keys o, bindOk]
      exact e
    · rw [hA]
      simp [Obs.put]
    · rw [(hv d).1 x hx]
      simp only [List.mem_cons, List.not_mem_nil, or_false] at hx
      rcases hx with rfl | rfl | rfl | rfl <;> simp [Obs.put]
    · by_cases h : d ∈ l
      · exact (hv d).2.1 h x hx
      · obtain rfl : d = c := by
          rcases List.mem_cons.1 hd with h' | h'
          · exact h'
          · exact absurd h' h
        rw [(hv d).2.2 h x hx]
        simp only [List.mem_cons, List.not_mem_nil, or_false] at hx
        rcases hx with rfl | rfl <;> simp [Obs.put]
    · rw [List.mem_cons, not_or] at hd
      rw [(hv d).2.2 hd.2 x hx]
      simp only [List.mem_cons, List.not_mem_nil, or_false] at hx
      rcases hx with rfl | rfl <;> simp [Obs.put, hd.1]

theorem mapM_some {α β : Type} (f : α → Option β) (g : α → β) : ∀ l : List α, (∀ x ∈ l, f x = some (g x)) → l.mapM f = some (l.map g) := by
  intro l
  induction l with
  | nil => intro _; rfl
  | cons x l ih =>
    intro h
    rw [List.mapM_cons, h x (.head _), ih fun y hy => h y (.tail _ hy)]
    rfl

theorem obsWith_ok (eigh : Tensor ℂ → List ℝ × Tensor ℂ) (hs : FitsState D st) (he : FitsEnv D st env) (ht : Tiling st) (hp : ∀ c, D.p c = 2) (hN : Corrf.Spec.Reads st env N)
    (hk : st.keys ≠ []) (h1 : ∀ c ∈ st.keys, (Corrf.Spec.norm N D .right c 1).re ≠ 0) (h2 : ∀ c ∈ st.keys, (Corrf.Spec.norm N D .right c 2).re ≠ 0)
    (h3 : ∀ c ∈ st.keys, (Corrf.Spec.norm N D .down c 2).re ≠ 0) {M : Coord → Corrf.Spec.Tensors ℂ} {ss : Tensor ℂ} (hM : Measures ss D N M) :
    obsWith eigh ss st env = .ok ((obsLabels st.keys).map (Spec.observable N M D st.keys), obsLabels st.keys) := by
  obtain ⟨o1, e1, a1, v1⟩ := siteLoop eigh hs he ht hp hN M st.keys st.keys h1 (Obs.put (fun _ => none) .avgM 0) 0 (by simp [Obs.put])
  obtain ⟨o2, e2, a2, v2⟩ := bondLoop eigh hs he hp hN hM st.keys st.keys h2 h3 (o1.put .avgM (((0 + ((st.keys.map (Spec.moment N D)).sum : ℝ)) : ℂ) / (st.keys.length : ℂ)))
  have hlen : st.keys.length ≠ 0 := by simpa using hk
  have hav : average st.keys.length o1 = .ok (o1.put .avgM (((0 + ((st.keys.map (Spec.moment N D)).sum : ℝ)) : ℂ) / (st.keys.length : ℂ))) := by
    rw [average, if_neg hlen, a1, C4v.lift_some]
    rfl
  have hval : (obsLabels st.keys).mapM o2 = some ((obsLabels st.keys).map (Spec.observable N M D st.keys)) := by
    refine mapM_some _ _ _ fun x hx => ?_
    have hA : o2 .avgM = some (Spec.observable N M D st.keys .avgM) := by
      rw [a2]
      simp [Obs.put, Spec.observable]
    have hm : ∀ c ∈ st.keys, ∀ x ∈ [Label.m c, .sz c, .sp c, .sm c], o2 x = some (Spec.observable N M D st.keys x) := by
      intro c hc x hx
      rw [(v2 c).1 x hx, ← (v1 c).1 hc x hx]
      simp only [List.mem_cons, List.not_mem_nil, or_false] at hx
      rcases hx with rfl | rfl | rfl | rfl <;> simp [Obs.put]
    simp only [obsLabels, List.mem_append, List.mem_map, List.mem_flatMap, List.mem_cons, List.not_mem_nil, or_false] at hx
    rcases hx with (((rfl | ⟨c, hc, rfl⟩) | ⟨c, hc, hx⟩) | ⟨c, hc, rfl⟩) | ⟨c, hc, rfl⟩
    · exact hA
    · exact hm c hc _ (by simp)
    · exact hm c hc _ (by simp [hx])
    · exact (v2 c).2.1 hc _ (by simp)
    · exact (v2 c).2.1 hc _ (by simp)
  rw [obsWith, e1, bindOk, hav, bindOk, e2, bindOk, hval, C4v.lift_some]
  rfl

theorem measures_ss : Measures (ssT (1, 1, 1)) D N fun _ => N :=
  ⟨rfl, fun d c => ⟨fun _ => rfl, Spec.heis 1, fun a ha b hb i hi j hj => heis_star 1 a b i j ha hb hi hj, fun i j a b hi hj ha hb => ss_val 1 hi hj ha hb, fun rho h => heis_net h⟩⟩

/-- For every cell, state and environment with finite norms `eval_obs` returns the labels in their order, and beside each label the value it names. -/
theorem C103_values (eigh : Tensor ℂ → List ℝ × Tensor ℂ) (hs : FitsState D st) (he : FitsEnv D st env) (ht : Tiling st) (hp : ∀ c, D.p c = 2) (hN : Corrf.Spec.Reads st env N)
    (hk : st.keys ≠ []) (h1 : ∀ c ∈ st.keys, (Corrf.Spec.norm N D .right c 1).re ≠ 0) (h2 : ∀ c ∈ st.keys, (Corrf.Spec.norm N D .right c 2).re ≠ 0)
    (h3 : ∀ c ∈ st.keys, (Corrf.Spec.norm N D .down c 2).re ≠ 0) :
    evalObs eigh st env = .ok ((obsLabels st.keys).map (Spec.observable N (fun _ => N) D st.keys), obsLabels st.keys) :=
  obsWith_ok eigh hs he ht hp hN hk h1 h2 h3 measures_ss

theorem rotF_heis {a b i j : Nat} (ha : a < 2) (hb : b < 2) (hi : i < 2) (hj : j < 2) :
    rotF (Spec.heis 1) a b i j = Spec.sz a i * conjO true Spec.sz b j + Spec.sx a i * conjO true Spec.sx b j + Spec.sy a i * conjO true Spec.sy b j := by
  rcases lt2 ha with rfl | rfl <;> rcases lt2 hb with rfl | rfl <;> rcases lt2 hi with rfl | rfl <;> rcases lt2 hj with rfl | rfl <;>
    simp [rotF, Spec.heis, Spec.sz, Spec.sx, Spec.sy, conjO, se, fb] <;> ring_nf

theorem rotF_star {a b i j : Nat} (ha : a < 2) (hb : b < 2) (hi : i < 2) (hj : j < 2) : star (rotF (Spec.heis 1) a b i j) = rotF (Spec.heis 1) i j a b := by
  rcases lt2 ha with rfl | rfl <;> rcases lt2 hb with rfl | rfl <;> rcases lt2 hi with rfl | rfl <;> rcases lt2 hj with rfl | rfl <;>
    simp [rotF, Spec.heis, Spec.sz, Spec.sx, Spec.sy, se, fb]

theorem measures_rot (hN : ∀ c, (N.a c).size 0 = 2) : ∃ ss, rotFirst (ssT (1, 1, 1)) = some ss ∧ Measures ss D N fun c => Spec.stagger c N := by
  obtain ⟨ss, e, s, v⟩ := rotFirst_val (h := ssT (1, 1, 1)) (O := Spec.heis 1) rfl (fun i j a b hi hj ha hb => ss_val 1 hi hj ha hb)
  refine ⟨ss, e, s, fun d c => ⟨fun n => norm_stagger hN c d c n, rotF (Spec.heis 1), fun a ha b hb i hi j hj => rotF_star ha hb hi hj, v, fun rho h => ?_⟩⟩
  rw [Spec.dotNet, twoPoint_stagger hN, twoPoint_stagger hN, twoPoint_stagger hN]
  simp only [Nat.zero_mod, beq_self_eq_true]
  rw [← h, ← h, ← h]
  simp only [Spec.expect2, ← Finset.sum_add_distrib]
  refine Finset.sum_congr rfl fun i hi => Finset.sum_congr rfl fun a ha => Finset.sum_congr rfl fun j hj => Finset.sum_congr rfl fun b hb => ?_
  rw [rotF_heis (Finset.mem_range.1 ha) (Finset.mem_range.1 hb) (Finset.mem_range.1 hi) (Finset.mem_range.1 hj)]
  ring

/-- `eval_obs_1site_BP` measures the bonds of `c` in the state whose other sublattice is rotated. -/
theorem C103_bipartite (eigh : Tensor ℂ → List ℝ × Tensor ℂ) (hs : FitsState D st) (he : FitsEnv D st env) (ht : Tiling st) (hp : ∀ c, D.p c = 2) (hN : Corrf.Spec.Reads st env N)
    (hk : st.keys ≠ []) (h1 : ∀ c ∈ st.keys, (Corrf.Spec.norm N D .right c 1).re ≠ 0) (h2 : ∀ c ∈ st.keys, (Corrf.Spec.norm N D .right c 2).re ≠ 0)
    (h3 : ∀ c ∈ st.keys, (Corrf.Spec.norm N D .down c 2).re ≠ 0) :
    evalObs1siteBP eigh st env = .ok ((obsLabels st.keys).map (Spec.observable N (fun c => Spec.stagger c N) D st.keys), obsLabels st.keys) := by
  obtain ⟨ss, e, hM⟩ := measures_rot (D := D) (size_two hs hp hN)
  rw [evalObs1siteBP, e, C4v.lift_some]
  exact obsWith_ok eigh hs he ht hp hN hk h1 h2 h3 hM

end
end Verif.Energy
