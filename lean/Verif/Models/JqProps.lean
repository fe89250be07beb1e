import Verif.Models.JqModel
import Verif.Models.PlaqProps
import Verif.Energy.C4vLowmem
/-
C110. The energies of the J-Q model.
-/
namespace Verif.Models
open Tensor Ctm Ctm.Spec
open Energy (ssT comb comb4 pairOp rotFirst ofOp comb_cons comb_nil at8 RotOf fl12 fl03 rotO se fb turnO eight)
open Energy.Spec (heis expect onBond)

namespace Spec

/-- `S.S - 1/4`. -/
noncomputable def dimerPart (a b a' b' : Nat) : ℂ := heis 1 a b a' b' - if a = a' ∧ b = b' then 1 / 4 else 0

/-- The product of `O` on the sites `m` and `n` with `O` on the sites `k` and `l` of the plaquette. -/
def onTwo (m n k l : Nat) (O : Nat → Nat → Nat → Nat → ℂ) (t s : List Nat) : ℂ :=
  O (t.getD m 0) (t.getD n 0) (s.getD m 0) (s.getD n 0) * O (t.getD k 0) (t.getD l 0) (s.getD k 0) (s.getD l 0)

/-- The ring exchange of a plaquette `i j / k l`: `(S_i.S_j - 1/4)(S_k.S_l - 1/4) + (S_i.S_k - 1/4)(S_j.S_l - 1/4)`, jq.py L35-L38. -/
noncomputable def ring (t s : List Nat) : ℂ := onTwo 0 1 2 3 dimerPart t s + onTwo 0 2 1 3 dimerPart t s

/-- The terms of `J1 sum S.S - Q sum ring` that belong to a site: the bonds to the right and down and the plaquette below and right, with the density matrix `r`. -/
noncomputable def jqSite (j q : ℝ) (r : Tensor ℂ) : ℂ := j * (expect r (onBond 0 1 (heis 1)) + expect r (onBond 0 2 (heis 1))) - q * expect r ring

/-- The energy per site. -/
noncomputable def jqEnergy (j q : ℝ) (keys : List Coord) (r : Coord → Tensor ℂ) : ℂ := (keys.map fun c => jqSite j q (r c)).sum / (keys.length : ℂ)

end Spec
open Spec (dimerPart onTwo jqSite jqEnergy TwoByTwo)

/-! ### Operators -/

/-- A tensor of two sites with the entries of an operator. -/
def IsPair (T : Tensor ℂ) (O : Nat → Nat → Nat → Nat → ℂ) : Prop := T.shape = [2, 2, 2, 2] ∧ ∀ i j a b, i < 2 → j < 2 → a < 2 → b < 2 → T.val [i, j, a, b] = O a b i j

theorem ss_pair : IsPair (ssT (1, 1, 1)) (heis 1) := ⟨rfl, fun i j a b hi hj ha hb => by simpa using Energy.ss_val 1 hi hj ha hb⟩

theorem less_ok {T : Tensor ℂ} {O} (h : IsPair T O) : ∃ R, lessQuarter T = some R ∧ IsPair R (fun a b i j => O a b i j - if a = i ∧ b = j then 1 / 4 else 0) := by
  obtain ⟨I, eI, sI, vI⟩ := Energy.id2_val
  refine ⟨_, by simp only [lessQuarter, eI, Option.bind_eq_bind, Option.bind_some, Option.pure_def]; rfl, rfl, fun i j a b hi hj ha hb => ?_⟩
  simp only [comb4, List.map_cons, List.map_nil, List.sum_cons, List.sum_nil, h.2 i j a b hi hj ha hb, vI i j a b hi hj ha hb, eq_comm (a := a), eq_comm (a := b)]
  split_ifs <;> ring

theorem two_ok {T : Tensor ℂ} {O} (h : IsPair T O) : ∃ R, ringOp T = some R ∧ Energy.Is8 R (ofOp fun t s => onTwo 0 1 2 3 O t s + onTwo 0 2 1 3 O t s) := by
  obtain ⟨X, e, q⟩ := Energy.einsum8 [(T, [0, 1, 4, 5]), (T, [2, 3, 6, 7])] (by simp [h.1]) (by simp)
  have q1 : Energy.Is8 X (ofOp (onTwo 0 1 2 3 O)) := by
    refine q.congr fun i j k l a b c d hi hj hk hl ha hb hc hd => ?_
    rw [show ((([(T, [0, 1, 4, 5]), (T, [2, 3, 6, 7])] : List (Tensor ℂ × List Nat)).flatMap Prod.snd).dedup.filter (fun l => l ∉ [0, 1, 2, 3, 4, 5, 6, 7])) = [] from rfl]
    simp [sumOver, termOf, at8, h.2 i j a b hi hj ha hb, h.2 k l c d hk hl hc hd, ofOp, onTwo]
  obtain ⟨Y, e', q'⟩ := Energy.perm8 q1 [0, 2, 1, 3, 4, 6, 5, 7] (by decide)
  have q2 : Energy.Is8 Y (ofOp (onTwo 0 2 1 3 O)) := q'.congr fun i j k l a b c d _ _ _ _ _ _ _ _ => by simp [Energy.permFn, at8, ofOp, onTwo]
  refine ⟨_, by simp only [ringOp, e, e', Option.bind_eq_bind, Option.bind_some, Option.pure_def]; rfl, ?_⟩
  refine (comb_cons q1 (comb_cons q2 comb_nil)).congr fun i j k l a b c d _ _ _ _ _ _ _ _ => ?_
  simp [ofOp]

theorem pair8 {T : Tensor ℂ} {O} (h : IsPair T O) : ∃ X, pairOp T = some X ∧ Energy.Is8 X (ofOp (onBond 0 1 O)) := by
  obtain ⟨X, e, q⟩ := Energy.pairOp_val (O := T) (g := fun a b a' b' => O a' b' a b) h.1 (fun a b a' b' h1 h2 h3 h4 => h.2 a b a' b' h1 h2 h3 h4)
  refine ⟨X, e, q.congr fun i j k l a b c d _ _ _ _ _ _ _ _ => ?_⟩
  simp [ofOp, onBond, eq_comm]

theorem jqH_ok (j q : ℝ) {T R : Tensor ℂ} {O P} (h : IsPair T O) (hR : Energy.Is8 R (ofOp P)) : ∃ X, jqH j q T R = some X ∧ Energy.Is8 X (ofOp fun t s => j * onBond 0 1 O t s + (j * onBond 2 3 O t s + (-q * P t s + 0))) := by
  obtain ⟨X, e, q1⟩ := pair8 h
  obtain ⟨Y, e', q'⟩ := Energy.perm8 q1 [2, 3, 0, 1, 6, 7, 4, 5] (by decide)
  have q2 : Energy.Is8 Y (ofOp (onBond 2 3 O)) := q'.congr fun i j k l a b c d _ _ _ _ _ _ _ _ => by simp [Energy.permFn, at8, ofOp, onBond]
  exact ⟨_, by simp only [jqH, e, e', Option.bind_eq_bind, Option.bind_some, Option.pure_def], comb_cons q1 (comb_cons q2 (comb_cons hR comb_nil))⟩

theorem jqV_ok (j q : ℝ) {T R : Tensor ℂ} {O P} (h : IsPair T O) (hR : Energy.Is8 R (ofOp P)) : ∃ X, jqV j q T R = some X ∧ Energy.Is8 X (ofOp fun t s => j * onBond 0 2 O t s + (j * onBond 1 3 O t s + (-q * P t s + 0))) := by
  obtain ⟨X, e, q1⟩ := pair8 h
  obtain ⟨Y, e', q'⟩ := Energy.perm8 q1 [0, 2, 1, 3, 4, 6, 5, 7] (by decide)
  obtain ⟨Z, e'', q''⟩ := Energy.perm8 q1 [2, 0, 3, 1, 6, 4, 7, 5] (by decide)
  have q2 : Energy.Is8 Y (ofOp (onBond 0 2 O)) := q'.congr fun i j k l a b c d _ _ _ _ _ _ _ _ => by simp [Energy.permFn, at8, ofOp, onBond]
  have q3 : Energy.Is8 Z (ofOp (onBond 1 3 O)) := q''.congr fun i j k l a b c d _ _ _ _ _ _ _ _ => by simp [Energy.permFn, at8, ofOp, onBond]
  exact ⟨_, by simp only [jqV, e, e', e'', Option.bind_eq_bind, Option.bind_some, Option.pure_def], comb_cons q2 (comb_cons q3 (comb_cons hR comb_nil))⟩

theorem jqC_ok (j q : ℝ) {T R : Tensor ℂ} {O P} (h : IsPair T O) (hR : Energy.Is8 R (ofOp P)) : ∃ X, jqC j q T R = some X ∧ Energy.Is8 X (ofOp fun t s => j * onBond 0 1 O t s + (j * onBond 0 2 O t s + (-q * P t s + 0))) := by
  obtain ⟨X, e, q1⟩ := pair8 h
  obtain ⟨Y, e', q'⟩ := Energy.perm8 q1 [0, 2, 1, 3, 4, 6, 5, 7] (by decide)
  have q2 : Energy.Is8 Y (ofOp (onBond 0 2 O)) := q'.congr fun i j k l a b c d _ _ _ _ _ _ _ _ => by simp [Energy.permFn, at8, ofOp, onBond]
  exact ⟨_, by simp only [jqC, e, e', Option.bind_eq_bind, Option.bind_some, Option.pure_def], comb_cons q1 (comb_cons q2 (comb_cons hR comb_nil))⟩

theorem expect_three (r : Tensor ℂ) (x y z : ℂ) (O P Q : List Nat → List Nat → ℂ) : expect r (fun t s => x * O t s + (y * P t s + (z * Q t s + 0))) = x * expect r O + y * expect r P + z * expect r Q := by
  rw [Energy.expect_add, Energy.expect_mul, Energy.expect_add, Energy.expect_mul, Energy.expect_add, Energy.expect_mul, Energy.expect_zero]
  ring

/-! ### The cell of four sites -/

/-- C110. `JQ.energy_2x2_4site` of every state with a cell of two by two sites is the energy per site of `J1 sum S.S - Q sum ring`. -/
theorem C110_cell (eigh : Tensor ℂ → List ℝ × Tensor ℂ) (j q : ℝ) {D : Dims} {st : State ℂ} {env : Env ℂ} {r : Coord → Tensor ℂ} (hs : FitsState D st) (he : FitsEnv D st env) (hp : ∀ c, D.p c = 2)
    (h2 : TwoByTwo st) (hr : ∀ c ∈ st.keys, Rdm.rdm2x2 eigh false st env c [0, 1, 2, 3] = .ok (r c)) (hc : Energy.Spec.Consistent st r) : jq4 eigh j q st env = .ok (jqEnergy j q st.keys r).re := by
  obtain ⟨o, e1, i1⟩ := less_ok ss_pair
  obtain ⟨ring, e2, i2⟩ := two_ok i1
  obtain ⟨hH, e3, i3⟩ := jqH_ok j q ss_pair i2
  obtain ⟨hV, e4, i4⟩ := jqV_ok j q ss_pair i2
  have hsh : ∀ c ∈ st.keys, (r c).shape = eight := fun c hc => rdm_shape eigh (by decide) hs he hp (hr c hc)
  obtain ⟨k00, k10, k01, k11⟩ := keys4 h2
  have d00 := hc.down _ k00 (heis 1)
  have d11 := hc.down _ k11 (heis 1)
  have d10 := hc.right _ k10 (heis 1)
  have d01 := hc.right _ k01 (heis 1)
  rw [h2.vts] at d00 d11 d10 d01
  norm_num at d00 d11 d10 d01
  have hlen : st.keys.length = 4 := h2.keys.length_eq
  have hsum : (st.keys.map fun c => jqSite j q (r c)).sum = (([(0, 0), (1, 0), (0, 1), (1, 1)] : List Coord).map fun c => jqSite j q (r c)).sum := (h2.keys.map _).sum_eq
  rw [jq4, e1, C4v.lift_some, e2, C4v.lift_some, e3, C4v.lift_some, e4, C4v.lift_some, cell4, (hr _ k00).trans rfl, Energy.bindOk, hr _ k10, Energy.bindOk, hr _ k01, Energy.bindOk, hr _ k11, Energy.bindOk,
    Energy.full_val (hsh _ k00) i3, C4v.lift_some, Energy.full_val (hsh _ k10) i4, C4v.lift_some, Energy.full_val (hsh _ k01) i4, C4v.lift_some, Energy.full_val (hsh _ k11) i3, C4v.lift_some]
  simp only [expect_three]
  have hring : (fun t s => onTwo 0 1 2 3 (fun a b i j => heis 1 a b i j - if a = i ∧ b = j then 1 / 4 else 0) t s + onTwo 0 2 1 3 (fun a b i j => heis 1 a b i j - if a = i ∧ b = j then 1 / 4 else 0) t s) = Spec.ring := rfl
  simp only [hring, d00, d11, d10, d01]
  rw [jqEnergy, hlen, hsum]
  simp only [List.map_cons, List.map_nil, List.sum_cons, List.sum_nil, jqSite]
  refine congrArg (fun z : ℂ => Except.ok z.re) ?_
  push_cast
  ring

/-! ### One-site states -/

section
variable {chi D : Nat} {a : Tensor ℂ} {env : C4v.Env ℂ}

/-- C110. `JQ_C4V.energy_1x1` of every rotation-invariant one-site state is the energy per site of the uniform state. -/
theorem C110_uniform (eigh : Tensor ℂ → List ℝ × Tensor ℂ) (j q : ℝ) (hchi : 0 < chi) (hD : 0 < D) (hf : C4v.Spec.Fits chi D 2 a env) (hr : C4v.Spec.Rotated D 2 a) {r : Tensor ℂ}
    (h : Rdm.rdm2x2 eigh false (Energy.Spec.single a) (C4v.Spec.unfold env) (0, 0) [0, 1, 2, 3] = .ok r) : jqC4v eigh j q a env = .ok (jqEnergy j q (Energy.Spec.single a).keys fun _ => r) := by
  have h1 : C4v.rdm2x2 eigh false a env = .ok r := (C4v.C73_plaquette eigh false hchi hD (by decide) hf hr (0, 0)).trans h
  obtain ⟨hrs, -⟩ := C4v.rdm2x2_turns eigh hf h1
  obtain ⟨o, e1, i1⟩ := less_ok ss_pair
  obtain ⟨ring, e2, i2⟩ := two_ok i1
  obtain ⟨H, e3, i3⟩ := jqC_ok j q ss_pair i2
  rw [jqC4v, e1, C4v.lift_some, e2, C4v.lift_some, e3, C4v.lift_some, h1, Energy.bindOk, Energy.full_val hrs i3]
  show Except.ok _ = Except.ok _
  rw [expect_three]
  have hring : (fun t s => onTwo 0 1 2 3 (fun a b i j => heis 1 a b i j - if a = i ∧ b = j then 1 / 4 else 0) t s + onTwo 0 2 1 3 (fun a b i j => heis 1 a b i j - if a = i ∧ b = j then 1 / 4 else 0) t s) = Spec.ring := rfl
  simp only [hring, jqEnergy, jqSite, Energy.Spec.single, List.map_cons, List.map_nil, List.sum_cons, List.sum_nil, List.length_cons, List.length_nil]
  congr 1
  push_cast
  ring

theorem rot_dimer : ∀ a < 2, ∀ b < 2, ∀ i < 2, ∀ j < 2, (Energy.rotF (heis 1) a b i j - if a = i ∧ b = j then 1 / 4 else 0) = se true a * se true i * dimerPart (fb true a) b (fb true i) j ∧
    (Energy.rotF (heis 1) a b i j - if a = i ∧ b = j then 1 / 4 else 0) = se true b * se true j * dimerPart a (fb true b) i (fb true j) ∧
    Energy.rotF (heis 1) a b i j = se true a * se true i * heis 1 (fb true a) b (fb true i) j ∧ Energy.rotF (heis 1) a b i j = se true b * se true j * heis 1 a (fb true b) i (fb true j) := by
  intro a ha b hb i hi j hj
  rcases Energy.lt2 ha with rfl | rfl <;> rcases Energy.lt2 hb with rfl | rfl <;> rcases Energy.lt2 hi with rfl | rfl <;> rcases Energy.lt2 hj with rfl | rfl <;>
    simp [Energy.rotF, dimerPart, heis, se, fb, Energy.Spec.sz, Energy.Spec.sx, Energy.Spec.sy] <;> ring_nf <;> simp <;> ring_nf

theorem fb_inj {n m : Nat} (hn : n < 2) (hm : m < 2) : fb true n = fb true m ↔ n = m := by
  unfold fb
  simp only [if_true]
  omega

theorem se_self (n : Nat) : se true n * se true n = 1 := Energy.se_sq true n

/-- The rotated plaquette operator. -/
theorem rot_plaq (j q : ℝ) (i₁ j₁ k l a b c d : Nat) (hi : i₁ < 2) (hj : j₁ < 2) (hk : k < 2) (hl : l < 2) (ha : a < 2) (hb : b < 2) (hc : c < 2) (hd : d < 2) :
    (fun t s => j * onBond 0 1 (Energy.rotF (heis 1)) t s + (j * onBond 0 2 (Energy.rotF (heis 1)) t s + (-q * (onTwo 0 1 2 3 (fun a b i j => Energy.rotF (heis 1) a b i j - if a = i ∧ b = j then 1 / 4 else 0) t s +
      onTwo 0 2 1 3 (fun a b i j => Energy.rotF (heis 1) a b i j - if a = i ∧ b = j then 1 / 4 else 0) t s) + 0)) : List Nat → List Nat → ℂ) [a, b, c, d] [i₁, j₁, k, l] =
    rotO fl12 (fun t s => j * onBond 0 1 (heis 1) t s + (j * onBond 0 2 (heis 1) t s + (-q * Spec.ring t s + 0))) [a, b, c, d] [i₁, j₁, k, l] := by
  have ff : ∀ n, fb false n = n := fun _ => rfl
  have sf : ∀ n, se false n = 1 := fun _ => rfl
  have r0 : fl12 0 = false := rfl
  have r1 : fl12 1 = true := rfl
  have r2 : fl12 2 = true := rfl
  have r3 : fl12 3 = false := rfl
  have g01 := rot_dimer a ha b hb i₁ hi j₁ hj
  have g02 := rot_dimer a ha c hc i₁ hi k hk
  have g23 := rot_dimer c hc d hd k hk l hl
  have g13 := rot_dimer b hb d hd j₁ hj l hl
  have f1 : onBond 0 1 (Energy.rotF (heis 1)) [a, b, c, d] [i₁, j₁, k, l] = rotO fl12 (onBond 0 1 (heis 1)) [a, b, c, d] [i₁, j₁, k, l] := by
    simp only [onBond, rotO, r0, r1, r2, r3, ff, sf, List.getD_cons_zero, List.getD_cons_succ, g01.2.2.2]
    by_cases h : c = k ∧ d = l
    · obtain ⟨rfl, rfl⟩ := h
      simp [se_self]
    · simp [fb_inj hc hk, h]
  have f2 : onBond 0 2 (Energy.rotF (heis 1)) [a, b, c, d] [i₁, j₁, k, l] = rotO fl12 (onBond 0 2 (heis 1)) [a, b, c, d] [i₁, j₁, k, l] := by
    simp only [onBond, rotO, r0, r1, r2, r3, ff, sf, List.getD_cons_zero, List.getD_cons_succ, g02.2.2.2]
    by_cases h : b = j₁ ∧ d = l
    · obtain ⟨rfl, rfl⟩ := h
      simp [se_self]
    · simp [fb_inj hb hj, h]
  simp only [f1, f2]
  simp only [rotO, r0, r1, r2, r3, ff, sf, List.getD_cons_zero, List.getD_cons_succ, Spec.ring, onTwo]
  rw [g01.2.1, g02.2.1, g23.1, g13.1]
  ring

theorem turn_ring (r : Tensor ℂ) : expect r (turnO Spec.ring) = expect r Spec.ring := by
  refine Energy.expect_congr (fun _ _ _ _ _ _ _ _ _ _ _ _ _ _ _ _ => rfl) fun i j k l a b c d _ _ _ _ _ _ _ _ => ?_
  have hs : ∀ a b i j, dimerPart a b i j = dimerPart b a j i := fun a b i j => by
    rw [dimerPart, dimerPart, Energy.heis_swap]
    simp only [and_comm]
  simp only [turnO, Spec.ring, onTwo, List.getD_cons_zero, List.getD_cons_succ]
  rw [hs b a, hs d c]
  ring

/-- C110. `JQ_C4V_BIPARTITE.energy_1x1` of every rotation-invariant one-site state is the energy per site of the checkerboard of `A` and `R A`. -/
theorem C110_bipartite (eigh : Tensor ℂ → List ℝ × Tensor ℂ) (j q : ℝ) (hchi : 0 < chi) (hD : 0 < D) (hf : C4v.Spec.Fits chi D 2 a env) (hr : C4v.Spec.Rotated D 2 a) {r : Tensor ℂ}
    (h : C4v.rdm2x2 eigh false a env = .ok r) : ∃ R : Coord → Tensor ℂ,
      (∀ c ∈ (Energy.Spec.checker a).keys, Rdm.rdm2x2 eigh false (Energy.Spec.checker a) (Energy.Spec.both (C4v.Spec.unfold env)) c [0, 1, 2, 3] = .ok (R c)) ∧
      jqBP eigh j q a env = .ok (jqEnergy j q (Energy.Spec.checker a).keys R) := by
  obtain ⟨hrs, ht⟩ := C4v.rdm2x2_turns eigh hf h
  have hr' : Rdm.rdm2x2 eigh false (Energy.Spec.single a) (C4v.Spec.unfold env) (0, 0) [0, 1, 2, 3] = .ok r := (C4v.C73_plaquette eigh false hchi hD (by decide) hf hr (0, 0)).symm.trans h
  obtain ⟨⟨r0, e0, s0, q0⟩, ⟨r1, e1, s1, q1⟩⟩ := Energy.checker_rdm eigh (C4v.fitsState hD (by decide) hf) (C4v.fitsEnv hchi hf) (fun _ => rfl) hr'
  refine ⟨fun c => if c = (0, 0) then r0 else r1, fun c hc => ?_, ?_⟩
  · simp only [Energy.Spec.checker, List.mem_cons, List.not_mem_nil, or_false] at hc
    rcases hc with rfl | rfl
    · simpa using e0
    · simpa using e1
  obtain ⟨ss, e2, i2⟩ := Energy.rotFirst_val (h := ssT (1, 1, 1)) rfl ss_pair.2
  obtain ⟨o, e3, i3⟩ := less_ok (T := ss) i2
  obtain ⟨ring, e4, i4⟩ := two_ok i3
  obtain ⟨H, e5, i5⟩ := jqC_ok j q (T := ss) i2 i4
  have i6 : Energy.Is8 H (ofOp (rotO fl12 fun t s => j * onBond 0 1 (heis 1) t s + (j * onBond 0 2 (heis 1) t s + (-q * Spec.ring t s + 0)))) :=
    i5.congr fun i j' k l a b c d hi hj hk hl ha hb hc hd => rot_plaq j q i j' k l a b c d hi hj hk hl ha hb hc hd
  have hv : jqSite j q r1 = jqSite j q r0 := by
    obtain ⟨b0, b1, b2, b3, -⟩ := Energy.bonds_eq ht q0 q1 1
    rw [jqSite, jqSite, Energy.checker_turn ht q0 q1, Energy.checker_turn ht q0 q1 Spec.ring, Energy.turn_bond (m' := 1) (n' := 3) (by decide), turn_ring, b2, b0, b1]
  rw [jqBP, e2, C4v.lift_some, e3, C4v.lift_some, e4, C4v.lift_some, e5, C4v.lift_some, h, Energy.bindOk, Energy.full_val hrs i6, ← Energy.expect_rot q0]
  show Except.ok _ = Except.ok _
  rw [expect_three]
  simp only [jqEnergy, Energy.Spec.checker, List.map_cons, List.map_nil, List.sum_cons, List.sum_nil, reduceIte, Prod.mk.injEq, one_ne_zero, false_and, hv, List.length_cons, List.length_nil]
  rw [jqSite]
  congr 1
  push_cast
  ring
end
end Verif.Models
