import Verif.Energy.BipartiteProps
import Verif.Energy.C4vModel
import Verif.C4v.RdmCyclic
import Verif.C4v.CorrfProps
import Verif.Rdm.RowStrip
/-
C98, C99: the energies of one-site C4v states.
-/
namespace Verif.Energy
open Tensor Ctm Ctm.Spec

namespace Spec

/-- `sym_pos_def=True`, which sets negative eigenvalues of a density matrix to zero, changes nothing. -/
def Unclamped (f : Bool → Except Err (Tensor ℂ)) : Prop := ∃ r r', f false = .ok r ∧ f true = .ok r' ∧ Same r' r

/-- `Tr(rho O)` for two sites. -/
def expect2 (r : Tensor ℂ) (O : Nat → Nat → Nat → Nat → ℂ) : ℂ :=
  ∑ i ∈ Finset.range 2, ∑ a ∈ Finset.range 2, ∑ j ∈ Finset.range 2, ∑ b ∈ Finset.range 2, r.val [i, j, a, b] * O a b i j

end Spec

/-! ### Turning the plaquette -/

theorem sum_turn (F : List Nat → ℂ) : sumIdx [2, 2, 2, 2] F = sumIdx [2, 2, 2, 2] (fun s => F [s.getD 1 0, s.getD 3 0, s.getD 0 0, s.getD 2 0]) := by
  simp only [sumIdx, sum_range2, List.getD_cons_zero, List.getD_cons_succ]
  ring

/-- The operator on the turned plaquette. -/
def turnO (O : List Nat → List Nat → ℂ) (t s : List Nat) : ℂ := O [t.getD 1 0, t.getD 3 0, t.getD 0 0, t.getD 2 0] [s.getD 1 0, s.getD 3 0, s.getD 0 0, s.getD 2 0]

theorem expect_turn {r r' : Tensor ℂ} (h : ∀ i j k l a b c d, i < 2 → j < 2 → k < 2 → l < 2 → a < 2 → b < 2 → c < 2 → d < 2 → r.val [i, j, k, l, a, b, c, d] = r'.val [j, l, i, k, b, d, a, c])
    (O : List Nat → List Nat → ℂ) : Spec.expect r' O = Spec.expect r (turnO O) := by
  unfold Spec.expect
  rw [sum_turn]
  refine sumIdx4 _ _ fun i j k l hi hj hk hl => ?_
  rw [sum_turn]
  refine sumIdx4 _ _ fun a b c d ha hb hc hd => ?_
  simp only [List.getD_cons_zero, List.getD_cons_succ, List.cons_append, List.nil_append, turnO]
  rw [h i j k l a b c d hi hj hk hl ha hb hc hd]

/-- The second plaquette of the checkerboard is the first one turned. -/
theorem checker_turn {r r0 r1 : Tensor ℂ} (ht : C4v.Turns 2 r) (q0 : RotOf fl12 r r0) (q1 : RotOf fl03 r r1) (O : List Nat → List Nat → ℂ) : Spec.expect r1 O = Spec.expect r0 (turnO O) := by
  refine expect_turn (fun i j k l a b c d hi hj hk hl ha hb hc hd => ?_) O
  have ff : ∀ n, fb false n = n := fun _ => rfl
  have sf : ∀ n, se false n = 1 := fun _ => rfl
  rw [q0 i j k l a b c d hi hj hk hl ha hb hc hd, q1 j l i k b d a c hj hl hi hk hb hd ha hc]
  simp only [fl12, fl03, Nat.reduceBEq, Bool.or_self, Bool.or_true, ff, sf, Bool.or_false, beq_self_eq_true]
  rw [ht i _ _ l a _ _ d hi (fb_lt hj) (fb_lt hk) hl ha (fb_lt hb) (fb_lt hc) hd]
  ring

theorem turn_bond {m n m' n' : Nat} (h : (m, n, m', n') ∈ [(0, 1, 1, 3), (0, 2, 1, 0), (1, 3, 3, 2), (2, 3, 0, 2), (0, 3, 1, 2), (1, 2, 3, 0)]) (δ : ℝ) (r : Tensor ℂ) :
    Spec.expect r (turnO (Spec.onBond m n (Spec.heis δ))) = Spec.expect r (Spec.onBond m' n' (Spec.heis δ)) := by
  refine expect_congr (fun _ _ _ _ _ _ _ _ _ _ _ _ _ _ _ _ => rfl) fun i j k l a b c d _ _ _ _ _ _ _ _ => ?_
  simp only [List.mem_cons, Prod.mk.injEq, List.not_mem_nil, or_false] at h
  rcases h with ⟨rfl, rfl, rfl, rfl⟩ | ⟨rfl, rfl, rfl, rfl⟩ | ⟨rfl, rfl, rfl, rfl⟩ | ⟨rfl, rfl, rfl, rfl⟩ | ⟨rfl, rfl, rfl, rfl⟩ | ⟨rfl, rfl, rfl, rfl⟩ <;>
    simp [turnO, Spec.onBond, and_comm]

theorem bond_swap (m n : Nat) (δ : ℝ) (r : Tensor ℂ) : Spec.expect r (Spec.onBond m n (Spec.heis δ)) = Spec.expect r (Spec.onBond n m (Spec.heis δ)) := by
  have : Spec.onBond m n (Spec.heis δ) = Spec.onBond n m (Spec.heis δ) := by
    funext t s
    simp only [Spec.onBond]
    rw [heis_swap]
    have : (∀ k ∈ ([0, 1, 2, 3] : List Nat), k ≠ m → k ≠ n → t.getD k 0 = s.getD k 0) ↔ (∀ k ∈ ([0, 1, 2, 3] : List Nat), k ≠ n → k ≠ m → t.getD k 0 = s.getD k 0) :=
      ⟨fun h k hk h1 h2 => h k hk h2 h1, fun h k hk h1 h2 => h k hk h2 h1⟩
    simp only [this]
  rw [this]

theorem turn_site {m m' : Nat} (h : (m, m') ∈ [(0, 1), (1, 3), (2, 0), (3, 2)]) (O : Nat → Nat → ℂ) (r : Tensor ℂ) :
    Spec.expect r (turnO (Spec.onSite m O)) = Spec.expect r (Spec.onSite m' O) := by
  refine expect_congr (fun _ _ _ _ _ _ _ _ _ _ _ _ _ _ _ _ => rfl) fun i j k l a b c d _ _ _ _ _ _ _ _ => ?_
  simp only [List.mem_cons, Prod.mk.injEq, List.not_mem_nil, or_false] at h
  rcases h with ⟨rfl, rfl⟩ | ⟨rfl, rfl⟩ | ⟨rfl, rfl⟩ | ⟨rfl, rfl⟩ <;> simp [turnO, Spec.onSite, and_comm, and_left_comm, and_assoc]

theorem turn_chiral (r : Tensor ℂ) : Spec.expect r (turnO Spec.chirality) = Spec.expect r Spec.chirality := by
  refine expect_congr (fun _ _ _ _ _ _ _ _ _ _ _ _ _ _ _ _ => rfl) fun i j k l a b c d _ _ _ _ _ _ _ _ => ?_
  simp [turnO, Spec.chirality, Spec.clockwise, and_comm, and_left_comm, and_assoc]

theorem turn_hp (m : J1J2) {r r0 r1 : Tensor ℂ} (ht : C4v.Turns 2 r) (q0 : RotOf fl12 r r0) (q1 : RotOf fl03 r r1) : Spec.expect r1 (hpOp m (1, 0)) = Spec.expect r0 (hpOp m (0, 0)) := by
  have h := checker_turn ht q0 q1
  have h1 : sgn (1, 0) = - sgn (0, 0) := by simp [sgn]
  rw [hp_expect, hp_expect]
  simp only [h]
  rw [turn_bond (m' := 1) (n' := 3) (by decide), turn_bond (m' := 1) (n' := 0) (by decide), turn_bond (m := 2) (n := 3) (m' := 0) (n' := 2) (by decide),
    turn_bond (m := 1) (n := 3) (m' := 3) (n' := 2) (by decide), turn_bond (m' := 1) (n' := 2) (by decide), turn_bond (m := 1) (n := 2) (m' := 3) (n' := 0) (by decide), turn_site (m' := 1) (by decide),
    turn_site (m := 1) (m' := 3) (by decide), turn_site (m := 2) (m' := 0) (by decide), turn_site (m := 3) (m' := 2) (by decide), turn_site (m' := 1) (by decide),
    turn_site (m := 1) (m' := 3) (by decide), turn_site (m := 2) (m' := 0) (by decide), turn_site (m := 3) (m' := 2) (by decide), h1, bond_swap 1 0, bond_swap 3 2, bond_swap 3 0]
  ring

/-! ### The third neighbours -/

theorem full4_val {r h : Tensor ℂ} {O : Nat → Nat → Nat → Nat → ℂ} (hr : r.shape = [2, 2, 2, 2]) (hh : h.shape = [2, 2, 2, 2])
    (hO : ∀ i j a b, i < 2 → j < 2 → a < 2 → b < 2 → h.val [i, j, a, b] = O a b i j) : full4 r h = some (Spec.expect2 r O) := by
  obtain ⟨R, e, -, v⟩ := einsum_ok (fun _ => 2) [(r, [0, 1, 2, 3]), (h, [0, 1, 2, 3])] [] (by simp [hr, hh]) (by decide) (by simp)
  have hv := v (fun _ => 0) (by simp)
  rw [List.map_nil] at hv
  have hL : ((List.flatMap Prod.snd [(r, [0, 1, 2, 3]), (h, [0, 1, 2, 3])]).dedup.filter (fun l => l ∉ ([] : List Nat))) = [0, 1, 2, 3] := by
    simp only [List.flatMap_cons, List.flatMap_nil]
    decide
  rw [hL] at hv
  unfold full4
  rw [e]
  refine congrArg some (hv.trans ?_)
  rw [sumOver_perm (fun _ => 2) (l2 := [0, 2, 1, 3]) (by decide)]
  simp only [sumOver, Spec.expect2]
  refine Finset.sum_congr rfl fun i hi => Finset.sum_congr rfl fun a ha => Finset.sum_congr rfl fun j hj => Finset.sum_congr rfl fun b hb => ?_
  rw [← hO i j a b (Finset.mem_range.1 hi) (Finset.mem_range.1 hj) (Finset.mem_range.1 ha) (Finset.mem_range.1 hb)]
  simp [termOf, Function.update]

theorem expect2_same {r r' : Tensor ℂ} (h : Same r' r) (hs : r.shape = [2, 2, 2, 2]) (O : Nat → Nat → Nat → Nat → ℂ) : Spec.expect2 r' O = Spec.expect2 r O := by
  refine Finset.sum_congr rfl fun i hi => Finset.sum_congr rfl fun a ha => Finset.sum_congr rfl fun j hj => Finset.sum_congr rfl fun b hb => ?_
  rw [h.2 [i, j, a, b] (by rw [h.1, hs]; exact C4v.inB4 (Finset.mem_range.1 hi) (Finset.mem_range.1 hj) (Finset.mem_range.1 ha) (Finset.mem_range.1 hb))]

theorem heis_ladder (a b i j : Nat) (ha : a < 2) (hb : b < 2) (hi : i < 2) (hj : j < 2) :
    Spec.heis 1 a b i j = Spec.sz a i * Spec.sz b j + 1 / 2 * (Spec.sp a i * Spec.sm b j + Spec.sm a i * Spec.sp b j) := by
  rcases lt2 ha with rfl | rfl <;> rcases lt2 hb with rfl | rfl <;> rcases lt2 hi with rfl | rfl <;> rcases lt2 hj with rfl | rfl <;>
    simp [Spec.heis, Spec.sz, Spec.sx, Spec.sy, Spec.sp, Spec.sm] <;> ring_nf <;> simp <;> ring

theorem heis_star (δ : ℝ) (a b i j : Nat) (ha : a < 2) (hb : b < 2) (hi : i < 2) (hj : j < 2) : star (Spec.heis δ a b i j) = Spec.heis δ i j a b := by
  rcases lt2 ha with rfl | rfl <;> rcases lt2 hb with rfl | rfl <;> rcases lt2 hi with rfl | rfl <;> rcases lt2 hj with rfl | rfl <;>
    simp [Spec.heis, Spec.sz, Spec.sx, Spec.sy]

section
variable {chi D : Nat} {a : Tensor ℂ} {env : C4v.Env ℂ}

/-- The third-neighbour bond of the density matrix of three sites in a row. -/
theorem third_ok (eigh : Tensor ℂ → List ℝ × Tensor ℂ) (sl : Bool) (hchi : 0 < chi) (hD : 0 < D) (hf : C4v.Spec.Fits chi D 2 a env) (hr : C4v.Spec.Rotated D 2 a) (hS : C4v.Spec.CSymm chi env)
    (hu : Spec.Unclamped fun spd => C4v.rdm3x1 eigh sl spd a env) (hi : (Corrf.Spec.norm (C4v.tensors a env) (C4v.Spec.dims chi D 2) .right (0, 0) 3).im = 0) :
    ∃ r, C4v.rdm3x1 eigh sl true a env = .ok r ∧ ∃ x, full4 r (ssT (1, 1, 1)) = some x ∧
      x.re = (Spec.exchange (C4v.tensors a env) (C4v.Spec.dims chi D 2) .right (0, 0)).re := by
  obtain ⟨r, r', h1, h2, h3⟩ := hu
  obtain ⟨e, rho, g1, g2, g3⟩ := C4v.C74_ends eigh false hchi hD (by decide) hf hr hS (0, 0)
  have hs : rho.shape = [2, 2] ++ [2, 2] := g2.1
  have h1' : Rdm.symRdm eigh false rho = .ok r := by rw [← g3 sl]; exact h1
  obtain ⟨p0, p1⟩ := Rdm.symRdm_ok eigh hs h1'
  obtain ⟨R, e1, e2, e3⟩ := Rdm.symRdm_entries eigh hs p0 p1
  obtain rfl : r = R := by rw [h1'] at e1; injection e1
  have hx := Rdm.row_expect (C4v.fitsState hD (by decide) hf) (C4v.reads a env) g1 g2
  have hn : Matrix.trace (Rdm.Spec.op [2, 2] rho) = Corrf.Spec.norm (C4v.tensors a env) (C4v.Spec.dims chi D 2) .right (0, 0) 3 := by
    have : Corrf.Spec.norm (C4v.tensors a env) (C4v.Spec.dims chi D 2) .right (0, 0) 3 = Corrf.Spec.twoPoint (C4v.tensors a env) (C4v.Spec.dims chi D 2) .right (0, 0) Corrf.Spec.one Corrf.Spec.one 1 := rfl
    rw [Rdm.trace_op, this, ← hx]
    show _ = ∑ i ∈ Finset.range 2, ∑ a ∈ Finset.range 2, ∑ j ∈ Finset.range 2, ∑ b ∈ Finset.range 2, _
    simp only [sumIdx, sum_range2, Corrf.Spec.one, List.cons_append, List.nil_append]
    simp
  have hX : Spec.expect2 rho (Spec.heis 1) = Corrf.Spec.twoPoint (C4v.tensors a env) (C4v.Spec.dims chi D 2) .right (0, 0) Spec.sz Spec.sz 1 +
      1 / 2 * (Corrf.Spec.twoPoint (C4v.tensors a env) (C4v.Spec.dims chi D 2) .right (0, 0) Spec.sp Spec.sm 1 + Corrf.Spec.twoPoint (C4v.tensors a env) (C4v.Spec.dims chi D 2) .right (0, 0) Spec.sm Spec.sp 1) := by
    rw [← hx, ← hx, ← hx]
    show _ = (∑ i ∈ Finset.range 2, ∑ a ∈ Finset.range 2, ∑ j ∈ Finset.range 2, ∑ b ∈ Finset.range 2, _) +
      1 / 2 * ((∑ i ∈ Finset.range 2, ∑ a ∈ Finset.range 2, ∑ j ∈ Finset.range 2, ∑ b ∈ Finset.range 2, _) + (∑ i ∈ Finset.range 2, ∑ a ∈ Finset.range 2, ∑ j ∈ Finset.range 2, ∑ b ∈ Finset.range 2, _))
    simp only [Finset.mul_sum, ← Finset.sum_add_distrib, Spec.expect2]
    refine Finset.sum_congr rfl fun i hi => Finset.sum_congr rfl fun a ha => Finset.sum_congr rfl fun j hj => Finset.sum_congr rfl fun b hb => ?_
    rw [heis_ladder a b i j (Finset.mem_range.1 ha) (Finset.mem_range.1 hb) (Finset.mem_range.1 hi) (Finset.mem_range.1 hj)]
    ring
  refine ⟨r', h2, Spec.expect2 r' (Spec.heis 1), full4_val (h3.1.trans e2) rfl (fun i j a b hi hj ha hb => ss_val 1 hi hj ha hb), ?_⟩
  rw [expect2_same h3 e2]
  have hY : Spec.expect2 r (Spec.heis 1) = 1 / (2 * ((Matrix.trace (Rdm.Spec.op [2, 2] rho)).re : ℂ)) * (Spec.expect2 rho (Spec.heis 1) + star (Spec.expect2 rho (Spec.heis 1))) := by
    have hst : star (Spec.expect2 rho (Spec.heis 1)) = ∑ i ∈ Finset.range 2, ∑ a ∈ Finset.range 2, ∑ j ∈ Finset.range 2, ∑ b ∈ Finset.range 2, star (rho.val [a, b, i, j]) * Spec.heis 1 a b i j := by
      unfold Spec.expect2
      rw [Finset.sum_comm]
      simp only [star_sum, star_mul']
      refine Finset.sum_congr rfl fun i hi => Finset.sum_congr rfl fun a ha => ?_
      rw [Finset.sum_comm]
      refine Finset.sum_congr rfl fun j hj => Finset.sum_congr rfl fun b hb => ?_
      rw [heis_star 1 _ _ _ _ (Finset.mem_range.1 hi) (Finset.mem_range.1 hj) (Finset.mem_range.1 ha) (Finset.mem_range.1 hb)]
    rw [hst]
    unfold Spec.expect2
    simp only [Finset.mul_sum, ← Finset.sum_add_distrib]
    refine Finset.sum_congr rfl fun i hi => Finset.sum_congr rfl fun a ha => Finset.sum_congr rfl fun j hj => Finset.sum_congr rfl fun b hb => ?_
    have := e3 [i, j] [a, b] (.cons (Finset.mem_range.1 hi) (.cons (Finset.mem_range.1 hj) .nil)) (.cons (Finset.mem_range.1 ha) (.cons (Finset.mem_range.1 hb) .nil))
    simp only [List.cons_append, List.nil_append] at this
    rw [this]
    simp
    ring
  rw [hY, hn, hX]
  unfold Spec.exchange
  obtain ⟨X, hX'⟩ : ∃ X, X = Corrf.Spec.twoPoint (C4v.tensors a env) (C4v.Spec.dims chi D 2) .right (0, 0) Spec.sz Spec.sz 1 +
      1 / 2 * (Corrf.Spec.twoPoint (C4v.tensors a env) (C4v.Spec.dims chi D 2) .right (0, 0) Spec.sp Spec.sm 1 + Corrf.Spec.twoPoint (C4v.tensors a env) (C4v.Spec.dims chi D 2) .right (0, 0) Spec.sm Spec.sp 1) := ⟨_, rfl⟩
  rw [← hX']
  obtain ⟨n, hn'⟩ : ∃ n, n = Corrf.Spec.norm (C4v.tensors a env) (C4v.Spec.dims chi D 2) .right (0, 0) 3 := ⟨_, rfl⟩
  rw [← hn'] at hi ⊢
  have hre : n = (n.re : ℂ) := by apply Complex.ext <;> simp [hi]
  have hXX : X + star X = ((2 * X.re : ℝ) : ℂ) := by
    have := Complex.add_conj X
    simpa using this
  rw [hXX, hre, Complex.ofReal_re, Complex.div_ofReal_re]
  have : (1 / (2 * (n.re : ℂ)) * ((2 * X.re : ℝ) : ℂ)) = ((X.re / n.re : ℝ) : ℂ) := by
    push_cast
    rcases eq_or_ne (n.re : ℂ) 0 with h0 | h0
    · simp [h0]
    · field_simp
  rw [this, Complex.ofReal_re]

/-! ### C98 -/

/-- What the third neighbours need: symmetric corners, a density matrix without negative eigenvalues, strips whose norms are finite and, for three sites, real. -/
structure Spec.ThirdOk (eigh : Tensor ℂ → List ℝ × Tensor ℂ) (chi D : Nat) (a : Tensor ℂ) (env : C4v.Env ℂ) : Prop where
  corner : C4v.Spec.CSymm chi env
  positive : Spec.Unclamped fun spd => C4v.rdm3x1 eigh false spd a env
  norms : ∀ n ≤ 2, Corrf.Spec.norm (C4v.tensors a env) (C4v.Spec.dims chi D 2) .right (0, 0) (n + 2) ≠ 0
  real : (Corrf.Spec.norm (C4v.tensors a env) (C4v.Spec.dims chi D 2) .right (0, 0) 3).im = 0

theorem expect_same {r r' : Tensor ℂ} (h : Same r' r) (hs : r.shape = eight) (O : List Nat → List Nat → ℂ) : Spec.expect r' O = Spec.expect r O :=
  expect_congr (fun i j k l a b c d hi hj hk hl ha hb hc hd => h.2 _ (by
    rw [h.1, hs]
    exact .cons hi (.cons hj (.cons hk (.cons hl (.cons ha (.cons hb (.cons hc (.cons hd .nil)))))))))
    fun _ _ _ _ _ _ _ _ _ _ _ _ _ _ _ _ => rfl

/-- The value of `energy_1x1`, by the density matrix `r0` of the plaquette of the checkerboard whose upper left site is `A`. -/
theorem energy1x1_value (eigh : Tensor ℂ → List ℝ × Tensor ℂ) (m : J1J2) {r r' r0 : Tensor ℂ} (h2 : C4v.rdm2x2 eigh true a env = .ok r') (h3 : Same r' r) (hrs : r.shape = eight) (q0 : RotOf fl12 r r0)
    {n : ℂ} (hn : c4vThird eigh false m a env = .ok n) :
    energy1x1 eigh m a env = .ok (Spec.expect r0 (hpOp m (0, 0)) + m.lmbd * Spec.expect r0 Spec.chirality + n).re := by
  have hrs' : r'.shape = eight := h3.1.trans hrs
  obtain ⟨H, eH, qH⟩ := getHp_val m (0, 0)
  obtain ⟨H', eH', qH'⟩ := rotBC_val qH
  obtain ⟨C, eC, qC⟩ := chiral_val
  obtain ⟨C', eC', qC'⟩ := rotBC_val qC
  have h1 : chiralTermRot m r' = .ok (m.lmbd * Spec.expect r0 Spec.chirality) := by
    unfold chiralTermRot
    split_ifs with h0
    · simp [h0]
    · rw [eC, C4v.lift_some, eC', C4v.lift_some, full_val hrs' (comb_cons qC' comb_nil), expect_add, expect_mul, expect_zero, add_zero, expect_same h3 hrs, expect_rot q0]
      rfl
  rw [energy1x1, h2, bindOk, eH, C4v.lift_some, eH', C4v.lift_some, full_val hrs' qH', C4v.lift_some, h1, bindOk, hn, bindOk, expect_same h3 hrs, ← expect_rot q0]
  rfl

/-- `energy_1x1` is `energy_per_site` of the checkerboard of `A` and `R A` with the unfolded environment. -/
theorem C98_energy (eigh : Tensor ℂ → List ℝ × Tensor ℂ) (m : J1J2) (hchi : 0 < chi) (hD : 0 < D) (hf : C4v.Spec.Fits chi D 2 a env) (hr : C4v.Spec.Rotated D 2 a)
    (hu : Spec.Unclamped fun spd => C4v.rdm2x2 eigh spd a env) (hj : m.j3 = 0 ∨ Spec.ThirdOk eigh chi D a env) :
    ∃ x, energy1x1 eigh m a env = .ok x ∧ energyPerSite eigh m (Spec.checker a) (Spec.both (C4v.Spec.unfold env)) = .ok x := by
  obtain ⟨r, r', h1, h2, h3⟩ := hu
  obtain ⟨hrs, ht⟩ := C4v.rdm2x2_turns eigh hf h1
  have hs : FitsState (C4v.Spec.dims chi D 2) (Spec.single a) := C4v.fitsState hD (by decide) hf
  have he : FitsEnv (C4v.Spec.dims chi D 2) (Spec.single a) (C4v.Spec.unfold env) := C4v.fitsEnv hchi hf
  have hr' : Rdm.rdm2x2 eigh false (Spec.single a) (C4v.Spec.unfold env) (0, 0) [0, 1, 2, 3] = .ok r := (C4v.C73_plaquette eigh false hchi hD (by decide) hf hr (0, 0)).symm.trans h1
  obtain ⟨⟨r0, e0, s0, q0⟩, ⟨r1, e1, s1, q1⟩⟩ := checker_rdm eigh hs he (fun _ => rfl) hr'
  obtain ⟨n, n', hn, hn', hnn⟩ : ∃ n n' : ℂ, c4vThird eigh false m a env = .ok n ∧ (m.j3 = 0 ∨ nnnn (Spec.checker a) (Spec.both (C4v.Spec.unfold env)) (0, 0) = .ok n') ∧ n.re = (m.j3 * n' : ℂ).re := by
    by_cases h0 : m.j3 = 0
    · exact ⟨0, 0, by simp [c4vThird, h0], Or.inl h0, by simp⟩
    · obtain ⟨g1, g2, g3, g4⟩ := hj.resolve_left h0
      obtain ⟨r3, k1, x, k2, k3⟩ := third_ok eigh false hchi hD hf hr g1 g2 g4
      refine ⟨2 * m.j3 * x, Spec.third (C4v.tensors a env) (C4v.Spec.dims chi D 2) (0, 0), ?_, Or.inr ?_, ?_⟩
      · rw [c4vThird, if_neg h0, k1, bindOk, k2, C4v.lift_some]; rfl
      · have hNa : ∀ c, (C4v.tensors a env).a c = a := fun c => rfl
        have ha : a.size 0 = 2 := by simp [Tensor.size, hf.site]
        rw [nnnn_eq (checker_tiling a) (checker_state hs) (checker_env he) (fun _ => rfl) (checker_reads (C4v.reads a env)) (0, 0) (fun d n hn => ?_), check_third hNa ha]
        rw [check_norm hNa ha, Corrf.Spec.norm, C4v.network_turn hf hr d (0, 0) (0, 0)]
        exact g3 n hn
      · have hd : Spec.exchange (C4v.tensors a env) (C4v.Spec.dims chi D 2) .down (0, 0) = Spec.exchange (C4v.tensors a env) (C4v.Spec.dims chi D 2) .right (0, 0) := by
          simp only [Spec.exchange, Corrf.Spec.twoPoint, Corrf.Spec.norm, C4v.network_turn hf hr .down (0, 0) (0, 0)]
        rw [Spec.third, hd, ← Complex.ofReal_ofNat, mul_assoc, ← two_mul, ← mul_assoc, ← Complex.ofReal_mul, ← Complex.ofReal_ofNat, ← mul_assoc, ← Complex.ofReal_mul, Complex.re_ofReal_mul, Complex.re_ofReal_mul, k3]
        ring
  have hE := energy_eq eigh m (st := Spec.checker a) (env := Spec.both (C4v.Spec.unfold env)) (r := fun c => if c = (0, 0) then r0 else r1) (by simp [Spec.checker])
    (fun c hc => by
      simp only [Spec.checker, List.mem_cons, List.not_mem_nil, or_false] at hc
      rcases hc with rfl | rfl
      · simpa using e0
      · simpa using e1)
    (fun c hc => by split_ifs <;> assumption) n' hn'
  have hh := turn_hp m ht q0 q1
  have hc : Spec.expect r1 Spec.chirality = Spec.expect r0 Spec.chirality := by rw [checker_turn ht q0 q1, turn_chiral]
  refine ⟨_, energy1x1_value eigh m h2 h3 hrs q0 hn, hE.trans (congrArg Except.ok ?_)⟩
  simp only [Spec.checker, List.map_cons, List.map_nil, List.sum_cons, List.sum_nil, reduceIte, Prod.mk.injEq, one_ne_zero, false_and, List.length_cons, List.length_nil, hh, hc]
  rw [Complex.add_re, ← hnn, Complex.add_re]
  congr 2
  push_cast
  ring

end

end Verif.Energy
