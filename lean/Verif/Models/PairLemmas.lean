import Verif.Models.PairModel
import Verif.Models.PairSpec
import Verif.Energy.ObsProps
/-
Density matrices of two sites with a physical index of any dimension.
-/
namespace Verif.Models
open Tensor Ctm Ctm.Spec Spec

/-! ### Tensors that hold operators -/

/-- `T` holds the operator `H`. -/
structure Is4 (p : Nat) (T : Tensor ℂ) (H : Op2 p) : Prop where
  shape : T.shape = [p, p, p, p]
  val : ∀ i j a b : Fin p, T.val [i, j, a, b] = H (i, j) (a, b)

/-- The same after `view(p*p, p*p)`. -/
structure IsM (p : Nat) (T : Tensor ℂ) (H : Op2 p) : Prop where
  shape : T.shape = [p * p, p * p]
  val : ∀ i j a b : Fin p, T.val [i * p + j, a * p + b] = H (i, j) (a, b)

theorem pair_lt {p : Nat} (i j : Fin p) : (i : Nat) * p + j < p * p := by
  have h1 := i.isLt
  have h2 := j.isLt
  calc (i : Nat) * p + j < i * p + p := by omega
    _ = (i + 1) * p := by ring
    _ ≤ p * p := Nat.mul_le_mul_right p h1

theorem pair_div {p : Nat} (i j : Fin p) : ((i : Nat) * p + j) / p = i := by
  have h := j.isLt
  rw [mul_comm, Nat.mul_add_div (by omega), Nat.div_eq_of_lt h, add_zero]

theorem pair_mod {p : Nat} (i j : Fin p) : ((i : Nat) * p + j) % p = j := by rw [mul_comm, Nat.mul_add_mod, Nat.mod_eq_of_lt j.isLt]

theorem toMat_ok {p : Nat} {T : Tensor ℂ} {H : Op2 p} (h : Is4 p T H) : ∃ M, toMat p T = some M ∧ IsM p M H := by
  refine ⟨_, by rw [toMat, view, if_pos (by rw [h.shape]; simp; ring)], rfl, fun i j a b => ?_⟩
  simp only [h.shape]
  rw [← h.val]
  have e : ravel [p * p, p * p] [(i : Nat) * p + j, (a : Nat) * p + b] = ravel [p, p, p, p] [(i : Nat), j, a, b] := by
    simp [ravel]; ring
  rw [e]
  rw [unravel_ravel (C4v.inB4 i.isLt j.isLt a.isLt b.isLt)]

theorem toTen_ok {p : Nat} {M : Tensor ℂ} {H : Op2 p} (h : IsM p M H) : ∃ T, toTen p M = some T ∧ Is4 p T H := by
  refine ⟨_, by rw [toTen, view, if_pos (by rw [h.shape]; simp; ring)], rfl, fun i j a b => ?_⟩
  simp only [h.shape]
  rw [← h.val]
  have e : ravel [p, p, p, p] [(i : Nat), j, a, b] = ravel [p * p, p * p] [(i : Nat) * p + j, (a : Nat) * p + b] := by
    simp [ravel]; ring
  rw [e]
  rw [unravel_ravel (.cons (pair_lt i j) (.cons (pair_lt a b) .nil))]

theorem mm_ok {p : Nat} {A B : Tensor ℂ} {H G : Op2 p} (hA : IsM p A H) (hB : IsM p B G) : ∃ C, mm A B = some C ∧ IsM p C (H * G) := by
  obtain ⟨R, e, s, v⟩ := einsum_ok (fun _ => p * p) [(A, [0, 1]), (B, [1, 2])] [0, 2] (by simp [hA.shape, hB.shape]) (by decide) (by simp)
  refine ⟨R, e, s, fun i j a b => ?_⟩
  have hv := v (fun l => if l = 0 then i * p + j else a * p + b) (by
    intro l hl
    simp only [List.mem_cons, List.not_mem_nil, or_false] at hl
    rcases hl with rfl | rfl
    · exact pair_lt i j
    · exact pair_lt a b)
  have hL : ((List.flatMap Prod.snd [(A, [0, 1]), (B, [1, 2])]).dedup.filter (fun l => l ∉ ([0, 2] : List Nat))) = [1] := by
    simp only [List.flatMap_cons, List.flatMap_nil]
    decide
  rw [hL] at hv
  refine hv.trans ?_
  simp only [sumOver, sum_range_mul, Matrix.mul_apply, Fintype.sum_prod_type]
  rw [← Fin.sum_univ_eq_sum_range (fun k => ∑ l ∈ Finset.range p, _)]
  refine Finset.sum_congr rfl fun k _ => ?_
  rw [← Fin.sum_univ_eq_sum_range (fun l => _)]
  refine Finset.sum_congr rfl fun l _ => ?_
  rw [← hA.val, ← hB.val]
  simp [termOf, Function.update]

theorem lin_nil {p : Nat} : IsM p (lin [p * p, p * p] []) 0 := ⟨rfl, fun _ _ _ _ => by simp [lin]⟩

theorem lin_cons {p : Nat} {z : ℂ} {T : Tensor ℂ} {l : List (ℂ × Tensor ℂ)} {H G : Op2 p} (h : IsM p T H) (hl : IsM p (lin [p * p, p * p] l) G) :
    IsM p (lin [p * p, p * p] ((z, T) :: l)) (z • H + G) := by
  refine ⟨rfl, fun i j a b => ?_⟩
  have h1 := h.val i j a b
  have h2 := hl.val i j a b
  simp only [lin, List.map_cons, List.sum_cons] at h2 ⊢
  rw [h1, h2]
  rfl

theorem scale4 {p : Nat} {z : ℂ} {T : Tensor ℂ} {H : Op2 p} (h : Is4 p T H) : Is4 p (lin [p, p, p, p] [(z, T)]) (z • H) := by
  refine ⟨rfl, fun i j a b => ?_⟩
  simp [lin, h.val]

theorem ssP_is (p : Nat) : Is4 p (ssP p) (Su2.Spec.asMatrix (Su2.SS p (1, 1, 1))) := by
  refine ⟨rfl, fun i j a b => ?_⟩
  simp [ssP, Su2.Spec.asMatrix]

/-! ### Expectation values -/

/-- `Tr(rho H)`. -/
noncomputable def expectP {p : Nat} (rho : Tensor ℂ) (H : Op2 p) : ℂ := ∑ r : Fin p × Fin p, ∑ s : Fin p × Fin p, rho.val [r.1, r.2, s.1, s.2] * H s r

theorem sumFin2 {p : Nat} (F : Nat → Nat → Nat → Nat → ℂ) :
    ∑ i ∈ Finset.range p, ∑ j ∈ Finset.range p, ∑ a ∈ Finset.range p, ∑ b ∈ Finset.range p, F i j a b = ∑ r : Fin p × Fin p, ∑ s : Fin p × Fin p, F r.1 r.2 s.1 s.2 := by
  simp only [Fintype.sum_prod_type, Finset.sum_range]

theorem full4_is {p : Nat} {r h : Tensor ℂ} {H : Op2 p} (hr : r.shape = [p, p, p, p]) (hh : Is4 p h H) (hT : H.transpose = H) : Energy.full4 r h = some (expectP r H) := by
  obtain ⟨R, e, -, v⟩ := einsum_ok (fun _ => p) [(r, [0, 1, 2, 3]), (h, [0, 1, 2, 3])] [] (by simp [hr, hh.shape]) (by decide) (by simp)
  have hv := v (fun _ => 0) (by simp)
  rw [List.map_nil] at hv
  have hL : ((List.flatMap Prod.snd [(r, [0, 1, 2, 3]), (h, [0, 1, 2, 3])]).dedup.filter (fun l => l ∉ ([] : List Nat))) = [0, 1, 2, 3] := by
    simp only [List.flatMap_cons, List.flatMap_nil]
    decide
  rw [hL] at hv
  unfold Energy.full4
  rw [e]
  refine congrArg some (hv.trans ?_)
  simp only [sumOver, expectP]
  rw [sumFin2 (fun i j a b => _)]
  refine Finset.sum_congr rfl fun r _ => Finset.sum_congr rfl fun s _ => ?_
  have : H s r = H r s := by rw [← Matrix.transpose_apply H, hT]
  rw [this, show H r s = H (r.1, r.2) (s.1, s.2) from rfl, ← hh.val]
  simp [termOf, Function.update]

/-- The Hermitian part of a density matrix with a Hermitian operator. -/
theorem sym_expectP (eigh : Tensor ℂ → List ℝ × Tensor ℂ) {p : Nat} (hp : 0 < p) {rho : Tensor ℂ} (hs : rho.shape = [p, p, p, p]) (h0 : (expectP rho (1 : Op2 p)).re ≠ 0) :
    ∃ R, Rdm.symRdm eigh false rho = .ok R ∧ R.shape = [p, p, p, p] ∧ ∀ H : Op2 p, H.IsHermitian →
      expectP R H = (((expectP rho H).re / (expectP rho (1 : Op2 p)).re : ℝ) : ℂ) := by
  have ht : Matrix.trace (Rdm.Spec.op [p, p] rho) = expectP rho (1 : Op2 p) := by
    rw [Rdm.trace_op]
    simp [sumIdx, expectP, Matrix.one_apply, Fintype.sum_prod_type, Finset.sum_range]
  obtain ⟨R, e1, e2, e3⟩ := Rdm.symRdm_entries eigh (s := [p, p]) (T := rho) hs (by simp [hp]) (by rw [ht]; exact h0)
  refine ⟨R, e1, e2, fun H hH => ?_⟩
  rw [ht] at e3
  obtain ⟨n, hn⟩ : ∃ n : ℝ, n = (expectP rho (1 : Op2 p)).re := ⟨_, rfl⟩
  rw [← hn] at h0 ⊢
  have e3' : ∀ i j a b : Fin p, R.val [i, j, a, b] = 1 / (2 * (n : ℂ)) * (rho.val [i, j, a, b] + star (rho.val [a, b, i, j])) := by
    intro i j a b
    have := e3 [i, j] [a, b] (.cons i.isLt (.cons j.isLt .nil)) (.cons a.isLt (.cons b.isLt .nil))
    rw [hn]
    simpa using this
  have hX : expectP rho H + star (expectP rho H) = ((2 * (expectP rho H).re : ℝ) : ℂ) := by
    have := Complex.add_conj (expectP rho H)
    simpa using this
  have hY : expectP R H = 1 / (2 * (n : ℂ)) * (expectP rho H + star (expectP rho H)) := by
    have hst : star (expectP rho H) = ∑ r : Fin p × Fin p, ∑ s : Fin p × Fin p, star (rho.val [s.1, s.2, r.1, r.2]) * H s r := by
      unfold expectP
      rw [Finset.sum_comm]
      simp only [star_sum, star_mul']
      refine Finset.sum_congr rfl fun r _ => Finset.sum_congr rfl fun s _ => ?_
      rw [hH.apply]
    rw [hst]
    unfold expectP
    simp only [Finset.mul_sum, ← Finset.sum_add_distrib]
    refine Finset.sum_congr rfl fun r _ => Finset.sum_congr rfl fun s _ => ?_
    rw [e3']
    ring
  rw [hY, hX]
  have : (n : ℂ) ≠ 0 := by exact_mod_cast h0
  push_cast
  field_simp

theorem pick_units {p : Nat} {rho : Tensor ℂ} (r s : Fin p × Fin p) :
    ∑ i ∈ Finset.range p, ∑ a ∈ Finset.range p, ∑ j ∈ Finset.range p, ∑ b ∈ Finset.range p,
      rho.val [i, j, a, b] * (Corrf.Spec.unit (s.1 : Nat) (r.1 : Nat) a i * Corrf.Spec.unit (s.2 : Nat) (r.2 : Nat) b j) = rho.val [r.1, r.2, s.1, s.2] := by
  have h1 := r.1.isLt
  have h2 := r.2.isLt
  have h3 := s.1.isLt
  have h4 := s.2.isLt
  rw [Finset.sum_eq_single (r.1 : Nat), Finset.sum_eq_single (s.1 : Nat), Finset.sum_eq_single (r.2 : Nat), Finset.sum_eq_single (s.2 : Nat)]
  · simp [Corrf.Spec.unit]
  · intro b _ hb; simp [Corrf.Spec.unit, hb]
  · intro h; simp at h
  · intro b _ hb; simp [Corrf.Spec.unit, hb]
  · intro h; simp at h
  · intro b _ hb; simp [Corrf.Spec.unit, hb]
  · intro h; simp at h
  · intro b _ hb; simp [Corrf.Spec.unit, hb]
  · intro h; simp at h

section
variable {D : Dims} {st : State ℂ} {env : Env ℂ} {N : Corrf.Spec.Tensors ℂ}

/-- A density matrix whose traces with products are strips. -/
theorem expect_net {p : Nat} {rho : Tensor ℂ} {d : Dir} {c : Coord}
    (hx : ∀ o1 o2 : Corrf.Spec.Op ℂ, ∑ i ∈ Finset.range p, ∑ a ∈ Finset.range p, ∑ j ∈ Finset.range p, ∑ b ∈ Finset.range p, rho.val [i, j, a, b] * (o1 a i * o2 b j) =
      Corrf.Spec.twoPoint N D d c o1 o2 0) : (∀ H : Op2 p, expectP rho H = bondNet N D d c H) ∧ expectP rho (1 : Op2 p) = Corrf.Spec.norm N D d c 2 := by
  constructor
  · intro H
    rw [expectP, bondNet, Finset.sum_comm]
    refine Finset.sum_congr rfl fun s _ => Finset.sum_congr rfl fun r _ => ?_
    rw [← hx, pick_units, mul_comm]
  · have h1 : Corrf.Spec.norm N D d c 2 = Corrf.Spec.twoPoint N D d c Corrf.Spec.one Corrf.Spec.one 0 := rfl
    rw [h1, ← hx]
    simp [expectP, Corrf.Spec.one, Matrix.one_apply, Fintype.sum_prod_type, Finset.sum_range, Prod.ext_iff, ite_and]

/-- The density matrices of the two bonds of a site. -/
theorem pairP (eigh : Tensor ℂ → List ℝ × Tensor ℂ) {p : Nat} (hp0 : 0 < p) (hs : FitsState D st) (he : FitsEnv D st env) (hp : ∀ c, D.p c = p) (hN : Corrf.Spec.Reads st env N) (c : Coord) :
    ((Corrf.Spec.norm N D .right c 2).re ≠ 0 → ∃ R, Rdm.rdm2x1 eigh true false st env c = .ok R ∧ R.shape = [p, p, p, p] ∧
      ∀ H : Op2 p, H.IsHermitian → expectP R H = (bond N D .right c H : ℂ)) ∧
    ((Corrf.Spec.norm N D .down c 2).re ≠ 0 → ∃ R, Rdm.rdm1x2 eigh true false st env c = .ok R ∧ R.shape = [p, p, p, p] ∧
      ∀ H : Op2 p, H.IsHermitian → expectP R H = (bond N D .down c H : ℂ)) := by
  constructor
  · intro h0
    obtain ⟨-, e, a, b, rho, h1, h2, h3⟩ := Rdm.C32_row eigh false hs he c
    obtain ⟨hx, hn⟩ := expect_net (p := p) (rho := rho) (d := .right) (c := c) (N := N) (D := D) (fun o o' => by
      have := Rdm.pairRow_expect hs hN h1 h2 o o'
      simp only [hp] at this
      exact this)
    have hsh : rho.shape = [p, p, p, p] := by
      rw [h2.1]
      simp [Rdm.Spec.dimsH, hp]
    obtain ⟨R, e1, e2, e3⟩ := sym_expectP eigh hp0 hsh (by rw [hn]; exact h0)
    refine ⟨R, h3.trans e1, e2, fun H hH => ?_⟩
    rw [e3 H hH, hx, hn]
    rfl
  · intro h0
    obtain ⟨-, e, a, b, rho, h1, h2, h3⟩ := Rdm.C32_column eigh false hs he c
    obtain ⟨hx, hn⟩ := expect_net (p := p) (rho := rho) (d := .down) (c := c) (N := N) (D := D) (fun o o' => by
      have := Rdm.pairCol_expect hs hN h1 h2 o o'
      simp only [hp] at this
      exact this)
    have hsh : rho.shape = [p, p, p, p] := by
      rw [h2.1]
      simp [Rdm.Spec.dimsV, hp]
    obtain ⟨R, e1, e2, e3⟩ := sym_expectP eigh hp0 hsh (by rw [hn]; exact h0)
    refine ⟨R, h3.trans e1, e2, fun H hH => ?_⟩
    rw [e3 H hH, hx, hn]
    rfl

/-- The loop over the sites. -/
theorem bondLoop (eigh : Tensor ℂ → List ℝ × Tensor ℂ) {p : Nat} (hp0 : 0 < p) (hs : FitsState D st) (he : FitsEnv D st env) (hp : ∀ c, D.p c = p) (hN : Corrf.Spec.Reads st env N)
    {hx hy : Coord → Tensor ℂ} {Hx Hy : Coord → Op2 p} (ix : ∀ c, Is4 p (hx c) (Hx c)) (iy : ∀ c, Is4 p (hy c) (Hy c)) (sx : ∀ c, (Hx c).transpose = Hx c) (sy : ∀ c, (Hy c).transpose = Hy c)
    (kx : ∀ c, (Hx c).IsHermitian) (ky : ∀ c, (Hy c).IsHermitian) (l : List Coord) (h0 : ∀ c ∈ l, (Corrf.Spec.norm N D .right c 2).re ≠ 0 ∧ (Corrf.Spec.norm N D .down c 2).re ≠ 0) (acc : ℂ) :
    l.foldlM (bondStep eigh hx hy st env) acc = .ok (acc + ((l.map fun c => bond N D .right c (Hx c) + bond N D .down c (Hy c)).sum : ℝ)) := by
  induction l generalizing acc with
  | nil => simp [pure, Except.pure]
  | cons c l ih =>
    obtain ⟨q1, q2⟩ := pairP eigh hp0 hs he hp hN c
    obtain ⟨R, e1, e2, e3⟩ := q1 (h0 c (.head _)).1
    obtain ⟨R', e1', e2', e3'⟩ := q2 (h0 c (.head _)).2
    have : bondStep eigh hx hy st env acc c = .ok (acc + (bond N D .right c (Hx c) : ℂ) + (bond N D .down c (Hy c) : ℂ)) := by
      rw [bondStep, e1, Energy.bindOk, e1', Energy.bindOk, full4_is e2 (ix c) (sx c), C4v.lift_some, full4_is e2' (iy c) (sy c), C4v.lift_some, e3 _ (kx c), e3' _ (ky c)]
      rfl
    rw [List.foldlM_cons, this, Energy.bindOk, ih (fun c hc => h0 c (.tail _ hc))]
    congr 1
    rw [List.map_cons, List.sum_cons]
    push_cast
    ring

theorem bondEnergy_ok (eigh : Tensor ℂ → List ℝ × Tensor ℂ) {p : Nat} (hp0 : 0 < p) (hs : FitsState D st) (he : FitsEnv D st env) (ht : Tiling st) (hp : ∀ c, D.p c = p) (hN : Corrf.Spec.Reads st env N)
    {hx hy : Coord → Tensor ℂ} {Hx Hy : Coord → Op2 p} (ix : ∀ c, Is4 p (hx c) (Hx c)) (iy : ∀ c, Is4 p (hy c) (Hy c)) (sx : ∀ c, (Hx c).transpose = Hx c) (sy : ∀ c, (Hy c).transpose = Hy c)
    (kx : ∀ c, (Hx c).IsHermitian) (ky : ∀ c, (Hy c).IsHermitian) (h0 : ∀ c ∈ st.keys, (Corrf.Spec.norm N D .right c 2).re ≠ 0 ∧ (Corrf.Spec.norm N D .down c 2).re ≠ 0) :
    bondEnergy eigh hx hy st env = .ok (energy N D st.keys Hx Hy : ℂ) := by
  have hk : st.keys ≠ [] := List.ne_nil_of_mem (ht.mem (0, 0))
  rw [bondEnergy, bondLoop eigh hp0 hs he hp hN ix iy sx sy kx ky st.keys h0, Energy.bindOk, if_neg hk, zero_add, energy]
  push_cast
  rfl
end

end Verif.Models
