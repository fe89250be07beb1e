import Verif.Energy.Spec
import Verif.Group.Su2Props
import Verif.Tensor.Net
import Verif.Tensor.Einsum
import Verif.C4v.Lemmas
import Verif.Rdm.PlaqProps
/-
Values of the plaquette operators.
-/
namespace Verif.Energy
open Tensor Ctm

/-! ### Spin matrices -/

theorem lt2 {a : Nat} (h : a < 2) : a = 0 ∨ a = 1 := by omega

theorem sp0 : Su2.spEntry 2 0 = 1 := by
  have h := Su2.sp_sq 2 0 (by decide)
  have h0 : 0 ≤ Su2.spEntry 2 0 := Real.sqrt_nonneg _
  have h1 : Su2.spEntry 2 0 * Su2.spEntry 2 0 = 1 * 1 := by rw [h]; norm_num
  exact (mul_self_eq_mul_self_iff.1 h1).resolve_right (by linarith)

theorem sz_val {a b : Nat} (ha : a < 2) (hb : b < 2) : Su2.SZ 2 (Fin.ofNat 2 a) (Fin.ofNat 2 b) = Spec.sz a b := by
  rcases lt2 ha with rfl | rfl <;> rcases lt2 hb with rfl | rfl <;> simp [Su2.SZ, Spec.sz, Su2.szEntry] <;> norm_num

theorem sp_val {a b : Nat} (ha : a < 2) (hb : b < 2) : Su2.SP 2 (Fin.ofNat 2 a) (Fin.ofNat 2 b) = Spec.sp a b := by
  rcases lt2 ha with rfl | rfl <;> rcases lt2 hb with rfl | rfl <;> simp [Su2.SP_apply, Spec.sp, sp0]

theorem sm_val {a b : Nat} (ha : a < 2) (hb : b < 2) : Su2.SM 2 (Fin.ofNat 2 a) (Fin.ofNat 2 b) = Spec.sm a b := by
  rcases lt2 ha with rfl | rfl <;> rcases lt2 hb with rfl | rfl <;> simp [Su2.SM_apply, Spec.sm, sp0]

/-- The exchange operator is symmetric. -/
theorem ss_val (δ : ℝ) {a b a' b' : Nat} (ha : a < 2) (hb : b < 2) (ha' : a' < 2) (hb' : b' < 2) :
    (ssT (δ, 1, 1)).val [a, b, a', b'] = Spec.heis δ a' b' a b := by
  have hI := Complex.I_mul_I
  simp only [ssT, List.getD_cons_zero, List.getD_cons_succ, Su2.SS, sz_val ha ha', sz_val hb hb', sp_val ha ha', sp_val hb hb', sm_val ha ha', sm_val hb hb']
  rcases lt2 ha with rfl | rfl <;> rcases lt2 hb with rfl | rfl <;> rcases lt2 ha' with rfl | rfl <;> rcases lt2 hb' with rfl | rfl <;>
    simp [Spec.heis, Spec.sz, Spec.sx, Spec.sy, Spec.sp, Spec.sm] <;> first | (linear_combination (1/4) * hI) | (linear_combination (-1/4) * hI)

theorem heis_swap (δ : ℝ) (a b a' b' : Nat) : Spec.heis δ a b a' b' = Spec.heis δ b a b' a' := by simp only [Spec.heis]; ring

theorem huni_val (m : J1J2) {a b : Nat} (ha : a < 2) (hb : b < 2) : (huni1x1 m).val [a, b] = Spec.field (Spec.flipY m.hUni) b a := by
  simp only [huni1x1, opT, List.getD_cons_zero, List.getD_cons_succ, Matrix.of_apply, Fin.sum_univ_three, Su2.Svec, sz_val ha hb, sp_val ha hb, sm_val ha hb]
  rcases lt2 ha with rfl | rfl <;> rcases lt2 hb with rfl | rfl <;> simp [Spec.field, Spec.flipY, Spec.sz, Spec.sx, Spec.sy, Spec.sp, Spec.sm] <;> ring_nf <;> simp

theorem id2_val : ∃ T, idT 2 = some T ∧ T.shape = [2, 2, 2, 2] ∧ ∀ a b c d, a < 2 → b < 2 → c < 2 → d < 2 → T.val [a, b, c, d] = if a = c ∧ b = d then 1 else 0 := by
  refine ⟨_, rfl, rfl, fun a b c d ha hb hc hd => ?_⟩
  rcases lt2 ha with rfl | rfl <;> rcases lt2 hb with rfl | rfl <;> rcases lt2 hc with rfl | rfl <;> rcases lt2 hd with rfl | rfl <;> simp [ravel, unravel]

theorem id3_val : ∃ T, idT 3 = some T ∧ T.shape = [2, 2, 2, 2, 2, 2] ∧ ∀ a b c a' b' c', a < 2 → b < 2 → c < 2 → a' < 2 → b' < 2 → c' < 2 →
    T.val [a, b, c, a', b', c'] = if a = a' ∧ b = b' ∧ c = c' then 1 else 0 := by
  refine ⟨_, rfl, rfl, fun a b c a' b' c' ha hb hc ha' hb' hc' => ?_⟩
  rcases lt2 ha with rfl | rfl <;> rcases lt2 hb with rfl | rfl <;> rcases lt2 hc with rfl | rfl <;> rcases lt2 ha' with rfl | rfl <;> rcases lt2 hb' with rfl | rfl <;>
    rcases lt2 hc' with rfl | rfl <;> simp [ravel, unravel]

theorem p12_val : ∃ T, p12 = some T ∧ T.shape = [2, 2, 2, 2] ∧ ∀ a b c d, a < 2 → b < 2 → c < 2 → d < 2 → T.val [a, b, c, d] = if a = d ∧ b = c then 1 else 0 := by
  refine ⟨_, rfl, rfl, fun a b c d ha hb hc hd => ?_⟩
  rcases lt2 ha with rfl | rfl <;> rcases lt2 hb with rfl | rfl <;> rcases lt2 hc with rfl | rfl <;> rcases lt2 hd with rfl | rfl <;> simp [ravel, unravel]

/-! ### Operators on a plaquette -/

/-- `T` is a plaquette operator with the entries `f`, as far as they are observable. -/
structure Is8 (T : Tensor ℂ) (f : Nat → Nat → Nat → Nat → Nat → Nat → Nat → Nat → ℂ) : Prop where
  shape : T.shape = eight
  val : ∀ i j k l a b c d, i < 2 → j < 2 → k < 2 → l < 2 → a < 2 → b < 2 → c < 2 → d < 2 → T.val [i, j, k, l, a, b, c, d] = f i j k l a b c d

/-- The labels of an index. -/
def at8 (i j k l a b c d : Nat) : Nat → Nat := ([i, j, k, l, a, b, c, d].getD · 0)

theorem einsum8 (ops : List (Tensor ℂ × List Nat)) (hs : ∀ p ∈ ops, p.1.shape = p.2.map (fun _ => 2)) (ho : ∀ l ∈ [0, 1, 2, 3, 4, 5, 6, 7], l ∈ ops.flatMap Prod.snd) :
    ∃ T, einsum ops [0, 1, 2, 3, 4, 5, 6, 7] = some T ∧ Is8 T (fun i j k l a b c d =>
      sumOver (fun _ => 2) ((ops.flatMap Prod.snd).dedup.filter (fun l => l ∉ [0, 1, 2, 3, 4, 5, 6, 7])) (termOf ops) (at8 i j k l a b c d)) := by
  obtain ⟨T, e, s, v⟩ := einsum_ok (fun _ => 2) ops [0, 1, 2, 3, 4, 5, 6, 7] hs (by decide) ho
  refine ⟨T, e, s, fun i j k l a b c d hi hj hk hl ha hb hc hd => ?_⟩
  have := v (at8 i j k l a b c d) (by simp [at8]; omega)
  exact this

theorem pairOp_val {O : Tensor ℂ} {g : Nat → Nat → Nat → Nat → ℂ} (hs : O.shape = [2, 2, 2, 2]) (hO : ∀ a b a' b', a < 2 → b < 2 → a' < 2 → b' < 2 → O.val [a, b, a', b'] = g a b a' b') :
    ∃ T, pairOp O = some T ∧ Is8 T (fun i j k l a b c d => if k = c ∧ l = d then g i j a b else 0) := by
  obtain ⟨I, eI, sI, vI⟩ := id2_val
  obtain ⟨T, e, q⟩ := einsum8 [(O, [0, 1, 4, 5]), (I, [2, 3, 6, 7])] (by simp [hs, sI]) (by simp)
  refine ⟨T, by simp only [pairOp, eI, Option.bind_eq_bind, Option.bind_some, e], q.shape, fun i j k l a b c d hi hj hk hl ha hb hc hd => ?_⟩
  rw [q.val i j k l a b c d hi hj hk hl ha hb hc hd]
  rw [show ((([(O, [0, 1, 4, 5]), (I, [2, 3, 6, 7])] : List (Tensor ℂ × List Nat)).flatMap Prod.snd).dedup.filter (fun l => l ∉ [0, 1, 2, 3, 4, 5, 6, 7])) = [] from rfl]
  simp only [sumOver, termOf, List.map_cons, List.map_nil, at8, List.getD_cons_zero, List.getD_cons_succ, List.prod_cons, List.prod_nil, mul_one,
    hO i j a b hi hj ha hb, vI k l c d hk hl hc hd, mul_ite, mul_zero]

theorem siteOp_val {O : Tensor ℂ} {g : Nat → Nat → ℂ} (hs : O.shape = [2, 2]) (hO : ∀ a a', a < 2 → a' < 2 → O.val [a, a'] = g a a') :
    ∃ T, siteOp O = some T ∧ Is8 T (fun i j k l a b c d => if j = b ∧ k = c ∧ l = d then g i a else 0) := by
  obtain ⟨I, eI, sI, vI⟩ := id3_val
  obtain ⟨T, e, q⟩ := einsum8 [(O, [0, 4]), (I, [1, 2, 3, 5, 6, 7])] (by simp [hs, sI]) (by simp)
  refine ⟨T, by simp only [siteOp, eI, Option.bind_eq_bind, Option.bind_some, e], q.shape, fun i j k l a b c d hi hj hk hl ha hb hc hd => ?_⟩
  rw [q.val i j k l a b c d hi hj hk hl ha hb hc hd]
  rw [show ((([(O, [0, 4]), (I, [1, 2, 3, 5, 6, 7])] : List (Tensor ℂ × List Nat)).flatMap Prod.snd).dedup.filter (fun l => l ∉ [0, 1, 2, 3, 4, 5, 6, 7])) = [] from rfl]
  simp only [sumOver, termOf, List.map_cons, List.map_nil, at8, List.getD_cons_zero, List.getD_cons_succ, List.prod_cons, List.prod_nil, mul_one,
    hO i a hi ha, vI j k l b c d hj hk hl hb hc hd, mul_ite, mul_zero]

/-- The arguments of `f` at the places `0, ..., 7` of the permuted index. -/
def permFn (p : List Nat) (f : Nat → Nat → Nat → Nat → Nat → Nat → Nat → Nat → ℂ) (i j k l a b c d : Nat) : ℂ :=
  let x := at8 i j k l a b c d
  f (x (p.idxOf 0)) (x (p.idxOf 1)) (x (p.idxOf 2)) (x (p.idxOf 3)) (x (p.idxOf 4)) (x (p.idxOf 5)) (x (p.idxOf 6)) (x (p.idxOf 7))

theorem perm8 {T : Tensor ℂ} {f} (h : Is8 T f) (p : List Nat) (hp : p.Perm [0, 1, 2, 3, 4, 5, 6, 7]) : ∃ T', permute p T = some T' ∧ Is8 T' (permFn p f) := by
  have hl : p.length = 8 := hp.length_eq
  have hm : ∀ x ∈ p, x < 8 := fun x hx => by
    have := hp.mem_iff.1 hx
    simp at this
    omega
  have h8 : T.shape.length = 8 := by rw [h.shape]; rfl
  refine ⟨_, by rw [permute, if_pos ⟨by rw [hl, h8], hp.nodup_iff.2 (by decide), by rw [h8]; exact hm⟩], ?_, ?_⟩
  · simp only [h.shape]
    refine Eq.trans (List.map_congr_left (g := fun _ => 2) (fun x hx => ?_)) (by rw [List.map_const', hl]; rfl)
    have := hm x hx
    have : x = 0 ∨ x = 1 ∨ x = 2 ∨ x = 3 ∨ x = 4 ∨ x = 5 ∨ x = 6 ∨ x = 7 := by omega
    rcases this with rfl | rfl | rfl | rfl | rfl | rfl | rfl | rfl <;> rfl
  · intro i j k l a b c d hi hj hk hl' ha hb hc hd
    have hx : ∀ q < 8, at8 i j k l a b c d q < 2 := by
      intro q hq
      have : q = 0 ∨ q = 1 ∨ q = 2 ∨ q = 3 ∨ q = 4 ∨ q = 5 ∨ q = 6 ∨ q = 7 := by omega
      rcases this with rfl | rfl | rfl | rfl | rfl | rfl | rfl | rfl <;> assumption
    have hq : ∀ q < 8, p.idxOf q < 8 := by
      intro q hq
      rw [← hl]
      apply List.idxOf_lt_length_of_mem
      rw [hp.mem_iff]
      have : q = 0 ∨ q = 1 ∨ q = 2 ∨ q = 3 ∨ q = 4 ∨ q = 5 ∨ q = 6 ∨ q = 7 := by omega
      rcases this with rfl | rfl | rfl | rfl | rfl | rfl | rfl | rfl <;> decide
    simp only [h8]
    exact h.val _ _ _ _ _ _ _ _ (hx _ (hq 0 (by decide))) (hx _ (hq 1 (by decide))) (hx _ (hq 2 (by decide))) (hx _ (hq 3 (by decide)))
      (hx _ (hq 4 (by decide))) (hx _ (hq 5 (by decide))) (hx _ (hq 6 (by decide))) (hx _ (hq 7 (by decide)))

theorem Is8.congr {T : Tensor ℂ} {f g} (h : Is8 T f)
    (hfg : ∀ i j k l a b c d, i < 2 → j < 2 → k < 2 → l < 2 → a < 2 → b < 2 → c < 2 → d < 2 → f i j k l a b c d = g i j k l a b c d) : Is8 T g :=
  ⟨h.shape, fun i j k l a b c d hi hj hk hl ha hb hc hd => (h.val i j k l a b c d hi hj hk hl ha hb hc hd).trans (hfg i j k l a b c d hi hj hk hl ha hb hc hd)⟩

/-- The entries of an operator given by its matrix elements, stored with rows and columns exchanged. -/
def ofOp (O : List Nat → List Nat → ℂ) (i j k l a b c d : Nat) : ℂ := O [a, b, c, d] [i, j, k, l]

theorem comb_nil : Is8 (comb []) (ofOp (fun _ _ => 0)) := ⟨rfl, fun _ _ _ _ _ _ _ _ _ _ _ _ _ _ _ _ => by simp [comb, ofOp]⟩

theorem comb_cons {z : ℂ} {T : Tensor ℂ} {l : List (ℂ × Tensor ℂ)} {O P} (h : Is8 T (ofOp O)) (hl : Is8 (comb l) (ofOp P)) :
    Is8 (comb ((z, T) :: l)) (ofOp (fun t s => z * O t s + P t s)) := by
  refine ⟨rfl, fun i j k l' a b c d hi hj hk hl' ha hb hc hd => ?_⟩
  have h1 := h.val i j k l' a b c d hi hj hk hl' ha hb hc hd
  have h2 := hl.val i j k l' a b c d hi hj hk hl' ha hb hc hd
  simp only [comb, ofOp, List.map_cons, List.sum_cons] at h1 h2 ⊢
  rw [h1, h2]

/-- An exchange operator moved to another bond of the plaquette. -/
theorem pair_at (δ : ℝ) {T : Tensor ℂ} (h : Is8 T (fun i j k l a b c d => if k = c ∧ l = d then Spec.heis δ a b i j else 0)) :
    Is8 T (ofOp (Spec.onBond 0 1 (Spec.heis δ))) := by
  refine h.congr (fun i j k l a b c d _ _ _ _ _ _ _ _ => ?_)
  simp [ofOp, Spec.onBond, eq_comm]

theorem pair_02 (δ : ℝ) {T : Tensor ℂ} (h : Is8 T (permFn [0, 2, 1, 3, 4, 6, 5, 7] (ofOp (Spec.onBond 0 1 (Spec.heis δ))))) : Is8 T (ofOp (Spec.onBond 0 2 (Spec.heis δ))) := by
  refine h.congr (fun i j k l a b c d _ _ _ _ _ _ _ _ => ?_)
  simp [permFn, at8, ofOp, Spec.onBond]

theorem pair_23 (δ : ℝ) {T : Tensor ℂ} (h : Is8 T (permFn [2, 3, 0, 1, 6, 7, 4, 5] (ofOp (Spec.onBond 0 1 (Spec.heis δ))))) : Is8 T (ofOp (Spec.onBond 2 3 (Spec.heis δ))) := by
  refine h.congr (fun i j k l a b c d _ _ _ _ _ _ _ _ => ?_)
  simp [permFn, at8, ofOp, Spec.onBond]

theorem pair_13 (δ : ℝ) {T : Tensor ℂ} (h : Is8 T (permFn [3, 1, 2, 0, 7, 5, 6, 4] (ofOp (Spec.onBond 0 1 (Spec.heis δ))))) : Is8 T (ofOp (Spec.onBond 1 3 (Spec.heis δ))) := by
  refine h.congr (fun i j k l a b c d _ _ _ _ _ _ _ _ => ?_)
  simp [permFn, at8, ofOp, Spec.onBond, heis_swap δ d, and_comm]

theorem pair_03 (δ : ℝ) {T : Tensor ℂ} (h : Is8 T (permFn [0, 3, 2, 1, 4, 7, 6, 5] (ofOp (Spec.onBond 0 1 (Spec.heis δ))))) : Is8 T (ofOp (Spec.onBond 0 3 (Spec.heis δ))) := by
  refine h.congr (fun i j k l a b c d _ _ _ _ _ _ _ _ => ?_)
  simp [permFn, at8, ofOp, Spec.onBond, and_comm]

theorem pair_12 (δ : ℝ) {T : Tensor ℂ} (h : Is8 T (permFn [2, 1, 0, 3, 6, 5, 4, 7] (ofOp (Spec.onBond 0 1 (Spec.heis δ))))) : Is8 T (ofOp (Spec.onBond 1 2 (Spec.heis δ))) := by
  refine h.congr (fun i j k l a b c d _ _ _ _ _ _ _ _ => ?_)
  simp [permFn, at8, ofOp, Spec.onBond, heis_swap δ c]

theorem site_at (g : Nat → Nat → ℂ) {T : Tensor ℂ} (h : Is8 T (fun i j k l a b c d => if j = b ∧ k = c ∧ l = d then g a i else 0)) : Is8 T (ofOp (Spec.onSite 0 g)) := by
  refine h.congr (fun i j k l a b c d _ _ _ _ _ _ _ _ => ?_)
  simp [ofOp, Spec.onSite, eq_comm]

theorem site_1 (g : Nat → Nat → ℂ) {T : Tensor ℂ} (h : Is8 T (permFn [3, 0, 1, 2, 7, 4, 5, 6] (ofOp (Spec.onSite 0 g)))) : Is8 T (ofOp (Spec.onSite 1 g)) := by
  refine h.congr (fun i j k l a b c d _ _ _ _ _ _ _ _ => ?_)
  simp [permFn, at8, ofOp, Spec.onSite, and_comm, and_left_comm, and_assoc]

theorem site_2 (g : Nat → Nat → ℂ) {T : Tensor ℂ} (h : Is8 T (permFn [2, 3, 0, 1, 6, 7, 4, 5] (ofOp (Spec.onSite 0 g)))) : Is8 T (ofOp (Spec.onSite 2 g)) := by
  refine h.congr (fun i j k l a b c d _ _ _ _ _ _ _ _ => ?_)
  simp [permFn, at8, ofOp, Spec.onSite, and_comm, and_left_comm, and_assoc]

theorem site_3 (g : Nat → Nat → ℂ) {T : Tensor ℂ} (h : Is8 T (permFn [1, 2, 3, 0, 5, 6, 7, 4] (ofOp (Spec.onSite 0 g)))) : Is8 T (ofOp (Spec.onSite 3 g)) := by
  refine h.congr (fun i j k l a b c d _ _ _ _ _ _ _ _ => ?_)
  simp [permFn, at8, ofOp, Spec.onSite, and_comm, and_left_comm, and_assoc]

/-- The plaquette operator as a matrix. -/
noncomputable def hpOp (m : J1J2) (c : Coord) (t s : List Nat) : ℂ :=
  let j : ℂ := 1 / 2 * m.j1
  let g : ℂ := 1 / 4 * m.hzStag * sgn c
  let h := Spec.heis m.deltaZz
  let f := Spec.field (Spec.flipY m.hUni)
  j * Spec.onBond 0 1 h t s + (j * Spec.onBond 0 2 h t s + (j * Spec.onBond 2 3 h t s + (j * Spec.onBond 1 3 h t s +
    (m.j2 * Spec.onBond 0 3 (Spec.heis 1) t s + (m.j2 * Spec.onBond 1 2 (Spec.heis 1) t s +
    (-g * Spec.onSite 0 Spec.sz t s + (g * Spec.onSite 1 Spec.sz t s + (g * Spec.onSite 2 Spec.sz t s + (-g * Spec.onSite 3 Spec.sz t s +
    (1 / 4 * Spec.onSite 0 f t s + (1 / 4 * Spec.onSite 2 f t s + (1 / 4 * Spec.onSite 1 f t s + (1 / 4 * Spec.onSite 3 f t s + 0)))))))))))))

theorem sz_symm (a b : Nat) : Spec.sz a b = Spec.sz b a := by
  simp only [Spec.sz, eq_comm (a := a) (b := b)]
  split
  · rename_i h; rw [h]
  · rfl

theorem getHp_val (m : J1J2) (c : Coord) : ∃ T, getHp m c = some T ∧ Is8 T (ofOp (hpOp m c)) := by
  obtain ⟨nn, e1, q1⟩ := pairOp_val (O := ssT (m.deltaZz, 1, 1)) rfl (fun a b a' b' h1 h2 h3 h4 => ss_val m.deltaZz h1 h2 h3 h4)
  replace q1 := pair_at _ q1
  obtain ⟨nn1, e2, q2⟩ := perm8 q1 [0, 2, 1, 3, 4, 6, 5, 7] (by decide)
  obtain ⟨nn2, e3, q3⟩ := perm8 q1 [2, 3, 0, 1, 6, 7, 4, 5] (by decide)
  obtain ⟨nn3, e4, q4⟩ := perm8 q1 [3, 1, 2, 0, 7, 5, 6, 4] (by decide)
  obtain ⟨ss, e5, q5⟩ := pairOp_val (O := ssT (1, 1, 1)) (g := fun a b a' b' => Spec.heis 1 a' b' a b) rfl (fun a b a' b' h1 h2 h3 h4 => by have := ss_val 1 h1 h2 h3 h4; rwa [Complex.ofReal_one] at this)
  replace q5 := pair_at _ q5
  obtain ⟨ss0, e6, q6⟩ := perm8 q5 [0, 3, 2, 1, 4, 7, 6, 5] (by decide)
  obtain ⟨ss1, e7, q7⟩ := perm8 q5 [2, 1, 0, 3, 6, 5, 4, 7] (by decide)
  obtain ⟨hz, e8, q8⟩ := siteOp_val (O := opT (Su2.SZ 2)) (g := fun a b => Spec.sz b a) rfl (fun a a' h1 h2 => (sz_val h1 h2).trans (sz_symm _ _))
  replace q8 := site_at _ q8
  obtain ⟨hz1, e9, q9⟩ := perm8 q8 [3, 0, 1, 2, 7, 4, 5, 6] (by decide)
  obtain ⟨hz2, e10, q10⟩ := perm8 q8 [2, 3, 0, 1, 6, 7, 4, 5] (by decide)
  obtain ⟨hz3, e11, q11⟩ := perm8 q8 [1, 2, 3, 0, 5, 6, 7, 4] (by decide)
  obtain ⟨hu, e12, q12⟩ := siteOp_val (O := huni1x1 m) (g := fun a b => Spec.field (Spec.flipY m.hUni) b a) rfl (fun a a' h1 h2 => huni_val m h1 h2)
  replace q12 := site_at _ q12
  obtain ⟨hu2, e13, q13⟩ := perm8 q12 [2, 3, 0, 1, 6, 7, 4, 5] (by decide)
  obtain ⟨hu1, e14, q14⟩ := perm8 q12 [3, 0, 1, 2, 7, 4, 5, 6] (by decide)
  obtain ⟨hu3, e15, q15⟩ := perm8 q12 [1, 2, 3, 0, 5, 6, 7, 4] (by decide)
  refine ⟨_, by simp only [getHp, e1, e2, e3, e4, e5, e6, e7, e8, e9, e10, e11, e12, e13, e14, e15, Option.bind_eq_bind, Option.bind_some, Option.pure_def]; rfl, ?_⟩
  exact comb_cons q1 <| comb_cons (pair_02 _ q2) <| comb_cons (pair_23 _ q3) <| comb_cons (pair_13 _ q4) <| comb_cons (pair_03 _ q6) <| comb_cons (pair_12 _ q7) <|
    comb_cons q8 <| comb_cons (site_1 _ q9) <| comb_cons (site_2 _ q10) <| comb_cons (site_3 _ q11) <|
    comb_cons q12 <| comb_cons (site_2 _ q13) <| comb_cons (site_1 _ q14) <| comb_cons (site_3 _ q15) comb_nil

/-! ### The chirality -/

theorem dot8 {A B : Tensor ℂ} {f g} (hA : Is8 A f) (hB : Is8 B g) : ∃ T, tensordot [4, 5, 6, 7] [0, 1, 2, 3] A B = some T ∧ Is8 T (fun i j k l a b c d =>
    ∑ w ∈ Finset.range 2, ∑ x ∈ Finset.range 2, ∑ y ∈ Finset.range 2, ∑ z ∈ Finset.range 2, f i j k l w x y z * g w x y z a b c d) := by
  refine ⟨_, by rw [tensordot, if_pos (by rw [hA.shape, hB.shape]; decide)], ?_, ?_⟩
  · simp only [hA.shape, hB.shape]; rfl
  · intro i j k l a b c d hi hj hk hl ha hb hc hd
    simp only [hA.shape, hB.shape]
    refine Eq.trans (b := ∑ w ∈ Finset.range 2, ∑ x ∈ Finset.range 2, ∑ y ∈ Finset.range 2, ∑ z ∈ Finset.range 2, A.val [i, j, k, l, w, x, y, z] * B.val [w, x, y, z, a, b, c, d]) rfl ?_
    refine Finset.sum_congr rfl fun w hw => Finset.sum_congr rfl fun x hx => Finset.sum_congr rfl fun y hy => Finset.sum_congr rfl fun z hz => ?_
    rw [Finset.mem_range] at hw hx hy hz
    rw [hA.val i j k l w x y z hi hj hk hl hw hx hy hz, hB.val w x y z a b c d hw hx hy hz ha hb hc hd]

/-- A product with a permutation of the rows. -/
theorem pick4 {a b c d : Nat} (ha : a < 2) (hb : b < 2) (hc : c < 2) (hd : d < 2) (f : Nat → Nat → Nat → Nat → ℂ) :
    (∑ w ∈ Finset.range 2, ∑ x ∈ Finset.range 2, ∑ y ∈ Finset.range 2, ∑ z ∈ Finset.range 2, f w x y z * (if w = a ∧ x = b ∧ y = c ∧ z = d then 1 else 0)) = f a b c d := by
  rw [Finset.sum_eq_single a, Finset.sum_eq_single b, Finset.sum_eq_single c, Finset.sum_eq_single d] <;> simp_all

theorem chiral_val : ∃ T, chiral = some T ∧ Is8 T (ofOp Spec.chirality) := by
  obtain ⟨P, eP, sP, vP⟩ := p12_val
  obtain ⟨I, eI, sI, vI⟩ := id2_val
  obtain ⟨T, e, q⟩ := einsum8 [(P, [0, 1, 4, 5]), (I, [2, 3, 6, 7])] (by simp [sP, sI]) (by simp)
  replace q : Is8 T (fun i j k l a b c d => if i = b ∧ j = a ∧ k = c ∧ l = d then 1 else 0) := by
    refine q.congr (fun i j k l a b c d hi hj hk hl ha hb hc hd => ?_)
    rw [show ((([(P, [0, 1, 4, 5]), (I, [2, 3, 6, 7])] : List (Tensor ℂ × List Nat)).flatMap Prod.snd).dedup.filter (fun l => l ∉ [0, 1, 2, 3, 4, 5, 6, 7])) = [] from rfl]
    simp only [sumOver, termOf, List.map_cons, List.map_nil, at8, List.getD_cons_zero, List.getD_cons_succ, List.prod_cons, List.prod_nil, mul_one,
      vP i j a b hi hj ha hb, vI k l c d hk hl hc hd]
    split_ifs <;> simp_all
  obtain ⟨T1, e1, q1⟩ := perm8 q [3, 0, 1, 2, 7, 4, 5, 6] (by decide)
  obtain ⟨T2, e2, q2⟩ := perm8 q [2, 3, 0, 1, 6, 7, 4, 5] (by decide)
  obtain ⟨X, e3, q3⟩ := dot8 q1 q
  replace q3 : Is8 X (fun i j k l a b c d => if i = b ∧ j = c ∧ k = a ∧ l = d then 1 else 0) := by
    refine q3.congr (fun i j k l a b c d hi hj hk hl ha hb hc hd => ?_)
    rw [pick4 hb ha hc hd]
    simp [permFn, at8, and_comm, and_left_comm, and_assoc]
  obtain ⟨Y, e4, q4⟩ := dot8 q2 q3
  replace q4 : Is8 Y (fun i j k l a b c d => if i = b ∧ j = c ∧ k = d ∧ l = a then 1 else 0) := by
    refine q4.congr (fun i j k l a b c d hi hj hk hl ha hb hc hd => ?_)
    rw [pick4 hb hc ha hd]
    simp [permFn, at8, and_comm, and_left_comm, and_assoc]
  obtain ⟨Z, e5, q5⟩ := perm8 q4 [4, 5, 6, 7, 0, 1, 2, 3] (by decide)
  have q6 := comb_cons (z := Complex.I) (O := fun t s => if s.getD 0 0 = t.getD 1 0 ∧ s.getD 1 0 = t.getD 2 0 ∧ s.getD 2 0 = t.getD 3 0 ∧ s.getD 3 0 = t.getD 0 0 then 1 else 0)
    (q4.congr (fun _ _ _ _ _ _ _ _ _ _ _ _ _ _ _ _ => by simp [ofOp]))
    (comb_cons (z := -Complex.I) (O := fun t s => if t.getD 0 0 = s.getD 1 0 ∧ t.getD 1 0 = s.getD 2 0 ∧ t.getD 2 0 = s.getD 3 0 ∧ t.getD 3 0 = s.getD 0 0 then 1 else 0)
    (q5.congr (fun _ _ _ _ _ _ _ _ _ _ _ _ _ _ _ _ => by simp [ofOp, permFn, at8])) comb_nil)
  obtain ⟨W, e7, q7⟩ := perm8 q6 [0, 1, 3, 2, 4, 5, 7, 6] (by decide)
  refine ⟨W, by simp only [chiral, eP, eI, e, e1, e2, e3, e4, e5, e7, Option.bind_eq_bind, Option.bind_some], q7.congr (fun i j k l a b c d hi hj hk hl ha hb hc hd => ?_)⟩
  have h1 : (b = i ∧ d = j ∧ c = l ∧ a = k) ↔ (i = b ∧ j = d ∧ l = c ∧ k = a) := by omega
  have h2 : (j = a ∧ l = b ∧ k = d ∧ i = c) ↔ (a = j ∧ b = l ∧ d = k ∧ c = i) := by omega
  simp only [Spec.chirality, Spec.clockwise, ofOp, permFn, at8, List.getD_cons_zero, List.getD_cons_succ, h1, h2]
  simp only [List.idxOf, List.findIdx, List.findIdx.go]
  simp
  split_ifs <;> simp

/-! ### Expectation values -/

theorem full_val {r h : Tensor ℂ} {O} (hr : r.shape = eight) (hh : Is8 h (ofOp O)) : full r h = some (Spec.expect r O) := by
  obtain ⟨R, e, -, v⟩ := einsum_ok (fun _ => 2) [(r, [0, 1, 2, 3, 4, 5, 6, 7]), (h, [0, 1, 2, 3, 4, 5, 6, 7])] [] (by simp [hr, hh.shape, eight]) (by decide) (by simp)
  have hv := v (fun _ => 0) (by simp)
  rw [List.map_nil] at hv
  simp only [full, e, Option.bind_eq_bind, Option.bind_some, Option.pure_def, hv]
  have hd : ([0, 1, 2, 3, 4, 5, 6, 7] ++ ([0, 1, 2, 3, 4, 5, 6, 7] ++ ([] : List Nat))).dedup.filter (fun l => decide (l ∉ ([] : List Nat))) = [0, 1, 2, 3, 4, 5, 6, 7] := by decide
  rw [List.flatMap_cons, List.flatMap_cons, List.flatMap_nil, hd]
  refine congrArg some ?_
  refine Eq.trans (b := sumIdx eight (fun idx => r.val idx * h.val idx)) ?_ ?_
  · have := Rdm.sumIdx_map (fun _ => 2) [0, 1, 2, 3, 4, 5, 6, 7] (by decide) (fun idx => r.val idx * h.val idx) (fun _ => 0)
    rw [show eight = [0, 1, 2, 3, 4, 5, 6, 7].map (fun _ => 2) from rfl, this]
    refine congrArg (fun f => sumOver (fun _ => 2) [0, 1, 2, 3, 4, 5, 6, 7] f (fun _ => 0)) (funext fun σ => ?_)
    simp only [termOf, List.map_cons, List.map_nil, List.prod_cons, List.prod_nil, mul_one]
  · simp only [eight, Spec.expect, sumIdx, List.cons_append, List.nil_append]
    refine Finset.sum_congr rfl fun i hi => Finset.sum_congr rfl fun j hj => Finset.sum_congr rfl fun k hk => Finset.sum_congr rfl fun l hl =>
      Finset.sum_congr rfl fun a ha => Finset.sum_congr rfl fun b hb => Finset.sum_congr rfl fun c hc => Finset.sum_congr rfl fun d hd => ?_
    rw [Finset.mem_range] at hi hj hk hl ha hb hc hd
    rw [hh.val i j k l a b c d hi hj hk hl ha hb hc hd]
    simp only [ofOp]

theorem sumIdx_add' (sh : List Nat) (f g : List Nat → ℂ) : sumIdx sh (fun x => f x + g x) = sumIdx sh f + sumIdx sh g := by
  induction sh generalizing f g with
  | nil => rfl
  | cons d sh ih => simp only [sumIdx, ih, Finset.sum_add_distrib]

theorem sumIdx_mul' (sh : List Nat) (z : ℂ) (f : List Nat → ℂ) : sumIdx sh (fun x => z * f x) = z * sumIdx sh f := by
  induction sh generalizing f with
  | nil => rfl
  | cons d sh ih => simp only [sumIdx, ih, Finset.mul_sum]

theorem expect_add (r : Tensor ℂ) (O P : List Nat → List Nat → ℂ) : Spec.expect r (fun t s => O t s + P t s) = Spec.expect r O + Spec.expect r P := by
  simp only [Spec.expect, mul_add, sumIdx_add']

theorem expect_mul (r : Tensor ℂ) (z : ℂ) (O : List Nat → List Nat → ℂ) : Spec.expect r (fun t s => z * O t s) = z * Spec.expect r O := by
  simp only [Spec.expect, mul_left_comm, sumIdx_mul']

theorem expect_zero (r : Tensor ℂ) : Spec.expect r (fun _ _ => 0) = 0 := by simpa using expect_mul r 0 (fun _ _ => 0)

theorem hp_expect (m : J1J2) (c : Coord) (r : Tensor ℂ) :
    Spec.expect r (hpOp m c) =
      1 / 2 * m.j1 * (Spec.expect r (Spec.onBond 0 1 (Spec.heis m.deltaZz)) + Spec.expect r (Spec.onBond 0 2 (Spec.heis m.deltaZz)) +
        Spec.expect r (Spec.onBond 2 3 (Spec.heis m.deltaZz)) + Spec.expect r (Spec.onBond 1 3 (Spec.heis m.deltaZz)))
      + m.j2 * (Spec.expect r (Spec.onBond 0 3 (Spec.heis 1)) + Spec.expect r (Spec.onBond 1 2 (Spec.heis 1)))
      - 1 / 4 * m.hzStag * sgn c * (Spec.expect r (Spec.onSite 0 Spec.sz) - Spec.expect r (Spec.onSite 1 Spec.sz) - Spec.expect r (Spec.onSite 2 Spec.sz) + Spec.expect r (Spec.onSite 3 Spec.sz))
      + 1 / 4 * (Spec.expect r (Spec.onSite 0 (Spec.field (Spec.flipY m.hUni))) + Spec.expect r (Spec.onSite 1 (Spec.field (Spec.flipY m.hUni)))
        + Spec.expect r (Spec.onSite 2 (Spec.field (Spec.flipY m.hUni))) + Spec.expect r (Spec.onSite 3 (Spec.field (Spec.flipY m.hUni)))) := by
  have : hpOp m c = fun t s => _ := rfl
  unfold hpOp
  simp only [expect_add, expect_mul, expect_zero]
  ring

end Verif.Energy
