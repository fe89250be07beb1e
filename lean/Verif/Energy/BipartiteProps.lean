import Verif.Energy.Bipartite
import Verif.Energy.Examples
/-
C72: the energy of a single-site state with a rotated sublattice.
-/
namespace Verif.Energy
open Tensor Ctm Ctm.Spec

/-! ### The checkerboard -/

section
variable {D : Dims} {a : Tensor ℂ} {env : Env ℂ}

theorem sizes_any {st : State ℂ} {f : Coord → Nat} (h : Sizes (Spec.single a) f) : Sizes st f := by
  refine ⟨h.1, fun c => ?_⟩
  rw [← h.2 c, ← h.2 (st.vts c)]
  rfl

theorem single_const {f : Coord → Nat} (h : Sizes (Spec.single a) f) : ∃ n, f = fun _ => n := ⟨f (0, 0), funext fun c => (h.2 c).symm⟩

theorem checker_state (hs : FitsState D (Spec.single a)) : FitsState D (Spec.checker a) := by
  refine ⟨fun c => ?_, sizes_any hs.p, sizes_any hs.U, sizes_any hs.L⟩
  obtain ⟨t, h1, h2⟩ := hs.site c
  have : t = a := by injection h1.symm
  subst this
  unfold State.site Spec.checker
  simp only
  split_ifs
  · exact ⟨_, rfl, h2⟩
  · exact ⟨_, rfl, h2⟩

theorem checker_env (he : FitsEnv D (Spec.single a) env) : FitsEnv D (Spec.checker a) (Spec.both env) :=
  ⟨he.lu, he.ru, he.rd, he.ld, he.tu, he.tl, he.td, he.tr, sizes_any he.eu, sizes_any he.el, sizes_any he.ed, sizes_any he.er⟩

theorem checker_tiling (a : Tensor ℂ) : Tiling (Spec.checker a) := by
  refine ⟨fun c v => ?_, fun c => ?_, fun c hc => ?_, by simp [Spec.checker]⟩
  · simp only [Spec.checker]
    ext
    · simp only; omega
    · rfl
  · simp only [Spec.checker, List.mem_cons, Prod.mk.injEq, and_true, List.not_mem_nil, or_false]
    omega
  · simp only [Spec.checker, List.mem_cons, List.not_mem_nil, or_false] at hc
    rcases hc with rfl | rfl <;> simp [Spec.checker]

theorem dims_const (hs : FitsState D (Spec.single a)) (he : FitsEnv D (Spec.single a) env) (c : Coord) : Rdm.Spec.dimsP D c = Rdm.Spec.dimsP D (0, 0) := by
  obtain ⟨n1, h1⟩ := single_const hs.p
  obtain ⟨n2, h2⟩ := single_const hs.U
  obtain ⟨n3, h3⟩ := single_const hs.L
  obtain ⟨n4, h4⟩ := single_const he.eu
  obtain ⟨n5, h5⟩ := single_const he.el
  obtain ⟨n6, h6⟩ := single_const he.ed
  obtain ⟨n7, h7⟩ := single_const he.er
  cases D
  simp only at h1 h2 h3 h4 h5 h6 h7
  subst h1 h2 h3 h4 h5 h6 h7
  rfl

/-- The plaquettes of the checkerboard have the density matrix of the single site with one sublattice rotated. -/
theorem checker_rdm (eigh : Tensor ℂ → List ℝ × Tensor ℂ) (hs : FitsState D (Spec.single a)) (he : FitsEnv D (Spec.single a) env) (hp : ∀ c, D.p c = 2) {r : Tensor ℂ}
    (hr : Rdm.rdm2x2 eigh false (Spec.single a) env (0, 0) [0, 1, 2, 3] = .ok r) :
    (∃ r', Rdm.rdm2x2 eigh false (Spec.checker a) (Spec.both env) (0, 0) [0, 1, 2, 3] = .ok r' ∧ r'.shape = eight ∧ RotOf fl12 r r') ∧
      ∃ r', Rdm.rdm2x2 eigh false (Spec.checker a) (Spec.both env) (1, 0) [0, 1, 2, 3] = .ok r' ∧ r'.shape = eight ∧ RotOf fl03 r r' := by
  obtain ⟨e, s, h1, h0, h2⟩ := Rdm.plaq_ok hs he (0, 0)
  have hd : ∀ x < 4, Rdm.Spec.dimsP D (0, 0) (100 + 2 * x) = 2 ∧ Rdm.Spec.dimsP D (0, 0) (101 + 2 * x) = 2 := by
    intro x hx
    have : x = 0 ∨ x = 1 ∨ x = 2 ∨ x = 3 := by omega
    rcases this with rfl | rfl | rfl | rfl <;> simp [Rdm.Spec.dimsP, Rdm.Spec.physP, hp]
  have hsa : s = ⟨a, a, a, a⟩ := by
    obtain ⟨-, -, -, -, -, -, -, -, -, -, -, -, e1, e2, e3, e4⟩ := h0
    cases s
    simp only [Spec.single, Option.some.injEq] at e1 e2 e3 e4
    subst e1 e2 e3 e4
    rfl
  have key : ∀ c, ∃ s', Rdm.plaq (Spec.checker a) (Spec.both env) c = some (e, s') ∧ Rdm.Spec.FitsP (Rdm.Spec.dimsP D (0, 0)) e s' ∧
      Rdm.Spec.AroundPlaq (Spec.checker a) (Spec.both env) c e s' := by
    intro c
    obtain ⟨e', s', g1, g0, g2⟩ := Rdm.plaq_ok (checker_state hs) (checker_env he) c
    rw [dims_const hs he c] at g2
    have : e' = e := by
      cases e
      cases e'
      simp only [Rdm.PlaqEnv.mk.injEq]
      exact ⟨Option.some.inj (g0.C1.symm.trans h0.C1), Option.some.inj (g0.C2.symm.trans h0.C2), Option.some.inj (g0.C3.symm.trans h0.C3), Option.some.inj (g0.C4.symm.trans h0.C4),
        Option.some.inj (g0.T1.symm.trans h0.T1), Option.some.inj (g0.T4.symm.trans h0.T4), Option.some.inj (g0.T1x.symm.trans h0.T1x), Option.some.inj (g0.T2x.symm.trans h0.T2x),
        Option.some.inj (g0.T2xy.symm.trans h0.T2xy), Option.some.inj (g0.T3xy.symm.trans h0.T3xy), Option.some.inj (g0.T3y.symm.trans h0.T3y), Option.some.inj (g0.T4y.symm.trans h0.T4y)⟩
    subst this
    exact ⟨s', g1, g2, g0⟩
  subst hsa
  constructor
  · obtain ⟨s', g1, g2, g0⟩ := key (0, 0)
    obtain ⟨-, -, -, -, -, -, -, -, -, -, -, -, e1, e2, e3, e4⟩ := g0
    simp [Spec.checker, rt, dn] at e1 e2 e3 e4
    refine rdm_rot eigh fl12 hd h1 g1 h2 g2 ?_ ?_ ?_ ?_ hr
    · rw [← e1]; exact fun p _ rest => same_val a p rest
    · rw [← e2]; exact rotated_val a
    · rw [← e3]; exact rotated_val a
    · rw [← e4]; exact fun p _ rest => same_val a p rest
  · obtain ⟨s', g1, g2, g0⟩ := key (1, 0)
    obtain ⟨-, -, -, -, -, -, -, -, -, -, -, -, e1, e2, e3, e4⟩ := g0
    simp [Spec.checker, rt, dn] at e1 e2 e3 e4
    refine rdm_rot eigh fl03 hd h1 g1 h2 g2 ?_ ?_ ?_ ?_ hr
    · rw [← e1]; exact rotated_val a
    · rw [← e2]; exact fun p _ rest => same_val a p rest
    · rw [← e3]; exact fun p _ rest => same_val a p rest
    · rw [← e4]; exact rotated_val a

/-! ### Third neighbours -/

/-- The tensors of the checkerboard. -/
noncomputable def checkTensors (a : Tensor ℂ) (N : Corrf.Spec.Tensors ℂ) : Corrf.Spec.Tensors ℂ := { N with a := fun c => if (c.1 + c.2) % 2 = 0 then a else Spec.rotated a }

theorem checker_reads {N : Corrf.Spec.Tensors ℂ} (h : Corrf.Spec.Reads (Spec.single a) env N) : Corrf.Spec.Reads (Spec.checker a) (Spec.both env) (checkTensors a N) := by
  refine ⟨h.lu, h.ru, h.rd, h.ld, h.tu, h.tl, h.td, h.tr, fun c => ?_⟩
  simp only [Spec.checker, checkTensors, Prod.mk.injEq, and_true]
  split_ifs <;> rfl

theorem layer_rot (ha : a.size 0 = 2) (u l d r : Nat) : Corrf.Spec.layer (Spec.rotated a) Corrf.Spec.one u l d r = Corrf.Spec.layer a Corrf.Spec.one u l d r := by
  have hsz : ∀ n, (Spec.rotated a).size n = a.size n := fun _ => rfl
  simp only [Corrf.Spec.layer, hsz, ha, Corrf.Spec.one]
  simp only [sum_range2, rotated_val a 0 (by decide), rotated_val a 1 (by decide), se, fb]
  simp
  ring

theorem check_step {N : Corrf.Spec.Tensors ℂ} (hN : ∀ c, N.a c = a) (ha : a.size 0 = 2) (d : Dir) (c : Coord) (o : Corrf.Spec.Op ℂ) (ho : (c.1 + c.2) % 2 = 0 ∨ o = Corrf.Spec.one) (E : Corrf.Spec.Vec ℂ) :
    Corrf.Spec.step (checkTensors a N) D d c o E = Corrf.Spec.step N D d c o E := by
  have hm : ∀ y m n y', Corrf.Spec.middle (checkTensors a N) d c o y m n y' = Corrf.Spec.middle N d c o y m n y' := by
    intro y m n y'
    have hl : ∀ u l d' r, Corrf.Spec.layer ((checkTensors a N).a c) o u l d' r = Corrf.Spec.layer (N.a c) o u l d' r := by
      intro u l d' r
      rw [hN]
      simp only [checkTensors]
      split_ifs with h
      · rfl
      · rcases ho with h' | rfl
        · exact absurd h' h
        · exact layer_rot ha u l d' r
    cases d <;> exact hl _ _ _ _
  have hf : ∀ x m x', Corrf.Spec.first (checkTensors a N) d c x m x' = Corrf.Spec.first N d c x m x' := by intro x m x'; cases d <;> rfl
  have hg : ∀ x m x', Corrf.Spec.second (checkTensors a N) d c x m x' = Corrf.Spec.second N d c x m x' := by intro x m x'; cases d <;> rfl
  funext x y z
  simp only [Corrf.Spec.step, hm, hf, hg]

theorem check_edge (N : Corrf.Spec.Tensors ℂ) (d : Dir) (c : Coord) : Corrf.Spec.edge (checkTensors a N) D d c = Corrf.Spec.edge N D d c := by
  funext x y z
  cases d <;> rfl

theorem check_norm {N : Corrf.Spec.Tensors ℂ} (hN : ∀ c, N.a c = a) (ha : a.size 0 = 2) (d : Dir) (c : Coord) (n : Nat) : Corrf.Spec.norm (checkTensors a N) D d c n = Corrf.Spec.norm N D d c n := by
  have hg : ∀ n c E, Corrf.Spec.grow (checkTensors a N) D d c (List.replicate n Corrf.Spec.one) E = Corrf.Spec.grow N D d c (List.replicate n Corrf.Spec.one) E := by
    intro n
    induction n with
    | zero => intro c E; rfl
    | succ n ih =>
      intro c E
      rw [List.replicate_succ, Corrf.Spec.grow, Corrf.Spec.grow, ih, check_step hN ha d c _ (Or.inr rfl)]
  rw [Corrf.Spec.norm, Corrf.Spec.norm, Corrf.Spec.network, Corrf.Spec.network, hg, check_edge, check_edge]

theorem check_two {N : Corrf.Spec.Tensors ℂ} (hN : ∀ c, N.a c = a) (ha : a.size 0 = 2) (d : Dir) (o o' : Corrf.Spec.Op ℂ) :
    Corrf.Spec.twoPoint (checkTensors a N) D d (0, 0) o o' 1 = Corrf.Spec.twoPoint N D d (0, 0) o o' 1 := by
  rw [Corrf.Spec.twoPoint, Corrf.Spec.twoPoint, Corrf.Spec.network, Corrf.Spec.network, check_edge, check_edge]
  have : Corrf.Spec.grow (checkTensors a N) D d (0, 0) (o :: List.replicate 1 Corrf.Spec.one ++ [o']) (Corrf.Spec.edge N D (Corrf.rev d) (0, 0)) =
      Corrf.Spec.grow N D d (0, 0) (o :: List.replicate 1 Corrf.Spec.one ++ [o']) (Corrf.Spec.edge N D (Corrf.rev d) (0, 0)) := by
    simp only [List.replicate_one, List.cons_append, List.nil_append, Corrf.Spec.grow]
    rw [check_step hN ha d (0, 0) o (Or.inl rfl), check_step hN ha d _ _ (Or.inr rfl), check_step hN ha d _ o' (Or.inl (by cases d <;> simp [Corrf.Spec.ahead, Dir.vec]))]
  rw [this]

theorem check_third {N : Corrf.Spec.Tensors ℂ} (hN : ∀ c, N.a c = a) (ha : a.size 0 = 2) : Spec.third (checkTensors a N) D (0, 0) = Spec.third N D (0, 0) := by
  simp only [Spec.third, Spec.exchange, check_two hN ha, check_norm hN ha]

/-! ### C72 -/

/-- `energy_2x2_1site_BP` of a single-site state is `energy_per_site` of the checkerboard of `A` and `R A` with the same environment tensors. -/
theorem C72_bipartite (eigh : Tensor ℂ → List ℝ × Tensor ℂ) (m : J1J2) (hs : FitsState D (Spec.single a)) (he : FitsEnv D (Spec.single a) env) (hp : ∀ c, D.p c = 2) {r : Tensor ℂ}
    (hr : Rdm.rdm2x2 eigh false (Spec.single a) env (0, 0) [0, 1, 2, 3] = .ok r) (hu : m.hUni 0 = 0 ∧ m.hUni 1 = 0)
    (hj : m.j3 = 0 ∨ ∃ N, Corrf.Spec.Reads (Spec.single a) env N ∧ ∀ d, ∀ n ≤ 2, Corrf.Spec.norm N D d (0, 0) (n + 2) ≠ 0) :
    ∃ x, energy1siteBP eigh m (Spec.single a) env = .ok x ∧ energyPerSite eigh m (Spec.checker a) (Spec.both env) = .ok x := by
  obtain ⟨⟨r0, e0, s0, q0⟩, ⟨r1, e1, s1, q1⟩⟩ := checker_rdm eigh hs he hp hr
  obtain ⟨n, hn, hn'⟩ : ∃ n, (m.j3 = 0 ∨ nnnn (Spec.single a) env (0, 0) = .ok n) ∧ (m.j3 = 0 ∨ nnnn (Spec.checker a) (Spec.both env) (0, 0) = .ok n) := by
    rcases hj with h | ⟨N, h1, h2⟩
    · exact ⟨0, Or.inl h, Or.inl h⟩
    · have hNa : ∀ c, N.a c = a := fun c => (Option.some.inj (h1.a c)).symm
      have hst : Tiling (Spec.single a) := ⟨fun _ _ => rfl, fun _ => by simp [Spec.single], fun c hc => by simp [Spec.single] at hc ⊢; exact hc.symm, by simp [Spec.single]⟩
      have ha : a.size 0 = 2 := by rw [← hNa (0, 0)]; exact size_two hs hp h1 (0, 0)
      refine ⟨_, Or.inr (nnnn_eq hst hs he hp h1 (0, 0) h2), Or.inr ?_⟩
      rw [nnnn_eq (checker_tiling a) (checker_state hs) (checker_env he) hp (checker_reads h1) (0, 0) (fun d n hn => by rw [check_norm hNa ha]; exact h2 d n hn), check_third hNa ha]
  have hE := energy_eq eigh m (st := Spec.checker a) (env := Spec.both env) (r := fun c => if c = (0, 0) then r0 else r1) (by simp [Spec.checker])
    (fun c hc => by
      simp only [Spec.checker, List.mem_cons, List.not_mem_nil, or_false] at hc
      rcases hc with rfl | rfl
      · simpa using e0
      · simpa using e1)
    (fun c hc => by split_ifs <;> assumption) n hn'
  have hrs : r.shape = eight := (rdm_ok eigh hs he hp hr).1
  have hBP : energy1siteBP eigh m (Spec.single a) env = .ok (Spec.expect r0 (hpOp m (0, 0)) + m.lmbd * Spec.expect r0 Spec.chirality + m.j3 * n).re := by
    obtain ⟨H, eH, qH⟩ := getHp_val m (0, 0)
    obtain ⟨H', eH', qH'⟩ := rotBC_val qH
    obtain ⟨C, eC, qC⟩ := chiral_val
    obtain ⟨C', eC', qC'⟩ := rotBC_val qC
    have h1 : chiralTermRot m r = .ok (m.lmbd * Spec.expect r0 Spec.chirality) := by
      unfold chiralTermRot
      split_ifs with h0
      · simp [h0]
      · rw [eC, C4v.lift_some, eC', C4v.lift_some, full_val hrs (comb_cons qC' comb_nil), expect_add, expect_mul, expect_zero, add_zero, expect_rot q0]
        rfl
    have h2 : thirdTerm m (Spec.single a) env = .ok (m.j3 * n) := by
      unfold thirdTerm
      split_ifs with h0
      · simp [h0]
      · rw [hn.resolve_left h0, bindOk]; rfl
    rw [energy1siteBP, if_pos hu, hr, bindOk, eH, C4v.lift_some, eH', C4v.lift_some, full_val hrs qH', C4v.lift_some, h1, bindOk, h2, bindOk, ← expect_rot q0]
    rfl
  refine ⟨_, hBP, hE.trans ?_⟩
  have hb : ∀ i j, i < j → j < 4 → ∀ δ, Spec.expect r1 (Spec.onBond i j (Spec.heis δ)) = Spec.expect r0 (Spec.onBond i j (Spec.heis δ)) := by
    intro i j hij hj4 δ
    have hk : kap (fl03 i) * kap (fl03 j) = kap (fl12 i) * kap (fl12 j) := by
      have hmn : (i = 0 ∧ j = 1) ∨ (i = 0 ∧ j = 2) ∨ (i = 0 ∧ j = 3) ∨ (i = 1 ∧ j = 2) ∨ (i = 1 ∧ j = 3) ∨ (i = 2 ∧ j = 3) := by omega
      rcases hmn with ⟨rfl, rfl⟩ | ⟨rfl, rfl⟩ | ⟨rfl, rfl⟩ | ⟨rfl, rfl⟩ | ⟨rfl, rfl⟩ | ⟨rfl, rfl⟩ <;> simp [kap, fl12, fl03]
    have hy : ∀ b i j, i < 2 → j < 2 → conjO b Spec.sy i j = (fun _ => (1 : ℂ)) b * Spec.sy i j := fun b i j hi hj => by rw [one_mul]; exact conj_sy b hi hj
    rw [heis_expect _ i j hij hj4, heis_expect _ i j hij hj4, rot_two q1 i j hj4 hij kap (fun b i j => conj_sz b), rot_two q1 i j hj4 hij kap (fun b i j => conj_sx b), rot_two q1 i j hj4 hij _ hy,
      rot_two q0 i j hj4 hij kap (fun b i j => conj_sz b), rot_two q0 i j hj4 hij kap (fun b i j => conj_sx b), rot_two q0 i j hj4 hij _ hy, hk]
  have hz : ∀ x < 4, Spec.expect r1 (Spec.onSite x Spec.sz) = - Spec.expect r0 (Spec.onSite x Spec.sz) := by
    intro x hx
    have hk : kap (fl03 x) = - kap (fl12 x) := by
      have : x = 0 ∨ x = 1 ∨ x = 2 ∨ x = 3 := by omega
      rcases this with rfl | rfl | rfl | rfl <;> simp [kap, fl12, fl03]
    rw [rot_site q1 x hx kap (fun b i j => conj_sz b), rot_site q0 x hx kap (fun b i j => conj_sz b), hk, neg_mul]
  have hf : ∀ x < 4, Spec.expect r1 (Spec.onSite x (Spec.field (Spec.flipY m.hUni))) = Spec.expect r0 (Spec.onSite x (Spec.field (Spec.flipY m.hUni))) := by
    intro x hx
    have hy : ∀ b i j, i < 2 → j < 2 → conjO b (Spec.field (Spec.flipY m.hUni)) i j = (fun _ => (1 : ℂ)) b * Spec.field (Spec.flipY m.hUni) i j := by
      intro b i j hi hj
      have := conj_sy b hi hj
      simp only [conjO] at this
      simp only [conjO, Spec.field, Spec.flipY, hu.1, hu.2, one_mul]
      rw [← this]
      simp
      ring
    rw [rot_site q1 x hx _ hy, rot_site q0 x hx _ hy]
  have hc : Spec.expect r1 Spec.chirality = Spec.expect r0 Spec.chirality := by
    rw [expect_rot q1, expect_rot q0]
    exact expect_congr (fun _ _ _ _ _ _ _ _ _ _ _ _ _ _ _ _ => rfl) fun i j k l a b c d hi hj hk hl ha hb hc hd => (chir_rot i j k l a b c d hi hj hk hl ha hb hc hd).symm
  have hh : Spec.expect r1 (hpOp m (1, 0)) = Spec.expect r0 (hpOp m (0, 0)) := by
    rw [hp_expect, hp_expect]
    rw [hb 0 1 (by decide) (by decide), hb 0 2 (by decide) (by decide), hb 2 3 (by decide) (by decide), hb 1 3 (by decide) (by decide), hb 0 3 (by decide) (by decide), hb 1 2 (by decide) (by decide),
      hz 0 (by decide), hz 1 (by decide), hz 2 (by decide), hz 3 (by decide), hf 0 (by decide), hf 1 (by decide), hf 2 (by decide), hf 3 (by decide)]
    have h1 : sgn (1, 0) = - sgn (0, 0) := by simp [sgn]
    rw [h1]
    ring
  refine congrArg (fun z : ℂ => (Except.ok z.re : Except Err ℝ)) ?_
  simp only [Spec.checker, List.map_cons, List.map_nil, List.sum_cons, List.sum_nil, reduceIte, Prod.mk.injEq, one_ne_zero, false_and, List.length_cons, List.length_nil, hh, hc]
  push_cast
  ring

/-- Fields along z or x are refused. -/
theorem C72_refused (eigh : Tensor ℂ → List ℝ × Tensor ℂ) (m : J1J2) (st : State ℂ) (env : Env ℂ) (hu : ¬(m.hUni 0 = 0 ∧ m.hUni 1 = 0)) : energy1siteBP eigh m st env = .error .raise := by
  rw [energy1siteBP, if_neg hu]

end

/-- All couplings, on a spin with components along y and z; the staggered field is non-zero. -/
example (eigh : Tensor ℂ → List ℝ × Tensor ℂ) : ∃ x, energy1siteBP eigh ⟨1, 2, 4, 6, 3, 5, fun i => if i = 2 then 7 else 0⟩ (Spec.single (Corrf.pSite yVec)) Corrf.pEnv = .ok x ∧
    energyPerSite eigh ⟨1, 2, 4, 6, 3, 5, fun i => if i = 2 then 7 else 0⟩ (Spec.checker (Corrf.pSite yVec)) (Spec.both Corrf.pEnv) = .ok x := by
  obtain ⟨r, h1, -, -⟩ := yRdm eigh
  exact C72_bipartite eigh _ (D := Corrf.pDims) (prodFitsState [(0, 0)] (fun _ => (0, 0)) fun _ => yVec) (prodFitsEnv [(0, 0)] (fun _ => (0, 0)) fun _ => yVec) (fun _ => rfl) h1 ⟨by simp, by simp⟩
    (Or.inr ⟨prodTensors (fun _ => (0, 0)) (fun _ => yVec), prodReads [(0, 0)] _ _, fun d n _ => by rw [prodNorm _ _ (fun _ => yNorm)]; exact one_ne_zero⟩)

end Verif.Energy
