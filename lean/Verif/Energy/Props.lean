import Verif.Energy.Sum
import Verif.Corrf.Props
/-
C50, C51, C52: energies per site.
-/
namespace Verif.Energy
open Tensor Ctm Ctm.Spec

/-! ### Density matrices of spins 1/2 -/

theorem rdm_ok (eigh : Tensor ℂ → List ℝ × Tensor ℂ) {D : Dims} {st : State ℂ} {env : Env ℂ} (hs : FitsState D st) (he : FitsEnv D st env) (hp : ∀ c, D.p c = 2)
    {c : Coord} {R : Tensor ℂ} (h : Rdm.rdm2x2 eigh false st env c [0, 1, 2, 3] = .ok R) : R.shape = eight ∧ (Rdm.Spec.op [2, 2, 2, 2] R).IsHermitian := by
  obtain ⟨e, s, h1, h0, h2⟩ := Rdm.plaq_ok hs he c
  obtain ⟨R4, e4, q4⟩ := Rdm.oe2x2_denotes _ e s h2 [0, 1, 2, 3] (by decide)
  rw [Rdm.rdm2x2_eq eigh false h1 (by decide) e4] at h
  have h4 : R4.shape = [2, 2, 2, 2] ++ [2, 2, 2, 2] := by
    rw [q4.shape, singles_gdim]
    simp [Rdm.outLabels, Rdm.siteSet, List.range_succ, Rdm.Spec.dimsP, Rdm.Spec.physP, hp]
  obtain ⟨Y, -, -, -, -, -, h6, h7⟩ := Rdm.symRdm_eq eigh false (s := [2, 2, 2, 2]) (by decide) h4 (by simp)
  refine ⟨?_, (Rdm.C30_any false (by simp) (by decide) h4 h).1⟩
  by_cases h8 : RCLike.re (Matrix.trace Y) = 0
  · rw [h6 h8] at h; cases h
  · obtain ⟨R', e', s', -⟩ := h7 h8
    rw [h] at e'
    cases e'
    exact s'

/-- Expectation values of Hermitian operators are real. -/
theorem expect_real {R : Tensor ℂ} (hR : (Rdm.Spec.op [2, 2, 2, 2] R).IsHermitian) {O : List Nat → List Nat → ℂ} (hO : ∀ s t, star (O t s) = O s t) : (Spec.expect R O).im = 0 := by
  have hsum : Spec.expect R O = ∑ i : Fin 16, ∑ j : Fin 16, R.val (unravel [2, 2, 2, 2] i ++ unravel [2, 2, 2, 2] j) * O (unravel [2, 2, 2, 2] j) (unravel [2, 2, 2, 2] i) := by
    unfold Spec.expect
    rw [← Rdm.sum_unravel, Finset.sum_range]
    refine Finset.sum_congr rfl fun i _ => ?_
    rw [← Rdm.sum_unravel, Finset.sum_range]
    rfl
  rw [← Complex.conj_eq_iff_im, hsum, map_sum, Finset.sum_comm]
  refine Finset.sum_congr rfl fun i _ => ?_
  rw [map_sum]
  refine Finset.sum_congr rfl fun j _ => ?_
  rw [map_mul]
  have h2 := hO (unravel [2, 2, 2, 2] i) (unravel [2, 2, 2, 2] j)
  have h3 : (starRingEnd ℂ) (R.val (unravel [2, 2, 2, 2] i ++ unravel [2, 2, 2, 2] j)) = R.val (unravel [2, 2, 2, 2] j ++ unravel [2, 2, 2, 2] i) := hR.apply j i
  rw [h3]
  exact congrArg _ h2

theorem sz_conj (a b : Nat) : star (Spec.sz a b) = Spec.sz b a := by
  unfold Spec.sz
  by_cases h : a = b
  · subst h
    by_cases h0 : a = 0 <;> simp [h0]
  · simp [h, Ne.symm h]

theorem sx_conj (a b : Nat) : star (Spec.sx a b) = Spec.sx b a := by
  unfold Spec.sx
  by_cases h : a = b
  · simp [h]
  · simp [h, Ne.symm h]

theorem sy_conj (a b : Nat) : star (Spec.sy a b) = Spec.sy b a := by
  unfold Spec.sy
  rcases Nat.lt_trichotomy a b with h | h | h
  · simp [h, Nat.not_lt.2 h.le]
  · simp [h]
  · simp [h, Nat.not_lt.2 h.le]

theorem onSite_conj (m : Nat) {O : Nat → Nat → ℂ} (hO : ∀ a b, star (O a b) = O b a) (s t : List Nat) : star (Spec.onSite m O t s) = Spec.onSite m O s t := by
  unfold Spec.onSite
  simp only [eq_comm (a := s.getD _ 0)]
  split_ifs
  · exact hO _ _
  · exact star_zero _

theorem onBond_conj (m n : Nat) {O : Nat → Nat → Nat → Nat → ℂ} (hO : ∀ a b a' b', star (O a b a' b') = O a' b' a b) (s t : List Nat) : star (Spec.onBond m n O t s) = Spec.onBond m n O s t := by
  unfold Spec.onBond
  simp only [eq_comm (a := s.getD _ 0)]
  split_ifs
  · exact hO _ _ _ _
  · exact star_zero _

theorem heis_conj (δ : ℝ) (a b a' b' : Nat) : star (Spec.heis δ a b a' b') = Spec.heis δ a' b' a b := by
  simp only [Spec.heis, star_add, star_mul', sz_conj, sx_conj, sy_conj]
  simp

theorem field_conj (h : Fin 3 → ℝ) (a b : Nat) : star (Spec.field h a b) = Spec.field h b a := by
  simp only [Spec.field, star_add, star_mul', sz_conj, sx_conj, sy_conj]
  simp

theorem chirality_conj (s t : List Nat) : star (Spec.chirality t s) = Spec.chirality s t := by
  have hc : ∀ s t : List Nat, star (Spec.clockwise t s) = Spec.clockwise t s := by
    intro s t
    unfold Spec.clockwise
    split_ifs <;> simp
  simp only [Spec.chirality, star_mul', star_sub, hc]
  simp only [Complex.star_def, Complex.conj_I]
  ring

/-- The terms of one site are real. -/
theorem siteEnergy_real (m : J1J2) (c : Coord) {R : Tensor ℂ} (hR : (Rdm.Spec.op [2, 2, 2, 2] R).IsHermitian) : (Spec.siteEnergy m c R).im = 0 := by
  have hb : ∀ i j δ, (Spec.expect R (Spec.onBond i j (Spec.heis δ))).im = 0 := fun i j δ => expect_real hR (onBond_conj i j (heis_conj δ))
  have hz := expect_real hR (onSite_conj 0 sz_conj)
  have hf := expect_real hR (onSite_conj 0 (field_conj m.hUni))
  have hc := expect_real hR chirality_conj
  unfold Spec.siteEnergy
  split_ifs <;> simp [hb, hz, hf, hc]

theorem energy_real (m : J1J2) (st : State ℂ) {r : Coord → Tensor ℂ} (hR : ∀ c ∈ st.keys, (Rdm.Spec.op [2, 2, 2, 2] (r c)).IsHermitian) : (Spec.energy m st r).im = 0 := by
  have h : ∀ l : List Coord, (∀ c ∈ l, c ∈ st.keys) → ((l.map (fun c => Spec.siteEnergy m c (r c))).sum).im = 0 := by
    intro l
    induction l with
    | nil => simp
    | cons c l ih =>
      intro hl
      rw [List.map_cons, List.sum_cons, Complex.add_im, siteEnergy_real m c (hR c (hl c (by simp))), ih (fun c hc => hl c (by simp [hc])), add_zero]
  unfold Spec.energy
  rw [show ((st.keys.length : ℕ) : ℂ) = ((st.keys.length : ℝ) : ℂ) by simp, Complex.div_ofReal_im, h _ (fun _ h => h), zero_div]

/-! ### C50 -/

/-- `energy_per_site` is the energy per site of the Hamiltonian with the component of the uniform field along y reversed: every nearest-neighbour
bond is counted once with weight J1, every diagonal bond once with weight J2, every plaquette once and every site once. -/
theorem C50_value (eigh : Tensor ℂ → List ℝ × Tensor ℂ) (m : J1J2) {D : Dims} {st : State ℂ} {env : Env ℂ} {r : Coord → Tensor ℂ} (ht : Tiling st) (hs : FitsState D st)
    (he : FitsEnv D st env) (hp : ∀ c, D.p c = 2) (hr : ∀ c ∈ st.keys, Rdm.rdm2x2 eigh false st env c [0, 1, 2, 3] = .ok (r c)) (hc : Spec.Consistent st r)
    (hz : m.hzStag = 0 ∨ Spec.Bipartite st) (h3 : m.j3 = 0) :
    ∃ e : ℝ, energyPerSite eigh m st env = .ok e ∧ (e : ℂ) = Spec.energy { m with hUni := Spec.flipY m.hUni } st r := by
  have hk : st.keys ≠ [] := fun h => by have := ht.mem (0, 0); rw [h] at this; cases this
  have h := energy_eq eigh m hk hr (fun c hc => (rdm_ok eigh hs he hp (hr c hc)).1) 0 (Or.inl h3)
  rw [cell_sum m ht hc hz] at h
  refine ⟨_, h, ?_⟩
  rw [mul_zero, add_zero]
  have him := energy_real { m with hUni := Spec.flipY m.hUni } st (fun c hc => (rdm_ok eigh hs he hp (hr c hc)).2)
  apply Complex.ext
  · simp [Spec.energy]
  · rw [him]; simp

theorem flipY_eq {h : Fin 3 → ℝ} (h0 : h 2 = 0) : Spec.flipY h = h := by
  funext i
  fin_cases i <;> simp [Spec.flipY, h0]

/-- Without a field along y `energy_per_site` is the energy per site. Missing: the field along y, for which it is not, see `C50_violated`. -/
theorem C50_partial (eigh : Tensor ℂ → List ℝ × Tensor ℂ) (m : J1J2) {D : Dims} {st : State ℂ} {env : Env ℂ} {r : Coord → Tensor ℂ} (ht : Tiling st) (hs : FitsState D st)
    (he : FitsEnv D st env) (hp : ∀ c, D.p c = 2) (hr : ∀ c ∈ st.keys, Rdm.rdm2x2 eigh false st env c [0, 1, 2, 3] = .ok (r c)) (hc : Spec.Consistent st r)
    (hz : m.hzStag = 0 ∨ Spec.Bipartite st) (h3 : m.j3 = 0) (hy : m.hUni 2 = 0) :
    ∃ e : ℝ, energyPerSite eigh m st env = .ok e ∧ (e : ℂ) = Spec.energy m st r := by
  have := C50_value eigh m ht hs he hp hr hc hz h3
  rwa [flipY_eq hy] at this

/-! ### C51 -/

/-- The operators agree on the indices of a spin 1/2. -/
def Agree (o o' : Corrf.Spec.Op ℂ) : Prop := ∀ i < 2, ∀ j < 2, o i j = o' i j

theorem layer_agree {a : Tensor ℂ} (ha : a.size 0 = 2) {o o' : Corrf.Spec.Op ℂ} (h : Agree o o') (u l d r : Nat) : Corrf.Spec.layer a o u l d r = Corrf.Spec.layer a o' u l d r := by
  unfold Corrf.Spec.layer
  rw [ha]
  refine Finset.sum_congr rfl fun i hi => Finset.sum_congr rfl fun j hj => ?_
  rw [h i (Finset.mem_range.1 hi) j (Finset.mem_range.1 hj)]

theorem middle_agree {N : Corrf.Spec.Tensors ℂ} (hN : ∀ c, (N.a c).size 0 = 2) (d : Dir) (c : Coord) {o o' : Corrf.Spec.Op ℂ} (h : Agree o o') (y m n y' : Nat) :
    Corrf.Spec.middle N d c o y m n y' = Corrf.Spec.middle N d c o' y m n y' := by
  cases d <;> exact layer_agree (hN c) h _ _ _ _

theorem step_agree {N : Corrf.Spec.Tensors ℂ} (D : Dims) (hN : ∀ c, (N.a c).size 0 = 2) (d : Dir) (c : Coord) {o o' : Corrf.Spec.Op ℂ} (h : Agree o o') (E : Corrf.Spec.Vec ℂ) :
    Corrf.Spec.step N D d c o E = Corrf.Spec.step N D d c o' E := by
  funext x y z
  simp only [Corrf.Spec.step, middle_agree hN d c h]

theorem grow_agree {N : Corrf.Spec.Tensors ℂ} (D : Dims) (hN : ∀ c, (N.a c).size 0 = 2) (d : Dir) {os os' : List (Corrf.Spec.Op ℂ)} (h : List.Forall₂ Agree os os') (c : Coord) (E : Corrf.Spec.Vec ℂ) :
    Corrf.Spec.grow N D d c os E = Corrf.Spec.grow N D d c os' E := by
  induction h generalizing c E with
  | nil => rfl
  | cons h1 _ ih => rw [Corrf.Spec.grow, Corrf.Spec.grow, step_agree D hN d c h1, ih]

theorem twoPoint_agree {N : Corrf.Spec.Tensors ℂ} (D : Dims) (hN : ∀ c, (N.a c).size 0 = 2) (d : Dir) (c : Coord) {o1 o1' o2 o2' : Corrf.Spec.Op ℂ} (h1 : Agree o1 o1') (h2 : Agree o2 o2') (r : Nat) :
    Corrf.Spec.twoPoint N D d c o1 o2 r = Corrf.Spec.twoPoint N D d c o1' o2' r := by
  unfold Corrf.Spec.twoPoint Corrf.Spec.network
  rw [grow_agree D hN d (os' := o1' :: List.replicate r Corrf.Spec.one ++ [o2'])]
  · simp
  · exact List.Forall₂.cons h1 (List.rel_append (List.forall₂_same.2 (fun _ _ _ _ _ _ => rfl)) (List.Forall₂.cons h2 List.Forall₂.nil))

theorem size_two {D : Dims} {st : State ℂ} {env : Env ℂ} {N : Corrf.Spec.Tensors ℂ} (hs : FitsState D st) (hp : ∀ c, D.p c = 2) (hN : Corrf.Spec.Reads st env N) (c : Coord) : (N.a c).size 0 = 2 := by
  obtain ⟨t, h1, h2⟩ := hs.site c
  have h3 := hN.a c
  have : st.site c = st.sites (st.vts c) := rfl
  rw [this, h3] at h1
  cases h1
  simp [size, h2, hp]

theorem corr2_eq {D : Dims} {st : State ℂ} {env : Env ℂ} {N : Corrf.Spec.Tensors ℂ} (ht : Tiling st) (hs : FitsState D st) (he : FitsEnv D st env) (hp : ∀ c, D.p c = 2) (hN : Corrf.Spec.Reads st env N)
    (d : Dir) (c : Coord) (hn : ∀ r ≤ 2, Corrf.Spec.norm N D d c (r + 2) ≠ 0) (o1 o2 : Su2.Op 2) (p1 p2 : Corrf.Spec.Op ℂ) (h1 : Agree (Corrf.Spec.transposed (opT o1)) p1) (h2 : Agree (Corrf.Spec.transposed (opT o2)) p2) :
    corr2 st env d c o1 o2 = .ok (Corrf.Spec.twoPoint N D d c p1 p2 1 / Corrf.Spec.norm N D d c 3) := by
  obtain ⟨l, e, -, v⟩ := Corrf.C38_values_partial ht hs he hN d c (opT o1) (fun _ => opT o2) 2 (by rw [hp]; rfl) (fun r _ => by rw [hp]; rfl) hn
  rw [corr2, e, bindOk, v 1 (by decide), twoPoint_agree D (size_two hs hp hN) d c h1 h2]

theorem szT : Agree (Corrf.Spec.transposed (opT (Su2.SZ 2))) Spec.sz := fun _ hi _ hj => (sz_val hj hi).trans (sz_symm _ _)
theorem spT : Agree (Corrf.Spec.transposed (opT (Su2.SP 2))) Spec.sm := fun i hi j hj => (sp_val hj hi).trans (by simp only [Spec.sp, Spec.sm, and_comm])
theorem smT : Agree (Corrf.Spec.transposed (opT (Su2.SM 2))) Spec.sp := fun i hi j hj => (sm_val hj hi).trans (by simp only [Spec.sp, Spec.sm, and_comm])

theorem nnnn_eq {D : Dims} {st : State ℂ} {env : Env ℂ} {N : Corrf.Spec.Tensors ℂ} (ht : Tiling st) (hs : FitsState D st) (he : FitsEnv D st env) (hp : ∀ c, D.p c = 2) (hN : Corrf.Spec.Reads st env N)
    (c : Coord) (hn : ∀ d, ∀ r ≤ 2, Corrf.Spec.norm N D d c (r + 2) ≠ 0) : nnnn st env c = .ok (Spec.third N D c) := by
  rw [nnnn, corr2_eq ht hs he hp hN .right c (hn _) _ _ _ _ szT szT, bindOk, corr2_eq ht hs he hp hN .right c (hn _) _ _ _ _ smT spT, bindOk,
    corr2_eq ht hs he hp hN .right c (hn _) _ _ _ _ spT smT, bindOk, corr2_eq ht hs he hp hN .down c (hn _) _ _ _ _ szT szT, bindOk,
    corr2_eq ht hs he hp hN .down c (hn _) _ _ _ _ spT smT, bindOk, corr2_eq ht hs he hp hN .down c (hn _) _ _ _ _ smT spT, bindOk]
  refine congrArg Except.ok ?_
  simp only [Spec.third, Spec.exchange]
  ring

/-- The third-neighbour terms of `energy_per_site` are those of the site `(0,0)` only. -/
theorem C51_value (eigh : Tensor ℂ → List ℝ × Tensor ℂ) (m : J1J2) {D : Dims} {st : State ℂ} {env : Env ℂ} {N : Corrf.Spec.Tensors ℂ} {r : Coord → Tensor ℂ} (ht : Tiling st) (hs : FitsState D st)
    (he : FitsEnv D st env) (hp : ∀ c, D.p c = 2) (hN : Corrf.Spec.Reads st env N) (hn : ∀ d, ∀ r ≤ 2, Corrf.Spec.norm N D d (0, 0) (r + 2) ≠ 0)
    (hr : ∀ c ∈ st.keys, Rdm.rdm2x2 eigh false st env c [0, 1, 2, 3] = .ok (r c)) (hc : Spec.Consistent st r) (hz : m.hzStag = 0 ∨ Spec.Bipartite st) :
    energyPerSite eigh m st env = .ok (Spec.energy { m with hUni := Spec.flipY m.hUni } st r + m.j3 * Spec.third N D (0, 0)).re := by
  have hk : st.keys ≠ [] := fun h => by have := ht.mem (0, 0); rw [h] at this; cases this
  have h := energy_eq eigh m hk hr (fun c hc => (rdm_ok eigh hs he hp (hr c hc)).1) _ (Or.inr (nnnn_eq ht hs he hp hN (0, 0) hn))
  rw [cell_sum m ht hc hz] at h
  exact h

/-- If all sites have the same third-neighbour correlations, for example in a cell with a single site, their average over the cell is evaluated.
Missing: cells with inequivalent sites, for which it is not, see `C51_violated`. -/
theorem C51_partial (eigh : Tensor ℂ → List ℝ × Tensor ℂ) (m : J1J2) {D : Dims} {st : State ℂ} {env : Env ℂ} {N : Corrf.Spec.Tensors ℂ} {r : Coord → Tensor ℂ} (ht : Tiling st) (hs : FitsState D st)
    (he : FitsEnv D st env) (hp : ∀ c, D.p c = 2) (hN : Corrf.Spec.Reads st env N) (hn : ∀ d, ∀ r ≤ 2, Corrf.Spec.norm N D d (0, 0) (r + 2) ≠ 0)
    (hr : ∀ c ∈ st.keys, Rdm.rdm2x2 eigh false st env c [0, 1, 2, 3] = .ok (r c)) (hc : Spec.Consistent st r) (hz : m.hzStag = 0 ∨ Spec.Bipartite st) (hy : m.hUni 2 = 0)
    (hsame : ∀ c ∈ st.keys, Spec.third N D c = Spec.third N D (0, 0)) :
    energyPerSite eigh m st env = .ok (Spec.energy m st r + m.j3 * Spec.thirdEnergy N D st).re := by
  have hk : st.keys ≠ [] := fun h => by have := ht.mem (0, 0); rw [h] at this; cases this
  have h := C51_value eigh m ht hs he hp hN hn hr hc hz
  rw [flipY_eq hy] at h
  rw [h, Spec.thirdEnergy, List.map_congr_left hsame]
  have hlen : (st.keys.length : ℂ) ≠ 0 := by
    rw [Nat.cast_ne_zero]
    exact fun h => hk (List.length_eq_zero_iff.1 h)
  simp only [List.map_const', List.sum_replicate, nsmul_eq_mul]
  rw [mul_div_cancel_left₀ _ hlen]

/-! ### C52 -/

theorem fourZ_val {T : Tensor ℂ} (h : Is8 T (fun i j k l a b c d => (4 * (Spec.sz i a * Spec.sz j b)) * (4 * (Spec.sz k c * Spec.sz l d)))) : Is8 T (ofOp Spec.fourZ) := by
  refine h.congr (fun i j k l a b c d _ _ _ _ _ _ _ _ => ?_)
  simp only [ofOp, Spec.fourZ, List.getD_cons_zero, List.getD_cons_succ, sz_symm a, sz_symm b, sz_symm c, sz_symm d]
  ring

/-- The Ising operator of a plaquette as a matrix. -/
noncomputable def isingOp (hx q : ℝ) (t s : List Nat) : ℂ :=
  (-1) * Spec.onBond 0 1 (fun a b a' b' => 4 * (Spec.sz a a' * Spec.sz b b')) t s + ((-1) * Spec.onBond 0 2 (fun a b a' b' => 4 * (Spec.sz a a' * Spec.sz b b')) t s +
    (-q * Spec.fourZ t s + (-hx * Spec.onSite 0 (fun a a' => 2 * Spec.sx a a') t s + 0)))

theorem isingHp_val (hx q : ℝ) : ∃ T, isingHp hx q = some T ∧ Is8 T (ofOp (isingOp hx q)) := by
  obtain ⟨I, eI, sI, vI⟩ := id2_val
  obtain ⟨Z, hZ⟩ : ∃ Z : Tensor ℂ, Z = ⟨[2, 2, 2, 2], fun idx => 4 * (Su2.SZ 2 (Fin.ofNat 2 (idx.getD 0 0)) (Fin.ofNat 2 (idx.getD 2 0)) *
    Su2.SZ 2 (Fin.ofNat 2 (idx.getD 1 0)) (Fin.ofNat 2 (idx.getD 3 0)))⟩ := ⟨_, rfl⟩
  have vZ : ∀ a b a' b', a < 2 → b < 2 → a' < 2 → b' < 2 → Z.val [a, b, a', b'] = 4 * (Spec.sz a a' * Spec.sz b b') := by
    intro a b a' b' ha hb ha' hb'
    rw [hZ]
    simp only [List.getD_cons_zero, List.getD_cons_succ, sz_val ha ha', sz_val hb hb']
  have sZ : Z.shape = [2, 2, 2, 2] := by rw [hZ]
  obtain ⟨X, hX⟩ : ∃ X : Tensor ℂ, X = opT (Su2.SP 2 + Su2.SM 2) := ⟨_, rfl⟩
  have vX : ∀ a b, a < 2 → b < 2 → X.val [a, b] = 2 * Spec.sx a b := by
    intro a b ha hb
    rw [hX]
    simp only [opT, List.getD_cons_zero, List.getD_cons_succ, Matrix.add_apply, sp_val ha hb, sm_val ha hb]
    rcases lt2 ha with rfl | rfl <;> rcases lt2 hb with rfl | rfl <;> simp [Spec.sp, Spec.sm, Spec.sx]
  obtain ⟨J, hJ⟩ : ∃ J : Tensor ℂ, J = opT 1 := ⟨_, rfl⟩
  have vJ : ∀ a b, a < 2 → b < 2 → J.val [a, b] = if a = b then 1 else 0 := by
    intro a b ha hb
    rw [hJ]
    rcases lt2 ha with rfl | rfl <;> rcases lt2 hb with rfl | rfl <;> simp [opT, Matrix.one_apply]
  have sX : X.shape = [2, 2] := by rw [hX]; rfl
  have sJ : J.shape = [2, 2] := by rw [hJ]; rfl
  obtain ⟨A, eA, qA⟩ := einsum8 [(Z, [0, 1, 4, 5]), (I, [2, 3, 6, 7])] (by simp [sZ, sI]) (by simp)
  replace qA : Is8 A (ofOp (Spec.onBond 0 1 (fun a b a' b' => 4 * (Spec.sz a a' * Spec.sz b b')))) := by
    refine qA.congr (fun i j k l a b c d hi hj hk hl ha hb hc hd => ?_)
    rw [show ((([(Z, [0, 1, 4, 5]), (I, [2, 3, 6, 7])] : List (Tensor ℂ × List Nat)).flatMap Prod.snd).dedup.filter (fun l => l ∉ [0, 1, 2, 3, 4, 5, 6, 7])) = [] from rfl]
    simp only [sumOver, termOf, List.map_cons, List.map_nil, at8, List.getD_cons_zero, List.getD_cons_succ, List.prod_cons, List.prod_nil, mul_one,
      vZ i j a b hi hj ha hb, vI k l c d hk hl hc hd, mul_ite, mul_zero]
    simp [ofOp, Spec.onBond, eq_comm, sz_symm a, sz_symm b]
  obtain ⟨A1, eA1, qA1⟩ := perm8 qA [0, 2, 1, 3, 4, 6, 5, 7] (by decide)
  replace qA1 : Is8 A1 (ofOp (Spec.onBond 0 2 (fun a b a' b' => 4 * (Spec.sz a a' * Spec.sz b b')))) := by
    refine qA1.congr (fun i j k l a b c d _ _ _ _ _ _ _ _ => ?_)
    simp [permFn, at8, ofOp, Spec.onBond]
  obtain ⟨B, eB, qB⟩ := einsum8 [(Z, [0, 1, 4, 5]), (Z, [2, 3, 6, 7])] (by simp [sZ]) (by simp)
  replace qB : Is8 B (ofOp Spec.fourZ) := by
    refine fourZ_val (qB.congr (fun i j k l a b c d hi hj hk hl ha hb hc hd => ?_))
    rw [show ((([(Z, [0, 1, 4, 5]), (Z, [2, 3, 6, 7])] : List (Tensor ℂ × List Nat)).flatMap Prod.snd).dedup.filter (fun l => l ∉ [0, 1, 2, 3, 4, 5, 6, 7])) = [] from rfl]
    simp only [sumOver, termOf, List.map_cons, List.map_nil, at8, List.getD_cons_zero, List.getD_cons_succ, List.prod_cons, List.prod_nil, mul_one,
      vZ i j a b hi hj ha hb, vZ k l c d hk hl hc hd]
  obtain ⟨C, eC, qC⟩ := einsum8 [(X, [0, 4]), (J, [1, 5]), (J, [2, 6]), (J, [3, 7])] (by simp [sX, sJ]) (by simp)
  replace qC : Is8 C (ofOp (Spec.onSite 0 (fun a a' => 2 * Spec.sx a a'))) := by
    refine qC.congr (fun i j k l a b c d hi hj hk hl ha hb hc hd => ?_)
    rw [show ((([(X, [0, 4]), (J, [1, 5]), (J, [2, 6]), (J, [3, 7])] : List (Tensor ℂ × List Nat)).flatMap Prod.snd).dedup.filter (fun l => l ∉ [0, 1, 2, 3, 4, 5, 6, 7])) = [] from rfl]
    simp only [sumOver, termOf, List.map_cons, List.map_nil, at8, List.getD_cons_zero, List.getD_cons_succ, List.prod_cons, List.prod_nil, mul_one,
      vX i a hi ha, vJ j b hj hb, vJ k c hk hc, vJ l d hl hd]
    have : Spec.sx i a = Spec.sx a i := by simp [Spec.sx, eq_comm]
    by_cases h1 : j = b <;> by_cases h2 : k = c <;> by_cases h3 : l = d <;> simp [ofOp, Spec.onSite, h1, h2, h3, this, eq_comm (a := b), eq_comm (a := c), eq_comm (a := d)]
  refine ⟨comb [(-1, A), (-1, A1), (-q, B), (-hx, C)], ?_, comb_cons qA <| comb_cons qA1 <| comb_cons qB <| comb_cons qC comb_nil⟩
  simp only [isingHp, eI, ← hZ, ← hX, ← hJ, eA, eA1, eB, eC, Option.bind_eq_bind, Option.bind_some, Option.pure_def]

theorem ising_expect (hx q : ℝ) (r : Tensor ℂ) : Spec.expect r (isingOp hx q) = Spec.isingSite hx (-q) r := by
  unfold isingOp
  rw [expect_add, expect_mul, expect_add, expect_mul, expect_add, expect_mul, expect_add, expect_mul, expect_zero]
  simp only [Spec.isingSite]
  push_cast
  ring

theorem fourZ_conj (s t : List Nat) : star (Spec.fourZ t s) = Spec.fourZ s t := by
  simp only [Spec.fourZ, star_mul', sz_conj]
  simp

theorem isingSite_real (hx q : ℝ) {R : Tensor ℂ} (hR : (Rdm.Spec.op [2, 2, 2, 2] R).IsHermitian) : (Spec.isingSite hx q R).im = 0 := by
  have hb : ∀ i j, (Spec.expect R (Spec.onBond i j (fun a b a' b' => 4 * (Spec.sz a a' * Spec.sz b b')))).im = 0 := fun i j => expect_real hR (onBond_conj i j (fun a b a' b' => by
    simp only [star_mul', sz_conj]; simp))
  have hs := expect_real hR (onSite_conj 0 (O := fun a a' => 2 * Spec.sx a a') (fun a a' => by simp only [star_mul', sx_conj]; simp))
  have hc := expect_real hR fourZ_conj
  unfold Spec.isingSite
  simp [hb, hs, hc]

/-- `ising.energy_1x1` is the energy per site of the Hamiltonian with the sign of the plaquette term reversed. -/
theorem C52_value (eigh : Tensor ℂ → List ℝ × Tensor ℂ) (hx q : ℝ) {D : Dims} {st : State ℂ} {env : Env ℂ} {r : Tensor ℂ} (hs : FitsState D st) (he : FitsEnv D st env) (hp : ∀ c, D.p c = 2)
    (hr : Rdm.rdm2x2 eigh false st env (0, 0) [0, 1, 2, 3] = .ok r) : ∃ e : ℝ, isingEnergy eigh hx q st env = .ok e ∧ (e : ℂ) = Spec.isingSite hx (-q) r := by
  obtain ⟨T, e, h⟩ := isingHp_val hx q
  obtain ⟨h1, h2⟩ := rdm_ok eigh hs he hp hr
  refine ⟨(Spec.isingSite hx (-q) r).re, ?_, ?_⟩
  · rw [isingEnergy, hr, bindOk, e, C4v.lift_some, full_val h1 h, C4v.lift_some, ising_expect]
    rfl
  · apply Complex.ext
    · simp
    · rw [isingSite_real hx (-q) h2]; simp

/-- Without the plaquette term `ising.energy_1x1` is the energy per site. Missing: the plaquette term, see `C52_violated`. -/
theorem C52_partial (eigh : Tensor ℂ → List ℝ × Tensor ℂ) (hx : ℝ) {D : Dims} {st : State ℂ} {env : Env ℂ} {r : Tensor ℂ} (hs : FitsState D st) (he : FitsEnv D st env) (hp : ∀ c, D.p c = 2)
    (hr : Rdm.rdm2x2 eigh false st env (0, 0) [0, 1, 2, 3] = .ok r) : ∃ e : ℝ, isingEnergy eigh hx 0 st env = .ok e ∧ (e : ℂ) = Spec.isingSite hx 0 r := by
  have := C52_value eigh hx 0 hs he hp hr
  rwa [neg_zero] at this

end Verif.Energy
