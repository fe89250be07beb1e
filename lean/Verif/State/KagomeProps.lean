import Verif.State.KagomeLemmas
import Verif.State.KagomeTorus
/-
Properties C85 (site tensors of Kagome states), C86 (projection onto irreps), C87 (symmetries of the wavefunction) and
C88 (histories of states with point-group symmetry).
-/
namespace Verif.Kagome
open Verif.State
open Verif.Tensor
open Verif.Lattice (Vertex)
open Spec

/-! ## C85 -/

/-- The states a program can reach: constructed, then checkpoints loaded and noise added in any order. -/
inductive GReach : GState → Prop
  | mk {L : Type} [DecidableEq L] {ip vts} {pattern : List (List L)} {lX lY s} : mkG ip vts pattern lX lY = .ok s → GReach s
  | load {s ck s'} : GReach s → loadG ck s = .ok s' → GReach s'
  | noise {s ν s'} : GReach s → addNoiseG ν s = .ok s' → GReach s'

theorem GReach.built {s : GState} (h : GReach s) : buildAll s.ipess = .ok s.sites := by
  induction h with
  | mk h =>
    unfold mkG at h
    obtain ⟨sites, hs, h⟩ := bind_ok.1 h
    split at h
    · split at h
      · cases h
      · have h := Except.ok.inj h; subst h; exact hs
    · cases h
  | load _ h _ =>
    unfold loadG at h
    simp only [] at h
    split at h
    · obtain ⟨sites, hs, h⟩ := bind_ok.1 h
      have h := Except.ok.inj h; subst h; exact hs
    · cases h
  | noise _ h _ =>
    unfold addNoiseG at h
    split at h
    · obtain ⟨sites, hs, h⟩ := bind_ok.1 h
      have h := Except.ok.inj h; subst h; exact hs
    · cases h

theorem mapM_ok_forall₂ {α β : Type} {f : α → Except Err β} : ∀ {l : List α} {out : List β}, l.mapM f = .ok out →
    List.Forall₂ (fun a b => f a = .ok b) l out := by
  intro l
  induction l with
  | nil => intro out h; rw [List.mapM_nil] at h; cases Except.ok.inj h; exact .nil
  | cons a l ih =>
    intro out h
    rw [List.mapM_cons] at h
    obtain ⟨b, hb, h⟩ := bind_ok.1 h
    obtain ⟨bs, hbs, h⟩ := bind_ok.1 h
    cases Except.ok.inj h
    exact .cons hb (ih hbs)

theorem mapM_of_forall₂ {α β : Type} {f : α → Except Err β} {l : List α} {out : List β} (h : List.Forall₂ (fun a b => f a = .ok b) l out) :
    l.mapM f = .ok out := by
  induction h with
  | nil => rfl
  | cons h _ ih => rw [List.mapM_cons, h, ih]; rfl

/-- C85. In every reachable state the stored site tensors belong, in order, to the stored coordinates; each is the network of its
five tensors, fused over the three physical indices and divided by its largest modulus. -/
theorem C85_sites {s : GState} (h : GReach s) :
    List.Forall₂ (fun (e : Key × Item) (f : Vertex × Ten) => ∃ d Tu Bc Td Bb Ba pC pB pA nI nJ nK nL nA nB nC nD M,
      e = (.cell f.1, .sub d) ∧ Five d f.2.cplx Tu Bc Td Bb Ba ∧ Fit Tu Bc Td Bb Ba pC pB pA nI nJ nK nL nA nB nC nD ∧
      SiteOf Tu Bc Td Bb Ba pC pB pA nI nJ nK nL nA nB nC nD f.2.t M) s.ipess s.sites := by
  have h := mapM_ok_forall₂ h.built
  refine h.imp ?_
  rintro ⟨k, it⟩ ⟨c, X⟩ hb
  cases k with
  | name n => cases hb
  | cell c' =>
    cases it with
    | ten t => cases hb
    | sub d =>
      obtain ⟨A, hA, hb⟩ := bind_ok.1 hb
      cases Except.ok.inj hb
      obtain ⟨Tu, Bc, Td, Bb, Ba, pC, pB, pA, nI, nJ, nK, nL, nA, nB, nC, nD, M, h5, hf, hs⟩ := buildSite_inv hA
      exact ⟨d, Tu, Bc, Td, Bb, Ba, pC, pB, pA, nI, nJ, nK, nL, nA, nB, nC, nD, M, rfl, h5, hf, hs⟩

/-- C85. Five tensors of one dtype whose sizes fit and whose network is not zero give a state; a vanishing network gives NaN. -/
theorem C85_defined {d : List (Name × Ten)} {cplx : Bool} {Tu Bc Td Bb Ba : Tensor ℂ} (h : Five d cplx Tu Bc Td Bb Ba)
    {pC pB pA nI nJ nK nL nA nB nC nD : Nat} (hf : Fit Tu Bc Td Bb Ba pC pB pA nI nJ nK nL nA nB nC nD)
    (hp : 0 < pC ∧ 0 < pB ∧ 0 < pA ∧ 0 < nA ∧ 0 < nB ∧ 0 < nC ∧ 0 < nD) (c : Vertex) :
    ((∃ out, buildAll [(.cell c, .sub d)] = .ok out) ↔
      ∃ u v w a b c d, u < pC ∧ v < pB ∧ w < pA ∧ a < nA ∧ b < nB ∧ c < nC ∧ d < nD ∧
        site Tu Bc Td Bb Ba nI nJ nK nL u v w a b c d ≠ 0) ∧
    (buildAll [(.cell c, .sub d)] = .error .nan ↔
      ∀ u v w a b c d, u < pC → v < pB → w < pA → a < nA → b < nB → c < nC → d < nD →
        site Tu Bc Td Bb Ba nI nJ nK nL u v w a b c d = 0) := by
  by_cases hne : ∃ u v w a b c d, u < pC ∧ v < pB ∧ w < pA ∧ a < nA ∧ b < nB ∧ c < nC ∧ d < nD ∧
        site Tu Bc Td Bb Ba nI nJ nK nL u v w a b c d ≠ 0
  · obtain ⟨A, M, hA, _⟩ := buildSite_ok h hf hne
    have hb := (buildAll_single c d _).2 ⟨_, hA, rfl⟩
    refine ⟨⟨fun _ => hne, fun _ => ⟨_, hb⟩⟩, ⟨fun he => (by rw [hb] at he; cases he), fun h0 => ?_⟩⟩
    obtain ⟨u, v, w, a, b, c, d, h1, h2, h3, h4, h5, h6, h7, h8⟩ := hne
    exact absurd (h0 u v w a b c d h1 h2 h3 h4 h5 h6 h7) h8
  · have h0 : ∀ u v w a b c d, u < pC → v < pB → w < pA → a < nA → b < nB → c < nC → d < nD →
        site Tu Bc Td Bb Ba nI nJ nK nL u v w a b c d = 0 := by
      intro u v w a b c d h1 h2 h3 h4 h5 h6 h7
      by_contra h8
      exact hne ⟨u, v, w, a, b, c, d, h1, h2, h3, h4, h5, h6, h7, h8⟩
    have hn := buildSite_nan h hf hp h0
    have hb : buildAll [(.cell c, .sub d)] = .error .nan := by
      unfold buildAll
      rw [List.mapM_cons]
      have : buildOne (Key.cell c, Item.sub d) = .error .nan := by
        show (buildSite d).bind _ = _
        rw [hn]; rfl
      rw [this]; rfl
    exact ⟨⟨fun ⟨out, ho⟩ => (by rw [hb] at ho; cases ho), fun h => absurd h hne⟩, ⟨fun _ => h0, fun _ => hb⟩⟩

/-- C85. On every torus the amplitudes of the square-lattice state with this site tensor are those of the simplex state, up to one
positive factor per cell. -/
theorem C85_amplitude {s : GState} (h : GReach s) {c : Vertex} {d : List (Name × Ten)} {X : Ten} (hi : s.ipess = [(.cell c, .sub d)])
    (hx : s.sites = [(c, X)]) {cplx : Bool} {Tu Bc Td Bb Ba : Tensor ℂ} (h5 : Five d cplx Tu Bc Td Bb Ba) {p D : Nat}
    (hf : Fit Tu Bc Td Bb Ba p p p D D D D D D D D) :
    ∃ M : ℝ, 0 < M ∧ ∀ (n m : Nat) [NeZero n] [NeZero m] (σ : Fin 3 → ZMod n × ZMod m → Nat), (∀ e r, σ e r < p) →
      squareAmplitude D X.t (fused p σ) = amplitude D Tu Td ![Bc, Bb, Ba] σ / (M : ℂ) ^ (n * m) := by
  have hs := C85_sites h
  rw [hi, hx] at hs
  simp only [List.forall₂_cons, List.forall₂_nil_left_iff, and_true] at hs
  obtain ⟨d', Tu', Bc', Td', Bb', Ba', pC, pB, pA, nI, nJ, nK, nL, nA, nB, nC, nD, M, e, h5', hf', hs⟩ := hs
  cases e
  have e1 := h5.tu.symm.trans h5'.tu
  have e2 := h5.bc.symm.trans h5'.bc
  have e3 := h5.td.symm.trans h5'.td
  have e4 := h5.bb.symm.trans h5'.bb
  have e5 := h5.ba.symm.trans h5'.ba
  simp only [Option.some.injEq, Ten.mk.injEq] at e1 e2 e3 e4 e5
  obtain ⟨_, rfl⟩ := e1
  obtain ⟨_, rfl⟩ := e2
  obtain ⟨_, rfl⟩ := e3
  obtain ⟨_, rfl⟩ := e4
  obtain ⟨_, rfl⟩ := e5
  have t1 := hf.tu.symm.trans hf'.tu
  have t2 := hf.bc.symm.trans hf'.bc
  have t3 := hf.td.symm.trans hf'.td
  have t4 := hf.bb.symm.trans hf'.bb
  have t5 := hf.ba.symm.trans hf'.ba
  simp only [List.cons.injEq, and_true] at t1 t2 t3 t4 t5
  obtain ⟨rfl, rfl, rfl⟩ := t1
  obtain ⟨rfl, rfl, _⟩ := t2
  obtain ⟨_, rfl, rfl⟩ := t3
  obtain ⟨rfl, _, rfl⟩ := t4
  obtain ⟨rfl, _, rfl⟩ := t5
  exact ⟨M, hs.pos, fun n m _ _ σ hσ => square_eq hs σ hσ⟩

/-- One tensor is a multiple of another. -/
def Multiple (z : ℂ) (X Y : Tensor ℂ) : Prop := Y.shape = X.shape ∧ ∀ i, InB X.shape i → Y.val i = z * X.val i

theorem site_scaled {Tu Bc Td Bb Ba Tu' Bc' Td' Bb' Ba' : Tensor ℂ} {z1 z2 z3 z4 z5 : ℂ} {pC pB pA nI nJ nK nL nA nB nC nD : Nat}
    (hf : Fit Tu Bc Td Bb Ba pC pB pA nI nJ nK nL nA nB nC nD) (h1 : Multiple z1 Tu Tu') (h2 : Multiple z2 Bc Bc') (h3 : Multiple z3 Td Td')
    (h4 : Multiple z4 Bb Bb') (h5 : Multiple z5 Ba Ba') {u v w a b c d : Nat} (hu : u < pC) (hv : v < pB) (hw : w < pA) (ha : a < nA) (hb : b < nB)
    (hc : c < nC) (hd : d < nD) :
    site Tu' Bc' Td' Bb' Ba' nI nJ nK nL u v w a b c d = (z1 * z2 * z3 * z4 * z5) * site Tu Bc Td Bb Ba nI nJ nK nL u v w a b c d := by
  unfold site
  simp only [Finset.mul_sum]
  refine Finset.sum_congr rfl fun i hi => Finset.sum_congr rfl fun j hj => Finset.sum_congr rfl fun k hk => Finset.sum_congr rfl fun l hl => ?_
  rw [Finset.mem_range] at hi hj hk hl
  rw [h1.2 [i, a, b] (by rw [hf.tu, inB_iff3]; exact ⟨_, _, _, rfl, hi, ha, hb⟩),
    h2.2 [u, j, i] (by rw [hf.bc, inB_iff3]; exact ⟨_, _, _, rfl, hu, hj, hi⟩),
    h3.2 [j, k, l] (by rw [hf.td, inB_iff3]; exact ⟨_, _, _, rfl, hj, hk, hl⟩),
    h4.2 [v, k, c] (by rw [hf.bb, inB_iff3]; exact ⟨_, _, _, rfl, hv, hk, hc⟩),
    h5.2 [w, l, d] (by rw [hf.ba, inB_iff3]; exact ⟨_, _, _, rfl, hw, hl, hd⟩)]
  ring

/-- C85. Multiplying the five tensors by non-zero numbers multiplies the site tensor by the phase of their product only. -/
theorem C85_scale {d d' : List (Name × Ten)} {X : Ten} (h : buildSite d = .ok X) {c c' : Bool} {Tu Bc Td Bb Ba Tu' Bc' Td' Bb' Ba' : Tensor ℂ}
    (h5 : Five d c Tu Bc Td Bb Ba) (h5' : Five d' c' Tu' Bc' Td' Bb' Ba') {z1 z2 z3 z4 z5 : ℂ}
    (h1 : Multiple z1 Tu Tu') (h2 : Multiple z2 Bc Bc') (h3 : Multiple z3 Td Td') (h4 : Multiple z4 Bb Bb') (h5a : Multiple z5 Ba Ba')
    (hz : z1 * z2 * z3 * z4 * z5 ≠ 0) :
    ∃ Y, buildSite d' = .ok Y ∧ Y.cplx = c' ∧ Multiple (z1 * z2 * z3 * z4 * z5 / (‖z1 * z2 * z3 * z4 * z5‖ : ℂ)) X.t Y.t := by
  obtain ⟨Tu2, Bc2, Td2, Bb2, Ba2, pC, pB, pA, nI, nJ, nK, nL, nA, nB, nC, nD, M, h52, hf, hs⟩ := buildSite_inv h
  have e1 := h5.tu.symm.trans h52.tu
  have e2 := h5.bc.symm.trans h52.bc
  have e3 := h5.td.symm.trans h52.td
  have e4 := h5.bb.symm.trans h52.bb
  have e5 := h5.ba.symm.trans h52.ba
  simp only [Option.some.injEq, Ten.mk.injEq] at e1 e2 e3 e4 e5
  obtain ⟨_, rfl⟩ := e1
  obtain ⟨_, rfl⟩ := e2
  obtain ⟨_, rfl⟩ := e3
  obtain ⟨_, rfl⟩ := e4
  obtain ⟨_, rfl⟩ := e5
  set z := z1 * z2 * z3 * z4 * z5 with hzd
  have hsc := fun {u v w a b c d} hu hv hw ha hb hc hd => site_scaled (u := u) (v := v) (w := w) (a := a) (b := b) (c := c) (d := d)
    hf h1 h2 h3 h4 h5a hu hv hw ha hb hc hd
  have hf' : Fit Tu' Bc' Td' Bb' Ba' pC pB pA nI nJ nK nL nA nB nC nD :=
    ⟨h1.1.trans hf.tu, h2.1.trans hf.bc, h3.1.trans hf.td, h4.1.trans hf.bb, h5a.1.trans hf.ba⟩
  obtain ⟨u0, v0, w0, a0, b0, c0, d0, g1, g2, g3, g4, g5, g6, g7, g8⟩ := hs.attained
  have hne : site Tu Bc Td Bb Ba nI nJ nK nL u0 v0 w0 a0 b0 c0 d0 ≠ 0 := by
    rw [← norm_pos_iff, g8]; exact hs.pos
  obtain ⟨A, M', hA, hs'⟩ := buildSite_ok h5' hf' ⟨u0, v0, w0, a0, b0, c0, d0, g1, g2, g3, g4, g5, g6, g7, by
    rw [hsc g1 g2 g3 g4 g5 g6 g7]; exact mul_ne_zero hz hne⟩
  have hM : M' = ‖z‖ * M := by
    apply le_antisymm
    · obtain ⟨u, v, w, a, b, c, d, k1, k2, k3, k4, k5, k6, k7, k8⟩ := hs'.attained
      rw [← k8, hsc k1 k2 k3 k4 k5 k6 k7, norm_mul]
      exact mul_le_mul_of_nonneg_left (hs.le _ _ _ _ _ _ _ k1 k2 k3 k4 k5 k6 k7) (norm_nonneg _)
    · have := hs'.le _ _ _ _ _ _ _ g1 g2 g3 g4 g5 g6 g7
      rwa [hsc g1 g2 g3 g4 g5 g6 g7, norm_mul, g8] at this
  have hzn : (‖z‖ : ℂ) ≠ 0 := by
    rw [Ne, Complex.ofReal_eq_zero, norm_eq_zero]; exact hz
  refine ⟨_, hA, rfl, by rw [hs'.shape, hs.shape], ?_⟩
  · intro i hi
    rw [hs.shape, inB_iff5] at hi
    obtain ⟨q, a, b, c, d, rfl, k0, k4, k5, k6, k7⟩ := hi
    obtain ⟨u, v, w, k1, k2, k3, rfl⟩ := unfuse k0
    simp only []
    rw [hs'.val u v w a b c d k1 k2 k3 k4 k5 k6 k7, hs.val u v w a b c d k1 k2 k3 k4 k5 k6 k7, hsc k1 k2 k3 k4 k5 k6 k7, hM]
    have : (M : ℂ) ≠ 0 := by exact_mod_cast hs.pos.ne'
    push_cast
    field_simp
    rw [hzd]; ring

/-! ### A concrete state -/

/-- A trivalent tensor of ones. -/
def exT : Tensor ℂ := ⟨[2, 2, 2], fun _ => 1⟩
/-- A symmetric bond tensor with physical dimension 2. -/
def exB : Tensor ℂ := ⟨[2, 2, 2], fun i => match i with
  | [0, _, _] => 1
  | [_, a, b] => ((a + b : Nat) : ℂ)
  | _ => 0⟩

def exElem : List (Name × Ten) := [(.Tu, ⟨false, exT⟩), (.Bc, ⟨false, exB⟩)]
def exFive : List (Name × Ten) := [(.Tu, ⟨false, exT⟩), (.Td, ⟨false, exT⟩), (.Bc, ⟨false, exB⟩), (.Ba, ⟨false, exB⟩), (.Bb, ⟨false, exB⟩)]

theorem exFive_five : Five exFive false exT exB exT exB exB := ⟨rfl, rfl, rfl, rfl, rfl⟩
theorem ex_fit : Fit exT exB exT exB exB 2 2 2 2 2 2 2 2 2 2 2 := ⟨rfl, rfl, rfl, rfl, rfl⟩

theorem ex_site : site exT exB exT exB exB 2 2 2 2 0 0 0 0 0 0 0 = 16 := by
  norm_num [site, exT, exB, Finset.sum_range_succ]

theorem ex_nonzero : ∃ u v w a b c d, u < 2 ∧ v < 2 ∧ w < 2 ∧ a < 2 ∧ b < 2 ∧ c < 2 ∧ d < 2 ∧
    site exT exB exT exB exB 2 2 2 2 u v w a b c d ≠ 0 :=
  ⟨0, 0, 0, 0, 0, 0, 0, by simp, by simp, by simp, by simp, by simp, by simp, by simp, by rw [ex_site]; simp⟩

theorem ex_built : ∃ A, buildSite exFive = .ok ⟨false, A⟩ := by
  obtain ⟨A, _, h, _⟩ := buildSite_ok exFive_five ex_fit ex_nonzero
  exact ⟨A, h⟩

/-- Non-vacuity of C85_sites, C85_amplitude. -/
example : ∃ s X, GReach s ∧ s.ipess = [(.cell (0, 0), .sub exFive)] ∧ s.sites = [((0, 0), X)] := by
  obtain ⟨A, hA⟩ := ex_built
  exact ⟨_, _, .mk ((mkG_five _ _ _ _ _ _).2 ⟨_, hA, rfl⟩), rfl, rfl⟩

/-- Non-vacuity of C85_scale: multiplying `T_u` by `2i` multiplies the site tensor by `i`. -/
example : ∃ X Y, buildSite exFive = .ok X ∧
    buildSite [(.Tu, ⟨false, ⟨[2, 2, 2], fun i => (2 * Complex.I) * exT.val i⟩⟩), (.Td, ⟨false, exT⟩), (.Bc, ⟨false, exB⟩), (.Ba, ⟨false, exB⟩), (.Bb, ⟨false, exB⟩)] = .ok Y ∧
    Multiple Complex.I X.t Y.t := by
  obtain ⟨A, hA⟩ := ex_built
  have hm : ∀ X : Tensor ℂ, Multiple 1 X X := fun X => ⟨rfl, fun i _ => (one_mul _).symm⟩
  obtain ⟨Y, hY, _, h2⟩ := C85_scale hA exFive_five (d' := [(.Tu, ⟨false, ⟨[2, 2, 2], fun i => (2 * Complex.I) * exT.val i⟩⟩), (.Td, ⟨false, exT⟩), (.Bc, ⟨false, exB⟩), (.Ba, ⟨false, exB⟩), (.Bb, ⟨false, exB⟩)])
    (c' := false) ⟨rfl, rfl, rfl, rfl, rfl⟩ (z1 := 2 * Complex.I) ⟨rfl, fun i _ => rfl⟩ (hm _) (hm _) (hm _) (hm _) (by simp)
  have e : (2 * Complex.I * 1 * 1 * 1 * 1 / (‖2 * Complex.I * 1 * 1 * 1 * 1‖ : ℂ)) = Complex.I := by
    simp
  rw [e] at h2
  exact ⟨_, _, hA, hY, h2⟩

theorem Multiple.of_same {X Y : Tensor ℂ} (h : X.Same Y) : Multiple 1 X Y := ⟨h.1.symm, fun i hi => by rw [one_mul]; exact (h.2 i hi).symm⟩
theorem Multiple.same {X Y : Tensor ℂ} (h : Multiple 1 X Y) : X.Same Y := ⟨h.1.symm, fun i hi => by rw [h.2 i hi, one_mul]⟩

/-- Equal entries give equal site tensors. -/
theorem buildSite_congr {d d' : List (Name × Ten)} {X : Ten} (h : buildSite d = .ok X) {c c' : Bool} {Tu Bc Td Bb Ba Tu' Bc' Td' Bb' Ba' : Tensor ℂ}
    (h5 : Five d c Tu Bc Td Bb Ba) (h5' : Five d' c' Tu' Bc' Td' Bb' Ba')
    (h1 : Tu.Same Tu') (h2 : Bc.Same Bc') (h3 : Td.Same Td') (h4 : Bb.Same Bb') (h5a : Ba.Same Ba') :
    ∃ Y, buildSite d' = .ok Y ∧ Y.cplx = c' ∧ X.t.Same Y.t := by
  obtain ⟨Y, hY, hc, hm⟩ := C85_scale h h5 h5' (Multiple.of_same h1) (Multiple.of_same h2) (Multiple.of_same h3) (Multiple.of_same h4) (Multiple.of_same h5a) (by simp)
  refine ⟨Y, hY, hc, Multiple.same ?_⟩
  simpa using hm

/-! ## C86 -/

/-- Membership of a tensor in an irrep: trivalent tensors are cyclic and exchanging two legs gives plus (`A1`) or minus (`A2`) the
complex conjugate; bond tensors obey the latter for `A` and `B`. -/
def InIrrep (n : Name) (p : Irrep) (T : Tensor ℂ) : Prop :=
  match n with
  | .Tu | .Td => ∃ D, T.shape = [D, D, D] ∧ Cyclic D T ∧ (p = .A1 ∧ Mirror D D 1 T ∨ p = .A2 ∧ Mirror D D (-1) T)
  | .Ba | .Bb | .Bc => ∃ q D, T.shape = [q, D, D] ∧ (p = .A ∧ Mirror q D 1 T ∨ p = .B ∧ Mirror q D (-1) T)

/-- The irreps that exist and the shapes on which the group acts. -/
def Acts (n : Name) (p : Irrep) (T : Tensor ℂ) : Prop :=
  match n with
  | .Tu | .Td => (∃ D, T.shape = [D, D, D]) ∧ (p = .A1 ∨ p = .A2)
  | .Ba | .Bb | .Bc => (∃ q D, T.shape = [q, D, D]) ∧ (p = .A ∨ p = .B)

theorem mirror_part {minus : Bool} {x y : Tensor ℂ} (h : reflectPart minus x = some y) :
    ∃ q D, x.shape = [q, D, D] ∧ y.shape = [q, D, D] ∧ Mirror q D (signOf minus) y ∧
      (∀ s a b, y.val [s, a, b] = 1 / 2 * (x.val [s, a, b] + signOf minus * star (x.val [s, b, a]))) := by
  obtain ⟨q, D, hx⟩ := reflectPart_shape h
  obtain ⟨y', h', hs, hv⟩ := reflectPart_ok minus x hx
  rw [h, Option.some.injEq] at h'
  subst h'
  exact ⟨q, D, hx, hs, reflectPart_mirror hv, hv⟩

theorem trivalent_part {minus : Bool} {x w y : Tensor ℂ} (h0 : cyclicPart x = some w) (h : reflectPart minus w = some y) :
    ∃ D, x.shape = [D, D, D] ∧ y.shape = [D, D, D] ∧ Cyclic D y ∧ Mirror D D (signOf minus) y := by
  obtain ⟨D, hx⟩ := cyclicPart_shape h0
  obtain ⟨w', h', hs, hv⟩ := cyclicPart_ok x hx
  rw [h0, Option.some.injEq] at h'
  subst h'
  obtain ⟨q, D', hw, hy, hm, hv'⟩ := mirror_part h
  rw [hs] at hw
  simp only [List.cons.injEq, and_true] at hw
  obtain ⟨rfl, rfl, _⟩ := hw
  exact ⟨_, hx, hy, reflectPart_cyclic (cyclicPart_cyclic hv) hv', hm⟩

/-- C86. The projected tensor has the shape and dtype of the argument and belongs to the irrep. -/
theorem C86_irrep {n : Name} {p : Irrep} {X Y : Ten} (h : symmOne n p X = .ok Y) :
    Y.cplx = X.cplx ∧ Y.t.shape = X.t.shape ∧ InIrrep n p Y.t := by
  have tri : ∀ (minus : Bool), (do let w ← lift (cyclicPart X.t); let t ← lift (reflectPart minus w); Except.ok (Ten.mk X.cplx t)) = .ok Y →
      Y.cplx = X.cplx ∧ Y.t.shape = X.t.shape ∧ ∃ D, Y.t.shape = [D, D, D] ∧ Cyclic D Y.t ∧ Mirror D D (signOf minus) Y.t := by
    intro minus h
    obtain ⟨w, h0, h⟩ := bind_ok.1 h
    obtain ⟨t, h1, h⟩ := bind_ok.1 h
    cases Except.ok.inj h
    obtain ⟨D, hx, hy, hc, hm⟩ := trivalent_part (lift_ok.1 h0) (lift_ok.1 h1)
    exact ⟨rfl, by rw [hx]; exact hy, D, hy, hc, hm⟩
  have bond : ∀ (minus : Bool), (do let t ← lift (reflectPart minus X.t); Except.ok (Ten.mk X.cplx t)) = .ok Y →
      Y.cplx = X.cplx ∧ Y.t.shape = X.t.shape ∧ ∃ q D, Y.t.shape = [q, D, D] ∧ Mirror q D (signOf minus) Y.t := by
    intro minus h
    obtain ⟨t, h1, h⟩ := bind_ok.1 h
    cases Except.ok.inj h
    obtain ⟨q, D, hx, hy, hm, _⟩ := mirror_part (lift_ok.1 h1)
    exact ⟨rfl, by rw [hx]; exact hy, q, D, hy, hm⟩
  cases n <;> cases p <;> first
    | cases h
    | (obtain ⟨a, b, D, hs, hc, hm⟩ := tri false h; exact ⟨a, b, D, hs, hc, Or.inl ⟨rfl, hm⟩⟩)
    | (obtain ⟨a, b, D, hs, hc, hm⟩ := tri true h; exact ⟨a, b, D, hs, hc, Or.inr ⟨rfl, hm⟩⟩)
    | (obtain ⟨a, b, q, D, hs, hm⟩ := bond false h; exact ⟨a, b, q, D, hs, Or.inl ⟨rfl, hm⟩⟩)
    | (obtain ⟨a, b, q, D, hs, hm⟩ := bond true h; exact ⟨a, b, q, D, hs, Or.inr ⟨rfl, hm⟩⟩)

/-- C86. The projection is defined exactly for the known irreps and tensors with legs of one size. -/
theorem C86_defined (n : Name) (p : Irrep) (X : Ten) : (∃ Y, symmOne n p X = .ok Y) ↔ Acts n p X.t := by
  have tri : ∀ (minus : Bool), (∃ D, X.t.shape = [D, D, D]) →
      ∃ Y, (do let w ← lift (cyclicPart X.t); let t ← lift (reflectPart minus w); Except.ok (Ten.mk X.cplx t)) = .ok Y := by
    rintro minus ⟨D, hD⟩
    obtain ⟨w, h0, hs, _⟩ := cyclicPart_ok X.t hD
    obtain ⟨y, h1, _, _⟩ := reflectPart_ok minus w hs
    exact ⟨_, bind_ok.2 ⟨_, lift_ok.2 h0, bind_ok.2 ⟨_, lift_ok.2 h1, rfl⟩⟩⟩
  have bond : ∀ (minus : Bool), (∃ q D, X.t.shape = [q, D, D]) →
      ∃ Y, (do let t ← lift (reflectPart minus X.t); Except.ok (Ten.mk X.cplx t)) = .ok Y := by
    rintro minus ⟨q, D, hD⟩
    obtain ⟨y, h1, _, _⟩ := reflectPart_ok minus X.t hD
    exact ⟨_, bind_ok.2 ⟨_, lift_ok.2 h1, rfl⟩⟩
  constructor
  · rintro ⟨Y, h⟩
    obtain ⟨_, hs, hi⟩ := C86_irrep h
    cases n <;> simp only [InIrrep, Acts] at hi ⊢
    · obtain ⟨D, hD, _, hp⟩ := hi
      exact ⟨⟨D, by rw [← hs, hD]⟩, hp.imp And.left And.left⟩
    · obtain ⟨D, hD, _, hp⟩ := hi
      exact ⟨⟨D, by rw [← hs, hD]⟩, hp.imp And.left And.left⟩
    all_goals
      obtain ⟨q, D, hD, hp⟩ := hi
      exact ⟨⟨q, D, by rw [← hs, hD]⟩, hp.imp And.left And.left⟩
  · intro h
    cases n <;> obtain ⟨h, rfl | rfl⟩ := h <;> first
      | exact tri false h
      | exact tri true h
      | exact bond false h
      | exact bond true h

/-- C86. A tensor that already belongs to the irrep is unchanged; in particular projecting twice is projecting once. -/
theorem C86_fixed {n : Name} {p : Irrep} {X : Ten} (h : InIrrep n p X.t) : ∃ Y, symmOne n p X = .ok Y ∧ X.t.Same Y.t := by
  have tri : ∀ (minus : Bool) {D : Nat}, X.t.shape = [D, D, D] → Cyclic D X.t → Mirror D D (signOf minus) X.t →
      ∃ Y, (do let w ← lift (cyclicPart X.t); let t ← lift (reflectPart minus w); Except.ok (Ten.mk X.cplx t)) = .ok Y ∧ X.t.Same Y.t := by
    intro minus D hD hc hm
    obtain ⟨w, h0, hs, hv⟩ := cyclicPart_ok X.t hD
    obtain ⟨y, h1, hs1, hv1⟩ := reflectPart_ok minus w hs
    have e := cyclicPart_fix hc hv
    have e1 := reflectPart_fix (Mirror.congr hm e) hv1
    exact ⟨_, bind_ok.2 ⟨_, lift_ok.2 h0, bind_ok.2 ⟨_, lift_ok.2 h1, rfl⟩⟩, same3 hD hs1 (fun i j k hi hj hk => by rw [e1 i j k hi hj hk, e i j k hi hj hk])⟩
  have bond : ∀ (minus : Bool) {q D : Nat}, X.t.shape = [q, D, D] → Mirror q D (signOf minus) X.t →
      ∃ Y, (do let t ← lift (reflectPart minus X.t); Except.ok (Ten.mk X.cplx t)) = .ok Y ∧ X.t.Same Y.t := by
    intro minus q D hD hm
    obtain ⟨y, h1, hs1, hv1⟩ := reflectPart_ok minus X.t hD
    exact ⟨_, bind_ok.2 ⟨_, lift_ok.2 h1, rfl⟩, same3 hD hs1 (reflectPart_fix hm hv1)⟩
  cases n
  · obtain ⟨D, hD, hc, ⟨rfl, hm⟩ | ⟨rfl, hm⟩⟩ := h
    · exact tri false hD hc hm
    · exact tri true hD hc hm
  · obtain ⟨D, hD, hc, ⟨rfl, hm⟩ | ⟨rfl, hm⟩⟩ := h
    · exact tri false hD hc hm
    · exact tri true hD hc hm
  all_goals
    obtain ⟨q, D, hD, ⟨rfl, hm⟩ | ⟨rfl, hm⟩⟩ := h
    · exact bond false hD hm
    · exact bond true hD hm

/-- C86. Projecting a whole dictionary: every tensor with a declared irrep is projected, every other tensor is untouched, no tensor
appears or disappears. -/
theorem C86_all {pgs : List (Name × Option Irrep)} (hn : (pgs.map (·.1)).Nodup) {es out : List (Name × Ten)} (h : symmAll pgs es = .ok out) (n : Name) :
    (∀ p X, dictFind pgs n = some (some p) → dictFind es n = some X → ∃ Y, symmOne n p X = .ok Y ∧ dictFind out n = some Y) ∧
    ((∀ p, dictFind pgs n ≠ some (some p)) ∨ dictFind es n = none → dictFind out n = dictFind es n) :=
  symm_foldl_find es pgs hn es out h n

/-- Non-vacuity of C86_irrep and C86_fixed: the example tensors belong to their irreps; and a tensor outside the irrep is moved. -/
theorem exT_irrep : InIrrep .Tu .A1 exT := ⟨2, rfl, fun _ _ _ _ _ _ => rfl, Or.inl ⟨rfl, fun _ _ _ _ _ _ => by simp [exT]⟩⟩
theorem exB_irrep : InIrrep .Bc .A exB := ⟨2, 2, rfl, Or.inl ⟨rfl, fun s a b _ _ _ => by
  rcases s with _ | s
  · simp [exB]
  · simp only [exB, one_mul, RCLike.star_def, map_natCast]; rw [Nat.add_comm]⟩⟩

example : ∃ Y, symmOne .Tu .A1 ⟨false, ⟨[2, 2, 2], fun i => if i = [0, 0, 1] then 6 else 0⟩⟩ = .ok Y ∧ Y.t.val [1, 0, 0] = 2 := by
  obtain ⟨w, h0, hs, hv⟩ := cyclicPart_ok ⟨[2, 2, 2], fun i => if i = [0, 0, 1] then (6 : ℂ) else 0⟩ rfl
  obtain ⟨y, h1, _, hv1⟩ := reflectPart_ok false w hs
  refine ⟨⟨false, y⟩, ?_, ?_⟩
  · unfold symmOne
    simp only []
    rw [h0]
    show (lift (reflectPart false w)).bind _ = _
    rw [h1]; rfl
  show y.val [1, 0, 0] = 2
  rw [hv1, hv]
  norm_num [signOf]

/-! ## C88 -/

/-- The states with point-group symmetry a program can reach. -/
inductive PReach : PState → Prop
  | mk {es ud b pgs sy s} : mkP es ud b pgs sy = .ok s → PReach s
  | load {s ck s'} : PReach s → loadP ck s = .ok s' → PReach s'
  | noise {s ν s'} : PReach s → addNoiseP ν s = .ok s' → PReach s'
  | extend {s d s'} : PReach s → extendP d s = .ok s' → PReach s'
  | symm {s ud b pgs s'} : PReach s → symmetrizeP s ud b pgs = .ok s' → PReach s'

theorem extendP_inv {d : Nat} {s s' : PState} (h : extendP d s = .ok s') :
    ∃ ad Tu Bc up bs, auxDim s.g.ipess = .ok ad ∧ ad ≤ d ∧ (look s.elem .Tu).bind (growT d ad) = .ok Tu ∧ (look s.elem .Bc).bind (growB d ad) = .ok Bc ∧
      (s.symUD = true ∧ up = [] ∨ s.symUD = false ∧ ∃ Td, (look s.elem .Td).bind (growT d ad) = .ok Td ∧ up = [(.Td, Td)]) ∧
      (s.symB = true ∧ bs = [] ∨ s.symB = false ∧ ∃ Bb Ba, (look s.elem .Bb).bind (growB d ad) = .ok Bb ∧ (look s.elem .Ba).bind (growB d ad) = .ok Ba ∧
        bs = [(.Ba, Ba), (.Bb, Bb)]) ∧
      mkP ([(Name.Tu, Tu), (Name.Bc, Bc)] ++ up ++ bs) s.symUD s.symB s.pgs false = .ok s' := by
  unfold extendP at h
  obtain ⟨ad, h1, h⟩ := bind_ok.1 h
  split at h
  · rename_i hle
    obtain ⟨Tu, h2, h⟩ := bind_ok.1 h
    obtain ⟨Bc, h3, h⟩ := bind_ok.1 h
    obtain ⟨up, h4, h⟩ := bind_ok.1 h
    obtain ⟨bs, h5, h⟩ := bind_ok.1 h
    refine ⟨ad, Tu, Bc, up, bs, h1, hle, h2, h3, ?_, ?_, h⟩
    · cases hu : s.symUD <;> rw [hu] at h4
      · obtain ⟨Td, h6, h4⟩ := bind_ok.1 h4
        exact Or.inr ⟨rfl, Td, h6, (Except.ok.inj h4).symm⟩
      · exact Or.inl ⟨rfl, (Except.ok.inj h4).symm⟩
    · cases hu : s.symB <;> rw [hu] at h5
      · obtain ⟨Bb, h6, h5⟩ := bind_ok.1 h5
        obtain ⟨Ba, h7, h5⟩ := bind_ok.1 h5
        exact Or.inr ⟨rfl, Bb, Ba, h6, h7, (Except.ok.inj h5).symm⟩
      · exact Or.inl ⟨rfl, (Except.ok.inj h5).symm⟩
  · cases h

theorem PReach.inv {s : PState} (h : PReach s) : PInv s ∧ s.g.lX = 1 ∧ s.g.lY = 1 ∧ s.g.vts = oneSite := by
  have hm : ∀ {es ud b pgs sy} {s : PState}, mkP es ud b pgs sy = .ok s → PInv s ∧ s.g.lX = 1 ∧ s.g.lY = 1 ∧ s.g.vts = oneSite := by
    intro es ud b pgs sy s h
    obtain ⟨h1, _, _, _, h2, h3, h4, _⟩ := mkP_inv h
    exact ⟨h1, h2, h3, h4⟩
  induction h with
  | mk h => exact hm h
  | load _ h ih =>
    obtain ⟨es, _, h⟩ := bind_ok.1 h
    obtain ⟨h1, _, _, _, _, h2, h3, h4⟩ := rebuildP_inv h
    exact ⟨h1, by rw [h2, ih.2.1], by rw [h3, ih.2.2.1], by rw [h4, ih.2.2.2]⟩
  | noise _ h ih =>
    obtain ⟨es, _, h⟩ := bind_ok.1 h
    obtain ⟨h1, _, _, _, _, h2, h3, h4⟩ := rebuildP_inv h
    exact ⟨h1, by rw [h2, ih.2.1], by rw [h3, ih.2.2.1], by rw [h4, ih.2.2.2]⟩
  | extend _ h _ =>
    obtain ⟨_, _, _, _, _, _, _, _, _, _, _, h⟩ := extendP_inv h
    exact hm h
  | symm _ h _ =>
    obtain ⟨es, _, h⟩ := bind_ok.1 h
    obtain ⟨es, _, h⟩ := bind_ok.1 h
    exact hm h

/-- C88. Whatever the history, the state has one site, and its tensor is the network of the current independent tensors: `T_d` is
`T_u` if up and down are identified, `B_a` and `B_b` are `B_c` if the bonds are. -/
theorem C88_consistent {s : PState} (h : PReach s) :
    s.g.lX = 1 ∧ s.g.lY = 1 ∧ ∃ Tu Bc Td Bb Ba A, FiveOf s.symUD s.symB s.elem Tu Bc Td Bb Ba ∧ s.g.sites = [((0, 0), A)] ∧
      ∃ pC pB pA nI nJ nK nL nA nB nC nD M, Fit Tu.t Bc.t Td.t Bb.t Ba.t pC pB pA nI nJ nK nL nA nB nC nD ∧
        SiteOf Tu.t Bc.t Td.t Bb.t Ba.t pC pB pA nI nJ nK nL nA nB nC nD A.t M := by
  obtain ⟨⟨Tu, Bc, Td, Bb, Ba, A, hF, _, hA, hs⟩, h1, h2, _⟩ := h.inv
  refine ⟨h1, h2, Tu, Bc, Td, Bb, Ba, A, hF, hs, ?_⟩
  obtain ⟨Tu2, Bc2, Td2, Bb2, Ba2, pC, pB, pA, nI, nJ, nK, nL, nA, nB, nC, nD, M, h52, hf, hs⟩ := buildSite_inv hA
  obtain ⟨e1, e3, e2, e5, e4⟩ := five_find (Tu := Tu) (Bc := Bc) (Td := Td) (Bb := Bb) (Ba := Ba)
  replace e1 := Option.some.inj (e1.symm.trans h52.tu)
  replace e2 := Option.some.inj (e2.symm.trans h52.bc)
  replace e3 := Option.some.inj (e3.symm.trans h52.td)
  replace e4 := Option.some.inj (e4.symm.trans h52.bb)
  replace e5 := Option.some.inj (e5.symm.trans h52.ba)
  rw [e1, e2, e3, e4, e5]
  exact ⟨pC, pB, pA, nI, nJ, nK, nL, nA, nB, nC, nD, M, hf, hs⟩

/-- All tensors belong to the declared irreps. -/
def Symmetric (s : PState) : Prop := ∀ n p X, dictFind s.pgs n = some (some p) → dictFind s.elem n = some X → InIrrep n p X.t

theorem symmAll_symmetric {pgs : List (Name × Option Irrep)} (hn : (pgs.map (·.1)).Nodup) {es out : List (Name × Ten)} (h : symmAll pgs es = .ok out) :
    ∀ n p X, dictFind pgs n = some (some p) → dictFind out n = some X → InIrrep n p X.t := by
  intro n p X hp hX
  obtain ⟨h1, h2⟩ := C86_all hn h n
  cases he : dictFind es n with
  | none => rw [h2 (Or.inr he), he] at hX; cases hX
  | some W =>
    obtain ⟨Y, hY, hf⟩ := h1 p W hp he
    rw [hf, Option.some.injEq] at hX
    subst hX
    exact (C86_irrep hY).2.2

/-- C88. Constructing with symmetrisation, adding noise and explicit symmetrisation give states whose tensors belong to the declared
irreps; flags and irreps are as declared. -/
theorem C88_symmetric :
    (∀ {es ud b pgs s}, (pgs.map (·.1)).Nodup → mkP es ud b pgs true = .ok s → Symmetric s ∧ s.symUD = ud ∧ s.symB = b ∧ s.pgs = pgs) ∧
    (∀ {ν} {s s' : PState}, (s.pgs.map (·.1)).Nodup → addNoiseP ν s = .ok s' →
      Symmetric s' ∧ s'.symUD = s.symUD ∧ s'.symB = s.symB ∧ s'.pgs = s.pgs) ∧
    (∀ {ud b pgs} {s s' : PState}, ((pgs.getD s.pgs).map (·.1)).Nodup → symmetrizeP s ud b pgs = .ok s' →
      Symmetric s' ∧ s'.symUD = ud.getD s.symUD ∧ s'.symB = b.getD s.symB ∧ s'.pgs = pgs.getD s.pgs) := by
  refine ⟨?_, ?_, ?_⟩
  · intro es ud b pgs s hn h
    obtain ⟨_, h1, h2, h3, _, _, _, es', _, hs⟩ := mkP_inv h
    refine ⟨?_, h1, h2, h3⟩
    intro n p X hp hX
    rw [h3] at hp
    exact symmAll_symmetric hn hs n p X hp hX
  · intro ν s s' hn h
    obtain ⟨es, hs, h⟩ := bind_ok.1 h
    obtain ⟨_, h1, h2, h3, h4, _⟩ := rebuildP_inv h
    refine ⟨?_, h1, h2, h3⟩
    intro n p X hp hX
    rw [h3] at hp
    rw [h4] at hX
    exact symmAll_symmetric hn hs n p X hp hX
  · intro ud b pgs s s' hn h
    obtain ⟨es, hs, h⟩ := bind_ok.1 h
    obtain ⟨es1, h1, h⟩ := bind_ok.1 h
    obtain ⟨_, g1, g2, g3, _, _, _, es2, h2, hs2⟩ := mkP_inv h
    refine ⟨?_, g1, g2, g3⟩
    intro n p X hp hX
    rw [g3] at hp
    rw [if_neg (by simp)] at hs2
    rw [hs2, (selectP_inv h2).2.1 n] at hX
    by_cases hk : kept (ud.getD s.symUD) (b.getD s.symB) n = true
    · rw [if_pos hk, (selectP_inv h1).2.1 n, if_pos hk] at hX
      exact symmAll_symmetric hn hs n p X hp hX
    · rw [if_neg hk] at hX; cases hX

/-- C88. Noise changes only the tensors: in a state without declared irreps the new independent tensors are the old ones plus the
noise. -/
theorem C88_noise_free {ν : Name → List Nat → ℂ} {s s' : PState} (hn : ∀ n p, dictFind s.pgs n ≠ some (some p)) (hd : (s.pgs.map (·.1)).Nodup)
    (h : addNoiseP ν s = .ok s') (n : Name) :
    dictFind s'.elem n = (dictFind s.elem n).map (fun X => ⟨X.cplx, ⟨X.t.shape, fun i => X.t.val i + ν n i⟩⟩) := by
  obtain ⟨es, hs, h⟩ := bind_ok.1 h
  obtain ⟨_, _, _, _, h4, _⟩ := rebuildP_inv h
  rw [h4, (C86_all hd hs n).2 (Or.inl (hn n))]
  generalize s.elem = el
  induction el with
  | nil => rfl
  | cons e es ih =>
    obtain ⟨k, X⟩ := e
    by_cases hk : k = n
    · subst hk; simp [dictFind]
    · simp only [dictFind, List.map_cons, List.find?_cons, hk, decide_false] at ih ⊢
      exact ih

theorem filterMap_new (l : List (Name × Ten)) : (l.map (fun e => ((CName.new e.1, e.2) : CName × Ten))).filterMap (fun e => match e.1 with
    | .new n => some (n, e.2)
    | _ => none) = l := by
  induction l with
  | nil => rfl
  | cons e es ih => simp only [List.map_cons, List.filterMap_cons]; rw [ih]

theorem find_old (l : List (Name × Ten)) (c : CName) (hc : ∀ n, c ≠ .new n) : dictFind (l.map (fun e => ((CName.new e.1, e.2) : CName × Ten))) c = none := by
  rw [dictFind, Option.map_eq_none_iff, List.find?_eq_none]
  intro x hx
  obtain ⟨e, _, rfl⟩ := List.mem_map.1 hx
  simpa using (hc e.1).symm

/-- C88. Checkpoints: loading the checkpoint of a reachable state into a state with the same flags restores its tensors and its site
tensor. -/
theorem C88_checkpoint {s t : PState} (hs : PReach s) (h1 : t.symUD = s.symUD) (h2 : t.symB = s.symB) :
    ∃ t', loadP (checkpointP s) t = .ok t' ∧ t'.elem = s.elem ∧ t'.g.sites = s.g.sites ∧ t'.g.ipess = s.g.ipess := by
  obtain ⟨⟨Tu, Bc, Td, Bb, Ba, A, hF, hi, hA, hsites⟩, _⟩ := hs.inv
  have hc : ckptElem t.symUD (checkpointP s) = .ok s.elem := by
    unfold ckptElem checkpointP
    rw [find_old _ .upT (by simp)]
    exact congrArg Except.ok (filterMap_new s.elem)
  obtain ⟨t', ht, hts, hti⟩ := rebuildP_ok (s := t) (es := s.elem) (by rw [h1, h2]; exact hF) hA
  refine ⟨t', ?_, (rebuildP_inv ht).2.2.2.2.1, by rw [hts, hsites], by rw [hti, hi]⟩
  unfold loadP
  rw [hc]
  exact ht

/-- C88 (violated). Checkpoints of the old format with three different bond tensors cannot be loaded, by any state. -/
theorem C88_old_checkpoint_violated (u b1 b2 b3 : Ten) (rest : List (CName × Ten)) (hr : dictFind rest .bondS = none) (s : PState) :
    loadP ([(.upT, u), (.bondS1, b1), (.bondS2, b2), (.bondS3, b3)] ++ rest) s = .error .raise := by
  have h : dictFind ([(CName.upT, u), (.bondS1, b1), (.bondS2, b2), (.bondS3, b3)] ++ rest) .bondS = none := by
    simpa [dictFind] using hr
  have hc : ckptElem s.symUD ([(.upT, u), (.bondS1, b1), (.bondS2, b2), (.bondS3, b3)] ++ rest) = .error .raise := by
    unfold ckptElem
    rw [h]
    rfl
  unfold loadP
  rw [hc]
  rfl

/-- C88 (violated). The identification of up and down triangles cannot be lifted with `to_PG_symmetric`: asking for independent
triangles raises for every state constructed with identified ones. -/
theorem C88_lift_violated {es : List (Name × Ten)} {b sy : Bool} {pgs : List (Name × Option Irrep)} (hn : (pgs.map (·.1)).Nodup) {s : PState}
    (h : mkP es true b pgs sy = .ok s) (b' : Option Bool) (s' : PState) : symmetrizeP s (some false) b' none ≠ .ok s' := by
  intro h'
  obtain ⟨_, h1, h2, h3, _, _, _, es', h5, h6⟩ := mkP_inv h
  have hd : dictFind s.elem .Td = none := by
    have h0 : dictFind es' .Td = none := by rw [(selectP_inv h5).2.1 .Td]; rfl
    cases sy with
    | false => rw [if_neg (by simp)] at h6; rw [h6, h0]
    | true => rw [if_pos rfl] at h6; rw [(C86_all hn h6 .Td).2 (Or.inr h0), h0]
  obtain ⟨es2, hs, h'⟩ := bind_ok.1 h'
  obtain ⟨es3, h7, h'⟩ := bind_ok.1 h'
  have e2 : dictFind es2 .Td = none := by
    have hn' : (((none : Option (List (Name × Option Irrep))).getD s.pgs).map (·.1)).Nodup := by rw [h3]; exact hn
    rw [(C86_all hn' hs .Td).2 (Or.inr hd), hd]
  unfold selectP at h7
  obtain ⟨_, _, h7⟩ := bind_ok.1 h7
  obtain ⟨_, _, h7⟩ := bind_ok.1 h7
  obtain ⟨_, h8, h7⟩ := bind_ok.1 h7
  obtain ⟨_, h9, _⟩ := bind_ok.1 h8
  rw [look_ok h9] at e2
  cases e2

/-- Non-vacuity of C88: a reachable symmetric state. -/
theorem ex_state : ∃ s, PReach s ∧ Symmetric s ∧ s.symUD = true ∧ s.symB = true ∧ s.pgs = [(.Tu, some .A1), (.Bc, some .A)] ∧
    dictFind s.elem .Tu = some ⟨false, exT⟩ ∧ dictFind s.elem .Bc = some ⟨false, exB⟩ := by
  obtain ⟨A, hA⟩ := ex_built
  obtain ⟨s, hs, _⟩ := mkP_ok (es := exElem) (ud := true) (b := true) (pgs := [(.Tu, some .A1), (.Bc, some .A)]) (Tu := ⟨false, exT⟩) (Bc := ⟨false, exB⟩)
    (Td := ⟨false, exT⟩) (Bb := ⟨false, exB⟩) (Ba := ⟨false, exB⟩) ⟨rfl, rfl, by simp, by simp, by simp⟩ hA
  obtain ⟨_, h1, h2, h3, _, _, _, es', h5, h6⟩ := mkP_inv hs
  rw [if_neg (by simp)] at h6
  cases Except.ok.inj h5
  refine ⟨s, .mk hs, ?_, h1, h2, h3, by rw [h6]; rfl, by rw [h6]; rfl⟩
  intro n p X hp hX
  rw [h3] at hp
  rw [h6] at hX
  cases n <;> simp [dictFind] at hp hX
  · subst hp hX; exact exT_irrep
  · subst hp hX; exact exB_irrep

/-! ## C87 -/

/-- The sizes of a state with identified bonds and a symmetric `T_u`. -/
theorem sizes {Tu Bc Td : Tensor ℂ} {pC pB pA nI nJ nK nL nA nB nC nD D D' : Nat} (hf : Fit Tu Bc Td Bc Bc pC pB pA nI nJ nK nL nA nB nC nD)
    (hu : Tu.shape = [D, D, D]) (hd : Td.shape = [D', D', D']) :
    pB = pC ∧ pA = pC ∧ nI = D ∧ nA = D ∧ nB = D ∧ nC = D ∧ nD = D ∧ nJ = D' ∧ nK = D' ∧ nL = D' := by
  have t1 := hf.tu.symm.trans hu
  have t3 := hf.td.symm.trans hd
  have t4 := hf.bb.symm.trans hf.bc
  have t5 := hf.ba.symm.trans hf.bc
  simp only [List.cons.injEq, and_true] at t1 t3 t4 t5
  omega

/-- C87. If the bonds are identified and the trivalent tensors belong to declared irreps, the wavefunction on every torus `n × n` is
invariant under rotations by 120 degrees. -/
theorem C87_rotation {s : PState} (h : PReach s) (hS : Symmetric s) (hb : s.symB = true) (hud : s.symUD = true)
    {p : Irrep} (hu : dictFind s.pgs .Tu = some (some p)) :
    ∃ A q D, s.g.sites = [((0, 0), A)] ∧ A.t.shape = [q * q * q, D, D, D, D] ∧
      ∀ (n : Nat) [NeZero n] (σ : Fin 3 → ZMod n × ZMod n → Nat), (∀ e r, σ e r < q) →
        squareAmplitude D A.t (fused q (rotated σ)) = squareAmplitude D A.t (fused q σ) := by
  obtain ⟨_, _, Tu, Bc, Td, Bb, Ba, A, hF, hsites, pC, pB, pA, nI, nJ, nK, nL, nA, nB, nC, nD, M, hf, hs⟩ := C88_consistent h
  obtain ⟨f1, f2, f3, f4, f5⟩ := hF
  rw [hb, if_pos rfl] at f4 f5
  rw [hud, if_pos rfl] at f3
  subst f3 f4 f5
  obtain ⟨D, hD, hc, _⟩ := hS .Tu p _ hu f1
  obtain ⟨rfl, rfl, rfl, rfl, rfl, rfl, rfl, rfl, rfl, rfl⟩ := sizes hf hD hD
  refine ⟨A, _, _, hsites, hs.shape, ?_⟩
  intro n _ σ hσ
  rw [square_eq hs σ hσ, square_eq hs (rotated σ) (fun e r => hσ _ _)]
  have e : (![Ba.t, Ba.t, Ba.t] : Fin 3 → Tensor ℂ) = fun _ => Ba.t := by funext e; fin_cases e <;> rfl
  rw [e, amplitude_rotated _ _ _ hc hc]

/-- C87. If moreover the bond tensor belongs to a declared irrep, reflecting the configuration conjugates the wavefunction, up to the
sign of the bond irrep to the power of the number of Kagome sites. -/
theorem C87_mirror {s : PState} (h : PReach s) (hS : Symmetric s) (hb : s.symB = true) (hud : s.symUD = true)
    {p p' : Irrep} (hu : dictFind s.pgs .Tu = some (some p)) (hc : dictFind s.pgs .Bc = some (some p')) :
    ∃ A q D, s.g.sites = [((0, 0), A)] ∧ A.t.shape = [q * q * q, D, D, D, D] ∧
      ∀ (n : Nat) [NeZero n] (σ : Fin 3 → ZMod n × ZMod n → Nat), (∀ e r, σ e r < q) →
        squareAmplitude D A.t (fused q (mirrored σ)) = (if p' = .A then 1 else -1) ^ (3 * (n * n)) * star (squareAmplitude D A.t (fused q σ)) := by
  obtain ⟨_, _, Tu, Bc, Td, Bb, Ba, A, hF, hsites, pC, pB, pA, nI, nJ, nK, nL, nA, nB, nC, nD, M, hf, hs⟩ := C88_consistent h
  obtain ⟨f1, f2, f3, f4, f5⟩ := hF
  rw [hb, if_pos rfl] at f4 f5
  rw [hud, if_pos rfl] at f3
  subst f3 f4 f5
  obtain ⟨D, hD, _, hm⟩ := hS .Tu p _ hu f1
  obtain ⟨q, D', hD', hm'⟩ := hS .Bc p' _ hc f2
  obtain ⟨rfl, rfl, rfl, rfl, rfl, rfl, rfl, rfl, rfl, rfl⟩ := sizes hf hD hD
  have t := hD'.symm.trans hf.bc
  simp only [List.cons.injEq, and_true] at t
  obtain ⟨rfl, rfl, _⟩ := t
  have hT : ∃ ε : ℂ, ε * ε = 1 ∧ Mirror D' D' ε Td.t := by
    rcases hm with ⟨_, hm⟩ | ⟨_, hm⟩
    · exact ⟨1, by simp, hm⟩
    · exact ⟨-1, by simp, hm⟩
  have hB : Mirror q D' (if p' = .A then 1 else -1) Ba.t := by
    rcases hm' with ⟨rfl, hm⟩ | ⟨rfl, hm⟩
    · simpa using hm
    · simpa using hm
  obtain ⟨ε, hε, hT⟩ := hT
  refine ⟨A, _, _, hsites, hs.shape, ?_⟩
  intro n _ σ hσ
  rw [square_eq hs σ hσ, square_eq hs (mirrored σ) (fun e r => hσ _ _)]
  have e : (![Ba.t, Ba.t, Ba.t] : Fin 3 → Tensor ℂ) = fun _ => Ba.t := by funext e; fin_cases e <;> rfl
  rw [e, amplitude_mirrored q ε _ _ _ hε hT hB σ hσ, star_div₀, star_pow]
  have : star (M : ℂ) = M := Complex.conj_ofReal M
  rw [this, mul_div_assoc]

/-- C87. For a real state, inverting the configuration about a site multiplies the wavefunction by the sign of the bond irrep to the
power of the number of Kagome sites. -/
theorem C87_inversion {s : PState} (h : PReach s) (hS : Symmetric s) (hb : s.symB = true) (hud : s.symUD = true)
    {p p' : Irrep} (hu : dictFind s.pgs .Tu = some (some p)) (hc : dictFind s.pgs .Bc = some (some p'))
    (hr : ∀ X, dictFind s.elem .Bc = some X → ∀ i, InB X.t.shape i → (X.t.val i).im = 0) :
    ∃ A q D, s.g.sites = [((0, 0), A)] ∧ A.t.shape = [q * q * q, D, D, D, D] ∧
      ∀ (n m : Nat) [NeZero n] [NeZero m] (σ : Fin 3 → ZMod n × ZMod m → Nat), (∀ e r, σ e r < q) →
        squareAmplitude D A.t (fused q (inverted σ)) = (if p' = .A then 1 else -1) ^ (3 * (n * m)) * squareAmplitude D A.t (fused q σ) := by
  obtain ⟨_, _, Tu, Bc, Td, Bb, Ba, A, hF, hsites, pC, pB, pA, nI, nJ, nK, nL, nA, nB, nC, nD, M, hf, hs⟩ := C88_consistent h
  obtain ⟨f1, f2, f3, f4, f5⟩ := hF
  rw [hb, if_pos rfl] at f4 f5
  rw [hud, if_pos rfl] at f3
  subst f3 f4 f5
  obtain ⟨D, hD, _, hm⟩ := hS .Tu p _ hu f1
  obtain ⟨q, D', hD', hm'⟩ := hS .Bc p' _ hc f2
  obtain ⟨rfl, rfl, rfl, rfl, rfl, rfl, rfl, rfl, rfl, rfl⟩ := sizes hf hD hD
  have t := hD'.symm.trans hf.bc
  simp only [List.cons.injEq, and_true] at t
  obtain ⟨rfl, rfl, _⟩ := t
  have hB : Mirror q D' (if p' = .A then 1 else -1) Ba.t := by
    rcases hm' with ⟨rfl, hm⟩ | ⟨rfl, hm⟩
    · simpa using hm
    · simpa using hm
  have hE : Spec.Even q D' (if p' = .A then 1 else -1) Ba.t := by
    intro t a b ht ha hb
    rw [hB t a b ht ha hb]
    have : star (Ba.t.val [t, a, b]) = Ba.t.val [t, a, b] := by
      apply Complex.conj_eq_iff_im.2
      exact hr _ f2 _ (by rw [hD', inB_iff3]; exact ⟨_, _, _, rfl, ht, ha, hb⟩)
    rw [this]
  refine ⟨A, _, _, hsites, hs.shape, ?_⟩
  intro n m _ _ σ hσ
  rw [square_eq hs σ hσ, square_eq hs (inverted σ) (fun e r => hσ _ _)]
  have e : (![Ba.t, Ba.t, Ba.t] : Fin 3 → Tensor ℂ) = fun _ => Ba.t := by funext e; fin_cases e <;> rfl
  rw [e, amplitude_inverted q _ _ _ hE σ hσ, mul_div_assoc]

/-- Non-vacuity of C87. -/
example : ∃ s, PReach s ∧ Symmetric s ∧ s.symB = true ∧ s.symUD = true ∧ dictFind s.pgs .Tu = some (some .A1) ∧ dictFind s.pgs .Bc = some (some .A) ∧
    ∀ X, dictFind s.elem .Bc = some X → ∀ i, InB X.t.shape i → (X.t.val i).im = 0 := by
  obtain ⟨s, h1, h2, h3, h4, h5, _, h7⟩ := ex_state
  refine ⟨s, h1, h2, h4, h3, by rw [h5]; rfl, by rw [h5]; rfl, ?_⟩
  intro X hX i hi
  rw [h7, Option.some.injEq] at hX
  subst hX
  obtain ⟨a, b, c, rfl, _⟩ := inB_iff3.1 hi
  rcases a with _ | a <;> simp [exB]

end Verif.Kagome
