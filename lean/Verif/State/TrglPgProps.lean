import Verif.State.TrglPgSymm
import Verif.State.TrglPgTorus
/-
Property C131: symmetric states on the triangular lattice, their projection onto irreps and the symmetries of their wavefunctions.
-/
namespace Verif.TrglPg
open Verif.State
open Verif.Tensor
open Verif.Kagome (Err Ten Irrep lift lift_ok bind_ok)
open Verif.Kagome.Spec (Cyclic Mirror squareAmplitude)
open Spec

/-! ### Projection -/

/-- All tensors belong to the declared irreps. -/
def Symmetric (k : Kind) (pgs : Pgs) (el : Elem) : Prop :=
  (∀ p, dictFind pgs .aux = some (some p) → AuxIn p el.aux.t) ∧ (∀ p, dictFind pgs .phys = some (some p) → PhysIn k p el.phys.t)

/-- C131. The projected tensors belong to the declared irreps and keep shapes and dtypes; a tensor without a declared irrep is
untouched; a tensor that already belongs to its irrep keeps its entries, in particular projecting twice is projecting once. -/
theorem C131_projection {k : Kind} {pgs : Pgs} (hn : (pgs.map (·.1)).Nodup) {el out : Elem} (h : symmAll k pgs el = .ok out) :
    Symmetric k pgs out ∧
    out.aux.cplx = el.aux.cplx ∧ out.phys.cplx = el.phys.cplx ∧ out.aux.t.shape = el.aux.t.shape ∧ out.phys.t.shape = el.phys.t.shape ∧
    ((∀ p, dictFind pgs .aux ≠ some (some p)) → out.aux = el.aux) ∧ ((∀ p, dictFind pgs .phys ≠ some (some p)) → out.phys = el.phys) ∧
    (Symmetric k pgs el → el.aux.t.Same out.aux.t ∧ el.phys.t.Same out.phys.t) := by
  obtain ⟨h1, h2, h3, h4⟩ := symmAll_find k el pgs hn el out h
  have ha : out.aux.cplx = el.aux.cplx ∧ out.aux.t.shape = el.aux.t.shape ∧ (∀ p, dictFind pgs .aux = some (some p) → AuxIn p out.aux.t) ∧
      ((∀ p, dictFind pgs .aux = some (some p) → AuxIn p el.aux.t) → el.aux.t.Same out.aux.t) := by
    by_cases hp : ∃ p, dictFind pgs .aux = some (some p)
    · obtain ⟨p, hp⟩ := hp
      obtain ⟨g1, g2, g3⟩ := symmAux_in (h1 p hp)
      refine ⟨g1, g2, fun p' hp' => ?_, fun hS => ?_⟩
      · rw [hp, Option.some.injEq, Option.some.injEq] at hp'
        subst hp'; exact g3
      · obtain ⟨Y, hY, hs⟩ := symmAux_fixed (hS p hp)
        rw [h1 p hp, Except.ok.injEq] at hY
        rw [hY]; exact hs
    · have e := h2 (fun p hq => hp ⟨p, hq⟩)
      rw [e]
      exact ⟨rfl, rfl, fun p hq => absurd ⟨p, hq⟩ hp, fun _ => ⟨rfl, fun _ _ => rfl⟩⟩
  have hb : out.phys.cplx = el.phys.cplx ∧ out.phys.t.shape = el.phys.t.shape ∧ (∀ p, dictFind pgs .phys = some (some p) → PhysIn k p out.phys.t) ∧
      ((∀ p, dictFind pgs .phys = some (some p) → PhysIn k p el.phys.t) → el.phys.t.Same out.phys.t) := by
    by_cases hp : ∃ p, dictFind pgs .phys = some (some p)
    · obtain ⟨p, hp⟩ := hp
      obtain ⟨g1, g2, g3, g4⟩ := symmPhys_in (h3 p hp)
      refine ⟨g1, g2, fun p' hp' => ?_, fun hS => g4 (hS p hp)⟩
      rw [hp, Option.some.injEq, Option.some.injEq] at hp'
      subst hp'; exact g3
    · have e := h4 (fun p hq => hp ⟨p, hq⟩)
      rw [e]
      exact ⟨rfl, rfl, fun p hq => absurd ⟨p, hq⟩ hp, fun _ => ⟨rfl, fun _ _ => rfl⟩⟩
  exact ⟨⟨ha.2.2.1, hb.2.2.1⟩, ha.1, hb.1, ha.2.1, hb.2.1, h2, h4, fun hS => ⟨ha.2.2.2 hS.1, hb.2.2.2 hS.2⟩⟩

/-- C131. The projection is defined exactly when every declared irrep exists for its tensor and the auxiliary legs have one size. -/
theorem C131_defined {k : Kind} {pgs : Pgs} (hn : (pgs.map (·.1)).Nodup) (el : Elem) :
    (∃ out, symmAll k pgs el = .ok out) ↔
      (∀ p, dictFind pgs .aux = some (some p) → AuxActs p el.aux.t) ∧ (∀ p, dictFind pgs .phys = some (some p) → PhysActs k p el.phys.t) := by
  constructor
  · rintro ⟨out, h⟩
    obtain ⟨h1, _, h3, _⟩ := symmAll_find k el pgs hn el out h
    exact ⟨fun p hp => (symmAux_defined p el.aux).1 ⟨_, h1 p hp⟩, fun p hp => symmPhys_shape (h3 p hp)⟩
  · rintro ⟨h1, h2⟩
    exact symmAll_ok k el pgs el (fun p hp => h1 p (find_of_mem hn hp)) (fun p hp => h2 p (find_of_mem hn hp))

/-! ### Site tensors -/

/-- The site tensor of a state is the network of its elementary tensors. -/
def IsSite (k : Kind) (el : Elem) (A : Ten) : Prop :=
  A.cplx = el.aux.cplx ∧ A.cplx = el.phys.cplx ∧
  match k with
  | .ttphys => ∃ nl nd nx nu nr np, el.aux.t.shape = [nl, nd, nx] ∧ el.phys.t.shape = [nx, nu, nr, np] ∧ A.t.shape = [np, nu, nl, nd, nr] ∧
      ∀ p u l d r, p < np → u < nu → l < nl → d < nd → r < nr → A.t.val [p, u, l, d, r] = siteTT el.aux.t el.phys.t nx p u l d r
  | .tbt => ∃ nl nd nx np, el.aux.t.shape = [nl, nd, nx] ∧ el.phys.t.shape = [nx, nl, np] ∧ A.t.shape = [np, nd, nl, nd, nx] ∧
      ∀ p u l d r, p < np → u < nd → l < nl → d < nd → r < nx → A.t.val [p, u, l, d, r] = siteTBT el.aux.t el.phys.t nx nl p u l d r

theorem build_site {k : Kind} {el : Elem} {A : Ten} (h : build k el = .ok A) : IsSite k el A := by
  unfold build at h
  split at h
  · rename_i hc
    cases k with
    | ttphys =>
      obtain ⟨R, hR, h⟩ := bind_ok.1 h
      cases Except.ok.inj h
      have hR := lift_ok.1 hR
      obtain ⟨dim, hs, _, _⟩ := einsum_some hR
      have ha : el.aux.t.shape = [dim 0, dim 1, dim 2] := hs (el.aux.t, [0, 1, 2]) (by simp)
      have hp : el.phys.t.shape = [dim 2, dim 3, dim 4, dim 5] := hs (el.phys.t, [2, 3, 4, 5]) (by simp)
      obtain ⟨R', hR', hsh, hv⟩ := einsumTT ha hp
      rw [hR, Option.some.injEq] at hR'
      subst hR'
      exact ⟨rfl, hc.symm, _, _, _, _, _, _, ha, hp, hsh, hv⟩
    | tbt =>
      obtain ⟨R, hR, h⟩ := bind_ok.1 h
      cases Except.ok.inj h
      have hR := lift_ok.1 hR
      obtain ⟨dim, hs, _, _⟩ := einsum_some hR
      have ha : el.aux.t.shape = [dim 0, dim 1, dim 2] := hs (el.aux.t, [0, 1, 2]) (by simp)
      have hp : el.phys.t.shape = [dim 2, dim 3, dim 4] := hs (el.phys.t, [2, 3, 4]) (by simp)
      have ha' : el.aux.t.shape = [dim 3, dim 5, dim 6] := hs (el.aux.t, [3, 5, 6]) (by simp)
      obtain ⟨R', hR', hsh, hv⟩ := einsumTBT ha ha' hp
      rw [hR, Option.some.injEq] at hR'
      subst hR'
      have e := ha.symm.trans ha'
      simp only [List.cons.injEq, and_true] at e
      obtain ⟨e0, e1, e2⟩ := e
      rw [← e1, ← e2] at hsh
      rw [← e0, ← e1, ← e2] at hv
      rw [← e0] at hp
      exact ⟨rfl, hc.symm, _, _, _, _, ha, hp, hsh, hv⟩
  · cases h

theorem build_tt {el : Elem} (hc : el.phys.cplx = el.aux.cplx) {nl nd nx nu nr np : Nat} (ha : el.aux.t.shape = [nl, nd, nx])
    (hp : el.phys.t.shape = [nx, nu, nr, np]) : ∃ A, build .ttphys el = .ok A := by
  obtain ⟨R, hR, _⟩ := einsumTT ha hp
  exact ⟨_, by unfold build; rw [if_pos hc]; exact bind_ok.2 ⟨R, lift_ok.2 hR, rfl⟩⟩

theorem build_tbt {el : Elem} (hc : el.phys.cplx = el.aux.cplx) {nl nd nx np : Nat} (ha : el.aux.t.shape = [nl, nd, nx])
    (hp : el.phys.t.shape = [nx, nl, np]) : ∃ A, build .tbt el = .ok A := by
  obtain ⟨R, hR, _⟩ := einsumTBT ha ha hp
  exact ⟨_, by unfold build; rw [if_pos hc]; exact bind_ok.2 ⟨R, lift_ok.2 hR, rfl⟩⟩

/-! ### Symmetries of the wavefunction -/

/-- C131. The first ansatz: if both tensors belong to declared irreps, the wavefunction on every torus `n × n` is invariant under the
rotation by 120 degrees that permutes the triangles of a site. -/
theorem C131_rotation {s : TState} (hk : s.kind = .ttphys) (hs : IsSite s.kind s.el s.site) (hS : Symmetric s.kind s.pgs s.el)
    {p p' : Irrep} (ha : dictFind s.pgs .aux = some (some p)) (hp : dictFind s.pgs .phys = some (some p')) :
    ∃ q D, s.site.t.shape = [q, D, D, D, D] ∧ ∀ (n : Nat) [NeZero n] (σ : ZMod n × ZMod n → Nat), (∀ r, σ r < q) →
      squareAmplitude D s.site.t (fun r => σ (turn r)) = squareAmplitude D s.site.t σ := by
  obtain ⟨h1, h2⟩ := hS
  replace h1 := h1 p ha
  replace h2 := h2 p' hp
  rw [hk] at hs h2
  obtain ⟨_, _, nl, nd, nx, nu, nr, np, e1, e2, e3, hv⟩ := hs
  obtain ⟨_, D, f1, hc, _⟩ := h1
  obtain ⟨_, D', q, f2, hp⟩ := h2
  rw [e1] at f1
  rw [e2] at f2
  simp only [List.cons.injEq, and_true] at f1 f2
  obtain ⟨rfl, rfl, rfl⟩ := f1
  obtain ⟨rfl, rfl, rfl, rfl⟩ := f2
  refine ⟨_, _, e3, fun n _ σ hσ => ?_⟩
  rw [square_simplex hv _ hσ, square_simplex hv _ (fun r => hσ _)]
  exact simplex_turn hc (fun t ht => (hp t ht).1) σ hσ

/-- C131. The reflection that exchanges two of the three triangles of a site conjugates the wavefunction, up to the signs of the two
irreps, once for every site. -/
theorem C131_mirror {s : TState} (hk : s.kind = .ttphys) (hs : IsSite s.kind s.el s.site) (hS : Symmetric s.kind s.pgs s.el)
    {p p' : Irrep} (ha : dictFind s.pgs .aux = some (some p)) (hp : dictFind s.pgs .phys = some (some p')) :
    ∃ q D, s.site.t.shape = [q, D, D, D, D] ∧ ∀ (n : Nat) [NeZero n] (σ : ZMod n × ZMod n → Nat), (∀ r, σ r < q) →
      squareAmplitude D s.site.t (fun r => σ (mirror r)) =
        ((if p = .A1 then 1 else -1) * (if p' = .A1 then 1 else -1)) ^ (n * n) * star (squareAmplitude D s.site.t σ) := by
  obtain ⟨h1, h2⟩ := hS
  replace h1 := h1 p ha
  replace h2 := h2 p' hp
  rw [hk] at hs h2
  obtain ⟨_, _, nl, nd, nx, nu, nr, np, e1, e2, e3, hv⟩ := hs
  obtain ⟨g1, D, f1, hc, hm⟩ := h1
  obtain ⟨g2, D', q, f2, hp⟩ := h2
  rw [e1] at f1
  rw [e2] at f2
  simp only [List.cons.injEq, and_true] at f1 f2
  obtain ⟨rfl, rfl, rfl⟩ := f1
  obtain ⟨rfl, rfl, rfl, rfl⟩ := f2
  have i1 : irrepSign p = if p = .A1 then 1 else -1 := by rcases g1 with rfl | rfl <;> simp [irrepSign]
  have i2 : irrepSign p' = if p' = .A1 then 1 else -1 := by rcases g2 with rfl | rfl <;> simp [irrepSign]
  refine ⟨_, _, e3, fun n _ σ hσ => ?_⟩
  rw [square_simplex hv _ hσ, square_simplex hv _ (fun r => hσ _), ← i1, ← i2]
  exact simplex_mirror hc hm (fun t ht => (hp t ht).2) σ hσ

/-- C131. The second ansatz: the inversion about a site conjugates the wavefunction, up to the sign of the irrep of the bond, once for
every site. -/
theorem C131_inversion {s : TState} (hk : s.kind = .tbt) (hs : IsSite s.kind s.el s.site) (hS : Symmetric s.kind s.pgs s.el)
    {p p' : Irrep} (ha : dictFind s.pgs .aux = some (some p)) (hp : dictFind s.pgs .phys = some (some p')) :
    ∃ q D, s.site.t.shape = [q, D, D, D, D] ∧ ∀ (n m : Nat) [NeZero n] [NeZero m] (σ : ZMod n × ZMod m → Nat), (∀ r, σ r < q) →
      squareAmplitude D s.site.t (fun r => σ (-r)) = (if p' = .A then 1 else -1) ^ (n * m) * star (squareAmplitude D s.site.t σ) := by
  obtain ⟨h1, h2⟩ := hS
  replace h1 := h1 p ha
  replace h2 := h2 p' hp
  rw [hk] at hs h2
  obtain ⟨_, _, nl, nd, nx, np, e1, e2, e3, hv⟩ := hs
  obtain ⟨g1, D, f1, hc, hm⟩ := h1
  obtain ⟨g2, D', q, f2, hb⟩ := h2
  rw [e1] at f1
  rw [e2] at f2
  simp only [List.cons.injEq, and_true] at f1 f2
  obtain ⟨rfl, rfl, rfl⟩ := f1
  obtain ⟨rfl, _, rfl⟩ := f2
  have i2 : irrepSign p' = if p' = .A then 1 else -1 := by rcases g2 with rfl | rfl <;> simp [irrepSign]
  have i1 : irrepSign p * irrepSign p = 1 := by rcases g1 with rfl | rfl <;> simp [irrepSign]
  have i3 : star (irrepSign p) = irrepSign p := by rcases g1 with rfl | rfl <;> simp [irrepSign]
  refine ⟨_, _, e3, fun n m _ _ σ hσ => ?_⟩
  rw [← i2]
  apply square_inverted _ σ hσ
  intro t u l d r ht hu hl hd hr
  rw [hv t d r u l ht hd hr hu hl, hv t u l d r ht hu hl hd hr]
  unfold siteTBT
  rw [Finset.sum_comm, star_sum, Finset.mul_sum]
  refine Finset.sum_congr rfl fun x hx => ?_
  rw [star_sum, Finset.mul_sum]
  refine Finset.sum_congr rfl fun y hy => ?_
  rw [Finset.mem_range] at hx hy
  have c1 : s.el.aux.t.val [r, u, y] = irrepSign p * star (s.el.aux.t.val [y, u, r]) := by
    rw [hc y r u hy hr hu]; exact hm y u r hy hu hr
  have c2 : s.el.aux.t.val [x, d, l] = irrepSign p * star (s.el.aux.t.val [l, d, x]) := by
    rw [hm x l d hx hl hd, hc x l d hx hl hd]
  rw [c1, c2, hb x y t hx hy ht]
  simp only [star_mul']
  linear_combination (star (s.el.aux.t.val [y, u, r]) * irrepSign p' * star (s.el.phys.t.val [x, y, t]) * star (s.el.aux.t.val [l, d, x])) * i1

/-! ### The lattice of the models -/

/-- The rotations of the model lattice map nearest neighbours to nearest neighbours. -/
theorem modelTurn_neighbours {n : Nat} (r s : ZMod n × ZMod n) (h : ModelNeighbours r s) : ModelNeighbours (modelTurn r) (modelTurn s) := by
  have e : ∀ a b : ZMod n × ZMod n, modelTurn a - modelTurn b = modelTurn (a - b) := by
    intro a b; ext <;> simp [modelTurn]; ring
  unfold ModelNeighbours at h ⊢
  rw [e s r, e r s]
  have e2 : r - s = -(s - r) := by simp
  rw [e2] at h ⊢
  generalize s - r = v at *
  rcases h with h | h | h | h | h | h
  · rw [h]; right; right; right; right; right; ext <;> simp [modelTurn]
  · rw [h]; right; right; right; left; ext <;> simp [modelTurn]
  · rw [h]; right; left; ext <;> simp [modelTurn]
  · right; right; left
    have : v = (-1, 0) := by rw [← neg_neg v, h]; ext <;> simp
    rw [this]; ext <;> simp [modelTurn]
  · left
    have : v = (0, -1) := by rw [← neg_neg v, h]; ext <;> simp
    rw [this]; ext <;> simp [modelTurn]
  · right; right; right; right; left
    have : v = (-1, 1) := by rw [← neg_neg v, h]; ext <;> simp
    rw [this]; ext <;> simp [modelTurn]

end Verif.TrglPg
