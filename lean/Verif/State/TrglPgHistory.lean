import Verif.State.TrglPgWitness
import Verif.State.KagomeIO
/-
Property C132: what a sequence of operations does to a symmetric state on the triangular lattice.
-/
namespace Verif.TrglPg
open Verif.State
open Verif.Tensor
open Verif.Kagome (Err Ten Irrep lift lift_ok bind_ok normMax maxAbs)
open Verif.Kagome.Spec (Cyclic Mirror squareAmplitude)
open Spec

/-! ### Histories -/

/-- The states a program can get hold of, and whether their site tensor is up to date. `add_noise` changes the state on which it is called,
and returns another one. -/
inductive Hist : TState → Bool → Prop
  | new {k el pgs sy s} : (pgs.map (·.1)).Nodup → mk k el pgs sy = .ok s → Hist s true
  | read {F gc k j s} : (∀ pgs, j.pgs = some pgs → (pgs.map (·.1)).Nodup) → readFile F gc k j = .ok s → Hist s true
  | load {s b f s'} : Hist s b → load f s = .ok s' → Hist s' true
  | normalize {s b s'} : Hist s b → normalize s = .ok s' → Hist s' true
  | extend {s b d s'} : Hist s b → extend d s = .ok s' → Hist s' true
  | symmetrize {s b pgs s'} : Hist s b → (∀ ps, pgs = some ps → (ps.map (·.1)).Nodup) → symmetrize s pgs = .ok s' → Hist s' true
  | noisy {s b ν μ} : Hist s b → Hist (addNoise ν μ s).1 false
  | noise {s b ν μ s'} : Hist s b → (addNoise ν μ s).2 = .ok s' → Hist s' true

theorem symmetrize_inv {s s' : TState} {pgs : Option Pgs} (h : symmetrize s pgs = .ok s') :
    keysOk (pgs.getD s.pgs) = true ∧ s'.kind = s.kind ∧ s'.pgs = pgs.getD s.pgs ∧ symmAll s.kind (pgs.getD s.pgs) s.el = .ok s'.el ∧
      build s'.kind s'.el = .ok s'.site := by
  obtain ⟨el, h1, h⟩ := bind_ok.1 h
  obtain ⟨g0, g1, g2, g3, g4⟩ := mk_inv h
  have : el = s'.el := Except.ok.inj g3
  subst this
  exact ⟨g0, g1, g2, h1, by rw [g1]; exact g4⟩

theorem normalize_inv {s s' : TState} (h : normalize s = .ok s') : s'.kind = s.kind ∧ s'.pgs = s.pgs ∧
    normMax s.el.aux.t = .ok s'.el.aux.t ∧ normMax s.el.phys.t = .ok s'.el.phys.t ∧ s'.el.aux.cplx = s.el.aux.cplx ∧
    s'.el.phys.cplx = s.el.phys.cplx ∧ build s'.kind s'.el = .ok s'.site := by
  obtain ⟨a, h1, h⟩ := bind_ok.1 h
  obtain ⟨p, h2, h⟩ := bind_ok.1 h
  obtain ⟨A, h3, h⟩ := bind_ok.1 h
  cases Except.ok.inj h
  exact ⟨rfl, rfl, h1, h2, rfl, rfl, h3⟩

theorem load_inv {f : List (CKey × CVal)} {s s' : TState} (h : load f s = .ok s') :
    ∃ el, dictFind f .elemTensors = some (.elem el) ∧ s'.kind = s.kind ∧ s'.pgs = s.pgs ∧ s'.el = el ∧ build s'.kind s'.el = .ok s'.site := by
  unfold load at h
  split at h
  · rename_i el he
    obtain ⟨A, h3, h⟩ := bind_ok.1 h
    cases Except.ok.inj h
    exact ⟨el, he, rfl, rfl, rfl, h3⟩
  · cases h

/-- The enlarged tensors. -/
theorem extend_inv {d : Nat} {s s' : TState} (h : extend d s = .ok s') :
    (∀ n ∈ s.el.aux.t.shape, n ≤ d) ∧ (∀ n ∈ s.el.phys.t.shape.dropLast, n ≤ d) ∧ s'.kind = s.kind ∧
    s'.pgs = (match s.kind with | .ttphys => s.pgs | .tbt => []) ∧ keysOk s'.pgs = true ∧ build s'.kind s'.el = .ok s'.site ∧
    s'.el.aux = pad [d, d, d] s.el.aux ∧ s.el.aux.t.shape.length = 3 ∧
    (match s.kind with
      | .ttphys => ∃ a b c p, s.el.phys.t.shape = [a, b, c, p] ∧ s'.el.phys = pad [d, d, d, p] s.el.phys
      | .tbt => ∃ a b p, s.el.phys.t.shape = [a, b, p] ∧ s'.el.phys = pad [d, d, p] s.el.phys) := by
  unfold extend at h
  split at h
  · rename_i hc
    rw [Bool.and_eq_true, List.all_eq_true, List.all_eq_true] at hc
    obtain ⟨c1, c2⟩ := hc
    refine ⟨fun n hn => of_decide_eq_true (c1 n hn), fun n hn => of_decide_eq_true (c2 n hn), ?_⟩
    obtain ⟨k, pgs, el, A⟩ := s
    simp only at h c1 c2 ⊢
    split at h
    · rename_i x1 x2 x3 _ y1 y2 y3 p e1 e2
      obtain ⟨g0, g1, g2, g3, g4⟩ := mk_inv h
      have g3 := Except.ok.inj g3
      rw [← g3] at g4 ⊢
      exact ⟨g1, g2, by rw [g2]; exact g0, by rw [g1]; exact g4, rfl, by rw [e1]; rfl, _, _, _, _, e2, rfl⟩
    · rename_i x1 x2 x3 _ y1 y2 p e1 e2
      obtain ⟨g0, g1, g2, g3, g4⟩ := mk_inv h
      have g3 := Except.ok.inj g3
      rw [← g3] at g4 ⊢
      exact ⟨g1, g2, by rw [g2]; exact g0, by rw [g1]; exact g4, rfl, by rw [e1]; rfl, _, _, _, e2, rfl⟩
    · cases h
  · cases h

theorem read_inv {F : NumFmt ℚ} {gc : Bool} {k : Kind} {j : TFile} {s : TState} (h : readFile F gc k j = .ok s) :
    s.pgs = j.pgs.getD [] ∧ (k = .tbt → j.pgs ≠ none) ∧ s.kind = k ∧ readOne F gc j.aux = .ok s.el.aux ∧ readOne F gc j.phys = .ok s.el.phys ∧
    keysOk s.pgs = true ∧ build s.kind s.el = .ok s.site := by
  obtain ⟨pgs, h0, h⟩ := bind_ok.1 h
  obtain ⟨a, h1, h⟩ := bind_ok.1 h
  obtain ⟨p, h2, h⟩ := bind_ok.1 h
  obtain ⟨g0, g1, g2, g3, g4⟩ := mk_inv h
  have g3 := Except.ok.inj g3
  rw [← g3] at g4 ⊢
  refine ⟨?_, ?_, g1, h1, h2, by rw [g2]; exact g0, by rw [g1]; exact g4⟩
  · rw [g2]
    rcases hj : j.pgs with _ | q <;> rw [hj] at h0
    · cases k
      · exact (Except.ok.inj h0).symm
      · cases h0
    · cases k <;> exact (Except.ok.inj h0).symm
  · rintro rfl hj
    rw [hj] at h0
    cases h0

/-- What every state satisfies. -/
theorem Hist.inv {s : TState} {b : Bool} (h : Hist s b) :
    (s.pgs.map (·.1)).Nodup ∧ keysOk s.pgs = true ∧ (b = true → build s.kind s.el = .ok s.site) := by
  induction h with
  | new hn h =>
    obtain ⟨g0, g1, g2, g3, g4⟩ := mk_inv h
    rw [g2, g1]; exact ⟨hn, g0, fun _ => g4⟩
  | @read F gc k j s hn h =>
    obtain ⟨g1, _, _, _, _, g6, g7⟩ := read_inv h
    refine ⟨?_, g6, fun _ => g7⟩
    rw [g1]
    rcases hj : j.pgs with _ | q
    · exact List.nodup_nil
    · exact hn q hj
  | load _ h ih =>
    obtain ⟨el, _, g1, g2, _, g3⟩ := load_inv h
    rw [g2]; exact ⟨ih.1, ih.2.1, fun _ => g3⟩
  | normalize _ h ih =>
    obtain ⟨g1, g2, _, _, _, _, g3⟩ := normalize_inv h
    rw [g2]; exact ⟨ih.1, ih.2.1, fun _ => g3⟩
  | extend _ h ih =>
    obtain ⟨_, _, g1, g2, g3, g4, _⟩ := extend_inv h
    refine ⟨?_, g3, fun _ => g4⟩
    rw [g2]
    split
    · exact ih.1
    · exact List.nodup_nil
  | @symmetrize s b pgs s' _ hn h ih =>
    obtain ⟨g0, g1, g2, _, g3⟩ := symmetrize_inv h
    rw [g2]
    refine ⟨?_, g0, fun _ => g3⟩
    cases pgs with
    | none => exact ih.1
    | some ps => exact hn ps rfl
  | noisy _ ih => exact ⟨ih.1, ih.2.1, fun h => absurd h (by simp)⟩
  | noise _ h ih =>
    obtain ⟨g0, g1, g2, _, g3⟩ := symmetrize_inv h
    rw [g2]
    exact ⟨ih.1, g0, fun _ => g3⟩

/-- C132. After any sequence of operations, the tensor on the site is the network of the elementary tensors, except for a state on which
`add_noise` has been called since. -/
theorem C132_site {s : TState} (h : Hist s true) : IsSite s.kind s.el s.site := build_site (h.inv.2.2 rfl)

/-! ### Symmetric states -/

/-- C132. A state constructed with `pg_symmetrize` has tensors of the irreps. -/
theorem C132_new {k : Kind} {el : Elem} {pgs : Pgs} {s : TState} (hn : (pgs.map (·.1)).Nodup) (h : mk k el pgs true = .ok s) :
    s.kind = k ∧ s.pgs = pgs ∧ Symmetric s.kind s.pgs s.el := by
  obtain ⟨_, g1, g2, g3, _⟩ := mk_inv h
  refine ⟨g1, g2, ?_⟩
  rw [g1, g2]
  exact (C131_projection hn g3).1

/-- C132. So has the symmetrized state, and the state returned by `add_noise`, whatever the noise was. -/
theorem C132_symmetrize {s s' : TState} {b : Bool} (hs : Hist s b) {pgs : Option Pgs} (hn : ∀ ps, pgs = some ps → (ps.map (·.1)).Nodup)
    (h : symmetrize s pgs = .ok s') : s'.kind = s.kind ∧ s'.pgs = pgs.getD s.pgs ∧ Symmetric s'.kind s'.pgs s'.el := by
  obtain ⟨_, g1, g2, g3, _⟩ := symmetrize_inv h
  refine ⟨g1, g2, ?_⟩
  rw [g1, g2]
  refine (C131_projection ?_ g3).1
  cases pgs with
  | none => exact hs.inv.1
  | some ps => exact hn ps rfl

theorem C132_noise {s s' : TState} {b : Bool} (hs : Hist s b) {ν μ : List Nat → ℂ} (h : (addNoise ν μ s).2 = .ok s') :
    s'.kind = s.kind ∧ s'.pgs = s.pgs ∧ Symmetric s'.kind s'.pgs s'.el := by
  have h : symmetrize (addNoise ν μ s).1 (some s.pgs) = .ok s' := h
  obtain ⟨g1, g2, g3⟩ := C132_symmetrize (.noisy hs) (fun ps hps => by cases hps; exact hs.inv.1) h
  exact ⟨g1, g2, g3⟩

theorem normMax_inv {X Y : Tensor ℂ} (h : normMax X = .ok Y) : maxAbs X ≠ 0 ∧ Y = ⟨X.shape, fun i => X.val i / ((maxAbs X : ℝ) : ℂ)⟩ := by
  unfold normMax at h
  split at h
  · cases h
  · split at h
    · cases h
    · rename_i h0
      exact ⟨h0, (Except.ok.inj h).symm⟩

theorem star_div_real (z : ℂ) (c : ℝ) : star (z / (c : ℂ)) = star z / (c : ℂ) := by
  rw [star_div₀]
  congr 1
  exact Complex.conj_ofReal c

/-- C132. `normalize_` divides each elementary tensor by its largest modulus: the tensor on the site is divided by a number, and the
tensors remain in their irreps. -/
theorem C132_normalize {s s' : TState} (hs : Hist s true) (h : normalize s = .ok s') :
    (∀ i, s'.el.aux.t.val i = s.el.aux.t.val i / ((maxAbs s.el.aux.t : ℝ) : ℂ)) ∧
    (∀ i, s'.el.phys.t.val i = s.el.phys.t.val i / ((maxAbs s.el.phys.t : ℝ) : ℂ)) ∧
    (∃ c : ℝ, c ≠ 0 ∧ s'.site.t.shape = s.site.t.shape ∧ ∀ i, InB s.site.t.shape i → s'.site.t.val i = s.site.t.val i / (c : ℂ)) ∧
    (Symmetric s.kind s.pgs s.el → Symmetric s'.kind s'.pgs s'.el) := by
  have hsite := C132_site hs
  have hsite' := C132_site (.normalize hs h)
  obtain ⟨g1, g2, ga, gp, _, _, _⟩ := normalize_inv h
  obtain ⟨na, ea⟩ := normMax_inv ga
  obtain ⟨np', ep⟩ := normMax_inv gp
  have va : ∀ i, s'.el.aux.t.val i = s.el.aux.t.val i / ((maxAbs s.el.aux.t : ℝ) : ℂ) := fun i => by rw [ea]
  have vp : ∀ i, s'.el.phys.t.val i = s.el.phys.t.val i / ((maxAbs s.el.phys.t : ℝ) : ℂ) := fun i => by rw [ep]
  have sa : s'.el.aux.t.shape = s.el.aux.t.shape := by rw [ea]
  have sp : s'.el.phys.t.shape = s.el.phys.t.shape := by rw [ep]
  have ca : ((maxAbs s.el.aux.t : ℝ) : ℂ) ≠ 0 := by exact_mod_cast na
  have cp : ((maxAbs s.el.phys.t : ℝ) : ℂ) ≠ 0 := by exact_mod_cast np'
  refine ⟨va, vp, ?_, ?_⟩
  · rw [g1] at hsite'
    cases hk : s.kind <;> rw [hk] at hsite hsite'
    · obtain ⟨_, _, nl, nd, nx, nu, nr, np, e1, e2, e3, hv⟩ := hsite
      obtain ⟨_, _, nl', nd', nx', nu', nr', np1, e1', e2', e3', hv'⟩ := hsite'
      rw [sa, e1] at e1'
      rw [sp, e2] at e2'
      simp only [List.cons.injEq, and_true] at e1' e2'
      obtain ⟨rfl, rfl, rfl⟩ := e1'
      obtain ⟨_, rfl, rfl, rfl⟩ := e2'
      refine ⟨maxAbs s.el.aux.t * maxAbs s.el.phys.t, mul_ne_zero na np', by rw [e3, e3'], fun i hi => ?_⟩
      rw [e3] at hi
      match i, hi with
      | [p, u, l, d, r], .cons h1 (.cons h2 (.cons h3 (.cons h4 (.cons h5 _)))) =>
        rw [hv p u l d r h1 h2 h3 h4 h5, hv' p u l d r h1 h2 h3 h4 h5]
        unfold siteTT
        rw [Finset.sum_div]
        refine Finset.sum_congr rfl fun x _ => ?_
        rw [va, vp]
        push_cast
        field_simp
    · obtain ⟨_, _, nl, nd, nx, np, e1, e2, e3, hv⟩ := hsite
      obtain ⟨_, _, nl', nd', nx', np1, e1', e2', e3', hv'⟩ := hsite'
      rw [sa, e1] at e1'
      rw [sp, e2] at e2'
      simp only [List.cons.injEq, and_true] at e1' e2'
      obtain ⟨rfl, rfl, rfl⟩ := e1'
      obtain ⟨_, _, rfl⟩ := e2'
      refine ⟨maxAbs s.el.aux.t * maxAbs s.el.phys.t * maxAbs s.el.aux.t, mul_ne_zero (mul_ne_zero na np') na, by rw [e3, e3'], fun i hi => ?_⟩
      rw [e3] at hi
      match i, hi with
      | [p, u, l, d, r], .cons h1 (.cons h2 (.cons h3 (.cons h4 (.cons h5 _)))) =>
        rw [hv p u l d r h1 h2 h3 h4 h5, hv' p u l d r h1 h2 h3 h4 h5]
        unfold siteTBT
        rw [Finset.sum_div]
        refine Finset.sum_congr rfl fun x _ => ?_
        rw [Finset.sum_div]
        refine Finset.sum_congr rfl fun y _ => ?_
        rw [va, vp, va]
        push_cast
        field_simp
  · rw [g1, g2]
    rintro ⟨h1, h2⟩
    constructor
    · intro p hp
      obtain ⟨q, D, f1, f2, f3⟩ := h1 p hp
      refine ⟨q, D, by rw [sa]; exact f1, ?_, ?_⟩
      · intro a b c ha hb hc
        rw [va, va, f2 a b c ha hb hc]
      · intro t a b ht ha hb
        rw [va, va, f3 t a b ht ha hb, star_div_real]
        ring
    · intro p hp
      have h2 := h2 p hp
      cases hk : s.kind <;> rw [hk] at h2
      · obtain ⟨q, D, qq, f1, f2⟩ := h2
        refine ⟨q, D, qq, by rw [sp]; exact f1, fun t ht => ⟨?_, ?_⟩⟩
        · intro a b c ha hb hc
          have := (f2 t ht).1 a b c ha hb hc
          show s'.el.phys.t.val [b, c, a, t] = s'.el.phys.t.val [a, b, c, t]
          rw [vp, vp, show s.el.phys.t.val [b, c, a, t] = s.el.phys.t.val [a, b, c, t] from this]
        · intro x a b hx ha hb
          have := (f2 t ht).2 x a b hx ha hb
          show s'.el.phys.t.val [x, b, a, t] = _ * star (s'.el.phys.t.val [x, a, b, t])
          rw [vp, vp, show s.el.phys.t.val [x, b, a, t] = irrepSign p * star (s.el.phys.t.val [x, a, b, t]) from this, star_div_real]
          ring
      · obtain ⟨q, D, qq, f1, f2⟩ := h2
        refine ⟨q, D, qq, by rw [sp]; exact f1, ?_⟩
        intro a b t ha hb ht
        rw [vp, vp, f2 a b t ha hb ht, star_div_real]
        ring

/-! ### Larger bond dimensions -/

theorem pad_val {shape : List Nat} {X : Ten} {i : List Nat} : (pad shape X).t.val i = if InB X.t.shape i then X.t.val i else 0 := rfl

theorem pad3 {X : Ten} {sh : List Nat} {a b c : Nat} (h : X.t.shape = [a, b, c]) (x y z : Nat) :
    (pad sh X).t.val [x, y, z] = if x < a ∧ y < b ∧ z < c then X.t.val [x, y, z] else 0 := by
  rw [pad_val, h]
  congr 1
  apply propext
  constructor
  · rintro (_ | ⟨h1, _ | ⟨h2, _ | ⟨h3, _⟩⟩⟩)
    exact ⟨h1, h2, h3⟩
  · rintro ⟨h1, h2, h3⟩
    exact .cons h1 (.cons h2 (.cons h3 .nil))

theorem pad4 {X : Ten} {sh : List Nat} {a b c d : Nat} (h : X.t.shape = [a, b, c, d]) (x y z u : Nat) :
    (pad sh X).t.val [x, y, z, u] = if x < a ∧ y < b ∧ z < c ∧ u < d then X.t.val [x, y, z, u] else 0 := by
  rw [pad_val, h]
  congr 1
  apply propext
  rw [inB_iff4]
  constructor
  · rintro ⟨_, _, _, _, e, h⟩
    simp only [List.cons.injEq, and_true] at e
    obtain ⟨rfl, rfl, rfl, rfl⟩ := e
    exact h
  · intro h
    exact ⟨_, _, _, _, rfl, h⟩

/-- The site tensor written into zeros. -/
def SitePadded (d : Nat) (A B : Tensor ℂ) : Prop :=
  ∃ np nu nl nd nr, A.shape = [np, nu, nl, nd, nr] ∧ B.shape = [np, d, d, d, d] ∧ ∀ p u l e r, p < np → u < d → l < d → e < d → r < d →
    B.val [p, u, l, e, r] = if u < nu ∧ l < nl ∧ e < nd ∧ r < nr then A.val [p, u, l, e, r] else 0

/-- C132. `extend_bond_dim` writes the tensor on the site into zeros. The tensors remain in their irreps. -/
theorem C132_extend {s s' : TState} (hs : Hist s true) {d : Nat} (h : extend d s = .ok s') :
    SitePadded d s.site.t s'.site.t ∧ (Symmetric s.kind s.pgs s.el → Symmetric s.kind s.pgs s'.el) ∧ s'.kind = s.kind ∧
      (s.kind = .ttphys → s'.pgs = s.pgs) := by
  have hsite := C132_site hs
  have hsite' := C132_site (.extend hs h)
  obtain ⟨b1, b2, g1, g2, _, _, ea, la, ep⟩ := extend_inv h
  refine ⟨?_, ?_, g1, fun hk => by rw [g2, hk]⟩
  · rw [g1] at hsite'
    cases hk : s.kind <;> rw [hk] at hsite hsite' ep
    · obtain ⟨_, _, nl, nd, nx, nu, nr, np, e1, e2, e3, hv⟩ := hsite
      obtain ⟨_, _, nl', nd', nx', nu', nr', np1, e1', e2', e3', hv'⟩ := hsite'
      obtain ⟨x1, x2, x3, x4, ex, ep⟩ := ep
      rw [e2] at ex
      simp only [List.cons.injEq, and_true] at ex
      obtain ⟨rfl, rfl, rfl, rfl⟩ := ex
      rw [ea] at e1'
      rw [ep] at e2'
      have e1' : [d, d, d] = [nl', nd', nx'] := e1'
      have e2' : [d, d, d, np] = [nx', nu', nr', np1] := e2'
      simp only [List.cons.injEq, and_true] at e1' e2'
      obtain ⟨rfl, rfl, rfl⟩ := e1'
      obtain ⟨_, rfl, rfl, rfl⟩ := e2'
      refine ⟨_, _, _, _, _, e3, e3', fun p u l e r hp hu hl he hr => ?_⟩
      rw [hv' p u l e r hp hu hl he hr]
      unfold siteTT
      simp only [ea, ep, pad3 e1, pad4 e2]
      split
      · rename_i hin
        obtain ⟨i1, i2, i3, i4⟩ := hin
        rw [hv p u l e r hp i1 i2 i3 i4]
        unfold siteTT
        have hx : nx ≤ d := b1 nx (by rw [e1]; simp)
        rw [← Finset.sum_subset (Finset.range_subset_range.2 hx)]
        · refine Finset.sum_congr rfl fun x hx => ?_
          rw [Finset.mem_range] at hx
          rw [if_pos ⟨i2, i3, hx⟩, if_pos ⟨hx, i1, i4, hp⟩]
        · intro x _ hx
          rw [Finset.mem_range] at hx
          rw [if_neg (fun hc => hx hc.2.2), zero_mul]
      · rename_i hin
        refine Finset.sum_eq_zero fun x _ => ?_
        split
        · split
          · rename_i c1 c2
            exact absurd ⟨c2.2.1, c1.1, c1.2.1, c2.2.2.1⟩ hin
          · rw [mul_zero]
        · rw [zero_mul]
    · obtain ⟨_, _, nl, nd, nx, np, e1, e2, e3, hv⟩ := hsite
      obtain ⟨_, _, nl', nd', nx', np1, e1', e2', e3', hv'⟩ := hsite'
      obtain ⟨x1, x2, x4, ex, ep⟩ := ep
      rw [e2] at ex
      simp only [List.cons.injEq, and_true] at ex
      obtain ⟨rfl, rfl, rfl⟩ := ex
      rw [ea] at e1'
      rw [ep] at e2'
      have e1' : [d, d, d] = [nl', nd', nx'] := e1'
      have e2' : [d, d, np] = [nx', nl', np1] := e2'
      simp only [List.cons.injEq, and_true] at e1' e2'
      obtain ⟨rfl, rfl, rfl⟩ := e1'
      obtain ⟨_, _, rfl⟩ := e2'
      refine ⟨_, _, _, _, _, e3, e3', fun p u l e r hp hu hl he hr => ?_⟩
      rw [hv' p u l e r hp hu hl he hr]
      unfold siteTBT
      simp only [ea, ep, pad3 e1, pad3 e2]
      split
      · rename_i hin
        obtain ⟨i1, i2, i3, i4⟩ := hin
        rw [hv p u l e r hp i1 i2 i3 i4]
        unfold siteTBT
        have hx : nx ≤ d := b1 nx (by rw [e1]; simp)
        have hy : nl ≤ d := b1 nl (by rw [e1]; simp)
        rw [← Finset.sum_subset (Finset.range_subset_range.2 hx)]
        · refine Finset.sum_congr rfl fun x hx => ?_
          rw [Finset.mem_range] at hx
          rw [← Finset.sum_subset (Finset.range_subset_range.2 hy)]
          · refine Finset.sum_congr rfl fun y hy => ?_
            rw [Finset.mem_range] at hy
            rw [if_pos ⟨i2, i3, hx⟩, if_pos ⟨hx, hy, hp⟩, if_pos ⟨hy, i1, i4⟩]
          · intro y _ hy
            rw [Finset.mem_range] at hy
            rw [if_neg (c := y < nl ∧ _) (fun hc => hy hc.1), mul_zero]
        · intro x _ hx
          rw [Finset.mem_range] at hx
          refine Finset.sum_eq_zero fun y _ => ?_
          rw [if_neg (c := l < nl ∧ _) (fun hc => hx hc.2.2), zero_mul, zero_mul]
      · rename_i hin
        refine Finset.sum_eq_zero fun x _ => Finset.sum_eq_zero fun y _ => ?_
        by_cases c1 : l < nl ∧ e < nd ∧ x < nx
        · by_cases c2 : y < nl ∧ u < nd ∧ r < nx
          · exact absurd ⟨c2.2.1, c1.1, c1.2.1, c2.2.2⟩ hin
          · rw [if_neg c2, mul_zero]
        · rw [if_neg c1, zero_mul, zero_mul]
  · rintro ⟨h1, h2⟩
    constructor
    · intro p hp
      obtain ⟨q, D, f1, f2, f3⟩ := h1 p hp
      refine ⟨q, d, by rw [ea]; rfl, ?_, ?_⟩
      · intro a b c _ _ _
        rw [ea, pad3 f1, pad3 f1]
        by_cases hc : a < D ∧ b < D ∧ c < D
        · rw [if_pos ⟨hc.2.1, hc.2.2, hc.1⟩, if_pos hc]
          exact f2 a b c hc.1 hc.2.1 hc.2.2
        · rw [if_neg hc, if_neg (fun hc' => hc ⟨hc'.2.2, hc'.1, hc'.2.1⟩)]
      · intro t a b _ _ _
        rw [ea, pad3 f1, pad3 f1]
        by_cases hc : t < D ∧ a < D ∧ b < D
        · rw [if_pos ⟨hc.1, hc.2.2, hc.2.1⟩, if_pos hc]
          exact f3 t a b hc.1 hc.2.1 hc.2.2
        · rw [if_neg hc, if_neg (fun hc' => hc ⟨hc'.1, hc'.2.2, hc'.2.1⟩), star_zero, mul_zero]
    · intro p hp
      have h2 := h2 p hp
      cases hk : s.kind <;> rw [hk] at h2 ep
      · obtain ⟨q, D, qq, f1, f2⟩ := h2
        obtain ⟨x1, x2, x3, x4, ex, ep⟩ := ep
        rw [f1] at ex
        simp only [List.cons.injEq, and_true] at ex
        obtain ⟨rfl, _, _, rfl⟩ := ex
        refine ⟨q, d, qq, by rw [ep]; rfl, fun t ht => ⟨?_, ?_⟩⟩
        · intro a b c _ _ _
          show s'.el.phys.t.val [b, c, a, t] = s'.el.phys.t.val [a, b, c, t]
          rw [ep, pad4 f1, pad4 f1]
          by_cases hc : a < D ∧ b < D ∧ c < D ∧ t < qq
          · rw [if_pos ⟨hc.2.1, hc.2.2.1, hc.1, ht⟩, if_pos hc]
            exact (f2 t ht).1 a b c hc.1 hc.2.1 hc.2.2.1
          · rw [if_neg hc, if_neg (fun hc' => hc ⟨hc'.2.2.1, hc'.1, hc'.2.1, ht⟩)]
        · intro x a b _ _ _
          show s'.el.phys.t.val [x, b, a, t] = _ * star (s'.el.phys.t.val [x, a, b, t])
          rw [ep, pad4 f1, pad4 f1]
          by_cases hc : x < D ∧ a < D ∧ b < D ∧ t < qq
          · rw [if_pos ⟨hc.1, hc.2.2.1, hc.2.1, ht⟩, if_pos hc]
            exact (f2 t ht).2 x a b hc.1 hc.2.1 hc.2.2.1
          · rw [if_neg hc, if_neg (fun hc' => hc ⟨hc'.1, hc'.2.2.1, hc'.2.1, ht⟩), star_zero, mul_zero]
      · obtain ⟨q, D, qq, f1, f2⟩ := h2
        obtain ⟨x1, x2, x4, ex, ep⟩ := ep
        rw [f1] at ex
        simp only [List.cons.injEq, and_true] at ex
        obtain ⟨rfl, _, rfl⟩ := ex
        refine ⟨q, d, qq, by rw [ep]; rfl, ?_⟩
        intro a b t _ _ ht
        rw [ep, pad3 f1, pad3 f1]
        by_cases hc : a < D ∧ b < D ∧ t < qq
        · rw [if_pos ⟨hc.2.1, hc.1, ht⟩, if_pos hc]
          exact f2 a b t hc.1 hc.2.1 ht
        · rw [if_neg hc, if_neg (fun hc' => hc ⟨hc'.2.1, hc'.1, ht⟩), star_zero, mul_zero]

/-- C132. It succeeds exactly if no bond dimension is larger than the desired one. -/
theorem C132_extend_defined {s : TState} (hs : Hist s true) (d : Nat) :
    (∃ s', extend d s = .ok s') ↔ (∀ n ∈ s.el.aux.t.shape, n ≤ d) ∧ (∀ n ∈ s.el.phys.t.shape.dropLast, n ≤ d) := by
  constructor
  · rintro ⟨s', h⟩
    obtain ⟨b1, b2, _⟩ := extend_inv h
    exact ⟨b1, b2⟩
  · rintro ⟨b1, b2⟩
    have hsite := C132_site hs
    have hkeys := hs.inv.2.1
    obtain ⟨k, pgs, el, A⟩ := s
    have hc : (el.aux.t.shape.all (fun n => decide (n ≤ d)) && el.phys.t.shape.dropLast.all (fun n => decide (n ≤ d))) = true := by
      rw [Bool.and_eq_true, List.all_eq_true, List.all_eq_true]
      exact ⟨fun n hn => decide_eq_true (b1 n hn), fun n hn => decide_eq_true (b2 n hn)⟩
    cases k
    · obtain ⟨c1, c2, nl, nd, nx, nu, nr, np, e1, e2, _⟩ := hsite
      have c1 : A.cplx = el.aux.cplx := c1
      have c2 : A.cplx = el.phys.cplx := c2
      have e1 : el.aux.t.shape = [nl, nd, nx] := e1
      have e2 : el.phys.t.shape = [nx, nu, nr, np] := e2
      obtain ⟨A', hA⟩ := build_tt (el := ⟨pad [d, d, d] el.aux, pad [d, d, d, np] el.phys⟩) (by rw [c1] at c2; exact c2.symm) (nl := d) (nd := d) (nx := d) (nu := d) (nr := d) (np := np) rfl rfl
      refine ⟨⟨.ttphys, pgs, ⟨pad [d, d, d] el.aux, pad [d, d, d, np] el.phys⟩, A'⟩, ?_⟩
      unfold extend
      rw [if_pos hc]
      simp only [e1, e2]
      unfold mk
      rw [if_pos hkeys]
      exact bind_ok.2 ⟨_, rfl, bind_ok.2 ⟨A', hA, rfl⟩⟩
    · obtain ⟨c1, c2, nl, nd, nx, np, e1, e2, _⟩ := hsite
      have c1 : A.cplx = el.aux.cplx := c1
      have c2 : A.cplx = el.phys.cplx := c2
      have e1 : el.aux.t.shape = [nl, nd, nx] := e1
      have e2 : el.phys.t.shape = [nx, nl, np] := e2
      obtain ⟨A', hA⟩ := build_tbt (el := ⟨pad [d, d, d] el.aux, pad [d, d, np] el.phys⟩) (by rw [c1] at c2; exact c2.symm) (nl := d) (nd := d) (nx := d) (np := np) rfl rfl
      refine ⟨⟨.tbt, [], ⟨pad [d, d, d] el.aux, pad [d, d, np] el.phys⟩, A'⟩, ?_⟩
      unfold extend
      rw [if_pos hc]
      simp only [e1, e2]
      unfold mk
      rw [if_pos (by rfl)]
      exact bind_ok.2 ⟨_, rfl, bind_ok.2 ⟨A', hA, rfl⟩⟩

/-! ### Checkpoints -/

/-- C132. Loading what `get_checkpoint` returned restores the elementary tensors and the tensor on the site; the irreps are those of the
state into which it is loaded. -/
theorem C132_checkpoint_partial {s t : TState} (hs : Hist s true) (hk : t.kind = s.kind) :
    ∃ t', load (checkpoint s) t = .ok t' ∧ t'.kind = s.kind ∧ t'.pgs = t.pgs ∧ t'.el = s.el ∧ t'.site = s.site := by
  have hb := hs.inv.2.2 rfl
  refine ⟨{ t with el := s.el, site := s.site }, ?_, hk, rfl, rfl, rfl⟩
  show (build t.kind s.el).bind _ = _
  rw [hk]
  exact bind_ok.2 ⟨_, hb, rfl⟩

/-- C132 (violated). The checkpoint written by the optimizers cannot be loaded. -/
theorem C132_checkpoint_violated (s t : TState) : load (storeCheckpoint s) t = .error .raise := rfl

/-- C132 (violated). After `add_noise` the tensor on the site of the state is not the network of its elementary tensors. -/
theorem C132_noise_violated : ∃ s : TState, ∃ ν μ, Hist s true ∧ ¬ IsSite (addNoise ν μ s).1.kind (addNoise ν μ s).1.el (addNoise ν μ s).1.site := by
  obtain ⟨s, h, hk, he, hp⟩ := ex_state
  have hs : Hist s true := .new (by decide) h
  refine ⟨s, fun _ => 0, fun i => if i = [0, 0, 0, 0] then 1 else 0, hs, fun hc => ?_⟩
  have h0 := C132_site hs
  have hc : IsSite s.kind ⟨plus s.el.aux fun _ => 0, plus s.el.phys fun i => if i = [0, 0, 0, 0] then 1 else 0⟩ s.site := hc
  rw [hk, he] at h0 hc
  obtain ⟨_, _, nl, nd, nx, nu, nr, np, e1, e2, _, hv⟩ := h0
  obtain ⟨_, _, nl', nd', nx', nu', nr', np', e1', e2', _, hv'⟩ := hc
  have e1 : [2, 2, 2] = [nl, nd, nx] := e1
  have e2 : [2, 2, 2, 2] = [nx, nu, nr, np] := e2
  have e1' : [2, 2, 2] = [nl', nd', nx'] := e1'
  have e2' : [2, 2, 2, 2] = [nx', nu', nr', np'] := e2'
  simp only [List.cons.injEq, and_true] at e1 e2 e1' e2'
  obtain ⟨rfl, rfl, rfl⟩ := e1
  obtain ⟨_, rfl, rfl, rfl⟩ := e2
  obtain ⟨rfl, rfl, rfl⟩ := e1'
  obtain ⟨_, rfl, rfl, rfl⟩ := e2'
  have a := hv 0 0 0 0 0 (by simp) (by simp) (by simp) (by simp) (by simp)
  have b := hv' 0 0 0 0 0 (by simp) (by simp) (by simp) (by simp) (by simp)
  rw [a] at b
  simp [siteTT, plus, exEl, exAux, exPhys, auxN, physN] at b

/-- C132 (violated). The second class loses its irreps: after `extend_bond_dim` the state has none. -/
theorem C132_extend_violated {s s' : TState} {d : Nat} (hk : s.kind = .tbt) (h : extend d s = .ok s') : s'.pgs = [] := by
  obtain ⟨_, _, _, g2, _⟩ := extend_inv h
  rw [g2, hk]

/-- Non-vacuity: a history of a symmetric state. -/
example : ∃ s s' s'', Hist s true ∧ Symmetric s.kind s.pgs s.el ∧ extend 3 s = .ok s' ∧ normalize s' = .ok s'' ∧ Hist s'' true := by
  obtain ⟨s, h, hk, he, hp⟩ := ex_state
  have hs : Hist s true := .new (by decide) h
  obtain ⟨s', h'⟩ := (C132_extend_defined hs 3).2 (by rw [he]; constructor <;> (intro n hn; simp [exEl, exAux, exPhys] at hn; omega))
  obtain ⟨_, _, g1, g2, _, gb, ea, _, ep⟩ := extend_inv h'
  rw [hk] at ep
  obtain ⟨a, b, c, p, e, ep⟩ := ep
  rw [he] at e ep ea
  have e : [2, 2, 2, 2] = [a, b, c, p] := e
  simp only [List.cons.injEq, and_true] at e
  obtain ⟨rfl, rfl, rfl, rfl⟩ := e
  obtain ⟨_, n1⟩ := Kagome.normMax_ok (R := s'.el.aux.t) ⟨[0, 0, 0], by rw [ea]; exact (by decide : InB [3, 3, 3] [0, 0, 0]), by
    rw [ea, pad_val, if_pos (show InB exEl.aux.t.shape [0, 0, 0] from (by decide : InB [2, 2, 2] [0, 0, 0]))]; simp [exEl, exAux, auxN]⟩
  obtain ⟨_, n2⟩ := Kagome.normMax_ok (R := s'.el.phys.t) ⟨[0, 0, 0, 0], by rw [ep]; exact (by decide : InB [3, 3, 3, 2] [0, 0, 0, 0]), by
    rw [ep, pad_val, if_pos (show InB exEl.phys.t.shape [0, 0, 0, 0] from (by decide : InB [2, 2, 2, 2] [0, 0, 0, 0]))]; simp [exEl, exPhys, physN]⟩
  obtain ⟨A, hA⟩ := build_tt (el := ⟨⟨s'.el.aux.cplx, ⟨s'.el.aux.t.shape, fun i => s'.el.aux.t.val i / ((maxAbs s'.el.aux.t : ℝ) : ℂ)⟩⟩,
    ⟨s'.el.phys.cplx, ⟨s'.el.phys.t.shape, fun i => s'.el.phys.t.val i / ((maxAbs s'.el.phys.t : ℝ) : ℂ)⟩⟩⟩) (by rw [ea, ep]; rfl) (nl := 3) (nd := 3) (nx := 3) (nu := 3) (nr := 3) (np := 2)
    (show s'.el.aux.t.shape = _ by rw [ea]; rfl) (show s'.el.phys.t.shape = _ by rw [ep]; rfl)
  have hn : normalize s' = .ok _ := bind_ok.2 ⟨_, n1, bind_ok.2 ⟨_, n2, bind_ok.2 ⟨A, by rw [g1, hk]; exact hA, rfl⟩⟩⟩
  exact ⟨s, s', _, hs, by rw [hk, he, hp]; exact exEl_symm, h', hn, .normalize (.extend hs h') hn⟩

end Verif.TrglPg
