import Verif.State.KagomeProps
/-
Property C88, growing the bond dimension of Kagome states; C90, the generic state.
-/
namespace Verif.Kagome
open Verif.State
open Verif.Tensor
open Verif.Lattice (Vertex)
open Spec

theorem inB3 {a b c x y z : Nat} : InB [a, b, c] [x, y, z] ↔ x < a ∧ y < b ∧ z < c := by
  rw [inB_iff3]
  constructor
  · rintro ⟨x', y', z', e, h⟩
    simp only [List.cons.injEq, and_true] at e
    obtain ⟨rfl, rfl, rfl⟩ := e
    exact h
  · intro h; exact ⟨x, y, z, rfl, h⟩

theorem inB5 {a b c d e x y z u v : Nat} : InB [a, b, c, d, e] [x, y, z, u, v] ↔ x < a ∧ y < b ∧ z < c ∧ u < d ∧ v < e := by
  rw [inB_iff5]
  constructor
  · rintro ⟨x', y', z', u', v', e, h⟩
    simp only [List.cons.injEq, and_true] at e
    obtain ⟨rfl, rfl, rfl, rfl, rfl⟩ := e
    exact h
  · intro h; exact ⟨x, y, z, u, v, rfl, h⟩

/-- The entries of a tensor written into zeros. -/
def Grown (X Y : Tensor ℂ) : Prop := ∀ i, Y.val i = if InB X.shape i then X.val i else 0

theorem growT_inv {d ad : Nat} {X Y : Ten} (h : growT d ad X = .ok Y) :
    X.t.shape = [ad, ad, ad] ∧ Y.t.shape = [d, d, d] ∧ Y.cplx = X.cplx ∧ Grown X.t Y.t := by
  unfold growT at h
  split at h
  · rename_i hs
    cases Except.ok.inj h
    exact ⟨hs, rfl, rfl, fun _ => rfl⟩
  · cases h

theorem growB_inv {d ad : Nat} {X Y : Ten} (h : growB d ad X = .ok Y) :
    ∃ p, X.t.shape = [p, ad, ad] ∧ Y.t.shape = [p, d, d] ∧ Y.cplx = X.cplx ∧ Grown X.t Y.t := by
  unfold growB at h
  split at h
  · rename_i hs
    cases Except.ok.inj h
    exact ⟨_, hs.2, rfl, rfl, fun _ => rfl⟩
  · cases h

theorem look_bind {X : Ten} {es : List (Name × Ten)} {n : Name} {f : Ten → Except Err Ten} (h : (look es n).bind f = .ok X) :
    ∃ W, dictFind es n = some W ∧ f W = .ok X := by
  obtain ⟨W, h1, h2⟩ := bind_ok.1 h
  exact ⟨W, look_ok h1, h2⟩

theorem sum_cut {D d : Nat} (hd : D ≤ d) {f g : Nat → ℂ} (h0 : ∀ i, D ≤ i → f i = 0) (h1 : ∀ i, i < D → f i = g i) :
    ∑ i ∈ Finset.range d, f i = ∑ i ∈ Finset.range D, g i := by
  rw [← Finset.sum_subset (Finset.range_mono hd) (f := f)]
  · exact Finset.sum_congr rfl fun i hi => h1 i (Finset.mem_range.1 hi)
  · intro i _ hi
    exact h0 i (by simpa using hi)

theorem site_grown {Tu Bc Td Bb Ba Tu' Bc' Td' Bb' Ba' : Tensor ℂ} {pC pB pA D d : Nat} (hd : D ≤ d)
    (hf : Fit Tu Bc Td Bb Ba pC pB pA D D D D D D D D) (h1 : Grown Tu Tu') (h2 : Grown Bc Bc') (h3 : Grown Td Td') (h4 : Grown Bb Bb') (h5 : Grown Ba Ba')
    {u v w : Nat} (hu : u < pC) (hv : v < pB) (hw : w < pA) (a b c e : Nat) :
    site Tu' Bc' Td' Bb' Ba' d d d d u v w a b c e =
      if a < D ∧ b < D ∧ c < D ∧ e < D then site Tu Bc Td Bb Ba D D D D u v w a b c e else 0 := by
  have e1 : ∀ i, Tu'.val [i, a, b] = if i < D ∧ a < D ∧ b < D then Tu.val [i, a, b] else 0 := fun i => by
    rw [h1, hf.tu]; simp only [inB3]
  have e2 : ∀ j i, Bc'.val [u, j, i] = if j < D ∧ i < D then Bc.val [u, j, i] else 0 := fun j i => by
    rw [h2, hf.bc]; simp only [inB3, hu, true_and]
  have e3 : ∀ j k l, Td'.val [j, k, l] = if j < D ∧ k < D ∧ l < D then Td.val [j, k, l] else 0 := fun j k l => by
    rw [h3, hf.td]; simp only [inB3]
  have e4 : ∀ k, Bb'.val [v, k, c] = if k < D ∧ c < D then Bb.val [v, k, c] else 0 := fun k => by
    rw [h4, hf.bb]; simp only [inB3, hv, true_and]
  have e5 : ∀ l, Ba'.val [w, l, e] = if l < D ∧ e < D then Ba.val [w, l, e] else 0 := fun l => by
    rw [h5, hf.ba]; simp only [inB3, hw, true_and]
  unfold site
  simp only [e1, e2, e3, e4, e5]
  by_cases hc : a < D ∧ b < D ∧ c < D ∧ e < D
  · obtain ⟨ha, hb, hc', he⟩ := hc
    rw [if_pos ⟨ha, hb, hc', he⟩]
    refine sum_cut hd (fun i hi => by simp [Nat.not_lt.2 hi]) fun i hi => ?_
    refine sum_cut hd (fun j hj => by simp [Nat.not_lt.2 hj]) fun j hj => ?_
    refine sum_cut hd (fun k hk => by simp [Nat.not_lt.2 hk]) fun k hk => ?_
    refine sum_cut hd (fun l hl => by simp [Nat.not_lt.2 hl]) fun l hl => ?_
    simp [ha, hb, hc', he, hi, hj, hk, hl]
  · rw [if_neg hc]
    refine Finset.sum_eq_zero fun i _ => Finset.sum_eq_zero fun j _ => Finset.sum_eq_zero fun k _ => Finset.sum_eq_zero fun l _ => ?_
    by_cases ha : a < D
    · by_cases hb : b < D
      · by_cases hc' : c < D
        · have he : ¬ e < D := fun he => hc ⟨ha, hb, hc', he⟩
          simp [he]
        · simp [hc']
      · simp [hb]
    · simp [ha]

/-- The site tensor of the grown tensors is the grown site tensor. -/
theorem siteOf_grown {Tu Bc Td Bb Ba Tu' Bc' Td' Bb' Ba' A A' : Tensor ℂ} {pC pB pA D d : Nat} {M M' : ℝ} (hd : D ≤ d)
    (hf : Fit Tu Bc Td Bb Ba pC pB pA D D D D D D D D) (h1 : Grown Tu Tu') (h2 : Grown Bc Bc') (h3 : Grown Td Td') (h4 : Grown Bb Bb') (h5 : Grown Ba Ba')
    (hs : SiteOf Tu Bc Td Bb Ba pC pB pA D D D D D D D D A M) (hs' : SiteOf Tu' Bc' Td' Bb' Ba' pC pB pA d d d d d d d d A' M') :
    ∃ Y, extendSite d A = some Y ∧ A'.Same Y := by
  have hM : M' = M := by
    apply le_antisymm
    · obtain ⟨u, v, w, a, b, c, e, k1, k2, k3, k4, k5, k6, k7, k8⟩ := hs'.attained
      rw [← k8, site_grown hd hf h1 h2 h3 h4 h5 k1 k2 k3]
      split
      · rename_i hc; exact hs.le _ _ _ _ _ _ _ k1 k2 k3 hc.1 hc.2.1 hc.2.2.1 hc.2.2.2
      · rw [norm_zero]; exact hs.pos.le
    · obtain ⟨u, v, w, a, b, c, e, k1, k2, k3, k4, k5, k6, k7, k8⟩ := hs.attained
      have := hs'.le u v w a b c e k1 k2 k3 (k4.trans_le hd) (k5.trans_le hd) (k6.trans_le hd) (k7.trans_le hd)
      rwa [site_grown hd hf h1 h2 h3 h4 h5 k1 k2 k3, if_pos ⟨k4, k5, k6, k7⟩, k8] at this
  refine ⟨⟨[pA * pB * pC, d, d, d, d], fun i => if InB A.shape i then A.val i else 0⟩, ?_, hs'.shape, ?_⟩
  · unfold extendSite
    rw [hs.shape]
    simp only []
    rw [if_pos ⟨hd, hd, hd, hd⟩]
  · intro i hi
    rw [hs'.shape, inB_iff5] at hi
    obtain ⟨q, a, b, c, e, rfl, k0, k4, k5, k6, k7⟩ := hi
    obtain ⟨u, v, w, k1, k2, k3, rfl⟩ := unfuse k0
    rw [hs'.val u v w a b c e k1 k2 k3 k4 k5 k6 k7, site_grown hd hf h1 h2 h3 h4 h5 k1 k2 k3, hM]
    simp only [hs.shape, inB5, k0, true_and]
    split
    · rename_i hc
      rw [hs.val u v w a b c e k1 k2 k3 hc.1 hc.2.1 hc.2.2.1 hc.2.2.2]
    · rw [zero_div]

/-- The tensors of the grown state. -/
theorem extendP_elem {d : Nat} {s s' : PState} (h : extendP d s = .ok s') :
    ∃ ad, ad ≤ d ∧ PInv s' ∧ s'.symUD = s.symUD ∧ s'.symB = s.symB ∧ s'.pgs = s.pgs ∧
      ∀ n X', dictFind s'.elem n = some X' → ∃ X, dictFind s.elem n = some X ∧ X'.cplx = X.cplx ∧ Grown X.t X'.t ∧
        match n with
        | .Tu | .Td => X.t.shape = [ad, ad, ad] ∧ X'.t.shape = [d, d, d]
        | _ => ∃ p, X.t.shape = [p, ad, ad] ∧ X'.t.shape = [p, d, d] := by
  obtain ⟨ad, Tu, Bc, up, bs, _, hle, hTu, hBc, hup, hbs, h⟩ := extendP_inv h
  obtain ⟨W1, f1, g1⟩ := look_bind hTu
  obtain ⟨W2, f2, g2⟩ := look_bind hBc
  obtain ⟨a1, a2, a3, a4⟩ := growT_inv g1
  obtain ⟨p, b1, b2, b3, b4⟩ := growB_inv g2
  obtain ⟨h0, h1, h2, h3, _, _, _, es', h5, h6⟩ := mkP_inv h
  refine ⟨ad, hle, h0, h1, h2, h3, ?_⟩
  rw [if_neg (by simp)] at h6
  intro n X' hX
  rw [h6, (selectP_inv h5).2.1 n] at hX
  by_cases hk : kept s.symUD s.symB n = true
  · rw [if_pos hk] at hX
    rcases hup with ⟨hud, rfl⟩ | ⟨hud, Td, hTd, rfl⟩ <;> rcases hbs with ⟨hb, rfl⟩ | ⟨hb, Bb, Ba, hBb, hBa, rfl⟩ <;>
      rw [hud, hb] at hk <;> cases n <;> first
      | (cases hk; done)
      | (obtain rfl : Tu = X' := Option.some.inj hX; exact ⟨W1, f1, a3, a4, a1, a2⟩)
      | (obtain rfl : Bc = X' := Option.some.inj hX; exact ⟨W2, f2, b3, b4, p, b1, b2⟩)
      | (obtain rfl : Td = X' := Option.some.inj hX
         obtain ⟨W, f, g⟩ := look_bind hTd
         obtain ⟨c1, c2, c3, c4⟩ := growT_inv g
         exact ⟨W, f, c3, c4, c1, c2⟩)
      | (obtain rfl : Ba = X' := Option.some.inj hX
         obtain ⟨W, f, g⟩ := look_bind hBa
         obtain ⟨q, c1, c2, c3, c4⟩ := growB_inv g
         exact ⟨W, f, c3, c4, q, c1, c2⟩)
      | (obtain rfl : Bb = X' := Option.some.inj hX
         obtain ⟨W, f, g⟩ := look_bind hBb
         obtain ⟨q, c1, c2, c3, c4⟩ := growB_inv g
         exact ⟨W, f, c3, c4, q, c1, c2⟩)
  · rw [if_neg hk] at hX; cases hX

/-- C90 (partial: generic states are refuted below). Growing the bond dimension of a state with point-group symmetry writes the site tensor into a larger tensor of zeros (the
operation of C08), so no amplitude changes; irreps and flags are kept. -/
theorem C90_extend_partial {d : Nat} {s s' : PState} (hs : PReach s) (h : extendP d s = .ok s') :
    (∃ A A' Y, s.g.sites = [((0, 0), A)] ∧ s'.g.sites = [((0, 0), A')] ∧ A'.cplx = A.cplx ∧ extendSite d A.t = some Y ∧ A'.t.Same Y) ∧
    s'.symUD = s.symUD ∧ s'.symB = s.symB ∧ s'.pgs = s.pgs ∧ (Symmetric s → Symmetric s') := by
  obtain ⟨ad, hle, ⟨hex⟩, hud, hb, hpgs, hel⟩ := extendP_elem h
  refine ⟨?_, hud, hb, hpgs, ?_⟩
  · obtain ⟨⟨Tu, Bc, Td, Bb, Ba, A, hF, _, hA, hsites⟩, _⟩ := hs.inv
    obtain ⟨Tu', Bc', Td', Bb', Ba', A', hF', _, hA', hsites'⟩ := hex
    obtain ⟨T1, B1, T2, B2, B3, pC, pB, pA, nI, nJ, nK, nL, nA, nB, nC, nD, M, h5, hf, hS⟩ := buildSite_inv hA
    obtain ⟨T1', B1', T2', B2', B3', pC', pB', pA', nI', nJ', nK', nL', nA', nB', nC', nD', M', h5', hf', hS'⟩ := buildSite_inv hA'
    have e1 : Tu = ⟨A.cplx, T1⟩ := Option.some.inj h5.tu
    have e2 : Bc = ⟨A.cplx, B1⟩ := Option.some.inj h5.bc
    have e3 : Td = ⟨A.cplx, T2⟩ := Option.some.inj h5.td
    have e4 : Bb = ⟨A.cplx, B2⟩ := Option.some.inj h5.bb
    have e5 : Ba = ⟨A.cplx, B3⟩ := Option.some.inj h5.ba
    have e1' : Tu' = ⟨A'.cplx, T1'⟩ := Option.some.inj h5'.tu
    have e2' : Bc' = ⟨A'.cplx, B1'⟩ := Option.some.inj h5'.bc
    have e3' : Td' = ⟨A'.cplx, T2'⟩ := Option.some.inj h5'.td
    have e4' : Bb' = ⟨A'.cplx, B2'⟩ := Option.some.inj h5'.bb
    have e5' : Ba' = ⟨A'.cplx, B3'⟩ := Option.some.inj h5'.ba
    subst e1 e2 e3 e4 e5 e1' e2' e3' e4' e5'
    rw [hud, hb] at hF'
    obtain ⟨f1, f2, f3, f4, f5⟩ := hF
    obtain ⟨k1, k2, k3, k4, k5⟩ := hF'
    obtain ⟨X1, x1, c1, g1, s1, t1⟩ := hel .Tu _ k1
    rw [f1, Option.some.injEq] at x1
    subst x1
    obtain ⟨X2, x2, c2, g2, q, s2, t2⟩ := hel .Bc _ k2
    rw [f2, Option.some.injEq] at x2
    subst x2
    simp only [] at s1 t1 s2 t2 c1 g1 g2
    have y3 : Grown T2 T2' ∧ T2.shape = [ad, ad, ad] ∧ T2'.shape = [d, d, d] := by
      cases hu : s.symUD <;> rw [hu] at f3 k3
      · rw [if_neg (by simp)] at f3 k3
        obtain ⟨X3, x3, _, g3, s3, t3⟩ := hel .Td _ k3
        rw [f3, Option.some.injEq] at x3
        subst x3
        exact ⟨g3, s3, t3⟩
      · rw [if_pos rfl, Ten.mk.injEq] at f3 k3
        rw [f3.2, k3.2]
        exact ⟨g1, s1, t1⟩
    have y4 : Grown B2 B2' ∧ ∃ p, B2.shape = [p, ad, ad] ∧ B2'.shape = [p, d, d] := by
      cases hu : s.symB <;> rw [hu] at f4 k4
      · rw [if_neg (by simp)] at f4 k4
        obtain ⟨X3, x3, _, g3, p, s3, t3⟩ := hel .Bb _ k4
        rw [f4, Option.some.injEq] at x3
        subst x3
        exact ⟨g3, p, s3, t3⟩
      · rw [if_pos rfl, Ten.mk.injEq] at f4 k4
        rw [f4.2, k4.2]
        exact ⟨g2, q, s2, t2⟩
    have y5 : Grown B3 B3' ∧ ∃ p, B3.shape = [p, ad, ad] ∧ B3'.shape = [p, d, d] := by
      cases hu : s.symB <;> rw [hu] at f5 k5
      · rw [if_neg (by simp)] at f5 k5
        obtain ⟨X3, x3, _, g3, p, s3, t3⟩ := hel .Ba _ k5
        rw [f5, Option.some.injEq] at x3
        subst x3
        exact ⟨g3, p, s3, t3⟩
      · rw [if_pos rfl, Ten.mk.injEq] at f5 k5
        rw [f5.2, k5.2]
        exact ⟨g2, q, s2, t2⟩
    obtain ⟨g3, s3, t3⟩ := y3
    obtain ⟨g4, pb, s4, t4⟩ := y4
    obtain ⟨g5, pa, s5, t5⟩ := y5
    have i1 := hf.tu.symm.trans s1
    have i2 := hf.bc.symm.trans s2
    have i3 := hf.td.symm.trans s3
    have i4 := hf.bb.symm.trans s4
    have i5 := hf.ba.symm.trans s5
    have j1 := hf'.tu.symm.trans t1
    have j2 := hf'.bc.symm.trans t2
    have j3 := hf'.td.symm.trans t3
    have j4 := hf'.bb.symm.trans t4
    have j5 := hf'.ba.symm.trans t5
    simp only [List.cons.injEq, and_true] at i1 i2 i3 i4 i5 j1 j2 j3 j4 j5
    obtain ⟨rfl, rfl, rfl⟩ := i1
    obtain ⟨rfl, rfl, _⟩ := i2
    obtain ⟨_, rfl, rfl⟩ := i3
    obtain ⟨rfl, _, rfl⟩ := i4
    obtain ⟨rfl, _, rfl⟩ := i5
    obtain ⟨rfl, rfl, rfl⟩ := j1
    obtain ⟨rfl, rfl, _⟩ := j2
    obtain ⟨_, rfl, rfl⟩ := j3
    obtain ⟨rfl, _, rfl⟩ := j4
    obtain ⟨rfl, _, rfl⟩ := j5
    obtain ⟨Y, hY, hsame⟩ := siteOf_grown hle hf g1 g2 g3 g4 g5 hS hS'
    exact ⟨A, A', Y, hsites, hsites', c1, hY, hsame⟩
  · intro hsym n p X' hp hX'
    rw [hpgs] at hp
    obtain ⟨X, hX, _, hg, hsh⟩ := hel n X' hX'
    have hi := hsym n p X hp hX
    have mir : ∀ {q D e : Nat} {ε : ℂ}, X.t.shape = [q, D, D] → Mirror q D ε X.t → Mirror q e ε X'.t := by
      intro q D e ε hD hm t a b ht ha hb
      rw [hg, hg, hD]
      simp only [inB3, ht, true_and]
      by_cases hab : a < D ∧ b < D
      · rw [if_pos hab, if_pos ⟨hab.2, hab.1⟩, hm t a b ht hab.1 hab.2]
      · rw [if_neg hab, if_neg (fun hh => hab ⟨hh.2, hh.1⟩)]; simp
    have mirT : ∀ {D e : Nat} {ε : ℂ}, X.t.shape = [D, D, D] → Mirror D D ε X.t → Mirror e e ε X'.t := by
      intro D e ε hD hm t a b ht ha hb
      rw [hg, hg, hD]
      simp only [inB3]
      by_cases hab : t < D ∧ a < D ∧ b < D
      · rw [if_pos hab, if_pos ⟨hab.1, hab.2.2, hab.2.1⟩, hm t a b hab.1 hab.2.1 hab.2.2]
      · rw [if_neg hab, if_neg (fun hh => hab ⟨hh.1, hh.2.2, hh.2.1⟩)]; simp
    have cyc : ∀ {D e : Nat}, X.t.shape = [D, D, D] → Cyclic D X.t → Cyclic e X'.t := by
      intro D e hD hm a b c _ _ _
      rw [hg, hg, hD]
      simp only [inB3]
      by_cases hab : a < D ∧ b < D ∧ c < D
      · rw [if_pos hab, if_pos ⟨hab.2.1, hab.2.2, hab.1⟩, hm a b c hab.1 hab.2.1 hab.2.2]
      · rw [if_neg hab, if_neg (fun hh => hab ⟨hh.2.2, hh.1, hh.2.1⟩)]
    have tri : ∀ {D : Nat}, X'.t.shape = [d, d, d] → X.t.shape = [D, D, D] → Cyclic D X.t → (p = .A1 ∧ Mirror D D 1 X.t ∨ p = .A2 ∧ Mirror D D (-1) X.t) →
        ∃ D, X'.t.shape = [D, D, D] ∧ Cyclic D X'.t ∧ (p = .A1 ∧ Mirror D D 1 X'.t ∨ p = .A2 ∧ Mirror D D (-1) X'.t) :=
      fun hs' hD hc hm => ⟨d, hs', cyc hD hc, hm.imp (fun h => ⟨h.1, mirT hD h.2⟩) (fun h => ⟨h.1, mirT hD h.2⟩)⟩
    cases n
    · obtain ⟨D, hD, hc, hm⟩ := hi
      exact tri hsh.2 hD hc hm
    · obtain ⟨D, hD, hc, hm⟩ := hi
      exact tri hsh.2 hD hc hm
    all_goals
      obtain ⟨q, D, hD, hm⟩ := hi
      obtain ⟨q', hD', hs'⟩ := hsh
      have := hD.symm.trans hD'
      simp only [List.cons.injEq, and_true] at this
      obtain ⟨rfl, _⟩ := this
      exact ⟨q, d, hs', hm.imp (fun h => ⟨h.1, mir hD h.2⟩) (fun h => ⟨h.1, mir hD h.2⟩)⟩

/-- C90. Growing succeeds whenever up and down, and the bonds, are identified, all legs have one size and the new size is not
smaller. -/
theorem C90_extend_defined {d D q : Nat} {s : PState} (hs : PReach s) (hud : s.symUD = true) (hb : s.symB = true) {Tu Bc : Ten}
    (h1 : dictFind s.elem .Tu = some Tu) (h2 : dictFind s.elem .Bc = some Bc) (e1 : Tu.t.shape = [D, D, D]) (e2 : Bc.t.shape = [q, D, D]) (hd : D ≤ d) :
    ∃ s', extendP d s = .ok s' := by
  obtain ⟨⟨Tu0, Bc0, Td, Bb, Ba, A, ⟨f1, f2, f3, f4, f5⟩, hi, hA, hsites⟩, _⟩ := hs.inv
  rw [hud, if_pos rfl] at f3
  rw [hb, if_pos rfl] at f4 f5
  rw [h1, Option.some.injEq] at f1
  rw [h2, Option.some.injEq] at f2
  subst f1 f2 f3 f4 f5
  have haux : auxDim s.g.ipess = .ok D := by
    rw [hi]
    show (match ([Td.t.shape ++ Td.t.shape] : List (List Nat)).flatten with
      | [] => Except.error Err.raise
      | n :: ns => if ns.all (· == n) then Except.ok n else Except.error Err.raise) = _
    rw [e1]
    simp
  obtain ⟨T1, B1, T2, B2, B3, pC, pB, pA, nI, nJ, nK, nL, nA, nB, nC, nD, M, h5, hf, hS⟩ := buildSite_inv hA
  have i1 := Option.some.inj h5.tu
  have i2 := Option.some.inj h5.bc
  have i3 := Option.some.inj h5.td
  have i4 := Option.some.inj h5.bb
  have i5 := Option.some.inj h5.ba
  simp only [] at i1 i2 i3 i4 i5
  rw [i1] at i3
  rw [i2] at i4 i5
  simp only [Ten.mk.injEq, true_and] at i3 i4 i5
  subst i3 i4 i5
  rw [i1] at e1
  rw [i2] at e2
  simp only [] at e1 e2
  have gT : growT d D ⟨A.cplx, T1⟩ = .ok ⟨A.cplx, ⟨[d, d, d], fun i => if InB T1.shape i then T1.val i else 0⟩⟩ := if_pos e1
  have gB : growB d D ⟨A.cplx, B1⟩ = .ok ⟨A.cplx, ⟨[q, d, d], fun i => if InB B1.shape i then B1.val i else 0⟩⟩ := by
    unfold growB
    simp only [e2, size]
    exact if_pos ⟨rfl, rfl⟩
  obtain ⟨rfl, rfl, rfl, rfl, rfl, rfl, rfl, rfl, rfl, rfl⟩ := sizes hf e1 e1
  have hq := e2.symm.trans hf.bc
  simp only [List.cons.injEq, and_true] at hq
  obtain ⟨rfl, _⟩ := hq
  set T' : Tensor ℂ := ⟨[d, d, d], fun i => if InB T1.shape i then T1.val i else 0⟩ with hT'
  set B' : Tensor ℂ := ⟨[q, d, d], fun i => if InB B1.shape i then B1.val i else 0⟩ with hB'
  have hf' : Fit T' B' T' B' B' q q q d d d d d d d d := ⟨rfl, rfl, rfl, rfl, rfl⟩
  obtain ⟨u, v, w, a, b, c, e, k1, k2, k3, k4, k5, k6, k7, k8⟩ := hS.attained
  obtain ⟨A', M', hA', _⟩ := buildSite_ok (d := [(.Tu, ⟨A.cplx, T'⟩), (.Td, ⟨A.cplx, T'⟩), (.Bc, ⟨A.cplx, B'⟩), (.Ba, ⟨A.cplx, B'⟩), (.Bb, ⟨A.cplx, B'⟩)])
    (cplx := A.cplx) ⟨rfl, rfl, rfl, rfl, rfl⟩ hf' ⟨u, v, w, a, b, c, e, k1, k2, k3, k4.trans_le hd, k5.trans_le hd, k6.trans_le hd, k7.trans_le hd, by
      rw [site_grown hd hf (fun _ => rfl) (fun _ => rfl) (fun _ => rfl) (fun _ => rfl) (fun _ => rfl) k1 k2 k3, if_pos ⟨k4, k5, k6, k7⟩, ← norm_pos_iff, k8]
      exact hS.pos⟩
  obtain ⟨s', hs', _⟩ := mkP_ok (es := [(.Tu, ⟨A.cplx, T'⟩), (.Bc, ⟨A.cplx, B'⟩)]) (ud := true) (b := true) (pgs := s.pgs)
    (Tu := ⟨A.cplx, T'⟩) (Bc := ⟨A.cplx, B'⟩) (Td := ⟨A.cplx, T'⟩) (Bb := ⟨A.cplx, B'⟩) (Ba := ⟨A.cplx, B'⟩)
    ⟨rfl, rfl, by simp, by simp, by simp⟩ hA'
  refine ⟨s', ?_⟩
  unfold extendP
  rw [haux, hud, hb]
  refine bind_ok.2 ⟨_, rfl, ?_⟩
  rw [if_pos hd]
  rw [look_some h1, look_some h2, i1, i2]
  refine bind_ok.2 ⟨_, gT, bind_ok.2 ⟨_, gB, ?_⟩⟩
  exact hs'

/-- Non-vacuity of C90_extend_partial: the example state grows to bond dimension 3. -/
example : ∃ s s', PReach s ∧ extendP 3 s = .ok s' := by
  obtain ⟨s, h1, _, h3, h4, _, h6, h7⟩ := ex_state
  obtain ⟨s', h⟩ := C90_extend_defined (d := 3) h1 h3 h4 h6 h7 (D := 2) (q := 2) rfl rfl (by simp)
  exact ⟨s, s', h1, h⟩

/-! ## C90, growing generic states -/

/-- C90 (violated). Growing the bond dimension of a generic Kagome state never succeeds: for every state and every size the call
raises. -/
theorem C90_generic_violated (d : Nat) (s s' : GState) : extendG d s ≠ .ok s' := by
  intro h
  unfold extendG at h
  obtain ⟨ad, _, h⟩ := bind_ok.1 h
  split at h
  · obtain ⟨ip, _, h⟩ := bind_ok.1 h
    obtain ⟨_, h0, _⟩ := bind_ok.1 h
    cases h0
  · cases h

end Verif.Kagome
