import Verif.State.KagomeProps
/-
Property C89: Kagome states whose tensors are linear combinations of basis tensors.
-/
namespace Verif.Kagome
open Verif.State
open Verif.Tensor
open Verif.Lattice (Vertex)
open Spec

/-- The states a program can reach. -/
inductive LReach : LState → Prop
  | mk {cs bs ud b pgs s} : mkL cs bs ud b pgs = .ok s → LReach s
  | load {s cs bs s'} : LReach s → loadL cs bs s = .ok s' → LReach s'
  | noise {s ν s'} : LReach s → addNoiseL ν s = .ok s' → LReach s'

/-- Invariant of reachable states. -/
structure LGood (s : LState) : Prop where
  ex : ∃ es five Tu Bc Td Bb Ba A, buildElem s.pgs s.coeffs s.basis = .ok es ∧ (∀ n, kept s.symUD s.symB n → dictFind s.elem n = dictFind es n) ∧
    FiveOf s.symUD s.symB s.elem Tu Bc Td Bb Ba ∧
    dictFind five .Tu = some Tu ∧ dictFind five .Bc = some Bc ∧ dictFind five .Td = some Td ∧ dictFind five .Bb = some Bb ∧ dictFind five .Ba = some Ba ∧
    buildSite five = .ok A ∧ s.g.ipess = [(.cell (0, 0), .sub five)] ∧ s.g.sites = [((0, 0), A)]

/-- C89 (violated). If the triangles or the bonds are not identified, `update_`, and with it `load_checkpoint` and `add_noise`, never
succeeds. -/
theorem C89_update_violated (s s' : LState) (h : s.symUD = false ∨ s.symB = false) : updateL s ≠ .ok s' := by
  intro hu
  unfold updateL at hu
  obtain ⟨es, _, hu⟩ := bind_ok.1 hu
  obtain ⟨Tu, _, hu⟩ := bind_ok.1 hu
  obtain ⟨Bc, _, hu⟩ := bind_ok.1 hu
  obtain ⟨ip1, h1, hu⟩ := bind_ok.1 hu
  obtain ⟨ip2, h2, hu⟩ := bind_ok.1 hu
  obtain ⟨sites, h3, _⟩ := bind_ok.1 hu
  have hb := mapM_ok_forall₂ h3
  have key : ∃ n t rest a, ip2 = a :: (Key.name n, Item.ten t) :: rest := by
    cases hud : s.symUD
    · rw [hud] at h1
      obtain ⟨Td, _, h1⟩ := bind_ok.1 h1
      cases Except.ok.inj h1
      cases hsb : s.symB
      · rw [hsb] at h2
        obtain ⟨Bb, _, h2⟩ := bind_ok.1 h2
        obtain ⟨Ba, _, h2⟩ := bind_ok.1 h2
        cases Except.ok.inj h2
        exact ⟨_, _, _, _, rfl⟩
      · rw [hsb] at h2
        cases Except.ok.inj h2
        exact ⟨_, _, _, _, rfl⟩
    · have hsb : s.symB = false := by rcases h with h | h; · rw [h] at hud; cases hud
                                      · exact h
      rw [hud] at h1
      cases Except.ok.inj h1
      rw [hsb] at h2
      obtain ⟨Bb, _, h2⟩ := bind_ok.1 h2
      obtain ⟨Ba, _, h2⟩ := bind_ok.1 h2
      cases Except.ok.inj h2
      exact ⟨_, _, _, _, rfl⟩
  obtain ⟨n, t, rest, a, rfl⟩ := key
  obtain ⟨b, out, _, hb, _⟩ := List.forall₂_cons_left_iff.1 hb
  obtain ⟨b', out', hb', _, _⟩ := List.forall₂_cons_left_iff.1 hb
  cases hb'

theorem updateL_good {s s' : LState} (h : updateL s = .ok s') : LGood s' ∧ s.symUD = true ∧ s.symB = true ∧ s'.symUD = s.symUD ∧ s'.symB = s.symB ∧
    s'.pgs = s.pgs ∧ s'.coeffs = s.coeffs ∧ s'.basis = s.basis := by
  have hud : s.symUD = true := by
    by_contra hn
    exact C89_update_violated s s' (Or.inl (by simpa using hn)) h
  have hsb : s.symB = true := by
    by_contra hn
    exact C89_update_violated s s' (Or.inr (by simpa using hn)) h
  unfold updateL at h
  obtain ⟨es, h0, hu⟩ := bind_ok.1 h
  obtain ⟨Tu, h1, hu⟩ := bind_ok.1 hu
  obtain ⟨Bc, h2, hu⟩ := bind_ok.1 hu
  rw [hud, hsb] at hu
  obtain ⟨ip1, h3, hu⟩ := bind_ok.1 hu
  cases Except.ok.inj h3
  obtain ⟨ip2, h4, hu⟩ := bind_ok.1 hu
  cases Except.ok.inj h4
  obtain ⟨sites, h5, hu⟩ := bind_ok.1 hu
  obtain ⟨A, hA, rfl⟩ := (buildAll_single _ _ _).1 h5
  cases Except.ok.inj hu
  refine ⟨⟨es, _, Tu, Bc, Tu, Bc, Bc, A, h0, fun _ _ => rfl, ⟨look_ok h1, look_ok h2, by simp, by simp, by simp⟩,
    rfl, rfl, rfl, rfl, rfl, hA, rfl, rfl⟩, hud, hsb, hud.symm, hsb.symm, rfl, rfl, rfl⟩

theorem LReach.good {s : LState} (h : LReach s) : LGood s := by
  cases h with
  | mk h =>
    unfold mkL at h
    simp only [] at h
    obtain ⟨cs, _, h⟩ := bind_ok.1 h
    obtain ⟨bs, _, h⟩ := bind_ok.1 h
    obtain ⟨es, h0, h⟩ := bind_ok.1 h
    obtain ⟨p, hp, h⟩ := bind_ok.1 h
    cases Except.ok.inj h
    obtain ⟨⟨Tu, Bc, Td, Bb, Ba, A, hF, hi, hA, hs⟩, h1, h2, h3, _, _, _, es', h5, h6⟩ := mkP_inv hp
    rw [if_neg (by simp)] at h6
    rw [h1, h2] at hF
    refine ⟨es, _, Tu, Bc, Td, Bb, Ba, A, h0, ?_, hF, rfl, rfl, rfl, rfl, rfl, hA, hi, hs⟩
    intro n hn
    show dictFind p.elem n = _
    rw [h6, (selectP_inv h5).2.1 n, if_pos hn]
  | load _ h => exact (updateL_good h).1
  | noise _ h => exact (updateL_good h).1

/-- C89. In every reachable state the elementary tensors are the linear combinations of the current coefficients and basis tensors,
and the site tensor is the network of these elementary tensors. -/
theorem C89_consistent {s : LState} (h : LReach s) :
    ∃ es Tu Bc Td Bb Ba A, buildElem s.pgs s.coeffs s.basis = .ok es ∧ (∀ n, kept s.symUD s.symB n → dictFind s.elem n = dictFind es n) ∧
      FiveOf s.symUD s.symB s.elem Tu Bc Td Bb Ba ∧ s.g.sites = [((0, 0), A)] ∧
      ∃ pC pB pA nI nJ nK nL nA nB nC nD M, Fit Tu.t Bc.t Td.t Bb.t Ba.t pC pB pA nI nJ nK nL nA nB nC nD ∧
        SiteOf Tu.t Bc.t Td.t Bb.t Ba.t pC pB pA nI nJ nK nL nA nB nC nD A.t M := by
  obtain ⟨es, five, Tu, Bc, Td, Bb, Ba, A, h0, he, hF, g1, g2, g3, g4, g5, hA, _, hs⟩ := h.good.ex
  refine ⟨es, Tu, Bc, Td, Bb, Ba, A, h0, he, hF, hs, ?_⟩
  obtain ⟨Tu2, Bc2, Td2, Bb2, Ba2, pC, pB, pA, nI, nJ, nK, nL, nA, nB, nC, nD, M, h52, hf, hs⟩ := buildSite_inv hA
  replace g1 := Option.some.inj (g1.symm.trans h52.tu)
  replace g2 := Option.some.inj (g2.symm.trans h52.bc)
  replace g3 := Option.some.inj (g3.symm.trans h52.td)
  replace g4 := Option.some.inj (g4.symm.trans h52.bb)
  replace g5 := Option.some.inj (g5.symm.trans h52.ba)
  rw [g1, g2, g3, g4, g5]
  exact ⟨pC, pB, pA, nI, nJ, nK, nL, nA, nB, nC, nD, M, hf, hs⟩

/-! ### The linear combinations -/

theorem stackT_inv {l : List Ten} {ts : Ten} (h : stackT l = some ts) :
    ∃ X Xs, l = X :: Xs ∧ (∀ Y ∈ l, Y.t.shape = X.t.shape) ∧ ts.t.shape = l.length :: X.t.shape ∧ ts.cplx = l.any (·.cplx) ∧
      ∀ k i, (hk : k < l.length) → ts.t.val (k :: i) = (l[k]).t.val i := by
  match l, h with
  | X :: Xs, h =>
    simp only [stackT] at h
    split at h
    · rename_i hs
      cases Option.some.inj h
      refine ⟨X, Xs, rfl, ?_, by simp, rfl, ?_⟩
      · intro Y hY
        rcases List.mem_cons.1 hY with rfl | hY
        · rfl
        · exact hs Y hY
      · intro k i hk
        simp only []
        rw [List.getElem?_eq_getElem hk]
        rfl
    · cases h

theorem stackT_pos {X : Ten} {Xs : List Ten} (h : ∀ Y ∈ Xs, Y.t.shape = X.t.shape) : ∃ ts, stackT (X :: Xs) = some ts :=
  ⟨_, if_pos h⟩

theorem combineT_inv {c ts Y : Ten} (h : combineT c ts = .ok Y) :
    ∃ N a b e, c.t.shape = [N] ∧ ts.t.shape = [N, a, b, e] ∧ Y.t.shape = [a, b, e] ∧ Y.cplx = ts.cplx ∧
      ∀ i j k, i < a → j < b → k < e → Y.t.val [i, j, k] = ∑ m ∈ Finset.range N, c.t.val [m] * ts.t.val [m, i, j, k] := by
  unfold combineT at h
  split at h
  · cases h
  obtain ⟨t, ht, h⟩ := bind_ok.1 h
  have ht := lift_ok.1 ht
  cases Except.ok.inj h
  obtain ⟨dim, hs, hn, ho⟩ := einsum_some ht
  obtain ⟨R, e, hsh, hv⟩ := einsum_ok dim _ _ hs hn ho
  rw [ht, Option.some.injEq] at e
  subst e
  refine ⟨dim 0, dim 1, dim 2, dim 3, hs (c.t, [0]) (by simp), hs (ts.t, [0, 1, 2, 3]) (by simp), hsh, rfl, ?_⟩
  intro i j k hi hj hk
  have := hv (fun l => [0, i, j, k].getD l 0) (by
    intro l hl
    simp only [List.mem_cons, List.not_mem_nil, or_false] at hl
    rcases hl with rfl | rfl | rfl <;> assumption)
  have e2 : t.val [i, j, k] = _ := this
  show t.val [i, j, k] = _
  rw [e2]
  have hd : (([(c.t, [0]), (ts.t, [0, 1, 2, 3])] : List (Tensor ℂ × List Nat)).flatMap Prod.snd).dedup.filter (fun l => l ∉ [1, 2, 3]) = [0] := by
    have : ([(c.t, [0]), (ts.t, [0, 1, 2, 3])] : List (Tensor ℂ × List Nat)).flatMap Prod.snd = [0, 0, 1, 2, 3] := rfl
    rw [this]
    decide
  rw [hd]
  simp only [sumOver]
  refine Finset.sum_congr rfl (fun m _ => ?_)
  simp [termOf, Function.update]

/-- C89. Each elementary tensor is the sum of the selected basis tensors, each times its coefficient; the number of coefficients is
the number of selected tensors. -/
theorem C89_combination {pgs : List (Name × Option Irrep)} {cs : List (Name × Ten)} {bs : List (Name × List (Irrep × Ten))} {es : List (Name × Ten)}
    (h : buildElem pgs cs bs = .ok es) :
    List.Forall₂ (fun (c : Name × Ten) (e : Name × Ten) => e.1 = c.1 ∧ ∃ b, dictFind bs c.1 = some b ∧
      let L := selected c.1 ((dictFind pgs c.1).join) b
      c.2.t.shape = [L.length] ∧ ∃ x y z, e.2.t.shape = [x, y, z] ∧ (∀ X ∈ L, X.t.shape = [x, y, z]) ∧
        ∀ i j k, i < x → j < y → k < z → e.2.t.val [i, j, k] =
          ∑ m : Fin L.length, c.2.t.val [m] * (L[m]).t.val [i, j, k]) cs es := by
  refine (mapM_ok_forall₂ h).imp ?_
  rintro ⟨n, c⟩ ⟨n', Y⟩ h
  obtain ⟨b, hb, h⟩ := bind_ok.1 h
  obtain ⟨ts, hts, h⟩ := bind_ok.1 h
  obtain ⟨t, ht, h⟩ := bind_ok.1 h
  cases Except.ok.inj h
  refine ⟨rfl, b, look_ok hb, ?_⟩
  obtain ⟨X, Xs, hl, hsh, hs, _, hv⟩ := stackT_inv (lift_ok.1 hts)
  obtain ⟨N, x, y, z, hc, hs', hY, _, hval⟩ := combineT_inv ht
  rw [hs] at hs'
  simp only [List.cons.injEq] at hs'
  obtain ⟨hN, hX⟩ := hs'
  simp only []
  refine ⟨by rw [hc, ← hN], x, y, z, hY, fun W hW => by rw [hsh W hW, hX], ?_⟩
  intro i j k hi hj hk
  rw [hval i j k hi hj hk, ← hN, Finset.sum_range]
  refine Finset.sum_congr rfl fun m _ => ?_
  rw [hv m [i, j, k] m.2]
  rfl

/-- C89. The combination is defined whenever there is one coefficient per tensor, the tensors have one shape and the number types
fit. -/
theorem C89_defined (pgs : List (Name × Option Irrep)) (bs : List (Name × List (Irrep × Ten))) (n : Name) (c : Ten) (b : List (Irrep × Ten))
    (x y z : Nat) (hb : dictFind bs n = some b) (hne : selected n (dictFind pgs n).join b ≠ [])
    (hc : c.t.shape = [(selected n (dictFind pgs n).join b).length]) (hsh : ∀ X ∈ selected n (dictFind pgs n).join b, X.t.shape = [x, y, z])
    (hd : c.cplx = true → ∃ X ∈ selected n (dictFind pgs n).join b, X.cplx = true) :
    ∃ Y, elemOne pgs bs (n, c) = .ok (n, Y) ∧ Y.cplx = (selected n (dictFind pgs n).join b).any (·.cplx) := by
  generalize hL : selected n (dictFind pgs n).join b = L at *
  match L, hne with
  | X :: Xs, _ =>
    obtain ⟨ts, hts⟩ : ∃ ts, stackT (X :: Xs) = some ts := stackT_pos (fun Y hY => by rw [hsh Y (by simp [hY]), hsh X (by simp)])
    obtain ⟨X', Xs', hl, _, hs, hcx, hv⟩ := stackT_inv hts
    rw [← (List.cons.inj hl).1, hsh X (by simp)] at hs
    obtain ⟨R, e, hR, _⟩ := einsum_ok (fun l => [(X :: Xs).length, x, y, z].getD l 0) [(c.t, [0]), (ts.t, [0, 1, 2, 3])] [1, 2, 3] (by
      intro p hp
      simp only [List.mem_cons, List.not_mem_nil, or_false] at hp
      rcases hp with rfl | rfl
      · exact hc
      · exact hs) (by decide) (by simp)
    have hct : combineT c ts = .ok ⟨ts.cplx, R⟩ := by
      unfold combineT
      rw [if_neg ?_, e]
      · rfl
      · rw [hcx]
        intro hh
        rw [Bool.and_eq_true, Bool.not_eq_true'] at hh
        obtain ⟨W, hW, hWc⟩ := hd hh.1
        have := List.any_eq_false.1 hh.2 W hW
        exact this hWc
    refine ⟨⟨ts.cplx, R⟩, ?_, hcx⟩
    refine bind_ok.2 ⟨b, by unfold look; rw [hb], ?_⟩
    refine bind_ok.2 ⟨ts, lift_ok.2 (by rw [← hts, ← hL]), ?_⟩
    exact bind_ok.2 ⟨_, hct, rfl⟩

theorem mem_ofIrrep {p : Irrep} {b : List (Irrep × Ten)} {X : Ten} : X ∈ ofIrrep p b ↔ (p, X) ∈ b := by
  unfold ofIrrep
  rw [List.mem_map]
  constructor
  · rintro ⟨e, he, rfl⟩
    rw [List.mem_filter, decide_eq_true_eq] at he
    obtain ⟨h1, rfl⟩ := he
    exact h1
  · intro h
    exact ⟨(p, X), List.mem_filter.2 ⟨h, by simp⟩, rfl⟩

theorem mirror_timesI {p D : Nat} {ε : ℂ} {X : Ten} (h : Mirror p D ε X.t) : Mirror p D (-ε) (timesI X).t := by
  intro s a b hs ha hb
  show Complex.I * X.t.val [s, b, a] = -ε * star (Complex.I * X.t.val [s, a, b])
  rw [h s a b hs ha hb, star_mul']
  have : star Complex.I = -Complex.I := Complex.conj_I
  rw [this]; ring

theorem mirror_sum {p D N : Nat} {ε : ℂ} {Y : Tensor ℂ} {f : Fin N → Tensor ℂ} {c : Fin N → ℂ} (hc : ∀ m, star (c m) = c m)
    (hf : ∀ m, Mirror p D ε (f m))
    (hY : ∀ i j k, i < p → j < D → k < D → Y.val [i, j, k] = ∑ m, c m * (f m).val [i, j, k]) : Mirror p D ε Y := by
  intro s a b hs ha hb
  rw [hY s b a hs hb ha, hY s a b hs ha hb, star_sum, Finset.mul_sum]
  refine Finset.sum_congr rfl fun m _ => ?_
  rw [hf m s a b hs ha hb, star_mul', hc]; ring

theorem cyclic_sum {D N : Nat} {Y : Tensor ℂ} {f : Fin N → Tensor ℂ} {c : Fin N → ℂ} (hf : ∀ m, Cyclic D (f m))
    (hY : ∀ i j k, i < D → j < D → k < D → Y.val [i, j, k] = ∑ m, c m * (f m).val [i, j, k]) : Cyclic D Y := by
  intro a b e ha hb he
  rw [hY b e a hb he ha, hY a b e ha hb he]
  exact Finset.sum_congr rfl fun m _ => by rw [hf m a b e ha hb he]

/-- The irreps a tensor can be assigned: `A_1`, `A_2` for the triangles, `A`, `B` for the bonds. -/
def Proper : Name → Irrep → Prop
  | .Tu, p | .Td, p => p = .A1 ∨ p = .A2
  | _, p => p = .A ∨ p = .B

/-- Every selected tensor belongs to the declared irrep. -/
theorem selected_irrep {n : Name} {p : Irrep} {b : List (Irrep × Ten)} (hb : ∀ e ∈ b, InIrrep n e.1 e.2.t)
    (hp : Proper n p) {X : Ten} (hX : X ∈ selected n (some p) b) : InIrrep n p X.t := by
  have tri1 : ∀ {q D} {W : Tensor ℂ}, (q = Irrep.A1 ∧ Mirror D D 1 W ∨ q = .A2 ∧ Mirror D D (-1) W) → (q = .A1 → Mirror D D 1 W) ∧ (q = .A2 → Mirror D D (-1) W) := by
    rintro q D W (⟨rfl, h⟩ | ⟨rfl, h⟩)
    · exact ⟨fun _ => h, fun h' => by cases h'⟩
    · exact ⟨fun h' => (by cases h'), fun _ => h⟩
  have bon1 : ∀ {q D E} {W : Tensor ℂ}, (q = Irrep.A ∧ Mirror D E 1 W ∨ q = .B ∧ Mirror D E (-1) W) → (q = .A → Mirror D E 1 W) ∧ (q = .B → Mirror D E (-1) W) := by
    rintro q D E W (⟨rfl, h⟩ | ⟨rfl, h⟩)
    · exact ⟨fun _ => h, fun h' => by cases h'⟩
    · exact ⟨fun h' => (by cases h'), fun _ => h⟩
  have tri : ∀ m : Name, (m = .Tu ∨ m = .Td) → (∀ e ∈ b, InIrrep m e.1 e.2.t) →
      (∀ X ∈ ofIrrep .A1 b ++ (ofIrrep .A2 b).map timesI, InIrrep m .A1 X.t) ∧ (∀ X ∈ ofIrrep .A2 b ++ (ofIrrep .A1 b).map timesI, InIrrep m .A2 X.t) := by
    intro m hm hb
    have hI : ∀ e ∈ b, ∃ D, e.2.t.shape = [D, D, D] ∧ Cyclic D e.2.t ∧ (e.1 = .A1 → Mirror D D 1 e.2.t) ∧ (e.1 = .A2 → Mirror D D (-1) e.2.t) := by
      intro e he
      have := hb e he
      rcases hm with rfl | rfl
      · obtain ⟨D, h1, h2, h3⟩ := this; exact ⟨D, h1, h2, (tri1 h3).1, (tri1 h3).2⟩
      · obtain ⟨D, h1, h2, h3⟩ := this; exact ⟨D, h1, h2, (tri1 h3).1, (tri1 h3).2⟩
    have hback : ∀ {q : Irrep} {W : Tensor ℂ} {D : Nat}, W.shape = [D, D, D] → Cyclic D W → (q = .A1 ∧ Mirror D D 1 W ∨ q = .A2 ∧ Mirror D D (-1) W) → InIrrep m q W := by
      intro q W D h1 h2 h3
      rcases hm with rfl | rfl
      · exact ⟨D, h1, h2, h3⟩
      · exact ⟨D, h1, h2, h3⟩
    have hcI : ∀ {D : Nat} {W : Ten}, Cyclic D W.t → Cyclic D (timesI W).t := by
      intro D W h a b c ha hb hc
      show Complex.I * _ = Complex.I * _
      rw [h a b c ha hb hc]
    constructor
    · intro X hX
      rcases List.mem_append.1 hX with h | h
      · obtain ⟨D, h1, h2, h3, _⟩ := hI _ (mem_ofIrrep.1 h)
        exact hback h1 h2 (Or.inl ⟨rfl, h3 rfl⟩)
      · obtain ⟨W, hW, rfl⟩ := List.mem_map.1 h
        obtain ⟨D, h1, h2, _, h4⟩ := hI _ (mem_ofIrrep.1 hW)
        have := mirror_timesI (h4 rfl)
        rw [neg_neg] at this
        exact hback (D := D) h1 (hcI h2) (Or.inl ⟨rfl, this⟩)
    · intro X hX
      rcases List.mem_append.1 hX with h | h
      · obtain ⟨D, h1, h2, _, h4⟩ := hI _ (mem_ofIrrep.1 h)
        exact hback h1 h2 (Or.inr ⟨rfl, h4 rfl⟩)
      · obtain ⟨W, hW, rfl⟩ := List.mem_map.1 h
        obtain ⟨D, h1, h2, h3, _⟩ := hI _ (mem_ofIrrep.1 hW)
        exact hback (D := D) h1 (hcI h2) (Or.inr ⟨rfl, mirror_timesI (h3 rfl)⟩)
  have bon : ∀ m : Name, (m = .Ba ∨ m = .Bb ∨ m = .Bc) → (∀ e ∈ b, InIrrep m e.1 e.2.t) →
      (∀ X ∈ ofIrrep .A b ++ (ofIrrep .B b).map timesI, InIrrep m .A X.t) ∧ (∀ X ∈ ofIrrep .B b ++ (ofIrrep .A b).map timesI, InIrrep m .B X.t) := by
    intro m hm hb
    have hI : ∀ e ∈ b, ∃ q D, e.2.t.shape = [q, D, D] ∧ (e.1 = .A → Mirror q D 1 e.2.t) ∧ (e.1 = .B → Mirror q D (-1) e.2.t) := by
      intro e he
      have := hb e he
      rcases hm with rfl | rfl | rfl <;>
        (obtain ⟨q, D, h1, h3⟩ := this; exact ⟨q, D, h1, (bon1 h3).1, (bon1 h3).2⟩)
    have hback : ∀ {q : Irrep} {W : Tensor ℂ} {p D : Nat}, W.shape = [p, D, D] → (q = .A ∧ Mirror p D 1 W ∨ q = .B ∧ Mirror p D (-1) W) → InIrrep m q W := by
      intro q W p D h1 h3
      rcases hm with rfl | rfl | rfl <;> exact ⟨p, D, h1, h3⟩
    constructor
    · intro X hX
      rcases List.mem_append.1 hX with h | h
      · obtain ⟨q, D, h1, h3, _⟩ := hI _ (mem_ofIrrep.1 h)
        exact hback h1 (Or.inl ⟨rfl, h3 rfl⟩)
      · obtain ⟨W, hW, rfl⟩ := List.mem_map.1 h
        obtain ⟨q, D, h1, _, h4⟩ := hI _ (mem_ofIrrep.1 hW)
        have := mirror_timesI (h4 rfl)
        rw [neg_neg] at this
        exact hback (p := q) (D := D) h1 (Or.inl ⟨rfl, this⟩)
    · intro X hX
      rcases List.mem_append.1 hX with h | h
      · obtain ⟨q, D, h1, _, h4⟩ := hI _ (mem_ofIrrep.1 h)
        exact hback h1 (Or.inr ⟨rfl, h4 rfl⟩)
      · obtain ⟨W, hW, rfl⟩ := List.mem_map.1 h
        obtain ⟨q, D, h1, h3, _⟩ := hI _ (mem_ofIrrep.1 hW)
        exact hback (p := q) (D := D) h1 (Or.inr ⟨rfl, mirror_timesI (h3 rfl)⟩)
  cases n <;> rcases hp with rfl | rfl
  · exact (tri _ (Or.inl rfl) hb).1 X hX
  · exact (tri _ (Or.inl rfl) hb).2 X hX
  · exact (tri _ (Or.inr rfl) hb).1 X hX
  · exact (tri _ (Or.inr rfl) hb).2 X hX
  · exact (bon _ (by simp) hb).1 X hX
  · exact (bon _ (by simp) hb).2 X hX
  · exact (bon _ (by simp) hb).1 X hX
  · exact (bon _ (by simp) hb).2 X hX
  · exact (bon _ (by simp) hb).1 X hX
  · exact (bon _ (by simp) hb).2 X hX

/-- C89. If the basis tensors belong to their irreps and the coefficients are real, the elementary tensor belongs to the declared
irrep, whatever the coefficients. -/
theorem C89_irrep {pgs : List (Name × Option Irrep)} {cs : List (Name × Ten)} {bs : List (Name × List (Irrep × Ten))} {es : List (Name × Ten)}
    (h : buildElem pgs cs bs = .ok es) (hb : ∀ n b, dictFind bs n = some b → ∀ e ∈ b, InIrrep n e.1 e.2.t)
    (hc : ∀ c ∈ cs, ∀ m, (c.2.t.val [m]).im = 0) :
    ∀ e ∈ es, ∀ p, dictFind pgs e.1 = some (some p) → Proper e.1 p → InIrrep e.1 p e.2.t := by
  intro e he p hp hpn
  obtain ⟨hl, hall⟩ := List.forall₂_iff_get.1 (C89_combination h)
  obtain ⟨k, rfl⟩ := List.get_of_mem he
  have hk : k.1 < cs.length := by rw [hl]; exact k.2
  obtain ⟨h1, b, hb1, h2, x, y, z, h3, h4, h5⟩ := hall k.1 hk k.2
  have hcr : ∀ m, star ((cs.get ⟨k.1, hk⟩).2.t.val [m]) = (cs.get ⟨k.1, hk⟩).2.t.val [m] := fun m =>
    Complex.conj_eq_iff_im.2 (hc _ (List.get_mem _ _) m)
  generalize hee : es.get k = e at *
  generalize hcc : cs.get ⟨k.1, hk⟩ = c at *
  obtain ⟨n, Y⟩ := e
  obtain ⟨n', C⟩ := c
  simp only [] at h1 hp hpn hb1 h2 h3 h5 hcr ⊢
  subst h1
  obtain ⟨L, hL, h4, h5⟩ : ∃ L, L = selected n (some p) b ∧ (∀ X ∈ L, X.t.shape = [x, y, z]) ∧
      ∀ i j k, i < x → j < y → k < z → Y.t.val [i, j, k] = ∑ m : Fin L.length, C.t.val [m] * (L[m]).t.val [i, j, k] :=
    ⟨selected n (dictFind pgs n).join b, by rw [hp]; rfl, h4, h5⟩
  subst hL
  have hsel : ∀ X ∈ selected n (some p) b, InIrrep n p X.t := fun X hX => selected_irrep (hb n b hb1) hpn hX
  have hne : ∃ X, X ∈ selected n (some p) b := by
    obtain ⟨b', hb', hx⟩ := bind_ok.1 ((mapM_ok_forall₂ h).get (i := k.1) hk k.2)
    obtain ⟨ts, hts, _⟩ := bind_ok.1 hx
    obtain ⟨X, Xs, hl, _⟩ := stackT_inv (lift_ok.1 hts)
    rw [hcc] at hb' hl
    simp only [] at hb' hl
    have : b' = b := Option.some.inj ((look_ok hb').symm.trans hb1)
    subst this
    rw [hp] at hl
    simp only [Option.join_some] at hl
    exact ⟨X, by rw [hl]; simp⟩
  obtain ⟨X0, hX0⟩ := hne
  have tri : (∀ X ∈ selected n (some p) b, ∃ D, X.t.shape = [D, D, D] ∧ Cyclic D X.t ∧ (p = .A1 ∧ Mirror D D 1 X.t ∨ p = .A2 ∧ Mirror D D (-1) X.t)) →
      ∃ D, Y.t.shape = [D, D, D] ∧ Cyclic D Y.t ∧ (p = .A1 ∧ Mirror D D 1 Y.t ∨ p = .A2 ∧ Mirror D D (-1) Y.t) := by
    intro hall
    obtain ⟨D, hD, _, hpp⟩ := hall X0 hX0
    have e := (h4 X0 hX0).symm.trans hD
    simp only [List.cons.injEq, and_true] at e
    obtain ⟨rfl, rfl, rfl⟩ := e
    have hD' : ∀ (m : Fin (selected n (some p) b).length), Cyclic z ((selected n (some p) b)[m]).t ∧
        (p = .A1 ∧ Mirror z z 1 ((selected n (some p) b)[m]).t ∨ p = .A2 ∧ Mirror z z (-1) ((selected n (some p) b)[m]).t) := by
      intro m
      obtain ⟨D', hD', h6, h7⟩ := hall _ (List.getElem_mem m.2)
      have e := (h4 _ (List.getElem_mem m.2)).symm.trans hD'
      simp only [List.cons.injEq, and_true] at e
      obtain ⟨rfl, _⟩ := e
      exact ⟨h6, h7⟩
    refine ⟨z, h3, cyclic_sum (fun m => (hD' m).1) h5, ?_⟩
    rcases hpp with ⟨rfl, _⟩ | ⟨rfl, _⟩
    · exact Or.inl ⟨rfl, mirror_sum (fun m => hcr m) (fun m => ((hD' m).2.resolve_right (fun h => by cases h.1)).2) h5⟩
    · exact Or.inr ⟨rfl, mirror_sum (fun m => hcr m) (fun m => ((hD' m).2.resolve_left (fun h => by cases h.1)).2) h5⟩
  have bon : (∀ X ∈ selected n (some p) b, ∃ q D, X.t.shape = [q, D, D] ∧ (p = .A ∧ Mirror q D 1 X.t ∨ p = .B ∧ Mirror q D (-1) X.t)) →
      ∃ q D, Y.t.shape = [q, D, D] ∧ (p = .A ∧ Mirror q D 1 Y.t ∨ p = .B ∧ Mirror q D (-1) Y.t) := by
    intro hall
    obtain ⟨q, D, hD, hpp⟩ := hall X0 hX0
    have e := (h4 X0 hX0).symm.trans hD
    simp only [List.cons.injEq, and_true] at e
    obtain ⟨rfl, rfl, rfl⟩ := e
    have hD' : ∀ (m : Fin (selected n (some p) b).length),
        (p = .A ∧ Mirror x z 1 ((selected n (some p) b)[m]).t ∨ p = .B ∧ Mirror x z (-1) ((selected n (some p) b)[m]).t) := by
      intro m
      obtain ⟨q', D', hD', h7⟩ := hall _ (List.getElem_mem m.2)
      have e := (h4 _ (List.getElem_mem m.2)).symm.trans hD'
      simp only [List.cons.injEq, and_true] at e
      obtain ⟨rfl, rfl, _⟩ := e
      exact h7
    refine ⟨x, z, h3, ?_⟩
    rcases hpp with ⟨rfl, _⟩ | ⟨rfl, _⟩
    · exact Or.inl ⟨rfl, mirror_sum (fun m => hcr m) (fun m => ((hD' m).resolve_right (fun h => by cases h.1)).2) h5⟩
    · exact Or.inr ⟨rfl, mirror_sum (fun m => hcr m) (fun m => ((hD' m).resolve_left (fun h => by cases h.1)).2) h5⟩
  cases n
  · exact tri hsel
  · exact tri hsel
  · exact bon hsel
  · exact bon hsel
  · exact bon hsel

/-- C89, the meaning of the coefficients (partial: see `C89_order_violated`). If the tensors of the declared irrep are listed before
those of the other one, coefficient `i` multiplies the `i`-th tensor, the tensors of the other irrep taking a factor `i`. -/
theorem C89_order_partial (b1 b2 : List (Irrep × Ten)) (n : Name) (p q : Irrep)
    (hpq : match n with | .Tu | .Td => (p = .A1 ∧ q = .A2) ∨ (p = .A2 ∧ q = .A1) | _ => (p = .A ∧ q = .B) ∨ (p = .B ∧ q = .A))
    (h1 : ∀ e ∈ b1, e.1 = p) (h2 : ∀ e ∈ b2, e.1 = q) :
    selected n (some p) (b1 ++ b2) = b1.map (·.2) ++ (b2.map (·.2)).map timesI := by
  have key : p ≠ q → ofIrrep p (b1 ++ b2) ++ (ofIrrep q (b1 ++ b2)).map timesI = b1.map (·.2) ++ (b2.map (·.2)).map timesI := by
    intro hne
    have f1 : ∀ (l : List (Irrep × Ten)) (r : Irrep), (∀ e ∈ l, e.1 = r) → l.filter (fun e => e.1 = r) = l := by
      intro l r h
      rw [List.filter_eq_self]
      intro e he; simpa using h e he
    have f2 : ∀ (l : List (Irrep × Ten)) (r r' : Irrep), r ≠ r' → (∀ e ∈ l, e.1 = r) → l.filter (fun e => e.1 = r') = [] := by
      intro l r r' hr h
      rw [List.filter_eq_nil_iff]
      intro e he hh
      simp only [decide_eq_true_eq] at hh
      rw [h e he] at hh
      exact hr hh
    unfold ofIrrep
    rw [List.filter_append, List.filter_append, f1 b1 p h1, f2 b2 q p hne.symm h2, f2 b1 p q hne h1, f1 b2 q h2]
    simp
  cases n <;> rcases hpq with ⟨rfl, rfl⟩ | ⟨rfl, rfl⟩ <;> exact key (by decide)

/-- C89 (violated). If the tensors are listed in another order the coefficients go to other tensors: with basis tensors `[X, Y]` of
irreps `A_2`, `A_1` and declared irrep `A_1`, the coefficients `(1, 0)` give `Y`, not (a multiple of) `X`. -/
theorem C89_order_violated :
    ∃ (X Y c : Ten) (es : List (Name × Ten)), InIrrep .Tu .A2 X.t ∧ InIrrep .Tu .A1 Y.t ∧ c.t.val [0] = 1 ∧ c.t.val [1] = 0 ∧
      buildElem [(.Tu, some .A1)] [(.Tu, c)] [(.Tu, [(.A2, X), (.A1, Y)])] = .ok es ∧
      ∃ T, dictFind es .Tu = some T ∧ Y.t.Same T.t ∧ ∀ z, ¬ Multiple z X.t T.t := by
  let X : Ten := ⟨false, ⟨[3, 3, 3], fun i => if i = [0, 1, 2] ∨ i = [1, 2, 0] ∨ i = [2, 0, 1] then 1 else if i = [0, 2, 1] ∨ i = [2, 1, 0] ∨ i = [1, 0, 2] then -1 else 0⟩⟩
  let Y : Ten := ⟨false, ⟨[3, 3, 3], fun _ => 1⟩⟩
  let c : Ten := ⟨false, ⟨[2], fun i => if i = [0] then 1 else 0⟩⟩
  obtain ⟨ts, hts⟩ : ∃ ts, stackT [Y, timesI X] = some ts := stackT_pos (by intro W hW; simp at hW; rw [hW]; rfl)
  obtain ⟨_, _, hl, _, hs, hcx, hv⟩ := stackT_inv hts
  have hs' : ts.t.shape = [2, 3, 3, 3] := by rw [hs, ← (List.cons.inj hl).1]; rfl
  obtain ⟨R, e, hsh, _⟩ := einsum_ok (fun l => [2, 3, 3, 3].getD l 0) [(c.t, [0]), (ts.t, [0, 1, 2, 3])] [1, 2, 3] (by
    intro p hp
    simp only [List.mem_cons, List.not_mem_nil, or_false] at hp
    rcases hp with rfl | rfl
    · rfl
    · exact hs') (by decide) (by simp)
  have hct : combineT c ts = .ok ⟨ts.cplx, R⟩ := by
    unfold combineT
    rw [if_neg (by simp [c]), e]
    rfl
  have hbe : buildElem [(.Tu, some .A1)] [(.Tu, c)] [(.Tu, [(.A2, X), (.A1, Y)])] = .ok [(.Tu, ⟨ts.cplx, R⟩)] := by
    unfold buildElem
    rw [List.mapM_cons]
    have : elemOne [(.Tu, some .A1)] [(.Tu, [(.A2, X), (.A1, Y)])] (.Tu, c) = .ok (.Tu, ⟨ts.cplx, R⟩) := by
      unfold elemOne
      refine bind_ok.2 ⟨_, rfl, ?_⟩
      refine bind_ok.2 ⟨ts, lift_ok.2 hts, ?_⟩
      exact bind_ok.2 ⟨_, hct, rfl⟩
    rw [this]; rfl
  obtain ⟨N, a, b, d, hc1, hc2, hc3, _, hval⟩ := combineT_inv hct
  have e1 := hc2.symm.trans hs'
  simp only [List.cons.injEq, and_true] at e1
  obtain ⟨rfl, rfl, rfl, rfl⟩ := e1
  have hR : ∀ i j k, i < 3 → j < 3 → k < 3 → R.val [i, j, k] = 1 := by
    intro i j k hi hj hk
    have := hval i j k hi hj hk
    simp only [] at this
    rw [this, Finset.sum_range_succ, Finset.sum_range_one]
    rw [hv 0 [i, j, k] (by simp), hv 1 [i, j, k] (by simp)]
    simp [c, Y]
  refine ⟨X, Y, c, _, ?_, ?_, by simp [c], by simp [c], hbe, _, rfl, ?_, ?_⟩
  · refine ⟨3, rfl, ?_, Or.inr ⟨rfl, ?_⟩⟩
    · intro a b e ha hb he
      have h3 : ∀ n, n < 3 → n = 0 ∨ n = 1 ∨ n = 2 := by omega
      rcases h3 a ha with rfl | rfl | rfl <;> rcases h3 b hb with rfl | rfl | rfl <;> rcases h3 e he with rfl | rfl | rfl <;> simp [X]
    · intro a b e ha hb he
      have h3 : ∀ n, n < 3 → n = 0 ∨ n = 1 ∨ n = 2 := by omega
      rcases h3 a ha with rfl | rfl | rfl <;> rcases h3 b hb with rfl | rfl | rfl <;> rcases h3 e he with rfl | rfl | rfl <;> simp [X]
  · exact ⟨3, rfl, fun _ _ _ _ _ _ => rfl, Or.inl ⟨rfl, fun _ _ _ _ _ _ => by simp [Y]⟩⟩
  · exact same3 rfl hc3 (fun i j k hi hj hk => hR i j k hi hj hk)
  · intro z hz
    have := hz.2 [0, 0, 0] (inB_iff3.2 ⟨0, 0, 0, rfl, by simp, by simp, by simp⟩)
    simp only [] at this
    rw [hR 0 0 0 (by simp) (by simp) (by simp)] at this
    simp [X] at this

/-! ### Examples -/

/-- One coefficient. -/
def exC (x : ℂ) : Ten := ⟨false, ⟨[1], fun _ => x⟩⟩
def exBasis : List (Name × List (Irrep × Ten)) := [(.Tu, [(.A1, ⟨false, exT⟩)]), (.Bc, [(.A, ⟨false, exB⟩)])]
def exPgs : List (Name × Option Irrep) := [(.Tu, some .A1), (.Bc, some .A)]

theorem ex_elem : ∃ Y Z, buildElem exPgs [(.Tu, exC 1), (.Bc, exC 1)] exBasis = .ok [(.Tu, ⟨false, Y⟩), (.Bc, ⟨false, Z⟩)] ∧ exT.Same Y ∧ exB.Same Z := by
  obtain ⟨⟨_, Y⟩, hY, rfl⟩ := C89_defined exPgs exBasis .Tu (exC 1) [(.A1, ⟨false, exT⟩)] 2 2 2 rfl (by simp [selected, exPgs, dictFind, ofIrrep]) rfl
    (by intro X hX; simp [selected, exPgs, dictFind, ofIrrep] at hX; rw [hX]; rfl) (by simp [exC])
  obtain ⟨⟨_, Z⟩, hZ, rfl⟩ := C89_defined exPgs exBasis .Bc (exC 1) [(.A, ⟨false, exB⟩)] 2 2 2 rfl (by simp [selected, exPgs, dictFind, ofIrrep]) rfl
    (by intro X hX; simp [selected, exPgs, dictFind, ofIrrep] at hX; rw [hX]; rfl) (by simp [exC])
  have hb : buildElem exPgs [(.Tu, exC 1), (.Bc, exC 1)] exBasis = .ok [(.Tu, ⟨false, Y⟩), (.Bc, ⟨false, Z⟩)] := by
    unfold buildElem
    rw [List.mapM_cons, List.mapM_cons, hY, hZ]; rfl
  refine ⟨Y, Z, hb, ?_⟩
  have hc := C89_combination hb
  simp only [List.forall₂_cons, List.forall₂_nil_right_iff, and_true] at hc
  obtain ⟨⟨_, b, hb1, h1⟩, ⟨_, b', hb2, h2⟩⟩ := hc
  cases Option.some.inj hb1
  cases Option.some.inj hb2
  obtain ⟨_, x, y, z, g1, g2, g3⟩ := h1
  obtain ⟨_, x', y', z', g1', g2', g3'⟩ := h2
  have e1 := g2 ⟨false, exT⟩ (by simp [selected, exPgs, dictFind, ofIrrep])
  have e2 := g2' ⟨false, exB⟩ (by simp [selected, exPgs, dictFind, ofIrrep])
  simp only [exT, exB, List.cons.injEq, and_true] at e1 e2
  obtain ⟨rfl, rfl, rfl⟩ := e1
  obtain ⟨rfl, rfl, rfl⟩ := e2
  constructor
  · refine same3 rfl g1 fun i j k hi hj hk => (g3 i j k hi hj hk).trans ?_
    have : ∀ (L : List Ten) (h : L = [⟨false, exT⟩]), ∑ m : Fin L.length, (exC 1).t.val [m] * (L[m]).t.val [i, j, k] = exT.val [i, j, k] := by
      rintro _ rfl; simp [exC]
    exact this _ rfl
  · refine same3 rfl g1' fun i j k hi hj hk => (g3' i j k hi hj hk).trans ?_
    have : ∀ (L : List Ten) (h : L = [⟨false, exB⟩]), ∑ m : Fin L.length, (exC 1).t.val [m] * (L[m]).t.val [i, j, k] = exB.val [i, j, k] := by
      rintro _ rfl; simp [exC]
    exact this _ rfl

theorem ex_update (s : LState) (h1 : s.symUD = true) (h2 : s.symB = true) (h3 : s.pgs = exPgs) (h4 : s.coeffs = [(.Tu, exC 1), (.Bc, exC 1)])
    (h5 : s.basis = exBasis) : ∃ s', updateL s = .ok s' := by
  obtain ⟨Y, Z, hb, hY, hZ⟩ := ex_elem
  obtain ⟨A0, hA0⟩ := ex_built
  obtain ⟨A', hA', _⟩ := buildSite_congr hA0 exFive_five (d' := [(.Tu, ⟨false, Y⟩), (.Td, ⟨false, Y⟩), (.Ba, ⟨false, Z⟩), (.Bb, ⟨false, Z⟩), (.Bc, ⟨false, Z⟩)])
    (c' := false) (Tu' := Y) (Bc' := Z) (Td' := Y) (Bb' := Z) (Ba' := Z) ⟨rfl, rfl, rfl, rfl, rfl⟩ hY hZ hY hZ hZ
  unfold updateL
  rw [h3, h4, h5, h1, h2]
  refine ⟨_, bind_ok.2 ⟨_, hb, bind_ok.2 ⟨⟨false, Y⟩, rfl, bind_ok.2 ⟨⟨false, Z⟩, rfl, bind_ok.2 ⟨_, rfl, bind_ok.2 ⟨_, rfl,
      bind_ok.2 ⟨[((0, 0), A')], (buildAll_single _ _ _).2 ⟨A', hA', rfl⟩, rfl⟩⟩⟩⟩⟩⟩⟩

theorem ex_mkL : ∃ s, mkL [(.Tu, exC 1), (.Bc, exC 1)] exBasis true true exPgs = .ok s ∧ s.symUD = true ∧ s.symB = true ∧ s.pgs = exPgs ∧
    s.coeffs = [(.Tu, exC 1), (.Bc, exC 1)] ∧ s.basis = exBasis := by
  obtain ⟨Y, Z, hb, hY, hZ⟩ := ex_elem
  obtain ⟨A0, hA0⟩ := ex_built
  obtain ⟨A, hA, _⟩ := buildSite_congr hA0 exFive_five (d' := [(.Tu, ⟨false, Y⟩), (.Td, ⟨false, Y⟩), (.Bc, ⟨false, Z⟩), (.Ba, ⟨false, Z⟩), (.Bb, ⟨false, Z⟩)])
    (c' := false) (Tu' := Y) (Bc' := Z) (Td' := Y) (Bb' := Z) (Ba' := Z) ⟨rfl, rfl, rfl, rfl, rfl⟩ hY hZ hY hZ hZ
  obtain ⟨p, hp, _⟩ := mkP_ok (es := [(.Tu, ⟨false, Y⟩), (.Bc, ⟨false, Z⟩)]) (ud := true) (b := true) (pgs := exPgs) (Tu := ⟨false, Y⟩) (Bc := ⟨false, Z⟩)
    (Td := ⟨false, Y⟩) (Bb := ⟨false, Z⟩) (Ba := ⟨false, Z⟩) ⟨rfl, rfl, by simp, by simp, by simp⟩ hA
  refine ⟨⟨true, true, exPgs, [(.Tu, exC 1), (.Bc, exC 1)], exBasis, p.elem, p.g⟩, ?_, rfl, rfl, rfl, rfl, rfl⟩
  unfold mkL
  exact bind_ok.2 ⟨[(.Tu, exC 1), (.Bc, exC 1)], rfl, bind_ok.2 ⟨exBasis, rfl, bind_ok.2 ⟨_, hb, bind_ok.2 ⟨p, hp, rfl⟩⟩⟩⟩

/-- A state built from one basis tensor each, and the state after `add_noise` (with the random numbers equal to 0) and
`load_checkpoint`, are reachable. -/
example : ∃ s s' s'', mkL [(.Tu, exC 1), (.Bc, exC 1)] exBasis true true exPgs = .ok s ∧ addNoiseL (fun _ _ => 0) s = .ok s' ∧
    loadL [(.Tu, exC 1), (.Bc, exC 1)] exBasis s' = .ok s'' ∧ LReach s'' := by
  obtain ⟨s, hs, h1, h2, h3, h4, h5⟩ := ex_mkL
  obtain ⟨s', hs'⟩ : ∃ s', addNoiseL (fun _ _ => 0) s = .ok s' := by
    unfold addNoiseL
    exact ex_update _ h1 h2 h3 (by rw [h4]; simp [exC]) h5
  have hs0 := hs'
  unfold addNoiseL at hs0
  obtain ⟨_, _, _, g1, g2, g3, _⟩ := updateL_good hs0
  obtain ⟨s'', hs''⟩ : ∃ s'', loadL [(.Tu, exC 1), (.Bc, exC 1)] exBasis s' = .ok s'' := by
    unfold loadL
    exact ex_update _ (g1.trans h1) (g2.trans h2) (g3.trans h3) rfl rfl
  exact ⟨s, s', s'', hs, hs', hs'', .load (.noise (.mk hs) hs') hs''⟩

end Verif.Kagome
