import Verif.Rdm.Networks
import Verif.Rdm.SymProps
import Verif.Ctm.SweepProps
/-
Properties C31 (single-site expectation values), C32 (two-site density matrices in both modes) and C66 (equivalent vertices).
-/
namespace Verif.Rdm
open Tensor Ctm Ctm.Spec
set_option linter.unusedSimpArgs false
set_option linter.unusedSectionVars false
variable {K : Type} [RCLike K]

namespace Spec
/-- The environment tensors around vertex `c` and its site tensor. -/
structure AroundSite (st : State K) (env : Env K) (c : Coord) (e : SiteEnv K) (a : Tensor K) : Prop where
  C1 : env.C (st.vts c, (-1, -1)) = some e.C1
  C2 : env.C (st.vts c, (1, -1)) = some e.C2
  C3 : env.C (st.vts c, (1, 1)) = some e.C3
  C4 : env.C (st.vts c, (-1, 1)) = some e.C4
  T1 : env.T (st.vts c, (0, -1)) = some e.T1
  T2 : env.T (st.vts c, (1, 0)) = some e.T2
  T3 : env.T (st.vts c, (0, 1)) = some e.T3
  T4 : env.T (st.vts c, (-1, 0)) = some e.T4
  ket : st.sites (st.vts c) = some a

/-- The environment tensors around vertex `c` and its right neighbour, and their site tensors. -/
structure AroundRow (st : State K) (env : Env K) (c : Coord) (e : PairEnv K) (a b : Tensor K) : Prop where
  C1 : env.C (st.vts c, (-1, -1)) = some e.C1
  C2 : env.C (st.vts (rt c), (1, -1)) = some e.C2
  C3 : env.C (st.vts (rt c), (1, 1)) = some e.C3
  C4 : env.C (st.vts c, (-1, 1)) = some e.C4
  T1 : env.T (st.vts c, (0, -1)) = some e.T1
  T1b : env.T (st.vts (rt c), (0, -1)) = some e.T1b
  T3 : env.T (st.vts c, (0, 1)) = some e.T3
  T3b : env.T (st.vts (rt c), (0, 1)) = some e.T3b
  S : env.T (st.vts c, (-1, 0)) = some e.S
  Sb : env.T (st.vts (rt c), (1, 0)) = some e.Sb
  ket : st.sites (st.vts c) = some a
  ket' : st.sites (st.vts (rt c)) = some b

/-- The environment tensors around vertex `c` and its lower neighbour, and their site tensors. -/
structure AroundColumn (st : State K) (env : Env K) (c : Coord) (e : PairEnv K) (a b : Tensor K) : Prop where
  C1 : env.C (st.vts c, (-1, -1)) = some e.C1
  C2 : env.C (st.vts c, (1, -1)) = some e.C2
  C3 : env.C (st.vts (dn c), (1, 1)) = some e.C3
  C4 : env.C (st.vts (dn c), (-1, 1)) = some e.C4
  T1 : env.T (st.vts c, (-1, 0)) = some e.T1
  T1b : env.T (st.vts (dn c), (-1, 0)) = some e.T1b
  T3 : env.T (st.vts c, (1, 0)) = some e.T3
  T3b : env.T (st.vts (dn c), (1, 0)) = some e.T3b
  S : env.T (st.vts c, (0, -1)) = some e.S
  Sb : env.T (st.vts (dn c), (0, 1)) = some e.Sb
  ket : st.sites (st.vts c) = some a
  ket' : st.sites (st.vts (dn c)) = some b

/-- Sizes of the labels of the network of one site. -/
def dims1 (D : Dims) (c : Coord) (l : Nat) : Nat :=
  [D.el c, D.eu c, D.U c, D.L c, D.p c, D.U c, D.L c, D.p c, D.er c, D.eu (rt c), D.L (rt c), D.L (rt c), D.ed c, D.ed (rt c), D.el (dn c),
    D.U (dn c), D.U (dn c), D.er (dn c)].getD l 0

/-- The internal labels of the network of one site: all but the physical indices. -/
def inner1 : List Nat := [0, 1, 2, 3, 5, 6, 8, 9, 10, 11, 12, 13, 14, 15, 16, 17]

/-- Sizes of the labels of two sites in a row; `d` is the right one. -/
def dimsH (D : Dims) (c : Coord) (l : Nat) : Nat :=
  let d := rt c
  [D.el c, D.eu c, D.U c, D.L c, D.p c, D.U c, D.L c, D.p c, D.ed c, D.el (dn c), D.U (dn c), D.U (dn c), D.eu (rt d), D.er d, D.U d,
    D.L (rt d), D.p d, D.U d, D.L (rt d), D.p d, D.ed (rt d), D.er (dn d), D.U (dn d), D.U (dn d), D.eu d, D.ed d, D.L d, D.L d].getD l 0

/-- Sizes of the labels of two sites in a column; `d` is the lower one. -/
def dimsV (D : Dims) (c : Coord) (l : Nat) : Nat :=
  let d := dn c
  [D.el c, D.eu c, D.U c, D.L c, D.p c, D.U c, D.L c, D.p c, D.er c, D.eu (rt c), D.L (rt c), D.L (rt c), D.ed d, D.el (dn d), D.L d,
    D.U (dn d), D.p d, D.L d, D.U (dn d), D.p d, D.er (dn d), D.ed (rt d), D.L (rt d), D.L (rt d), D.el d, D.U d, D.U d, D.er d].getD l 0

/-- The internal labels of a two-site network. -/
def inner2 : List Nat := [0, 1, 2, 3, 5, 6, 8, 9, 10, 11, 12, 13, 14, 15, 17, 18, 20, 21, 22, 23, 24, 25, 26, 27]
end Spec
open Spec

/-! ### Helpers -/

theorem siteEnv_ok {D : Dims} {st : State K} {env : Env K} (hs : FitsState D st) (he : FitsEnv D st env) (c : Coord) :
    ∃ e a, siteEnv env (st.vts c) = some e ∧ st.site c = some a ∧ Spec.AroundSite st env c e a ∧ Spec.Fits1 (dims1 D c) e a := by
  obtain ⟨C1, h1, s1⟩ := he.lu c
  obtain ⟨C2, h2, s2⟩ := he.ru c
  obtain ⟨C3, h3, s3⟩ := he.rd c
  obtain ⟨C4, h4, s4⟩ := he.ld c
  obtain ⟨T1, h5, s5⟩ := he.tu c
  obtain ⟨T2, h6, s6⟩ := he.tr c
  obtain ⟨T3, h7, s7⟩ := he.td c
  obtain ⟨T4, h8, s8⟩ := he.tl c
  obtain ⟨a, h9, s9⟩ := hs.site c
  refine ⟨⟨C1, C2, C3, C4, T1, T2, T3, T4⟩, a, by simp [siteEnv, h1, h2, h3, h4, h5, h6, h7, h8], h9, ⟨h1, h2, h3, h4, h5, h6, h7, h8, h9⟩, ?_⟩
  constructor <;> first | rfl | simpa [dims1] using by assumption

theorem pairH_ok {D : Dims} {st : State K} {env : Env K} (hs : FitsState D st) (he : FitsEnv D st env) (c : Coord) :
    ∃ e a b, pairH st env c = some (e, a, b) ∧ Spec.AroundRow st env c e a b ∧ Spec.FitsH (dimsH D c) e a b := by
  obtain ⟨C1, h1, s1⟩ := he.lu c
  obtain ⟨C2, h2, s2⟩ := he.ru (rt c)
  obtain ⟨C3, h3, s3⟩ := he.rd (rt c)
  obtain ⟨C4, h4, s4⟩ := he.ld c
  obtain ⟨T1, h5, s5⟩ := he.tu c
  obtain ⟨T1b, h6, s6⟩ := he.tu (rt c)
  obtain ⟨T3, h7, s7⟩ := he.td c
  obtain ⟨T3b, h8, s8⟩ := he.td (rt c)
  obtain ⟨S, h9, s9⟩ := he.tl c
  obtain ⟨Sb, h10, s10⟩ := he.tr (rt c)
  obtain ⟨a, h11, s11⟩ := hs.site c
  obtain ⟨b, h12, s12⟩ := hs.site (rt c)
  have er : (c.1 + 1, c.2) = rt c := rfl
  refine ⟨⟨C1, C2, C3, C4, T1, T1b, T3, T3b, S, Sb⟩, a, b, by simp [pairH, er, h1, h2, h3, h4, h5, h6, h7, h8, h9, h10, h11, h12], ⟨h1, h2, h3, h4, h5, h6, h7, h8, h9, h10, h11, h12⟩, ?_⟩
  have e2 : dn (rt c) = rt (dn c) := rfl
  constructor <;> first | rfl | (simp only [*, dimsH]; rfl)

theorem pairV_ok {D : Dims} {st : State K} {env : Env K} (hs : FitsState D st) (he : FitsEnv D st env) (c : Coord) :
    ∃ e a b, pairV st env c = some (e, a, b) ∧ Spec.AroundColumn st env c e a b ∧ Spec.FitsV (dimsV D c) e a b := by
  obtain ⟨C1, h1, s1⟩ := he.lu c
  obtain ⟨C2, h2, s2⟩ := he.ru c
  obtain ⟨C3, h3, s3⟩ := he.rd (dn c)
  obtain ⟨C4, h4, s4⟩ := he.ld (dn c)
  obtain ⟨T1, h5, s5⟩ := he.tl c
  obtain ⟨T1b, h6, s6⟩ := he.tl (dn c)
  obtain ⟨T3, h7, s7⟩ := he.tr c
  obtain ⟨T3b, h8, s8⟩ := he.tr (dn c)
  obtain ⟨S, h9, s9⟩ := he.tu c
  obtain ⟨Sb, h10, s10⟩ := he.td (dn c)
  obtain ⟨a, h11, s11⟩ := hs.site c
  obtain ⟨b, h12, s12⟩ := hs.site (dn c)
  have er : (c.1, c.2 + 1) = dn c := rfl
  refine ⟨⟨C1, C2, C3, C4, T1, T1b, T3, T3b, S, Sb⟩, a, b, by simp [pairV, er, h1, h2, h3, h4, h5, h6, h7, h8, h9, h10, h11, h12], ⟨h1, h2, h3, h4, h5, h6, h7, h8, h9, h10, h11, h12⟩, ?_⟩
  constructor <;> first | rfl | (simp only [*, dimsV]; rfl)

theorem canon_congr {n : Nat} {f g : List Nat → K} (h : ∀ i j, i < n → j < n → f [i, j] = g [i, j]) :
    canon (⟨[n, n], f⟩ : Tensor K) = canon ⟨[n, n], g⟩ := by
  unfold canon
  congr 1
  funext idx
  split
  · rename_i hi
    cases hi with
    | cons h1 h2 => cases h2 with
      | cons h3 h4 => cases h4; exact h _ _ h1 h3
  · rfl

theorem symMatrix_same (eigh : Tensor K → List ℝ × Tensor K) (spd : Bool) {A B : Tensor K} (h : Same A B) :
    symMatrix eigh spd A = symMatrix eigh spd B := by
  unfold symMatrix
  rw [← h.1]
  rcases hs : A.shape with _ | ⟨n, _ | ⟨m, _ | ⟨x, l⟩⟩⟩
  · rfl
  · rfl
  · simp only
    by_cases hn : n = m
    · subst hn
      have hAB : ∀ i j, i < n → j < n → A.val [i, j] = B.val [i, j] := fun i j hi hj =>
        h.2 _ (by rw [hs]; exact List.Forall₂.cons hi (List.Forall₂.cons hj List.Forall₂.nil))
      have e : canon (⟨[n, n], fun idx => (1 / 2) * (A.val [idx.getD 0 0, idx.getD 1 0] + star (A.val [idx.getD 1 0, idx.getD 0 0]))⟩ : Tensor K) =
          canon ⟨[n, n], fun idx => (1 / 2) * (B.val [idx.getD 0 0, idx.getD 1 0] + star (B.val [idx.getD 1 0, idx.getD 0 0]))⟩ := by
        apply canon_congr
        intro i j hi hj
        simp [hAB i j hi hj, hAB j i hj hi]
      simp only [if_true, e]
    · rw [if_neg hn, if_neg hn]
  · rfl

theorem view_same {sh : List Nat} {A B X : Tensor K} (h : Same A B) (hX : view sh A = some X) : ∃ Y, view sh B = some Y ∧ Same X Y := by
  unfold view at hX ⊢
  by_cases hp : sh.prod = A.shape.prod
  · rw [if_pos hp] at hX
    rw [if_pos (by rw [← h.1]; exact hp)]
    injection hX with hX
    subst hX
    refine ⟨_, rfl, rfl, fun idx hi => ?_⟩
    simp only
    rw [← h.1]
    apply h.2
    have := ravel_lt hi
    rw [hp] at this
    exact (inB_unravel A.shape _ this).1
  · rw [if_neg hp] at hX; cases hX

theorem symRdm_same (eigh : Tensor K → List ℝ × Tensor K) (spd : Bool) {A B : Tensor K} (h : Same A B) : symRdm eigh spd A = symRdm eigh spd B := by
  unfold symRdm
  rw [← h.1]
  split
  · simp only
    split
    · rfl
    · rcases hv : view [(A.shape.take (A.shape.length / 2)).prod, A.shape.prod / (A.shape.take (A.shape.length / 2)).prod] A with _ | X
      · rcases hw : view [(A.shape.take (A.shape.length / 2)).prod, A.shape.prod / (A.shape.take (A.shape.length / 2)).prod] B with _ | Y
        · rfl
        · obtain ⟨_, h1, _⟩ := view_same h.symm hw
          rw [hv] at h1; cases h1
      · obtain ⟨Y, h1, h2⟩ := view_same h hv
        rw [h1]
        show (symMatrix eigh spd X >>= _) = (symMatrix eigh spd Y >>= _)
        rw [symMatrix_same eigh spd h2]
  · rfl

/-! ### C31 -/

/-- In both modes the un-normalised density matrix `rho` of the site is the network, `rdm1x1` without operator is `rho` symmetrised and
normalised, and with an operator it is the sum of `rho[s,s'] * O[s',s]`. In the double-layer mode the vertex must be one of the unit cell. -/
theorem C31_expectation (eigh : Tensor K → List ℝ × Tensor K) (sl spd : Bool) {D : Dims} {st : State K} {env : Env K} (ht : Tiling st) (hs : FitsState D st)
    (he : FitsEnv D st env) (c : Coord) (hc : sl = true ∨ c ∈ st.keys) (o : Tensor K) (ho : o.shape = [D.p c, D.p c]) :
    ∃ e a rho r, Spec.AroundSite st env c e a ∧
      Corner.Spec.IsNetwork (dims1 D c) rho [[4], [7]] inner1 (Spec.rho1 (dims1 D c) e a) ∧
      rdm1x1 eigh sl spd st env c none = symRdm eigh spd rho ∧
      rdm1x1 eigh sl spd st env c (some o) = .ok r ∧ r.shape = [] ∧
      r.val [] = ∑ s ∈ Finset.range (D.p c), ∑ s' ∈ Finset.range (D.p c), rho.val [s, s'] * o.val [s', s] := by
  obtain ⟨e, a, h1, h2, h0, h3⟩ := siteEnv_ok hs he c
  have ho' : o.shape = [dims1 D c 4, dims1 D c 4] := by rw [ho]; rfl
  have hsum : ∀ {rho r : Tensor K} {S S' : List Nat}, Denotes (dims1 D c) rho [[4], [7]] inner1 S (Spec.rho1 (dims1 D c) e a) →
      Denotes (dims1 D c) r [] (4 :: 7 :: inner1) S' (fun σ => Spec.rho1 (dims1 D c) e a σ * o.val [σ 7, σ 4]) →
      r.shape = [] ∧ r.val [] = ∑ s ∈ Finset.range (D.p c), ∑ s' ∈ Finset.range (D.p c), rho.val [s, s'] * o.val [s', s] := by
    intro rho r S S' q q'
    refine ⟨by rw [q'.shape]; rfl, ?_⟩
    have := q'.val (fun _ => 0) (by simp)
    simp only [List.map_nil] at this
    rw [this]
    simp only [sumOver]
    refine Finset.sum_congr rfl (fun i hi => Finset.sum_congr rfl (fun j hj => ?_))
    obtain ⟨σ, hσ⟩ : ∃ σ : Nat → Nat, σ = Function.update (Function.update (fun _ => 0) 4 i) 7 j := ⟨_, rfl⟩
    rw [← hσ]
    have h4 : σ 4 = i := by rw [hσ]; simp
    have h7 : σ 7 = j := by rw [hσ]; simp
    have hv := q.val σ (by
      intro l hl
      simp only [List.flatten_cons, List.flatten_nil, List.append_nil, List.mem_append, List.mem_singleton] at hl
      rcases hl with rfl | rfl
      · rw [h4]; exact Finset.mem_range.1 hi
      · rw [h7]; exact Finset.mem_range.1 hj)
    simp only [List.map_cons, List.map_nil, gidx_single, h4, h7] at hv
    rw [hv, sumOver_mul]
    apply sumOver_congr
    intro τ _ hτ
    have g4 := hτ 4 (by decide)
    have g7 := hτ 7 (by decide)
    rw [g4, g7, h4, h7]
  cases sl with
  | true =>
    obtain ⟨rho, e1, q1⟩ := sl1x1_open (dims1 D c) e a h3
    obtain ⟨r, e2, q2⟩ := sl1x1_op (dims1 D c) e a o h3 ho'
    obtain ⟨b1, b2⟩ := hsum q1 q2
    exact ⟨e, a, rho, r, h0, Corner.isNetwork q1, by simp [rdm1x1, raw1x1, h1, h2, e1, lift]; rfl, by simp [rdm1x1, raw1x1, h1, h2, e2, lift], b1, b2⟩
  | false =>
    have hk : st.vts c = c := ht.fix c (by simpa using hc)
    obtain ⟨A, rho, eA, e1, q1⟩ := dl1x1_open (dims1 D c) e a h3
    obtain ⟨B, r, eB, e2, q2⟩ := dl1x1_op (dims1 D c) e a o h3 ho'
    obtain ⟨b1, b2⟩ := hsum q1 q2
    refine ⟨e, a, rho, r, h0, Corner.isNetwork q1, ?_, ?_, b1, b2⟩
    · rw [hk] at h1
      simp [rdm1x1, raw1x1, h1, h2, e1, eA, lift]
      rfl
    · rw [hk] at h1
      simp [rdm1x1, raw1x1, h1, h2, e2, eB, lift]

/-- The two modes give the same single-site density matrix and the same expectation values. -/
theorem C31_modes (eigh : Tensor K → List ℝ × Tensor K) (spd : Bool) {D : Dims} {st : State K} {env : Env K} (ht : Tiling st) (hs : FitsState D st)
    (he : FitsEnv D st env) (c : Coord) (hc : c ∈ st.keys) :
    rdm1x1 eigh true spd st env c none = rdm1x1 eigh false spd st env c none ∧
    ∀ o, o.shape = [D.p c, D.p c] → ∃ r r', rdm1x1 eigh true spd st env c (some o) = .ok r ∧ rdm1x1 eigh false spd st env c (some o) = .ok r' ∧ Same r r' := by
  obtain ⟨e, a, h1, h2, h0, h3⟩ := siteEnv_ok hs he c
  obtain ⟨rho, e1, q1⟩ := sl1x1_open (dims1 D c) e a h3
  obtain ⟨A, rho', eA, e1', q1'⟩ := dl1x1_open (dims1 D c) e a h3
  have hk : st.vts c = c := ht.fix c hc
  have h1' := h1
  rw [hk] at h1'
  refine ⟨?_, fun o ho => ?_⟩
  · have hsame : Same rho rho' := q1.same q1' (by decide) (List.Perm.refl _) (fun _ => rfl)
    have l : rdm1x1 eigh true spd st env c none = symRdm eigh spd rho := by simp [rdm1x1, raw1x1, h1, h2, e1, lift]; rfl
    have r : rdm1x1 eigh false spd st env c none = symRdm eigh spd rho' := by simp [rdm1x1, raw1x1, h1', h2, e1', eA, lift]; rfl
    rw [l, r, symRdm_same eigh spd hsame]
  · have ho' : o.shape = [dims1 D c 4, dims1 D c 4] := by rw [ho]; rfl
    obtain ⟨r, e2, q2⟩ := sl1x1_op (dims1 D c) e a o h3 ho'
    obtain ⟨B, r', eB, e2', q2'⟩ := dl1x1_op (dims1 D c) e a o h3 ho'
    exact ⟨r, r', by simp [rdm1x1, raw1x1, h1, h2, e2, lift], by simp [rdm1x1, raw1x1, h1', h2, e2', eB, lift],
      q2.same q2' (by decide) (List.Perm.refl _) (fun _ => rfl)⟩

/-! ### C32 -/

/-- Two sites in a row: in both modes the result is the symmetrised network with axes `s0 s1; s0' s1'`, and the modes agree. -/
theorem C32_row (eigh : Tensor K → List ℝ × Tensor K) (spd : Bool) {D : Dims} {st : State K} {env : Env K} (hs : FitsState D st)
    (he : FitsEnv D st env) (c : Coord) :
    rdm2x1 eigh true spd st env c = rdm2x1 eigh false spd st env c ∧
    ∃ e a b rho, Spec.AroundRow st env c e a b ∧ Corner.Spec.IsNetwork (dimsH D c) rho [[4], [16], [7], [19]] inner2 (Spec.rhoH (dimsH D c) e a b) ∧
      rdm2x1 eigh true spd st env c = symRdm eigh spd rho := by
  obtain ⟨e, a, b, h1, h0, h2⟩ := pairH_ok hs he c
  obtain ⟨R, e1, q1⟩ := sl2x1_denotes (dimsH D c) e a b h2
  obtain ⟨R', e2, q2⟩ := dl2x1_denotes (dimsH D c) e a b h2
  have l : rdm2x1 eigh true spd st env c = symRdm eigh spd R := by
    unfold rdm2x1; rw [h1]
    show (lift (sl2x1 e a b) >>= _) = _
    rw [e1]; rfl
  have r : rdm2x1 eigh false spd st env c = symRdm eigh spd R' := by
    unfold rdm2x1; rw [h1]
    show (lift (dl2x1 e a b) >>= _) = _
    rw [e2]; rfl
  refine ⟨?_, e, a, b, R, h0, Corner.isNetwork q1, l⟩
  rw [l, r, symRdm_same eigh spd (q1.same q2 (by decide) (List.Perm.refl _) (fun _ => rfl))]

/-- Two sites in a column. -/
theorem C32_column (eigh : Tensor K → List ℝ × Tensor K) (spd : Bool) {D : Dims} {st : State K} {env : Env K} (hs : FitsState D st)
    (he : FitsEnv D st env) (c : Coord) :
    rdm1x2 eigh true spd st env c = rdm1x2 eigh false spd st env c ∧
    ∃ e a b rho, Spec.AroundColumn st env c e a b ∧ Corner.Spec.IsNetwork (dimsV D c) rho [[4], [16], [7], [19]] inner2 (Spec.rhoV (dimsV D c) e a b) ∧
      rdm1x2 eigh true spd st env c = symRdm eigh spd rho := by
  obtain ⟨e, a, b, h1, h0, h2⟩ := pairV_ok hs he c
  obtain ⟨R, e1, q1⟩ := sl1x2_denotes (dimsV D c) e a b h2
  obtain ⟨R', e2, q2⟩ := dl1x2_denotes (dimsV D c) e a b h2
  have l : rdm1x2 eigh true spd st env c = symRdm eigh spd R := by
    unfold rdm1x2; rw [h1]
    show (lift (sl1x2 e a b) >>= _) = _
    rw [e1]; rfl
  have r : rdm1x2 eigh false spd st env c = symRdm eigh spd R' := by
    unfold rdm1x2; rw [h1]
    show (lift (dl1x2 e a b) >>= _) = _
    rw [e2]; rfl
  refine ⟨?_, e, a, b, R, h0, Corner.isNetwork q1, l⟩
  rw [l, r, symRdm_same eigh spd (q1.same q2 (by decide) (List.Perm.refl _) (fun _ => rfl))]

/-! ### C66 -/

/-- Density matrices and expectation values at equivalent vertices are identical: single-layer single-site and both modes of two sites. The
double-layer single-site case is missing, see `C66_violated`. -/
theorem C66_equivalent_partial (eigh : Tensor K → List ℝ × Tensor K) (sl spd : Bool) {st : State K} (ht : Tiling st) (env : Env K) (c c' : Coord)
    (hc : st.vts c = st.vts c') :
    (∀ o, rdm1x1 eigh true spd st env c o = rdm1x1 eigh true spd st env c' o) ∧
    rdm2x1 eigh sl spd st env c = rdm2x1 eigh sl spd st env c' ∧ rdm1x2 eigh sl spd st env c = rdm1x2 eigh sl spd st env c' := by
  have hr : st.vts (c.1 + 1, c.2) = st.vts (c'.1 + 1, c'.2) := by
    have h1 := ht.shift c (1, 0)
    have h2 := ht.shift c' (1, 0)
    rw [hc] at h1
    simpa using h1.symm.trans h2
  have hd : st.vts (c.1, c.2 + 1) = st.vts (c'.1, c'.2 + 1) := by
    have h1 := ht.shift c (0, 1)
    have h2 := ht.shift c' (0, 1)
    rw [hc] at h1
    simpa using h1.symm.trans h2
  have p1 : pairH st env c = pairH st env c' := by simp only [pairH, State.site, hc, hr]
  have p2 : pairV st env c = pairV st env c' := by simp only [pairV, State.site, hc, hd]
  refine ⟨fun o => by simp only [rdm1x1, raw1x1, State.site, hc, if_true], by simp only [rdm2x1, p1], by simp only [rdm1x2, p2]⟩

/-- The double-layer single-site density matrix raises for a vertex outside the unit cell, although the single-layer one gives the result of
the equivalent vertex. -/
theorem C66_violated (eigh : Tensor K → List ℝ × Tensor K) (spd : Bool) {D : Dims} {st : State K} {env : Env K} (hs : FitsState D st)
    (he : FitsEnv D st env) (c : Coord) (hk : env.C (c, (-1, -1)) = none) (o : Tensor K) (ho : o.shape = [D.p c, D.p c]) :
    rdm1x1 eigh false spd st env c (some o) = .error .raise ∧ ∃ r, rdm1x1 eigh true spd st env c (some o) = .ok r := by
  obtain ⟨e, a, h1, h2, h0, h3⟩ := siteEnv_ok hs he c
  obtain ⟨r, e2, q2⟩ := sl1x1_op (dims1 D c) e a o h3 (by rw [ho]; rfl)
  exact ⟨by simp [rdm1x1, raw1x1, siteEnv, hk, lift], r, by simp [rdm1x1, raw1x1, h1, h2, e2, lift]⟩

/-! ### Hypotheses are met -/

/-- The example environment with entries at the two sites of the cell only. -/
def cellEnv (D : Dims) : Env ℝ :=
  { chi := 4, C := fun k => if k.1 ∈ (exState D).keys then (exEnv D).C k else none, T := fun k => if k.1 ∈ (exState D).keys then (exEnv D).T k else none }

theorem cellFits {l l' : Nat} : FitsEnv (exDims l l') (exState (exDims l l')) (cellEnv (exDims l l')) := by
  have h := exFitsEnv (l := l) (l' := l')
  have hm : ∀ c, (exState (exDims l l')).vts c ∈ (exState (exDims l l')).keys := (exTiling _).mem
  refine ⟨?_, ?_, ?_, ?_, ?_, ?_, ?_, ?_, h.eu, h.el, h.ed, h.er⟩ <;> intro c <;> simp only [cellEnv, hm c, if_true]
  exacts [h.lu c, h.ru c, h.rd c, h.ld c, h.tu c, h.tl c, h.td c, h.tr c]

/-- Spin-half raising operator. -/
def exRaise : Tensor ℝ := ⟨[2, 2], fun idx => if idx = [0, 1] then 1 else 0⟩

example (eigh : Tensor ℝ → List ℝ × Tensor ℝ) := C31_expectation eigh false true (exTiling (exDims 2 3)) (exFitsState (by decide) (by decide)) cellFits (1, 0)
  (Or.inr (by decide)) exRaise rfl
example (eigh : Tensor ℝ → List ℝ × Tensor ℝ) := C31_expectation eigh true false (exTiling (exDims 2 3)) (exFitsState (by decide) (by decide)) cellFits (7, -3)
  (Or.inl rfl) exRaise rfl
example (eigh : Tensor ℝ → List ℝ × Tensor ℝ) := C31_modes eigh true (exTiling (exDims 2 3)) (exFitsState (by decide) (by decide)) cellFits (1, 0) (by decide)
example (eigh : Tensor ℝ → List ℝ × Tensor ℝ) := C32_row eigh true (exFitsState (l := 2) (l' := 3) (by decide) (by decide)) cellFits (1, 0)
example (eigh : Tensor ℝ → List ℝ × Tensor ℝ) := C32_column eigh true (exFitsState (l := 2) (l' := 3) (by decide) (by decide)) cellFits (-1, 5)
example (eigh : Tensor ℝ → List ℝ × Tensor ℝ) := C66_equivalent_partial eigh true true (exTiling (exDims 2 3)) (cellEnv (exDims 2 3)) (1, 0) (-3, 7) (by decide)
example (eigh : Tensor ℝ → List ℝ × Tensor ℝ) := C66_violated eigh true (exFitsState (l := 2) (l' := 3) (by decide) (by decide)) cellFits (2, 0) (by decide) exRaise rfl

end Verif.Rdm
