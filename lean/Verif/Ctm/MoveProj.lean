import Verif.Ctm.MoveMat
/-
The projectors of a fitting environment: success, shapes, and equality of the two modes.
-/
namespace Verif.Ctm
open Tensor Spec
variable {K : Type} [RCLike K]

theorem canon_same (A : Tensor K) : Same A (canon A) := ⟨rfl, fun idx h => by simp [canon, h]⟩

theorem canon_eq {A B : Tensor K} (h : Same A B) : canon A = canon B := by
  unfold canon
  rw [← h.1]
  congr 1
  funext idx
  by_cases hi : InB A.shape idx
  · simp [hi, h.2 idx hi]
  · simp [hi]

/-- The bond truncated by the projectors of `c`: environment index and site index. -/
def bondE (D : Dims) : Dir → Coord → Nat
  | .up, c => D.eu c
  | .left, c => D.el (dn c)
  | .down, c => D.ed (rt c)
  | .right, c => D.er c

def bondS (D : Dims) : Dir → Coord → Nat
  | .up, c => D.L c
  | .left, c => D.U (dn c)
  | .down, c => D.L (rt c)
  | .right, c => D.U c

@[simp] theorem rt_sub (c : Coord) : rt (c.1 - 1, c.2) = c := by simp [rt]
@[simp] theorem dn_sub (c : Coord) : dn (c.1, c.2 - 1) = c := by simp [dn]
@[simp] theorem rt_sub_dn (c : Coord) : rt (c.1 - 1, c.2 + 1) = dn c := by simp [rt, dn]
@[simp] theorem dn_add_sub (c : Coord) : dn (c.1 + 1, c.2 - 1) = rt c := by simp [rt, dn]
@[simp] theorem rt_sub_sub (c : Coord) : rt (c.1 - 1, c.2 - 1) = (c.1, c.2 - 1) := by simp [rt]
@[simp] theorem dn_sub_sub (c : Coord) : dn (c.1 - 1, c.2 - 1) = (c.1 - 1, c.2) := by simp [dn]
theorem mk_dn (c : Coord) : ((c.1, c.2 + 1) : Coord) = dn c := rfl
theorem mk_rt (c : Coord) : ((c.1 + 1, c.2) : Coord) = rt c := rfl
theorem mk_rd (c : Coord) : ((c.1 + 1, c.2 + 1) : Coord) = dn (rt c) := rfl
theorem rt_dn (c : Coord) : rt (dn c) = dn (rt c) := rfl

theorem halves_ok {D : Dims} {st : State K} {env : Env K} (hs : FitsState D st) (he : FitsEnv D st env) (d : Dir) (c : Coord) :
    ∃ R R' Q Q' y, halves st.dl env false d c = some (R, Q) ∧ halves st env true d c = some (R', Q') ∧ Same R R' ∧ Same Q Q' ∧
      0 < y ∧ R.shape = [bondE D d c * (bondS D d c * bondS D d c), y] ∧ Q.shape = [bondE D d c * (bondS D d c * bondS D d c), y] := by
  have pos : ∀ f g : Coord → Nat, Sizes st f → Sizes st g → ∀ a b, 0 < f a * (g b * g b) := fun f g hf hg a b =>
    Nat.mul_pos (hf.1 a) (Nat.mul_pos (hg.1 b) (hg.1 b))
  cases d with
  | up =>
    obtain ⟨A, A', e1, e1', s1, h1⟩ := c2x2RU_ok hs he c
    obtain ⟨B, B', e2, e2', s2, h2⟩ := c2x2RD_ok hs he (dn c)
    obtain ⟨E, E', e3, e3', s3, h3⟩ := c2x2LU_ok hs he (c.1 - 1, c.2)
    obtain ⟨F, F', e4, e4', s4, h4⟩ := c2x2LD_ok hs he (c.1 - 1, c.2 + 1)
    simp only [rt_sub, rt_sub_dn] at h3 h4
    obtain ⟨R, R', r, r', sr, hr, -⟩ := td10 s1 s2 h1 h2
    obtain ⟨Q, Q', q, q', sq, hq, -⟩ := td00 s3 s4 h3 h4
    refine ⟨R, R', Q, Q', _, ?_, ?_, sr, sq, pos _ _ he.ed hs.L _ _, hr, hq⟩
    · simp [halves, mk_dn, e1, e2, e3, e4, r, q]
    · simp [halves, mk_dn, e1', e2', e3', e4', r', q']
  | left =>
    obtain ⟨A, A', e1, e1', s1, h1⟩ := c2x2LU_ok hs he c
    obtain ⟨B, B', e2, e2', s2, h2⟩ := c2x2RU_ok hs he (rt c)
    obtain ⟨E, E', e3, e3', s3, h3⟩ := c2x2LD_ok hs he (dn c)
    obtain ⟨F, F', e4, e4', s4, h4⟩ := c2x2RD_ok hs he (dn (rt c))
    rw [rt_dn] at h3
    obtain ⟨R, R', r, r', sr, hr, -⟩ := td10 s1 s2 h1 h2
    obtain ⟨Q, Q', q, q', sq, hq, -⟩ := td11 s3 s4 h3 h4
    refine ⟨R, R', Q, Q', _, ?_, ?_, sr, sq, pos _ _ he.er hs.U _ _, hr, hq⟩
    · simp [halves, mk_dn, mk_rt, mk_rd, e1, e2, e3, e4, r, q]
    · simp [halves, mk_dn, mk_rt, mk_rd, e1', e2', e3', e4', r', q']
  | down =>
    obtain ⟨A, A', e1, e1', s1, h1⟩ := c2x2LD_ok hs he c
    obtain ⟨B, B', e2, e2', s2, h2⟩ := c2x2LU_ok hs he (c.1, c.2 - 1)
    obtain ⟨E, E', e3, e3', s3, h3⟩ := c2x2RD_ok hs he (rt c)
    obtain ⟨F, F', e4, e4', s4, h4⟩ := c2x2RU_ok hs he (c.1 + 1, c.2 - 1)
    simp only [dn_sub, dn_add_sub] at h2 h4
    obtain ⟨R, R', r, r', sr, hr, -⟩ := td00 s1 s2 h1 h2
    obtain ⟨Q, Q', q, q', sq, hq, -⟩ := td01 s3 s4 h3 h4
    refine ⟨R, R', Q, Q', _, ?_, ?_, sr, sq, pos _ _ he.eu hs.L _ _, hr, hq⟩
    · simp [halves, mk_dn, mk_rt, mk_rd, e1, e2, e3, e4, r, q]
    · simp [halves, mk_dn, mk_rt, mk_rd, e1', e2', e3', e4', r', q']
  | right =>
    obtain ⟨A, A', e1, e1', s1, h1⟩ := c2x2RD_ok hs he c
    obtain ⟨B, B', e2, e2', s2, h2⟩ := c2x2LD_ok hs he (c.1 - 1, c.2)
    obtain ⟨E, E', e3, e3', s3, h3⟩ := c2x2RU_ok hs he (c.1, c.2 - 1)
    obtain ⟨F, F', e4, e4', s4, h4⟩ := c2x2LU_ok hs he (c.1 - 1, c.2 - 1)
    simp only [dn_sub, rt_sub, rt_sub_sub, dn_sub_sub] at h2 h3 h4
    obtain ⟨R, R', r, r', sr, hr, -⟩ := td11 s1 s2 h1 h2
    obtain ⟨Q, Q', q, q', sq, hq, -⟩ := td01 s3 s4 h3 h4
    refine ⟨R, R', Q, Q', _, ?_, ?_, sr, sq, pos _ _ he.el hs.U _ _, hr, hq⟩
    · simp [halves, mk_dn, mk_rt, mk_rd, e1, e2, e3, e4, r, q]
    · simp [halves, mk_dn, mk_rt, mk_rd, e1', e2', e3', e4', r', q']

theorem halves2_ok {D : Dims} {st : State K} {env : Env K} (hs : FitsState D st) (he : FitsEnv D st env) (d : Dir) (c : Coord) :
    ∃ R R' Q Q' x y z, halves2 st.dl env false d c = some (R, Q) ∧ halves2 st env true d c = some (R', Q') ∧ Same R R' ∧ Same Q Q' ∧
      x = bondE D d c * (bondS D d c * bondS D d c) ∧ 0 < y ∧ R.shape = [x, y] ∧ Q.shape = [x, z] := by
  have pos : ∀ f g : Coord → Nat, Sizes st f → Sizes st g → ∀ a b, 0 < f a * (g b * g b) := fun f g hf hg a b =>
    Nat.mul_pos (hf.1 a) (Nat.mul_pos (hg.1 b) (hg.1 b))
  cases d with
  | up =>
    obtain ⟨A, A', e1, e1', s1, h1⟩ := c2x2RU_ok hs he c
    obtain ⟨B, B', e2, e2', s2, h2⟩ := c2x2LU_ok hs he (c.1 - 1, c.2)
    simp only [rt_sub] at h2
    obtain ⟨Q, Q', q, q', sq, hq, -⟩ := perm10 s2 h2
    refine ⟨A, A', Q, Q', _, _, _, ?_, ?_, s1, sq, rfl, pos _ _ he.er hs.U _ _, h1, hq⟩
    · simp [halves2, e1, e2, q]
    · simp [halves2, e1', e2', q']
  | left =>
    obtain ⟨A, A', e1, e1', s1, h1⟩ := c2x2LU_ok hs he c
    obtain ⟨B, B', e2, e2', s2, h2⟩ := c2x2LD_ok hs he (dn c)
    refine ⟨A, A', B, B', _, _, _, ?_, ?_, s1, s2, rfl, pos _ _ he.eu hs.L _ _, h1, h2⟩
    · simp [halves2, mk_dn, e1, e2]
    · simp [halves2, mk_dn, e1', e2']
  | down =>
    obtain ⟨A, A', e1, e1', s1, h1⟩ := c2x2LD_ok hs he c
    obtain ⟨B, B', e2, e2', s2, h2⟩ := c2x2RD_ok hs he (rt c)
    obtain ⟨R, R', r, r', sr, hr, -⟩ := perm10 s1 h1
    obtain ⟨Q, Q', q, q', sq, hq, -⟩ := perm10 s2 h2
    refine ⟨R, R', Q, Q', _, _, _, ?_, ?_, sr, sq, rfl, pos _ _ he.el hs.U _ _, hr, hq⟩
    · simp [halves2, mk_rt, e1, e2, r, q]
    · simp [halves2, mk_rt, e1', e2', r', q']
  | right =>
    obtain ⟨A, A', e1, e1', s1, h1⟩ := c2x2RD_ok hs he c
    obtain ⟨B, B', e2, e2', s2, h2⟩ := c2x2RU_ok hs he (c.1, c.2 - 1)
    simp only [dn_sub] at h2
    obtain ⟨Q, Q', q, q', sq, hq, -⟩ := perm10 s2 h2
    refine ⟨A, A', Q, Q', _, _, _, ?_, ?_, s1, sq, rfl, pos _ _ he.ed hs.L _ _, h1, hq⟩
    · simp [halves2, e1, e2, q]
    · simp [halves2, e1', e2', q']

theorem nonzero_length_le (r : ℝ) (S : List ℝ) : (nonzero r S).length ≤ S.length := by
  simp only [nonzero]; exact List.length_filter_le _ _

theorem recipRoots_length (r : ℝ) (S : List ℝ) : (recipRoots r S).length = S.length := by
  simp only [recipRoots, List.length_append, List.length_map, List.length_replicate]
  have := nonzero_length_le r S
  omega

theorem scaleCols_same {s : List ℝ} {A A' : Tensor K} {m k : Nat} (h : Same A A') (hA : A.shape = [m, k]) (hs : s.length = k) :
    ∃ B B', scaleCols s A = some B ∧ scaleCols s A' = some B' ∧ Same B B' ∧ B.shape = [m, k] ∧
      ∀ idx, B.val idx = A.val idx * ((s.getD (idx.getD 1 0) 0 : ℝ) : K) := by
  have hA' : A'.shape = [m, k] := h.1 ▸ hA
  refine ⟨⟨[m, k], fun idx => A.val idx * ((s.getD (idx.getD 1 0) 0 : ℝ) : K)⟩,
    ⟨[m, k], fun idx => A'.val idx * ((s.getD (idx.getD 1 0) 0 : ℝ) : K)⟩, ?_, ?_, ⟨rfl, ?_⟩, rfl, fun _ => rfl⟩
  · simp only [scaleCols, hA, hs, if_true]
  · simp only [scaleCols, hA', hs, if_true]
  · intro idx hi
    show A.val idx * _ = A'.val idx * _
    rw [h.2 idx (hA ▸ hi)]

/-- The number of columns of the projectors. -/
noncomputable def cols (args : Args) (S : List ℝ) : Nat := if args.full then S.length else (nonzero args.reltol S).length

theorem cols_le (args : Args) (S : List ℝ) : cols args S ≤ S.length := by
  unfold cols; split
  · exact le_refl _
  · exact nonzero_length_le _ _

theorem projectorsFrom_same {args : Args} {svd : Tensor K → Nat → Svd K} (hb : Backend svd) {R R' Q Q' : Tensor K} {x y : Nat} (chi : Nat)
    (sR : Same R R') (sQ : Same Q Q') (hR : R.shape = [x, y]) (hQ : Q.shape = [x, y]) (hy : 0 < y) :
    ∃ P P' Pt Pt' n, projectorsFrom args svd R Q chi = some (P, Pt) ∧ projectorsFrom args svd R' Q' chi = some (P', Pt') ∧
      Same P P' ∧ Same Pt Pt' ∧ P.shape = [x, n] ∧ Pt.shape = [x, n] ∧ ∃ M, n ≤ (svd M chi).S.length := by
  obtain ⟨X, X', e1, e1', s1, h1, -⟩ := perm10 sR hR
  obtain ⟨M, M', e2, e2', s2, h2, -⟩ := td10 s1 sQ h1 hQ
  have hM : canon M = canon M' := canon_eq s2
  obtain ⟨k, hk, hU, hS, hV⟩ := hb (canon M) chi y y h2 hy hy
  generalize hd : svd (canon M) chi = d at hU hS hV
  have hd' : svd (canon M') chi = d := by rw [← hM, hd]
  have hne : d.S ≠ [] := by intro h; simp [h] at hS; omega
  set n := cols args d.S with hn
  have hnk : n ≤ k := hS ▸ cols_le args d.S
  have eU : firstCols n d.U = some ⟨[y, n], d.U.val⟩ := by simp [firstCols, hU, hnk]
  have eV : firstCols n d.V = some ⟨[y, n], d.V.val⟩ := by simp [firstCols, hV, hnk]
  have hl : ((recipRoots args.reltol d.S).take n).length = n := by simp [recipRoots_length, hS, hnk]
  obtain ⟨W, W', e3, e3', s3, h3, -⟩ := td10 sR (Same.refl (Tensor.conj (⟨[y, n], d.U.val⟩ : Tensor K))) hR (z := n) rfl
  obtain ⟨Z, Z', e4, e4', s4, h4, -⟩ := td10 sQ (Same.refl (⟨[y, n], d.V.val⟩ : Tensor K)) hQ (z := n) rfl
  obtain ⟨P, P', e5, e5', s5, h5, -⟩ := scaleCols_same s3 h3 hl
  obtain ⟨Pt, Pt', e6, e6', s6, h6, -⟩ := scaleCols_same s4 h4 hl
  have hn' : (if args.full = true then d.S.length else (nonzero args.reltol d.S).length) = n := rfl
  refine ⟨P, P', Pt, Pt', n, ?_, ?_, s5, s6, h5, h6, canon M, by rw [hd]; exact cols_le args d.S⟩
  · simp only [projectorsFrom]
    rw [if_pos ⟨hR.trans hQ.symm, by simp [hR]⟩]
    simp [e1, e2, hd, hne, hn', eU, eV, e3, e4, e5, e6]
  · simp only [projectorsFrom]
    rw [if_pos ⟨by rw [← sR.1, ← sQ.1, hR, hQ], by simp [← sR.1, hR]⟩]
    simp [e1', e2', hd', hne, hn', eU, eV, e3', e4', e5', e6']

theorem projectors_some {args : Args} {svd : Tensor K → Nat → Svd K} {st : State K} {env : Env K} {d : Dir} {c : Coord} {R Q P Pt : Tensor K}
    (h1 : mats args st env d c = some (R, Q)) (h2 : projectorsFrom args svd R Q env.chi = some (P, Pt)) :
    projectors args svd st env d c = some (canon P, canon Pt) := by
  simp only [projectors, h1, h2, Option.bind_eq_bind, Option.bind_some, pure]

theorem projectors_none {args : Args} {svd : Tensor K → Nat → Svd K} {st : State K} {env : Env K} {d : Dir} {c : Coord} {R Q : Tensor K}
    (h1 : mats args st env d c = some (R, Q)) (h2 : projectorsFrom args svd R Q env.chi = none) :
    projectors args svd st env d c = none := by
  simp only [projectors, h1, h2, Option.bind_eq_bind, Option.bind_some, Option.bind_none, pure]

theorem projectors_ok {args : Args} (hm : args.m4x4 = true) {svd : Tensor K → Nat → Svd K} (hb : Backend svd) {D : Dims} {st : State K} {env : Env K}
    (hs : FitsState D st) (he : FitsEnv D st env) (d : Dir) (c : Coord) :
    ∃ P Pt n, projectors { args with dl := true } svd st.dl env d c = some (P, Pt) ∧
      projectors { args with dl := false } svd st env d c = some (P, Pt) ∧
      P.shape = [bondE D d c * (bondS D d c * bondS D d c), n] ∧ Pt.shape = [bondE D d c * (bondS D d c * bondS D d c), n] ∧
      ∃ M, n ≤ (svd M env.chi).S.length := by
  obtain ⟨R, R', Q, Q', y, e1, e1', sR, sQ, hy, hR, hQ⟩ := halves_ok hs he d c
  obtain ⟨P, P', Pt, Pt', n, e2, e2', s2, s3, h2, h3, h4⟩ := projectorsFrom_same (args := { args with dl := true }) hb env.chi sR sQ hR hQ hy
  have e2'' : projectorsFrom { args with dl := false } svd R' Q' env.chi = some (P', Pt') := e2'
  refine ⟨canon P, canon Pt, n, ?_, ?_, h2, h3, h4⟩
  · exact projectors_some (by simpa [mats, hm] using e1) e2
  · rw [projectors_some (by simpa [mats, hm] using e1') e2'', canon_eq s2, canon_eq s3]

theorem projectors_eq {args : Args} {svd : Tensor K → Nat → Svd K} (hb : Backend svd) {D : Dims} {st : State K} {env : Env K}
    (hs : FitsState D st) (he : FitsEnv D st env) (d : Dir) (c : Coord) :
    (projectors { args with dl := true } svd st.dl env d c = none ∧ projectors { args with dl := false } svd st env d c = none) ∨
    ∃ P Pt n, projectors { args with dl := true } svd st.dl env d c = some (P, Pt) ∧
      projectors { args with dl := false } svd st env d c = some (P, Pt) ∧
      P.shape = [bondE D d c * (bondS D d c * bondS D d c), n] ∧ Pt.shape = [bondE D d c * (bondS D d c * bondS D d c), n] ∧
      ∃ M, n ≤ (svd M env.chi).S.length := by
  by_cases hm : args.m4x4 = true
  · exact .inr (projectors_ok hm hb hs he d c)
  obtain ⟨R, R', Q, Q', x, y, z, e1, e1', sR, sQ, hx, hy, hR, hQ⟩ := halves2_ok hs he d c
  by_cases hyz : z = y
  · right
    subst hyz hx
    obtain ⟨P, P', Pt, Pt', n, e2, e2', s2, s3, h2, h3, h4⟩ := projectorsFrom_same (args := { args with dl := true }) hb env.chi sR sQ hR hQ hy
    have e2'' : projectorsFrom { args with dl := false } svd R' Q' env.chi = some (P', Pt') := e2'
    refine ⟨canon P, canon Pt, n, ?_, ?_, h2, h3, h4⟩
    · exact projectors_some (by simpa [mats, hm] using e1) e2
    · rw [projectors_some (by simpa [mats, hm] using e1') e2'', canon_eq s2, canon_eq s3]
  · left
    have a1 : projectorsFrom { args with dl := true } svd R Q env.chi = none := by
      simp only [projectorsFrom]; rw [if_neg]; intro h; rw [hR, hQ] at h; simp at h; exact hyz h.symm
    have a2 : projectorsFrom { args with dl := false } svd R' Q' env.chi = none := by
      simp only [projectorsFrom]; rw [if_neg]; intro h; rw [← sR.1, ← sQ.1, hR, hQ] at h; simp at h; exact hyz h.symm
    constructor
    · exact projectors_none (by simpa [mats, hm] using e1) a1
    · exact projectors_none (by simpa [mats, hm] using e1') a2

end Verif.Ctm
