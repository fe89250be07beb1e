import Verif.Ctm.MoveProj
/-
The absorption step in a fitting environment: success, shapes, and equality of the two modes.
-/
namespace Verif.Ctm
open Tensor Spec
set_option linter.unusedSimpArgs false
set_option linter.unusedVariables false
variable {K : Type} [RCLike K]

theorem Sizes.rt_vts {st : State K} (ht : Tiling st) {f : Coord → Nat} (hf : Sizes st f) (x : Coord) : f (rt (st.vts x)) = f (rt x) := by
  rw [← hf.2 (rt (st.vts x)), ← hf.2 (rt x)]
  have := ht.shift x (1, 0)
  simp only [add_zero] at this
  exact congrArg f this

theorem Sizes.dn_vts {st : State K} (ht : Tiling st) {f : Coord → Nat} (hf : Sizes st f) (x : Coord) : f (dn (st.vts x)) = f (dn x) := by
  rw [← hf.2 (dn (st.vts x)), ← hf.2 (dn x)]
  have := ht.shift x (0, 1)
  simp only [add_zero] at this
  exact congrArg f this

theorem doubleLayer_shape {A B : Tensor K} {p u l d r : Nat} (hA : A.shape = [p, u, l, d, r]) (h : Corner.doubleLayer A = some B) :
    B.shape = [u * u, l * l, d * d, r * r] := by
  obtain ⟨B', e, q⟩ := Corner.doubleLayer_denotes (fun l' => [p, u, l, d, r, u, l, d, r].getD l' 0) A 0 1 2 3 4 5 6 7 8 (by decide) (by simp [hA]) rfl rfl rfl rfl
  rw [h] at e
  obtain rfl := Option.some.inj e
  simpa [gdim] using q.shape

theorem doubleLayer_some {A : Tensor K} {p u l d r : Nat} (hA : A.shape = [p, u, l, d, r]) : ∃ B, Corner.doubleLayer A = some B := by
  obtain ⟨B', e, q⟩ := Corner.doubleLayer_denotes (fun l' => [p, u, l, d, r, u, l, d, r].getD l' 0) A 0 1 2 3 4 5 6 7 8 (by decide) (by simp [hA]) rfl rfl rfl rfl
  exact ⟨B', e⟩

theorem siteSize_ok {D : Dims} {st : State K} (ht : Tiling st) (hs : FitsState D st) (x : Coord) (i s : Nat)
    (h : [D.U x, D.L x, D.U (dn x), D.L (rt x)][i]? = some s) :
    siteSize st.dl true (st.vts x) i = some (s * s) ∧ siteSize st false (st.vts x) i = some (s * s) := by
  obtain ⟨A, hA, sA⟩ := hs.site (st.vts x)
  obtain ⟨B, hB⟩ := doubleLayer_some sA
  have sB := doubleLayer_shape sA hB
  rw [hs.U.2, hs.L.2, Sizes.dn_vts ht hs.U, Sizes.rt_vts ht hs.L] at sA sB
  simp only [siteSize, dl_site, hA, hB, Option.bind_some, Option.bind_eq_bind, size, sA, sB]
  match i, h with
  | 0, h => simp at h; simp [h, pow_two]
  | 1, h => simp at h; simp [h, pow_two]
  | 2, h => simp at h; simp [h, pow_two]
  | 3, h => simp at h; simp [h, pow_two]

theorem view3_ok {P : Tensor K} {e w n : Nat} (he : 0 < e) (hw : 0 < w) (hP : P.shape = [e * (w * w), n]) :
    ∃ V, view3 e (w * w) P = some V ∧ V.shape = [e, w * w, n] := by
  have hpos : 0 < e * (w * w) := Nat.mul_pos he (Nat.mul_pos hw hw)
  refine ⟨⟨[e, w * w, n], fun idx => P.val (unravel P.shape (ravel [e, w * w, n] idx))⟩, ?_, rfl⟩
  have hp : P.shape.prod = e * (w * w) * n := by simp [hP]
  have hd : P.shape.prod / (e * (w * w)) = n := by rw [hp, Nat.mul_div_cancel_left _ hpos]
  simp only [view3, hd]
  rw [if_pos ⟨hpos, by rw [hp]; simp⟩]
  simp only [view]
  rw [if_pos]
  rw [hp]; simp [mul_assoc]

/-- Projectors for all vertices with the shapes of the bonds they truncate. -/
def PFits (D : Dims) (st : State K) (d : Dir) (P : Proj K) (n : Coord → Nat) : Prop :=
  ∀ x, ∃ p pt, P (st.vts x) = some (p, pt) ∧ p.shape = [bondE D d x * (bondS D d x * bondS D d x), n x] ∧
    pt.shape = [bondE D d x * (bondS D d x * bondS D d x), n x]

theorem absorbUp_ok {D : Dims} {st : State K} {env : Env K} (ht : Tiling st) (hs : FitsState D st) (he : FitsEnv D st env) {P : Proj K}
    {n : Coord → Nat} (hP : PFits D st .up P n) (c : Coord) (hc : st.vts c = c) :
    ∃ a b t, absorbUp st.dl env true P c = some (a, b, t) ∧
      (∃ t', absorbUp st env false P c = some (a, b, t') ∧ Same t t') ∧
      a.shape = [n (rt c), D.er (dn c)] ∧ b.shape = [D.el (dn c), n c] ∧ t.shape = [n c, D.U (dn c) * D.U (dn c), n (rt c)] := by
  obtain ⟨A, hA, sA⟩ := hs.site c
  obtain ⟨C1, hC1, sC1⟩ := he.ru c
  obtain ⟨T1, hT1, sT1⟩ := he.tr c
  obtain ⟨T, hT, sT⟩ := he.tu c
  obtain ⟨T2, hT2, sT2⟩ := he.tl c
  obtain ⟨C2, hC2, sC2⟩ := he.lu c
  rw [hc] at hC1
  rw [hc] at hT1
  rw [hc] at hT
  rw [hc] at hT2
  rw [hc] at hC2
  obtain ⟨p0, pt0, e0, hp0, hpt0⟩ := hP c
  obtain ⟨p1, pt1, e1, hp1, hpt1⟩ := hP (rt c)
  rw [hc] at e0
  have z0 := siteSize_ok ht hs (c.1 - 1, c.2) 3 (D.L c) (by simp)
  obtain ⟨P2, v0, w0⟩ := view3_ok (he.eu.1 _) (hs.L.1 _) hp0
  replace z0 : siteSize st.dl true (st.vts (c.1 - 1, c.2)) 3 = some (D.L c * D.L c) ∧ siteSize st false (st.vts (c.1 - 1, c.2)) 3 = some (D.L c * D.L c) := z0
  have z1 := siteSize_ok ht hs c 1 (D.L c) (by simp)
  obtain ⟨Pt2, v1, w1⟩ := view3_ok (he.eu.1 _) (hs.L.1 _) hpt0
  rw [hc] at z1
  have z2 := siteSize_ok ht hs c 3 (D.L (rt c)) (by simp)
  obtain ⟨P1, v2, w2⟩ := view3_ok (he.eu.1 _) (hs.L.1 _) hp1
  rw [hc] at z2
  have z3 := siteSize_ok ht hs (rt c) 1 (D.L (rt c)) (by simp)
  obtain ⟨Pt1, v3, w3⟩ := view3_ok (he.eu.1 _) (hs.L.1 _) hpt1
  replace z3 : siteSize st.dl true (st.vts (c.1 + 1, c.2)) 1 = some (D.L (rt c) * D.L (rt c)) ∧ siteSize st false (st.vts (c.1 + 1, c.2)) 1 = some (D.L (rt c) * D.L (rt c)) := z3
  replace e1 : P (st.vts (c.1 + 1, c.2)) = some (p1, pt1) := e1
  let dim1 : Nat → Nat := fun l => [D.eu (rt c), D.er c, D.L (rt c) * D.L (rt c), D.er (dn c), n (rt c)].getD l 0
  obtain ⟨a, ea, qa⟩ := Absorb.upC1_denotes dim1 C1 T1 Pt1 (by simp [dim1, sC1]) (by simp [dim1, sT1]) (by simp [dim1, w3, bondE, bondS])
  let dim2 : Nat → Nat := fun l => [D.el c, D.eu c, D.el (dn c), D.L c * D.L c, n c].getD l 0
  obtain ⟨b, eb, qb⟩ := Absorb.upC2_denotes dim2 C2 T2 P2 (by simp [dim2, sC2]) (by simp [dim2, sT2]) (by simp [dim2, w0, bondE, bondS])
  let dim : Nat → Nat := fun l => [D.eu c, D.U c, D.U c, D.eu (rt c), n c, D.U (dn c), D.U (dn c), n (rt c), D.L c, D.L c, D.L (rt c), D.L (rt c), D.p c].getD l 0
  obtain ⟨B, t, eB, et, qt⟩ := Absorb.upTdl_denotes dim T A Pt2 P1 (by simp [dim, sA]) rfl rfl rfl rfl (by simp [dim, sT])
    (by simp [dim, w1, bondE, bondS]) (by simp [dim, w2, bondE, bondS])
  refine ⟨a, b, t, ?_, ?_, by simpa [gdim, dim1] using qa.shape, by simpa [gdim, dim2] using qb.shape, by simpa [gdim, dim] using qt.shape⟩
  · try simp only [bondE, bondS] at v0 v1 v2 v3
    simp [absorbUp, dl_vts, dl_site, hC1, hT1, hT, hT2, hC2, hA, e0, e1, size, sC1, sC2, sT, z0.1, z1.1, z2.1, z3.1, v0, v1, v2, v3, ea, eb, eB, et]
  · obtain ⟨t', et', qt'⟩ := Absorb.upTsl_denotes dim T A Pt2 P1 (by simp [dim, sA]) rfl rfl rfl rfl (by simp [dim, sT])
      (by simp [dim, w1, bondE, bondS]) (by simp [dim, w2, bondE, bondS])
    refine ⟨t', ?_, qt.same qt' (by decide) (List.Perm.refl _) (fun _ => rfl)⟩
    try simp only [bondE, bondS] at v0 v1 v2 v3
    simp [absorbUp, hC1, hT1, hT, hT2, hC2, hA, e0, e1, size, sC1, sC2, sT, z0.2, z1.2, z2.2, z3.2, v0, v1, v2, v3, ea, eb, et']

theorem absorbLeft_ok {D : Dims} {st : State K} {env : Env K} (ht : Tiling st) (hs : FitsState D st) (he : FitsEnv D st env) {P : Proj K}
    {n : Coord → Nat} (hP : PFits D st .left P n) (c : Coord) (hc : st.vts c = c) :
    ∃ a b t, absorbLeft st.dl env true P c = some (a, b, t) ∧
      (∃ t', absorbLeft st env false P c = some (a, b, t') ∧ Same t t') ∧
      a.shape = [n (c.1, c.2 - 1), D.eu (rt c)] ∧ b.shape = [n c, D.ed (rt c)] ∧ t.shape = [n (c.1, c.2 - 1), n c, D.L (rt c) * D.L (rt c)] := by
  obtain ⟨A, hA, sA⟩ := hs.site c
  obtain ⟨C1, hC1, sC1⟩ := he.lu c
  obtain ⟨T1, hT1, sT1⟩ := he.tu c
  obtain ⟨T, hT, sT⟩ := he.tl c
  obtain ⟨T2, hT2, sT2⟩ := he.td c
  obtain ⟨C2, hC2, sC2⟩ := he.ld c
  rw [hc] at hC1
  rw [hc] at hT1
  rw [hc] at hT
  rw [hc] at hT2
  rw [hc] at hC2
  obtain ⟨p0, pt0, e0, hp0, hpt0⟩ := hP c
  obtain ⟨p1, pt1, e1, hp1, hpt1⟩ := hP (c.1, c.2 - 1)
  rw [hc] at e0
  simp only [bondE, bondS, rt_sub, dn_sub] at hp1 hpt1
  have z0 := siteSize_ok ht hs (dn c) 0 (D.U (dn c)) (by simp)
  obtain ⟨P2, v0, w0⟩ := view3_ok (he.el.1 _) (hs.U.1 _) hp0
  replace z0 : siteSize st.dl true (st.vts (c.1, c.2 + 1)) 0 = some (D.U (dn c) * D.U (dn c)) ∧ siteSize st false (st.vts (c.1, c.2 + 1)) 0 = some (D.U (dn c) * D.U (dn c)) := z0
  have z1 := siteSize_ok ht hs c 2 (D.U (dn c)) (by simp)
  obtain ⟨Pt2, v1, w1⟩ := view3_ok (he.el.1 _) (hs.U.1 _) hpt0
  rw [hc] at z1
  have z2 := siteSize_ok ht hs c 0 (D.U c) (by simp)
  obtain ⟨P1, v2, w2⟩ := view3_ok (he.el.1 _) (hs.U.1 _) hp1
  rw [hc] at z2
  have z3 := siteSize_ok ht hs (c.1, c.2 - 1) 2 (D.U c) (by simp)
  obtain ⟨Pt1, v3, w3⟩ := view3_ok (he.el.1 _) (hs.U.1 _) hpt1
  replace z3 : siteSize st.dl true (st.vts (c.1, c.2 - 1)) 2 = some (D.U c * D.U c) ∧ siteSize st false (st.vts (c.1, c.2 - 1)) 2 = some (D.U c * D.U c) := z3
  let dim1 : Nat → Nat := fun l => [D.el c, D.eu c, D.U c * D.U c, D.eu (rt c), n (c.1, c.2 - 1)].getD l 0
  obtain ⟨a, ea, qa⟩ := Absorb.leftC1_denotes dim1 C1 T1 Pt1 (by simp [dim1, sC1]) (by simp [dim1, sT1]) (by simp [dim1, w3, bondE, bondS])
  let dim2 : Nat → Nat := fun l => [D.el (dn c), D.ed c, D.U (dn c) * D.U (dn c), D.ed (rt c), n c].getD l 0
  obtain ⟨b, eb, qb⟩ := Absorb.leftC2_denotes dim2 C2 T2 P2 (by simp [dim2, sC2]) (by simp [dim2, sT2]) (by simp [dim2, w0, bondE, bondS])
  let dim : Nat → Nat := fun l => [D.el c, D.el (dn c), D.L c, D.L c, D.U c, D.U c, D.U (dn c), D.U (dn c), D.p c, n (c.1, c.2 - 1), D.L (rt c), D.L (rt c), n c].getD l 0
  obtain ⟨B, t, eB, et, qt⟩ := Absorb.leftTdl_denotes dim T A Pt2 P1 (by simp [dim, sA]) rfl rfl rfl rfl (by simp [dim, sT])
    (by simp [dim, w1, bondE, bondS]) (by simp [dim, w2, bondE, bondS])
  refine ⟨a, b, t, ?_, ?_, by simpa [gdim, dim1] using qa.shape, by simpa [gdim, dim2] using qb.shape, by simpa [gdim, dim] using qt.shape⟩
  · try simp only [bondE, bondS] at v0 v1 v2 v3
    simp [absorbLeft, dl_vts, dl_site, hC1, hT1, hT, hT2, hC2, hA, e0, e1, size, sC1, sC2, sT, z0.1, z1.1, z2.1, z3.1, v0, v1, v2, v3, ea, eb, eB, et]
  · obtain ⟨t', et', qt'⟩ := Absorb.leftTsl_denotes dim T A Pt2 P1 (by simp [dim, sA]) rfl rfl rfl rfl (by simp [dim, sT])
      (by simp [dim, w1, bondE, bondS]) (by simp [dim, w2, bondE, bondS])
    refine ⟨t', ?_, qt.same qt' (by decide) (List.Perm.refl _) (fun _ => rfl)⟩
    try simp only [bondE, bondS] at v0 v1 v2 v3
    simp [absorbLeft, hC1, hT1, hT, hT2, hC2, hA, e0, e1, size, sC1, sC2, sT, z0.2, z1.2, z2.2, z3.2, v0, v1, v2, v3, ea, eb, et']

theorem absorbDown_ok {D : Dims} {st : State K} {env : Env K} (ht : Tiling st) (hs : FitsState D st) (he : FitsEnv D st env) {P : Proj K}
    {n : Coord → Nat} (hP : PFits D st .down P n) (c : Coord) (hc : st.vts c = c) :
    ∃ a b t, absorbDown st.dl env true P c = some (a, b, t) ∧
      (∃ t', absorbDown st env false P c = some (a, b, t') ∧ Same t t') ∧
      a.shape = [D.el c, n (c.1 - 1, c.2)] ∧ b.shape = [D.er c, n c] ∧ t.shape = [D.U c * D.U c, n (c.1 - 1, c.2), n c] := by
  obtain ⟨A, hA, sA⟩ := hs.site c
  obtain ⟨C1, hC1, sC1⟩ := he.ld c
  obtain ⟨T1, hT1, sT1⟩ := he.tl c
  obtain ⟨T, hT, sT⟩ := he.td c
  obtain ⟨T2, hT2, sT2⟩ := he.tr c
  obtain ⟨C2, hC2, sC2⟩ := he.rd c
  rw [hc] at hC1
  rw [hc] at hT1
  rw [hc] at hT
  rw [hc] at hT2
  rw [hc] at hC2
  obtain ⟨p0, pt0, e0, hp0, hpt0⟩ := hP c
  obtain ⟨p1, pt1, e1, hp1, hpt1⟩ := hP (c.1 - 1, c.2)
  rw [hc] at e0
  simp only [bondE, bondS, rt_sub, dn_sub] at hp1 hpt1
  have z0 := siteSize_ok ht hs (rt c) 1 (D.L (rt c)) (by simp)
  obtain ⟨P2, v0, w0⟩ := view3_ok (he.ed.1 _) (hs.L.1 _) hp0
  replace z0 : siteSize st.dl true (st.vts (c.1 + 1, c.2)) 1 = some (D.L (rt c) * D.L (rt c)) ∧ siteSize st false (st.vts (c.1 + 1, c.2)) 1 = some (D.L (rt c) * D.L (rt c)) := z0
  have z1 := siteSize_ok ht hs c 3 (D.L (rt c)) (by simp)
  obtain ⟨Pt2, v1, w1⟩ := view3_ok (he.ed.1 _) (hs.L.1 _) hpt0
  rw [hc] at z1
  have z2 := siteSize_ok ht hs c 1 (D.L c) (by simp)
  obtain ⟨P1, v2, w2⟩ := view3_ok (he.ed.1 _) (hs.L.1 _) hp1
  rw [hc] at z2
  have z3 := siteSize_ok ht hs (c.1 - 1, c.2) 3 (D.L c) (by simp)
  obtain ⟨Pt1, v3, w3⟩ := view3_ok (he.ed.1 _) (hs.L.1 _) hpt1
  replace z3 : siteSize st.dl true (st.vts (c.1 - 1, c.2)) 3 = some (D.L c * D.L c) ∧ siteSize st false (st.vts (c.1 - 1, c.2)) 3 = some (D.L c * D.L c) := z3
  let dim1 : Nat → Nat := fun l => [D.el (dn c), D.ed c, D.el c, D.L c * D.L c, n (c.1 - 1, c.2)].getD l 0
  obtain ⟨a, ea, qa⟩ := Absorb.downC1_denotes dim1 C1 T1 Pt1 (by simp [dim1, sC1]) (by simp [dim1, sT1]) (by simp [dim1, w3, bondE, bondS])
  let dim2 : Nat → Nat := fun l => [D.er (dn c), D.ed (rt c), D.er c, D.L (rt c) * D.L (rt c), n c].getD l 0
  obtain ⟨b, eb, qb⟩ := Absorb.downC2_denotes dim2 C2 T2 P2 (by simp [dim2, sC2]) (by simp [dim2, sT2]) (by simp [dim2, w0, bondE, bondS])
  let dim : Nat → Nat := fun l => [D.U (dn c), D.U (dn c), D.ed c, D.ed (rt c), n (c.1 - 1, c.2), D.U c, D.U c, n c, D.L c, D.L c, D.L (rt c), D.L (rt c), D.p c].getD l 0
  obtain ⟨B, t, eB, et, qt⟩ := Absorb.downTdl_denotes dim T A Pt2 P1 (by simp [dim, sA]) rfl rfl rfl rfl (by simp [dim, sT])
    (by simp [dim, w1, bondE, bondS]) (by simp [dim, w2, bondE, bondS])
  refine ⟨a, b, t, ?_, ?_, by simpa [gdim, dim1] using qa.shape, by simpa [gdim, dim2] using qb.shape, by simpa [gdim, dim] using qt.shape⟩
  · try simp only [bondE, bondS] at v0 v1 v2 v3
    simp [absorbDown, dl_vts, dl_site, hC1, hT1, hT, hT2, hC2, hA, e0, e1, size, sC1, sC2, sT, z0.1, z1.1, z2.1, z3.1, v0, v1, v2, v3, ea, eb, eB, et]
  · obtain ⟨t', et', qt'⟩ := Absorb.downTsl_denotes dim T A Pt2 P1 (by simp [dim, sA]) rfl rfl rfl rfl (by simp [dim, sT])
      (by simp [dim, w1, bondE, bondS]) (by simp [dim, w2, bondE, bondS])
    refine ⟨t', ?_, qt.same qt' (by decide) (List.Perm.refl _) (fun _ => rfl)⟩
    try simp only [bondE, bondS] at v0 v1 v2 v3
    simp [absorbDown, hC1, hT1, hT, hT2, hC2, hA, e0, e1, size, sC1, sC2, sT, z0.2, z1.2, z2.2, z3.2, v0, v1, v2, v3, ea, eb, et']

theorem absorbRight_ok {D : Dims} {st : State K} {env : Env K} (ht : Tiling st) (hs : FitsState D st) (he : FitsEnv D st env) {P : Proj K}
    {n : Coord → Nat} (hP : PFits D st .right P n) (c : Coord) (hc : st.vts c = c) :
    ∃ a b t, absorbRight st.dl env true P c = some (a, b, t) ∧
      (D.L c = D.L (rt c) → ∃ t', absorbRight st env false P c = some (a, b, t') ∧ Same t t') ∧
      a.shape = [n (dn c), D.ed c] ∧ b.shape = [D.eu c, n c] ∧ t.shape = [n c, D.L c * D.L c, n (dn c)] := by
  obtain ⟨A, hA, sA⟩ := hs.site c
  obtain ⟨C1, hC1, sC1⟩ := he.rd c
  obtain ⟨T1, hT1, sT1⟩ := he.td c
  obtain ⟨T, hT, sT⟩ := he.tr c
  obtain ⟨T2, hT2, sT2⟩ := he.tu c
  obtain ⟨C2, hC2, sC2⟩ := he.ru c
  rw [hc] at hC1
  rw [hc] at hT1
  rw [hc] at hT
  rw [hc] at hT2
  rw [hc] at hC2
  obtain ⟨p0, pt0, e0, hp0, hpt0⟩ := hP c
  obtain ⟨p1, pt1, e1, hp1, hpt1⟩ := hP (dn c)
  rw [hc] at e0
  have z0 := siteSize_ok ht hs (c.1, c.2 - 1) 2 (D.U c) (by simp)
  obtain ⟨P2, v0, w0⟩ := view3_ok (he.er.1 _) (hs.U.1 _) hp0
  replace z0 : siteSize st.dl true (st.vts (c.1, c.2 - 1)) 2 = some (D.U c * D.U c) ∧ siteSize st false (st.vts (c.1, c.2 - 1)) 2 = some (D.U c * D.U c) := z0
  have z1 := siteSize_ok ht hs c 0 (D.U c) (by simp)
  obtain ⟨Pt2, v1, w1⟩ := view3_ok (he.er.1 _) (hs.U.1 _) hpt0
  rw [hc] at z1
  have z2 := siteSize_ok ht hs c 2 (D.U (dn c)) (by simp)
  obtain ⟨P1, v2, w2⟩ := view3_ok (he.er.1 _) (hs.U.1 _) hp1
  rw [hc] at z2
  have z3 := siteSize_ok ht hs (dn c) 0 (D.U (dn c)) (by simp)
  obtain ⟨Pt1, v3, w3⟩ := view3_ok (he.er.1 _) (hs.U.1 _) hpt1
  replace z3 : siteSize st.dl true (st.vts (c.1, c.2 + 1)) 0 = some (D.U (dn c) * D.U (dn c)) ∧ siteSize st false (st.vts (c.1, c.2 + 1)) 0 = some (D.U (dn c) * D.U (dn c)) := z3
  replace e1 : P (st.vts (c.1, c.2 + 1)) = some (p1, pt1) := e1
  let dim1 : Nat → Nat := fun l => [D.er (dn c), D.ed (rt c), D.U (dn c) * D.U (dn c), D.ed c, n (dn c)].getD l 0
  obtain ⟨a, ea, qa⟩ := Absorb.rightC1_denotes dim1 C1 T1 Pt1 (by simp [dim1, sC1]) (by simp [dim1, sT1]) (by simp [dim1, w3, bondE, bondS])
  let dim2 : Nat → Nat := fun l => [D.eu (rt c), D.er c, D.eu c, D.U c * D.U c, n c].getD l 0
  obtain ⟨b, eb, qb⟩ := Absorb.rightC2_denotes dim2 C2 T2 P2 (by simp [dim2, sC2]) (by simp [dim2, sT2]) (by simp [dim2, w0, bondE, bondS])
  let dim : Nat → Nat := fun l => [D.er c, D.L (rt c), D.L (rt c), D.er (dn c), D.U c, D.U c, D.U (dn c), D.U (dn c), D.p c, n c, D.L c, D.L c, n (dn c)].getD l 0
  obtain ⟨B, t, eB, et, qt⟩ := Absorb.rightTdl_denotes dim T A Pt2 P1 (by simp [dim, sA]) rfl rfl rfl rfl (by simp [dim, sT])
    (by simp [dim, w1, bondE, bondS]) (by simp [dim, w2, bondE, bondS])
  refine ⟨a, b, t, ?_, ?_, by simpa [gdim, dim1] using qa.shape, by simpa [gdim, dim2] using qb.shape, by simpa [gdim, dim] using qt.shape⟩
  · try simp only [bondE, bondS] at v0 v1 v2 v3
    simp [absorbRight, dl_vts, dl_site, hC1, hT1, hT, hT2, hC2, hA, e0, e1, size, sC1, sC2, sT, z0.1, z1.1, z2.1, z3.1, v0, v1, v2, v3, ea, eb, eB, et]
  · intro hsq
    obtain ⟨t', et', qt'⟩ := Absorb.rightTsl_denotes dim T A Pt2 P1 (by simp [dim, sA]) rfl rfl rfl rfl (by simp [dim, sT])
      (by simp [dim, w1, bondE, bondS]) (by simp [dim, w2, bondE, bondS]) hsq
    refine ⟨t', ?_, qt.same qt' (by decide) (List.Perm.refl _) (fun _ => rfl)⟩
    try simp only [bondE, bondS] at v0 v1 v2 v3
    simp [absorbRight, hC1, hT1, hT, hT2, hC2, hA, e0, e1, size, sC1, sC2, sT, z0.2, z1.2, z2.2, z3.2, v0, v1, v2, v3, ea, eb, et']

end Verif.Ctm
