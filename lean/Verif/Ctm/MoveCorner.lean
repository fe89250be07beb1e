import Verif.Ctm.MoveSpec
import Verif.Ctm.AbsorbProps
/-
The enlarged corners of a fitting environment in both modes.
-/
namespace Verif.Ctm
open Tensor Spec
set_option linter.unusedSimpArgs false
variable {K : Type} [RCLike K]

theorem dl_site (st : State K) (c : Coord) : st.dl.site c = (st.site c).bind Corner.doubleLayer := rfl
theorem dl_vts (st : State K) (c : Coord) : st.dl.vts c = st.vts c := rfl

theorem c2x2LU_ok {D : Dims} {st : State K} {env : Env K} (hs : FitsState D st) (he : FitsEnv D st env) (c : Coord) :
    ∃ R R', c2x2LU st.dl env false c = some R ∧ c2x2LU st env true c = some R' ∧ Same R R' ∧
      R.shape = [D.el (dn c) * (D.U (dn c) * D.U (dn c)), D.eu (rt c) * (D.L (rt c) * D.L (rt c))] := by
  obtain ⟨A, hA, sA⟩ := hs.site c
  obtain ⟨C, hC, sC⟩ := he.lu c
  obtain ⟨T1, h1, s1⟩ := he.tu c
  obtain ⟨T2, h2, s2⟩ := he.tl c
  let dim : Nat → Nat := fun l => [D.el c, D.eu c, D.eu (rt c), D.el (dn c), D.U c, D.U c, D.L c, D.L c, D.U (dn c), D.U (dn c), D.L (rt c), D.L (rt c), D.p c, D.p c].getD l 0
  have hsite : Corner.Spec.Site dim A := ⟨by simp [dim, sA], rfl, rfl, rfl, rfl, rfl⟩
  obtain ⟨B, R, e1, e2, q⟩ := Corner.luDl_closed dim C T1 T2 A hsite (by simp [dim, sC]) (by simp [dim, s1]) (by simp [dim, s2])
  obtain ⟨R', e3, q'⟩ := Corner.luSl_closed dim C T1 T2 A hsite (by simp [dim, sC]) (by simp [dim, s1]) (by simp [dim, s2])
  refine ⟨R, R', ?_, ?_, q.same q' (by decide) (List.Perm.refl _) (fun _ => rfl), ?_⟩
  · simp [c2x2LU, dl_vts, dl_site, hC, h1, h2, hA, e1, e2]
  · simp [c2x2LU, hC, h1, h2, hA, e3]
  · simp [q.shape, gdim, dim]

theorem c2x2RU_ok {D : Dims} {st : State K} {env : Env K} (hs : FitsState D st) (he : FitsEnv D st env) (c : Coord) :
    ∃ R R', c2x2RU st.dl env false c = some R ∧ c2x2RU st env true c = some R' ∧ Same R R' ∧
      R.shape = [D.eu c * (D.L c * D.L c), D.er (dn c) * (D.U (dn c) * D.U (dn c))] := by
  obtain ⟨A, hA, sA⟩ := hs.site c
  obtain ⟨C, hC, sC⟩ := he.ru c
  obtain ⟨T1, h1, s1⟩ := he.tr c
  obtain ⟨T2, h2, s2⟩ := he.tu c
  let dim : Nat → Nat := fun l => [D.eu (rt c), D.er c, D.er (dn c), D.eu c, D.U c, D.U c, D.L c, D.L c, D.U (dn c), D.U (dn c), D.L (rt c), D.L (rt c), D.p c, D.p c].getD l 0
  have hsite : Corner.Spec.Site dim A := ⟨by simp [dim, sA], rfl, rfl, rfl, rfl, rfl⟩
  obtain ⟨B, R, e1, e2, q⟩ := Corner.ruDl_closed dim C T1 T2 A hsite (by simp [dim, sC]) (by simp [dim, s1]) (by simp [dim, s2])
  obtain ⟨R', e3, q'⟩ := Corner.ruSl_closed dim C T1 T2 A hsite (by simp [dim, sC]) (by simp [dim, s1]) (by simp [dim, s2])
  refine ⟨R, R', ?_, ?_, q.same q' (by decide) (List.Perm.refl _) (fun _ => rfl), ?_⟩
  · simp [c2x2RU, dl_vts, dl_site, hC, h1, h2, hA, e1, e2]
  · simp [c2x2RU, hC, h1, h2, hA, e3]
  · simp [q.shape, gdim, dim]

theorem c2x2RD_ok {D : Dims} {st : State K} {env : Env K} (hs : FitsState D st) (he : FitsEnv D st env) (c : Coord) :
    ∃ R R', c2x2RD st.dl env false c = some R ∧ c2x2RD st env true c = some R' ∧ Same R R' ∧
      R.shape = [D.er c * (D.U c * D.U c), D.ed c * (D.L c * D.L c)] := by
  obtain ⟨A, hA, sA⟩ := hs.site c
  obtain ⟨C, hC, sC⟩ := he.rd c
  obtain ⟨T1, h1, s1⟩ := he.td c
  obtain ⟨T2, h2, s2⟩ := he.tr c
  let dim : Nat → Nat := fun l => [D.er (dn c), D.ed (rt c), D.ed c, D.er c, D.U c, D.U c, D.L c, D.L c, D.U (dn c), D.U (dn c), D.L (rt c), D.L (rt c), D.p c, D.p c].getD l 0
  have hsite : Corner.Spec.Site dim A := ⟨by simp [dim, sA], rfl, rfl, rfl, rfl, rfl⟩
  obtain ⟨B, R, e1, e2, q⟩ := Corner.rdDl_closed dim C T1 T2 A hsite (by simp [dim, sC]) (by simp [dim, s1]) (by simp [dim, s2])
  obtain ⟨R', e3, q'⟩ := Corner.rdSl_closed dim C T1 T2 A hsite (by simp [dim, sC]) (by simp [dim, s1]) (by simp [dim, s2])
  refine ⟨R, R', ?_, ?_, q.same q' (by decide) (List.Perm.refl _) (fun _ => rfl), ?_⟩
  · simp [c2x2RD, dl_vts, dl_site, hC, h1, h2, hA, e1, e2]
  · simp [c2x2RD, hC, h1, h2, hA, e3]
  · simp [q.shape, gdim, dim]

theorem c2x2LD_ok {D : Dims} {st : State K} {env : Env K} (hs : FitsState D st) (he : FitsEnv D st env) (c : Coord) :
    ∃ R R', c2x2LD st.dl env false c = some R ∧ c2x2LD st env true c = some R' ∧ Same R R' ∧
      R.shape = [D.el c * (D.U c * D.U c), D.ed (rt c) * (D.L (rt c) * D.L (rt c))] := by
  obtain ⟨A, hA, sA⟩ := hs.site c
  obtain ⟨C, hC, sC⟩ := he.ld c
  obtain ⟨T1, h1, s1⟩ := he.tl c
  obtain ⟨T2, h2, s2⟩ := he.td c
  let dim : Nat → Nat := fun l => [D.el (dn c), D.ed c, D.el c, D.ed (rt c), D.U c, D.U c, D.L c, D.L c, D.U (dn c), D.U (dn c), D.L (rt c), D.L (rt c), D.p c, D.p c].getD l 0
  have hsite : Corner.Spec.Site dim A := ⟨by simp [dim, sA], rfl, rfl, rfl, rfl, rfl⟩
  obtain ⟨B, R, e1, e2, q⟩ := Corner.ldDl_closed dim C T1 T2 A hsite (by simp [dim, sC]) (by simp [dim, s1]) (by simp [dim, s2])
  obtain ⟨R', e3, q'⟩ := Corner.ldSl_closed dim C T1 T2 A hsite (by simp [dim, sC]) (by simp [dim, s1]) (by simp [dim, s2])
  refine ⟨R, R', ?_, ?_, q.same q' (by decide) (List.Perm.refl _) (fun _ => rfl), ?_⟩
  · simp [c2x2LD, dl_vts, dl_site, hC, h1, h2, hA, e1, e2]
  · simp [c2x2LD, hC, h1, h2, hA, e3]
  · simp [q.shape, gdim, dim]

end Verif.Ctm
