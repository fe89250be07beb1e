import Verif.Rdm.TripleNet
import Verif.Rdm.Props
/-
Property C34 (three-site MPO expectation values contract the drawn network).
-/
namespace Verif.Rdm
open Tensor Ctm Ctm.Spec
set_option linter.unusedSimpArgs false
set_option linter.unusedSectionVars false
variable {K : Type} [RCLike K]

namespace Spec
/-- The tensors around the row `c`, `rt c`, `rt (rt c)`. -/
structure AroundRow3 (st : State K) (env : Env K) (c : Coord) (e : Row3 K) : Prop where
  C1 : env.C (st.vts c, (-1, -1)) = some e.C1
  C2 : env.C (st.vts (rt (rt c)), (1, -1)) = some e.C2
  C3 : env.C (st.vts (rt (rt c)), (1, 1)) = some e.C3
  C4 : env.C (st.vts c, (-1, 1)) = some e.C4
  T1 : env.T (st.vts c, (0, -1)) = some e.T1
  T1x : env.T (st.vts (rt c), (0, -1)) = some e.T1x
  T1z : env.T (st.vts (rt (rt c)), (0, -1)) = some e.T1z
  T2 : env.T (st.vts (rt (rt c)), (1, 0)) = some e.T2
  T3 : env.T (st.vts c, (0, 1)) = some e.T3
  T3x : env.T (st.vts (rt c), (0, 1)) = some e.T3x
  T3z : env.T (st.vts (rt (rt c)), (0, 1)) = some e.T3z
  T4 : env.T (st.vts c, (-1, 0)) = some e.T4
  a : st.sites (st.vts c) = some e.a
  ax : st.sites (st.vts (rt c)) = some e.ax
  az : st.sites (st.vts (rt (rt c))) = some e.az

/-- The tensors around the column `c`, `dn c`, `dn (dn c)`. -/
structure AroundCol3 (st : State K) (env : Env K) (c : Coord) (e : Col3 K) : Prop where
  C1 : env.C (st.vts c, (-1, -1)) = some e.C1
  C2 : env.C (st.vts c, (1, -1)) = some e.C2
  C3 : env.C (st.vts (dn (dn c)), (1, 1)) = some e.C3
  C4 : env.C (st.vts (dn (dn c)), (-1, 1)) = some e.C4
  T1 : env.T (st.vts c, (0, -1)) = some e.T1
  T2 : env.T (st.vts c, (1, 0)) = some e.T2
  T2y : env.T (st.vts (dn c), (1, 0)) = some e.T2y
  T2z : env.T (st.vts (dn (dn c)), (1, 0)) = some e.T2z
  T3 : env.T (st.vts (dn (dn c)), (0, 1)) = some e.T3
  T4 : env.T (st.vts c, (-1, 0)) = some e.T4
  T4y : env.T (st.vts (dn c), (-1, 0)) = some e.T4y
  T4z : env.T (st.vts (dn (dn c)), (-1, 0)) = some e.T4z
  a : st.sites (st.vts c) = some e.a
  ay : st.sites (st.vts (dn c)) = some e.ay
  az : st.sites (st.vts (dn (dn c))) = some e.az

/-- Sizes of the labels of the row; `B` are the sizes of the auxiliary indices of the MPO. -/
def dimsRow (D : Dims) (c : Coord) (B : Nat → Nat) (l : Nat) : Nat :=
  let x := rt c
  let z := rt (rt c)
  if l = 300 then B 0 else if l = 200 then B 1 else if l = 201 then B 2 else if l = 302 then B 3 else
  if 100 ≤ l then [D.p c, D.p x, D.p z].getD ((l - 100) / 2) 0 else
  [D.el c, D.eu c, D.U c, D.U c, D.eu x, D.U x, D.U x, D.eu z, D.U z, D.U z, D.eu (rt z), D.er z, D.L c, D.L x, D.L z, D.L (rt z), D.L c, D.L x, D.L z,
    D.L (rt z), D.U (dn c), D.U (dn c), D.U (dn x), D.U (dn x), D.U (dn z), D.U (dn z), D.el (dn c), D.er (dn z), D.ed c, D.ed x, D.ed z,
    D.ed (rt z)].getD l 0

/-- Sizes of the labels of the column. -/
def dimsCol (D : Dims) (c : Coord) (B : Nat → Nat) (l : Nat) : Nat :=
  let y := dn c
  let z := dn (dn c)
  if l = 300 then B 0 else if l = 200 then B 1 else if l = 201 then B 2 else if l = 301 then B 3 else
  if 100 ≤ l then [D.p c, D.p y, D.p z].getD ((l - 100) / 2) 0 else
  [D.el c, D.eu c, D.U c, D.L c, 0, D.U c, D.L c, 0, D.er c, D.eu (rt c), D.L (rt c), D.L (rt c), 0, 0, D.L y, 0, 0, D.L y, 0, 0, 0, 0, D.L (rt y),
    D.L (rt y), D.el y, D.U y, D.U y, D.er y, D.U z, D.U z, D.el z, D.er z, D.L z, 0, D.L (rt z), D.L z, D.L (rt z), D.U (dn z), D.U (dn z), D.el (dn z),
    D.er (dn z), D.ed z, D.ed (rt z)].getD l 0

/-- Three MPO tensors with axes (left, ket, right, bra) which fit the physical sizes `p`. -/
structure FitsMpo (B p : Nat → Nat) (m0 m1 m2 : Tensor K) : Prop where
  m0 : m0.shape = [B 0, p 0, B 1, p 0]
  m1 : m1.shape = [B 1, p 1, B 2, p 1]
  m2 : m2.shape = [B 2, p 2, B 3, p 2]
end Spec
open Spec

theorem row3_ok {D : Dims} {st : State K} {env : Env K} (hs : FitsState D st) (he : FitsEnv D st env) (c : Coord) {B : Nat → Nat} {m0 m1 m2 : Tensor K}
    (hm : FitsMpo B ([D.p c, D.p (rt c), D.p (rt (rt c))].getD · 0) m0 m1 m2) :
    ∃ e, row3 st env c = some e ∧ AroundRow3 st env c e ∧ FitsRow (dimsRow D c B) e m0 m1 m2 := by
  obtain ⟨C1, h1, s1⟩ := he.lu c
  obtain ⟨C2, h2, s2⟩ := he.ru (rt (rt c))
  obtain ⟨C3, h3, s3⟩ := he.rd (rt (rt c))
  obtain ⟨C4, h4, s4⟩ := he.ld c
  obtain ⟨T1, h5, s5⟩ := he.tu c
  obtain ⟨T1x, h6, s6⟩ := he.tu (rt c)
  obtain ⟨T1z, h7, s7⟩ := he.tu (rt (rt c))
  obtain ⟨T2, h8, s8⟩ := he.tr (rt (rt c))
  obtain ⟨T3, h9, s9⟩ := he.td c
  obtain ⟨T3x, h10, s10⟩ := he.td (rt c)
  obtain ⟨T3z, h11, s11⟩ := he.td (rt (rt c))
  obtain ⟨T4, h12, s12⟩ := he.tl c
  obtain ⟨a, h13, s13⟩ := hs.site c
  obtain ⟨ax, h14, s14⟩ := hs.site (rt c)
  obtain ⟨az, h15, s15⟩ := hs.site (rt (rt c))
  obtain ⟨i0, i1, i2⟩ := hm
  have er : (c.1 + 1, c.2) = rt c := rfl
  have ez : (c.1 + 2, c.2) = rt (rt c) := by unfold rt; simp only [Prod.mk.injEq, and_true]; omega
  refine ⟨⟨C1, C2, C3, C4, T1, T1x, T1z, T2, T3, T3x, T3z, T4, a, ax, az⟩,
    by simp [row3, er, ez, h1, h2, h3, h4, h5, h6, h7, h8, h9, h10, h11, h12, h13, h14, h15],
    ⟨h1, h2, h3, h4, h5, h6, h7, h8, h9, h10, h11, h12, h13, h14, h15⟩, ?_⟩
  constructor <;> first | rfl | (simp only [*, dimsRow]; rfl)

theorem col3_ok {D : Dims} {st : State K} {env : Env K} (hs : FitsState D st) (he : FitsEnv D st env) (c : Coord) {B : Nat → Nat} {m0 m1 m2 : Tensor K}
    (hm : FitsMpo B ([D.p c, D.p (dn c), D.p (dn (dn c))].getD · 0) m0 m1 m2) :
    ∃ e, col3 st env c = some e ∧ AroundCol3 st env c e ∧ FitsCol (dimsCol D c B) e m0 m1 m2 := by
  obtain ⟨C1, h1, s1⟩ := he.lu c
  obtain ⟨C2, h2, s2⟩ := he.ru c
  obtain ⟨C3, h3, s3⟩ := he.rd (dn (dn c))
  obtain ⟨C4, h4, s4⟩ := he.ld (dn (dn c))
  obtain ⟨T1, h5, s5⟩ := he.tu c
  obtain ⟨T2, h6, s6⟩ := he.tr c
  obtain ⟨T2y, h7, s7⟩ := he.tr (dn c)
  obtain ⟨T2z, h8, s8⟩ := he.tr (dn (dn c))
  obtain ⟨T3, h9, s9⟩ := he.td (dn (dn c))
  obtain ⟨T4, h10, s10⟩ := he.tl c
  obtain ⟨T4y, h11, s11⟩ := he.tl (dn c)
  obtain ⟨T4z, h12, s12⟩ := he.tl (dn (dn c))
  obtain ⟨a, h13, s13⟩ := hs.site c
  obtain ⟨ay, h14, s14⟩ := hs.site (dn c)
  obtain ⟨az, h15, s15⟩ := hs.site (dn (dn c))
  obtain ⟨i0, i1, i2⟩ := hm
  have er : (c.1, c.2 + 1) = dn c := rfl
  have ez : (c.1, c.2 + 2) = dn (dn c) := by unfold dn; simp only [Prod.mk.injEq, true_and]; omega
  refine ⟨⟨C1, C2, C3, C4, T1, T2, T2y, T2z, T3, T4, T4y, T4z, a, ay, az⟩,
    by simp [col3, er, ez, h1, h2, h3, h4, h5, h6, h7, h8, h9, h10, h11, h12, h13, h14, h15],
    ⟨h1, h2, h3, h4, h5, h6, h7, h8, h9, h10, h11, h12, h13, h14, h15⟩, ?_⟩
  constructor <;> first | rfl | (simp only [*, dimsCol]; rfl)

/-- C34, column: the drawn network is contracted if the right bonds of the second and the third site have the same size (missing: unequal sizes,
see `C34_column_violated`). -/
theorem C34_column_partial {D : Dims} {st : State K} {env : Env K} (hs : FitsState D st) (he : FitsEnv D st env) (c : Coord) (B : Nat → Nat)
    (m0 m1 m2 : Tensor K) (hm : FitsMpo B ([D.p c, D.p (dn c), D.p (dn (dn c))].getD · 0) m0 m1 m2) (hL : D.L (rt (dn (dn c))) = D.L (rt (dn c))) :
    ∃ e r, AroundCol3 st env c e ∧ evalMpo3x1 st env c [m0, m1, m2] = some r ∧
      Corner.Spec.IsNetwork (dimsCol D c B) r [] labelsCol (netCol (dimsCol D c B) e m0 m1 m2) := by
  obtain ⟨e, e1, h1, h2⟩ := col3_ok hs he c hm
  obtain ⟨r, er, q⟩ := oeCol _ e m0 m1 m2 h2 (by simpa [dimsCol] using hL)
  exact ⟨e, r, h1, by unfold evalMpo3x1; simp only [e1]; exact er, Corner.isNetwork q⟩

/-- C34, column: with right bonds of different sizes the call raises. -/
theorem C34_column_violated {D : Dims} {st : State K} {env : Env K} (hs : FitsState D st) (he : FitsEnv D st env) (c : Coord)
    (mpo : List (Tensor K)) (hL : D.L (rt (dn (dn c))) ≠ D.L (rt (dn c))) : evalMpo3x1 st env c mpo = none := by
  unfold evalMpo3x1
  split
  · rename_i m0 m1 m2
    have hm : FitsMpo (fun _ => 1) ([D.p c, D.p (dn c), D.p (dn (dn c))].getD · 0)
      (⟨[1, D.p c, 1, D.p c], fun _ => 0⟩ : Tensor K) ⟨[1, D.p (dn c), 1, D.p (dn c)], fun _ => 0⟩ ⟨[1, D.p (dn (dn c)), 1, D.p (dn (dn c))], fun _ => 0⟩ := ⟨rfl, rfl, rfl⟩
    obtain ⟨e, e1, -, h2⟩ := col3_ok hs he c hm
    have z : view [e.T2z.size 0, e.ay.size 4, e.ay.size 4, e.T2z.size 2] e.T2z = none := by
      unfold view
      rw [if_neg]
      have p1 := (he.er).1 (dn (dn c))
      have p2 := (he.er).1 (dn (dn (dn c)))
      simp only [size, h2.T2z, h2.ay, dimsCol]
      intro h
      apply hL
      simp only [List.prod_cons, List.prod_nil, mul_one, List.getD_cons_zero, List.getD_cons_succ] at h
      have h' : D.er (dn (dn c)) * (D.L (rt (dn c)) * (D.L (rt (dn c)) * D.er (dn (dn (dn c))))) =
        D.er (dn (dn c)) * (D.L (rt (dn (dn c))) * D.L (rt (dn (dn c))) * D.er (dn (dn (dn c)))) := h
      have h3 := Nat.eq_of_mul_eq_mul_left p1 h'
      rw [← mul_assoc] at h3
      exact (Nat.mul_self_inj.1 (Nat.eq_of_mul_eq_mul_right p2 h3)).symm
    simp only [e1, Option.bind_eq_bind, Option.bind_some]
    have hsplit : e.split = none := by
      unfold Col3.split
      simp only [z, Option.bind_eq_bind, Option.bind_none]
      cases view [e.T1.size 0, e.a.size 1, e.a.size 1, e.T1.size 2] e.T1 <;> cases view [e.T2.size 0, e.a.size 4, e.a.size 4, e.T2.size 2] e.T2 <;>
        cases view [e.T2y.size 0, e.ay.size 4, e.ay.size 4, e.T2y.size 2] e.T2y <;> rfl
    rw [hsplit]
    rfl
  · rfl

/-- C34, row: the drawn network is contracted if the upper bond of the third site has size one (missing: all other sizes, see `C34_row_violated`). -/
theorem C34_row_partial {D : Dims} {st : State K} {env : Env K} (hs : FitsState D st) (he : FitsEnv D st env) (c : Coord) (B : Nat → Nat)
    (m0 m1 m2 : Tensor K) (hm : FitsMpo B ([D.p c, D.p (rt c), D.p (rt (rt c))].getD · 0) m0 m1 m2) (hU : D.U (rt (rt c)) = 1) :
    ∃ e r, AroundRow3 st env c e ∧ evalMpo1x3 st env c [m0, m1, m2] = some r ∧
      Corner.Spec.IsNetwork (dimsRow D c B) r [] labelsRow (netRow (dimsRow D c B) e m0 m1 m2) := by
  obtain ⟨e, e1, h1, h2⟩ := row3_ok hs he c hm
  obtain ⟨r, er, q⟩ := oeRow _ e m0 m1 m2 h2
  refine ⟨e, r, h1, by unfold evalMpo1x3; simp only [e1]; exact er, ?_⟩
  obtain ⟨n1, n2⟩ := Corner.isNetwork q
  refine ⟨n1, fun σ hσ => ?_⟩
  rw [n2 σ hσ]
  apply sumOver_congr
  intro τ hτ _
  have t8 : τ 8 < D.U (rt (rt c)) := hτ 8 (by decide)
  have t9 : τ 9 < D.U (rt (rt c)) := hτ 9 (by decide)
  have e89 : τ 8 = τ 9 := by omega
  simp only [codeRow, netRow, e89]
  ring

/-! ### The row for other sizes -/

theorem sumOver_ones (dim : Nat → Nat) (ls : List Nat) (h : ∀ l ∈ ls, dim l = 1) (F : (Nat → Nat) → K) (σ : Nat → Nat) (hσ : ∀ l ∈ ls, σ l = 0) :
    sumOver dim ls F σ = F σ := by
  induction ls generalizing σ with
  | nil => rfl
  | cons a ls ih =>
    have hu : Function.update σ a 0 = σ := by
      funext l
      by_cases hl : l = a
      · rw [hl, Function.update_self, hσ a (by simp)]
      · rw [Function.update_of_ne hl]
    simp only [sumOver, h a (by simp), Finset.range_one, Finset.sum_singleton, hu]
    exact ih (fun l hl => h l (by simp [hl])) σ (fun l hl => hσ l (by simp [hl]))

/-- Only the upper bond of the vertices `(2 mod 3, 0 mod 2)` has two values. -/
def wDims : Dims := ⟨fun _ => 1, fun c => if c.1 % 3 = 2 ∧ c.2 % 2 = 0 then 2 else 1, fun _ => 1, fun _ => 1, fun _ => 1, fun _ => 1, fun _ => 1⟩

/-- All tensors are one but that of site `(2, 0)`, which is `1, -1`. -/
def wState : State ℝ :=
  { keys := [(0, 0), (1, 0), (2, 0), (0, 1), (1, 1), (2, 1)]
    sites := fun c => if c = (2, 0) then some ⟨[1, 2, 1, 1, 1], fun idx => if idx.getD 1 0 = 0 then 1 else -1⟩
      else some (exOnes [1, 1, 1, wDims.U (dn c), 1])
    vts := fun c => (c.1 % 3, c.2 % 2), lX := 3, lY := 2 }

theorem wU (c : Coord) : wDims.U (c.1 % 3, c.2 % 2) = wDims.U c := by
  show (if (c.1 % 3) % 3 = 2 ∧ (c.2 % 2) % 2 = 0 then 2 else 1) = if c.1 % 3 = 2 ∧ c.2 % 2 = 0 then 2 else 1
  rw [Int.emod_emod, Int.emod_emod]
theorem wUd (c : Coord) : wDims.U (dn (c.1 % 3, c.2 % 2)) = wDims.U (dn c) := by
  show (if (c.1 % 3) % 3 = 2 ∧ (c.2 % 2 + 1) % 2 = 0 then 2 else 1) = if c.1 % 3 = 2 ∧ (c.2 + 1) % 2 = 0 then 2 else 1
  rw [Int.emod_emod, Int.emod_add_emod]

theorem wFitsState : FitsState wDims wState := by
  have one : Sizes wState (fun _ => 1) := ⟨fun _ => Nat.one_pos, fun _ => rfl⟩
  refine ⟨fun c => ?_, one, ⟨fun c => ?_, fun c => wU c⟩, one⟩
  · show Has (wState.sites (c.1 % 3, c.2 % 2)) _
    by_cases h : (c.1 % 3, c.2 % 2) = ((2, 0) : Coord)
    · refine ⟨_, if_pos h, ?_⟩
      simp only [Prod.mk.injEq] at h
      have h2 : ¬ (c.2 + 1) % 2 = 0 := by omega
      have h3 : wDims.U c = 2 := if_pos h
      have h4 : wDims.U (dn c) = 1 := if_neg (fun h => h2 h.2)
      rw [h3, h4]; rfl
    · refine ⟨_, if_neg h, ?_⟩
      simp only [Prod.mk.injEq] at h
      simp only [exOnes, wUd]
      have h3 : wDims.U c = 1 := if_neg h
      rw [h3]; rfl
  · simp only [wDims]; split <;> decide

theorem wFitsEnv : FitsEnv wDims wState (exEnv wDims) := by
  have one : Sizes wState (fun _ => 1) := ⟨fun _ => Nat.one_pos, fun _ => rfl⟩
  refine ⟨?_, ?_, ?_, ?_, ?_, ?_, ?_, ?_, one, one, one, one⟩ <;>
  · intro c
    refine ⟨_, rfl, ?_⟩
    simp [exOnes, wState, wU, wUd]
    first | done | exact ⟨rfl, rfl⟩ | exact ⟨rfl, rfl, rfl⟩

/-- C34, row: the drawn network is not contracted for all states. -/
theorem C34_row_violated : ∃ (D : Dims) (st : State ℝ) (env : Env ℝ) (c : Coord) (B : Nat → Nat) (m0 m1 m2 : Tensor ℝ) (e : Row3 ℝ) (r : Tensor ℝ),
    FitsState D st ∧ FitsEnv D st env ∧ FitsMpo B ([D.p c, D.p (rt c), D.p (rt (rt c))].getD · 0) m0 m1 m2 ∧ AroundRow3 st env c e ∧
    evalMpo1x3 st env c [m0, m1, m2] = some r ∧ ¬ Corner.Spec.IsNetwork (dimsRow D c B) r [] labelsRow (netRow (dimsRow D c B) e m0 m1 m2) := by
  have hm : FitsMpo (fun _ => 1) ([wDims.p (0, 0), wDims.p (rt (0, 0)), wDims.p (rt (rt (0, 0)))].getD · 0) (exOnes [1, 1, 1, 1]) (exOnes [1, 1, 1, 1])
    (exOnes [1, 1, 1, 1]) := ⟨rfl, rfl, rfl⟩
  obtain ⟨e, e1, h1, h2⟩ := row3_ok wFitsState wFitsEnv (0, 0) hm
  obtain ⟨r, er, q⟩ := oeRow _ e _ _ _ h2
  refine ⟨wDims, wState, exEnv wDims, (0, 0), _, _, _, _, e, r, wFitsState, wFitsEnv, hm, h1, by unfold evalMpo1x3; simp only [e1]; exact er, ?_⟩
  intro hn
  have v1 := q.val (fun _ => 0) (by simp)
  have v2 := hn.2 (fun _ => 0) (by simp)
  simp only [List.map_nil] at v1 v2
  rw [v1] at v2
  have hT : ∀ k T, (exEnv wDims).T k = some T → T.val = fun _ => 1 := by
    intro k T h; simp only [exEnv] at h; injection h with h; rw [← h]; rfl
  have hC : ∀ k T, (exEnv wDims).C k = some T → T.val = fun _ => 1 := by
    intro k T h; simp only [exEnv] at h; injection h with h; rw [← h]; rfl
  have ha : e.a.val = fun _ => 1 := by
    have := h1.a; rw [show wState.sites (wState.vts (0, 0)) = some (exOnes [1, 1, 1, wDims.U (dn (0, 0)), 1]) from rfl] at this
    injection this with h; rw [← h]; rfl
  have hax : e.ax.val = fun _ => 1 := by
    have := h1.ax; rw [show wState.sites (wState.vts (rt (0, 0))) = some (exOnes [1, 1, 1, wDims.U (dn (1, 0)), 1]) from rfl] at this
    injection this with h; rw [← h]; rfl
  have haz : e.az.val = fun idx => if idx.getD 1 0 = 0 then 1 else -1 := by
    have := h1.az
    rw [show wState.sites (wState.vts (rt (rt (0, 0)))) = some ⟨[1, 2, 1, 1, 1], fun idx => if idx.getD 1 0 = 0 then 1 else -1⟩ from rfl] at this
    injection this with h; rw [← h]
  have f1 : codeRow (dimsRow wDims (0, 0) fun _ => 1) e (exOnes [1, 1, 1, 1]) (exOnes [1, 1, 1, 1]) (exOnes [1, 1, 1, 1]) =
      fun σ => (if σ 9 = 0 then 1 else -1) * (if σ 9 = 0 then 1 else -1) := by
    funext σ
    simp [codeRow, ha, hax, haz, hC _ _ h1.C1, hC _ _ h1.C2, hC _ _ h1.C3, hC _ _ h1.C4, hT _ _ h1.T1, hT _ _ h1.T1x, hT _ _ h1.T1z, hT _ _ h1.T2,
      hT _ _ h1.T3, hT _ _ h1.T3x, hT _ _ h1.T3z, hT _ _ h1.T4, exOnes]
  have f2 : netRow (dimsRow wDims (0, 0) fun _ => 1) e (exOnes [1, 1, 1, 1]) (exOnes [1, 1, 1, 1]) (exOnes [1, 1, 1, 1]) =
      fun σ => (if σ 8 = 0 then 1 else -1) * (if σ 9 = 0 then 1 else -1) := by
    funext σ
    simp [netRow, ha, hax, haz, hC _ _ h1.C1, hC _ _ h1.C2, hC _ _ h1.C3, hC _ _ h1.C4, hT _ _ h1.T1, hT _ _ h1.T1x, hT _ _ h1.T1z, hT _ _ h1.T2,
      hT _ _ h1.T3, hT _ _ h1.T3x, hT _ _ h1.T3z, hT _ _ h1.T4, exOnes]
  have hp : labelsRow.Perm ([8, 9] ++ labelsRow.filter (fun l => l ≠ 8 ∧ l ≠ 9)) := by decide
  have ev : ∀ g : Nat → Nat → ℝ, sumOver (dimsRow wDims (0, 0) fun _ => 1) labelsRow (fun σ => g (σ 8) (σ 9)) (fun _ => 0) = g 0 0 + g 0 1 + (g 1 0 + g 1 1) := by
    intro g
    rw [sumOver_perm _ hp, sumOver_append]
    have hin : ∀ σ, sumOver (dimsRow wDims (0, 0) fun _ => 1) (labelsRow.filter (fun l => l ≠ 8 ∧ l ≠ 9)) (fun σ => g (σ 8) (σ 9)) σ = g (σ 8) (σ 9) := by
      intro σ
      rw [sumOver_local (dimsRow wDims (0, 0) fun _ => 1) (labelsRow.filter (fun l => l ≠ 8 ∧ l ≠ 9)) [8, 9] _ (fun σ τ h => by
        simp only [h 8 (by simp), h 9 (by simp)]) σ (fun l => if l = 8 ∨ l = 9 then σ l else 0) (fun l hl _ => by
          simp only [List.mem_cons, List.not_mem_nil, or_false] at hl; simp [hl])]
      rw [sumOver_ones _ _ (by decide) _ _ (by
        intro l hl
        simp only [List.mem_filter, decide_eq_true_eq] at hl
        simp [hl.2])]
      simp
    rw [sumOver_congr _ _ _ (fun σ => g (σ 8) (σ 9)) _ (fun τ _ _ => hin τ)]
    have d8 : dimsRow wDims (0, 0) (fun _ => 1) 8 = 2 := rfl
    have d9 : dimsRow wDims (0, 0) (fun _ => 1) 9 = 2 := rfl
    simp [sumOver, d8, d9, Finset.sum_range_succ, Function.update_apply]
  rw [f1, f2, ev (fun a b => (if b = 0 then 1 else -1) * (if b = 0 then 1 else -1)), ev (fun a b => (if a = 0 then 1 else -1) * (if b = 0 then 1 else -1))] at v2
  norm_num at v2

/-! ### Hypotheses are met -/

/-- Left bonds of different sizes in the two rows. -/
def vDims : Dims := ⟨fun _ => 1, fun _ => 1, fun c => if c.2 % 2 = 0 then 2 else 3, fun _ => 1, fun _ => 1, fun _ => 1, fun _ => 1⟩

def vState : State ℝ :=
  { keys := [(0, 0), (0, 1)], sites := fun c => some (exOnes [1, 1, vDims.L c, 1, vDims.L (rt c)]), vts := fun c => (0, c.2 % 2), lX := 1, lY := 2 }

theorem vFitsState : FitsState vDims vState := by
  have one : Sizes vState (fun _ => 1) := ⟨fun _ => Nat.one_pos, fun _ => rfl⟩
  have hL : ∀ c : Coord, vDims.L (0, c.2 % 2) = vDims.L c := by
    intro c
    show (if (c.2 % 2) % 2 = 0 then 2 else 3) = if c.2 % 2 = 0 then 2 else 3
    rw [Int.emod_emod]
  refine ⟨fun c => ⟨_, rfl, ?_⟩, one, one, ⟨fun c => ?_, hL⟩⟩
  · show [1, 1, vDims.L (0, c.2 % 2), 1, vDims.L (0, c.2 % 2)] = _
    rw [hL]; rfl
  · simp only [vDims]; split <;> decide

theorem vFitsEnv : FitsEnv vDims vState (exEnv vDims) := by
  have one : Sizes vState (fun _ => 1) := ⟨fun _ => Nat.one_pos, fun _ => rfl⟩
  have hL : ∀ c : Coord, vDims.L (0, c.2 % 2) = vDims.L c := by
    intro c
    show (if (c.2 % 2) % 2 = 0 then 2 else 3) = if c.2 % 2 = 0 then 2 else 3
    rw [Int.emod_emod]
  have hR : ∀ c : Coord, vDims.L (rt (0, c.2 % 2)) = vDims.L (rt c) := fun c => hL c
  refine ⟨?_, ?_, ?_, ?_, ?_, ?_, ?_, ?_, one, one, one, one⟩ <;>
  · intro c
    refine ⟨_, rfl, ?_⟩
    simp [exOnes, vState, hL, hR]
    first | done | exact ⟨rfl, rfl⟩ | exact ⟨rfl, rfl, rfl⟩

example : evalMpo3x1 vState (exEnv vDims) (0, 0) [exOnes [1, 1, 1, 1], exOnes [1, 1, 1, 1], exOnes [1, 1, 1, 1]] = none :=
  C34_column_violated vFitsState vFitsEnv (0, 0) _ (by decide)
example := C34_column_partial (exFitsState (l := 2) (l' := 3) (by decide) (by decide)) cellFits (1, 4) (fun x => x + 1) (exOnes [1, 2, 2, 2]) (exOnes [2, 2, 3, 2])
  (exOnes [3, 2, 4, 2]) ⟨rfl, rfl, rfl⟩ (by decide)
example := C34_row_partial wFitsState wFitsEnv (1, 0) (fun x => x + 1) (exOnes [1, 1, 2, 1]) (exOnes [2, 1, 3, 1]) (exOnes [3, 1, 4, 1]) ⟨rfl, rfl, rfl⟩ (by decide)

end Verif.Rdm
