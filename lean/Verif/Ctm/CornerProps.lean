import Verif.Ctm.CornerSpec
import Mathlib.Data.Complex.Basic
/-
Property C28: the enlarged corners equal their networks and the two contraction modes agree.
-/
namespace Verif.Corner
open Tensor
set_option linter.unusedSimpArgs false
set_option linter.unusedVariables false
variable {K : Type} [CommRing K] [StarRing K]

theorem isNetwork {dim : Nat → Nat} {T : Tensor K} {O : List (List Nat)} {L S : List Nat} {F : (Nat → Nat) → K} (h : Denotes dim T O L S F) :
    Spec.IsNetwork dim T O L F :=
  ⟨h.shape, fun σ hσ => h.val σ (fun l hl => by obtain ⟨g, h1, h2⟩ := List.mem_flatten.1 hl; exact hσ g h1 l h2)⟩

theorem fused_eq (dim σ : Nat → Nat) (k b : Nat) : gidx dim σ [k, b] = Spec.fused dim σ k b := by simp [gidx, ravel, Spec.fused]

theorem doubleLayer_denotes (dim : Nat → Nat) (a : Tensor K) (m e f g h a' b c d : Nat) (hn : [m, e, f, g, h, a', b, c, d].Nodup)
    (ha : a.shape = [dim m, dim e, dim f, dim g, dim h]) (h1 : dim a' = dim e) (h2 : dim b = dim f) (h3 : dim c = dim g) (h4 : dim d = dim h) :
    ∃ A, doubleLayer a = some A ∧ Denotes dim A [[e, a'], [f, b], [g, c], [h, d]] [m] [m, e, f, g, h, m, a', b, c, d]
      (fun σ => a.val [σ m, σ e, σ f, σ g, σ h] * star (a.val [σ m, σ a', σ b, σ c, σ d])) := by
  let r : Nat → Nat := fun l => [m, e, f, g, h, a', b, c, d].getD l 0
  let dim0 : Nat → Nat := fun l => dim (r l)
  have d0 := Denotes.leaf dim0 a (singles [0, 1, 2, 3, 4]) (by simp [singles, dim0, r, ha])
  have d1 := (Denotes.leaf dim0 a (singles [0, 5, 6, 7, 8]) (by simp [singles, dim0, r, ha, h1, h2, h3, h4])).conj
  obtain ⟨x1, e1, q1⟩ := Denotes.einsum' (OpsNet.cons d0 (OpsNet.cons d1 OpsNet.nil)) [1, 5, 2, 6, 3, 7, 4, 8] (by decide)
  obtain ⟨x2, e2, q2⟩ := q1.view [[1, 5], [2, 6], [3, 7], [4, 8]] [a.size 1 ^ 2, a.size 2 ^ 2, a.size 3 ^ 2, a.size 4 ^ 2] (by decide)
    (by simp [size, gdim, ha, h1, h2, h3, h4, dim0, r, pow_two])
  refine ⟨x2, by simp [doubleLayer, e1, e2], ?_⟩
  have hinj : ∀ i ∈ List.range 9, ∀ j ∈ List.range 9, r i = r j → i = j := by
    intro i hi j hj hij
    rw [List.mem_range] at hi hj
    have hi' : i < [m, e, f, g, h, a', b, c, d].length := hi
    have hj' : j < [m, e, f, g, h, a', b, c, d].length := hj
    simp only [r, List.getD_eq_getElem?_getD, List.getElem?_eq_getElem hi', List.getElem?_eq_getElem hj', Option.getD_some] at hij
    exact (List.Nodup.getElem_inj_iff hn).1 hij
  have q3 := q2.rename (dim' := dim) r (List.range 9) hinj (fun _ _ => rfl) (by decide) (by decide) (by decide)
  refine q3.congr (List.Perm.refl _) ?_ ?_
  · intro l hl; simpa [r, singles] using hl
  · intro σ
    simp [singles, r]

theorem doubleLayerOpen_denotes (dim : Nat → Nat) (a : Tensor K) (m e f g h a' b c d n : Nat) (hn : [m, e, f, g, h, a', b, c, d, n].Nodup)
    (ha : a.shape = [dim m, dim e, dim f, dim g, dim h]) (h1 : dim a' = dim e) (h2 : dim b = dim f) (h3 : dim c = dim g) (h4 : dim d = dim h) (h5 : dim n = dim m) :
    ∃ A, doubleLayerOpen a = some A ∧ Denotes dim A [[m], [n], [e, a'], [f, b], [g, c], [h, d]] [] [m, e, f, g, h, n, a', b, c, d]
      (fun σ => a.val [σ m, σ e, σ f, σ g, σ h] * star (a.val [σ n, σ a', σ b, σ c, σ d])) := by
  let r : Nat → Nat := fun l => [m, e, f, g, h, a', b, c, d, n].getD l 0
  let dim0 : Nat → Nat := fun l => dim (r l)
  have d0 := Denotes.leaf dim0 a (singles [0, 1, 2, 3, 4]) (by simp [singles, dim0, r, ha])
  have d1 := (Denotes.leaf dim0 a (singles [9, 5, 6, 7, 8]) (by simp [singles, dim0, r, ha, h1, h2, h3, h4, h5])).conj
  obtain ⟨x1, e1, q1⟩ := Denotes.einsum' (OpsNet.cons d0 (OpsNet.cons d1 OpsNet.nil)) [0, 9, 1, 5, 2, 6, 3, 7, 4, 8] (by decide)
  obtain ⟨x2, e2, q2⟩ := q1.view [[0], [9], [1, 5], [2, 6], [3, 7], [4, 8]] [a.size 0, a.size 0, a.size 1 ^ 2, a.size 2 ^ 2, a.size 3 ^ 2, a.size 4 ^ 2] (by decide)
    (by simp [size, gdim, ha, h1, h2, h3, h4, h5, dim0, r, pow_two])
  refine ⟨x2, by simp [doubleLayerOpen, e1, e2], ?_⟩
  have hinj : ∀ i ∈ List.range 10, ∀ j ∈ List.range 10, r i = r j → i = j := by
    intro i hi j hj hij
    rw [List.mem_range] at hi hj
    have hi' : i < [m, e, f, g, h, a', b, c, d, n].length := hi
    have hj' : j < [m, e, f, g, h, a', b, c, d, n].length := hj
    simp only [r, List.getD_eq_getElem?_getD, List.getElem?_eq_getElem hi', List.getElem?_eq_getElem hj', Option.getD_some] at hij
    exact (List.Nodup.getElem_inj_iff hn).1 hij
  have q3 := q2.rename (dim' := dim) r (List.range 10) hinj (fun _ _ => rfl) (by decide) (by decide) (by decide)
  refine q3.congr (List.Perm.refl _) ?_ ?_
  · intro l hl; simpa [r, singles] using hl
  · intro σ
    simp [singles, r]

theorem luSl_closed (dim : Nat → Nat) (C T1 T2 a : Tensor K) (ha : Spec.Site dim a)
    (hC : C.shape = [dim 0, dim 1]) (h1 : T1.shape = [dim 1, dim 4 * dim 5, dim 2]) (h2 : T2.shape = [dim 0, dim 3, dim 6 * dim 7]) :
    ∃ R, luSl C T1 T2 a false = some R ∧
      Denotes dim R [[3, 8, 9], [2, 10, 11]] [0, 1, 4, 5, 6, 7, 12] [0, 1, 2, 3, 4, 5, 6, 7, 8, 9, 10, 11, 12] (Spec.lu dim C T1 T2 a 12) := by
  obtain ⟨hs, h5, h7, h9, h11, h13⟩ := ha
  have dC := Denotes.leaf dim C [[0], [1]] (by simp [gdim, hC])
  have dT1 := Denotes.leaf dim T1 [[1], [4, 5], [2]] (by simp [gdim, h1])
  have dT2 := Denotes.leaf dim T2 [[0], [3], [6, 7]] (by simp [gdim, h2])
  have da := Denotes.leaf dim a [[12], [4], [6], [8], [10]] (by simp [gdim, hs])
  have db := (Denotes.leaf dim a [[12], [5], [7], [9], [11]] (by simp [gdim, hs, h5, h7, h9, h11, h13])).conj
  obtain ⟨x1, e1, q1⟩ := Denotes.tensordot dC dT1 [1] [0] (dotOK_iff (by decide))
  obtain ⟨x2, e2, q2⟩ := Denotes.tensordot q1 dT2 [0] [0] (dotOK_iff (by decide))
  obtain ⟨x3, e3, q3⟩ := Denotes.view q2 [[4], [5], [2], [3], [6], [7]] [a.size 1, a.size 1, T1.size 2, T2.size 1, a.size 2, a.size 2] (by decide) (by simp [size, gdim, pow_two, hC, h1, h2, hs, h5, h7, h9, h11, h13])
  obtain ⟨x4, e4, q4⟩ := Denotes.tensordot q3 da [0, 4] [1, 2] (dotOK_iff (by decide))
  obtain ⟨x5, e5, q5⟩ := Denotes.tensordot q4 db [0, 3, 4] [1, 2, 0] (dotOK_iff (by decide))
  obtain ⟨x6, e6, q6⟩ := Denotes.permute q5 [1, 2, 4, 0, 3, 5] (by decide)
  obtain ⟨x7, e7, q7⟩ := Denotes.view q6 [[3, 8, 9], [2, 10, 11]] [T2.size 1 * a.size 3 ^ 2, T1.size 2 * a.size 4 ^ 2] (by decide) (by simp [size, gdim, pow_two, hC, h1, h2, hs, h5, h7, h9, h11, h13])
  refine ⟨x7, by simp [luSl, e1, e2, e3, e4, e5, e6, e7], q7.congr (by decide) (by decide) ?_⟩
  · intro σ
    simp only [Spec.lu, Spec.site, List.map_cons, List.map_nil, gidx_single, fused_eq] <;> ring

theorem luDl_closed (dim : Nat → Nat) (C T1 T2 a : Tensor K) (ha : Spec.Site dim a)
    (hC : C.shape = [dim 0, dim 1]) (h1 : T1.shape = [dim 1, dim 4 * dim 5, dim 2]) (h2 : T2.shape = [dim 0, dim 3, dim 6 * dim 7]) :
    ∃ A R, doubleLayer a = some A ∧ luDl C T1 T2 A false = some R ∧
      Denotes dim R [[3, 8, 9], [2, 10, 11]] [0, 1, 4, 5, 6, 7, 12] [0, 1, 2, 3, 4, 5, 6, 7, 8, 9, 10, 11, 12] (Spec.lu dim C T1 T2 a 12) := by
  obtain ⟨hs, h5, h7, h9, h11, h13⟩ := ha
  have dC := Denotes.leaf dim C [[0], [1]] (by simp [gdim, hC])
  have dT1 := Denotes.leaf dim T1 [[1], [4, 5], [2]] (by simp [gdim, h1])
  have dT2 := Denotes.leaf dim T2 [[0], [3], [6, 7]] (by simp [gdim, h2])
  obtain ⟨A, eA, dA⟩ := doubleLayer_denotes dim a 12 4 6 8 10 5 7 9 11 (by decide) hs h5 h7 h9 h11
  have hA : A.shape = [dim 4 * dim 5, dim 6 * dim 7, dim 8 * dim 9, dim 10 * dim 11] := by simp [dA.shape, gdim]
  obtain ⟨x1, e1, q1⟩ := Denotes.tensordot dC dT1 [1] [0] (dotOK_iff (by decide))
  obtain ⟨x2, e2, q2⟩ := Denotes.tensordot q1 dT2 [0] [0] (dotOK_iff (by decide))
  obtain ⟨x3, e3, q3⟩ := Denotes.tensordot q2 dA [0, 3] [0, 1] (dotOK_iff (by decide))
  obtain ⟨x4, e4, q4⟩ := Denotes.permute q3 [1, 2, 0, 3] (by decide)
  obtain ⟨x5, e5, q5⟩ := Denotes.view q4 [[3, 8, 9], [2, 10, 11]] [T2.size 1 * A.size 2, T1.size 2 * A.size 3] (by decide) (by simp [size, gdim, pow_two, hC, h1, h2, hA])
  refine ⟨A, x5, eA, by simp [luDl, e1, e2, e3, e4, e5], q5.congr (by decide) (by decide) ?_⟩
  · intro σ
    simp only [Spec.lu, Spec.site, List.map_cons, List.map_nil, gidx_single, fused_eq] <;> ring

theorem luSl_open (dim : Nat → Nat) (C T1 T2 a : Tensor K) (ha : Spec.Site dim a)
    (hC : C.shape = [dim 0, dim 1]) (h1 : T1.shape = [dim 1, dim 4 * dim 5, dim 2]) (h2 : T2.shape = [dim 0, dim 3, dim 6 * dim 7]) :
    ∃ R, luSl C T1 T2 a true = some R ∧
      Denotes dim R [[3, 8, 9], [2, 10, 11], [12], [13]] [0, 1, 4, 5, 6, 7] [0, 1, 2, 3, 4, 5, 6, 7, 8, 9, 10, 11, 12, 13] (Spec.lu dim C T1 T2 a 13) := by
  obtain ⟨hs, h5, h7, h9, h11, h13⟩ := ha
  have dC := Denotes.leaf dim C [[0], [1]] (by simp [gdim, hC])
  have dT1 := Denotes.leaf dim T1 [[1], [4, 5], [2]] (by simp [gdim, h1])
  have dT2 := Denotes.leaf dim T2 [[0], [3], [6, 7]] (by simp [gdim, h2])
  have da := Denotes.leaf dim a [[12], [4], [6], [8], [10]] (by simp [gdim, hs])
  have db := (Denotes.leaf dim a [[13], [5], [7], [9], [11]] (by simp [gdim, hs, h5, h7, h9, h11, h13])).conj
  obtain ⟨x1, e1, q1⟩ := Denotes.tensordot dC dT1 [1] [0] (dotOK_iff (by decide))
  obtain ⟨x2, e2, q2⟩ := Denotes.tensordot q1 dT2 [0] [0] (dotOK_iff (by decide))
  obtain ⟨x3, e3, q3⟩ := Denotes.view q2 [[4], [5], [2], [3], [6], [7]] [a.size 1, a.size 1, T1.size 2, T2.size 1, a.size 2, a.size 2] (by decide) (by simp [size, gdim, pow_two, hC, h1, h2, hs, h5, h7, h9, h11, h13])
  obtain ⟨x4, e4, q4⟩ := Denotes.tensordot q3 da [0, 4] [1, 2] (dotOK_iff (by decide))
  obtain ⟨x5, e5, q5⟩ := Denotes.tensordot q4 db [0, 3] [1, 2] (dotOK_iff (by decide))
  obtain ⟨x6, e6, q6⟩ := Denotes.permute q5 [1, 3, 6, 0, 4, 7, 2, 5] (by decide)
  obtain ⟨x7, e7, q7⟩ := Denotes.view q6 [[3, 8, 9], [2, 10, 11], [12], [13]] [T2.size 1 * a.size 3 ^ 2, T1.size 2 * a.size 4 ^ 2, a.size 0, a.size 0] (by decide) (by simp [size, gdim, pow_two, hC, h1, h2, hs, h5, h7, h9, h11, h13])
  refine ⟨x7, by simp [luSl, e1, e2, e3, e4, e5, e6, e7], q7.congr (by decide) (by decide) ?_⟩
  · intro σ
    simp only [Spec.lu, Spec.site, List.map_cons, List.map_nil, gidx_single, fused_eq] <;> ring

theorem luDl_open (dim : Nat → Nat) (C T1 T2 a : Tensor K) (ha : Spec.Site dim a)
    (hC : C.shape = [dim 0, dim 1]) (h1 : T1.shape = [dim 1, dim 4 * dim 5, dim 2]) (h2 : T2.shape = [dim 0, dim 3, dim 6 * dim 7]) :
    ∃ A R, doubleLayerOpen a = some A ∧ luDl C T1 T2 A true = some R ∧
      Denotes dim R [[3, 8, 9], [2, 10, 11], [12], [13]] [0, 1, 4, 5, 6, 7] [0, 1, 2, 3, 4, 5, 6, 7, 8, 9, 10, 11, 12, 13] (Spec.lu dim C T1 T2 a 13) := by
  obtain ⟨hs, h5, h7, h9, h11, h13⟩ := ha
  have dC := Denotes.leaf dim C [[0], [1]] (by simp [gdim, hC])
  have dT1 := Denotes.leaf dim T1 [[1], [4, 5], [2]] (by simp [gdim, h1])
  have dT2 := Denotes.leaf dim T2 [[0], [3], [6, 7]] (by simp [gdim, h2])
  obtain ⟨A, eA, dA⟩ := doubleLayerOpen_denotes dim a 12 4 6 8 10 5 7 9 11 13 (by decide) hs h5 h7 h9 h11 h13
  have hA : A.shape = [dim 12, dim 13, dim 4 * dim 5, dim 6 * dim 7, dim 8 * dim 9, dim 10 * dim 11] := by simp [dA.shape, gdim]
  obtain ⟨x1, e1, q1⟩ := Denotes.tensordot dC dT1 [1] [0] (dotOK_iff (by decide))
  obtain ⟨x2, e2, q2⟩ := Denotes.tensordot q1 dT2 [0] [0] (dotOK_iff (by decide))
  obtain ⟨x3, e3, q3⟩ := Denotes.tensordot q2 dA [0, 3] [2, 3] (dotOK_iff (by decide))
  obtain ⟨x4, e4, q4⟩ := Denotes.permute q3 [1, 4, 0, 5, 2, 3] (by decide)
  obtain ⟨x5, e5, q5⟩ := Denotes.view q4 [[3, 8, 9], [2, 10, 11], [12], [13]] [T2.size 1 * A.size 4, T1.size 2 * A.size 5, A.size 0, A.size 1] (by decide) (by simp [size, gdim, pow_two, hC, h1, h2, hA])
  refine ⟨A, x5, eA, by simp [luDl, e1, e2, e3, e4, e5], q5.congr (by decide) (by decide) ?_⟩
  · intro σ
    simp only [Spec.lu, Spec.site, List.map_cons, List.map_nil, gidx_single, fused_eq] <;> ring

/-- Corner LU, closed: both modes succeed, give the network and agree. -/
theorem C28_LU_closed (dim : Nat → Nat) (C T1 T2 a : Tensor K) (ha : Spec.Site dim a)
    (hC : C.shape = [dim 0, dim 1]) (h1 : T1.shape = [dim 1, dim 4 * dim 5, dim 2]) (h2 : T2.shape = [dim 0, dim 3, dim 6 * dim 7]) :
    ∃ A R R', doubleLayer a = some A ∧ luDl C T1 T2 A false = some R ∧ luSl C T1 T2 a false = some R' ∧ Same R R' ∧
      Spec.IsNetwork dim R [[3, 8, 9], [2, 10, 11]] [0, 1, 4, 5, 6, 7, 12] (Spec.lu dim C T1 T2 a 12) := by
  obtain ⟨A, R, e1, e2, q⟩ := luDl_closed dim C T1 T2 a ha hC h1 h2
  obtain ⟨R', e3, q'⟩ := luSl_closed dim C T1 T2 a ha hC h1 h2
  exact ⟨A, R, R', e1, e2, e3, q.same q' (by decide) (List.Perm.refl _) (fun _ => rfl), isNetwork q⟩

/-- Corner LU with open physical indices. -/
theorem C28_LU_open (dim : Nat → Nat) (C T1 T2 a : Tensor K) (ha : Spec.Site dim a)
    (hC : C.shape = [dim 0, dim 1]) (h1 : T1.shape = [dim 1, dim 4 * dim 5, dim 2]) (h2 : T2.shape = [dim 0, dim 3, dim 6 * dim 7]) :
    ∃ A R R', doubleLayerOpen a = some A ∧ luDl C T1 T2 A true = some R ∧ luSl C T1 T2 a true = some R' ∧ Same R R' ∧
      Spec.IsNetwork dim R [[3, 8, 9], [2, 10, 11], [12], [13]] [0, 1, 4, 5, 6, 7] (Spec.lu dim C T1 T2 a 13) := by
  obtain ⟨A, R, e1, e2, q⟩ := luDl_open dim C T1 T2 a ha hC h1 h2
  obtain ⟨R', e3, q'⟩ := luSl_open dim C T1 T2 a ha hC h1 h2
  exact ⟨A, R, R', e1, e2, e3, q.same q' (by decide) (List.Perm.refl _) (fun _ => rfl), isNetwork q⟩

theorem ruSl_closed (dim : Nat → Nat) (C T1 T2 a : Tensor K) (ha : Spec.Site dim a)
    (hC : C.shape = [dim 0, dim 1]) (h1 : T1.shape = [dim 1, dim 10 * dim 11, dim 2]) (h2 : T2.shape = [dim 3, dim 4 * dim 5, dim 0]) :
    ∃ R, ruSl C T1 T2 a false = some R ∧
      Denotes dim R [[3, 6, 7], [2, 8, 9]] [0, 1, 4, 5, 10, 11, 12] [0, 1, 2, 3, 4, 5, 6, 7, 8, 9, 10, 11, 12] (Spec.ru dim C T1 T2 a 12) := by
  obtain ⟨hs, h5, h7, h9, h11, h13⟩ := ha
  have dC := Denotes.leaf dim C [[0], [1]] (by simp [gdim, hC])
  have dT1 := Denotes.leaf dim T1 [[1], [10, 11], [2]] (by simp [gdim, h1])
  have dT2 := Denotes.leaf dim T2 [[3], [4, 5], [0]] (by simp [gdim, h2])
  have da := Denotes.leaf dim a [[12], [4], [6], [8], [10]] (by simp [gdim, hs])
  have db := (Denotes.leaf dim a [[12], [5], [7], [9], [11]] (by simp [gdim, hs, h5, h7, h9, h11, h13])).conj
  obtain ⟨x1, e1, q1⟩ := Denotes.tensordot dC dT1 [1] [0] (dotOK_iff (by decide))
  obtain ⟨x2, e2, q2⟩ := Denotes.tensordot q1 dT2 [0] [2] (dotOK_iff (by decide))
  obtain ⟨x3, e3, q3⟩ := Denotes.view q2 [[10], [11], [2], [3], [4], [5]] [a.size 4, a.size 4, T1.size 2, T2.size 0, a.size 1, a.size 1] (by decide) (by simp [size, gdim, pow_two, hC, h1, h2, hs, h5, h7, h9, h11, h13])
  obtain ⟨x4, e4, q4⟩ := Denotes.tensordot q3 da [0, 4] [4, 1] (dotOK_iff (by decide))
  obtain ⟨x5, e5, q5⟩ := Denotes.tensordot q4 db [0, 3, 4] [4, 1, 0] (dotOK_iff (by decide))
  obtain ⟨x6, e6, q6⟩ := Denotes.permute q5 [1, 2, 4, 0, 3, 5] (by decide)
  obtain ⟨x7, e7, q7⟩ := Denotes.view q6 [[3, 6, 7], [2, 8, 9]] [T2.size 0 * a.size 2 ^ 2, T1.size 2 * a.size 3 ^ 2] (by decide) (by simp [size, gdim, pow_two, hC, h1, h2, hs, h5, h7, h9, h11, h13])
  refine ⟨x7, by simp [ruSl, e1, e2, e3, e4, e5, e6, e7], q7.congr (by decide) (by decide) ?_⟩
  · intro σ
    simp only [Spec.ru, Spec.site, List.map_cons, List.map_nil, gidx_single, fused_eq] <;> ring

theorem ruDl_closed (dim : Nat → Nat) (C T1 T2 a : Tensor K) (ha : Spec.Site dim a)
    (hC : C.shape = [dim 0, dim 1]) (h1 : T1.shape = [dim 1, dim 10 * dim 11, dim 2]) (h2 : T2.shape = [dim 3, dim 4 * dim 5, dim 0]) :
    ∃ A R, doubleLayer a = some A ∧ ruDl C T1 T2 A false = some R ∧
      Denotes dim R [[3, 6, 7], [2, 8, 9]] [0, 1, 4, 5, 10, 11, 12] [0, 1, 2, 3, 4, 5, 6, 7, 8, 9, 10, 11, 12] (Spec.ru dim C T1 T2 a 12) := by
  obtain ⟨hs, h5, h7, h9, h11, h13⟩ := ha
  have dC := Denotes.leaf dim C [[0], [1]] (by simp [gdim, hC])
  have dT1 := Denotes.leaf dim T1 [[1], [10, 11], [2]] (by simp [gdim, h1])
  have dT2 := Denotes.leaf dim T2 [[3], [4, 5], [0]] (by simp [gdim, h2])
  obtain ⟨A, eA, dA⟩ := doubleLayer_denotes dim a 12 4 6 8 10 5 7 9 11 (by decide) hs h5 h7 h9 h11
  have hA : A.shape = [dim 4 * dim 5, dim 6 * dim 7, dim 8 * dim 9, dim 10 * dim 11] := by simp [dA.shape, gdim]
  obtain ⟨x1, e1, q1⟩ := Denotes.tensordot dC dT1 [1] [0] (dotOK_iff (by decide))
  obtain ⟨x2, e2, q2⟩ := Denotes.tensordot q1 dT2 [0] [2] (dotOK_iff (by decide))
  obtain ⟨x3, e3, q3⟩ := Denotes.tensordot q2 dA [0, 3] [3, 0] (dotOK_iff (by decide))
  obtain ⟨x4, e4, q4⟩ := Denotes.permute q3 [1, 2, 0, 3] (by decide)
  obtain ⟨x5, e5, q5⟩ := Denotes.view q4 [[3, 6, 7], [2, 8, 9]] [T2.size 0 * A.size 1, T1.size 2 * A.size 2] (by decide) (by simp [size, gdim, pow_two, hC, h1, h2, hA])
  refine ⟨A, x5, eA, by simp [ruDl, e1, e2, e3, e4, e5], q5.congr (by decide) (by decide) ?_⟩
  · intro σ
    simp only [Spec.ru, Spec.site, List.map_cons, List.map_nil, gidx_single, fused_eq] <;> ring

theorem ruSl_open (dim : Nat → Nat) (C T1 T2 a : Tensor K) (ha : Spec.Site dim a)
    (hC : C.shape = [dim 0, dim 1]) (h1 : T1.shape = [dim 1, dim 10 * dim 11, dim 2]) (h2 : T2.shape = [dim 3, dim 4 * dim 5, dim 0]) :
    ∃ R, ruSl C T1 T2 a true = some R ∧
      Denotes dim R [[3, 6, 7], [2, 8, 9], [12], [13]] [0, 1, 4, 5, 10, 11] [0, 1, 2, 3, 4, 5, 6, 7, 8, 9, 10, 11, 12, 13] (Spec.ru dim C T1 T2 a 13) := by
  obtain ⟨hs, h5, h7, h9, h11, h13⟩ := ha
  have dC := Denotes.leaf dim C [[0], [1]] (by simp [gdim, hC])
  have dT1 := Denotes.leaf dim T1 [[1], [10, 11], [2]] (by simp [gdim, h1])
  have dT2 := Denotes.leaf dim T2 [[3], [4, 5], [0]] (by simp [gdim, h2])
  have da := Denotes.leaf dim a [[12], [4], [6], [8], [10]] (by simp [gdim, hs])
  have db := (Denotes.leaf dim a [[13], [5], [7], [9], [11]] (by simp [gdim, hs, h5, h7, h9, h11, h13])).conj
  obtain ⟨x1, e1, q1⟩ := Denotes.tensordot dC dT1 [1] [0] (dotOK_iff (by decide))
  obtain ⟨x2, e2, q2⟩ := Denotes.tensordot q1 dT2 [0] [2] (dotOK_iff (by decide))
  obtain ⟨x3, e3, q3⟩ := Denotes.view q2 [[10], [11], [2], [3], [4], [5]] [a.size 4, a.size 4, T1.size 2, T2.size 0, a.size 1, a.size 1] (by decide) (by simp [size, gdim, pow_two, hC, h1, h2, hs, h5, h7, h9, h11, h13])
  obtain ⟨x4, e4, q4⟩ := Denotes.tensordot q3 da [0, 4] [4, 1] (dotOK_iff (by decide))
  obtain ⟨x5, e5, q5⟩ := Denotes.tensordot q4 db [0, 3] [4, 1] (dotOK_iff (by decide))
  obtain ⟨x6, e6, q6⟩ := Denotes.permute q5 [1, 3, 6, 0, 4, 7, 2, 5] (by decide)
  obtain ⟨x7, e7, q7⟩ := Denotes.view q6 [[3, 6, 7], [2, 8, 9], [12], [13]] [T2.size 0 * a.size 2 ^ 2, T1.size 2 * a.size 3 ^ 2, a.size 0, a.size 0] (by decide) (by simp [size, gdim, pow_two, hC, h1, h2, hs, h5, h7, h9, h11, h13])
  refine ⟨x7, by simp [ruSl, e1, e2, e3, e4, e5, e6, e7], q7.congr (by decide) (by decide) ?_⟩
  · intro σ
    simp only [Spec.ru, Spec.site, List.map_cons, List.map_nil, gidx_single, fused_eq] <;> ring

theorem ruDl_open (dim : Nat → Nat) (C T1 T2 a : Tensor K) (ha : Spec.Site dim a)
    (hC : C.shape = [dim 0, dim 1]) (h1 : T1.shape = [dim 1, dim 10 * dim 11, dim 2]) (h2 : T2.shape = [dim 3, dim 4 * dim 5, dim 0]) :
    ∃ A R, doubleLayerOpen a = some A ∧ ruDl C T1 T2 A true = some R ∧
      Denotes dim R [[3, 6, 7], [2, 8, 9], [12], [13]] [0, 1, 4, 5, 10, 11] [0, 1, 2, 3, 4, 5, 6, 7, 8, 9, 10, 11, 12, 13] (Spec.ru dim C T1 T2 a 13) := by
  obtain ⟨hs, h5, h7, h9, h11, h13⟩ := ha
  have dC := Denotes.leaf dim C [[0], [1]] (by simp [gdim, hC])
  have dT1 := Denotes.leaf dim T1 [[1], [10, 11], [2]] (by simp [gdim, h1])
  have dT2 := Denotes.leaf dim T2 [[3], [4, 5], [0]] (by simp [gdim, h2])
  obtain ⟨A, eA, dA⟩ := doubleLayerOpen_denotes dim a 12 4 6 8 10 5 7 9 11 13 (by decide) hs h5 h7 h9 h11 h13
  have hA : A.shape = [dim 12, dim 13, dim 4 * dim 5, dim 6 * dim 7, dim 8 * dim 9, dim 10 * dim 11] := by simp [dA.shape, gdim]
  obtain ⟨x1, e1, q1⟩ := Denotes.tensordot dC dT1 [1] [0] (dotOK_iff (by decide))
  obtain ⟨x2, e2, q2⟩ := Denotes.tensordot q1 dT2 [0] [2] (dotOK_iff (by decide))
  obtain ⟨x3, e3, q3⟩ := Denotes.tensordot q2 dA [0, 3] [5, 2] (dotOK_iff (by decide))
  obtain ⟨x4, e4, q4⟩ := Denotes.permute q3 [1, 4, 0, 5, 2, 3] (by decide)
  obtain ⟨x5, e5, q5⟩ := Denotes.view q4 [[3, 6, 7], [2, 8, 9], [12], [13]] [T2.size 0 * A.size 3, T1.size 2 * A.size 4, A.size 0, A.size 1] (by decide) (by simp [size, gdim, pow_two, hC, h1, h2, hA])
  refine ⟨A, x5, eA, by simp [ruDl, e1, e2, e3, e4, e5], q5.congr (by decide) (by decide) ?_⟩
  · intro σ
    simp only [Spec.ru, Spec.site, List.map_cons, List.map_nil, gidx_single, fused_eq] <;> ring

/-- Corner RU, closed: both modes succeed, give the network and agree. -/
theorem C28_RU_closed (dim : Nat → Nat) (C T1 T2 a : Tensor K) (ha : Spec.Site dim a)
    (hC : C.shape = [dim 0, dim 1]) (h1 : T1.shape = [dim 1, dim 10 * dim 11, dim 2]) (h2 : T2.shape = [dim 3, dim 4 * dim 5, dim 0]) :
    ∃ A R R', doubleLayer a = some A ∧ ruDl C T1 T2 A false = some R ∧ ruSl C T1 T2 a false = some R' ∧ Same R R' ∧
      Spec.IsNetwork dim R [[3, 6, 7], [2, 8, 9]] [0, 1, 4, 5, 10, 11, 12] (Spec.ru dim C T1 T2 a 12) := by
  obtain ⟨A, R, e1, e2, q⟩ := ruDl_closed dim C T1 T2 a ha hC h1 h2
  obtain ⟨R', e3, q'⟩ := ruSl_closed dim C T1 T2 a ha hC h1 h2
  exact ⟨A, R, R', e1, e2, e3, q.same q' (by decide) (List.Perm.refl _) (fun _ => rfl), isNetwork q⟩

/-- Corner RU with open physical indices. -/
theorem C28_RU_open (dim : Nat → Nat) (C T1 T2 a : Tensor K) (ha : Spec.Site dim a)
    (hC : C.shape = [dim 0, dim 1]) (h1 : T1.shape = [dim 1, dim 10 * dim 11, dim 2]) (h2 : T2.shape = [dim 3, dim 4 * dim 5, dim 0]) :
    ∃ A R R', doubleLayerOpen a = some A ∧ ruDl C T1 T2 A true = some R ∧ ruSl C T1 T2 a true = some R' ∧ Same R R' ∧
      Spec.IsNetwork dim R [[3, 6, 7], [2, 8, 9], [12], [13]] [0, 1, 4, 5, 10, 11] (Spec.ru dim C T1 T2 a 13) := by
  obtain ⟨A, R, e1, e2, q⟩ := ruDl_open dim C T1 T2 a ha hC h1 h2
  obtain ⟨R', e3, q'⟩ := ruSl_open dim C T1 T2 a ha hC h1 h2
  exact ⟨A, R, R', e1, e2, e3, q.same q' (by decide) (List.Perm.refl _) (fun _ => rfl), isNetwork q⟩

theorem rdSl_closed (dim : Nat → Nat) (C T1 T2 a : Tensor K) (ha : Spec.Site dim a)
    (hC : C.shape = [dim 0, dim 1]) (h1 : T1.shape = [dim 8 * dim 9, dim 2, dim 1]) (h2 : T2.shape = [dim 3, dim 10 * dim 11, dim 0]) :
    ∃ R, rdSl C T1 T2 a false = some R ∧
      Denotes dim R [[3, 4, 5], [2, 6, 7]] [0, 1, 8, 9, 10, 11, 12] [0, 1, 2, 3, 4, 5, 6, 7, 8, 9, 10, 11, 12] (Spec.rd dim C T1 T2 a 12) := by
  obtain ⟨hs, h5, h7, h9, h11, h13⟩ := ha
  have dC := Denotes.leaf dim C [[0], [1]] (by simp [gdim, hC])
  have dT1 := Denotes.leaf dim T1 [[8, 9], [2], [1]] (by simp [gdim, h1])
  have dT2 := Denotes.leaf dim T2 [[3], [10, 11], [0]] (by simp [gdim, h2])
  have da := Denotes.leaf dim a [[12], [4], [6], [8], [10]] (by simp [gdim, hs])
  have db := (Denotes.leaf dim a [[12], [5], [7], [9], [11]] (by simp [gdim, hs, h5, h7, h9, h11, h13])).conj
  obtain ⟨x1, e1, q1⟩ := Denotes.tensordot dC dT1 [1] [2] (dotOK_iff (by decide))
  obtain ⟨x2, e2, q2⟩ := Denotes.tensordot q1 dT2 [0] [2] (dotOK_iff (by decide))
  obtain ⟨x3, e3, q3⟩ := Denotes.view q2 [[8], [9], [2], [3], [10], [11]] [a.size 3, a.size 3, T1.size 1, T2.size 0, a.size 4, a.size 4] (by decide) (by simp [size, gdim, pow_two, hC, h1, h2, hs, h5, h7, h9, h11, h13])
  obtain ⟨x4, e4, q4⟩ := Denotes.tensordot q3 da [0, 4] [3, 4] (dotOK_iff (by decide))
  obtain ⟨x5, e5, q5⟩ := Denotes.tensordot q4 db [0, 3, 4] [3, 4, 0] (dotOK_iff (by decide))
  obtain ⟨x6, e6, q6⟩ := Denotes.permute q5 [1, 2, 4, 0, 3, 5] (by decide)
  obtain ⟨x7, e7, q7⟩ := Denotes.view q6 [[3, 4, 5], [2, 6, 7]] [T2.size 0 * a.size 1 ^ 2, T1.size 1 * a.size 2 ^ 2] (by decide) (by simp [size, gdim, pow_two, hC, h1, h2, hs, h5, h7, h9, h11, h13])
  refine ⟨x7, by simp [rdSl, e1, e2, e3, e4, e5, e6, e7], q7.congr (by decide) (by decide) ?_⟩
  · intro σ
    simp only [Spec.rd, Spec.site, List.map_cons, List.map_nil, gidx_single, fused_eq] <;> ring

theorem rdDl_closed (dim : Nat → Nat) (C T1 T2 a : Tensor K) (ha : Spec.Site dim a)
    (hC : C.shape = [dim 0, dim 1]) (h1 : T1.shape = [dim 8 * dim 9, dim 2, dim 1]) (h2 : T2.shape = [dim 3, dim 10 * dim 11, dim 0]) :
    ∃ A R, doubleLayer a = some A ∧ rdDl C T1 T2 A false = some R ∧
      Denotes dim R [[3, 4, 5], [2, 6, 7]] [0, 1, 8, 9, 10, 11, 12] [0, 1, 2, 3, 4, 5, 6, 7, 8, 9, 10, 11, 12] (Spec.rd dim C T1 T2 a 12) := by
  obtain ⟨hs, h5, h7, h9, h11, h13⟩ := ha
  have dC := Denotes.leaf dim C [[0], [1]] (by simp [gdim, hC])
  have dT1 := Denotes.leaf dim T1 [[8, 9], [2], [1]] (by simp [gdim, h1])
  have dT2 := Denotes.leaf dim T2 [[3], [10, 11], [0]] (by simp [gdim, h2])
  obtain ⟨A, eA, dA⟩ := doubleLayer_denotes dim a 12 4 6 8 10 5 7 9 11 (by decide) hs h5 h7 h9 h11
  have hA : A.shape = [dim 4 * dim 5, dim 6 * dim 7, dim 8 * dim 9, dim 10 * dim 11] := by simp [dA.shape, gdim]
  obtain ⟨x1, e1, q1⟩ := Denotes.tensordot dC dT1 [1] [2] (dotOK_iff (by decide))
  obtain ⟨x2, e2, q2⟩ := Denotes.tensordot q1 dT2 [0] [2] (dotOK_iff (by decide))
  obtain ⟨x3, e3, q3⟩ := Denotes.tensordot q2 dA [0, 3] [2, 3] (dotOK_iff (by decide))
  obtain ⟨x4, e4, q4⟩ := Denotes.permute q3 [1, 2, 0, 3] (by decide)
  obtain ⟨x5, e5, q5⟩ := Denotes.view q4 [[3, 4, 5], [2, 6, 7]] [T2.size 0 * A.size 0, T1.size 1 * A.size 1] (by decide) (by simp [size, gdim, pow_two, hC, h1, h2, hA])
  refine ⟨A, x5, eA, by simp [rdDl, e1, e2, e3, e4, e5], q5.congr (by decide) (by decide) ?_⟩
  · intro σ
    simp only [Spec.rd, Spec.site, List.map_cons, List.map_nil, gidx_single, fused_eq] <;> ring

theorem rdSl_open (dim : Nat → Nat) (C T1 T2 a : Tensor K) (ha : Spec.Site dim a)
    (hC : C.shape = [dim 0, dim 1]) (h1 : T1.shape = [dim 8 * dim 9, dim 2, dim 1]) (h2 : T2.shape = [dim 3, dim 10 * dim 11, dim 0]) :
    ∃ R, rdSl C T1 T2 a true = some R ∧
      Denotes dim R [[3, 4, 5], [2, 6, 7], [12], [13]] [0, 1, 8, 9, 10, 11] [0, 1, 2, 3, 4, 5, 6, 7, 8, 9, 10, 11, 12, 13] (Spec.rd dim C T1 T2 a 13) := by
  obtain ⟨hs, h5, h7, h9, h11, h13⟩ := ha
  have dC := Denotes.leaf dim C [[0], [1]] (by simp [gdim, hC])
  have dT1 := Denotes.leaf dim T1 [[8, 9], [2], [1]] (by simp [gdim, h1])
  have dT2 := Denotes.leaf dim T2 [[3], [10, 11], [0]] (by simp [gdim, h2])
  have da := Denotes.leaf dim a [[12], [4], [6], [8], [10]] (by simp [gdim, hs])
  have db := (Denotes.leaf dim a [[13], [5], [7], [9], [11]] (by simp [gdim, hs, h5, h7, h9, h11, h13])).conj
  obtain ⟨x1, e1, q1⟩ := Denotes.tensordot dC dT1 [1] [2] (dotOK_iff (by decide))
  obtain ⟨x2, e2, q2⟩ := Denotes.tensordot q1 dT2 [0] [2] (dotOK_iff (by decide))
  obtain ⟨x3, e3, q3⟩ := Denotes.view q2 [[8], [9], [2], [3], [10], [11]] [a.size 3, a.size 3, T1.size 1, T2.size 0, a.size 4, a.size 4] (by decide) (by simp [size, gdim, pow_two, hC, h1, h2, hs, h5, h7, h9, h11, h13])
  obtain ⟨x4, e4, q4⟩ := Denotes.tensordot q3 da [0, 4] [3, 4] (dotOK_iff (by decide))
  obtain ⟨x5, e5, q5⟩ := Denotes.tensordot q4 db [0, 3] [3, 4] (dotOK_iff (by decide))
  obtain ⟨x6, e6, q6⟩ := Denotes.permute q5 [1, 3, 6, 0, 4, 7, 2, 5] (by decide)
  obtain ⟨x7, e7, q7⟩ := Denotes.view q6 [[3, 4, 5], [2, 6, 7], [12], [13]] [T2.size 0 * a.size 1 ^ 2, T1.size 1 * a.size 2 ^ 2, a.size 0, a.size 0] (by decide) (by simp [size, gdim, pow_two, hC, h1, h2, hs, h5, h7, h9, h11, h13])
  refine ⟨x7, by simp [rdSl, e1, e2, e3, e4, e5, e6, e7], q7.congr (by decide) (by decide) ?_⟩
  · intro σ
    simp only [Spec.rd, Spec.site, List.map_cons, List.map_nil, gidx_single, fused_eq] <;> ring

theorem rdDl_open (dim : Nat → Nat) (C T1 T2 a : Tensor K) (ha : Spec.Site dim a)
    (hC : C.shape = [dim 0, dim 1]) (h1 : T1.shape = [dim 8 * dim 9, dim 2, dim 1]) (h2 : T2.shape = [dim 3, dim 10 * dim 11, dim 0]) :
    ∃ A R, doubleLayerOpen a = some A ∧ rdDl C T1 T2 A true = some R ∧
      Denotes dim R [[3, 4, 5], [2, 6, 7], [12], [13]] [0, 1, 8, 9, 10, 11] [0, 1, 2, 3, 4, 5, 6, 7, 8, 9, 10, 11, 12, 13] (Spec.rd dim C T1 T2 a 13) := by
  obtain ⟨hs, h5, h7, h9, h11, h13⟩ := ha
  have dC := Denotes.leaf dim C [[0], [1]] (by simp [gdim, hC])
  have dT1 := Denotes.leaf dim T1 [[8, 9], [2], [1]] (by simp [gdim, h1])
  have dT2 := Denotes.leaf dim T2 [[3], [10, 11], [0]] (by simp [gdim, h2])
  obtain ⟨A, eA, dA⟩ := doubleLayerOpen_denotes dim a 12 4 6 8 10 5 7 9 11 13 (by decide) hs h5 h7 h9 h11 h13
  have hA : A.shape = [dim 12, dim 13, dim 4 * dim 5, dim 6 * dim 7, dim 8 * dim 9, dim 10 * dim 11] := by simp [dA.shape, gdim]
  obtain ⟨x1, e1, q1⟩ := Denotes.tensordot dC dT1 [1] [2] (dotOK_iff (by decide))
  obtain ⟨x2, e2, q2⟩ := Denotes.tensordot q1 dT2 [0] [2] (dotOK_iff (by decide))
  obtain ⟨x3, e3, q3⟩ := Denotes.tensordot q2 dA [0, 3] [4, 5] (dotOK_iff (by decide))
  obtain ⟨x4, e4, q4⟩ := Denotes.permute q3 [1, 4, 0, 5, 2, 3] (by decide)
  obtain ⟨x5, e5, q5⟩ := Denotes.view q4 [[3, 4, 5], [2, 6, 7], [12], [13]] [T2.size 0 * A.size 2, T1.size 1 * A.size 3, A.size 0, A.size 1] (by decide) (by simp [size, gdim, pow_two, hC, h1, h2, hA])
  refine ⟨A, x5, eA, by simp [rdDl, e1, e2, e3, e4, e5], q5.congr (by decide) (by decide) ?_⟩
  · intro σ
    simp only [Spec.rd, Spec.site, List.map_cons, List.map_nil, gidx_single, fused_eq] <;> ring

/-- Corner RD, closed: both modes succeed, give the network and agree. -/
theorem C28_RD_closed (dim : Nat → Nat) (C T1 T2 a : Tensor K) (ha : Spec.Site dim a)
    (hC : C.shape = [dim 0, dim 1]) (h1 : T1.shape = [dim 8 * dim 9, dim 2, dim 1]) (h2 : T2.shape = [dim 3, dim 10 * dim 11, dim 0]) :
    ∃ A R R', doubleLayer a = some A ∧ rdDl C T1 T2 A false = some R ∧ rdSl C T1 T2 a false = some R' ∧ Same R R' ∧
      Spec.IsNetwork dim R [[3, 4, 5], [2, 6, 7]] [0, 1, 8, 9, 10, 11, 12] (Spec.rd dim C T1 T2 a 12) := by
  obtain ⟨A, R, e1, e2, q⟩ := rdDl_closed dim C T1 T2 a ha hC h1 h2
  obtain ⟨R', e3, q'⟩ := rdSl_closed dim C T1 T2 a ha hC h1 h2
  exact ⟨A, R, R', e1, e2, e3, q.same q' (by decide) (List.Perm.refl _) (fun _ => rfl), isNetwork q⟩

/-- Corner RD with open physical indices. -/
theorem C28_RD_open (dim : Nat → Nat) (C T1 T2 a : Tensor K) (ha : Spec.Site dim a)
    (hC : C.shape = [dim 0, dim 1]) (h1 : T1.shape = [dim 8 * dim 9, dim 2, dim 1]) (h2 : T2.shape = [dim 3, dim 10 * dim 11, dim 0]) :
    ∃ A R R', doubleLayerOpen a = some A ∧ rdDl C T1 T2 A true = some R ∧ rdSl C T1 T2 a true = some R' ∧ Same R R' ∧
      Spec.IsNetwork dim R [[3, 4, 5], [2, 6, 7], [12], [13]] [0, 1, 8, 9, 10, 11] (Spec.rd dim C T1 T2 a 13) := by
  obtain ⟨A, R, e1, e2, q⟩ := rdDl_open dim C T1 T2 a ha hC h1 h2
  obtain ⟨R', e3, q'⟩ := rdSl_open dim C T1 T2 a ha hC h1 h2
  exact ⟨A, R, R', e1, e2, e3, q.same q' (by decide) (List.Perm.refl _) (fun _ => rfl), isNetwork q⟩

theorem ldSl_closed (dim : Nat → Nat) (C T1 T2 a : Tensor K) (ha : Spec.Site dim a)
    (hC : C.shape = [dim 0, dim 1]) (h1 : T1.shape = [dim 2, dim 0, dim 6 * dim 7]) (h2 : T2.shape = [dim 8 * dim 9, dim 1, dim 3]) :
    ∃ R, ldSl C T1 T2 a false = some R ∧
      Denotes dim R [[2, 4, 5], [3, 10, 11]] [0, 1, 6, 7, 8, 9, 12] [0, 1, 2, 3, 4, 5, 6, 7, 8, 9, 10, 11, 12] (Spec.ld dim C T1 T2 a 12) := by
  obtain ⟨hs, h5, h7, h9, h11, h13⟩ := ha
  have dC := Denotes.leaf dim C [[0], [1]] (by simp [gdim, hC])
  have dT1 := Denotes.leaf dim T1 [[2], [0], [6, 7]] (by simp [gdim, h1])
  have dT2 := Denotes.leaf dim T2 [[8, 9], [1], [3]] (by simp [gdim, h2])
  have da := Denotes.leaf dim a [[12], [4], [6], [8], [10]] (by simp [gdim, hs])
  have db := (Denotes.leaf dim a [[12], [5], [7], [9], [11]] (by simp [gdim, hs, h5, h7, h9, h11, h13])).conj
  obtain ⟨x1, e1, q1⟩ := Denotes.tensordot dC dT1 [0] [1] (dotOK_iff (by decide))
  obtain ⟨x2, e2, q2⟩ := Denotes.tensordot q1 dT2 [0] [1] (dotOK_iff (by decide))
  obtain ⟨x3, e3, q3⟩ := Denotes.view q2 [[2], [6], [7], [8], [9], [3]] [T1.size 0, a.size 2, a.size 2, a.size 3, a.size 3, T2.size 2] (by decide) (by simp [size, gdim, pow_two, hC, h1, h2, hs, h5, h7, h9, h11, h13])
  obtain ⟨x4, e4, q4⟩ := Denotes.tensordot q3 da [1, 3] [2, 3] (dotOK_iff (by decide))
  obtain ⟨x5, e5, q5⟩ := Denotes.tensordot q4 db [1, 2, 4] [2, 3, 0] (dotOK_iff (by decide))
  obtain ⟨x6, e6, q6⟩ := Denotes.permute q5 [0, 2, 4, 1, 3, 5] (by decide)
  obtain ⟨x7, e7, q7⟩ := Denotes.view q6 [[2, 4, 5], [3, 10, 11]] [T1.size 0 * a.size 1 ^ 2, T2.size 2 * a.size 4 ^ 2] (by decide) (by simp [size, gdim, pow_two, hC, h1, h2, hs, h5, h7, h9, h11, h13])
  refine ⟨x7, by simp [ldSl, e1, e2, e3, e4, e5, e6, e7], q7.congr (by decide) (by decide) ?_⟩
  · intro σ
    simp only [Spec.ld, Spec.site, List.map_cons, List.map_nil, gidx_single, fused_eq] <;> ring

theorem ldDl_closed (dim : Nat → Nat) (C T1 T2 a : Tensor K) (ha : Spec.Site dim a)
    (hC : C.shape = [dim 0, dim 1]) (h1 : T1.shape = [dim 2, dim 0, dim 6 * dim 7]) (h2 : T2.shape = [dim 8 * dim 9, dim 1, dim 3]) :
    ∃ A R, doubleLayer a = some A ∧ ldDl C T1 T2 A false = some R ∧
      Denotes dim R [[2, 4, 5], [3, 10, 11]] [0, 1, 6, 7, 8, 9, 12] [0, 1, 2, 3, 4, 5, 6, 7, 8, 9, 10, 11, 12] (Spec.ld dim C T1 T2 a 12) := by
  obtain ⟨hs, h5, h7, h9, h11, h13⟩ := ha
  have dC := Denotes.leaf dim C [[0], [1]] (by simp [gdim, hC])
  have dT1 := Denotes.leaf dim T1 [[2], [0], [6, 7]] (by simp [gdim, h1])
  have dT2 := Denotes.leaf dim T2 [[8, 9], [1], [3]] (by simp [gdim, h2])
  obtain ⟨A, eA, dA⟩ := doubleLayer_denotes dim a 12 4 6 8 10 5 7 9 11 (by decide) hs h5 h7 h9 h11
  have hA : A.shape = [dim 4 * dim 5, dim 6 * dim 7, dim 8 * dim 9, dim 10 * dim 11] := by simp [dA.shape, gdim]
  obtain ⟨x1, e1, q1⟩ := Denotes.tensordot dC dT1 [0] [1] (dotOK_iff (by decide))
  obtain ⟨x2, e2, q2⟩ := Denotes.tensordot q1 dT2 [0] [1] (dotOK_iff (by decide))
  obtain ⟨x3, e3, q3⟩ := Denotes.tensordot q2 dA [1, 2] [1, 2] (dotOK_iff (by decide))
  obtain ⟨x4, e4, q4⟩ := Denotes.permute q3 [0, 2, 1, 3] (by decide)
  obtain ⟨x5, e5, q5⟩ := Denotes.view q4 [[2, 4, 5], [3, 10, 11]] [T1.size 0 * A.size 0, T2.size 2 * A.size 3] (by decide) (by simp [size, gdim, pow_two, hC, h1, h2, hA])
  refine ⟨A, x5, eA, by simp [ldDl, e1, e2, e3, e4, e5], q5.congr (by decide) (by decide) ?_⟩
  · intro σ
    simp only [Spec.ld, Spec.site, List.map_cons, List.map_nil, gidx_single, fused_eq] <;> ring

theorem ldSl_open (dim : Nat → Nat) (C T1 T2 a : Tensor K) (ha : Spec.Site dim a)
    (hC : C.shape = [dim 0, dim 1]) (h1 : T1.shape = [dim 2, dim 0, dim 6 * dim 7]) (h2 : T2.shape = [dim 8 * dim 9, dim 1, dim 3]) :
    ∃ R, ldSl C T1 T2 a true = some R ∧
      Denotes dim R [[2, 4, 5], [3, 10, 11], [12], [13]] [0, 1, 6, 7, 8, 9] [0, 1, 2, 3, 4, 5, 6, 7, 8, 9, 10, 11, 12, 13] (Spec.ld dim C T1 T2 a 13) := by
  obtain ⟨hs, h5, h7, h9, h11, h13⟩ := ha
  have dC := Denotes.leaf dim C [[0], [1]] (by simp [gdim, hC])
  have dT1 := Denotes.leaf dim T1 [[2], [0], [6, 7]] (by simp [gdim, h1])
  have dT2 := Denotes.leaf dim T2 [[8, 9], [1], [3]] (by simp [gdim, h2])
  have da := Denotes.leaf dim a [[12], [4], [6], [8], [10]] (by simp [gdim, hs])
  have db := (Denotes.leaf dim a [[13], [5], [7], [9], [11]] (by simp [gdim, hs, h5, h7, h9, h11, h13])).conj
  obtain ⟨x1, e1, q1⟩ := Denotes.tensordot dC dT1 [0] [1] (dotOK_iff (by decide))
  obtain ⟨x2, e2, q2⟩ := Denotes.tensordot q1 dT2 [0] [1] (dotOK_iff (by decide))
  obtain ⟨x3, e3, q3⟩ := Denotes.view q2 [[2], [6], [7], [8], [9], [3]] [T1.size 0, a.size 2, a.size 2, a.size 3, a.size 3, T2.size 2] (by decide) (by simp [size, gdim, pow_two, hC, h1, h2, hs, h5, h7, h9, h11, h13])
  obtain ⟨x4, e4, q4⟩ := Denotes.tensordot q3 da [1, 3] [2, 3] (dotOK_iff (by decide))
  obtain ⟨x5, e5, q5⟩ := Denotes.tensordot q4 db [1, 2] [2, 3] (dotOK_iff (by decide))
  obtain ⟨x6, e6, q6⟩ := Denotes.permute q5 [0, 3, 6, 1, 4, 7, 2, 5] (by decide)
  obtain ⟨x7, e7, q7⟩ := Denotes.view q6 [[2, 4, 5], [3, 10, 11], [12], [13]] [T1.size 0 * a.size 1 ^ 2, T2.size 2 * a.size 4 ^ 2, a.size 0, a.size 0] (by decide) (by simp [size, gdim, pow_two, hC, h1, h2, hs, h5, h7, h9, h11, h13])
  refine ⟨x7, by simp [ldSl, e1, e2, e3, e4, e5, e6, e7], q7.congr (by decide) (by decide) ?_⟩
  · intro σ
    simp only [Spec.ld, Spec.site, List.map_cons, List.map_nil, gidx_single, fused_eq] <;> ring

theorem ldDl_open (dim : Nat → Nat) (C T1 T2 a : Tensor K) (ha : Spec.Site dim a)
    (hC : C.shape = [dim 0, dim 1]) (h1 : T1.shape = [dim 2, dim 0, dim 6 * dim 7]) (h2 : T2.shape = [dim 8 * dim 9, dim 1, dim 3]) :
    ∃ A R, doubleLayerOpen a = some A ∧ ldDl C T1 T2 A true = some R ∧
      Denotes dim R [[2, 4, 5], [3, 10, 11], [12], [13]] [0, 1, 6, 7, 8, 9] [0, 1, 2, 3, 4, 5, 6, 7, 8, 9, 10, 11, 12, 13] (Spec.ld dim C T1 T2 a 13) := by
  obtain ⟨hs, h5, h7, h9, h11, h13⟩ := ha
  have dC := Denotes.leaf dim C [[0], [1]] (by simp [gdim, hC])
  have dT1 := Denotes.leaf dim T1 [[2], [0], [6, 7]] (by simp [gdim, h1])
  have dT2 := Denotes.leaf dim T2 [[8, 9], [1], [3]] (by simp [gdim, h2])
  obtain ⟨A, eA, dA⟩ := doubleLayerOpen_denotes dim a 12 4 6 8 10 5 7 9 11 13 (by decide) hs h5 h7 h9 h11 h13
  have hA : A.shape = [dim 12, dim 13, dim 4 * dim 5, dim 6 * dim 7, dim 8 * dim 9, dim 10 * dim 11] := by simp [dA.shape, gdim]
  obtain ⟨x1, e1, q1⟩ := Denotes.tensordot dC dT1 [0] [1] (dotOK_iff (by decide))
  obtain ⟨x2, e2, q2⟩ := Denotes.tensordot q1 dT2 [0] [1] (dotOK_iff (by decide))
  obtain ⟨x3, e3, q3⟩ := Denotes.tensordot q2 dA [1, 2] [3, 4] (dotOK_iff (by decide))
  obtain ⟨x4, e4, q4⟩ := Denotes.permute q3 [0, 4, 1, 5, 2, 3] (by decide)
  obtain ⟨x5, e5, q5⟩ := Denotes.view q4 [[2, 4, 5], [3, 10, 11], [12], [13]] [T1.size 0 * A.size 2, T2.size 2 * A.size 5, A.size 0, A.size 1] (by decide) (by simp [size, gdim, pow_two, hC, h1, h2, hA])
  refine ⟨A, x5, eA, by simp [ldDl, e1, e2, e3, e4, e5], q5.congr (by decide) (by decide) ?_⟩
  · intro σ
    simp only [Spec.ld, Spec.site, List.map_cons, List.map_nil, gidx_single, fused_eq] <;> ring

/-- Corner LD, closed: both modes succeed, give the network and agree. -/
theorem C28_LD_closed (dim : Nat → Nat) (C T1 T2 a : Tensor K) (ha : Spec.Site dim a)
    (hC : C.shape = [dim 0, dim 1]) (h1 : T1.shape = [dim 2, dim 0, dim 6 * dim 7]) (h2 : T2.shape = [dim 8 * dim 9, dim 1, dim 3]) :
    ∃ A R R', doubleLayer a = some A ∧ ldDl C T1 T2 A false = some R ∧ ldSl C T1 T2 a false = some R' ∧ Same R R' ∧
      Spec.IsNetwork dim R [[2, 4, 5], [3, 10, 11]] [0, 1, 6, 7, 8, 9, 12] (Spec.ld dim C T1 T2 a 12) := by
  obtain ⟨A, R, e1, e2, q⟩ := ldDl_closed dim C T1 T2 a ha hC h1 h2
  obtain ⟨R', e3, q'⟩ := ldSl_closed dim C T1 T2 a ha hC h1 h2
  exact ⟨A, R, R', e1, e2, e3, q.same q' (by decide) (List.Perm.refl _) (fun _ => rfl), isNetwork q⟩

/-- Corner LD with open physical indices. -/
theorem C28_LD_open (dim : Nat → Nat) (C T1 T2 a : Tensor K) (ha : Spec.Site dim a)
    (hC : C.shape = [dim 0, dim 1]) (h1 : T1.shape = [dim 2, dim 0, dim 6 * dim 7]) (h2 : T2.shape = [dim 8 * dim 9, dim 1, dim 3]) :
    ∃ A R R', doubleLayerOpen a = some A ∧ ldDl C T1 T2 A true = some R ∧ ldSl C T1 T2 a true = some R' ∧ Same R R' ∧
      Spec.IsNetwork dim R [[2, 4, 5], [3, 10, 11], [12], [13]] [0, 1, 6, 7, 8, 9] (Spec.ld dim C T1 T2 a 13) := by
  obtain ⟨A, R, e1, e2, q⟩ := ldDl_open dim C T1 T2 a ha hC h1 h2
  obtain ⟨R', e3, q'⟩ := ldSl_open dim C T1 T2 a ha hC h1 h2
  exact ⟨A, R, R', e1, e2, e3, q.same q' (by decide) (List.Perm.refl _) (fun _ => rfl), isNetwork q⟩

/-- Sizes used in the examples: chi 2, 3, 4, 5, bonds 2, 3, 4, 5, physical 2. -/
def exDim : Nat → Nat := fun l => [2, 3, 4, 5, 2, 2, 3, 3, 4, 4, 5, 5, 2, 2].getD l 0
/-- A complex tensor of given shape. -/
noncomputable def exT (sh : List Nat) : Tensor ℂ := ⟨sh, fun i => (i.sum : ℂ) + Complex.I * (i.prod : ℂ)⟩

theorem exSite : Spec.Site exDim (exT [2, 2, 3, 4, 5]) := ⟨rfl, rfl, rfl, rfl, rfl, rfl⟩

example := C28_LU_closed exDim (exT [2, 3]) (exT [3, 4, 4]) (exT [2, 5, 9]) (exT [2, 2, 3, 4, 5]) exSite rfl rfl rfl
example := C28_LU_open exDim (exT [2, 3]) (exT [3, 4, 4]) (exT [2, 5, 9]) (exT [2, 2, 3, 4, 5]) exSite rfl rfl rfl
example := C28_RU_closed exDim (exT [2, 3]) (exT [3, 25, 4]) (exT [5, 4, 2]) (exT [2, 2, 3, 4, 5]) exSite rfl rfl rfl
example := C28_RU_open exDim (exT [2, 3]) (exT [3, 25, 4]) (exT [5, 4, 2]) (exT [2, 2, 3, 4, 5]) exSite rfl rfl rfl
example := C28_RD_closed exDim (exT [2, 3]) (exT [16, 4, 3]) (exT [5, 25, 2]) (exT [2, 2, 3, 4, 5]) exSite rfl rfl rfl
example := C28_RD_open exDim (exT [2, 3]) (exT [16, 4, 3]) (exT [5, 25, 2]) (exT [2, 2, 3, 4, 5]) exSite rfl rfl rfl
example := C28_LD_closed exDim (exT [2, 3]) (exT [4, 2, 9]) (exT [16, 3, 5]) (exT [2, 2, 3, 4, 5]) exSite rfl rfl rfl
example := C28_LD_open exDim (exT [2, 3]) (exT [4, 2, 9]) (exT [16, 3, 5]) (exT [2, 2, 3, 4, 5]) exSite rfl rfl rfl

end Verif.Corner
