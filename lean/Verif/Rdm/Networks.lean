import Verif.Rdm.Spec
import Verif.Tensor.Subst
import Verif.Ctm.CornerProps
/-
The density matrices equal their networks (generated case by case from the drawings).
-/
namespace Verif.Rdm
open Tensor Corner
set_option linter.unusedSimpArgs false
set_option linter.unusedVariables false
set_option linter.unusedSectionVars false
variable {K : Type} [RCLike K]

theorem dlOpen_denotes (dim : Nat → Nat) (a : Tensor K) (m e f g h a' b c d n : Nat) (hn : [m, e, f, g, h, a', b, c, d, n].Nodup)
    (ha : a.shape = [dim m, dim e, dim f, dim g, dim h]) (h1 : dim a' = dim e) (h2 : dim b = dim f) (h3 : dim c = dim g) (h4 : dim d = dim h) (h5 : dim n = dim m) :
    ∃ A, dlOpen a = some A ∧ Denotes dim A [[e, a'], [f, b], [g, c], [h, d], [m], [n]] [] [m, e, f, g, h, n, a', b, c, d]
      (fun σ => a.val [σ m, σ e, σ f, σ g, σ h] * star (a.val [σ n, σ a', σ b, σ c, σ d])) := by
  let r : Nat → Nat := fun l => [m, e, f, g, h, a', b, c, d, n].getD l 0
  let dim0 : Nat → Nat := fun l => dim (r l)
  have d0 := Denotes.leaf dim0 a (singles [0, 1, 2, 3, 4]) (by simp [singles, dim0, r, ha])
  have d1 := (Denotes.leaf dim0 a (singles [9, 5, 6, 7, 8]) (by simp [singles, dim0, r, ha, h1, h2, h3, h4, h5])).conj
  obtain ⟨x1, e1, q1⟩ := Denotes.einsum' (OpsNet.cons d0 (OpsNet.cons d1 OpsNet.nil)) [1, 5, 2, 6, 3, 7, 4, 8, 0, 9] (by decide)
  obtain ⟨x2, e2, q2⟩ := q1.view [[1, 5], [2, 6], [3, 7], [4, 8], [0], [9]] [a.size 1 ^ 2, a.size 2 ^ 2, a.size 3 ^ 2, a.size 4 ^ 2, a.size 0, a.size 0] (by decide)
    (by simp [size, gdim, ha, h1, h2, h3, h4, h5, dim0, r, pow_two])
  refine ⟨x2, by simp [dlOpen, e1, e2], ?_⟩
  have hinj : ∀ i ∈ List.range 10, ∀ j ∈ List.range 10, r i = r j → i = j := by
    intro i hi j hj hij
    rw [List.mem_range] at hi hj
    have hi' : i < [m, e, f, g, h, a', b, c, d, n].length := hi
    have hj' : j < [m, e, f, g, h, a', b, c, d, n].length := hj
    simp only [r, List.getD_eq_getElem?_getD, List.getElem?_eq_getElem hi', List.getElem?_eq_getElem hj', Option.getD_some] at hij
    exact (List.Nodup.getElem_inj_iff hn).1 hij
  have q3 := q2.rename (dim' := dim) r (List.range 10) hinj (fun _ _ => rfl) (by decide) (by decide) (by decide)
  refine q3.congr (List.Perm.refl _) ?_ ?_
  · intro l hl; simpa [r, singles] using hl
  · intro σ
    simp [singles, r]

theorem dlOp_denotes (dim : Nat → Nat) (a o : Tensor K) (m e f g h a' b c d n : Nat) (hn : [m, e, f, g, h, a', b, c, d, n].Nodup)
    (ha : a.shape = [dim m, dim e, dim f, dim g, dim h]) (ho : o.shape = [dim m, dim m]) (h1 : dim a' = dim e) (h2 : dim b = dim f) (h3 : dim c = dim g) (h4 : dim d = dim h) (h5 : dim n = dim m) :
    ∃ A, dlOp a o = some A ∧ Denotes dim A [[e, a'], [f, b], [g, c], [h, d]] [m, n] [m, e, f, g, h, n, m, n, a', b, c, d]
      (fun σ => a.val [σ m, σ e, σ f, σ g, σ h] * (o.val [σ n, σ m] * star (a.val [σ n, σ a', σ b, σ c, σ d]))) := by
  let r : Nat → Nat := fun l => [m, e, f, g, h, a', b, c, d, n].getD l 0
  let dim0 : Nat → Nat := fun l => dim (r l)
  have d0 := Denotes.leaf dim0 a (singles [0, 1, 2, 3, 4]) (by simp [singles, dim0, r, ha])
  have d2 := Denotes.leaf dim0 o (singles [9, 0]) (by simp [singles, dim0, r, ho, h5])
  have d1 := (Denotes.leaf dim0 a (singles [9, 5, 6, 7, 8]) (by simp [singles, dim0, r, ha, h1, h2, h3, h4, h5])).conj
  obtain ⟨x1, e1, q1⟩ := Denotes.einsum' (OpsNet.cons d0 (OpsNet.cons d2 (OpsNet.cons d1 OpsNet.nil))) [1, 5, 2, 6, 3, 7, 4, 8] (by decide)
  obtain ⟨x2, e2, q2⟩ := q1.view [[1, 5], [2, 6], [3, 7], [4, 8]] [a.size 1 ^ 2, a.size 2 ^ 2, a.size 3 ^ 2, a.size 4 ^ 2] (by decide)
    (by simp [size, gdim, ha, h1, h2, h3, h4, h5, dim0, r, pow_two])
  refine ⟨x2, by simp [dlOp, e1, e2], ?_⟩
  have hinj : ∀ i ∈ List.range 10, ∀ j ∈ List.range 10, r i = r j → i = j := by
    intro i hi j hj hij
    rw [List.mem_range] at hi hj
    have hi' : i < [m, e, f, g, h, a', b, c, d, n].length := hi
    have hj' : j < [m, e, f, g, h, a', b, c, d, n].length := hj
    simp only [r, List.getD_eq_getElem?_getD, List.getElem?_eq_getElem hi', List.getElem?_eq_getElem hj', Option.getD_some] at hij
    exact (List.Nodup.getElem_inj_iff hn).1 hij
  have q3 := q2.rename (dim' := dim) r (List.range 10) hinj (fun _ _ => rfl) (by decide) (by decide) (by decide)
  refine q3.congr (List.Perm.refl _) ?_ ?_
  · intro l hl; simpa [r, singles] using hl
  · intro σ
    simp [singles, r]

theorem dl1x1_open (dim : Nat → Nat) (e : SiteEnv K) (a : Tensor K) (h : Spec.Fits1 dim e a) :
    ∃ A R, dlOpen a = some A ∧ dl1x1 e A = some R ∧ Denotes dim R [[4], [7]] [0, 1, 2, 3, 5, 6, 8, 9, 10, 11, 12, 13, 14, 15, 16, 17] [0, 1, 2, 3, 4, 5, 6, 7, 8, 9, 10, 11, 12, 13, 14, 15, 16, 17] (Spec.rho1 dim e a) := by
  obtain ⟨hC1, hT1, hT4, hC2, hT2, hC3, hT3, hC4, ha, ha0, ha1, ha2, ha3, ha4⟩ := h
  have dC1 := Denotes.leaf dim e.C1 [[0], [1]] (by simp [gdim, hC1])
  have dT1 := Denotes.leaf dim e.T1 [[1], [2, 5], [9]] (by simp [gdim, hT1])
  have dT4 := Denotes.leaf dim e.T4 [[0], [14], [3, 6]] (by simp [gdim, hT4])
  have dC2 := Denotes.leaf dim e.C2 [[9], [8]] (by simp [gdim, hC2])
  have dT2 := Denotes.leaf dim e.T2 [[8], [10, 11], [17]] (by simp [gdim, hT2])
  have dC3 := Denotes.leaf dim e.C3 [[17], [13]] (by simp [gdim, hC3])
  have dT3 := Denotes.leaf dim e.T3 [[15, 16], [12], [13]] (by simp [gdim, hT3])
  have dC4 := Denotes.leaf dim e.C4 [[14], [12]] (by simp [gdim, hC4])
  obtain ⟨A, eA, dA⟩ := dlOpen_denotes dim a 4 2 3 15 10 5 6 16 11 7 (by decide) ha ha1 ha2 ha3 ha4 ha0
  have hA : A.shape = [dim 2 * dim 5, dim 3 * dim 6, dim 15 * dim 16, dim 10 * dim 11, dim 4, dim 7] := by simp [dA.shape, gdim]
  obtain ⟨x1, e1, q1⟩ := Denotes.tensordot dC1 dT4 [0] [0] (dotOK_iff (by decide))
  obtain ⟨x2, e2, q2⟩ := Denotes.tensordot q1 dC4 [1] [0] (dotOK_iff (by decide))
  obtain ⟨x3, e3, q3⟩ := Denotes.tensordot q2 dT3 [2] [1] (dotOK_iff (by decide))
  obtain ⟨x4, e4, q4⟩ := Denotes.tensordot q3 dA [1, 2] [1, 2] (dotOK_iff (by decide))
  obtain ⟨x5, e5, q5⟩ := Denotes.tensordot dT1 q4 [0, 1] [0, 2] (dotOK_iff (by decide))
  obtain ⟨x6, e6, q6⟩ := Denotes.tensordot dC2 q5 [0] [0] (dotOK_iff (by decide))
  obtain ⟨x7, e7, q7⟩ := Denotes.tensordot dT2 q6 [0, 1] [0, 2] (dotOK_iff (by decide))
  obtain ⟨x8, e8, q8⟩ := Denotes.tensordot q7 dC3 [0, 1] [0, 1] (dotOK_iff (by decide))
  refine ⟨A, x8, eA, by simp [dl1x1, e1, e2, e3, e4, e5, e6, e7, e8], q8.congr (by decide) (by decide) ?_⟩
  intro σ
  simp only [Spec.rho1, List.map_cons, List.map_nil, gidx_single, fused_eq]; ring

theorem dl1x1_op (dim : Nat → Nat) (e : SiteEnv K) (a o : Tensor K) (h : Spec.Fits1 dim e a) (ho : o.shape = [dim 4, dim 4]) :
    ∃ A R, dlOp a o = some A ∧ dl1x1 e A = some R ∧ Denotes dim R [] [4, 7, 0, 1, 2, 3, 5, 6, 8, 9, 10, 11, 12, 13, 14, 15, 16, 17] [0, 1, 2, 3, 4, 5, 6, 7, 8, 9, 10, 11, 12, 13, 14, 15, 16, 17]
      (fun σ => Spec.rho1 dim e a σ * o.val [σ 7, σ 4]) := by
  obtain ⟨hC1, hT1, hT4, hC2, hT2, hC3, hT3, hC4, ha, ha0, ha1, ha2, ha3, ha4⟩ := h
  have dC1 := Denotes.leaf dim e.C1 [[0], [1]] (by simp [gdim, hC1])
  have dT1 := Denotes.leaf dim e.T1 [[1], [2, 5], [9]] (by simp [gdim, hT1])
  have dT4 := Denotes.leaf dim e.T4 [[0], [14], [3, 6]] (by simp [gdim, hT4])
  have dC2 := Denotes.leaf dim e.C2 [[9], [8]] (by simp [gdim, hC2])
  have dT2 := Denotes.leaf dim e.T2 [[8], [10, 11], [17]] (by simp [gdim, hT2])
  have dC3 := Denotes.leaf dim e.C3 [[17], [13]] (by simp [gdim, hC3])
  have dT3 := Denotes.leaf dim e.T3 [[15, 16], [12], [13]] (by simp [gdim, hT3])
  have dC4 := Denotes.leaf dim e.C4 [[14], [12]] (by simp [gdim, hC4])
  obtain ⟨A, eA, dA⟩ := dlOp_denotes dim a o 4 2 3 15 10 5 6 16 11 7 (by decide) ha ho ha1 ha2 ha3 ha4 ha0
  obtain ⟨x1, e1, q1⟩ := Denotes.tensordot dC1 dT4 [0] [0] (dotOK_iff (by decide))
  obtain ⟨x2, e2, q2⟩ := Denotes.tensordot q1 dC4 [1] [0] (dotOK_iff (by decide))
  obtain ⟨x3, e3, q3⟩ := Denotes.tensordot q2 dT3 [2] [1] (dotOK_iff (by decide))
  obtain ⟨x4, e4, q4⟩ := Denotes.tensordot q3 dA [1, 2] [1, 2] (dotOK_iff (by decide))
  obtain ⟨x5, e5, q5⟩ := Denotes.tensordot dT1 q4 [0, 1] [0, 2] (dotOK_iff (by decide))
  obtain ⟨x6, e6, q6⟩ := Denotes.tensordot dC2 q5 [0] [0] (dotOK_iff (by decide))
  obtain ⟨x7, e7, q7⟩ := Denotes.tensordot dT2 q6 [0, 1] [0, 2] (dotOK_iff (by decide))
  obtain ⟨x8, e8, q8⟩ := Denotes.tensordot q7 dC3 [0, 1] [0, 1] (dotOK_iff (by decide))
  refine ⟨A, x8, eA, by simp [dl1x1, e1, e2, e3, e4, e5, e6, e7, e8], q8.congr (by decide) (by decide) ?_⟩
  intro σ
  simp only [Spec.rho1, List.map_cons, List.map_nil, gidx_single, fused_eq]; ring

theorem sl1x1_open (dim : Nat → Nat) (e : SiteEnv K) (a : Tensor K) (h : Spec.Fits1 dim e a) :
    ∃ R, sl1x1 e a none = some R ∧ Denotes dim R [[4], [7]] [0, 1, 2, 3, 5, 6, 8, 9, 10, 11, 12, 13, 14, 15, 16, 17] [0, 1, 2, 3, 4, 5, 6, 7, 8, 9, 10, 11, 12, 13, 14, 15, 16, 17] (Spec.rho1 dim e a) := by
  obtain ⟨hC1, hT1, hT4, hC2, hT2, hC3, hT3, hC4, ha, ha0, ha1, ha2, ha3, ha4⟩ := h
  have dC1 := Denotes.leaf dim e.C1 [[0], [1]] (by simp [gdim, hC1])
  have dT1 := Denotes.leaf dim e.T1 [[1], [2, 5], [9]] (by simp [gdim, hT1])
  have dT4 := Denotes.leaf dim e.T4 [[0], [14], [3, 6]] (by simp [gdim, hT4])
  have dC2 := Denotes.leaf dim e.C2 [[9], [8]] (by simp [gdim, hC2])
  have dT2 := Denotes.leaf dim e.T2 [[8], [10, 11], [17]] (by simp [gdim, hT2])
  have dC3 := Denotes.leaf dim e.C3 [[17], [13]] (by simp [gdim, hC3])
  have dT3 := Denotes.leaf dim e.T3 [[15, 16], [12], [13]] (by simp [gdim, hT3])
  have dC4 := Denotes.leaf dim e.C4 [[14], [12]] (by simp [gdim, hC4])
  have da := Denotes.leaf dim a [[4], [2], [3], [15], [10]] (by simp [gdim, ha])
  have dac := (Denotes.leaf dim a [[7], [5], [6], [16], [11]] (by simp [gdim, ha, ha0, ha1, ha2, ha3, ha4])).conj
  obtain ⟨x1, e1, q1⟩ := Denotes.view dT1 [[1], [2], [5], [9]] [e.T1.size 0, a.size 1, a.size 1, e.T1.size 2] (by decide) (by simp [size, gdim, pow_two, hT1, ha, ha0, ha1, ha2, ha3, ha4])
  obtain ⟨x2, e2, q2⟩ := Denotes.view dT2 [[8], [10], [11], [17]] [e.T2.size 0, a.size 4, a.size 4, e.T2.size 2] (by decide) (by simp [size, gdim, pow_two, hT2, ha, ha0, ha1, ha2, ha3, ha4])
  obtain ⟨x3, e3, q3⟩ := Denotes.view dT3 [[15], [16], [12], [13]] [a.size 3, a.size 3, e.T3.size 1, e.T3.size 2] (by decide) (by simp [size, gdim, pow_two, hT3, ha, ha0, ha1, ha2, ha3, ha4])
  obtain ⟨x4, e4, q4⟩ := Denotes.view dT4 [[0], [14], [3], [6]] [e.T4.size 0, e.T4.size 1, a.size 2, a.size 2] (by decide) (by simp [size, gdim, pow_two, hT4, ha, ha0, ha1, ha2, ha3, ha4])
  obtain ⟨x5, e5, q5⟩ := Denotes.einsum' (OpsNet.cons (l := [0, 1]) dC1 (OpsNet.cons (l := [1, 2, 5, 9]) q1 (OpsNet.cons (l := [0, 14, 3, 6]) q4 (OpsNet.cons (l := [9, 8]) dC2 (OpsNet.cons (l := [8, 10, 11, 17]) q2 (OpsNet.cons (l := [17, 13]) dC3 (OpsNet.cons (l := [15, 16, 12, 13]) q3 (OpsNet.cons (l := [14, 12]) dC4 (OpsNet.cons (l := [4, 2, 3, 15, 10]) da (OpsNet.cons (l := [7, 5, 6, 16, 11]) dac OpsNet.nil)))))))))) [4, 7] (by decide)
  refine ⟨x5, by simp [sl1x1, e1, e2, e3, e4, e5], q5.congr (by decide) (by decide) ?_⟩
  intro σ
  simp only [Spec.rho1, List.map_cons, List.map_nil, gidx_single, fused_eq]; ring

theorem sl1x1_op (dim : Nat → Nat) (e : SiteEnv K) (a o : Tensor K) (h : Spec.Fits1 dim e a) (ho : o.shape = [dim 4, dim 4]) :
    ∃ R, sl1x1 e a (some o) = some R ∧ Denotes dim R [] [4, 7, 0, 1, 2, 3, 5, 6, 8, 9, 10, 11, 12, 13, 14, 15, 16, 17] [0, 1, 2, 3, 4, 5, 6, 7, 8, 9, 10, 11, 12, 13, 14, 15, 16, 17] (fun σ => Spec.rho1 dim e a σ * o.val [σ 7, σ 4]) := by
  -- label 18 is the ket physical index while the operator is applied
  obtain ⟨dim', hdim⟩ : ∃ dim' : Nat → Nat, dim' = fun l => if l = 18 then dim 4 else dim l := ⟨_, rfl⟩
  have hd : ∀ l ∈ [0, 1, 2, 3, 4, 5, 6, 7, 8, 9, 10, 11, 12, 13, 14, 15, 16, 17], dim' l = dim l := by intro l hl; rw [hdim]; fin_cases hl <;> rfl
  have h18' : dim' 18 = dim 4 := by rw [hdim]; rfl
  have h' : Spec.Fits1 dim' e a := by
    obtain ⟨hC1, hT1, hT4, hC2, hT2, hC3, hT3, hC4, ha, ha0, ha1, ha2, ha3, ha4⟩ := h
    constructor <;> simp [hdim, *]
  have ho' : o.shape = [dim' 4, dim' 4] := by simp [hdim, ho]
  suffices hs : ∃ R, sl1x1 e a (some o) = some R ∧ Denotes dim' R [] [4, 18, 0, 1, 2, 3, 5, 6, 8, 9, 10, 11, 12, 13, 14, 15, 16, 17] [4, 18, 0, 1, 2, 3, 5, 6, 8, 9, 10, 11, 12, 13, 14, 15, 16, 17]
      (fun σ => (o.val [σ 4, σ 18] * a.val [σ 18, σ 2, σ 3, σ 15, σ 10]) * (e.C1.val [σ 0, σ 1] * e.T1.val [σ 1, Corner.Spec.fused dim' σ 2 5, σ 9] * e.T4.val [σ 0, σ 14, Corner.Spec.fused dim' σ 3 6] *
        e.C2.val [σ 9, σ 8] * e.T2.val [σ 8, Corner.Spec.fused dim' σ 10 11, σ 17] * e.C3.val [σ 17, σ 13] * e.T3.val [Corner.Spec.fused dim' σ 15 16, σ 12, σ 13] * e.C4.val [σ 14, σ 12] *
        star (a.val [σ 4, σ 5, σ 6, σ 16, σ 11]))) by
    obtain ⟨R, e1, q⟩ := hs
    have q2 := q.rename (dim' := dim) (fun l => if l = 18 then 4 else if l = 4 then 7 else l) [4, 18, 0, 1, 2, 3, 5, 6, 8, 9, 10, 11, 12, 13, 14, 15, 16, 17] (by decide)
      (by intro l hl; rw [hdim]; have := h.a0; fin_cases hl <;> simp [this]) (by decide) (by decide) (by decide)
    refine ⟨R, e1, q2.congr (by decide) (by decide) ?_⟩
    intro σ
    have h5 : dim' 5 = dim 5 := hd 5 (by decide)
    have h6 : dim' 6 = dim 6 := hd 6 (by decide)
    have h11 : dim' 11 = dim 11 := hd 11 (by decide)
    have h16 : dim' 16 = dim 16 := hd 16 (by decide)
    simp [Spec.rho1, Corner.Spec.fused, h5, h6, h11, h16]
    ring
  clear hd hdim
  obtain ⟨hC1, hT1, hT4, hC2, hT2, hC3, hT3, hC4, ha, ha0, ha1, ha2, ha3, ha4⟩ := h'
  have h18 : dim' 18 = dim' 4 := by rw [h18']; have := h.a; have := ha.symm.trans this; simp at this; exact this.1.symm
  have dC1 := Denotes.leaf dim' e.C1 [[0], [1]] (by simp [gdim, hC1])
  have dT1 := Denotes.leaf dim' e.T1 [[1], [2, 5], [9]] (by simp [gdim, hT1])
  have dT4 := Denotes.leaf dim' e.T4 [[0], [14], [3, 6]] (by simp [gdim, hT4])
  have dC2 := Denotes.leaf dim' e.C2 [[9], [8]] (by simp [gdim, hC2])
  have dT2 := Denotes.leaf dim' e.T2 [[8], [10, 11], [17]] (by simp [gdim, hT2])
  have dC3 := Denotes.leaf dim' e.C3 [[17], [13]] (by simp [gdim, hC3])
  have dT3 := Denotes.leaf dim' e.T3 [[15, 16], [12], [13]] (by simp [gdim, hT3])
  have dC4 := Denotes.leaf dim' e.C4 [[14], [12]] (by simp [gdim, hC4])
  have dop := Denotes.leaf dim' o [[4], [18]] (by simp [gdim, ho', h18])
  have da := Denotes.leaf dim' a [[18], [2], [3], [15], [10]] (by simp [gdim, ha, h18])
  have dac := (Denotes.leaf dim' a [[4], [5], [6], [16], [11]] (by simp [gdim, ha, ha0, ha1, ha2, ha3, ha4])).conj
  obtain ⟨x1, e1, q1⟩ := Denotes.tensordot dop da [1] [0] (dotOK_iff (by decide))
  have dx := Denotes.leaf dim' x1 [[4], [2], [3], [15], [10]] q1.shape
  obtain ⟨x2, e2, q2⟩ := Denotes.view dT1 [[1], [2], [5], [9]] [e.T1.size 0, a.size 1, a.size 1, e.T1.size 2] (by decide) (by simp [size, gdim, pow_two, hT1, ha, ha0, ha1, ha2, ha3, ha4])
  obtain ⟨x3, e3, q3⟩ := Denotes.view dT2 [[8], [10], [11], [17]] [e.T2.size 0, a.size 4, a.size 4, e.T2.size 2] (by decide) (by simp [size, gdim, pow_two, hT2, ha, ha0, ha1, ha2, ha3, ha4])
  obtain ⟨x4, e4, q4⟩ := Denotes.view dT3 [[15], [16], [12], [13]] [a.size 3, a.size 3, e.T3.size 1, e.T3.size 2] (by decide) (by simp [size, gdim, pow_two, hT3, ha, ha0, ha1, ha2, ha3, ha4])
  obtain ⟨x5, e5, q5⟩ := Denotes.view dT4 [[0], [14], [3], [6]] [e.T4.size 0, e.T4.size 1, a.size 2, a.size 2] (by decide) (by simp [size, gdim, pow_two, hT4, ha, ha0, ha1, ha2, ha3, ha4])
  obtain ⟨x6, e6, q6⟩ := Denotes.einsum' (OpsNet.cons (l := [0, 1]) dC1 (OpsNet.cons (l := [1, 2, 5, 9]) q2 (OpsNet.cons (l := [0, 14, 3, 6]) q5 (OpsNet.cons (l := [9, 8]) dC2 (OpsNet.cons (l := [8, 10, 11, 17]) q3 (OpsNet.cons (l := [17, 13]) dC3 (OpsNet.cons (l := [15, 16, 12, 13]) q4 (OpsNet.cons (l := [14, 12]) dC4 (OpsNet.cons (l := [4, 2, 3, 15, 10]) dx (OpsNet.cons (l := [4, 5, 6, 16, 11]) dac OpsNet.nil)))))))))) [] (by decide)
  have q7 := q6.congr (F' := fun σ => x1.val ([[4], [2], [3], [15], [10]].map (gidx dim' σ)) * (e.C1.val [σ 0, σ 1] * e.T1.val [σ 1, Corner.Spec.fused dim' σ 2 5, σ 9] * e.T4.val [σ 0, σ 14, Corner.Spec.fused dim' σ 3 6] *
        e.C2.val [σ 9, σ 8] * e.T2.val [σ 8, Corner.Spec.fused dim' σ 10 11, σ 17] * e.C3.val [σ 17, σ 13] * e.T3.val [Corner.Spec.fused dim' σ 15 16, σ 12, σ 13] * e.C4.val [σ 14, σ 12] *
        star (a.val [σ 4, σ 5, σ 6, σ 16, σ 11]))) (List.Perm.refl _) (fun _ h => h)
    (by intro σ; simp only [List.map_cons, List.map_nil, gidx_single, fused_eq]; ring)
  have q8 := q1.subst q7 (SG := [4, 0, 1, 2, 3, 5, 6, 8, 9, 10, 11, 12, 13, 14, 15, 16, 17]) (by
      intro σ τ hh
      have g : ∀ l ∈ [4, 0, 1, 2, 3, 5, 6, 8, 9, 10, 11, 12, 13, 14, 15, 16, 17], σ l = τ l := hh
      simp only [List.forall_mem_cons] at g
      simp only [Corner.Spec.fused, g]) (by decide) (by decide)
  exact ⟨x6, by simp [sl1x1, e1, e2, e3, e4, e5, e6], q8.congr (by decide) (by decide) (fun σ => by simp only [List.map_cons, List.map_nil, gidx_single])⟩

theorem sl2x1_denotes (dim : Nat → Nat) (e : PairEnv K) (a b : Tensor K) (h : Spec.FitsH dim e a b) :
    ∃ R, sl2x1 e a b = some R ∧ Denotes dim R [[4], [16], [7], [19]] [0, 1, 2, 3, 5, 6, 8, 9, 10, 11, 12, 13, 14, 15, 17, 18, 20, 21, 22, 23, 24, 25, 26, 27] [0, 1, 2, 3, 4, 5, 6, 7, 8, 9, 10, 11, 12, 13, 14, 15, 16, 17, 18, 19, 20, 21, 22, 23, 24, 25, 26, 27] (Spec.rhoH dim e a b) := by
  obtain ⟨hC1, hT1, hS, hC4, hT3, hT1b, hC2, hSb, hC3, hT3b, ha, ha0, ha1, ha2, ha3, ha4, hb, hb0, hb1, hb2, hb3, hb4⟩ := h
  have dC1 := Denotes.leaf dim e.C1 [[0], [1]] (by simp [gdim, hC1])
  have dT1 := Denotes.leaf dim e.T1 [[1], [2, 5], [24]] (by simp [gdim, hT1])
  have dS := Denotes.leaf dim e.S [[0], [9], [3, 6]] (by simp [gdim, hS])
  have dC4 := Denotes.leaf dim e.C4 [[9], [8]] (by simp [gdim, hC4])
  have dT3 := Denotes.leaf dim e.T3 [[10, 11], [8], [25]] (by simp [gdim, hT3])
  have dT1b := Denotes.leaf dim e.T1b [[24], [14, 17], [12]] (by simp [gdim, hT1b])
  have dC2 := Denotes.leaf dim e.C2 [[12], [13]] (by simp [gdim, hC2])
  have dSb := Denotes.leaf dim e.Sb [[13], [15, 18], [21]] (by simp [gdim, hSb])
  have dC3 := Denotes.leaf dim e.C3 [[21], [20]] (by simp [gdim, hC3])
  have dT3b := Denotes.leaf dim e.T3b [[22, 23], [25], [20]] (by simp [gdim, hT3b])
  have da := Denotes.leaf dim a [[4], [2], [3], [10], [26]] (by simp [gdim, ha])
  have dac := (Denotes.leaf dim a [[7], [5], [6], [11], [27]] (by simp [gdim, ha, ha0, ha1, ha2, ha3, ha4])).conj
  have db := Denotes.leaf dim b [[16], [14], [26], [22], [15]] (by simp [gdim, hb])
  have dbc := (Denotes.leaf dim b [[19], [17], [27], [23], [18]] (by simp [gdim, hb, hb0, hb1, hb2, hb3, hb4])).conj
  obtain ⟨x1, e1, q1⟩ := Denotes.view dT1 [[1], [2], [5], [24]] [e.T1.size 0, a.size 1, a.size 1, e.T1.size 2] (by decide) (by simp [size, gdim, pow_two, hT1, ha, ha0, ha1, ha2, ha3, ha4, hb, hb0, hb1, hb2, hb3, hb4])
  obtain ⟨x2, e2, q2⟩ := Denotes.view dT1b [[24], [14], [17], [12]] [e.T1b.size 0, b.size 1, b.size 1, e.T1b.size 2] (by decide) (by simp [size, gdim, pow_two, hT1b, ha, ha0, ha1, ha2, ha3, ha4, hb, hb0, hb1, hb2, hb3, hb4])
  obtain ⟨x3, e3, q3⟩ := Denotes.view dSb [[13], [15], [18], [21]] [e.Sb.size 0, b.size 4, b.size 4, e.Sb.size 2] (by decide) (by simp [size, gdim, pow_two, hSb, ha, ha0, ha1, ha2, ha3, ha4, hb, hb0, hb1, hb2, hb3, hb4])
  obtain ⟨x4, e4, q4⟩ := Denotes.view dT3 [[10], [11], [8], [25]] [a.size 3, a.size 3, e.T3.size 1, e.T3.size 2] (by decide) (by simp [size, gdim, pow_two, hT3, ha, ha0, ha1, ha2, ha3, ha4, hb, hb0, hb1, hb2, hb3, hb4])
  obtain ⟨x5, e5, q5⟩ := Denotes.view dT3b [[22], [23], [25], [20]] [b.size 3, b.size 3, e.T3b.size 1, e.T3b.size 2] (by decide) (by simp [size, gdim, pow_two, hT3b, ha, ha0, ha1, ha2, ha3, ha4, hb, hb0, hb1, hb2, hb3, hb4])
  obtain ⟨x6, e6, q6⟩ := Denotes.view dS [[0], [9], [3], [6]] [e.S.size 0, e.S.size 1, a.size 2, a.size 2] (by decide) (by simp [size, gdim, pow_two, hS, ha, ha0, ha1, ha2, ha3, ha4, hb, hb0, hb1, hb2, hb3, hb4])
  obtain ⟨x7, e7, q7⟩ := Denotes.einsum' (OpsNet.cons (l := [0, 1]) dC1 (OpsNet.cons (l := [1, 2, 5, 24]) q1 (OpsNet.cons (l := [0, 9, 3, 6]) q6 (OpsNet.cons (l := [4, 2, 3, 10, 26]) da (OpsNet.cons (l := [7, 5, 6, 11, 27]) dac (OpsNet.cons (l := [9, 8]) dC4 (OpsNet.cons (l := [10, 11, 8, 25]) q4 (OpsNet.cons (l := [24, 14, 17, 12]) q2 (OpsNet.cons (l := [12, 13]) dC2 (OpsNet.cons (l := [13, 15, 18, 21]) q3 (OpsNet.cons (l := [16, 14, 26, 22, 15]) db (OpsNet.cons (l := [19, 17, 27, 23, 18]) dbc (OpsNet.cons (l := [21, 20]) dC3 (OpsNet.cons (l := [22, 23, 25, 20]) q5 OpsNet.nil)))))))))))))) [4, 16, 7, 19] (by decide)
  refine ⟨x7, by simp [sl2x1, net2x1, e1, e2, e3, e4, e5, e6, e7], q7.congr (by decide) (by decide) ?_⟩
  intro σ
  simp only [Spec.rhoH, List.map_cons, List.map_nil, gidx_single, fused_eq]; ring

theorem dl2x1_denotes (dim : Nat → Nat) (e : PairEnv K) (a b : Tensor K) (h : Spec.FitsH dim e a b) :
    ∃ R, dl2x1 e a b = some R ∧ Denotes dim R [[4], [16], [7], [19]] [0, 1, 2, 3, 5, 6, 8, 9, 10, 11, 12, 13, 14, 15, 17, 18, 20, 21, 22, 23, 24, 25, 26, 27] [0, 1, 2, 3, 4, 5, 6, 7, 8, 9, 10, 11, 12, 13, 14, 15, 16, 17, 18, 19, 20, 21, 22, 23, 24, 25, 26, 27] (Spec.rhoH dim e a b) := by
  obtain ⟨hC1, hT1, hS, hC4, hT3, hT1b, hC2, hSb, hC3, hT3b, ha, ha0, ha1, ha2, ha3, ha4, hb, hb0, hb1, hb2, hb3, hb4⟩ := h
  have dC1 := Denotes.leaf dim e.C1 [[0], [1]] (by simp [gdim, hC1])
  have dT1 := Denotes.leaf dim e.T1 [[1], [2, 5], [24]] (by simp [gdim, hT1])
  have dS := Denotes.leaf dim e.S [[0], [9], [3, 6]] (by simp [gdim, hS])
  have dC4 := Denotes.leaf dim e.C4 [[9], [8]] (by simp [gdim, hC4])
  have dT3 := Denotes.leaf dim e.T3 [[10, 11], [8], [25]] (by simp [gdim, hT3])
  have dT1b := Denotes.leaf dim e.T1b [[24], [14, 17], [12]] (by simp [gdim, hT1b])
  have dC2 := Denotes.leaf dim e.C2 [[12], [13]] (by simp [gdim, hC2])
  have dSb := Denotes.leaf dim e.Sb [[13], [15, 18], [21]] (by simp [gdim, hSb])
  have dC3 := Denotes.leaf dim e.C3 [[21], [20]] (by simp [gdim, hC3])
  have dT3b := Denotes.leaf dim e.T3b [[22, 23], [25], [20]] (by simp [gdim, hT3b])
  obtain ⟨A, eA, dA⟩ := dlOpen_denotes dim a 4 2 3 10 26 5 6 11 27 7 (by decide) ha ha1 ha2 ha3 ha4 ha0
  have hA : A.shape = [dim 2 * dim 5, dim 3 * dim 6, dim 10 * dim 11, dim 26 * dim 27, dim 4, dim 7] := by simp [dA.shape, gdim]
  obtain ⟨B, eB, dB⟩ := dlOpen_denotes dim b 16 14 26 22 15 17 27 23 18 19 (by decide) hb hb1 hb2 hb3 hb4 hb0
  have hB : B.shape = [dim 14 * dim 17, dim 26 * dim 27, dim 22 * dim 23, dim 15 * dim 18, dim 16, dim 19] := by simp [dB.shape, gdim]
  obtain ⟨x1, e1, q1⟩ := Denotes.tensordot dC1 dT1 [1] [0] (dotOK_iff (by decide))
  obtain ⟨x2, e2, q2⟩ := Denotes.tensordot q1 dS [0] [0] (dotOK_iff (by decide))
  obtain ⟨x3, e3, q3⟩ := Denotes.tensordot q2 dA [0, 3] [0, 1] (dotOK_iff (by decide))
  obtain ⟨x4, e4, q4⟩ := Denotes.permute q3 [1, 2, 0, 3, 4, 5] (by decide)
  obtain ⟨x5, e5, q5⟩ := Denotes.view q4 [[9, 10, 11], [24, 26, 27], [4], [7]] [e.S.size 1 * A.size 2, e.T1.size 2 * A.size 3, a.size 0, a.size 0] (by decide) (by simp [size, gdim, pow_two, hC1, hT1, hS, hC4, hT3, hT1b, hC2, hSb, hC3, hT3b, ha, ha0, ha1, ha2, ha3, ha4, hb, hb0, hb1, hb2, hb3, hb4, hA, hB])
  obtain ⟨x6, e6, q6⟩ := Denotes.tensordot dC4 dT3 [1] [1] (dotOK_iff (by decide))
  obtain ⟨x7, e7, q7⟩ := Denotes.view q6 [[9, 10, 11], [25]] [e.C4.size 0 * e.T3.size 0, e.T3.size 2] (by decide) (by simp [size, gdim, pow_two, hC1, hT1, hS, hC4, hT3, hT1b, hC2, hSb, hC3, hT3b, ha, ha0, ha1, ha2, ha3, ha4, hb, hb0, hb1, hb2, hb3, hb4, hA, hB])
  obtain ⟨x8, e8, q8⟩ := Denotes.tensordot q7 q5 [0] [0] (dotOK_iff (by decide))
  obtain ⟨x9, e9, q9⟩ := Denotes.tensordot dC2 dSb [1] [0] (dotOK_iff (by decide))
  obtain ⟨x10, e10, q10⟩ := Denotes.tensordot q9 dT1b [0] [2] (dotOK_iff (by decide))
  obtain ⟨x11, e11, q11⟩ := Denotes.tensordot q10 dB [0, 3] [3, 0] (dotOK_iff (by decide))
  obtain ⟨x12, e12, q12⟩ := Denotes.permute q11 [1, 2, 0, 3, 4, 5] (by decide)
  obtain ⟨x13, e13, q13⟩ := Denotes.view q12 [[24, 26, 27], [21, 22, 23], [16], [19]] [e.T1b.size 0 * B.size 1, e.Sb.size 2 * B.size 2, b.size 0, b.size 0] (by decide) (by simp [size, gdim, pow_two, hC1, hT1, hS, hC4, hT3, hT1b, hC2, hSb, hC3, hT3b, ha, ha0, ha1, ha2, ha3, ha4, hb, hb0, hb1, hb2, hb3, hb4, hA, hB])
  obtain ⟨x14, e14, q14⟩ := Denotes.tensordot dC3 dT3b [1] [2] (dotOK_iff (by decide))
  obtain ⟨x15, e15, q15⟩ := Denotes.view q14 [[21, 22, 23], [25]] [e.C3.size 0 * e.T3b.size 0, e.T3b.size 1] (by decide) (by simp [size, gdim, pow_two, hC1, hT1, hS, hC4, hT3, hT1b, hC2, hSb, hC3, hT3b, ha, ha0, ha1, ha2, ha3, ha4, hb, hb0, hb1, hb2, hb3, hb4, hA, hB])
  obtain ⟨x16, e16, q16⟩ := Denotes.tensordot q15 q13 [0] [1] (dotOK_iff (by decide))
  obtain ⟨x17, e17, q17⟩ := Denotes.tensordot q8 q16 [0, 1] [0, 1] (dotOK_iff (by decide))
  obtain ⟨x18, e18, q18⟩ := Denotes.permute q17 [0, 2, 1, 3] (by decide)
  refine ⟨x18, by simp [dl2x1, eA, eB, e1, e2, e3, e4, e5, e6, e7, e8, e9, e10, e11, e12, e13, e14, e15, e16, e17, e18], q18.congr (by decide) (by decide) ?_⟩
  intro σ
  simp only [Spec.rhoH, List.map_cons, List.map_nil, gidx_single, fused_eq]; ring

theorem sl1x2_denotes (dim : Nat → Nat) (e : PairEnv K) (a b : Tensor K) (h : Spec.FitsV dim e a b) :
    ∃ R, sl1x2 e a b = some R ∧ Denotes dim R [[4], [16], [7], [19]] [0, 1, 2, 3, 5, 6, 8, 9, 10, 11, 12, 13, 14, 15, 17, 18, 20, 21, 22, 23, 24, 25, 26, 27] [0, 1, 2, 3, 4, 5, 6, 7, 8, 9, 10, 11, 12, 13, 14, 15, 16, 17, 18, 19, 20, 21, 22, 23, 24, 25, 26, 27] (Spec.rhoV dim e a b) := by
  obtain ⟨hC1, hS, hT1, hT3, hC2, hT1b, hC4, hSb, hC3, hT3b, ha, ha0, ha1, ha2, ha3, ha4, hb, hb0, hb1, hb2, hb3, hb4⟩ := h
  have dC1 := Denotes.leaf dim e.C1 [[0], [1]] (by simp [gdim, hC1])
  have dS := Denotes.leaf dim e.S [[1], [2, 5], [9]] (by simp [gdim, hS])
  have dT1 := Denotes.leaf dim e.T1 [[0], [24], [3, 6]] (by simp [gdim, hT1])
  have dT3 := Denotes.leaf dim e.T3 [[8], [10, 11], [27]] (by simp [gdim, hT3])
  have dC2 := Denotes.leaf dim e.C2 [[9], [8]] (by simp [gdim, hC2])
  have dT1b := Denotes.leaf dim e.T1b [[24], [13], [14, 17]] (by simp [gdim, hT1b])
  have dC4 := Denotes.leaf dim e.C4 [[13], [12]] (by simp [gdim, hC4])
  have dSb := Denotes.leaf dim e.Sb [[15, 18], [12], [21]] (by simp [gdim, hSb])
  have dC3 := Denotes.leaf dim e.C3 [[20], [21]] (by simp [gdim, hC3])
  have dT3b := Denotes.leaf dim e.T3b [[27], [22, 23], [20]] (by simp [gdim, hT3b])
  have da := Denotes.leaf dim a [[4], [2], [3], [25], [10]] (by simp [gdim, ha])
  have dac := (Denotes.leaf dim a [[7], [5], [6], [26], [11]] (by simp [gdim, ha, ha0, ha1, ha2, ha3, ha4])).conj
  have db := Denotes.leaf dim b [[16], [25], [14], [15], [22]] (by simp [gdim, hb])
  have dbc := (Denotes.leaf dim b [[19], [26], [17], [18], [23]] (by simp [gdim, hb, hb0, hb1, hb2, hb3, hb4])).conj
  obtain ⟨x1, e1, q1⟩ := Denotes.view dS [[1], [2], [5], [9]] [e.S.size 0, a.size 1, a.size 1, e.S.size 2] (by decide) (by simp [size, gdim, pow_two, hS, ha, ha0, ha1, ha2, ha3, ha4, hb, hb0, hb1, hb2, hb3, hb4])
  obtain ⟨x2, e2, q2⟩ := Denotes.view dT3 [[8], [10], [11], [27]] [e.T3.size 0, a.size 4, a.size 4, e.T3.size 2] (by decide) (by simp [size, gdim, pow_two, hT3, ha, ha0, ha1, ha2, ha3, ha4, hb, hb0, hb1, hb2, hb3, hb4])
  obtain ⟨x3, e3, q3⟩ := Denotes.view dT3b [[27], [22], [23], [20]] [e.T3b.size 0, b.size 4, b.size 4, e.T3b.size 2] (by decide) (by simp [size, gdim, pow_two, hT3b, ha, ha0, ha1, ha2, ha3, ha4, hb, hb0, hb1, hb2, hb3, hb4])
  obtain ⟨x4, e4, q4⟩ := Denotes.view dSb [[15], [18], [12], [21]] [b.size 3, b.size 3, e.Sb.size 1, e.Sb.size 2] (by decide) (by simp [size, gdim, pow_two, hSb, ha, ha0, ha1, ha2, ha3, ha4, hb, hb0, hb1, hb2, hb3, hb4])
  obtain ⟨x5, e5, q5⟩ := Denotes.view dT1 [[0], [24], [3], [6]] [e.T1.size 0, e.T1.size 1, a.size 2, a.size 2] (by decide) (by simp [size, gdim, pow_two, hT1, ha, ha0, ha1, ha2, ha3, ha4, hb, hb0, hb1, hb2, hb3, hb4])
  obtain ⟨x6, e6, q6⟩ := Denotes.view dT1b [[24], [13], [14], [17]] [e.T1b.size 0, e.T1b.size 1, b.size 2, b.size 2] (by decide) (by simp [size, gdim, pow_two, hT1b, ha, ha0, ha1, ha2, ha3, ha4, hb, hb0, hb1, hb2, hb3, hb4])
  obtain ⟨x7, e7, q7⟩ := Denotes.einsum' (OpsNet.cons (l := [0, 1]) dC1 (OpsNet.cons (l := [1, 2, 5, 9]) q1 (OpsNet.cons (l := [0, 24, 3, 6]) q5 (OpsNet.cons (l := [4, 2, 3, 25, 10]) da (OpsNet.cons (l := [7, 5, 6, 26, 11]) dac (OpsNet.cons (l := [8, 10, 11, 27]) q2 (OpsNet.cons (l := [9, 8]) dC2 (OpsNet.cons (l := [24, 13, 14, 17]) q6 (OpsNet.cons (l := [13, 12]) dC4 (OpsNet.cons (l := [15, 18, 12, 21]) q4 (OpsNet.cons (l := [16, 25, 14, 15, 22]) db (OpsNet.cons (l := [19, 26, 17, 18, 23]) dbc (OpsNet.cons (l := [20, 21]) dC3 (OpsNet.cons (l := [27, 22, 23, 20]) q3 OpsNet.nil)))))))))))))) [4, 16, 7, 19] (by decide)
  refine ⟨x7, by simp [sl1x2, net1x2, e1, e2, e3, e4, e5, e6, e7], q7.congr (by decide) (by decide) ?_⟩
  intro σ
  simp only [Spec.rhoV, List.map_cons, List.map_nil, gidx_single, fused_eq]; ring

theorem dl1x2_denotes (dim : Nat → Nat) (e : PairEnv K) (a b : Tensor K) (h : Spec.FitsV dim e a b) :
    ∃ R, dl1x2 e a b = some R ∧ Denotes dim R [[4], [16], [7], [19]] [0, 1, 2, 3, 5, 6, 8, 9, 10, 11, 12, 13, 14, 15, 17, 18, 20, 21, 22, 23, 24, 25, 26, 27] [0, 1, 2, 3, 4, 5, 6, 7, 8, 9, 10, 11, 12, 13, 14, 15, 16, 17, 18, 19, 20, 21, 22, 23, 24, 25, 26, 27] (Spec.rhoV dim e a b) := by
  obtain ⟨hC1, hS, hT1, hT3, hC2, hT1b, hC4, hSb, hC3, hT3b, ha, ha0, ha1, ha2, ha3, ha4, hb, hb0, hb1, hb2, hb3, hb4⟩ := h
  have dC1 := Denotes.leaf dim e.C1 [[0], [1]] (by simp [gdim, hC1])
  have dS := Denotes.leaf dim e.S [[1], [2, 5], [9]] (by simp [gdim, hS])
  have dT1 := Denotes.leaf dim e.T1 [[0], [24], [3, 6]] (by simp [gdim, hT1])
  have dT3 := Denotes.leaf dim e.T3 [[8], [10, 11], [27]] (by simp [gdim, hT3])
  have dC2 := Denotes.leaf dim e.C2 [[9], [8]] (by simp [gdim, hC2])
  have dT1b := Denotes.leaf dim e.T1b [[24], [13], [14, 17]] (by simp [gdim, hT1b])
  have dC4 := Denotes.leaf dim e.C4 [[13], [12]] (by simp [gdim, hC4])
  have dSb := Denotes.leaf dim e.Sb [[15, 18], [12], [21]] (by simp [gdim, hSb])
  have dC3 := Denotes.leaf dim e.C3 [[20], [21]] (by simp [gdim, hC3])
  have dT3b := Denotes.leaf dim e.T3b [[27], [22, 23], [20]] (by simp [gdim, hT3b])
  obtain ⟨A, eA, dA⟩ := dlOpen_denotes dim a 4 2 3 25 10 5 6 26 11 7 (by decide) ha ha1 ha2 ha3 ha4 ha0
  have hA : A.shape = [dim 2 * dim 5, dim 3 * dim 6, dim 25 * dim 26, dim 10 * dim 11, dim 4, dim 7] := by simp [dA.shape, gdim]
  obtain ⟨B, eB, dB⟩ := dlOpen_denotes dim b 16 25 14 15 22 26 17 18 23 19 (by decide) hb hb1 hb2 hb3 hb4 hb0
  have hB : B.shape = [dim 25 * dim 26, dim 14 * dim 17, dim 15 * dim 18, dim 22 * dim 23, dim 16, dim 19] := by simp [dB.shape, gdim]
  obtain ⟨x1, e1, q1⟩ := Denotes.tensordot dC1 dS [1] [0] (dotOK_iff (by decide))
  obtain ⟨x2, e2, q2⟩ := Denotes.tensordot q1 dT1 [0] [0] (dotOK_iff (by decide))
  obtain ⟨x3, e3, q3⟩ := Denotes.tensordot q2 dA [0, 3] [0, 1] (dotOK_iff (by decide))
  obtain ⟨x4, e4, q4⟩ := Denotes.permute q3 [1, 2, 0, 3, 4, 5] (by decide)
  obtain ⟨x5, e5, q5⟩ := Denotes.view q4 [[24, 25, 26], [9, 10, 11], [4], [7]] [e.T1.size 1 * A.size 2, e.S.size 2 * A.size 3, a.size 0, a.size 0] (by decide) (by simp [size, gdim, pow_two, hC1, hS, hT1, hT3, hC2, hT1b, hC4, hSb, hC3, hT3b, ha, ha0, ha1, ha2, ha3, ha4, hb, hb0, hb1, hb2, hb3, hb4, hA, hB])
  obtain ⟨x6, e6, q6⟩ := Denotes.tensordot dC2 dT3 [1] [0] (dotOK_iff (by decide))
  obtain ⟨x7, e7, q7⟩ := Denotes.view q6 [[9, 10, 11], [27]] [e.C2.size 0 * e.T3.size 1, e.T3.size 2] (by decide) (by simp [size, gdim, pow_two, hC1, hS, hT1, hT3, hC2, hT1b, hC4, hSb, hC3, hT3b, ha, ha0, ha1, ha2, ha3, ha4, hb, hb0, hb1, hb2, hb3, hb4, hA, hB])
  obtain ⟨x8, e8, q8⟩ := Denotes.tensordot q7 q5 [0] [1] (dotOK_iff (by decide))
  obtain ⟨x9, e9, q9⟩ := Denotes.tensordot dC4 dT1b [0] [1] (dotOK_iff (by decide))
  obtain ⟨x10, e10, q10⟩ := Denotes.tensordot q9 dSb [0] [1] (dotOK_iff (by decide))
  obtain ⟨x11, e11, q11⟩ := Denotes.tensordot q10 dB [1, 2] [1, 2] (dotOK_iff (by decide))
  obtain ⟨x12, e12, q12⟩ := Denotes.permute q11 [0, 2, 1, 3, 4, 5] (by decide)
  obtain ⟨x13, e13, q13⟩ := Denotes.view q12 [[24, 25, 26], [21, 22, 23], [16], [19]] [e.T1b.size 0 * B.size 0, e.Sb.size 2 * B.size 3, b.size 0, b.size 0] (by decide) (by simp [size, gdim, pow_two, hC1, hS, hT1, hT3, hC2, hT1b, hC4, hSb, hC3, hT3b, ha, ha0, ha1, ha2, ha3, ha4, hb, hb0, hb1, hb2, hb3, hb4, hA, hB])
  obtain ⟨x14, e14, q14⟩ := Denotes.tensordot dT3b dC3 [2] [0] (dotOK_iff (by decide))
  obtain ⟨x15, e15, q15⟩ := Denotes.permute q14 [0, 2, 1] (by decide)
  obtain ⟨x16, e16, q16⟩ := Denotes.view q15 [[27], [21, 22, 23]] [e.T3b.size 0, e.C3.size 1 * e.T3b.size 1] (by decide) (by simp [size, gdim, pow_two, hC1, hS, hT1, hT3, hC2, hT1b, hC4, hSb, hC3, hT3b, ha, ha0, ha1, ha2, ha3, ha4, hb, hb0, hb1, hb2, hb3, hb4, hA, hB])
  obtain ⟨x17, e17, q17⟩ := Denotes.tensordot q16 q13 [1] [1] (dotOK_iff (by decide))
  obtain ⟨x18, e18, q18⟩ := Denotes.tensordot q8 q17 [0, 1] [0, 1] (dotOK_iff (by decide))
  obtain ⟨x19, e19, q19⟩ := Denotes.permute q18 [0, 2, 1, 3] (by decide)
  refine ⟨x19, by simp [dl1x2, eA, eB, e1, e2, e3, e4, e5, e6, e7, e8, e9, e10, e11, e12, e13, e14, e15, e16, e17, e18, e19], q19.congr (by decide) (by decide) ?_⟩
  intro σ
  simp only [Spec.rhoV, List.map_cons, List.map_nil, gidx_single, fused_eq]; ring

end Verif.Rdm
