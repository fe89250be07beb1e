import Verif.Kagome.Tri
import Verif.Kagome.Pair2
/-
The network of one site tensor as a functional of its double-layer tensor.
-/
namespace Verif.KagomeRdm
open Tensor Corner Rdm
set_option linter.unusedSimpArgs false
set_option linter.unusedVariables false
set_option linter.unusedSectionVars false
variable {K : Type} [RCLike K]

/-- The inner labels. -/
def innerS : List Nat := [0, 1, 2, 3, 7, 15, 16, 19, 27, 33, 36, 37]

/-- The tensors of the environment. -/
def envS (e : SiteEnv K) (σ : Nat → Nat) : K :=
  e.C1.val [σ 0, σ 1] * e.T4.val [σ 0, σ 15, σ 3] * e.C4.val [σ 15, σ 7] * e.T3.val [σ 16, σ 7, σ 27] * e.T1.val [σ 1, σ 2, σ 36] * e.C2.val [σ 36, σ 19] *
    e.T2.val [σ 19, σ 37, σ 33] * e.C3.val [σ 33, σ 27]

/-- The summand of the network. -/
def bodyS (e : SiteEnv K) (f : Nat → Nat → Nat → Nat → K) (σ : Nat → Nat) : K := envS e σ * f (σ 2) (σ 3) (σ 16) (σ 37)

theorem dlS_fused (dim : Nat → Nat) (e : SiteEnv K) (A : Tensor K) (ext : List Nat) (hx : ext ∈ [[], [100], [100, 110]])
    (hC1 : e.C1.shape = [dim 0, dim 1]) (hT4 : e.T4.shape = [dim 0, dim 15, dim 3]) (hC4 : e.C4.shape = [dim 15, dim 7]) (hT3 : e.T3.shape = [dim 16, dim 7, dim 27])
    (hT1 : e.T1.shape = [dim 1, dim 2, dim 36]) (hC2 : e.C2.shape = [dim 36, dim 19]) (hT2 : e.T2.shape = [dim 19, dim 37, dim 33]) (hC3 : e.C3.shape = [dim 33, dim 27])
    (hA : A.shape = [dim 2, dim 3, dim 16, dim 37] ++ ext.map dim) :
    ∃ R, dl1x1 e A = some R ∧ Denotes dim R (singles ext) innerS (innerS ++ [100, 110]) (fun σ => envS e σ * A.val ([σ 2, σ 3, σ 16, σ 37] ++ ext.map σ)) := by
  have dC1 := Denotes.leaf dim e.C1 [[0], [1]] (by simp [hC1])
  have dT4 := Denotes.leaf dim e.T4 [[0], [15], [3]] (by simp [hT4])
  have dC4 := Denotes.leaf dim e.C4 [[15], [7]] (by simp [hC4])
  have dT3 := Denotes.leaf dim e.T3 [[16], [7], [27]] (by simp [hT3])
  have dT1 := Denotes.leaf dim e.T1 [[1], [2], [36]] (by simp [hT1])
  have dC2 := Denotes.leaf dim e.C2 [[36], [19]] (by simp [hC2])
  have dT2 := Denotes.leaf dim e.T2 [[19], [37], [33]] (by simp [hT2])
  have dC3 := Denotes.leaf dim e.C3 [[33], [27]] (by simp [hC3])
  obtain ⟨x1, e1, q1⟩ := Denotes.tensordot dC1 dT4 [0] [0] (dotOK_iff (by decide))
  obtain ⟨x2, e2, q2⟩ := Denotes.tensordot q1 dC4 [1] [0] (dotOK_iff (by decide))
  obtain ⟨x3, e3, q3⟩ := Denotes.tensordot q2 dT3 [2] [1] (dotOK_iff (by decide))
  simp only [List.mem_cons, List.not_mem_nil, or_false] at hx
  rcases hx with rfl | rfl | rfl
  · have dA := Denotes.leaf dim A [[2], [3], [16], [37]] (by simp [hA])
    obtain ⟨x4, e4, q4⟩ := Denotes.tensordot q3 dA [1, 2] [1, 2] (dotOK_iff (by decide))
    obtain ⟨x5, e5, q5⟩ := Denotes.tensordot dT1 q4 [0, 1] [0, 2] (dotOK_iff (by decide))
    obtain ⟨x6, e6, q6⟩ := Denotes.tensordot dC2 q5 [0] [0] (dotOK_iff (by decide))
    obtain ⟨x7, e7, q7⟩ := Denotes.tensordot dT2 q6 [0, 1] [0, 2] (dotOK_iff (by decide))
    obtain ⟨x8, e8, q8⟩ := Denotes.tensordot q7 dC3 [0, 1] [0, 1] (dotOK_iff (by decide))
    refine ⟨x8, by simp [dl1x1, e1, e2, e3, e4, e5, e6, e7, e8], Denotes.congr (O := singles []) q8 (by decide) (by decide) ?_⟩
    intro σ
    simp [envS]; ring
  · have dA := Denotes.leaf dim A [[2], [3], [16], [37], [100]] (by simp [hA])
    obtain ⟨x4, e4, q4⟩ := Denotes.tensordot q3 dA [1, 2] [1, 2] (dotOK_iff (by decide))
    obtain ⟨x5, e5, q5⟩ := Denotes.tensordot dT1 q4 [0, 1] [0, 2] (dotOK_iff (by decide))
    obtain ⟨x6, e6, q6⟩ := Denotes.tensordot dC2 q5 [0] [0] (dotOK_iff (by decide))
    obtain ⟨x7, e7, q7⟩ := Denotes.tensordot dT2 q6 [0, 1] [0, 2] (dotOK_iff (by decide))
    obtain ⟨x8, e8, q8⟩ := Denotes.tensordot q7 dC3 [0, 1] [0, 1] (dotOK_iff (by decide))
    refine ⟨x8, by simp [dl1x1, e1, e2, e3, e4, e5, e6, e7, e8], Denotes.congr (O := singles [100]) q8 (by decide) (by decide) ?_⟩
    intro σ
    simp [envS]; ring
  · have dA := Denotes.leaf dim A [[2], [3], [16], [37], [100], [110]] (by simp [hA])
    obtain ⟨x4, e4, q4⟩ := Denotes.tensordot q3 dA [1, 2] [1, 2] (dotOK_iff (by decide))
    obtain ⟨x5, e5, q5⟩ := Denotes.tensordot dT1 q4 [0, 1] [0, 2] (dotOK_iff (by decide))
    obtain ⟨x6, e6, q6⟩ := Denotes.tensordot dC2 q5 [0] [0] (dotOK_iff (by decide))
    obtain ⟨x7, e7, q7⟩ := Denotes.tensordot dT2 q6 [0, 1] [0, 2] (dotOK_iff (by decide))
    obtain ⟨x8, e8, q8⟩ := Denotes.tensordot q7 dC3 [0, 1] [0, 1] (dotOK_iff (by decide))
    refine ⟨x8, by simp [dl1x1, e1, e2, e3, e4, e5, e6, e7, e8], Denotes.congr (O := singles [100, 110]) q8 (by decide) (by decide) ?_⟩
    intro σ
    simp [envS]; ring

/-- The network as a functional of its double-layer tensor. -/
noncomputable def netS (dim : Nat → Nat) (e : SiteEnv K) (f : Nat → Nat → Nat → Nat → K) : K :=
  sumOver (fdim dim (fun _ => 0)) innerS (bodyS e f) (fun _ => 0)

theorem bodyS_local (e : SiteEnv K) (f : Nat → Nat → Nat → Nat → K) (σ τ : Nat → Nat) (hh : ∀ l ∈ innerS, σ l = τ l) : bodyS e f σ = bodyS e f τ := by
  simp only [innerS, List.forall_mem_cons, List.not_mem_nil, false_imp_iff, implies_true, and_true] at hh
  obtain ⟨h0, h1, h2, h3, h7, h15, h16, h19, h27, h33, h36, h37⟩ := hh
  simp only [bodyS, envS, h0, h1, h2, h3, h7, h15, h16, h19, h27, h33, h36, h37]

theorem sumOver_netS (dim ph : Nat → Nat) (e : SiteEnv K) (f : Nat → Nat → Nat → Nat → K) (F : (Nat → Nat) → K) (σ : Nat → Nat)
    (hF : ∀ τ, (∀ l ∈ innerS, τ l < fdim dim (fun _ => 0) l) → (∀ l, 100 ≤ l → τ l = σ l) → F τ = bodyS e f τ) :
    sumOver (fdim dim ph) innerS F σ = netS dim e f := by
  have hn : ∀ l ∈ innerS, ¬ 100 ≤ l := by decide
  have hd : ∀ l ∈ innerS, fdim dim ph l = fdim dim (fun _ => 0) l := by
    intro l hl
    unfold fdim; rw [if_neg (hn l hl), if_neg (hn l hl)]
  rw [sumOver_dim _ (fdim dim (fun _ => 0)) _ _ _ hd, sumOver_congr _ _ F (bodyS e f) σ]
  · exact sumOver_local _ innerS innerS _ (bodyS_local e f) _ _ (fun l hl hn => absurd hl hn)
  · intro τ h1 h2
    exact hF τ h1 (fun l hl => h2 l (fun h' => hn l h' hl))

theorem linS (dim : Nat → Nat) (e : SiteEnv K) : Lin (fun f => netS dim e f) := by
  have := lin_sumOver (fdim dim (fun _ => 0)) innerS (fun τ => envS e τ) 2 3 16 37 (fun _ => 0)
  exact this

/-- The labels of Fits1. -/
def mapS (l : Nat) : Nat := [0, 1, 2, 3, 0, 0, 0, 12, 0, 0, 0, 0, 0, 0, 0, 14, 15, 0, 0, 8, 0, 0, 0, 0, 0, 0, 0, 13, 0, 0, 0, 0, 0, 17, 0, 0, 9, 10].getD l 0

/-- The network with a closed double-layer tensor. -/
theorem closedS {dim : Nat → Nat} {e : SiteEnv K} {a A : Tensor K} (h : Rdm.Spec.Fits1 dim e a)
    (sA : A.shape = [dim 2 * dim 2, dim 3 * dim 3, dim 15 * dim 15, dim 10 * dim 10]) (f : Nat → Nat → Nat → Nat → K)
    (vA : ∀ U L D R, U < dim 2 * dim 2 → L < dim 3 * dim 3 → D < dim 15 * dim 15 → R < dim 10 * dim 10 → A.val [U, L, D, R] = f U L D R) :
    ∃ X, dl1x1 e A = some X ∧ X.shape = [] ∧ X.val [] = netS (fun l => dim (mapS l)) e f := by
  obtain ⟨hC1, hT1, hT4, hC2, hT2, hC3, hT3, hC4, ha, ha0, ha1, ha2, ha3, ha4⟩ := h
  obtain ⟨X, e1, q1⟩ := dlS_fused (fdim (fun l => dim (mapS l)) (fun _ => 0)) e A [] (by decide) (by simp [fdim, fused, mapS, hC1, ha1, ha2, ha3, ha4]) (by simp [fdim, fused, mapS, hT4, ha1, ha2, ha3, ha4]) (by simp [fdim, fused, mapS, hC4, ha1, ha2, ha3, ha4]) (by simp [fdim, fused, mapS, hT3, ha1, ha2, ha3, ha4]) (by simp [fdim, fused, mapS, hT1, ha1, ha2, ha3, ha4]) (by simp [fdim, fused, mapS, hC2, ha1, ha2, ha3, ha4]) (by simp [fdim, fused, mapS, hT2, ha1, ha2, ha3, ha4]) (by simp [fdim, fused, mapS, hC3, ha1, ha2, ha3, ha4])
    (by simp [fdim, fused, mapS, sA])
  refine ⟨X, e1, by rw [q1.shape]; rfl, ?_⟩
  have hv := q1.val (fun _ => 0) (by simp [singles])
  refine hv.trans (sumOver_netS _ _ e f _ _ (fun τ hb' _ => ?_))
  simp only [innerS, List.forall_mem_cons, List.not_mem_nil, false_imp_iff, implies_true, and_true] at hb'
  obtain ⟨b0, b1, b2, b3, b7, b15, b16, b19, b27, b33, b36, b37⟩ := hb'
  show envS e τ * A.val [_, _, _, _] = _
  rw [vA _ _ _ _ b2 b3 b16 b37]
  rfl

/-- Entries of the network of one site tensor. -/
def Full1 (dim : Nat → Nat) (e : SiteEnv K) (a : Tensor K) (P : Nat) (T : Tensor K) : Prop :=
  ∀ s t : Nat, s < P → t < P → T.val ([s] ++ [t]) = netS dim e (lay a s t)

theorem fullS {dim : Nat → Nat} {e : SiteEnv K} {a A : Tensor K} (h : Rdm.Spec.Fits1 dim e a) (eA : dlOpen a = some A) {P : Nat} (p0 : dim 4 = P) :
    ∃ T, dl1x1 e A = some T ∧ T.shape = List.replicate 1 P ++ List.replicate 1 P ∧ Full1 (fun l => dim (mapS l)) e a P T := by
  obtain ⟨hC1, hT1, hT4, hC2, hT2, hC3, hT3, hC4, ha, ha0, ha1, ha2, ha3, ha4⟩ := h
  obtain ⟨A', eA', sA, vA⟩ := dlOpen_val a _ _ _ _ _ ha
  obtain rfl : A = A' := by rw [eA] at eA'; exact Option.some.inj eA'
  obtain ⟨T, e1, q1⟩ := dlS_fused (fdim (fun l => dim (mapS l)) (fun _ => P)) e A [100, 110] (by decide) (by simp [fdim, fused, mapS, hC1, ha1, ha2, ha3, ha4]) (by simp [fdim, fused, mapS, hT4, ha1, ha2, ha3, ha4]) (by simp [fdim, fused, mapS, hC4, ha1, ha2, ha3, ha4]) (by simp [fdim, fused, mapS, hT3, ha1, ha2, ha3, ha4]) (by simp [fdim, fused, mapS, hT1, ha1, ha2, ha3, ha4]) (by simp [fdim, fused, mapS, hC2, ha1, ha2, ha3, ha4]) (by simp [fdim, fused, mapS, hT2, ha1, ha2, ha3, ha4]) (by simp [fdim, fused, mapS, hC3, ha1, ha2, ha3, ha4])
    (by simp [fdim, fused, mapS, sA, p0])
  refine ⟨T, e1, by rw [q1.shape]; simp [singles, gdim, fdim], fun s t hs ht => ?_⟩
  let σ : Nat → Nat := fun l => if l = 100 then s else t
  have hv := q1.val σ (by
    rw [singles_flatten]
    simp only [List.forall_mem_cons, List.not_mem_nil, false_imp_iff, implies_true, and_true]
    exact ⟨hs, ht⟩)
  rw [singles_gidx] at hv
  refine hv.trans (sumOver_netS _ _ e _ _ σ (fun τ hb' ho => ?_))
  simp only [innerS, List.forall_mem_cons, List.not_mem_nil, false_imp_iff, implies_true, and_true] at hb'
  obtain ⟨b0, b1, b2, b3, b7, b15, b16, b19, b27, b33, b36, b37⟩ := hb'
  have o0 : τ 100 = s := ho 100 (by omega)
  have o1 : τ 110 = t := ho 110 (by omega)
  show envS e τ * A.val [_, _, _, _, τ 100, τ 110] = _
  rw [o0, o1, vA s t _ _ _ _ (by omega) (by omega) b2 b3 b16 b37]
  rfl

theorem agree1 {p : Nat} {os : List Nat} (h3 : ∀ x ∈ os, x < 3) (k b : Nat → Nat) (s t : Nat) :
    Spec.Agree p 1 (Spec.kept [os]) k b [s] [t] ↔ Ag3 p (pairs [os] k b 0) s t := by
  rw [agree_iff (by simpa using h3)]
  constructor
  · intro h; exact h 0 (by omega)
  · intro g i hi
    obtain rfl : i = 0 := by omega
    exact g

/-- The network of an opened tensor is the partial trace of the network of all configurations. -/
theorem net1_opened (dim : Nat → Nat) (e : SiteEnv K) (p : Nat) (a : Tensor K) {os : List Nat} (h3 : ∀ x ∈ os, x < 3) (k b : Nat → Nat) {T : Tensor K}
    (hT : Full1 dim e a (p ^ 3) T) : netS dim e (opened p a (pairs [os] k b 0)) = Spec.marginal p 1 T (Spec.kept [os]) k b := by
  have e0 := linS dim e (p ^ 3) (fun s t => ind (Ag3 p (pairs [os] k b 0) s t)) (fun s t => lay a s t)
  simp only at e0
  unfold Spec.marginal
  simp only [List.replicate, sumIdx]
  refine e0.trans ?_
  refine Finset.sum_congr rfl fun s hs => Finset.sum_congr rfl fun t ht => ?_
  simp only [Finset.mem_range] at hs ht
  have hi : (if Spec.Agree p 1 (Spec.kept [os]) k b [s] [t] then T.val ([s] ++ [t]) else 0) = ind (Spec.Agree p 1 (Spec.kept [os]) k b [s] [t]) * T.val ([s] ++ [t]) := by
    unfold ind; split <;> simp
  refine Eq.trans ?_ hi.symm
  rw [ind_congr (agree1 h3 k b s t), hT s t hs ht]

/-- The network with some open spins is the partial trace of the network. -/
theorem openedS {dim : Nat → Nat} {e : SiteEnv K} {a A : Tensor K} (h : Rdm.Spec.Fits1 dim e a) {p : Nat} (p0 : dim 4 = p ^ 3) (eA : dlOpen a = some A)
    {os : List Nat} (ho : os ∈ subsets) (hne : os ≠ []) :
    ∃ a0 X R, doubleLayer p a os = some a0 ∧ dl1x1 e a0 = some X ∧ view (List.replicate (2 * os.length) p) X = some R ∧
      ∀ T, dl1x1 e A = some T → Spec.IsMarginal p 1 T R (Spec.kept [os]) := by
  obtain ⟨T, eT, -, vT⟩ := fullS h eA p0
  obtain ⟨hC1, hT1, hT4, hC2, hT2, hC3, hT3, hC4, ha, ha0, ha1, ha2, ha3, ha4⟩ := h
  rw [p0] at ha
  obtain ⟨B, eB, sB, vB⟩ := layer_opened p a _ _ _ _ os ho ha
  rw [if_neg hne] at sB
  let ph : Nat → Nat := fun l => p ^ (2 * os.length)
  obtain ⟨X, e1, q1⟩ := dlS_fused (fdim (fun l => dim (mapS l)) ph) e B [100] (by decide) (by simp [fdim, fused, mapS, hC1, ha1, ha2, ha3, ha4]) (by simp [fdim, fused, mapS, hT4, ha1, ha2, ha3, ha4]) (by simp [fdim, fused, mapS, hC4, ha1, ha2, ha3, ha4]) (by simp [fdim, fused, mapS, hT3, ha1, ha2, ha3, ha4]) (by simp [fdim, fused, mapS, hT1, ha1, ha2, ha3, ha4]) (by simp [fdim, fused, mapS, hC2, ha1, ha2, ha3, ha4]) (by simp [fdim, fused, mapS, hT2, ha1, ha2, ha3, ha4]) (by simp [fdim, fused, mapS, hC3, ha1, ha2, ha3, ha4])
    (by simp [fdim, fused, mapS, sB, ph])
  have sX : X.shape = [p ^ (2 * os.length)] := by
    rw [q1.shape]; simp [singles, gdim, fdim, ph]
  obtain ⟨R, e2, hR⟩ : ∃ R, view (List.replicate (2 * os.length) p) X = some R ∧ R = ⟨List.replicate (2 * os.length) p, fun idx => X.val [ravel (List.replicate (2 * os.length) p) idx]⟩ := by
    refine ⟨_, ?_, rfl⟩
    unfold view
    rw [if_pos (by simp [sX]), sX]
    simp [unravel]
  refine ⟨B, X, R, eB, e1, e2, fun T' eT' => ?_⟩
  obtain rfl : T = T' := by rw [eT] at eT'; exact Option.some.inj eT'
  have hks : Spec.kept [os] = os := by
    simp [Spec.kept, List.range, List.range.loop]
  have h3 := (subsets_lt os ho).2
  refine ⟨?_, fun k b hk hb => ?_⟩
  · rw [hR, hks, ← List.replicate_add]; simp; omega
  rw [← net1_opened _ e p a h3 k b vT, hks]
  have hR' : R.val (os.map k ++ os.map b) = X.val (openIdx p os k b) := by
    rw [hR, openIdx, if_neg hne]
  rw [hR']
  let σ : Nat → Nat := fun l => oi p os k b
  have hv := q1.val σ (by
    rw [singles_flatten]
    simp only [List.forall_mem_cons, List.not_mem_nil, false_imp_iff, implies_true, and_true]
    exact oi_lt p os _ _ hk hb)
  rw [singles_gidx] at hv
  have hoi : ∀ x, x = oi p os k b → [x] = openIdx p os k b := by
    intro x hx; rw [hx]; simp [oi, openIdx, hne]
  have : [100].map σ = openIdx p os k b := hoi _ rfl
  rw [this] at hv
  refine hv.trans (sumOver_netS _ _ e _ _ σ (fun τ hb' ho => ?_))
  simp only [innerS, List.forall_mem_cons, List.not_mem_nil, false_imp_iff, implies_true, and_true] at hb'
  obtain ⟨b0, b1, b2, b3, b7, b15, b16, b19, b27, b33, b36, b37⟩ := hb'
  show envS e τ * B.val ([_, _, _, _] ++ [τ 100]) = _
  rw [hoi (τ 100) (ho 100 (by omega)), vB k b _ _ _ _ hk hb b2 b3 b16 b37]
  unfold bodyS pairs
  simp

end Verif.KagomeRdm
