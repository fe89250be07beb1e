import Verif.Kagome.Pair
/-
`rdm2x1_kagome` and `rdm1x2_kagome` are partial traces of `rdm2x1` and `rdm1x2`.
-/
namespace Verif.KagomeRdm
open Tensor Corner Rdm
set_option linter.unusedSimpArgs false
set_option linter.unusedVariables false
set_option linter.unusedSectionVars false
variable {K : Type} [RCLike K]

theorem swap2 (P : Nat) (F : Nat → Nat → Nat → Nat → K) :
    (∑ s0 ∈ Finset.range P, ∑ s1 ∈ Finset.range P, ∑ t0 ∈ Finset.range P, ∑ t1 ∈ Finset.range P, F s0 s1 t0 t1) =
    ∑ s0 ∈ Finset.range P, ∑ t0 ∈ Finset.range P, ∑ s1 ∈ Finset.range P, ∑ t1 ∈ Finset.range P, F s0 s1 t0 t1 := by
  refine Finset.sum_congr rfl fun s0 _ => ?_
  exact Finset.sum_comm

theorem agree2 {p : Nat} {keeps : List (List Nat)} (h3 : ∀ os ∈ keeps, ∀ x ∈ os, x < 3) (k b : Nat → Nat) (s0 s1 t0 t1 : Nat) :
    Spec.Agree p 2 (Spec.kept keeps) k b [s0, s1] [t0, t1] ↔ (Ag3 p (pairs keeps k b 0) s0 t0 ∧ Ag3 p (pairs keeps k b 1) s1 t1) := by
  rw [agree_iff h3]
  constructor
  · intro h; exact ⟨h 0 (by omega), h 1 (by omega)⟩
  · rintro ⟨g0, g1⟩ i hi
    have : i = 0 ∨ i = 1 := by omega
    rcases this with rfl | rfl
    · exact g0
    · exact g1

/-- A bilinear network of opened tensors is the partial trace of the network of all configurations. -/
theorem net2_opened (Φ : (Nat → Nat → Nat → Nat → K) → (Nat → Nat → Nat → Nat → K) → K) (l0 : ∀ g, Lin (fun f => Φ f g)) (l1 : ∀ f, Lin (fun g => Φ f g)) (p : Nat)
    (A B : Tensor K) {keeps : List (List Nat)} (h3 : ∀ os ∈ keeps, ∀ x ∈ os, x < 3) (k b : Nat → Nat) {T : Tensor K}
    (hT : ∀ s0 s1 t0 t1 : Nat, s0 < p ^ 3 → s1 < p ^ 3 → t0 < p ^ 3 → t1 < p ^ 3 → T.val ([s0, s1] ++ [t0, t1]) = Φ (lay A s0 t0) (lay B s1 t1)) :
    Φ (opened p A (pairs keeps k b 0)) (opened p B (pairs keeps k b 1)) = Spec.marginal p 2 T (Spec.kept keeps) k b := by
  have e0 := l0 (opened p B (pairs keeps k b 1)) (p ^ 3) (fun s t => ind (Ag3 p (pairs keeps k b 0) s t)) (fun s t => lay A s t)
  have e1 := fun f => l1 f (p ^ 3) (fun s t => ind (Ag3 p (pairs keeps k b 1) s t)) (fun s t => lay B s t)
  simp only at e0 e1
  unfold Spec.marginal
  simp only [List.replicate, sumIdx]
  rw [swap2]
  refine e0.trans ?_
  refine Finset.sum_congr rfl fun s0 hs0 => Finset.sum_congr rfl fun t0 ht0 => ?_
  refine (congrArg _ (e1 _)).trans ?_
  rw [Finset.mul_sum]
  refine Finset.sum_congr rfl fun s1 hs1 => ?_
  rw [Finset.mul_sum]
  refine Finset.sum_congr rfl fun t1 ht1 => ?_
  simp only [Finset.mem_range] at hs0 hs1 ht0 ht1
  have hi : (if Spec.Agree p 2 (Spec.kept keeps) k b [s0, s1] [t0, t1] then T.val ([s0, s1] ++ [t0, t1]) else 0) =
      ind (Spec.Agree p 2 (Spec.kept keeps) k b [s0, s1] [t0, t1]) * T.val ([s0, s1] ++ [t0, t1]) := by
    unfold ind; split <;> simp
  refine Eq.trans ?_ hi.symm
  rw [ind_congr (agree2 h3 k b s0 s1 t0 t1), ind_and, hT s0 s1 t0 t1 hs0 hs1 ht0 ht1]
  ring

/-- The network as a functional of its two double-layer tensors. -/
noncomputable def netH (dim : Nat → Nat) (e : PairEnv K) (f g : Nat → Nat → Nat → Nat → K) : K :=
  sumOver (fdim dim (fun _ => 0)) innerH (bodyH e f g) (fun _ => 0)

theorem bodyH_local (e : PairEnv K) (f g : Nat → Nat → Nat → Nat → K) (σ τ : Nat → Nat) (hh : ∀ l ∈ innerH, σ l = τ l) : bodyH e f g σ = bodyH e f g τ := by
  simp only [innerH, List.forall_mem_cons, List.not_mem_nil, false_imp_iff, implies_true, and_true] at hh
  obtain ⟨h0, h1, h2, h3, h7, h15, h16, h18, h19, h20, h21, h27, h33, h34, h36, h37, h41⟩ := hh
  simp only [bodyH, h0, h1, h2, h3, h7, h15, h16, h18, h19, h20, h21, h27, h33, h34, h36, h37, h41]

theorem sumOver_netH (dim ph : Nat → Nat) (e : PairEnv K) (f g : Nat → Nat → Nat → Nat → K) (F : (Nat → Nat) → K) (σ : Nat → Nat)
    (hF : ∀ τ, (∀ l ∈ innerH, τ l < fdim dim (fun _ => 0) l) → (∀ l, 100 ≤ l → τ l = σ l) → F τ = bodyH e f g τ) :
    sumOver (fdim dim ph) innerH F σ = netH dim e f g := by
  have hn : ∀ l ∈ innerH, ¬ 100 ≤ l := by decide
  have hd : ∀ l ∈ innerH, fdim dim ph l = fdim dim (fun _ => 0) l := by
    intro l hl
    unfold fdim; rw [if_neg (hn l hl), if_neg (hn l hl)]
  rw [sumOver_dim _ (fdim dim (fun _ => 0)) _ _ _ hd, sumOver_congr _ _ F (bodyH e f g) σ]
  · exact sumOver_local _ innerH innerH _ (bodyH_local e f g) _ _ (fun l hl hn => absurd hl hn)
  · intro τ h1 h2
    exact hF τ h1 (fun l hl => h2 l (fun h' => hn l h' hl))

theorem linH0 (dim : Nat → Nat) (e : PairEnv K) (g : Nat → Nat → Nat → Nat → K) : Lin (fun f => netH dim e f g) := by
  have := lin_sumOver (fdim dim (fun _ => 0)) innerH (fun τ => bodyH e (fun _ _ _ _ => (1 : K)) g τ) 2 3 16 37 (fun _ => 0)
  refine (congrArg Lin ?_).mp this
  funext f; unfold netH; congr 1; funext τ; simp only [bodyH]; ring

theorem linH1 (dim : Nat → Nat) (e : PairEnv K) (f : Nat → Nat → Nat → Nat → K) : Lin (fun g => netH dim e f g) := by
  have := lin_sumOver (fdim dim (fun _ => 0)) innerH (fun τ => bodyH e f (fun _ _ _ _ => (1 : K)) τ) 20 37 34 21 (fun _ => 0)
  refine (congrArg Lin ?_).mp this
  funext g; unfold netH; congr 1; funext τ; simp only [bodyH]; ring

/-- The labels of FitsH. -/
def mapH (l : Nat) : Nat := [0, 1, 2, 3, 0, 0, 0, 8, 0, 0, 0, 0, 0, 0, 0, 9, 10, 0, 12, 13, 14, 15, 0, 0, 0, 0, 0, 20, 0, 0, 0, 0, 0, 21, 22, 0, 24, 26, 0, 0, 0, 25].getD l 0

theorem fullH {dim : Nat → Nat} {e : PairEnv K} {a b : Tensor K} (h : Rdm.Spec.FitsH dim e a b) {P : Nat} (p0 : dim 4 = P) (p1 : dim 16 = P) :
    ∃ T, dl2x1 e a b = some T ∧ T.shape = List.replicate 2 P ++ List.replicate 2 P ∧ ∀ s0 s1 t0 t1 : Nat, s0 < P → s1 < P → t0 < P → t1 < P →
      T.val ([s0, s1] ++ [t0, t1]) = netH (fun l => dim (mapH l)) e (lay a s0 t0) (lay b s1 t1) := by
  obtain ⟨hC1, hT1, hS, hC4, hT3, hT1b, hC2, hSb, hC3, hT3b, ha, ha0, ha1, ha2, ha3, ha4, hb, hb0, hb1, hb2, hb3, hb4⟩ := h
  obtain ⟨A, eA, sA, vA⟩ := dlOpen_val a _ _ _ _ _ ha
  obtain ⟨B, eB, sB, vB⟩ := dlOpen_val b _ _ _ _ _ hb
  obtain ⟨T, e2, q2⟩ := dlH_fused (fdim (fun l => dim (mapH l)) (fun _ => P)) e eA eB (by simp [fdim, fused, mapH, hC1, ha1, ha2, ha3, ha4, hb1, hb2, hb3, hb4]) (by simp [fdim, fused, mapH, hT1, ha1, ha2, ha3, ha4, hb1, hb2, hb3, hb4]) (by simp [fdim, fused, mapH, hS, ha1, ha2, ha3, ha4, hb1, hb2, hb3, hb4]) (by simp [fdim, fused, mapH, hC4, ha1, ha2, ha3, ha4, hb1, hb2, hb3, hb4]) (by simp [fdim, fused, mapH, hT3, ha1, ha2, ha3, ha4, hb1, hb2, hb3, hb4]) (by simp [fdim, fused, mapH, hC2, ha1, ha2, ha3, ha4, hb1, hb2, hb3, hb4]) (by simp [fdim, fused, mapH, hSb, ha1, ha2, ha3, ha4, hb1, hb2, hb3, hb4]) (by simp [fdim, fused, mapH, hT1b, ha1, ha2, ha3, ha4, hb1, hb2, hb3, hb4]) (by simp [fdim, fused, mapH, hC3, ha1, ha2, ha3, ha4, hb1, hb2, hb3, hb4]) (by simp [fdim, fused, mapH, hT3b, ha1, ha2, ha3, ha4, hb1, hb2, hb3, hb4])
    (by simp [fdim, fused, mapH, sA, p0]) (by simp [fdim, fused, mapH, sB, p1]) (by simp [fdim, size, ha, p0]) (by simp [fdim, size, hb, p1])
  have hsh : T.shape = List.replicate 2 P ++ List.replicate 2 P := by
    rw [q2.shape]; simp [singles, gdim, fdim]
  refine ⟨T, e2, hsh, ?_⟩
  intro s0 s1 t0 t1 k0 k1 l0 l1
  let σ : Nat → Nat := fun l => if l = 100 then s0 else if l = 101 then s1 else if l = 110 then t0 else t1
  have hv := q2.val σ (by
    rw [singles_flatten]
    simp only [List.forall_mem_cons, List.not_mem_nil, false_imp_iff, implies_true, and_true]
    exact ⟨k0, k1, l0, l1⟩)
  rw [singles_gidx] at hv
  refine hv.trans ?_
  refine sumOver_netH _ _ e _ _ _ σ (fun τ hb' ho => ?_)
  simp only [innerH, List.forall_mem_cons, List.not_mem_nil, false_imp_iff, implies_true, and_true] at hb'
  obtain ⟨b0, b1, b2, b3, b7, b15, b16, b18, b19, b20, b21, b27, b33, b34, b36, b37, b41⟩ := hb'
  have o0 : τ 100 = s0 := ho 100 (by omega)
  have o1 : τ 101 = s1 := ho 101 (by omega)
  have o2 : τ 110 = t0 := ho 110 (by omega)
  have o3 : τ 111 = t1 := ho 111 (by omega)
  simp only [o0, o1, o2, o3]
  rw [vA s0 t0 _ _ _ _ (by omega) (by omega) b2 b3 b16 b37, vB s1 t1 _ _ _ _ (by omega) (by omega) b20 b37 b34 b21]
  rfl

theorem openedH {dim : Nat → Nat} {e : PairEnv K} {a b : Tensor K} (h : Rdm.Spec.FitsH dim e a b) {p : Nat} (p0 : dim 4 = p ^ 3) (p1 : dim 16 = p ^ 3)
    {o0 o1 : List Nat} (ho0 : o0 ∈ subsets) (ho1 : o1 ∈ subsets) :
    ∃ a0 a1, doubleLayer p a o0 = some a0 ∧ doubleLayer p b o1 = some a1 ∧ ∃ LU RU y1 ld left y2 rd right X R, lu e.C1 e.T1 e.S a0 (pleg o0) = some LU ∧
      ru e.C2 e.Sb e.T1b a1 (pleg o1) = some RU ∧
      tensordot [1] [1] e.C4 e.T3 = some y1 ∧ view [e.C4.size 0 * e.T3.size 0, e.T3.size 2] y1 = some ld ∧ tensordot [0] [0] ld LU = some left ∧
      tensordot [1] [2] e.C3 e.T3b = some y2 ∧ view [e.C3.size 0 * e.T3b.size 0, e.T3b.size 1] y2 = some rd ∧ tensordot [0] [1] rd RU = some right ∧ tensordot [0, 1] [0, 1] left right = some X ∧
      unfuse p [o0.length, o1.length] X = some R ∧ ∀ T, dl2x1 e a b = some T → Spec.IsMarginal p 2 T R (Spec.kept [o0, o1]) := by
  obtain ⟨T, eT, -, vT⟩ := fullH h p0 p1
  obtain ⟨hC1, hT1, hS, hC4, hT3, hT1b, hC2, hSb, hC3, hT3b, ha, ha0, ha1, ha2, ha3, ha4, hb, hb0, hb1, hb2, hb3, hb4⟩ := h
  rw [p0] at ha; rw [p1] at hb
  obtain ⟨A, eA, sA, vA⟩ := layer_opened p a _ _ _ _ o0 ho0 ha
  obtain ⟨B, eB, sB, vB⟩ := layer_opened p b _ _ _ _ o1 ho1 hb
  let ph : Nat → Nat := fun l => if l = 100 then p ^ (2 * o0.length) else p ^ (2 * o1.length)
  have f0 : fdim (fun l => dim (mapH l)) ph 100 = p ^ (2 * o0.length) := rfl
  have f1 : fdim (fun l => dim (mapH l)) ph 101 = p ^ (2 * o1.length) := rfl
  obtain ⟨LU, eLU, qLU⟩ := lu_denotes (fdim (fun l => dim (mapH l)) ph) e.C1 e.T1 e.S A (pleg o0) (by simp [fdim, fused, mapH, hC1, ha1, ha2, ha3, ha4, hb1, hb2, hb3, hb4]) (by simp [fdim, fused, mapH, hT1, ha1, ha2, ha3, ha4, hb1, hb2, hb3, hb4]) (by simp [fdim, fused, mapH, hS, ha1, ha2, ha3, ha4, hb1, hb2, hb3, hb4])
    (by rw [sA, lab_shape p o0 _ _ f0]; simp [fdim, fused, mapH])
  obtain ⟨RU, eRU, qRU⟩ := ru_denotes (fdim (fun l => dim (mapH l)) ph) e.C2 e.Sb e.T1b B (pleg o1) (by simp [fdim, fused, mapH, hC2, ha1, ha2, ha3, ha4, hb1, hb2, hb3, hb4]) (by simp [fdim, fused, mapH, hSb, ha1, ha2, ha3, ha4, hb1, hb2, hb3, hb4]) (by simp [fdim, fused, mapH, hT1b, ha1, ha2, ha3, ha4, hb1, hb2, hb3, hb4])
    (by rw [sB, lab_shape p o1 _ _ f1]; simp [fdim, fused, mapH])
  obtain ⟨y1, ld, left, y2, rd, right, X, f1, f2, f3, f4, f5, f6, f7, qX⟩ := joinH_denotes (fdim (fun l => dim (mapH l)) ph) e (pleg o0) (pleg o1) (by simp [fdim, fused, mapH, hC4, ha1, ha2, ha3, ha4, hb1, hb2, hb3, hb4]) (by simp [fdim, fused, mapH, hT3, ha1, ha2, ha3, ha4, hb1, hb2, hb3, hb4]) (by simp [fdim, fused, mapH, hC3, ha1, ha2, ha3, ha4, hb1, hb2, hb3, hb4]) (by simp [fdim, fused, mapH, hT3b, ha1, ha2, ha3, ha4, hb1, hb2, hb3, hb4]) qLU qRU
  have sX : X.shape = ([o0.length, o1.length].filter (· ≠ 0)).map (fun n => p ^ (2 * n)) := by
    rw [qX.shape, singles_gdim]
    simp only [List.map_append]
    rw [lab_shape p o0 _ _ f0, lab_shape p o1 _ _ (by assumption)]
    rw [← lab_filter p o0, ← lab_filter p o1]
    simp
  obtain ⟨R, eR, sR, vR⟩ := unfuse_val p _ X sX
  refine ⟨A, B, eA, eB, LU, RU, y1, ld, left, y2, rd, right, X, R, eLU, eRU, f1, f2, f3, f4, f5, f6, f7, eR, ?_⟩
  intro T' eT'
  obtain rfl : T = T' := by rw [eT] at eT'; exact Option.some.inj eT'
  have hkl : (Spec.kept [o0, o1]).length = [o0.length, o1.length].sum := by
    simp [Spec.kept, List.range, List.range.loop]
  refine ⟨by rw [sR, hkl], fun k b hk hb => ?_⟩
  have hks : ∀ f : Nat → Nat, (Spec.kept [o0, o1]).map f = [o0.map (fun x => f (3 * 0 + x)), o1.map (fun x => f (3 * 1 + x))].flatten := by
    intro f; simp [Spec.kept, List.range, List.range.loop, Function.comp_def]
  rw [hks, hks, vR _ _ (by simp) (by simp) (by simp [hk]) (by simp [hb])]
  simp only [List.zip_cons_cons, List.zip_nil_right, List.flatMap_cons, List.flatMap_nil, List.append_nil]
  rw [fuse_map, fuse_map]
  have h3' : ∀ os ∈ [o0, o1], ∀ x ∈ os, x < 3 := by
    simp only [List.forall_mem_cons, List.not_mem_nil, false_imp_iff, implies_true, and_true]
    exact ⟨(subsets_lt o0 ho0).2, (subsets_lt o1 ho1).2⟩
  rw [← net2_opened (netH (fun l => dim (mapH l)) e) (linH0 _ e) (linH1 _ e) p _ _ h3' k b vT]
  let σ : Nat → Nat := fun l => if l = 100 then oi p o0 (fun x => k (3 * 0 + x)) (fun x => b (3 * 0 + x)) else oi p o1 (fun x => k (3 * 1 + x)) (fun x => b (3 * 1 + x))
  have hl : ∀ (o : Bool) (l m : Nat), m ∈ lab o l → m = l := by
    intro o l m hm; unfold lab at hm; split at hm <;> simp at hm; exact hm
  have hv := qX.val σ (by
    rw [singles_flatten]
    intro l hm
    simp only [List.mem_append] at hm
    rcases hm with hm | hm
    · rw [hl _ _ _ hm]; exact oi_lt p o0 _ _ (fun _ => hk _) (fun _ => hb _)
    · rw [hl _ _ _ hm]; exact oi_lt p o1 _ _ (fun _ => hk _) (fun _ => hb _))
  rw [singles_gidx] at hv
  simp only [List.map_append] at hv
  rw [lab_map p o0 (fun x => k (3 * 0 + x)) (fun x => b (3 * 0 + x)) σ 100 rfl, lab_map p o1 (fun x => k (3 * 1 + x)) (fun x => b (3 * 1 + x)) σ 101 rfl] at hv
  refine hv.trans ?_
  refine sumOver_netH _ ph e _ _ _ σ (fun τ hb' ho => ?_)
  simp only [innerH, List.forall_mem_cons, List.not_mem_nil, false_imp_iff, implies_true, and_true] at hb'
  obtain ⟨b0, b1, b2, b3, b7, b15, b16, b18, b19, b20, b21, b27, b33, b34, b36, b37, b41⟩ := hb'
  rw [lab_map p o0 (fun x => k (3 * 0 + x)) (fun x => b (3 * 0 + x)) τ 100 (ho 100 (by omega)), lab_map p o1 (fun x => k (3 * 1 + x)) (fun x => b (3 * 1 + x)) τ 101 (ho 101 (by omega))]
  rw [vA _ _ _ _ _ _ (fun _ => hk _) (fun _ => hb _) b2 b3 b16 b37, vB _ _ _ _ _ _ (fun _ => hk _) (fun _ => hb _) b20 b37 b34 b21]
  rfl

/-- The network as a functional of its two double-layer tensors. -/
noncomputable def netV (dim : Nat → Nat) (e : PairEnv K) (f g : Nat → Nat → Nat → Nat → K) : K :=
  sumOver (fdim dim (fun _ => 0)) innerV (bodyV e f g) (fun _ => 0)

theorem bodyV_local (e : PairEnv K) (f g : Nat → Nat → Nat → Nat → K) (σ τ : Nat → Nat) (hh : ∀ l ∈ innerV, σ l = τ l) : bodyV e f g σ = bodyV e f g τ := by
  simp only [innerV, List.forall_mem_cons, List.not_mem_nil, false_imp_iff, implies_true, and_true] at hh
  obtain ⟨h0, h1, h2, h3, h7, h8, h9, h10, h15, h16, h19, h26, h33, h36, h37, h39, h41⟩ := hh
  simp only [bodyV, h0, h1, h2, h3, h7, h8, h9, h10, h15, h16, h19, h26, h33, h36, h37, h39, h41]

theorem sumOver_netV (dim ph : Nat → Nat) (e : PairEnv K) (f g : Nat → Nat → Nat → Nat → K) (F : (Nat → Nat) → K) (σ : Nat → Nat)
    (hF : ∀ τ, (∀ l ∈ innerV, τ l < fdim dim (fun _ => 0) l) → (∀ l, 100 ≤ l → τ l = σ l) → F τ = bodyV e f g τ) :
    sumOver (fdim dim ph) innerV F σ = netV dim e f g := by
  have hn : ∀ l ∈ innerV, ¬ 100 ≤ l := by decide
  have hd : ∀ l ∈ innerV, fdim dim ph l = fdim dim (fun _ => 0) l := by
    intro l hl
    unfold fdim; rw [if_neg (hn l hl), if_neg (hn l hl)]
  rw [sumOver_dim _ (fdim dim (fun _ => 0)) _ _ _ hd, sumOver_congr _ _ F (bodyV e f g) σ]
  · exact sumOver_local _ innerV innerV _ (bodyV_local e f g) _ _ (fun l hl hn => absurd hl hn)
  · intro τ h1 h2
    exact hF τ h1 (fun l hl => h2 l (fun h' => hn l h' hl))

theorem linV0 (dim : Nat → Nat) (e : PairEnv K) (g : Nat → Nat → Nat → Nat → K) : Lin (fun f => netV dim e f g) := by
  have := lin_sumOver (fdim dim (fun _ => 0)) innerV (fun τ => bodyV e (fun _ _ _ _ => (1 : K)) g τ) 2 3 16 37 (fun _ => 0)
  refine (congrArg Lin ?_).mp this
  funext f; unfold netV; congr 1; funext τ; simp only [bodyV]; ring

theorem linV1 (dim : Nat → Nat) (e : PairEnv K) (f : Nat → Nat → Nat → Nat → K) : Lin (fun g => netV dim e f g) := by
  have := lin_sumOver (fdim dim (fun _ => 0)) innerV (fun τ => bodyV e f (fun _ _ _ _ => (1 : K)) τ) 16 9 10 39 (fun _ => 0)
  refine (congrArg Lin ?_).mp this
  funext g; unfold netV; congr 1; funext τ; simp only [bodyV]; ring

/-- The labels of FitsV. -/
def mapV (l : Nat) : Nat := [0, 1, 2, 3, 0, 0, 0, 12, 13, 14, 15, 0, 0, 0, 0, 24, 25, 0, 0, 8, 0, 0, 0, 0, 0, 0, 20, 0, 0, 0, 0, 0, 0, 27, 0, 0, 9, 10, 0, 22, 0, 21].getD l 0

theorem fullV {dim : Nat → Nat} {e : PairEnv K} {a b : Tensor K} (h : Rdm.Spec.FitsV dim e a b) {P : Nat} (p0 : dim 4 = P) (p1 : dim 16 = P) :
    ∃ T, dl1x2 e a b = some T ∧ T.shape = List.replicate 2 P ++ List.replicate 2 P ∧ ∀ s0 s1 t0 t1 : Nat, s0 < P → s1 < P → t0 < P → t1 < P →
      T.val ([s0, s1] ++ [t0, t1]) = netV (fun l => dim (mapV l)) e (lay a s0 t0) (lay b s1 t1) := by
  obtain ⟨hC1, hS, hT1, hT3, hC2, hT1b, hC4, hSb, hC3, hT3b, ha, ha0, ha1, ha2, ha3, ha4, hb, hb0, hb1, hb2, hb3, hb4⟩ := h
  obtain ⟨A, eA, sA, vA⟩ := dlOpen_val a _ _ _ _ _ ha
  obtain ⟨B, eB, sB, vB⟩ := dlOpen_val b _ _ _ _ _ hb
  obtain ⟨T, e2, q2⟩ := dlV_fused (fdim (fun l => dim (mapV l)) (fun _ => P)) e eA eB (by simp [fdim, fused, mapV, hC1, ha1, ha2, ha3, ha4, hb1, hb2, hb3, hb4]) (by simp [fdim, fused, mapV, hS, ha1, ha2, ha3, ha4, hb1, hb2, hb3, hb4]) (by simp [fdim, fused, mapV, hT1, ha1, ha2, ha3, ha4, hb1, hb2, hb3, hb4]) (by simp [fdim, fused, mapV, hC2, ha1, ha2, ha3, ha4, hb1, hb2, hb3, hb4]) (by simp [fdim, fused, mapV, hT3, ha1, ha2, ha3, ha4, hb1, hb2, hb3, hb4]) (by simp [fdim, fused, mapV, hC4, ha1, ha2, ha3, ha4, hb1, hb2, hb3, hb4]) (by simp [fdim, fused, mapV, hT1b, ha1, ha2, ha3, ha4, hb1, hb2, hb3, hb4]) (by simp [fdim, fused, mapV, hSb, ha1, ha2, ha3, ha4, hb1, hb2, hb3, hb4]) (by simp [fdim, fused, mapV, hC3, ha1, ha2, ha3, ha4, hb1, hb2, hb3, hb4]) (by simp [fdim, fused, mapV, hT3b, ha1, ha2, ha3, ha4, hb1, hb2, hb3, hb4])
    (by simp [fdim, fused, mapV, sA, p0]) (by simp [fdim, fused, mapV, sB, p1]) (by simp [fdim, size, ha, p0]) (by simp [fdim, size, hb, p1])
  have hsh : T.shape = List.replicate 2 P ++ List.replicate 2 P := by
    rw [q2.shape]; simp [singles, gdim, fdim]
  refine ⟨T, e2, hsh, ?_⟩
  intro s0 s1 t0 t1 k0 k1 l0 l1
  let σ : Nat → Nat := fun l => if l = 100 then s0 else if l = 102 then s1 else if l = 110 then t0 else t1
  have hv := q2.val σ (by
    rw [singles_flatten]
    simp only [List.forall_mem_cons, List.not_mem_nil, false_imp_iff, implies_true, and_true]
    exact ⟨k0, k1, l0, l1⟩)
  rw [singles_gidx] at hv
  refine hv.trans ?_
  refine sumOver_netV _ _ e _ _ _ σ (fun τ hb' ho => ?_)
  simp only [innerV, List.forall_mem_cons, List.not_mem_nil, false_imp_iff, implies_true, and_true] at hb'
  obtain ⟨b0, b1, b2, b3, b7, b8, b9, b10, b15, b16, b19, b26, b33, b36, b37, b39, b41⟩ := hb'
  have o0 : τ 100 = s0 := ho 100 (by omega)
  have o1 : τ 102 = s1 := ho 102 (by omega)
  have o2 : τ 110 = t0 := ho 110 (by omega)
  have o3 : τ 112 = t1 := ho 112 (by omega)
  simp only [o0, o1, o2, o3]
  rw [vA s0 t0 _ _ _ _ (by omega) (by omega) b2 b3 b16 b37, vB s1 t1 _ _ _ _ (by omega) (by omega) b16 b9 b10 b39]
  rfl

theorem openedV {dim : Nat → Nat} {e : PairEnv K} {a b : Tensor K} (h : Rdm.Spec.FitsV dim e a b) {p : Nat} (p0 : dim 4 = p ^ 3) (p1 : dim 16 = p ^ 3)
    {o0 o1 : List Nat} (ho0 : o0 ∈ subsets) (ho1 : o1 ∈ subsets) :
    ∃ a0 a1, doubleLayer p a o0 = some a0 ∧ doubleLayer p b o1 = some a1 ∧ ∃ LU LD y1 ru up y2 y3 rd lo X R, lu e.C1 e.S e.T1 a0 (pleg o0) = some LU ∧
      ld e.C4 e.T1b e.Sb a1 (pleg o1) = some LD ∧
      tensordot [1] [0] e.C2 e.T3 = some y1 ∧ view [e.C2.size 0 * e.T3.size 1, e.T3.size 2] y1 = some ru ∧ tensordot [0] [1] ru LU = some up ∧
      tensordot [2] [0] e.T3b e.C3 = some y2 ∧ permute [0, 2, 1] y2 = some y3 ∧ view [e.T3b.size 0, e.C3.size 1 * e.T3b.size 1] y3 = some rd ∧ tensordot [1] [1] rd LD = some lo ∧ tensordot [0, 1] [0, 1] up lo = some X ∧
      unfuse p [o0.length, o1.length] X = some R ∧ ∀ T, dl1x2 e a b = some T → Spec.IsMarginal p 2 T R (Spec.kept [o0, o1]) := by
  obtain ⟨T, eT, -, vT⟩ := fullV h p0 p1
  obtain ⟨hC1, hS, hT1, hT3, hC2, hT1b, hC4, hSb, hC3, hT3b, ha, ha0, ha1, ha2, ha3, ha4, hb, hb0, hb1, hb2, hb3, hb4⟩ := h
  rw [p0] at ha; rw [p1] at hb
  obtain ⟨A, eA, sA, vA⟩ := layer_opened p a _ _ _ _ o0 ho0 ha
  obtain ⟨B, eB, sB, vB⟩ := layer_opened p b _ _ _ _ o1 ho1 hb
  let ph : Nat → Nat := fun l => if l = 100 then p ^ (2 * o0.length) else p ^ (2 * o1.length)
  have f0 : fdim (fun l => dim (mapV l)) ph 100 = p ^ (2 * o0.length) := rfl
  have f1 : fdim (fun l => dim (mapV l)) ph 102 = p ^ (2 * o1.length) := rfl
  obtain ⟨LU, eLU, qLU⟩ := lu_denotes (fdim (fun l => dim (mapV l)) ph) e.C1 e.S e.T1 A (pleg o0) (by simp [fdim, fused, mapV, hC1, ha1, ha2, ha3, ha4, hb1, hb2, hb3, hb4]) (by simp [fdim, fused, mapV, hS, ha1, ha2, ha3, ha4, hb1, hb2, hb3, hb4]) (by simp [fdim, fused, mapV, hT1, ha1, ha2, ha3, ha4, hb1, hb2, hb3, hb4])
    (by rw [sA, lab_shape p o0 _ _ f0]; simp [fdim, fused, mapV])
  obtain ⟨LD, eLD, qLD⟩ := ld_denotes (fdim (fun l => dim (mapV l)) ph) e.C4 e.T1b e.Sb B (pleg o1) (by simp [fdim, fused, mapV, hC4, ha1, ha2, ha3, ha4, hb1, hb2, hb3, hb4]) (by simp [fdim, fused, mapV, hT1b, ha1, ha2, ha3, ha4, hb1, hb2, hb3, hb4]) (by simp [fdim, fused, mapV, hSb, ha1, ha2, ha3, ha4, hb1, hb2, hb3, hb4])
    (by rw [sB, lab_shape p o1 _ _ f1]; simp [fdim, fused, mapV])
  obtain ⟨y1, ru, up, y2, y3, rd, lo, X, f1, f2, f3, f4, f5, f6, f7, f8, qX⟩ := joinV_denotes (fdim (fun l => dim (mapV l)) ph) e (pleg o0) (pleg o1) (by simp [fdim, fused, mapV, hC2, ha1, ha2, ha3, ha4, hb1, hb2, hb3, hb4]) (by simp [fdim, fused, mapV, hT3, ha1, ha2, ha3, ha4, hb1, hb2, hb3, hb4]) (by simp [fdim, fused, mapV, hC3, ha1, ha2, ha3, ha4, hb1, hb2, hb3, hb4]) (by simp [fdim, fused, mapV, hT3b, ha1, ha2, ha3, ha4, hb1, hb2, hb3, hb4]) qLU qLD
  have sX : X.shape = ([o0.length, o1.length].filter (· ≠ 0)).map (fun n => p ^ (2 * n)) := by
    rw [qX.shape, singles_gdim]
    simp only [List.map_append]
    rw [lab_shape p o0 _ _ f0, lab_shape p o1 _ _ (by assumption)]
    rw [← lab_filter p o0, ← lab_filter p o1]
    simp
  obtain ⟨R, eR, sR, vR⟩ := unfuse_val p _ X sX
  refine ⟨A, B, eA, eB, LU, LD, y1, ru, up, y2, y3, rd, lo, X, R, eLU, eLD, f1, f2, f3, f4, f5, f6, f7, f8, eR, ?_⟩
  intro T' eT'
  obtain rfl : T = T' := by rw [eT] at eT'; exact Option.some.inj eT'
  have hkl : (Spec.kept [o0, o1]).length = [o0.length, o1.length].sum := by
    simp [Spec.kept, List.range, List.range.loop]
  refine ⟨by rw [sR, hkl], fun k b hk hb => ?_⟩
  have hks : ∀ f : Nat → Nat, (Spec.kept [o0, o1]).map f = [o0.map (fun x => f (3 * 0 + x)), o1.map (fun x => f (3 * 1 + x))].flatten := by
    intro f; simp [Spec.kept, List.range, List.range.loop, Function.comp_def]
  rw [hks, hks, vR _ _ (by simp) (by simp) (by simp [hk]) (by simp [hb])]
  simp only [List.zip_cons_cons, List.zip_nil_right, List.flatMap_cons, List.flatMap_nil, List.append_nil]
  rw [fuse_map, fuse_map]
  have h3' : ∀ os ∈ [o0, o1], ∀ x ∈ os, x < 3 := by
    simp only [List.forall_mem_cons, List.not_mem_nil, false_imp_iff, implies_true, and_true]
    exact ⟨(subsets_lt o0 ho0).2, (subsets_lt o1 ho1).2⟩
  rw [← net2_opened (netV (fun l => dim (mapV l)) e) (linV0 _ e) (linV1 _ e) p _ _ h3' k b vT]
  let σ : Nat → Nat := fun l => if l = 100 then oi p o0 (fun x => k (3 * 0 + x)) (fun x => b (3 * 0 + x)) else oi p o1 (fun x => k (3 * 1 + x)) (fun x => b (3 * 1 + x))
  have hl : ∀ (o : Bool) (l m : Nat), m ∈ lab o l → m = l := by
    intro o l m hm; unfold lab at hm; split at hm <;> simp at hm; exact hm
  have hv := qX.val σ (by
    rw [singles_flatten]
    intro l hm
    simp only [List.mem_append] at hm
    rcases hm with hm | hm
    · rw [hl _ _ _ hm]; exact oi_lt p o0 _ _ (fun _ => hk _) (fun _ => hb _)
    · rw [hl _ _ _ hm]; exact oi_lt p o1 _ _ (fun _ => hk _) (fun _ => hb _))
  rw [singles_gidx] at hv
  simp only [List.map_append] at hv
  rw [lab_map p o0 (fun x => k (3 * 0 + x)) (fun x => b (3 * 0 + x)) σ 100 rfl, lab_map p o1 (fun x => k (3 * 1 + x)) (fun x => b (3 * 1 + x)) σ 102 rfl] at hv
  refine hv.trans ?_
  refine sumOver_netV _ ph e _ _ _ σ (fun τ hb' ho => ?_)
  simp only [innerV, List.forall_mem_cons, List.not_mem_nil, false_imp_iff, implies_true, and_true] at hb'
  obtain ⟨b0, b1, b2, b3, b7, b8, b9, b10, b15, b16, b19, b26, b33, b36, b37, b39, b41⟩ := hb'
  rw [lab_map p o0 (fun x => k (3 * 0 + x)) (fun x => b (3 * 0 + x)) τ 100 (ho 100 (by omega)), lab_map p o1 (fun x => k (3 * 1 + x)) (fun x => b (3 * 1 + x)) τ 102 (ho 102 (by omega))]
  rw [vA _ _ _ _ _ _ (fun _ => hk _) (fun _ => hb _) b2 b3 b16 b37, vB _ _ _ _ _ _ (fun _ => hk _) (fun _ => hb _) b16 b9 b10 b39]
  rfl

end Verif.KagomeRdm
