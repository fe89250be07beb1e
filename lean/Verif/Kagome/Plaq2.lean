import Verif.Kagome.Plaq
/-
`rdm2x2_kagome` is a partial trace of `rdm2x2`.
-/
namespace Verif.KagomeRdm
open Tensor Rdm Ctm
set_option linter.unusedSectionVars false
variable {K : Type} [RCLike K]

theorem subsets_lt : ∀ os ∈ subsets, os.Nodup ∧ ∀ x ∈ os, x < 3 := by decide

/-- The fused index of a corner. -/
def oi (p : Nat) (os : List Nat) (k b : Nat → Nat) : Nat := (openIdx p os k b).headD 0

theorem lab_map (p : Nat) (os : List Nat) (k b σ : Nat → Nat) (l : Nat) (h : σ l = oi p os k b) : (lab (pleg os) l).map σ = openIdx p os k b := by
  unfold lab pleg oi openIdx at *
  by_cases ho : os = []
  · simp [ho]
  · simp [ho] at h ⊢; exact h

theorem oi_lt (p : Nat) (os : List Nat) (k b : Nat → Nat) (hk : ∀ x, k x < p) (hb : ∀ x, b x < p) : oi p os k b < p ^ (2 * os.length) := by
  unfold oi openIdx
  by_cases ho : os = []
  · simp [ho]
  · rw [if_neg ho]
    have h1 : InB (List.replicate os.length p ++ List.replicate os.length p) (os.map k ++ os.map b) := List.rel_append (map_inB os hk) (map_inB os hb)
    rw [← List.replicate_add, show os.length + os.length = 2 * os.length by ring] at h1
    have := ravel_lt h1
    simpa using this

theorem lab_shape (p : Nat) (os : List Nat) (dim : Nat → Nat) (l : Nat) (h : dim l = p ^ (2 * os.length)) :
    (lab (pleg os) l).map dim = if os = [] then [] else [p ^ (2 * os.length)] := by
  unfold lab pleg
  by_cases ho : os = []
  · simp [ho]
  · simp [ho, h]

theorem fuse_map (p : Nat) (os : List Nat) (k b : Nat → Nat) : fuse p (os.map k) (os.map b) = openIdx p os k b := by
  unfold fuse openIdx
  simp

theorem lab_filter (p : Nat) (os ls : List Nat) :
    (if os = [] then ([] : List Nat) else [p ^ (2 * os.length)]) ++ (ls.filter (· ≠ 0)).map (fun n => p ^ (2 * n)) =
      ((os.length :: ls).filter (· ≠ 0)).map (fun n => p ^ (2 * n)) := by
  by_cases ho : os = []
  · simp [ho]
  · have : os.length ≠ 0 := by simpa using ho
    rw [if_neg ho, List.filter_cons_of_pos (by simpa using ho)]
    rfl

/-- The full plaquette network. -/
theorem plaq_full {dim : Nat → Nat} {e : PlaqEnv K} {s : PlaqSites K} (h : Spec.FitsP dim e s) {P : Nat} (h0 : dim 100 = P) (h1 : dim 102 = P) (h2 : dim 104 = P)
    (h3 : dim 106 = P) : ∃ T, oe2x2 e s [0, 1, 2, 3] = some T ∧ T.shape = List.replicate 4 P ++ List.replicate 4 P ∧
      ∀ s0 s1 s2 s3 t0 t1 t2 t3 : Nat, s0 < P → s1 < P → s2 < P → s3 < P → t0 < P → t1 < P → t2 < P → t3 < P →
      T.val ([s0, s1, s2, s3] ++ [t0, t1, t2, t3]) = plaqF dim e (lay s.a s0 t0) (lay s.ax s1 t1) (lay s.ay s2 t2) (lay s.axy s3 t3) := by
  obtain ⟨T, eT, qT⟩ := oe2x2_denotes dim e s h [0, 1, 2, 3] (by decide)
  obtain ⟨T', eT', qT'⟩ := legacy2x2_denotes dim e s h
  have hsame := Denotes.same qT qT' (by decide) (by decide) (fun _ => rfl)
  obtain ⟨hC1, hT1, hT4, hT4y, hC4, hT3y, hT1x, hC2, hT2x, hT2xy, hC3, hT3xy, ha, ha0, ha1, ha2, ha3, ha4, hax, hax0, hax1, hax2, hax3, hax4, hay, hay0, hay1, hay2, hay3, hay4, haxy, haxy0, haxy1, haxy2, haxy3, haxy4⟩ := h
  obtain ⟨A, eA, sA, vA⟩ := dlOpen_val s.a _ _ _ _ _ ha
  obtain ⟨B, eB, sB, vB⟩ := dlOpen_val s.ax _ _ _ _ _ hax
  obtain ⟨E, eE, sE, vE⟩ := dlOpen_val s.ay _ _ _ _ _ hay
  obtain ⟨D, eD, sD, vD⟩ := dlOpen_val s.axy _ _ _ _ _ haxy
  obtain ⟨T2, e2, q2⟩ := legacy_fused (fdim dim (fun _ => P)) e s eA eB eD eE (by simp [fdim, fused, hC1]) (by simp [fdim, fused, hT1, ha1])
    (by simp [fdim, fused, hT4, ha2]) (by simp [fdim, fused, hC2]) (by simp [fdim, fused, hT2x, hax4]) (by simp [fdim, fused, hT1x, hax1])
    (by simp [fdim, fused, hC3]) (by simp [fdim, fused, hT3xy, haxy3]) (by simp [fdim, fused, hT2xy, haxy4])
    (by simp [fdim, fused, hC4]) (by simp [fdim, fused, hT4y, hay2]) (by simp [fdim, fused, hT3y, hay3])
    (by simp [fdim, fused, sA, h0]) (by simp [fdim, fused, sB, h1]) (by simp [fdim, fused, sD, h3]) (by simp [fdim, fused, sE, h2])
    (by simp [fdim, size, ha, h0]) (by simp [fdim, size, hax, h1]) (by simp [fdim, size, hay, h2]) (by simp [fdim, size, haxy, h3])
  obtain rfl : T' = T2 := by rw [eT'] at e2; exact Option.some.inj e2
  have hsh : T.shape = List.replicate 4 P ++ List.replicate 4 P := by
    rw [hsame.1, q2.shape]; simp [singles, gdim, fdim]
  refine ⟨T, eT, hsh, ?_⟩
  intro s0 s1 s2 s3 t0 t1 t2 t3 k0 k1 k2 k3 l0 l1 l2 l3
  rw [hsame.2 _ (by
    rw [hsh]
    exact List.rel_append (.cons k0 (.cons k1 (.cons k2 (.cons k3 .nil)))) (.cons l0 (.cons l1 (.cons l2 (.cons l3 .nil)))))]
  let σ : Nat → Nat := fun l => if l < 110 then [s0, s1, s2, s3].getD (l - 100) 0 else [t0, t1, t2, t3].getD (l - 110) 0
  have hv := q2.val σ (by
    rw [singles_flatten]
    simp only [List.forall_mem_cons, List.not_mem_nil, false_imp_iff, implies_true, and_true]
    exact ⟨k0, k1, k2, k3, l0, l1, l2, l3⟩)
  rw [singles_gidx] at hv
  refine hv.trans ?_
  refine sumOver_plaq dim _ e _ _ _ _ _ σ (fun τ hb ho => ?_)
  simp only [innerF, List.forall_mem_cons, List.not_mem_nil, false_imp_iff, implies_true, and_true] at hb
  obtain ⟨b0, b1, b2, b3, b7, b8, b9, b10, b15, b16, b18, b19, b20, b21, b26, b27, b28, b29, b33, b34, b36, b37, b39, b41⟩ := hb
  have o0 : τ 100 = s0 := ho 100 (by omega)
  have o1 : τ 101 = s1 := ho 101 (by omega)
  have o2 : τ 102 = s2 := ho 102 (by omega)
  have o3 : τ 103 = s3 := ho 103 (by omega)
  have p0 : τ 110 = t0 := ho 110 (by omega)
  have p1 : τ 111 = t1 := ho 111 (by omega)
  have p2 : τ 112 = t2 := ho 112 (by omega)
  have p3 : τ 113 = t3 := ho 113 (by omega)
  simp only [o0, o1, o2, o3, p0, p1, p2, p3]
  rw [vA s0 t0 _ _ _ _ (by omega) (by omega) b2 b3 b16 b37, vB s1 t1 _ _ _ _ (by omega) (by omega) b20 b37 b34 b21,
    vE s2 t2 _ _ _ _ (by omega) (by omega) b16 b9 b10 b39, vD s3 t3 _ _ _ _ (by omega) (by omega) b34 b39 b29 b28]
  rfl

/-- The network with some spins open. -/
theorem plaq_opened {dim : Nat → Nat} {e : PlaqEnv K} {s : PlaqSites K} (h : Spec.FitsP dim e s) {p : Nat} (h0 : dim 100 = p ^ 3) (h1 : dim 102 = p ^ 3)
    (h2 : dim 104 = p ^ 3) (h3 : dim 106 = p ^ 3) {o0 o1 o2 o3 : List Nat} (ho0 : o0 ∈ subsets) (ho1 : o1 ∈ subsets) (ho2 : o2 ∈ subsets) (ho3 : o3 ∈ subsets) :
    ∃ a0 a1 a2 a3 LU RU LD RD X R, doubleLayer p s.a o0 = some a0 ∧ doubleLayer p s.ax o1 = some a1 ∧ doubleLayer p s.ay o2 = some a2 ∧
      doubleLayer p s.axy o3 = some a3 ∧ lu e.C1 e.T1 e.T4 a0 (pleg o0) = some LU ∧ ru e.C2 e.T2x e.T1x a1 (pleg o1) = some RU ∧
      ld e.C4 e.T4y e.T3y a2 (pleg o2) = some LD ∧ rd e.C3 e.T3xy e.T2xy a3 (pleg o3) = some RD ∧
      join2x2 LU RU RD LD (pleg o0) (pleg o1) (pleg o2) (pleg o3) = some X ∧ unfuse p [o0.length, o1.length, o2.length, o3.length] X = some R ∧
      ∀ T, oe2x2 e s [0, 1, 2, 3] = some T → Spec.IsMarginal p 4 T R (Spec.kept [o0, o1, o2, o3]) := by
  obtain ⟨T, eT, -, vT⟩ := plaq_full h h0 h1 h2 h3
  obtain ⟨hC1, hT1, hT4, hT4y, hC4, hT3y, hT1x, hC2, hT2x, hT2xy, hC3, hT3xy, ha, ha0, ha1, ha2, ha3, ha4, hax, hax0, hax1, hax2, hax3, hax4, hay, hay0, hay1, hay2, hay3, hay4, haxy, haxy0, haxy1, haxy2, haxy3, haxy4⟩ := h
  rw [h0] at ha; rw [h1] at hax; rw [h2] at hay; rw [h3] at haxy
  obtain ⟨A, eA, sA, vA⟩ := layer_opened p s.a _ _ _ _ o0 ho0 ha
  obtain ⟨B, eB, sB, vB⟩ := layer_opened p s.ax _ _ _ _ o1 ho1 hax
  obtain ⟨E, eE, sE, vE⟩ := layer_opened p s.ay _ _ _ _ o2 ho2 hay
  obtain ⟨D, eD, sD, vD⟩ := layer_opened p s.axy _ _ _ _ o3 ho3 haxy
  let ph : Nat → Nat := fun l => p ^ (2 * ([o0, o1, o2, o3].getD (l - 100) []).length)
  have f0 : fdim dim ph 100 = p ^ (2 * o0.length) := rfl
  have f1 : fdim dim ph 101 = p ^ (2 * o1.length) := rfl
  have f2 : fdim dim ph 102 = p ^ (2 * o2.length) := rfl
  have f3 : fdim dim ph 103 = p ^ (2 * o3.length) := rfl
  obtain ⟨LU, eLU, qLU⟩ := lu_denotes (fdim dim ph) e.C1 e.T1 e.T4 A (pleg o0) (by simp [fdim, fused, hC1]) (by simp [fdim, fused, hT1, ha1])
    (by simp [fdim, fused, hT4, ha2]) (by rw [sA, lab_shape p o0 _ _ f0]; simp [fdim, fused])
  obtain ⟨RU, eRU, qRU⟩ := ru_denotes (fdim dim ph) e.C2 e.T2x e.T1x B (pleg o1) (by simp [fdim, fused, hC2]) (by simp [fdim, fused, hT2x, hax4])
    (by simp [fdim, fused, hT1x, hax1]) (by rw [sB, lab_shape p o1 _ _ f1]; simp [fdim, fused])
  obtain ⟨RD, eRD, qRD⟩ := rd_denotes (fdim dim ph) e.C3 e.T3xy e.T2xy D (pleg o3) (by simp [fdim, fused, hC3]) (by simp [fdim, fused, hT3xy, haxy3])
    (by simp [fdim, fused, hT2xy, haxy4]) (by rw [sD, lab_shape p o3 _ _ f3]; simp [fdim, fused])
  obtain ⟨LD, eLD, qLD⟩ := ld_denotes (fdim dim ph) e.C4 e.T4y e.T3y E (pleg o2) (by simp [fdim, fused, hC4]) (by simp [fdim, fused, hT4y, hay2])
    (by simp [fdim, fused, hT3y, hay3]) (by rw [sE, lab_shape p o2 _ _ f2]; simp [fdim, fused])
  obtain ⟨X, eX, qX⟩ := join2x2_denotes (fdim dim ph) (pleg o0) (pleg o1) (pleg o2) (pleg o3) qLU qRU qRD qLD
  have sX : X.shape = ([o0.length, o1.length, o2.length, o3.length].filter (· ≠ 0)).map (fun n => p ^ (2 * n)) := by
    rw [qX.shape, singles_gdim]
    simp only [List.map_append]
    rw [lab_shape p o0 _ _ f0, lab_shape p o1 _ _ f1, lab_shape p o2 _ _ f2, lab_shape p o3 _ _ f3]
    simp only [List.append_assoc]
    rw [← lab_filter p o0, ← lab_filter p o1, ← lab_filter p o2, ← lab_filter p o3]
    simp
  obtain ⟨R, eR, sR, vR⟩ := unfuse_val p _ X sX
  refine ⟨A, B, E, D, LU, RU, LD, RD, X, R, eA, eB, eE, eD, eLU, eRU, eLD, eRD, eX, eR, ?_⟩
  intro T' eT'
  obtain rfl : T = T' := by rw [eT] at eT'; exact Option.some.inj eT'
  have hkl : (Spec.kept [o0, o1, o2, o3]).length = [o0.length, o1.length, o2.length, o3.length].sum := by
    simp [Spec.kept, List.range, List.range.loop]
  refine ⟨by rw [sR, hkl], fun k b hk hb => ?_⟩
  have hks : ∀ f : Nat → Nat, (Spec.kept [o0, o1, o2, o3]).map f = [o0.map (fun x => f (3 * 0 + x)), o1.map (fun x => f (3 * 1 + x)), o2.map (fun x => f (3 * 2 + x)),
      o3.map (fun x => f (3 * 3 + x))].flatten := by
    intro f; simp [Spec.kept, List.range, List.range.loop, Function.comp_def]
  rw [hks, hks, vR _ _ (by simp) (by simp) (by simp [hk]) (by simp [hb])]
  simp only [List.zip_cons_cons, List.zip_nil_right, List.flatMap_cons, List.flatMap_nil, List.append_nil]
  rw [fuse_map, fuse_map, fuse_map, fuse_map]
  have h3' : ∀ os ∈ [o0, o1, o2, o3], ∀ x ∈ os, x < 3 := by
    simp only [List.forall_mem_cons, List.not_mem_nil, false_imp_iff, implies_true, and_true]
    exact ⟨(subsets_lt o0 ho0).2, (subsets_lt o1 ho1).2, (subsets_lt o2 ho2).2, (subsets_lt o3 ho3).2⟩
  rw [← plaqF_opened dim e p s.a s.ax s.ay s.axy h3' k b vT]
  let σ : Nat → Nat := fun l => [oi p o0 (fun x => k (3 * 0 + x)) (fun x => b (3 * 0 + x)), oi p o1 (fun x => k (3 * 1 + x)) (fun x => b (3 * 1 + x)),
    oi p o2 (fun x => k (3 * 2 + x)) (fun x => b (3 * 2 + x)), oi p o3 (fun x => k (3 * 3 + x)) (fun x => b (3 * 3 + x))].getD (l - 100) 0
  have hl : ∀ (o : Bool) (l m : Nat), m ∈ lab o l → m = l := by
    intro o l m hm; unfold lab at hm; split at hm <;> simp at hm; exact hm
  have hv := qX.val σ (by
    rw [singles_flatten]
    intro l hm
    simp only [List.mem_append] at hm
    rcases hm with ((hm | hm) | hm) | hm
    · rw [hl _ _ _ hm]; exact oi_lt p o0 _ _ (fun _ => hk _) (fun _ => hb _)
    · rw [hl _ _ _ hm]; exact oi_lt p o1 _ _ (fun _ => hk _) (fun _ => hb _)
    · rw [hl _ _ _ hm]; exact oi_lt p o2 _ _ (fun _ => hk _) (fun _ => hb _)
    · rw [hl _ _ _ hm]; exact oi_lt p o3 _ _ (fun _ => hk _) (fun _ => hb _))
  rw [singles_gidx] at hv
  simp only [List.map_append] at hv
  rw [lab_map p o0 (fun x => k (3 * 0 + x)) (fun x => b (3 * 0 + x)) σ 100 rfl, lab_map p o1 (fun x => k (3 * 1 + x)) (fun x => b (3 * 1 + x)) σ 101 rfl,
    lab_map p o2 (fun x => k (3 * 2 + x)) (fun x => b (3 * 2 + x)) σ 102 rfl, lab_map p o3 (fun x => k (3 * 3 + x)) (fun x => b (3 * 3 + x)) σ 103 rfl] at hv
  rw [List.append_assoc, List.append_assoc] at hv
  refine hv.trans ?_
  refine sumOver_plaq dim ph e _ _ _ _ _ σ (fun τ hb' ho => ?_)
  simp only [innerF, List.forall_mem_cons, List.not_mem_nil, false_imp_iff, implies_true, and_true] at hb'
  obtain ⟨b0, b1, b2, b3, b7, b8, b9, b10, b15, b16, b18, b19, b20, b21, b26, b27, b28, b29, b33, b34, b36, b37, b39, b41⟩ := hb'
  rw [lab_map p o0 (fun x => k (3 * 0 + x)) (fun x => b (3 * 0 + x)) τ 100 (ho 100 (by omega)), lab_map p o1 (fun x => k (3 * 1 + x)) (fun x => b (3 * 1 + x)) τ 101 (ho 101 (by omega)),
    lab_map p o2 (fun x => k (3 * 2 + x)) (fun x => b (3 * 2 + x)) τ 102 (ho 102 (by omega)), lab_map p o3 (fun x => k (3 * 3 + x)) (fun x => b (3 * 3 + x)) τ 103 (ho 103 (by omega))]
  rw [vA _ _ _ _ _ _ (fun _ => hk _) (fun _ => hb _) b2 b3 b16 b37, vB _ _ _ _ _ _ (fun _ => hk _) (fun _ => hb _) b20 b37 b34 b21,
    vE _ _ _ _ _ _ (fun _ => hk _) (fun _ => hb _) b16 b9 b10 b39, vD _ _ _ _ _ _ (fun _ => hk _) (fun _ => hb _) b34 b39 b29 b28]
  rfl

end Verif.KagomeRdm
