import Verif.Corrf.Wide
/-
The two-row channel `apply_TM_2sO_2sChannel` and the singular values of an operator.
-/
namespace Verif.Corrf
open Tensor Ctm Ctm.Spec
set_option linter.unusedSimpArgs false
set_option linter.unusedSectionVars false
variable {K : Type} [RCLike K]
section
variable {D : Dims} {st : State K} {env : Env K} {N : Spec.Tensors K}

/-- The ranges of the seven internal indices. -/
def wideRange (D : Dims) (d : Dir) (c : Coord) : Finset (Nat × Nat × Nat × Nat × Nat × Nat × Nat) :=
  Finset.range (Spec.cut2 D d c).1 ×ˢ Finset.range (Spec.cut2 D d c).2.1 ×ˢ Finset.range (Spec.cut2 D d c).2.2.1 ×ˢ Finset.range (Spec.cut2 D d c).2.2.2 ×ˢ
    Finset.range (Spec.sides D d c).1 ×ˢ Finset.range (Spec.sides D d c).2 ×ˢ Finset.range (Spec.sides D d (Spec.beside d c)).2

theorem wide_flat (d : Dir) (c : Coord) (o o' : Spec.Op K) (E : Spec.Vec4 K) (x' y' w' z' : Nat) :
    Spec.wide N D d c o o' E x' y' w' z' = ∑ i ∈ wideRange D d c,
      (E i.1 i.2.1 i.2.2.1 i.2.2.2.1 * Spec.first N d c i.1 i.2.2.2.2.1 x' * Spec.second N d (Spec.beside d c) i.2.2.2.1 i.2.2.2.2.2.2 z') *
        (Spec.middle N d c o i.2.1 i.2.2.2.2.1 i.2.2.2.2.2.1 y' * Spec.middle N d (Spec.beside d c) o' i.2.2.1 i.2.2.2.2.2.1 i.2.2.2.2.2.2 w') := by
  simp only [Spec.wide, wideRange, Finset.sum_product]
  refine Finset.sum_congr rfl (fun _ _ => Finset.sum_congr rfl (fun _ _ => Finset.sum_congr rfl (fun _ _ => Finset.sum_congr rfl (fun _ _ =>
    Finset.sum_congr rfl (fun _ _ => Finset.sum_congr rfl (fun _ _ => Finset.sum_congr rfl (fun _ _ => by ring)))))))

theorem middle_flat (hs : FitsState D st) (hN : Spec.Reads st env N) (d : Dir) (c : Coord) (o : Spec.Op K) (y m n y' : Nat) :
    Spec.middle N d c o y m n y' = ∑ s ∈ Finset.range (D.p c) ×ˢ Finset.range (D.p c), o s.1 s.2 * Spec.middle N d c (Spec.unit s.1 s.2) y m n y' := by
  have pa : (N.a c).size 0 = D.p c := by
    have : (N.a c).shape = _ := shape_of (hs.site c) (hN.a c)
    simp [size, this]
  rw [middle_expand, pa, Finset.sum_product]

theorem sum_swap {I S T : Type} (RI : Finset I) (RS : Finset S) (RT : Finset T) (B : Finset Nat) (g : I → K) (a : Nat → S → K) (b : Nat → T → K)
    (m : S → I → K) (m' : T → I → K) :
    ∑ k ∈ B, ∑ i ∈ RI, g i * ((∑ s ∈ RS, a k s * m s i) * (∑ t ∈ RT, b k t * m' t i)) =
      ∑ s ∈ RS, ∑ t ∈ RT, (∑ k ∈ B, a k s * b k t) * ∑ i ∈ RI, g i * (m s i * m' t i) := by
  simp only [Finset.sum_mul_sum]
  simp only [Finset.mul_sum]
  rw [Finset.sum_congr rfl (fun k _ => (Finset.sum_comm.trans (Finset.sum_congr rfl (fun s _ => Finset.sum_comm)) : _ = ∑ s ∈ RS, ∑ t ∈ RT, ∑ i ∈ RI, g i * (a k s * m s i * (b k t * m' t i))))]
  rw [Finset.sum_comm]
  refine Finset.sum_congr rfl (fun s _ => ?_)
  rw [Finset.sum_comm]
  exact Finset.sum_congr rfl (fun t _ => Finset.sum_congr rfl (fun k _ => Finset.sum_congr rfl (fun i _ => by ring)))

/-- A sum of products of one-site operators is the two-site operator. -/
theorem wide2_factors (hs : FitsState D st) (hN : Spec.Reads st env N) (d : Dir) (c : Coord) (B : Nat) (o1 o2 : Nat → Spec.Op K) (o : Spec.Op2 K)
    (h : ∀ s1' < D.p c, ∀ s1 < D.p c, ∀ s2' < D.p (Spec.beside d c), ∀ s2 < D.p (Spec.beside d c), ∑ k ∈ Finset.range B, o1 k s1' s1 * o2 k s2' s2 = o s1' s2' s1 s2)
    (f : Spec.Vec4 K) (x y w z : Nat) :
    ∑ k ∈ Finset.range B, Spec.wide N D d c (o1 k) (o2 k) f x y w z = Spec.wide2 N D d c o f x y w z := by
  have hr : Spec.wide2 N D d c o f x y w z = ∑ s ∈ Finset.range (D.p c) ×ˢ Finset.range (D.p c), ∑ t ∈ Finset.range (D.p (Spec.beside d c)) ×ˢ Finset.range (D.p (Spec.beside d c)),
      o s.1 t.1 s.2 t.2 * Spec.wide N D d c (Spec.unit s.1 s.2) (Spec.unit t.1 t.2) f x y w z := by
    simp only [Spec.wide2, Finset.sum_product]
  rw [hr]
  simp only [wide_flat]
  rw [Finset.sum_congr rfl (fun k _ => Finset.sum_congr rfl (fun i _ => by rw [middle_flat hs hN d c (o1 k), middle_flat hs hN d (Spec.beside d c) (o2 k)]))]
  rw [sum_swap]
  refine Finset.sum_congr rfl (fun s hs' => Finset.sum_congr rfl (fun t ht' => ?_))
  simp only [Finset.mem_product, Finset.mem_range] at hs' ht'
  rw [h _ hs'.1 _ hs'.2 _ ht'.1 _ ht'.2]

theorem mate_vec (d : Dir) (c : Coord) : shift c (mate d) = Spec.beside d c := by
  cases d <;> simp [shift, mate, Spec.beside, dn, rt]

/-- The two-row channel without an operator. -/
theorem applyTM2ch_none (ht : Tiling st) (hs : FitsState D st) (he : FitsEnv D st env) (hN : Spec.Reads st env N) {svd : Tensor K → Nat → Svd K} (d : Dir)
    (hd : d = .right ∨ d = .down) (c : Coord) {E : Tensor K} {f : Spec.Vec4 K} (hE : RepW (Spec.cut2 D d c) E f) :
    ∃ R, applyTM2ch svd st env d c E none = some R ∧ RepW (Spec.cut2 D d (Spec.ahead d c 1)) R (Spec.wide N D d c Spec.one Spec.one f) := by
  obtain ⟨A, eA, sA, vA⟩ := aXa_ok hs hN c none (fun o ho => by cases ho)
  obtain ⟨B, eB, sB, vB⟩ := aXa_ok hs hN (Spec.beside d c) none (fun o ho => by cases ho)
  have hsite := site_vts ht hN c
  have hsite' := site_vts ht hN (Spec.beside d c)
  rcases hd with rfl | rfl
  · obtain ⟨R, e, s, v⟩ := wideCore_right_none (shape_of (he.tu c) (hN.tu c)) hE.1 sA sB (shape_of (he.td (dn c)) (hN.td (dn c)))
    refine ⟨R, by simp [applyTM2ch, tmAxes, mate_vec, hN.tu c, hN.td (Spec.beside .right c), hsite, hsite', eA, eB]; exact e, by
      simp only [Spec.cut2, Spec.cut, ahead_right]; exact s, ?_⟩
    simp only [Spec.cut2, Spec.cut, ahead_right]
    intro x' y' w' z' hx hy hw hz
    rw [v x' y' w' z' hx hy hw hz]
    simp only [Spec.wide, Spec.cut2, Spec.cut, Spec.sides, Spec.first, Spec.second, Spec.middle]
    refine Finset.sum_congr rfl (fun x h1 => Finset.sum_congr rfl (fun y h2 => Finset.sum_congr rfl (fun w h3 => Finset.sum_congr rfl (fun z h4 =>
      Finset.sum_congr rfl (fun m h5 => Finset.sum_congr rfl (fun k h6 => Finset.sum_congr rfl (fun n h7 => ?_)))))))
    simp only [Finset.mem_range] at h1 h2 h3 h4 h5 h6 h7
    rw [hE.2 x y w z h1 h2 h3 h4, vA _ _ _ _ h5 h2 h6 hy, vB _ _ _ _ h6 h3 h7 hw]
    rfl
  · obtain ⟨R, e, s, v⟩ := wideCore_down_none (shape_of (he.tl c) (hN.tl c)) hE.1 sA sB (shape_of (he.tr (rt c)) (hN.tr (rt c)))
    refine ⟨R, by simp [applyTM2ch, tmAxes, mate_vec, hN.tl c, hN.tr (Spec.beside .down c), hsite, hsite', eA, eB]; exact e, by
      simp only [Spec.cut2, Spec.cut, ahead_down]; exact s, ?_⟩
    simp only [Spec.cut2, Spec.cut, ahead_down]
    intro x' y' w' z' hx hy hw hz
    rw [v x' y' w' z' hx hy hw hz]
    simp only [Spec.wide, Spec.cut2, Spec.cut, Spec.sides, Spec.first, Spec.second, Spec.middle]
    refine Finset.sum_congr rfl (fun x h1 => Finset.sum_congr rfl (fun y h2 => Finset.sum_congr rfl (fun w h3 => Finset.sum_congr rfl (fun z h4 =>
      Finset.sum_congr rfl (fun m h5 => Finset.sum_congr rfl (fun k h6 => Finset.sum_congr rfl (fun n h7 => ?_)))))))
    simp only [Finset.mem_range] at h1 h2 h3 h4 h5 h6 h7
    rw [hE.2 x y w z h1 h2 h3 h4, vA _ _ _ _ h2 h5 hy h6, vB _ _ _ _ h3 h6 hw h7]
    rfl

/-- Eight nested sums, the last one first. -/
theorem wide_sum (B : Nat) (d : Dir) (c : Coord) (o1 o2 : Nat → Spec.Op K) (f : Spec.Vec4 K) (x' y' w' z' : Nat) :
    ∑ k ∈ Finset.range B, Spec.wide N D d c (o1 k) (o2 k) f x' y' w' z' =
      ∑ x ∈ Finset.range (Spec.cut2 D d c).1, ∑ y ∈ Finset.range (Spec.cut2 D d c).2.1, ∑ w ∈ Finset.range (Spec.cut2 D d c).2.2.1, ∑ z ∈ Finset.range (Spec.cut2 D d c).2.2.2,
    ∑ m ∈ Finset.range (Spec.sides D d c).1, ∑ k ∈ Finset.range (Spec.sides D d c).2, ∑ n ∈ Finset.range (Spec.sides D d (Spec.beside d c)).2, ∑ b ∈ Finset.range B,
      f x y w z * Spec.first N d c x m x' * Spec.middle N d c (o1 b) y m k y' * Spec.middle N d (Spec.beside d c) (o2 b) w k n w' * Spec.second N d (Spec.beside d c) z n z' := by
  simp only [Spec.wide]
  rw [Finset.sum_comm]; refine Finset.sum_congr rfl (fun _ _ => ?_)
  rw [Finset.sum_comm]; refine Finset.sum_congr rfl (fun _ _ => ?_)
  rw [Finset.sum_comm]; refine Finset.sum_congr rfl (fun _ _ => ?_)
  rw [Finset.sum_comm]; refine Finset.sum_congr rfl (fun _ _ => ?_)
  rw [Finset.sum_comm]; refine Finset.sum_congr rfl (fun _ _ => ?_)
  rw [Finset.sum_comm]; refine Finset.sum_congr rfl (fun _ _ => ?_)
  rw [Finset.sum_comm]

/-- The two-row channel with an operator, in terms of its factors. -/
theorem applyTM2ch_split (ht : Tiling st) (hs : FitsState D st) (he : FitsEnv D st env) (hN : Spec.Reads st env N) {svd : Tensor K → Nat → Svd K} (d : Dir)
    (hd : d = .right ∨ d = .down) (c : Coord) {op o1 o2 : Tensor K} {B : Nat} (hsp : splitOp svd false op = some (o1, o2))
    (h1 : o1.shape = [D.p c, D.p c, B]) (h2 : o2.shape = [D.p (Spec.beside d c), D.p (Spec.beside d c), B])
    {E : Tensor K} {f : Spec.Vec4 K} (hE : RepW (Spec.cut2 D d c) E f) :
    ∃ R, applyTM2ch svd st env d c E (some op) = some R ∧
      RepW (Spec.cut2 D d (Spec.ahead d c 1)) R (fun x y w z => ∑ k ∈ Finset.range B, Spec.wide N D d c (factor o1 k) (factor o2 k) f x y w z) := by
  obtain ⟨A, eA, sA, vA⟩ := aXa_mpo_ok hs hN c o1 h1
  obtain ⟨C, eB, sB, vB⟩ := aXa_mpo_ok hs hN (Spec.beside d c) o2 h2
  have hsite := site_vts ht hN c
  have hsite' := site_vts ht hN (Spec.beside d c)
  rcases hd with rfl | rfl
  · obtain ⟨R, e, s, v⟩ := wideCore_right_op (shape_of (he.tu c) (hN.tu c)) hE.1 sA sB (shape_of (he.td (dn c)) (hN.td (dn c)))
    refine ⟨R, by simp [applyTM2ch, hsp, tmAxes, mate_vec, hN.tu c, hN.td (Spec.beside .right c), hsite, hsite', eA, eB]; exact e, by
      simp only [Spec.cut2, Spec.cut, ahead_right]; exact s, ?_⟩
    simp only [Spec.cut2, Spec.cut, ahead_right]
    intro x' y' w' z' hx hy hw hz
    rw [v x' y' w' z' hx hy hw hz, wide_sum]
    simp only [Spec.wide, Spec.cut2, Spec.cut, Spec.sides, Spec.first, Spec.second, Spec.middle]
    refine Finset.sum_congr rfl (fun x h1 => Finset.sum_congr rfl (fun y h2 => Finset.sum_congr rfl (fun w h3 => Finset.sum_congr rfl (fun z h4 =>
      Finset.sum_congr rfl (fun m h5 => Finset.sum_congr rfl (fun k h6 => Finset.sum_congr rfl (fun n h7 => Finset.sum_congr rfl (fun b h8 => ?_))))))))
    simp only [Finset.mem_range] at h1 h2 h3 h4 h5 h6 h7 h8
    rw [hE.2 x y w z h1 h2 h3 h4, vA _ _ _ _ _ h5 h2 h6 hy h8, vB _ _ _ _ _ h6 h3 h7 hw h8]
    rfl
  · obtain ⟨R, e, s, v⟩ := wideCore_down_op (shape_of (he.tl c) (hN.tl c)) hE.1 sA sB (shape_of (he.tr (rt c)) (hN.tr (rt c)))
    refine ⟨R, by simp [applyTM2ch, hsp, tmAxes, mate_vec, hN.tl c, hN.tr (Spec.beside .down c), hsite, hsite', eA, eB]; exact e, by
      simp only [Spec.cut2, Spec.cut, ahead_down]; exact s, ?_⟩
    simp only [Spec.cut2, Spec.cut, ahead_down]
    intro x' y' w' z' hx hy hw hz
    rw [v x' y' w' z' hx hy hw hz, wide_sum]
    simp only [Spec.wide, Spec.cut2, Spec.cut, Spec.sides, Spec.first, Spec.second, Spec.middle]
    refine Finset.sum_congr rfl (fun x h1 => Finset.sum_congr rfl (fun y h2 => Finset.sum_congr rfl (fun w h3 => Finset.sum_congr rfl (fun z h4 =>
      Finset.sum_congr rfl (fun m h5 => Finset.sum_congr rfl (fun k h6 => Finset.sum_congr rfl (fun n h7 => Finset.sum_congr rfl (fun b h8 => ?_))))))))
    simp only [Finset.mem_range] at h1 h2 h3 h4 h5 h6 h7 h8
    rw [hE.2 x y w z h1 h2 h3 h4, vA _ _ _ _ _ h2 h5 hy h6 h8, vB _ _ _ _ _ h3 h6 hw h7 h8]
    rfl

theorem getEdge2_rep (he : FitsEnv D st env) (hN : Spec.Reads st env N) (d : Dir) (c : Coord) :
    ∃ E, getEdge2 st env d c = some E ∧ RepW (Spec.cut2 D d (Spec.ahead d c 1)) E (Spec.edge2 N D d c) := by
  have c1 : rt (dn (Spec.ahead .left c 1)) = dn c := by simp [Spec.ahead, rt, dn, Dir.vec]
  have c2 : dn (rt (Spec.ahead .up c 1)) = rt c := by simp [Spec.ahead, rt, dn, Dir.vec]
  cases d with
  | up => simp only [Spec.cut2, Spec.cut, Spec.beside, dn_up, c2]; exact getEdge2_up he hN c
  | left => simp only [Spec.cut2, Spec.cut, Spec.beside, rt_left, c1]; exact getEdge2_left he hN c
  | down => simp only [Spec.cut2, Spec.cut, ahead_down]; exact getEdge2_down he hN c
  | right => simp only [Spec.cut2, Spec.cut, ahead_right]; exact getEdge2_right he hN c

theorem getEdge2_start (he : FitsEnv D st env) (hN : Spec.Reads st env N) (d : Dir) (c : Coord) :
    ∃ E, getEdge2 st env (rev d) c = some E ∧ RepW (Spec.cut2 D d c) E (Spec.edge2 N D (rev d) c) := by
  cases d with
  | up => exact getEdge2_down he hN c
  | left => exact getEdge2_right he hN c
  | down => exact getEdge2_up he hN c
  | right => exact getEdge2_left he hN c

/-- The end of a strip of two rows. -/
theorem applyEdge2_rep (he : FitsEnv D st env) (hN : Spec.Reads st env N) (d : Dir) (c : Coord) {E : Tensor K} {f : Spec.Vec4 K}
    (hE : RepW (Spec.cut2 D d (Spec.ahead d c 1)) E f) :
    ∃ S, applyEdge st env d c E = some S ∧ S.val [] = Spec.dot2 (Spec.cut2 D d (Spec.ahead d c 1)) f (Spec.edge2 N D d c) := by
  obtain ⟨F, eF, hF⟩ := getEdge2_rep he hN d c
  obtain ⟨s, hs⟩ : ∃ s, s = Spec.cut2 D d (Spec.ahead d c 1) := ⟨_, rfl⟩
  rw [← hs] at hE hF ⊢
  obtain ⟨dim, hdim⟩ : ∃ dim : Nat → Nat, dim = fun l => [s.1, s.2.1, s.2.2.1, s.2.2.2].getD l 0 := ⟨_, rfl⟩
  have d1 := Denotes.leaf dim E [[0], [1], [2], [3]] (by simp [gdim, hdim, hE.1])
  have d2 := Denotes.leaf dim F [[0], [1], [2], [3]] (by simp [gdim, hdim, hF.1])
  obtain ⟨x1, e1, q1⟩ := Denotes.tensordot d1 d2 [0, 1, 2, 3] [0, 1, 2, 3] (dotOK_iff (by decide))
  have q : Denotes dim x1 [] [0, 1, 2, 3] [0, 1, 2, 3] (fun σ => E.val [σ 0, σ 1, σ 2, σ 3] * F.val [σ 0, σ 1, σ 2, σ 3]) :=
    q1.congr (by decide) (by decide) (fun σ => by simp only [List.map_cons, List.map_nil, gidx_single])
  refine ⟨x1, ?_, ?_⟩
  · simp only [applyEdge, hE.1, List.length_cons, List.length_nil]
    show (getEdge2 st env d c >>= _) = _
    rw [eF]
    exact e1
  · have hv := q.val (fun _ => 0) (by simp)
    rw [hdim] at hv
    simp [sumOver, Function.update] at hv
    rw [hv]
    simp only [Spec.dot2]
    refine Finset.sum_congr rfl (fun x h1 => Finset.sum_congr rfl (fun y h2 => Finset.sum_congr rfl (fun w h3 => Finset.sum_congr rfl (fun z h4 => ?_))))
    simp only [Finset.mem_range] at h1 h2 h3 h4
    rw [hE.2 x y w z h1 h2 h3 h4, hF.2 x y w z h1 h2 h3 h4]

/-- The singular values of a multiple of an isometry all equal the multiple. -/
theorem svd_isometry {m : Nat} {M : Tensor K} {r : Svd K} (h : Spec.IsSvd m M r) (t : ℝ) (ht : 0 ≤ t)
    (hM : ∀ j < m, ∀ j' < m, ∑ i ∈ Finset.range m, star (M.val [i, j]) * M.val [i, j'] = if j = j' then ((t ^ 2 : ℝ) : K) else 0) :
    ∀ q < m, r.S.getD q 0 = t := by
  intro q hq
  have hMv : ∀ i < m, ∑ j ∈ Finset.range m, M.val [i, j] * r.V.val [j, q] = r.U.val [i, q] * ((r.S.getD q 0 : ℝ) : K) := by
    intro i hi
    have : ∀ j ∈ Finset.range m, M.val [i, j] * r.V.val [j, q] = ∑ q' ∈ Finset.range m, (r.U.val [i, q'] * ((r.S.getD q' 0 : ℝ) : K)) * (star (r.V.val [j, q']) * r.V.val [j, q]) := by
      intro j hj
      rw [h.prod i hi j (Finset.mem_range.1 hj), Finset.sum_mul]
      exact Finset.sum_congr rfl (fun _ _ => by ring)
    rw [Finset.sum_congr rfl this, Finset.sum_comm]
    simp only [← Finset.mul_sum]
    rw [Finset.sum_congr rfl (fun q' hq' => by rw [h.orthoV q' (Finset.mem_range.1 hq') q hq])]
    simp [hq]
  have n1 : ∑ i ∈ Finset.range m, star (∑ j ∈ Finset.range m, M.val [i, j] * r.V.val [j, q]) * ∑ j ∈ Finset.range m, M.val [i, j] * r.V.val [j, q] =
      (((r.S.getD q 0) ^ 2 : ℝ) : K) := by
    rw [Finset.sum_congr rfl (fun i hi => by rw [hMv i (Finset.mem_range.1 hi)])]
    have : ∀ i ∈ Finset.range m, star (r.U.val [i, q] * ((r.S.getD q 0 : ℝ) : K)) * (r.U.val [i, q] * ((r.S.getD q 0 : ℝ) : K)) =
        (star (r.U.val [i, q]) * r.U.val [i, q]) * (((r.S.getD q 0) ^ 2 : ℝ) : K) := by
      intro i _
      simp only [star_mul', RCLike.star_def, RCLike.conj_ofReal, RCLike.ofReal_pow]
      ring
    rw [Finset.sum_congr rfl this, ← Finset.sum_mul, h.orthoU q hq q hq]
    simp
  have n2 : ∑ i ∈ Finset.range m, star (∑ j ∈ Finset.range m, M.val [i, j] * r.V.val [j, q]) * ∑ j ∈ Finset.range m, M.val [i, j] * r.V.val [j, q] =
      ((t ^ 2 : ℝ) : K) := by
    have : ∀ i ∈ Finset.range m, star (∑ j ∈ Finset.range m, M.val [i, j] * r.V.val [j, q]) * ∑ j ∈ Finset.range m, M.val [i, j] * r.V.val [j, q] =
        ∑ j ∈ Finset.range m, ∑ j' ∈ Finset.range m, (star (r.V.val [j, q]) * r.V.val [j', q]) * (star (M.val [i, j]) * M.val [i, j']) := by
      intro i _
      rw [star_sum, Finset.sum_mul_sum]
      refine Finset.sum_congr rfl (fun _ _ => Finset.sum_congr rfl (fun _ _ => ?_))
      rw [star_mul']; ring
    rw [Finset.sum_congr rfl this, Finset.sum_comm]
    rw [Finset.sum_congr rfl (fun j _ => Finset.sum_comm)]
    simp only [← Finset.mul_sum]
    rw [Finset.sum_congr rfl (fun j hj => Finset.sum_congr rfl (fun j' hj' => by rw [hM j (Finset.mem_range.1 hj) j' (Finset.mem_range.1 hj')]))]
    have : ∀ j ∈ Finset.range m, ∑ j' ∈ Finset.range m, star (r.V.val [j, q]) * r.V.val [j', q] * (if j = j' then ((t ^ 2 : ℝ) : K) else 0) =
        star (r.V.val [j, q]) * r.V.val [j, q] * ((t ^ 2 : ℝ) : K) := by
      intro j hj
      rw [Finset.sum_eq_single j (fun k _ hk => by simp [Ne.symm hk]) (fun hn => absurd hj hn)]
      simp
    rw [Finset.sum_congr rfl this, ← Finset.sum_mul, h.orthoV q hq q hq]
    simp
  have hsq : (r.S.getD q 0) ^ 2 = t ^ 2 := by
    have := n1.symm.trans n2
    exact_mod_cast this
  have hnn : 0 ≤ r.S.getD q 0 := by
    have hl : q < r.S.length := by rw [h.S]; exact hq
    simp only [List.getD, List.getElem?_eq_getElem hl, Option.getD_some]
    exact h.nonneg _ (List.getElem_mem _)
  exact (pow_left_inj₀ hnn ht two_ne_zero).1 hsq
end
end Verif.Corrf
