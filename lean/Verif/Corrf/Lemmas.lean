import Verif.Corrf.Net
/-
Edges and transfer matrices of corrf.py equal their specification.
-/
namespace Verif.Corrf
open Tensor Ctm Ctm.Spec
set_option linter.unusedSimpArgs false
set_option linter.unusedSectionVars false
variable {K : Type} [RCLike K]

theorem shift_vec (d : Dir) (c : Coord) : shift c d.vec = Spec.ahead d c 1 := by simp [shift, Spec.ahead]

theorem ahead_ahead (d : Dir) (c : Coord) (n m : Nat) : Spec.ahead d (Spec.ahead d c n) m = Spec.ahead d c (n + m) := by
  simp only [Spec.ahead, Nat.cast_add, Prod.mk.injEq]
  constructor <;> ring

theorem ahead_zero (d : Dir) (c : Coord) : Spec.ahead d c 0 = c := by simp [Spec.ahead]

theorem Spec.Reads.exists {D : Dims} {st : State K} {env : Env K} (hs : FitsState D st) (he : FitsEnv D st env) : ∃ N, Spec.Reads st env N := by
  choose lu h1 _ using he.lu
  choose ru h2 _ using he.ru
  choose rd h3 _ using he.rd
  choose ld h4 _ using he.ld
  choose tu h5 _ using he.tu
  choose tl h6 _ using he.tl
  choose td h7 _ using he.td
  choose tr h8 _ using he.tr
  choose a h9 _ using hs.site
  exact ⟨⟨lu, ru, rd, ld, tu, tl, td, tr, a⟩, h1, h2, h3, h4, h5, h6, h7, h8, h9⟩

theorem rt_left (c : Coord) : rt (Spec.ahead .left c 1) = c := by simp [Spec.ahead, rt, Dir.vec]
theorem dn_up (c : Coord) : dn (Spec.ahead .up c 1) = c := by simp [Spec.ahead, dn, Dir.vec]
theorem ahead_right (c : Coord) : Spec.ahead .right c 1 = rt c := by simp [Spec.ahead, rt, Dir.vec]
theorem ahead_down (c : Coord) : Spec.ahead .down c 1 = dn c := by simp [Spec.ahead, dn, Dir.vec]

section
variable {D : Dims} {st : State K} {env : Env K} {N : Spec.Tensors K}

theorem getEdge_rep (he : FitsEnv D st env) (hN : Spec.Reads st env N) (d : Dir) (c : Coord) :
    ∃ E, getEdge st env d c = some E ∧ Rep (Spec.cut D d (Spec.ahead d c 1)) E (Spec.edge N D d c) := by
  cases d with
  | up => simp only [Spec.cut, dn_up]; exact getEdge_up he hN c
  | left => simp only [Spec.cut, rt_left]; exact getEdge_left he hN c
  | down => simp only [Spec.cut, ahead_down]; exact getEdge_down he hN c
  | right => simp only [Spec.cut, ahead_right]; exact getEdge_right he hN c

theorem getEdge_start (he : FitsEnv D st env) (hN : Spec.Reads st env N) (d : Dir) (c : Coord) :
    ∃ E, getEdge st env (rev d) c = some E ∧ Rep (Spec.cut D d c) E (Spec.edge N D (rev d) c) := by
  cases d with
  | up => exact getEdge_down he hN c
  | left => exact getEdge_right he hN c
  | down => exact getEdge_up he hN c
  | right => exact getEdge_left he hN c

/-- The operator inserted by `apply_TM_1sO`. -/
def inserted : Option (Tensor K) → Spec.Op K
  | none => Spec.one
  | some o => Spec.transposed o

theorem site_vts (ht : Tiling st) (hN : Spec.Reads st env N) (c : Coord) : st.site (st.vts c) = some (N.a c) := by
  have : st.vts (st.vts c) = st.vts c := ht.fix _ (ht.mem c)
  rw [State.site, this]; exact hN.a c

theorem aXa_ok (hs : FitsState D st) (hN : Spec.Reads st env N) (c : Coord) (op : Option (Tensor K)) (hop : ∀ o, op = some o → o.shape = [D.p c, D.p c]) :
    ∃ A, aXa (N.a c) op = some A ∧ A.shape = [D.U c * D.U c, D.L c * D.L c, D.U (dn c) * D.U (dn c), D.L (rt c) * D.L (rt c)] ∧
      ∀ u l d r, u < D.U c * D.U c → l < D.L c * D.L c → d < D.U (dn c) * D.U (dn c) → r < D.L (rt c) * D.L (rt c) →
        A.val [u, l, d, r] = Spec.layer (N.a c) (inserted op) u l d r := by
  have ha : (N.a c).shape = _ := shape_of (hs.site c) (hN.a c)
  cases op with
  | none => exact aXa_none _ ha
  | some o => exact aXa_op _ o ha (hop o rfl)

/-- One transfer matrix. -/
theorem applyTM_rep (ht : Tiling st) (hs : FitsState D st) (he : FitsEnv D st env) (hN : Spec.Reads st env N) (d : Dir) (c : Coord)
    (op : Option (Tensor K)) (hop : ∀ o, op = some o → o.shape = [D.p c, D.p c]) {E : Tensor K} {f : Spec.Vec K} (hE : Rep (Spec.cut D d c) E f) :
    ∃ R, applyTM st env d c E op = some R ∧ Rep (Spec.cut D d (Spec.ahead d c 1)) R (Spec.step N D d c (inserted op) f) := by
  obtain ⟨A, eA, sA, vA⟩ := aXa_ok hs hN c op hop
  have hsite := site_vts ht hN c
  cases d with
  | right =>
    obtain ⟨R, e, s, v⟩ := tmCore_right_none (shape_of (he.tu c) (hN.tu c)) hE.1 sA (shape_of (he.td c) (hN.td c))
    refine ⟨R, by simp [applyTM, tmAxes, hN.tu c, hN.td c, hsite, eA]; exact e, by simp only [Spec.cut, ahead_right]; exact s, ?_⟩
    simp only [Spec.cut, ahead_right]
    intro x' y' z' hx hy hz
    rw [v x' y' z' hx hy hz]
    simp only [Spec.step, Spec.cut, Spec.sides, Spec.first, Spec.second, Spec.middle]
    refine Finset.sum_congr rfl (fun x h1 => Finset.sum_congr rfl (fun y h2 => Finset.sum_congr rfl (fun z h3 =>
      Finset.sum_congr rfl (fun m h4 => Finset.sum_congr rfl (fun n h5 => ?_)))))
    simp only [Finset.mem_range] at h1 h2 h3 h4 h5
    rw [hE.2 x y z h1 h2 h3, vA _ _ _ _ h4 h2 h5 hy]
  | left =>
    obtain ⟨R, e, s, v⟩ := tmCore_left_none (shape_of (he.tu c) (hN.tu c)) hE.1 sA (shape_of (he.td c) (hN.td c))
    refine ⟨R, by simp [applyTM, tmAxes, hN.tu c, hN.td c, hsite, eA]; exact e, by simp only [Spec.cut, rt_left]; exact s, ?_⟩
    simp only [Spec.cut, rt_left]
    intro x' y' z' hx hy hz
    rw [v x' y' z' hx hy hz]
    simp only [Spec.step, Spec.cut, Spec.sides, Spec.first, Spec.second, Spec.middle]
    refine Finset.sum_congr rfl (fun x h1 => Finset.sum_congr rfl (fun y h2 => Finset.sum_congr rfl (fun z h3 =>
      Finset.sum_congr rfl (fun m h4 => Finset.sum_congr rfl (fun n h5 => ?_)))))
    simp only [Finset.mem_range] at h1 h2 h3 h4 h5
    rw [hE.2 x y z h1 h2 h3, vA _ _ _ _ h4 hy h5 h2]
  | down =>
    obtain ⟨R, e, s, v⟩ := tmCore_down_none (shape_of (he.tl c) (hN.tl c)) hE.1 sA (shape_of (he.tr c) (hN.tr c))
    refine ⟨R, by simp [applyTM, tmAxes, hN.tl c, hN.tr c, hsite, eA]; exact e, by simp only [Spec.cut, ahead_down]; exact s, ?_⟩
    simp only [Spec.cut, ahead_down]
    intro x' y' z' hx hy hz
    rw [v x' y' z' hx hy hz]
    simp only [Spec.step, Spec.cut, Spec.sides, Spec.first, Spec.second, Spec.middle]
    refine Finset.sum_congr rfl (fun x h1 => Finset.sum_congr rfl (fun y h2 => Finset.sum_congr rfl (fun z h3 =>
      Finset.sum_congr rfl (fun m h4 => Finset.sum_congr rfl (fun n h5 => ?_)))))
    simp only [Finset.mem_range] at h1 h2 h3 h4 h5
    rw [hE.2 x y z h1 h2 h3, vA _ _ _ _ h2 h4 hy h5]
  | up =>
    obtain ⟨R, e, s, v⟩ := tmCore_up_none (shape_of (he.tl c) (hN.tl c)) hE.1 sA (shape_of (he.tr c) (hN.tr c))
    refine ⟨R, by simp [applyTM, tmAxes, hN.tl c, hN.tr c, hsite, eA]; exact e, by simp only [Spec.cut, dn_up]; exact s, ?_⟩
    simp only [Spec.cut, dn_up]
    intro x' y' z' hx hy hz
    rw [v x' y' z' hx hy hz]
    simp only [Spec.step, Spec.cut, Spec.sides, Spec.first, Spec.second, Spec.middle]
    refine Finset.sum_congr rfl (fun x h1 => Finset.sum_congr rfl (fun y h2 => Finset.sum_congr rfl (fun z h3 =>
      Finset.sum_congr rfl (fun m h4 => Finset.sum_congr rfl (fun n h5 => ?_)))))
    simp only [Finset.mem_range] at h1 h2 h3 h4 h5
    rw [hE.2 x y z h1 h2 h3, vA _ _ _ _ hy h4 h2 h5]

/-- The end of the strip. -/
theorem applyEdge_rep (he : FitsEnv D st env) (hN : Spec.Reads st env N) (d : Dir) (c : Coord) {E : Tensor K} {f : Spec.Vec K}
    (hE : Rep (Spec.cut D d (Spec.ahead d c 1)) E f) :
    ∃ S, applyEdge st env d c E = some S ∧ S.val [] = Spec.dot (Spec.cut D d (Spec.ahead d c 1)) f (Spec.edge N D d c) := by
  obtain ⟨F, eF, hF⟩ := getEdge_rep he hN d c
  obtain ⟨dim, hdim⟩ : ∃ dim : Nat → Nat, dim = fun l => [(Spec.cut D d (Spec.ahead d c 1)).1, (Spec.cut D d (Spec.ahead d c 1)).2.1, (Spec.cut D d (Spec.ahead d c 1)).2.2].getD l 0 := ⟨_, rfl⟩
  have d1 := Denotes.leaf dim E [[0], [1], [2]] (by simp [gdim, hdim, hE.1])
  have d2 := Denotes.leaf dim F [[0], [1], [2]] (by simp [gdim, hdim, hF.1])
  obtain ⟨x1, e1, q1⟩ := Denotes.tensordot d1 d2 [0, 1, 2] [0, 1, 2] (dotOK_iff (by decide))
  have q : Denotes dim x1 [] [0, 1, 2] [0, 1, 2] (fun σ => E.val [σ 0, σ 1, σ 2] * F.val [σ 0, σ 1, σ 2]) :=
    q1.congr (by decide) (by decide) (fun σ => by simp only [List.map_cons, List.map_nil, gidx_single])
  refine ⟨x1, ?_, ?_⟩
  · simp only [applyEdge, hE.1, List.length_cons, List.length_nil]
    show (getEdge st env d c >>= _) = _
    rw [eF]
    exact e1
  · have hv := q.val (fun _ => 0) (by simp)
    rw [hdim] at hv
    simp [sumOver, Function.update] at hv
    rw [hv]
    simp only [Spec.dot]
    refine Finset.sum_congr rfl (fun x h1 => Finset.sum_congr rfl (fun y h2 => Finset.sum_congr rfl (fun z h3 => ?_)))
    simp only [Finset.mem_range] at h1 h2 h3
    rw [hE.2 x y z h1 h2 h3, hF.2 x y z h1 h2 h3]
end
end Verif.Corrf
