import Verif.Corrf.Loop
/-
Two-site operators in one row: `apply_TM_2sO_1sChannel`.
-/
namespace Verif.Corrf
open Tensor Ctm Ctm.Spec
set_option linter.unusedSimpArgs false
set_option linter.unusedSectionVars false
variable {K : Type} [RCLike K]

theorem sum_comm5 {α β γ δ ε ζ : Type} (A : Finset α) (B : Finset β) (C : Finset γ) (D : Finset δ) (E : Finset ε) (F : Finset ζ) (g : α → β → γ → δ → ε → ζ → K) :
    ∑ x ∈ A, ∑ y ∈ B, ∑ z ∈ C, ∑ m ∈ D, ∑ n ∈ E, ∑ k ∈ F, g x y z m n k = ∑ k ∈ F, ∑ x ∈ A, ∑ y ∈ B, ∑ z ∈ C, ∑ m ∈ D, ∑ n ∈ E, g x y z m n k :=
  (Finset.sum_congr rfl fun _ _ => (Finset.sum_congr rfl fun _ _ => (Finset.sum_congr rfl fun _ _ => (Finset.sum_congr rfl fun _ _ =>
    Finset.sum_comm).trans Finset.sum_comm).trans Finset.sum_comm).trans Finset.sum_comm).trans Finset.sum_comm

theorem layer_expand (a : Tensor K) (o : Spec.Op K) (u l d r : Nat) :
    Spec.layer a o u l d r = ∑ s' ∈ Finset.range (a.size 0), ∑ s ∈ Finset.range (a.size 0), o s' s * Spec.layer a (Spec.unit s' s) u l d r := by
  simp only [Spec.layer]
  refine Finset.sum_congr rfl (fun i hi => Finset.sum_congr rfl (fun j hj => ?_))
  rw [Finset.sum_eq_single i (fun k _ hk => by simp [Spec.unit, hk]) (fun h => absurd hi h),
    Finset.sum_eq_single j (fun k _ hk => by simp [Spec.unit, hk]) (fun h => absurd hj h)]
  simp [Spec.unit]
  ring

section
variable {D : Dims} {st : State K} {env : Env K} {N : Spec.Tensors K}

theorem middle_expand (d : Dir) (c : Coord) (o : Spec.Op K) (y m n y' : Nat) :
    Spec.middle N d c o y m n y' = ∑ s' ∈ Finset.range ((N.a c).size 0), ∑ s ∈ Finset.range ((N.a c).size 0), o s' s * Spec.middle N d c (Spec.unit s' s) y m n y' := by
  cases d <;> exact layer_expand _ _ _ _ _ _

theorem step_expand (d : Dir) (c : Coord) (o : Spec.Op K) (f : Spec.Vec K) (x y z : Nat) :
    Spec.step N D d c o f x y z = ∑ s' ∈ Finset.range ((N.a c).size 0), ∑ s ∈ Finset.range ((N.a c).size 0), o s' s * Spec.step N D d c (Spec.unit s' s) f x y z := by
  simp only [Spec.step, Finset.mul_sum]
  rw [Finset.sum_congr rfl (fun s' _ => (sum_comm5 _ _ _ _ _ _ (fun x y z m n s => _)).symm), ← sum_comm5]
  refine Finset.sum_congr rfl (fun _ _ => Finset.sum_congr rfl (fun _ _ => Finset.sum_congr rfl (fun _ _ =>
    Finset.sum_congr rfl (fun _ _ => Finset.sum_congr rfl (fun _ _ => ?_)))))
  rw [middle_expand, Finset.mul_sum, Finset.sum_mul]
  refine Finset.sum_congr rfl (fun _ _ => ?_)
  rw [Finset.mul_sum, Finset.sum_mul]
  exact Finset.sum_congr rfl (fun _ _ => by ring)

theorem step_vec {ι : Type} (s : Finset ι) (w : ι → K) (F : ι → Spec.Vec K) (d : Dir) (c : Coord) (o : Spec.Op K) (x y z : Nat) :
    Spec.step N D d c o (fun x y z => ∑ i ∈ s, w i * F i x y z) x y z = ∑ i ∈ s, w i * Spec.step N D d c o (F i) x y z := by
  simp only [Spec.step, Finset.mul_sum, Finset.sum_mul]
  rw [sum_comm5]
  refine Finset.sum_congr rfl (fun _ _ => Finset.sum_congr rfl (fun _ _ => Finset.sum_congr rfl (fun _ _ => Finset.sum_congr rfl (fun _ _ =>
    Finset.sum_congr rfl (fun _ _ => Finset.sum_congr rfl (fun _ _ => by ring))))))

/-- A tensor of rank four with an operator bond of size `B` last. -/
def Rep4 (s : Nat × Nat × Nat) (B : Nat) (E : Tensor K) (f : Nat → Spec.Vec K) : Prop :=
  E.shape = [s.1, s.2.1, s.2.2, B] ∧ ∀ x y z k, x < s.1 → y < s.2.1 → z < s.2.2 → k < B → E.val [x, y, z, k] = f k x y z

/-- Matrix elements of the factor of an operator, for a value of the bond. -/
def factor (o : Tensor K) (k : Nat) : Spec.Op K := fun s' s => o.val [s, s', k]

theorem aXa_mpo_ok (hs : FitsState D st) (hN : Spec.Reads st env N) (c : Coord) (o : Tensor K) {B : Nat} (ho : o.shape = [D.p c, D.p c, B]) :
    ∃ A, aXa (N.a c) (some o) = some A ∧ A.shape = [D.U c * D.U c, D.L c * D.L c, D.U (dn c) * D.U (dn c), D.L (rt c) * D.L (rt c), B] ∧
      ∀ u l d r k, u < D.U c * D.U c → l < D.L c * D.L c → d < D.U (dn c) * D.U (dn c) → r < D.L (rt c) * D.L (rt c) → k < B →
        A.val [u, l, d, r, k] = Spec.layer (N.a c) (factor o k) u l d r :=
  aXa_mpo _ o (shape_of (hs.site c) (hN.a c)) ho (hs.U.1 _) (hs.L.1 _) (hs.U.1 _) (hs.L.1 _)

/-- One transfer matrix with the first factor of an operator. -/
theorem applyTM_out (ht : Tiling st) (hs : FitsState D st) (he : FitsEnv D st env) (hN : Spec.Reads st env N) (d : Dir) (c : Coord)
    (o : Tensor K) {B : Nat} (ho : o.shape = [D.p c, D.p c, B]) {E : Tensor K} {f : Spec.Vec K} (hE : Rep (Spec.cut D d c) E f) :
    ∃ R, applyTM st env d c E (some o) = some R ∧ Rep4 (Spec.cut D d (Spec.ahead d c 1)) B R (fun k => Spec.step N D d c (factor o k) f) := by
  obtain ⟨A, eA, sA, vA⟩ := aXa_mpo_ok hs hN c o ho
  have hsite := site_vts ht hN c
  cases d with
  | right =>
    obtain ⟨R, e, s, v⟩ := tmCore_right_out (shape_of (he.tu c) (hN.tu c)) hE.1 sA (shape_of (he.td c) (hN.td c))
    refine ⟨R, by simp [applyTM, tmAxes, hN.tu c, hN.td c, hsite, eA]; exact e, by simp only [Spec.cut, ahead_right]; exact s, ?_⟩
    simp only [Spec.cut, ahead_right]
    intro x' y' z' k hx hy hz hk
    rw [v x' y' z' k hx hy hz hk]
    simp only [Spec.step, Spec.cut, Spec.sides, Spec.first, Spec.second, Spec.middle]
    refine Finset.sum_congr rfl (fun x h1 => Finset.sum_congr rfl (fun y h2 => Finset.sum_congr rfl (fun z h3 =>
      Finset.sum_congr rfl (fun m h4 => Finset.sum_congr rfl (fun n h5 => ?_)))))
    simp only [Finset.mem_range] at h1 h2 h3 h4 h5
    rw [hE.2 x y z h1 h2 h3, vA _ _ _ _ _ h4 h2 h5 hy hk]
  | left =>
    obtain ⟨R, e, s, v⟩ := tmCore_left_out (shape_of (he.tu c) (hN.tu c)) hE.1 sA (shape_of (he.td c) (hN.td c))
    refine ⟨R, by simp [applyTM, tmAxes, hN.tu c, hN.td c, hsite, eA]; exact e, by simp only [Spec.cut, rt_left]; exact s, ?_⟩
    simp only [Spec.cut, rt_left]
    intro x' y' z' k hx hy hz hk
    rw [v x' y' z' k hx hy hz hk]
    simp only [Spec.step, Spec.cut, Spec.sides, Spec.first, Spec.second, Spec.middle]
    refine Finset.sum_congr rfl (fun x h1 => Finset.sum_congr rfl (fun y h2 => Finset.sum_congr rfl (fun z h3 =>
      Finset.sum_congr rfl (fun m h4 => Finset.sum_congr rfl (fun n h5 => ?_)))))
    simp only [Finset.mem_range] at h1 h2 h3 h4 h5
    rw [hE.2 x y z h1 h2 h3, vA _ _ _ _ _ h4 hy h5 h2 hk]
  | down =>
    obtain ⟨R, e, s, v⟩ := tmCore_down_out (shape_of (he.tl c) (hN.tl c)) hE.1 sA (shape_of (he.tr c) (hN.tr c))
    refine ⟨R, by simp [applyTM, tmAxes, hN.tl c, hN.tr c, hsite, eA]; exact e, by simp only [Spec.cut, ahead_down]; exact s, ?_⟩
    simp only [Spec.cut, ahead_down]
    intro x' y' z' k hx hy hz hk
    rw [v x' y' z' k hx hy hz hk]
    simp only [Spec.step, Spec.cut, Spec.sides, Spec.first, Spec.second, Spec.middle]
    refine Finset.sum_congr rfl (fun x h1 => Finset.sum_congr rfl (fun y h2 => Finset.sum_congr rfl (fun z h3 =>
      Finset.sum_congr rfl (fun m h4 => Finset.sum_congr rfl (fun n h5 => ?_)))))
    simp only [Finset.mem_range] at h1 h2 h3 h4 h5
    rw [hE.2 x y z h1 h2 h3, vA _ _ _ _ _ h2 h4 hy h5 hk]
  | up =>
    obtain ⟨R, e, s, v⟩ := tmCore_up_out (shape_of (he.tl c) (hN.tl c)) hE.1 sA (shape_of (he.tr c) (hN.tr c))
    refine ⟨R, by simp [applyTM, tmAxes, hN.tl c, hN.tr c, hsite, eA]; exact e, by simp only [Spec.cut, dn_up]; exact s, ?_⟩
    simp only [Spec.cut, dn_up]
    intro x' y' z' k hx hy hz hk
    rw [v x' y' z' k hx hy hz hk]
    simp only [Spec.step, Spec.cut, Spec.sides, Spec.first, Spec.second, Spec.middle]
    refine Finset.sum_congr rfl (fun x h1 => Finset.sum_congr rfl (fun y h2 => Finset.sum_congr rfl (fun z h3 =>
      Finset.sum_congr rfl (fun m h4 => Finset.sum_congr rfl (fun n h5 => ?_)))))
    simp only [Finset.mem_range] at h1 h2 h3 h4 h5
    rw [hE.2 x y z h1 h2 h3, vA _ _ _ _ _ hy h4 h2 h5 hk]

/-- One transfer matrix with the second factor of an operator. -/
theorem applyTM_in (ht : Tiling st) (hs : FitsState D st) (he : FitsEnv D st env) (hN : Spec.Reads st env N) (d : Dir) (c : Coord)
    (o : Tensor K) {B : Nat} (ho : o.shape = [D.p c, D.p c, B]) {E : Tensor K} {f : Nat → Spec.Vec K} (hE : Rep4 (Spec.cut D d c) B E f) :
    ∃ R, applyTM st env d c E (some o) = some R ∧
      Rep (Spec.cut D d (Spec.ahead d c 1)) R (fun x y z => ∑ k ∈ Finset.range B, Spec.step N D d c (factor o k) (f k) x y z) := by
  obtain ⟨A, eA, sA, vA⟩ := aXa_mpo_ok hs hN c o ho
  have hsite := site_vts ht hN c
  cases d with
  | right =>
    obtain ⟨R, e, s, v⟩ := tmCore_right_in (shape_of (he.tu c) (hN.tu c)) hE.1 sA (shape_of (he.td c) (hN.td c))
    refine ⟨R, by simp [applyTM, tmAxes, hN.tu c, hN.td c, hsite, eA]; exact e, by simp only [Spec.cut, ahead_right]; exact s, ?_⟩
    simp only [Spec.cut, ahead_right]
    intro x' y' z' hx hy hz
    rw [v x' y' z' hx hy hz, sum_comm5]
    simp only [Spec.step, Spec.cut, Spec.sides, Spec.first, Spec.second, Spec.middle]
    refine Finset.sum_congr rfl (fun k hk => Finset.sum_congr rfl (fun x h1 => Finset.sum_congr rfl (fun y h2 => Finset.sum_congr rfl (fun z h3 =>
      Finset.sum_congr rfl (fun m h4 => Finset.sum_congr rfl (fun n h5 => ?_))))))
    simp only [Finset.mem_range] at h1 h2 h3 h4 h5 hk
    rw [hE.2 x y z k h1 h2 h3 hk, vA _ _ _ _ _ h4 h2 h5 hy hk]
  | left =>
    obtain ⟨R, e, s, v⟩ := tmCore_left_in (shape_of (he.tu c) (hN.tu c)) hE.1 sA (shape_of (he.td c) (hN.td c))
    refine ⟨R, by simp [applyTM, tmAxes, hN.tu c, hN.td c, hsite, eA]; exact e, by simp only [Spec.cut, rt_left]; exact s, ?_⟩
    simp only [Spec.cut, rt_left]
    intro x' y' z' hx hy hz
    rw [v x' y' z' hx hy hz, sum_comm5]
    simp only [Spec.step, Spec.cut, Spec.sides, Spec.first, Spec.second, Spec.middle]
    refine Finset.sum_congr rfl (fun k hk => Finset.sum_congr rfl (fun x h1 => Finset.sum_congr rfl (fun y h2 => Finset.sum_congr rfl (fun z h3 =>
      Finset.sum_congr rfl (fun m h4 => Finset.sum_congr rfl (fun n h5 => ?_))))))
    simp only [Finset.mem_range] at h1 h2 h3 h4 h5 hk
    rw [hE.2 x y z k h1 h2 h3 hk, vA _ _ _ _ _ h4 hy h5 h2 hk]
  | down =>
    obtain ⟨R, e, s, v⟩ := tmCore_down_in (shape_of (he.tl c) (hN.tl c)) hE.1 sA (shape_of (he.tr c) (hN.tr c))
    refine ⟨R, by simp [applyTM, tmAxes, hN.tl c, hN.tr c, hsite, eA]; exact e, by simp only [Spec.cut, ahead_down]; exact s, ?_⟩
    simp only [Spec.cut, ahead_down]
    intro x' y' z' hx hy hz
    rw [v x' y' z' hx hy hz, sum_comm5]
    simp only [Spec.step, Spec.cut, Spec.sides, Spec.first, Spec.second, Spec.middle]
    refine Finset.sum_congr rfl (fun k hk => Finset.sum_congr rfl (fun x h1 => Finset.sum_congr rfl (fun y h2 => Finset.sum_congr rfl (fun z h3 =>
      Finset.sum_congr rfl (fun m h4 => Finset.sum_congr rfl (fun n h5 => ?_))))))
    simp only [Finset.mem_range] at h1 h2 h3 h4 h5 hk
    rw [hE.2 x y z k h1 h2 h3 hk, vA _ _ _ _ _ h2 h4 hy h5 hk]
  | up =>
    obtain ⟨R, e, s, v⟩ := tmCore_up_in (shape_of (he.tl c) (hN.tl c)) hE.1 sA (shape_of (he.tr c) (hN.tr c))
    refine ⟨R, by simp [applyTM, tmAxes, hN.tl c, hN.tr c, hsite, eA]; exact e, by simp only [Spec.cut, dn_up]; exact s, ?_⟩
    simp only [Spec.cut, dn_up]
    intro x' y' z' hx hy hz
    rw [v x' y' z' hx hy hz, sum_comm5]
    simp only [Spec.step, Spec.cut, Spec.sides, Spec.first, Spec.second, Spec.middle]
    refine Finset.sum_congr rfl (fun k hk => Finset.sum_congr rfl (fun x h1 => Finset.sum_congr rfl (fun y h2 => Finset.sum_congr rfl (fun z h3 =>
      Finset.sum_congr rfl (fun m h4 => Finset.sum_congr rfl (fun n h5 => ?_))))))
    simp only [Finset.mem_range] at h1 h2 h3 h4 h5 hk
    rw [hE.2 x y z k h1 h2 h3 hk, vA _ _ _ _ _ hy h4 h2 h5 hk]

theorem Spec.Factorises.shaped {svd : Tensor K → Nat → Svd K} {p : Nat} {op : Tensor K} (h : Spec.Factorises svd p op) : Spec.Shaped svd p op :=
  fun M sM vM => ⟨(h M sM vM).U, (h M sM vM).S, (h M sM vM).V⟩

/-- The factors of an operator: their contraction over the bond is the product of `U` and `V`, with or without the singular values. -/
theorem splitOp_ok (svd : Tensor K → Nat → Svd K) (weighted : Bool) (op : Tensor K) (p : Nat) (hop : op.shape = [p, p, p, p])
    (hf : Spec.Shaped svd p op) :
    ∃ M o1 o2, M.shape = [p ^ 2, p ^ 2] ∧ (∀ i < p ^ 2, ∀ j < p ^ 2, M.val [i, j] = (Spec.acrossMatrix p op).val [i, j]) ∧
      splitOp svd weighted op = some (o1, o2) ∧ o1.shape = [p, p, p ^ 2] ∧ o2.shape = [p, p, p ^ 2] ∧
      (∀ k < p ^ 2, ∀ s < p, ∀ s' < p, o1.val [s, s', k] = (svd M (p ^ 2)).U.val [s * p + s', k]) ∧
      (∀ k < p ^ 2, ∀ s < p, ∀ s' < p, o2.val [s, s', k] = star ((svd M (p ^ 2)).V.val [s * p + s', k]) *
        (if weighted then (((svd M (p ^ 2)).S.getD k 0 : ℝ) : K) else 1)) := by
  obtain ⟨dim, hdim⟩ : ∃ dim : Nat → Nat, dim = fun l => [p, p, p, p, p ^ 2].getD l 0 := ⟨_, rfl⟩
  have b1 : ∀ {i j : Nat}, i < p → j < p → i * p + j < p ^ 2 := fun {i j} hi hj => by
    calc i * p + j < i * p + p := by omega
      _ = (i + 1) * p := by ring
      _ ≤ p * p := Nat.mul_le_mul_right _ hi
      _ = p ^ 2 := by ring
  have d0 := Denotes.leaf dim op [[0], [1], [2], [3]] (by simp [gdim, hdim, hop])
  obtain ⟨x1, e1, q1⟩ := d0.permute [0, 2, 1, 3] (by decide)
  obtain ⟨M, e2, q2⟩ := q1.view [[0, 2], [1, 3]] [p ^ 2, p ^ 2] (by decide) (by simp [gdim, hdim, pow_two])
  have sM : M.shape = [p ^ 2, p ^ 2] := by rw [q2.shape]; simp [gdim, hdim, pow_two]
  have vM : ∀ i < p ^ 2, ∀ j < p ^ 2, M.val [i, j] = (Spec.acrossMatrix p op).val [i, j] := by
    intro i hi j hj
    have hp : 0 < p := by
      rcases Nat.eq_zero_or_pos p with h | h
      · subst h; simp at hi
      · exact h
    rw [pow_two] at hi hj
    have hv := q2.val (fun l => [i / p, j / p, i % p, j % p].getD l 0) (by
      rw [hdim]
      simp only [List.flatten_cons, List.flatten_nil, List.cons_append, List.nil_append, List.mem_cons, List.not_mem_nil, or_false]
      rintro l (rfl | rfl | rfl | rfl) <;> simp <;> first | exact Nat.div_lt_of_lt_mul ‹_› | exact Nat.mod_lt _ ‹_›)
    rw [hdim] at hv
    simp [gidx, ravel, sumOver, pair_idx] at hv
    rw [hv]
    simp [Spec.acrossMatrix]
  obtain ⟨hU, hS, hV⟩ := hf M sM vM
  obtain ⟨r, hr⟩ : ∃ r, r = svd M (p ^ 2) := ⟨_, rfl⟩
  rw [← hr] at hU hS hV
  have dU := Denotes.leaf dim r.U [[0, 2], [4]] (by simp [gdim, hdim, hU, pow_two])
  obtain ⟨o1, e3, q3⟩ := dU.view [[0], [2], [4]] [p, p, r.S.length] (by decide) (by simp [gdim, hdim, hS])
  have dV := Denotes.leaf dim r.V [[0, 2], [4]] (by simp [gdim, hdim, hV, pow_two])
  obtain ⟨y, e4, q4⟩ := dV.permute [1, 0] (by decide)
  obtain ⟨y', hy'⟩ : ∃ y' : Tensor K, y' = if weighted then ⟨y.shape, fun idx => star (y.val idx) * ((r.S.getD (idx.getD 0 0) 0 : ℝ) : K)⟩ else y.conj := ⟨_, rfl⟩
  have sy : y.shape = [p ^ 2, p * p] := by rw [q4.shape]; simp [gdim, hdim, pick]
  have sy' : y'.shape = [p ^ 2, p * p] := by rw [hy', ← sy]; cases weighted <;> rfl
  have d' := Denotes.leaf dim y' [[4], [0, 2]] (by simp [gdim, hdim, sy'])
  obtain ⟨z, e5, q5⟩ := d'.view [[4], [0], [2]] [r.S.length, p, p] (by decide) (by simp [gdim, hdim, hS])
  obtain ⟨o2, e6, q6⟩ := q5.permute [1, 2, 0] (by decide)
  have vy : ∀ k i, k < p ^ 2 → ∀ s < p, ∀ s' < p, i = s * p + s' → y.val [k, i] = r.V.val [i, k] := by
    intro k i hk s hs s' hs' hi
    have hv := q4.val (fun l => [s, 0, s', 0, k].getD l 0) (by
      rw [hdim]
      simp only [pick, List.map_cons, List.map_nil, List.getD_cons_succ, List.getD_cons_zero, List.flatten_cons, List.flatten_nil, List.cons_append, List.nil_append, List.mem_cons, List.not_mem_nil, or_false]
      rintro l (rfl | rfl | rfl) <;> simpa)
    rw [hdim] at hv
    simp [gidx, ravel, sumOver, pick, ← hi] at hv
    exact hv
  refine ⟨M, o1, o2, sM, vM, ?_, by rw [q3.shape]; simp [gdim, hdim], by rw [q6.shape]; simp [gdim, hdim, pick], ?_, ?_⟩
  · have hs0 : op.size 0 = p := by simp [size, hop]
    have hl : op.shape.length = 4 := by simp [hop]
    simp only [splitOp, hl, if_true, hs0, e1, Option.bind_eq_bind, Option.bind_some, e2, ← hr, e3, e4]
    rw [← hy', e5]
    simp only [Option.bind_some, e6]
    rfl
  · intro k hk s hs s' hs'
    rw [← hr]
    have hv := q3.val (fun l => [s, 0, s', 0, k].getD l 0) (by
      rw [hdim]
      simp only [List.flatten_cons, List.flatten_nil, List.cons_append, List.nil_append, List.mem_cons, List.not_mem_nil, or_false]
      rintro l (rfl | rfl | rfl) <;> simpa)
    rw [hdim] at hv
    simp [gidx, ravel, sumOver] at hv
    exact hv
  · intro k hk s hs s' hs'
    rw [← hr]
    have hv := q6.val (fun l => [s, 0, s', 0, k].getD l 0) (by
      rw [hdim]
      simp only [pick, List.map_cons, List.map_nil, List.getD_cons_succ, List.getD_cons_zero, List.flatten_cons, List.flatten_nil, List.cons_append, List.nil_append, List.mem_cons, List.not_mem_nil, or_false]
      rintro l (rfl | rfl | rfl) <;> simpa)
    rw [hdim] at hv
    simp [gidx, ravel, sumOver, pick] at hv
    rw [hv, hy']
    have := vy k (s * p + s') hk s hs s' hs' rfl
    cases weighted
    · simp [Tensor.conj, this]
    · simp [this]

/-- Two transfer matrices with operators of product form, summed over the bond, insert the contracted operator. -/
theorem step2_factors (hs : FitsState D st) (hN : Spec.Reads st env N) (d : Dir) (c : Coord) (B : Nat) (o1 o2 : Nat → Spec.Op K) (o : Spec.Op2 K)
    (h : ∀ s1' < D.p c, ∀ s1 < D.p c, ∀ s2' < D.p (Spec.ahead d c 1), ∀ s2 < D.p (Spec.ahead d c 1), ∑ k ∈ Finset.range B, o1 k s1' s1 * o2 k s2' s2 = o s1' s2' s1 s2)
    (f : Spec.Vec K) (x y z : Nat) :
    ∑ k ∈ Finset.range B, Spec.step N D d (Spec.ahead d c 1) (o2 k) (Spec.step N D d c (o1 k) f) x y z = Spec.step2 N D d c o f x y z := by
  have pa : ∀ c, (N.a c).size 0 = D.p c := fun c => by
    have : (N.a c).shape = _ := shape_of (hs.site c) (hN.a c)
    simp [size, this]
  have e1 : ∀ k, Spec.step N D d c (o1 k) f = fun x y z => ∑ i ∈ Finset.range (D.p c) ×ˢ Finset.range (D.p c), o1 k i.1 i.2 * Spec.step N D d c (Spec.unit i.1 i.2) f x y z := by
    intro k; funext x y z
    rw [step_expand, pa, Finset.sum_product]
  have e2 : ∀ k, Spec.step N D d (Spec.ahead d c 1) (o2 k) (Spec.step N D d c (o1 k) f) x y z =
      ∑ s1' ∈ Finset.range (D.p c), ∑ s1 ∈ Finset.range (D.p c), ∑ s2' ∈ Finset.range (D.p (Spec.ahead d c 1)), ∑ s2 ∈ Finset.range (D.p (Spec.ahead d c 1)),
        o1 k s1' s1 * o2 k s2' s2 * Spec.step N D d (Spec.ahead d c 1) (Spec.unit s2' s2) (Spec.step N D d c (Spec.unit s1' s1) f) x y z := by
    intro k
    rw [e1, step_vec, Finset.sum_product]
    refine Finset.sum_congr rfl (fun s1' _ => Finset.sum_congr rfl (fun s1 _ => ?_))
    rw [step_expand, pa, Finset.mul_sum]
    refine Finset.sum_congr rfl (fun s2' _ => ?_)
    rw [Finset.mul_sum]
    exact Finset.sum_congr rfl (fun s2 _ => by ring)
  simp only [e2, Spec.step2]
  rw [Finset.sum_comm]
  refine Finset.sum_congr rfl (fun s1' h1 => ?_)
  rw [Finset.sum_comm]
  refine Finset.sum_congr rfl (fun s1 h2 => ?_)
  rw [Finset.sum_comm]
  refine Finset.sum_congr rfl (fun s2' h3 => ?_)
  rw [Finset.sum_comm]
  refine Finset.sum_congr rfl (fun s2 h4 => ?_)
  rw [← Finset.sum_mul, h _ (Finset.mem_range.1 h1) _ (Finset.mem_range.1 h2) _ (Finset.mem_range.1 h3) _ (Finset.mem_range.1 h4)]

/-- The contraction of the two factors over their bond. -/
theorem factors_sum {svd : Tensor K → Nat → Svd K} {weighted : Bool} {p : Nat} {M o1 o2 : Tensor K}
    (h1 : ∀ k < p ^ 2, ∀ s < p, ∀ s' < p, o1.val [s, s', k] = (svd M (p ^ 2)).U.val [s * p + s', k])
    (h2 : ∀ k < p ^ 2, ∀ s < p, ∀ s' < p, o2.val [s, s', k] = star ((svd M (p ^ 2)).V.val [s * p + s', k]) *
        (if weighted then (((svd M (p ^ 2)).S.getD k 0 : ℝ) : K) else 1)) :
    ∀ s1' < p, ∀ s1 < p, ∀ s2' < p, ∀ s2 < p, ∑ k ∈ Finset.range (p ^ 2), factor o1 k s1' s1 * factor o2 k s2' s2 =
      ∑ k ∈ Finset.range (p ^ 2), (svd M (p ^ 2)).U.val [s1 * p + s1', k] * (if weighted then (((svd M (p ^ 2)).S.getD k 0 : ℝ) : K) else 1) *
        star ((svd M (p ^ 2)).V.val [s2 * p + s2', k]) := by
  intro s1' a1 s1 a2 s2' a3 s2 a4
  refine Finset.sum_congr rfl (fun k hk => ?_)
  rw [Finset.mem_range] at hk
  rw [factor, factor, h1 k hk s1 a2 s1' a1, h2 k hk s2 a4 s2' a3]
  ring

theorem across_val {p : Nat} {M op : Tensor K} (h : ∀ i < p ^ 2, ∀ j < p ^ 2, M.val [i, j] = (Spec.acrossMatrix p op).val [i, j]) :
    ∀ s1' < p, ∀ s1 < p, ∀ s2' < p, ∀ s2 < p, M.val [s1 * p + s1', s2 * p + s2'] = op.val [s1, s2, s1', s2'] := by
  intro s1' a1 s1 a2 s2' a3 s2 a4
  have b1 : ∀ {i j : Nat}, i < p → j < p → i * p + j < p ^ 2 := fun {i j} hi hj => by
    calc i * p + j < i * p + p := by omega
      _ = (i + 1) * p := by ring
      _ ≤ p * p := Nat.mul_le_mul_right _ hi
      _ = p ^ 2 := by ring
  have dv : ∀ {i j : Nat}, j < p → (i * p + j) / p = i := fun {i j} hj => by
    rw [Nat.add_comm, Nat.add_mul_div_right _ _ (by omega), Nat.div_eq_of_lt hj, Nat.zero_add]
  have md : ∀ {i j : Nat}, j < p → (i * p + j) % p = j := fun {i j} hj => by
    rw [Nat.add_comm, Nat.add_mul_mod_self_right, Nat.mod_eq_of_lt hj]
  rw [h _ (b1 a2 a1) _ (b1 a4 a3)]
  simp [Spec.acrossMatrix, dv a1, dv a3, md a1, md a3]

/-- The operator inserted by the one-row channel is the given one (transposed). -/
theorem applyTM1ch_rep (ht : Tiling st) (hs : FitsState D st) (he : FitsEnv D st env) (hN : Spec.Reads st env N) {svd : Tensor K → Nat → Svd K} (d : Dir) (c : Coord)
    (op : Tensor K) (p : Nat) (hop : op.shape = [p, p, p, p]) (hp : D.p c = p) (hp' : D.p (Spec.ahead d c 1) = p)
    (hf : ∀ M, M.shape = [p ^ 2, p ^ 2] → (∀ i < p ^ 2, ∀ j < p ^ 2, M.val [i, j] = (Spec.acrossMatrix p op).val [i, j]) → Spec.Factors (p ^ 2) M (svd M (p ^ 2)))
    {E : Tensor K} {f : Spec.Vec K} (hE : Rep (Spec.cut D d c) E f) :
    ∃ R, applyTM1ch svd st env d c E (some op) = some R ∧ Rep (Spec.cut D d (Spec.ahead d c 2)) R (Spec.step2 N D d c (Spec.transposed2 op) f) := by
  obtain ⟨M, o1, o2, sM, vM, eo, s1, s2, v1, v2⟩ := splitOp_ok svd true op p hop (Spec.Factorises.shaped hf)
  obtain ⟨E1, e1, q1⟩ := applyTM_out ht hs he hN d c o1 (by rw [hp]; exact s1) hE
  obtain ⟨E2, e2, q2⟩ := applyTM_in ht hs he hN d (Spec.ahead d c 1) o2 (by rw [hp']; exact s2) q1
  refine ⟨E2, by simp [applyTM1ch, eo, e1, shift_vec, e2], ?_⟩
  rw [ahead_ahead] at q2
  refine ⟨q2.1, fun x y z hx hy hz => ?_⟩
  rw [q2.2 x y z hx hy hz]
  refine step2_factors hs hN d c (p ^ 2) (factor o1) (factor o2) _ ?_ f x y z
  rw [hp, hp']
  intro s1' a1 s1 a2 s2' a3 s2 a4
  rw [factors_sum v1 v2 s1' a1 s1 a2 s2' a3 s2 a4, Spec.transposed2, ← across_val vM s1' a1 s1 a2 s2' a3 s2 a4]
  have b1 : ∀ {i j : Nat}, i < p → j < p → i * p + j < p ^ 2 := fun {i j} hi hj => by
    calc i * p + j < i * p + p := by omega
      _ = (i + 1) * p := by ring
      _ ≤ p * p := Nat.mul_le_mul_right _ hi
      _ = p ^ 2 := by ring
  rw [(hf M sM vM).prod _ (b1 a2 a1) _ (b1 a4 a3)]
  simp only [if_true]

/-- Without an operator the one-row channel is two transfer matrices. -/
theorem applyTM1ch_none (ht : Tiling st) (hs : FitsState D st) (he : FitsEnv D st env) (hN : Spec.Reads st env N) {svd : Tensor K → Nat → Svd K} (d : Dir) (c : Coord)
    {E : Tensor K} {f : Spec.Vec K} (hE : Rep (Spec.cut D d c) E f) :
    ∃ R, applyTM1ch svd st env d c E none = some R ∧ Rep (Spec.cut D d (Spec.ahead d c 2)) R (Spec.grow N D d c [Spec.one, Spec.one] f) := by
  obtain ⟨E1, e1, q1⟩ := applyTM_rep ht hs he hN d c none (fun o ho => by cases ho) hE
  obtain ⟨E2, e2, q2⟩ := applyTM_rep ht hs he hN d (Spec.ahead d c 1) none (fun o ho => by cases ho) q1
  rw [ahead_ahead] at q2
  exact ⟨E2, by simp [applyTM1ch, e1, shift_vec, e2], q2⟩
end
end Verif.Corrf
