import Verif.C4v.CorrfNet
/-
The C4v correlation functions step by step: each of them computes what the general code computes on the unfolded environment, to the right.
-/
namespace Verif.C4v
open Tensor Ctm Ctm.Spec
set_option linter.unusedSimpArgs false
set_option linter.unusedSectionVars false
variable {K : Type} [RCLike K]

/-- The tensors of the unfolded environment, the same around every vertex. -/
def tensors (a : Tensor K) (env : C4v.Env K) : Corrf.Spec.Tensors K where
  lu := fun _ => env.C
  ru := fun _ => env.C
  rd := fun _ => env.C
  ld := fun _ => C4v.Spec.turn2 env.C
  tu := fun _ => ⟨[env.T.size 1, env.T.size 2, env.T.size 0], fun i => env.T.val [i.getD 2 0, i.getD 0 0, i.getD 1 0]⟩
  tl := fun _ => env.T
  td := fun _ => ⟨[env.T.size 2, env.T.size 0, env.T.size 1], fun i => env.T.val [i.getD 1 0, i.getD 2 0, i.getD 0 0]⟩
  tr := fun _ => ⟨[env.T.size 1, env.T.size 2, env.T.size 0], fun i => env.T.val [i.getD 2 0, i.getD 0 0, i.getD 1 0]⟩
  a := fun _ => a

theorem reads (a : Tensor K) (env : C4v.Env K) : Corrf.Spec.Reads (C4v.Spec.cell a) (C4v.Spec.unfold env) (tensors a env) :=
  ⟨fun _ => rfl, fun _ => rfl, fun _ => rfl, fun _ => rfl, fun _ => rfl, fun _ => rfl, fun _ => rfl, fun _ => rfl, fun _ => rfl⟩

theorem tiling (a : Tensor K) : Tiling (C4v.Spec.cell a) := by
  constructor <;> simp [C4v.Spec.cell]

section
variable {chi D p : Nat} {a : Tensor K} {env : C4v.Env K}

theorem transposed_eye (n : Nat) : Corrf.Spec.transposed (eye n : Tensor K) = Corrf.Spec.one := by
  funext i j
  simp [Corrf.Spec.transposed, eye, Corrf.Spec.one, eq_comm]

theorem factor_eye (n k : Nat) : Corrf.factor (eye3 n : Tensor K) k = Corrf.Spec.one := by
  funext i j
  simp [Corrf.factor, eye3, Corrf.Spec.one, eq_comm]

theorem row_rep (hf : C4v.Spec.Fits chi D p a env) {A E : Tensor K} {o : Corrf.Spec.Op K} {f : Corrf.Spec.Vec K} (sA : A.shape = [D * D, D * D, D * D, D * D])
    (vA : ∀ u l d r, u < D * D → l < D * D → d < D * D → r < D * D → A.val [u, l, d, r] = Corrf.Spec.layer a o u l d r)
    (hE : Corrf.Rep (chi, D * D, chi) E f) (c : Coord) :
    ∃ R, row env.T E A = some R ∧ Corrf.Rep (chi, D * D, chi) R (Corrf.Spec.step (tensors a env) (C4v.Spec.dims chi D p) .right c o f) := by
  obtain ⟨R, e, s, v⟩ := row_sum hf.half hE.1 sA
  refine ⟨R, e, s, fun x' y' z' hx hy hz => ?_⟩
  rw [v x' y' z' hx hy hz]
  simp only [Corrf.Spec.step, Corrf.Spec.cut, Corrf.Spec.sides, Corrf.Spec.first, Corrf.Spec.second, Corrf.Spec.middle]
  refine Finset.sum_congr rfl (fun x h1 => Finset.sum_congr rfl (fun y h2 => Finset.sum_congr rfl (fun z h3 =>
    Finset.sum_congr rfl (fun m h4 => Finset.sum_congr rfl (fun n h5 => ?_)))))
  simp only [Finset.mem_range] at h1 h2 h3 h4 h5
  rw [hE.2 x y z h1 h2 h3, vA _ _ _ _ h4 h2 h5 hy]
  rfl

theorem applyTM_rep (hf : C4v.Spec.Fits chi D p a env) (op : Option (Tensor K)) (hop : ∀ o, op = some o → o.shape = [p, p])
    {E : Tensor K} {f : Corrf.Spec.Vec K} (hE : Corrf.Rep (chi, D * D, chi) E f) (c : Coord) :
    ∃ R, applyTM a env E op = some R ∧ Corrf.Rep (chi, D * D, chi) R (Corrf.Spec.step (tensors a env) (C4v.Spec.dims chi D p) .right c (Corrf.inserted op) f) := by
  cases op with
  | none =>
    have hp : a.size 0 = p := by simp [size, hf.site]
    obtain ⟨A, eA, sA, vA⟩ := layer2_ok a (eye p) hf.site rfl
    rw [transposed_eye] at vA
    obtain ⟨R, e, q⟩ := row_rep hf sA vA hE c
    refine ⟨R, ?_, q⟩
    simp only [row, Option.bind_eq_bind, Option.bind_eq_some_iff] at e
    obtain ⟨x1, e1, x2, e2, e3⟩ := e
    simp [applyTM, hp, eA, e1, e2, e3]
  | some o =>
    have ho := hop o rfl
    obtain ⟨A, eA, sA, vA⟩ := layer2_ok a o hf.site ho
    obtain ⟨R, e, q⟩ := row_rep hf sA vA hE c
    refine ⟨R, ?_, q⟩
    simp only [row, Option.bind_eq_bind, Option.bind_eq_some_iff] at e
    obtain ⟨x1, e1, x2, e2, e3⟩ := e
    simp [applyTM, ho, eA, e1, e2, e3]

theorem getEdge_rep (hf : C4v.Spec.Fits chi D p a env) (hC : C4v.Spec.CSymm chi env) (c : Coord) :
    ∃ E, getEdge env = some E ∧ Corrf.Rep (chi, D * D, chi) E (Corrf.Spec.edge (tensors a env) (C4v.Spec.dims chi D p) .left c) := by
  obtain ⟨R, e, s, v⟩ := edge_sum hf.corner hf.half
  refine ⟨R, e, s, fun x y z hx hy hz => ?_⟩
  rw [v x y z hx hy hz]
  refine Finset.sum_congr rfl (fun m h1 => Finset.sum_congr rfl (fun n h2 => ?_))
  simp only [Finset.mem_range] at h1 h2
  rw [hC n z h2 hz]
  rfl

theorem applyEdge_rep (hf : C4v.Spec.Fits chi D p a env) {E : Tensor K} {f : Corrf.Spec.Vec K} (hE : Corrf.Rep (chi, D * D, chi) E f) (c : Coord) :
    ∃ S, applyEdge env E = some S ∧ S.val [] = Corrf.Spec.dot (chi, D * D, chi) f (Corrf.Spec.edge (tensors a env) (C4v.Spec.dims chi D p) .right c) := by
  obtain ⟨R, e, s, v⟩ := close_sum hf.corner hf.half hE.1
  refine ⟨R, e, ?_⟩
  rw [v]
  simp only [Corrf.Spec.dot]
  refine Finset.sum_congr rfl (fun x h1 => Finset.sum_congr rfl (fun y h2 => Finset.sum_congr rfl (fun z h3 => ?_)))
  simp only [Finset.mem_range] at h1 h2 h3
  rw [← hE.2 x y z h1 h2 h3]
  simp only [Corrf.Spec.edge, Finset.mul_sum]
  refine Finset.sum_congr rfl (fun m h4 => Finset.sum_congr rfl (fun n h5 => ?_))
  show E.val [x, y, z] * env.C.val [x, m] * env.T.val [n, m, y] * env.C.val [n, z] = E.val [x, y, z] * (env.C.val [x, m] * env.T.val [n, m, y] * env.C.val [n, z])
  ring

/-! ### Two-site operators -/

/-- The decomposition with the conjugate of `V`. -/
def conjV (svd : Tensor K → Nat → Svd K) : Tensor K → Nat → Svd K := fun M n => { svd M n with V := (svd M n).V.conj }

/-- The decomposition with the singular values multiplied into the conjugate of `V`. -/
noncomputable def weighV (svd : Tensor K → Nat → Svd K) : Tensor K → Nat → Svd K := fun M n =>
  { svd M n with V := ⟨(svd M n).V.shape, fun idx => star ((svd M n).V.val idx) * (((svd M n).S.getD (idx.getD 1 0) 0 : ℝ) : K)⟩ }

theorem permute_conj (l : List Nat) (A : Tensor K) : permute l A.conj = (permute l A).map Tensor.conj := by
  by_cases h : l.length = A.shape.length ∧ l.Nodup ∧ (∀ q ∈ l, q < A.shape.length)
  · have h' : l.length = A.conj.shape.length ∧ l.Nodup ∧ (∀ q ∈ l, q < A.conj.shape.length) := h
    simp only [permute]
    rw [if_pos h, if_pos h']
    rfl
  · have h' : ¬(l.length = A.conj.shape.length ∧ l.Nodup ∧ (∀ q ∈ l, q < A.conj.shape.length)) := h
    simp only [permute]
    rw [if_neg h, if_neg h']
    rfl

theorem splitOp_conj (svd : Tensor K → Nat → Svd K) (op : Tensor K) : splitOp svd op = Corrf.splitOp (conjV svd) true op := by
  unfold splitOp Corrf.splitOp
  by_cases h : op.shape.length = 4
  · simp only [h, if_true]
    congr 1; funext x
    congr 1; funext M
    obtain ⟨r, hr⟩ : ∃ r, svd M (op.size 0 ^ 2) = r := ⟨_, rfl⟩
    simp only [conjV, hr, permute_conj]
    congr 1; funext o1
    cases permute [1, 0] r.V with
    | none => rfl
    | some y => simp [Tensor.conj, mul_comm]
  · simp [h]

theorem splitOp_weigh (svd : Tensor K → Nat → Svd K) (op : Tensor K) : splitOp svd op = Corrf.splitOp (weighV svd) false op := by
  unfold splitOp Corrf.splitOp
  by_cases h : op.shape.length = 4
  · simp only [h, if_true]
    congr 1; funext x
    congr 1; funext M
    obtain ⟨r, hr⟩ : ∃ r, svd M (op.size 0 ^ 2) = r := ⟨_, rfl⟩
    simp only [weighV, hr]
    congr 1; funext o1
    simp only [permute, Tensor.conj]
    by_cases h2 : [1, 0].length = r.V.shape.length ∧ [1, 0].Nodup ∧ (∀ q ∈ [1, 0], q < r.V.shape.length)
    · rw [if_pos h2, if_pos h2]
      have : r.V.shape.length = 2 := h2.1.symm
      simp [this, List.range_succ, mul_comm]
    · rw [if_neg h2, if_neg h2]
      rfl
  · simp [h]

theorem shaped_conj {svd : Tensor K → Nat → Svd K} {op : Tensor K} (h : Corrf.Spec.Shaped svd p op) : Corrf.Spec.Shaped (conjV svd) p op := fun M sM vM => h M sM vM
theorem shaped_weigh {svd : Tensor K → Nat → Svd K} {op : Tensor K} (h : Corrf.Spec.Shaped svd p op) : Corrf.Spec.Shaped (weighV svd) p op := fun M sM vM => h M sM vM

theorem rowOut_rep (hf : C4v.Spec.Fits chi D p a env) {B : Nat} {A E : Tensor K} {o : Nat → Corrf.Spec.Op K} {f : Corrf.Spec.Vec K} (sA : A.shape = [D * D, D * D, D * D, D * D, B])
    (vA : ∀ u l d r k, u < D * D → l < D * D → d < D * D → r < D * D → k < B → A.val [u, l, d, r, k] = Corrf.Spec.layer a (o k) u l d r)
    (hE : Corrf.Rep (chi, D * D, chi) E f) (c : Coord) :
    ∃ R, row env.T E A = some R ∧ R.shape = [chi, D * D, B, chi] ∧ ∀ x y z k, x < chi → y < D * D → z < chi → k < B →
      R.val [x, y, k, z] = Corrf.Spec.step (tensors a env) (C4v.Spec.dims chi D p) .right c (o k) f x y z := by
  obtain ⟨R, e, s, v⟩ := rowOut_sum hf.half hE.1 sA
  refine ⟨R, e, s, fun x' y' z' k hx hy hz hk => ?_⟩
  rw [v x' y' k z' hx hy hk hz]
  simp only [Corrf.Spec.step, Corrf.Spec.cut, Corrf.Spec.sides, Corrf.Spec.first, Corrf.Spec.second, Corrf.Spec.middle]
  refine Finset.sum_congr rfl (fun x h1 => Finset.sum_congr rfl (fun y h2 => Finset.sum_congr rfl (fun z h3 =>
    Finset.sum_congr rfl (fun m h4 => Finset.sum_congr rfl (fun n h5 => ?_)))))
  simp only [Finset.mem_range] at h1 h2 h3 h4 h5
  rw [hE.2 x y z h1 h2 h3, vA _ _ _ _ _ h4 h2 h5 hy hk]
  rfl

theorem rowIn_rep (hf : C4v.Spec.Fits chi D p a env) {B : Nat} {A E : Tensor K} {o : Nat → Corrf.Spec.Op K} {f : Nat → Corrf.Spec.Vec K} (sA : A.shape = [D * D, D * D, D * D, D * D, B])
    (vA : ∀ u l d r k, u < D * D → l < D * D → d < D * D → r < D * D → k < B → A.val [u, l, d, r, k] = Corrf.Spec.layer a (o k) u l d r)
    (sE : E.shape = [chi, D * D, B, chi]) (vE : ∀ x y z k, x < chi → y < D * D → z < chi → k < B → E.val [x, y, k, z] = f k x y z) (c : Coord) :
    ∃ R, rowIn env.T E A = some R ∧ Corrf.Rep (chi, D * D, chi) R
      (fun x y z => ∑ k ∈ Finset.range B, Corrf.Spec.step (tensors a env) (C4v.Spec.dims chi D p) .right c (o k) (f k) x y z) := by
  obtain ⟨R, e, s, v⟩ := rowIn_sum hf.half sE sA
  refine ⟨R, e, s, fun x' y' z' hx hy hz => ?_⟩
  rw [v x' y' z' hx hy hz, Corrf.sum_comm5]
  simp only [Corrf.Spec.step, Corrf.Spec.cut, Corrf.Spec.sides, Corrf.Spec.first, Corrf.Spec.second, Corrf.Spec.middle]
  refine Finset.sum_congr rfl (fun k hk => Finset.sum_congr rfl (fun x h1 => Finset.sum_congr rfl (fun y h2 => Finset.sum_congr rfl (fun z h3 =>
    Finset.sum_congr rfl (fun m h4 => Finset.sum_congr rfl (fun n h5 => ?_))))))
  simp only [Finset.mem_range] at h1 h2 h3 h4 h5 hk
  rw [vE x y z k h1 h2 h3 hk, vA _ _ _ _ _ h4 h2 h5 hy hk]
  rfl

theorem applyTM2_rep (hD : 0 < D) (hf : C4v.Spec.Fits chi D p a env) {svd : Tensor K → Nat → Svd K} {op X Y : Tensor K} {B : Nat} (hsp : splitOp svd op = some (X, Y))
    (hX : X.shape = [p, p, B]) (hY : Y.shape = [p, p, B]) {E : Tensor K} {f : Corrf.Spec.Vec K} (hE : Corrf.Rep (chi, D * D, chi) E f) (c c' : Coord) :
    ∃ R, applyTM2 svd a env E (some op) = some R ∧ Corrf.Rep (chi, D * D, chi) R (fun x y z => ∑ k ∈ Finset.range B,
      Corrf.Spec.step (tensors a env) (C4v.Spec.dims chi D p) .right c' (Corrf.factor Y k) (Corrf.Spec.step (tensors a env) (C4v.Spec.dims chi D p) .right c (Corrf.factor X k) f) x y z) := by
  obtain ⟨A, eA, sA, vA⟩ := layer3_ok a X hD hf.site hX
  obtain ⟨G, eG, sG, vG⟩ := layer3_ok a Y hD hf.site hY
  obtain ⟨E1, e1, s1, v1⟩ := rowOut_rep hf sA vA hE c
  obtain ⟨R, e2, q⟩ := rowIn_rep hf sG vG s1 v1 c'
  refine ⟨R, ?_, q⟩
  simp only [row, Option.bind_eq_bind, Option.bind_eq_some_iff] at e1
  obtain ⟨x1, f1, x2, f2, f3⟩ := e1
  simp only [rowIn, Option.bind_eq_bind, Option.bind_eq_some_iff] at e2
  obtain ⟨y1, g1, y2, g2, g3⟩ := e2
  simp [applyTM2, hsp, eA, f1, f2, f3, eG, g1, g2, g3]

theorem applyTM2_none (hD : 0 < D) (hf : C4v.Spec.Fits chi D p a env) {svd : Tensor K → Nat → Svd K} {E : Tensor K} {f : Corrf.Spec.Vec K} (hE : Corrf.Rep (chi, D * D, chi) E f) (c c' : Coord) :
    ∃ R, applyTM2 svd a env E none = some R ∧ Corrf.Rep (chi, D * D, chi) R
      (Corrf.Spec.step (tensors a env) (C4v.Spec.dims chi D p) .right c' Corrf.Spec.one (Corrf.Spec.step (tensors a env) (C4v.Spec.dims chi D p) .right c Corrf.Spec.one f)) := by
  have hp : a.size 0 = p := by simp [size, hf.site]
  obtain ⟨A, eA, sA, vA⟩ := layer3_ok a (eye3 p) hD hf.site rfl
  obtain ⟨E1, e1, s1, v1⟩ := rowOut_rep hf sA vA hE c
  obtain ⟨R, e2, q⟩ := rowIn_rep hf sA vA s1 v1 c'
  refine ⟨R, ?_, ?_⟩
  · simp only [row, Option.bind_eq_bind, Option.bind_eq_some_iff] at e1
    obtain ⟨x1, f1, x2, f2, f3⟩ := e1
    simp only [rowIn, Option.bind_eq_bind, Option.bind_eq_some_iff] at e2
    obtain ⟨y1, g1, y2, g2, g3⟩ := e2
    simp [applyTM2, hp, eA, f1, f2, f3, g1, g2, g3]
  · simpa [factor_eye] using q

/-! ### Two rows -/

theorem applyTMW_none (hf : C4v.Spec.Fits chi D p a env) {svd : Tensor K → Nat → Svd K} {E : Tensor K} {f : Corrf.Spec.Vec4 K}
    (hE : Corrf.RepW (chi, D * D, D * D, chi) E f) (c : Coord) :
    ∃ R, applyTMW svd a env E none = some R ∧
      Corrf.RepW (chi, D * D, D * D, chi) R (Corrf.Spec.wide (tensors a env) (C4v.Spec.dims chi D p) .right c Corrf.Spec.one Corrf.Spec.one f) := by
  obtain ⟨A, eA, sA, vA⟩ := Corrf.aXa_none a hf.site
  obtain ⟨R, e, s, v⟩ := rows_sum hf.half hE.1 sA sA
  refine ⟨R, ?_, s, fun x' y' w' z' hx hy hw hz => ?_⟩
  · simp only [rows, Option.bind_eq_bind, Option.bind_eq_some_iff] at e
    obtain ⟨x1, e1, x2, e2, x3, e3, e4⟩ := e
    simp [applyTMW, eA, e1, e2, e3, e4]
  rw [v x' y' w' z' hx hy hw hz]
  simp only [Corrf.Spec.wide, Corrf.Spec.cut2, Corrf.Spec.cut, Corrf.Spec.sides, Corrf.Spec.first, Corrf.Spec.second, Corrf.Spec.middle]
  refine Finset.sum_congr rfl (fun x h1 => Finset.sum_congr rfl (fun y h2 => Finset.sum_congr rfl (fun w h6 => Finset.sum_congr rfl (fun z h3 =>
    Finset.sum_congr rfl (fun m h4 => Finset.sum_congr rfl (fun k h7 => Finset.sum_congr rfl (fun n h5 => ?_)))))))
  simp only [Finset.mem_range] at h1 h2 h3 h4 h5 h6 h7
  rw [hE.2 x y w z h1 h2 h6 h3, vA _ _ _ _ h4 h2 h7 hy, vA _ _ _ _ h7 h6 h5 hw]
  rfl

theorem applyTMW_rep (hD : 0 < D) (hf : C4v.Spec.Fits chi D p a env) {svd : Tensor K → Nat → Svd K} {op X Y : Tensor K} {B : Nat} (hsp : splitOp svd op = some (X, Y))
    (hX : X.shape = [p, p, B]) (hY : Y.shape = [p, p, B]) {E : Tensor K} {f : Corrf.Spec.Vec4 K} (hE : Corrf.RepW (chi, D * D, D * D, chi) E f) (c : Coord) :
    ∃ R, applyTMW svd a env E (some op) = some R ∧ Corrf.RepW (chi, D * D, D * D, chi) R (fun x y w z => ∑ k ∈ Finset.range B,
      Corrf.Spec.wide (tensors a env) (C4v.Spec.dims chi D p) .right c (Corrf.factor X k) (Corrf.factor Y k) f x y w z) := by
  obtain ⟨A, eA, sA, vA⟩ := layer3_ok a X hD hf.site hX
  obtain ⟨G, eG, sG, vG⟩ := layer3_ok a Y hD hf.site hY
  obtain ⟨R, e, s, v⟩ := rowsOp_sum hf.half hE.1 sA sG
  refine ⟨R, ?_, s, fun x' y' w' z' hx hy hw hz => ?_⟩
  · simp only [rowsOp, Option.bind_eq_bind, Option.bind_eq_some_iff] at e
    obtain ⟨x1, e1, x2, e2, x3, e3, e4⟩ := e
    simp [applyTMW, hsp, eA, eG, e1, e2, e3, e4]
  rw [v x' y' w' z' hx hy hw hz]
  show _ = ∑ k ∈ Finset.range B, Corrf.Spec.wide (tensors a env) (C4v.Spec.dims chi D p) .right c (Corrf.factor X k) (Corrf.factor Y k) f x' y' w' z'
  rw [Corrf.wide_sum]
  simp only [Corrf.Spec.wide, Corrf.Spec.cut2, Corrf.Spec.cut, Corrf.Spec.sides, Corrf.Spec.first, Corrf.Spec.second, Corrf.Spec.middle]
  refine Finset.sum_congr rfl (fun x h1 => Finset.sum_congr rfl (fun y h2 => Finset.sum_congr rfl (fun w h6 => Finset.sum_congr rfl (fun z h3 =>
    Finset.sum_congr rfl (fun m h4 => Finset.sum_congr rfl (fun k h7 => Finset.sum_congr rfl (fun n h5 => Finset.sum_congr rfl (fun b h8 => ?_))))))))
  simp only [Finset.mem_range] at h1 h2 h3 h4 h5 h6 h7 h8
  rw [hE.2 x y w z h1 h2 h6 h3, vA _ _ _ _ _ h4 h2 h7 hy h8, vG _ _ _ _ _ h7 h6 h5 hw h8]
  rfl

/-- `get_edge_L` for two rows: it reads the half-rows from the other end. -/
theorem getEdgeL_sum (hf : C4v.Spec.Fits chi D p a env) :
    ∃ E, getEdgeL env 2 = some E ∧ E.shape = [chi, D * D, D * D, chi] ∧ ∀ x y w z, x < chi → y < D * D → w < D * D → z < chi →
      E.val [x, y, w, z] = ∑ i ∈ Finset.range chi, ∑ j ∈ Finset.range chi, ∑ k ∈ Finset.range chi,
        env.C.val [x, i] * env.T.val [j, i, y] * env.T.val [k, j, w] * env.C.val [k, z] := by
  obtain ⟨T, hT⟩ : ∃ T : Tensor K, T = ⟨[chi, D * D, chi], fun idx => env.T.val [idx.getD 2 0, idx.getD 0 0, idx.getD 1 0]⟩ := ⟨_, rfl⟩
  have ep : permute [1, 2, 0] env.T = some T := by
    rw [hT]
    simp [permute, hf.half, List.range_succ, List.idxOf, List.findIdx_cons]
  obtain ⟨E, e, s, v⟩ := edgeL_sum (T := T) hf.corner (by rw [hT])
  refine ⟨E, ?_, s, fun x y w z hx hy hw hz => ?_⟩
  · simp only [edgeL, Option.bind_eq_bind, Option.bind_eq_some_iff] at e
    obtain ⟨x1, e1, x2, e2, e3⟩ := e
    simp [getEdgeL, ep, edgeLoop, e1, e2, e3]
  · rw [v x y w z hx hy hw hz, hT]
    rfl

theorem getEdgeL_rep (hf : C4v.Spec.Fits chi D p a env) (hC : C4v.Spec.CSymm chi env) (hT : C4v.Spec.TSymm chi D env) (c : Coord) :
    ∃ E, getEdgeL env 2 = some E ∧ Corrf.RepW (chi, D * D, D * D, chi) E (Corrf.Spec.edge2 (tensors a env) (C4v.Spec.dims chi D p) .left c) := by
  obtain ⟨E, e, s, v⟩ := getEdgeL_sum hf
  refine ⟨E, e, s, fun x y w z hx hy hw hz => ?_⟩
  rw [v x y w z hx hy hw hz]
  refine Finset.sum_congr rfl (fun i h1 => Finset.sum_congr rfl (fun j h2 => Finset.sum_congr rfl (fun k h3 => ?_)))
  simp only [C4v.Spec.dims, Finset.mem_range] at h1 h2 h3
  rw [hC x i hx h1, hT j i y h2 h1 hy, hT k j w h3 h2 hw, hC k z h3 hz]
  rfl

theorem applyEdgeL_rep (hf : C4v.Spec.Fits chi D p a env) (hC : C4v.Spec.CSymm chi env) (hT : C4v.Spec.TSymm chi D env) {E : Tensor K} {f : Corrf.Spec.Vec4 K}
    (hE : Corrf.RepW (chi, D * D, D * D, chi) E f) (c : Coord) :
    ∃ S, applyEdgeL env E = some S ∧ S.val [] = Corrf.Spec.dot2 (chi, D * D, D * D, chi) f (Corrf.Spec.edge2 (tensors a env) (C4v.Spec.dims chi D p) .right c) := by
  obtain ⟨G, eG, sG, vG⟩ := getEdgeL_sum hf
  obtain ⟨S, e, _, v⟩ := closeL_sum hE.1 sG
  refine ⟨S, ?_, ?_⟩
  · have hl : E.shape.length = 4 := by rw [hE.1]; rfl
    simp only [applyEdgeL, hl]
    rw [show (4 - 2 : Nat) = 2 from rfl, eG]
    exact e
  · rw [v]
    refine Finset.sum_congr rfl (fun x h1 => Finset.sum_congr rfl (fun y h2 => Finset.sum_congr rfl (fun w h4 => Finset.sum_congr rfl (fun z h3 => ?_))))
    simp only [Finset.mem_range] at h1 h2 h3 h4
    rw [hE.2 x y w z h1 h2 h4 h3, vG z w y x h3 h4 h2 h1]
    refine congrArg _ ?_
    show _ = ∑ i ∈ Finset.range chi, ∑ j ∈ Finset.range chi, ∑ k ∈ Finset.range chi, env.C.val [x, i] * env.T.val [j, i, y] * env.T.val [k, j, w] * env.C.val [k, z]
    rw [Finset.sum_congr rfl (fun i _ => Finset.sum_comm), Finset.sum_comm, Finset.sum_congr rfl (fun i _ => Finset.sum_comm)]
    refine Finset.sum_congr rfl (fun k h5 => Finset.sum_congr rfl (fun j h6 => Finset.sum_congr rfl (fun i h7 => ?_)))
    simp only [Finset.mem_range] at h5 h6 h7
    rw [hC z i h3 h7, hT j i w h6 h7 h4, hT k j y h5 h6 h2, hC k x h5 h1, hT i j w h7 h6 h4, hT j k y h6 h5 h2]
    ring
end
end Verif.C4v
