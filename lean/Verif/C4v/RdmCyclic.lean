import Verif.C4v.RdmProps
/-
The density matrix of the plaquette of a C4v state is a trace of four equal enlarged corners, so it does not change when the sites are turned.
-/
namespace Verif.C4v
open Tensor Ctm Rdm
variable {K : Type} [RCLike K]

/-- Four equal enlarged corners in a ring: sites 0, 1, 3, 2. -/
theorem raw2x2_ring {n p : Nat} {a C T x : Tensor K} (hx : openDl C T a = some x) (sx : x.shape = [n, n, p, p]) :
    ∃ R, raw2x2 a C T = some R ∧ R.shape = [p, p, p, p, p, p, p, p] ∧ ∀ i j k l a b c d, i < p → j < p → k < p → l < p → a < p → b < p → c < p → d < p →
      R.val [i, j, k, l, a, b, c, d] = ∑ q0 ∈ Finset.range n, ∑ q1 ∈ Finset.range n, ∑ q2 ∈ Finset.range n, ∑ q3 ∈ Finset.range n,
        x.val [q0, q1, i, a] * x.val [q1, q2, j, b] * x.val [q2, q3, l, d] * x.val [q3, q0, k, c] := by
  obtain ⟨dim, hd⟩ : ∃ dim : Nat → Nat, dim = fun z => if z < 4 then n else p := ⟨_, rfl⟩
  have hs : ∀ z < 4, dim z = n := fun z hz => by rw [hd]; simp [hz]
  have hb : ∀ z, 4 ≤ z → dim z = p := fun z hz => by rw [hd]; simp [Nat.not_lt.2 hz]
  have g0 := hs 0 (by decide)
  have g1 := hs 1 (by decide)
  have g2 := hs 2 (by decide)
  have g3 := hs 3 (by decide)
  have g4 := hb 4 (by decide)
  have g5 := hb 5 (by decide)
  have g6 := hb 6 (by decide)
  have g7 := hb 7 (by decide)
  have g8 := hb 8 (by decide)
  have g9 := hb 9 (by decide)
  have g10 := hb 10 (by decide)
  have g11 := hb 11 (by decide)
  have d0 := Denotes.leaf dim x [[0], [1], [4], [5]] (by simp [sx, g0, g1, g4, g5])
  have d1 := Denotes.leaf dim x [[1], [2], [6], [7]] (by simp [sx, g1, g2, g6, g7])
  have d2 := Denotes.leaf dim x [[2], [3], [8], [9]] (by simp [sx, g2, g3, g8, g9])
  have d3 := Denotes.leaf dim x [[3], [0], [10], [11]] (by simp [sx, g3, g0, g10, g11])
  obtain ⟨u, e1, q1⟩ := Denotes.tensordot d0 d1 [1] [0] (dotOK_iff (by decide))
  obtain ⟨v, e2, q2⟩ := Denotes.permute q1 [0, 3, 1, 2, 4, 5] (by decide)
  obtain ⟨u', e1', q1'⟩ := Denotes.tensordot d2 d3 [1] [0] (dotOK_iff (by decide))
  obtain ⟨v', e2', q2'⟩ := Denotes.permute q1' [0, 3, 1, 2, 4, 5] (by decide)
  obtain rfl : u = u' := Option.some.inj (e1.symm.trans e1')
  obtain rfl : v = v' := Option.some.inj (e2.symm.trans e2')
  obtain ⟨w, e3, q3⟩ := Denotes.tensordot q2 q2' [0, 1] [1, 0] (dotOK_iff (by decide))
  obtain ⟨R, e4, q4⟩ := Denotes.permute q3 [0, 2, 6, 4, 1, 3, 7, 5] (by decide)
  refine ⟨R, by simp [raw2x2, hx, e1, e2, e3, e4], ?_, fun i j k l a b c d hi hj hk hl ha hb hc hd => ?_⟩
  · rw [q4.shape]
    simp [pick, freeAxes, List.range_succ, g4, g5, g6, g7, g8, g9, g10, g11]
  · have h4 := q4.congr (L' := [0, 1, 2, 3]) (S' := [0, 1, 2, 3, 4, 5, 6, 7, 8, 9, 10, 11]) (F' := fun σ => x.val [σ 0, σ 1, σ 4, σ 5] * x.val [σ 1, σ 2, σ 6, σ 7] * x.val [σ 2, σ 3, σ 8, σ 9] * x.val [σ 3, σ 0, σ 10, σ 11]) (by decide) (by decide) (fun σ => by
      simp only [List.map_cons, List.map_nil, gidx_single]; ring)
    have hv : ∀ σ, (∀ z ∈ [4, 6, 10, 8, 5, 7, 11, 9], σ z < dim z) → R.val (List.map (gidx dim σ) [[4], [6], [10], [8], [5], [7], [11], [9]]) =
      sumOver dim [0, 1, 2, 3] (fun σ => x.val [σ 0, σ 1, σ 4, σ 5] * x.val [σ 1, σ 2, σ 6, σ 7] * x.val [σ 2, σ 3, σ 8, σ 9] * x.val [σ 3, σ 0, σ 10, σ 11]) σ := h4.val
    have := hv (([0, 0, 0, 0, i, a, j, b, l, d, k, c] : List Nat).getD · 0) (by
      intro z hz
      simp only [List.mem_cons, List.not_mem_nil, or_false] at hz
      rcases hz with rfl | rfl | rfl | rfl | rfl | rfl | rfl | rfl <;> simp [*])
    simp only [List.map_cons, List.map_nil, gidx_single, List.getD_cons_zero, List.getD_cons_succ] at this
    rw [this]
    simp only [sumOver, g0, g1, g2, g3]
    simp [Function.update]

/-- The entries do not change when the sites are turned: 0 to 1, 1 to 3, 3 to 2, 2 to 0. -/
def Turns (p : Nat) (r : Tensor K) : Prop := ∀ i j k l a b c d, i < p → j < p → k < p → l < p → a < p → b < p → c < p → d < p →
  r.val [i, j, k, l, a, b, c, d] = r.val [j, l, i, k, b, d, a, c]

theorem raw2x2_turns {chi D p : Nat} {a : Tensor K} {env : C4v.Env K} (hf : C4v.Spec.Fits chi D p a env) :
    ∃ R, raw2x2 a env.C env.T = some R ∧ R.shape = [p, p, p, p] ++ [p, p, p, p] ∧ Turns p R := by
  obtain ⟨x, ex, q⟩ := openDl_net rfl hf.site hf.corner hf.half
  obtain ⟨R, h1, h2, h3⟩ := raw2x2_ring ex (openC_shape rfl q)
  refine ⟨R, h1, h2, fun i j k l a b c d hi hj hk hl ha hb hc hd => ?_⟩
  rw [h3 i j k l a b c d hi hj hk hl ha hb hc hd, h3 j l i k b d a c hj hl hi hk hb hd ha hc]
  have cyc : ∀ n (F : Nat → Nat → Nat → Nat → K), ∑ q0 ∈ Finset.range n, ∑ q1 ∈ Finset.range n, ∑ q2 ∈ Finset.range n, ∑ q3 ∈ Finset.range n, F q0 q1 q2 q3 =
      ∑ q1 ∈ Finset.range n, ∑ q2 ∈ Finset.range n, ∑ q3 ∈ Finset.range n, ∑ q0 ∈ Finset.range n, F q0 q1 q2 q3 := by
    intro n F
    rw [Finset.sum_comm]
    refine Finset.sum_congr rfl fun q1 _ => ?_
    rw [Finset.sum_comm]
    refine Finset.sum_congr rfl fun q2 _ => ?_
    rw [Finset.sum_comm]
  rw [cyc]
  refine Finset.sum_congr rfl fun q1 _ => Finset.sum_congr rfl fun q2 _ => Finset.sum_congr rfl fun q3 _ => Finset.sum_congr rfl fun q0 _ => ?_
  ring

theorem inB4 {p i j k l : Nat} (hi : i < p) (hj : j < p) (hk : k < p) (hl : l < p) : InB [p, p, p, p] [i, j, k, l] := by simp [InB, *]

/-- The normalised density matrix is turned into itself as well. -/
theorem rdm2x2_turns (eigh : Tensor K → List ℝ × Tensor K) {chi D p : Nat} {a : Tensor K} {env : C4v.Env K} (hf : C4v.Spec.Fits chi D p a env) {r : Tensor K}
    (hr : rdm2x2 eigh false a env = .ok r) : r.shape = [p, p, p, p] ++ [p, p, p, p] ∧ Turns p r := by
  obtain ⟨R, h1, h2, h3⟩ := raw2x2_turns hf
  have e : rdm2x2 eigh false a env = symRdm eigh false R := sym_eq eigh false h1
  rw [e] at hr
  obtain ⟨p0, p1⟩ := symRdm_ok eigh h2 hr
  obtain ⟨r', e1, e2, e3⟩ := symRdm_entries eigh h2 p0 p1
  obtain rfl : r = r' := by rw [hr] at e1; injection e1
  refine ⟨e2, fun i j k l a b c d hi hj hk hl ha hb hc hd => ?_⟩
  have := e3 [i, j, k, l] [a, b, c, d] (inB4 hi hj hk hl) (inB4 ha hb hc hd)
  have h' := e3 [j, l, i, k] [b, d, a, c] (inB4 hj hl hi hk) (inB4 hb hd ha hc)
  simp only [List.cons_append, List.nil_append] at this h'
  rw [this, h', h3 i j k l a b c d hi hj hk hl ha hb hc hd, h3 a b c d i j k l ha hb hc hd hi hj hk hl]

end Verif.C4v
