import Verif.State.D2Props
/-
C142: files of the states of coupled ladders; examples for C141.
-/
namespace Verif.D2
open Verif.State Verif.State.Spec
open Verif.Lattice (Vertex)
variable {R : Type}

/-- A float64 tensor is real. -/
def Spec.RealOk [Zero R] (A : CTensor R) : Prop := A.cplx = false → ∀ idx, Tensor.InB A.t.shape idx → (A.t.val idx).2 = 0

theorem tiling_cell : CellTiling 1 2 [((0 : Int), (0 : Int)), (0, 1)] (Lattice.defaultVertexToSite 1 2) := by
  have h := Lattice.C01_default_tiling 1 2 (by decide) (by decide)
  have hv : ∀ c : Vertex, Lattice.defaultVertexToSite 1 2 c = some (c.1 % 1, c.2 % 2) := fun c => h.1 c
  refine ⟨by decide, by decide, ?_, ?_, ?_, ?_⟩
  · intro c
    refine ⟨(c.1 % 1, c.2 % 2), ?_, hv c⟩
    have e : c.2 % 2 = 0 ∨ c.2 % 2 = 1 := by omega
    have e2 : c.1 % 1 = 0 := by omega
    rcases e with e | e <;> simp [e, e2]
  · intro s hs
    simp only [List.mem_cons, List.not_mem_nil, or_false] at hs
    rcases hs with rfl | rfl <;> decide
  · intro c k l
    exact h.2.2.2.1 c k l
  · intro c c' hc d hd
    rw [hv, hv] at *
    simp only [Option.some.injEq, Prod.mk.injEq] at *
    constructor <;> omega

/-- **C142**: every reachable state is written in either format and read back: the parent tensor has the same sizes and entries, its dtype may be promoted to complex by the global setting. -/
theorem C142_roundtrip_partial [Field R] {F : NumFmt R} (hF : F.Lawful) (fm : Format) {st : DState R} (h : Spec.Reachable F st) (hr : Spec.RealOk st.parent) (aux : List Nat) (gc : Bool) :
    ∃ j st', write F fm st aux = some j ∧ read F j [0, 1, 2, 3] gc = some st' ∧ st'.parent.cplx = (st.parent.cplx || gc) ∧ st.parent.t.Same st'.parent.t ∧
      (∀ v, st'.base.vts v = st.base.vts v) := by
  have hm := consistent h
  obtain ⟨-, hb, h1, h2, h3⟩ := mk_some hm
  obtain ⟨B, hl, hf⟩ := build_some hb
  obtain ⟨hc, p, u, l, d, r, hs1, hs2, hv⟩ := hf
  have hwf : WellFormed st.base := by
    refine ⟨?_, ?_, ?_⟩
    · rw [hl]; simp
    · rw [hl]
      intro e he
      simp only [List.mem_cons, List.not_mem_nil, or_false] at he
      rcases he with rfl | rfl
      · simp [hs1]
      · simp [hs2]
    · rw [hl]
      intro e he
      simp only [List.mem_cons, List.not_mem_nil, or_false] at he
      rcases he with rfl | rfl
      · exact hr
      · intro hcf idx hi
        simp only [hs2] at hi
        match idx, hi with
        | [s, i, j, k, o], hi =>
          simp only [Tensor.InB, List.forall₂_cons, List.forall₂_nil_left_iff] at hi
          change (B.t.val [s, i, j, k, o]).2 = 0
          rw [hv]
          refine hr (hc.trans hcf) _ ?_
          rw [hs1]
          simp only [Tensor.InB, List.forall₂_cons, List.forall₂_nil_left_iff]
          tauto
  have hT : CellTiling st.base.lX st.base.lY (st.base.sites.map (·.1)) st.base.vts := by
    rw [h1, h2, h3, hl]
    exact tiling_cell
  obtain ⟨j, s', hw, hrd, l1, l2, hvt, hall⟩ := C06_tiling_roundtrip_partial F hF fm st.base hwf hT aux gc
  rw [hl] at hall
  obtain ⟨X, Y, hs', hX⟩ : ∃ X Y, s'.sites = [((0, 0), X), ((0, 1), Y)] ∧ SameSite gc ((0, 0), st.parent) ((0, 0), X) := by
    match hss : s'.sites with
    | [(a, X), (b, Y)] =>
      rw [hss] at hall
      simp only [List.forall₂_cons, List.Forall₂.nil, and_true] at hall
      have e1 : a = (0, 0) := hall.1.1.symm
      have e2 : b = (0, 1) := hall.2.1.symm
      subst e1 e2
      exact ⟨X, Y, rfl, hall.1⟩
    | [] => rw [hss] at hall; simp at hall
    | [_] => rw [hss] at hall; simp at hall
    | _ :: _ :: _ :: _ => rw [hss] at hall; simp at hall
  have hXs : X.t.shape = [p, u, l, d, r] := by rw [← hs1]; exact hX.2.2.1.symm
  have hbX : ∃ ll, build X = some ll := by
    unfold build Tensor.permute
    rw [if_pos (by rw [hXs]; simp)]
    exact ⟨_, rfl⟩
  obtain ⟨ll, hll⟩ := hbX
  refine ⟨j, ⟨X, ⟨1, 2, ll, Lattice.defaultVertexToSite 1 2⟩⟩, ?_, ?_, hX.2.1, hX.2.2, fun v => by rw [h3]⟩
  · unfold write
    rw [hm]
    exact hw
  · unfold read
    rw [hrd]
    have hat : siteAt s' (0, 0) = some X := by
      unfold siteAt
      rw [hvt, h3, hs']
      rfl
    simp only [Option.bind_eq_bind, Option.bind_some]
    rw [if_pos ⟨by rw [hs']; rfl, by rw [l1, h1], by rw [l2, h2]⟩, hat]
    exact mk_of_build hll

/-- A parent tensor whose horizontal bonds differ in size from the vertical ones. -/
def sampleParent : CTensor Int := ⟨false, ⟨[1, 1, 2, 1, 2], fun idx => ((idx.getD 2 0 + idx.getD 4 0 : Nat), 0)⟩⟩

/-- **C142** fails for another order of the indices: the order is ignored on writing and applied on reading. -/
theorem C142_order_violated : ∃ (st : DState Int) (aux : List Nat) (j : JState) (st' : DState Int), aux.Perm [0, 1, 2, 3] ∧ mk st.parent = some st ∧ Spec.RealOk st.parent ∧
    write unaryFmt .flat st aux = some j ∧ read unaryFmt j aux false = some st' ∧ st'.parent.t.shape ≠ st.parent.t.shape := by
  have e : ((mk sampleParent).bind (fun st => (write unaryFmt .flat st [1, 0, 3, 2]).bind (fun j => (read unaryFmt j [1, 0, 3, 2] false).map (fun s => s.parent.t.shape)))) =
      some [1, 2, 1, 2, 1] := by decide +kernel
  rw [Option.bind_eq_some_iff] at e
  obtain ⟨st, hm, e⟩ := e
  rw [Option.bind_eq_some_iff] at e
  obtain ⟨j, hw, e⟩ := e
  rw [Option.map_eq_some_iff] at e
  obtain ⟨st', hr, e⟩ := e
  have hp := (mk_some hm).1
  refine ⟨st, [1, 0, 3, 2], j, st', by decide, by rw [hp]; exact hm, ?_, hw, hr, ?_⟩
  · rw [hp]
    intro _ idx _
    rfl
  · rw [e, hp]; decide

/-! ### The hypotheses are met -/

/-- A rational parent, symmetric under exchange of left and right. -/
def qParent : CTensor ℚ := ⟨false, ⟨[1, 1, 2, 1, 2], fun idx => ((idx.getD 2 0 + idx.getD 4 0 : Nat), 0)⟩⟩

theorem qParent_ok : ∃ st, mk qParent = some st := ⟨_, mk_of_build (l := _) (by unfold build Tensor.permute; rw [if_pos (by decide)]; rfl)⟩

example (F : NumFmt ℚ) : ∃ st : DState ℚ, Spec.Reachable F st ∧ Spec.RealOk st.parent ∧ Spec.LeftRight st.parent ∧ auxDims st = [1, 2, 1, 2] := by
  obtain ⟨st, h⟩ := qParent_ok
  refine ⟨st, .new h, ?_, ?_, ?_⟩
  · rw [(mk_some h).1]; intro _ _ _; rfl
  · rw [(mk_some h).1]
    exact ⟨1, 1, 2, 1, rfl, fun s i j k o _ _ _ _ _ => by simp [qParent, add_comm]⟩
  · unfold auxDims
    rw [(mk_some h).1]; rfl

example : ∃ (st st' : DState ℚ), mk qParent = some st ∧ addNoise false (fun idx => (((idx.getD 2 0 : Nat) : ℚ), 0)) (fun _ => 1) st = some st' := by
  obtain ⟨st, h⟩ := qParent_ok
  have e : (addNoise false (fun idx => (((idx.getD 2 0 : Nat) : ℚ), 0)) (fun _ => (1 : ℚ)) st).isSome = true := by
    unfold addNoise
    rw [(mk_some h).1]
    rfl
  obtain ⟨st', h'⟩ := Option.isSome_iff_exists.mp e
  exact ⟨st, st', h, h'⟩

end Verif.D2
