import Verif.Kagome.TriProps
import Verif.Kagome.Example
import Verif.Tensor.Einsum
/-
C115, continued: operators on up triangles.
-/
namespace Verif.KagomeRdm
open Tensor Rdm Ctm Ctm.Spec
set_option linter.unusedSectionVars false
variable {K : Type} [RCLike K]

theorem sum_spins3 (p : Nat) (f : Nat → Nat → Nat → K) :
    ∑ s : Spec.Spins p, f (s 0) (s 1) (s 2) = ∑ a ∈ Finset.range p, ∑ b ∈ Finset.range p, ∑ c ∈ Finset.range p, f a b c := by
  have h1 := sum_spins p (fun n => f (sp p n 0) (sp p n 1) (sp p n 2))
  rw [sum_cube] at h1
  have e1 : ∀ s : Spec.Spins p, f (s 0) (s 1) (s 2) = f (sp p (Spec.index s) 0) (sp p (Spec.index s) 1) (sp p (Spec.index s) 2) := by
    intro s
    obtain ⟨a, b, c⟩ := sp_enc (s 0).2 (s 1).2 (s 2).2
    rw [index_enc, a, b, c]
  rw [Finset.sum_congr rfl fun s _ => e1 s, ← h1]
  refine Finset.sum_congr rfl fun a ha => Finset.sum_congr rfl fun b hb => Finset.sum_congr rfl fun c hc => ?_
  obtain ⟨x, y, z⟩ := sp_enc (Finset.mem_range.1 ha) (Finset.mem_range.1 hb) (Finset.mem_range.1 hc)
  rw [x, y, z]

theorem lab6 (r o : Tensor K) : (([(r, [0, 1, 2, 3, 4, 5]), (o, [3, 4, 5, 0, 1, 2])] : List (Tensor K × List Nat)).flatMap Prod.snd).dedup.filter (fun l => l ∉ ([] : List Nat)) =
    [3, 4, 5, 0, 1, 2] := by
  simp only [List.flatMap_cons, List.flatMap_nil]
  decide

theorem sum6 (p : Nat) (f : Nat → Nat → Nat → Nat → Nat → Nat → K) (σ : Nat → Nat) :
    sumOver (fun _ => p) [0, 1, 2, 3, 4, 5] (fun τ => f (τ 0) (τ 1) (τ 2) (τ 3) (τ 4) (τ 5)) σ =
      ∑ s : Spec.Spins p, ∑ t : Spec.Spins p, f (s 0) (s 1) (s 2) (t 0) (t 1) (t 2) := by
  have key : ∀ s : Spec.Spins p, ∑ t : Spec.Spins p, f (s 0) (s 1) (s 2) (t 0) (t 1) (t 2) = ∑ a ∈ Finset.range p, ∑ b ∈ Finset.range p, ∑ c ∈ Finset.range p,
      f (s 0) (s 1) (s 2) a b c := fun s => sum_spins3 p (f (s 0) (s 1) (s 2))
  rw [Finset.sum_congr rfl fun s _ => key s]
  rw [sum_spins3 p (fun x y z => ∑ a ∈ Finset.range p, ∑ b ∈ Finset.range p, ∑ c ∈ Finset.range p, f x y z a b c)]
  simp [sumOver]

theorem full6_val {p : Nat} {r o : Tensor K} {A B : Spec.Op3 K p} (hr : Spec.Holds r A) (ho : Spec.Holds o B) : full6 r o = some (Matrix.trace (A * B)) := by
  obtain ⟨R, e, s, v⟩ := einsum_ok (fun _ => p) [(r, [0, 1, 2, 3, 4, 5]), (o, [3, 4, 5, 0, 1, 2])] [] (by simp [hr.1, ho.1]) (by simp) (by simp)
  have h := v (fun _ => 0) (by simp)
  rw [lab6, sumOver_perm _ (show [3, 4, 5, 0, 1, 2].Perm [0, 1, 2, 3, 4, 5] by decide)] at h
  have h2 := sum6 p (fun x y z a b c => r.val [x, y, z, a, b, c] * o.val [a, b, c, x, y, z]) (fun _ => 0)
  have h3 : (termOf [(r, [0, 1, 2, 3, 4, 5]), (o, [3, 4, 5, 0, 1, 2])] : (Nat → Nat) → K) =
      fun τ => r.val [τ 0, τ 1, τ 2, τ 3, τ 4, τ 5] * o.val [τ 3, τ 4, τ 5, τ 0, τ 1, τ 2] := by
    funext τ
    simp [termOf]
  rw [h3, h2] at h
  unfold full6
  rw [e]
  simp only [Option.bind_eq_bind, Option.bind_some, Option.pure_def, Option.some.injEq]
  refine Eq.trans h ?_
  rw [trace_mul3]
  exact Finset.sum_congr rfl fun s _ => Finset.sum_congr rfl fun t _ => by rw [hr.2, ho.2]

theorem norm6_val {p : Nat} {r : Tensor K} {A : Spec.Op3 K p} (hr : Spec.Holds r A) : norm6 r = some (Matrix.trace A) := by
  obtain ⟨R, e, s, v⟩ := einsum_ok (fun _ => p) [(r, [0, 1, 2, 0, 1, 2])] [] (by simp [hr.1]) (by simp) (by simp)
  have h := v (fun _ => 0) (by simp)
  unfold norm6
  rw [e]
  simp only [Option.bind_eq_bind, Option.bind_some, Option.pure_def, Option.some.injEq]
  rw [show ([] : List Nat).map (fun _ : Nat => (0 : Nat)) = [] from rfl] at h
  rw [h]
  rw [show (([(r, [0, 1, 2, 0, 1, 2])] : List (Tensor K × List Nat)).flatMap Prod.snd).dedup.filter (fun l => l ∉ ([] : List Nat)) = [0, 1, 2] from rfl]
  rw [show Matrix.trace A = ∑ s : Spec.Spins p, r.val [s 0, s 1, s 2, s 0, s 1, s 2] from Finset.sum_congr rfl fun s _ => (hr.2 s s).symm]
  rw [sum_spins3 p (fun x y z => r.val [x, y, z, x, y, z])]
  simp [sumOver, termOf]

theorem holds_marginal {p n : Nat} {R R' : Tensor K} {x y z : Nat} (hxy : x ≠ y) (hxz : x ≠ z) (hyz : y ≠ z) (h : Spec.IsMarginal p n R R' [x, y, z]) :
    Spec.Holds R' (Spec.reduced p n R x y z) := by
  refine ⟨h.shape, fun s t => ?_⟩
  have := h.val (Spec.put x y s) (Spec.put x y t) (put_lt _ _ _) (put_lt _ _ _)
  refine Eq.trans ?_ this
  simp [Spec.put, hxy.symm, hxz.symm, hyz.symm]

/-- The density matrix of an up triangle (spin 1 of the upper right, spin 2 of the lower left and spin 0 of the lower right tensor of the plaquette) gives the
expectation value of an operator in the density matrix of the plaquette, and has the norm one. -/
theorem C115_up (eigh : Tensor K → List ℝ × Tensor K) {D : Dims} {st : State K} {env : Env K} (ht : Tiling st) (hs : FitsState D st) (he : FitsEnv D st env)
    {p : Nat} (hp : ∀ c, D.p c = p ^ 3) (c : Coord) {o : Tensor K} {O : Spec.Op3 K p} (ho : Spec.Holds o O) {R : Tensor K}
    (hR : rdm2x2 eigh false st env c [0, 1, 2, 3] = .ok R) :
    ∃ R', rdmUp eigh false st env c = .ok R' ∧ full6 R' o = some (Matrix.trace (Spec.reduced p 4 R 4 8 9 * O)) ∧ norm6 R' = some 1 := by
  obtain ⟨R', e, m⟩ := C113_up eigh ht hs he hp c hR
  have hh : Spec.Holds R' (Spec.reduced p 4 R 4 8 9) := holds_marginal (by decide) (by decide) (by decide) m
  refine ⟨R', e, full6_val hh ho, ?_⟩
  rw [norm6_val hh]
  have hpos : 0 < p := by
    have := hs.p.1 c
    rw [hp] at this
    exact Nat.pos_of_ne_zero fun h => by subst h; simp at this
  have ht1 : Matrix.trace (Rdm.Spec.op (List.replicate 4 (p ^ 3)) R) = 1 := by
    obtain ⟨e', s, h1, h0, h2⟩ := plaq_ok hs he c
    obtain ⟨T, eT, sT, -⟩ := plaq_full h2 (P := p ^ 3) (hp _) (hp _) (hp _) (hp _)
    rw [rdm2x2_eq eigh false h1 (by decide) eT] at hR
    exact (C30_any false (fun h => by cases h) (by simp [hpos]) sT hR).2.1
  have hm := trace_marginal hpos (by decide) (by decide) m
  rw [ht1] at hm
  rw [← hm]
  refine congrArg some ?_
  rw [show Matrix.trace (Spec.reduced p 4 R 4 8 9) = ∑ s : Spec.Spins p, R'.val [s 0, s 1, s 2, s 0, s 1, s 2] from Finset.sum_congr rfl fun s _ => (hh.2 s s).symm]
  rw [sum_spins3 p (fun x y z => R'.val [x, y, z, x, y, z]), trace_op]
  simp [sumIdx, List.replicate]

/-! ### The hypotheses can be met -/

/-- A non-symmetric operator on three spins one half. -/
def kOp : Tensor ℝ := ⟨[2, 2, 2, 2, 2, 2], fun i => (i.getD 0 0 : ℝ) * 4 + i.getD 2 0 - 2 * (i.getD 5 0 : ℝ)⟩

theorem kHolds : Spec.Holds kOp (Matrix.of fun t s : Spec.Spins 2 => ((t 0 : Nat) : ℝ) * 4 + (t 2 : Nat) - 2 * ((s 2 : Nat) : ℝ)) := ⟨rfl, fun _ _ => rfl⟩

example (eigh : Tensor ℝ → List ℝ × Tensor ℝ) (c : Coord) : ∃ R R', rdm2x2 eigh false (exState kDims) (cellEnv kDims) c [0, 1, 2, 3] = .ok R ∧
    rdmUp eigh false (exState kDims) (cellEnv kDims) c = .ok R' ∧ norm6 R' = some 1 := by
  obtain ⟨R, hR⟩ := kPlaq eigh c
  obtain ⟨R', a, -, b⟩ := C115_up eigh (exTiling _) kFitsState kFits kCube c kHolds hR
  exact ⟨R, R', hR, a, b⟩

/-- A Hermitian one. -/
theorem kHolds' : Spec.Holds (⟨[2, 2, 2, 2, 2, 2], fun i => (i.getD 0 0 : ℝ) + i.getD 3 0 + (i.getD 1 0 : ℝ) * i.getD 4 0⟩ : Tensor ℝ)
    (Matrix.of fun t s : Spec.Spins 2 => ((t 0 : Nat) : ℝ) + (s 0 : Nat) + ((t 1 : Nat) : ℝ) * (s 1 : Nat)) := ⟨rfl, fun _ _ => rfl⟩

example (eigh : Tensor ℝ → List ℝ × Tensor ℝ) (c : Coord) : ∃ v n, dnTriangle (exState kDims) (cellEnv kDims) c
    (⟨[2, 2, 2, 2, 2, 2], fun i => (i.getD 0 0 : ℝ) + i.getD 3 0 + (i.getD 1 0 : ℝ) * i.getD 4 0⟩ : Tensor ℝ) = .ok (v, n) := by
  obtain ⟨R, hR⟩ := kPlaq eigh c
  obtain ⟨v, n, e, -⟩ := C115_down_hermitian eigh (exTiling _) kFitsState kFits kCube c (.inl kHolds') (by
    ext t s
    simp only [Matrix.conjTranspose_apply, Matrix.of_apply, star_trivial]
    ring) hR
  exact ⟨v, n, e⟩

end Verif.KagomeRdm
