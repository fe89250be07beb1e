import Verif.Kagome.NewModel
import Verif.Kagome.OneProps
/-
`rdm1x1_kagome` contracts the network of another site tensor.
-/
namespace Verif.KagomeRdm
open Tensor Corner Rdm
set_option linter.unusedSimpArgs false
set_option linter.unusedVariables false
variable {K : Type} [RCLike K]

/-- The entries of the tensor `a`, in the order of its memory, read with the physical index as the fastest instead of the slowest. -/
def Spec.scrambled (a : Tensor K) : Tensor K :=
  ⟨a.shape, fun idx => a.val (unravel a.shape (ravel (a.shape.drop 1 ++ a.shape.take 1) (idx.drop 1 ++ idx.take 1)))⟩

/-- The environment and the site tensor with the labels of `layer_denotes`. -/
structure FitsN (dim : Nat → Nat) (e : SiteEnv K) : Prop where
  C1 : e.C1.shape = [dim 20, dim 21]
  T1 : e.T1.shape = [dim 21, dim 6 * dim 10, dim 22]
  C2 : e.C2.shape = [dim 22, dim 23]
  T2 : e.T2.shape = [dim 23, dim 9 * dim 13, dim 24]
  C3 : e.C3.shape = [dim 24, dim 25]
  T3 : e.T3.shape = [dim 8 * dim 12, dim 26, dim 25]
  C4 : e.C4.shape = [dim 27, dim 26]
  T4 : e.T4.shape = [dim 20, dim 27, dim 7 * dim 11]

/-- The summand of the network. -/
def bodyN (dim : Nat → Nat) (e : SiteEnv K) (F : (Nat → Nat) → K) (σ : Nat → Nat) : K :=
  e.C1.val [σ 20, σ 21] * e.T1.val [σ 21, gidx dim σ [6, 10], σ 22] * e.C2.val [σ 22, σ 23] * e.T2.val [σ 23, gidx dim σ [9, 13], σ 24] * e.C3.val [σ 24, σ 25] *
    e.T3.val [gidx dim σ [8, 12], σ 26, σ 25] * e.C4.val [σ 27, σ 26] * e.T4.val [σ 20, σ 27, gidx dim σ [7, 11]] * F σ

def allN : List Nat := [0, 1, 2, 3, 4, 5, 6, 7, 8, 9, 10, 11, 12, 13, 20, 21, 22, 23, 24, 25, 26, 27]

def innerN (os : List Nat) : List Nat := [6, 7, 8, 9, 10, 11, 12, 13, 20, 21, 22, 23, 24, 25, 26, 27] ++ [0, 1, 2].filter (· ∉ os)

theorem oldN_denotes (dim : Nat → Nat) (e : SiteEnv K) (h : FitsN dim e) (p : Nat) (A : Tensor K) (os : List Nat) (hos : os ∈ subsets) (hne : os ≠ []) (hp : ∀ l < 6, dim l = p)
    (hA : A.shape = [p ^ 3, dim 6, dim 7, dim 8, dim 9]) (h1 : dim 10 = dim 6) (h2 : dim 11 = dim 7) (h3 : dim 12 = dim 8) (h4 : dim 13 = dim 9) :
    ∃ a X R, doubleLayer p A os = some a ∧ dl1x1 e a = some X ∧ view (List.replicate (2 * os.length) p) X = some R ∧
      Denotes dim R (singles (os ++ os.map (3 + ·))) (innerN os) allN
        (bodyN dim e (fun σ => A.val [gidx dim σ [0, 1, 2], σ 6, σ 7, σ 8, σ 9] * star (A.val [gidx dim σ (braL os), σ 10, σ 11, σ 12, σ 13]))) := by
  obtain ⟨a, ea, qa⟩ := layer_denotes dim p A os hos hp hA h1 h2 h3 h4
  obtain ⟨hC1, hT1, hC2, hT2, hC3, hT3, hC4, hT4⟩ := h
  have dC1 := Denotes.leaf dim e.C1 [[20], [21]] (by simp [hC1])
  have dT1 := Denotes.leaf dim e.T1 [[21], [6, 10], [22]] (by simp [hT1, gdim])
  have dC2 := Denotes.leaf dim e.C2 [[22], [23]] (by simp [hC2])
  have dT2 := Denotes.leaf dim e.T2 [[23], [9, 13], [24]] (by simp [hT2, gdim])
  have dC3 := Denotes.leaf dim e.C3 [[24], [25]] (by simp [hC3])
  have dT3 := Denotes.leaf dim e.T3 [[8, 12], [26], [25]] (by simp [hT3, gdim])
  have dC4 := Denotes.leaf dim e.C4 [[27], [26]] (by simp [hC4])
  have dT4 := Denotes.leaf dim e.T4 [[20], [27], [7, 11]] (by simp [hT4, gdim])
  obtain ⟨x1, e1, q1⟩ := Denotes.tensordot dC1 dT4 [0] [0] (dotOK_iff (by decide))
  obtain ⟨x2, e2, q2⟩ := Denotes.tensordot q1 dC4 [1] [0] (dotOK_iff (by decide))
  obtain ⟨x3, e3, q3⟩ := Denotes.tensordot q2 dT3 [2] [1] (dotOK_iff (by decide))
  have hd := fun l (hl : l < 6) => hp l hl
  have p0 := hp 0 (by omega)
  have p1 := hp 1 (by omega)
  have p2 := hp 2 (by omega)
  have p3 := hp 3 (by omega)
  have p4 := hp 4 (by omega)
  have p5 := hp 5 (by omega)
  simp only [subsets, List.mem_cons, List.not_mem_nil, or_false] at hos
  rcases hos with rfl | rfl | rfl | rfl | rfl | rfl | rfl | rfl
  · exact absurd rfl hne
  all_goals
    obtain ⟨x4, e4, q4⟩ := Denotes.tensordot q3 qa [1, 2] [1, 2] (dotOK_iff (by decide))
    obtain ⟨x5, e5, q5⟩ := Denotes.tensordot dT1 q4 [0, 1] [0, 2] (dotOK_iff (by decide))
    obtain ⟨x6, e6, q6⟩ := Denotes.tensordot dC2 q5 [0] [0] (dotOK_iff (by decide))
    obtain ⟨x7, e7, q7⟩ := Denotes.tensordot dT2 q6 [0, 1] [0, 2] (dotOK_iff (by decide))
    obtain ⟨x8, e8, q8⟩ := Denotes.tensordot q7 dC3 [0, 1] [0, 1] (dotOK_iff (by decide))
  · obtain ⟨x9, e9, q9⟩ := Denotes.view q8 (singles [0, 3]) (List.replicate 2 p) (by decide) (by simp [singles, gdim, p0, p3])
    refine ⟨a, x8, x9, ea, by simp [dl1x1, e1, e2, e3, e4, e5, e6, e7, e8], e9, Denotes.congr q9 (by decide) (by decide) ?_⟩
    intro σ; simp [bodyN]; ring
  · obtain ⟨x9, e9, q9⟩ := Denotes.view q8 (singles [1, 4]) (List.replicate 2 p) (by decide) (by simp [singles, gdim, p1, p4])
    refine ⟨a, x8, x9, ea, by simp [dl1x1, e1, e2, e3, e4, e5, e6, e7, e8], e9, Denotes.congr q9 (by decide) (by decide) ?_⟩
    intro σ; simp [bodyN]; ring
  · obtain ⟨x9, e9, q9⟩ := Denotes.view q8 (singles [2, 5]) (List.replicate 2 p) (by decide) (by simp [singles, gdim, p2, p5])
    refine ⟨a, x8, x9, ea, by simp [dl1x1, e1, e2, e3, e4, e5, e6, e7, e8], e9, Denotes.congr q9 (by decide) (by decide) ?_⟩
    intro σ; simp [bodyN]; ring
  · obtain ⟨x9, e9, q9⟩ := Denotes.view q8 (singles [0, 1, 3, 4]) (List.replicate 4 p) (by decide) (by simp [singles, gdim, p0, p1, p3, p4])
    refine ⟨a, x8, x9, ea, by simp [dl1x1, e1, e2, e3, e4, e5, e6, e7, e8], e9, Denotes.congr q9 (by decide) (by decide) ?_⟩
    intro σ; simp [bodyN]; ring
  · obtain ⟨x9, e9, q9⟩ := Denotes.view q8 (singles [0, 2, 3, 5]) (List.replicate 4 p) (by decide) (by simp [singles, gdim, p0, p2, p3, p5])
    refine ⟨a, x8, x9, ea, by simp [dl1x1, e1, e2, e3, e4, e5, e6, e7, e8], e9, Denotes.congr q9 (by decide) (by decide) ?_⟩
    intro σ; simp [bodyN]; ring
  · obtain ⟨x9, e9, q9⟩ := Denotes.view q8 (singles [1, 2, 4, 5]) (List.replicate 4 p) (by decide) (by simp [singles, gdim, p1, p2, p4, p5])
    refine ⟨a, x8, x9, ea, by simp [dl1x1, e1, e2, e3, e4, e5, e6, e7, e8], e9, Denotes.congr q9 (by decide) (by decide) ?_⟩
    intro σ; simp [bodyN]; ring
  · obtain ⟨x9, e9, q9⟩ := Denotes.view q8 (singles [0, 1, 2, 3, 4, 5]) (List.replicate 6 p) (by decide) (by simp [singles, gdim, p0, p1, p2, p3, p4, p5])
    refine ⟨a, x8, x9, ea, by simp [dl1x1, e1, e2, e3, e4, e5, e6, e7, e8], e9, Denotes.congr q9 (by decide) (by decide) ?_⟩
    intro σ; simp [bodyN]; ring

/-- The view of the site tensor holds the entries of the scrambled one. -/
theorem view_scrambled (p d1 d2 d3 d4 : Nat) (A : Tensor K) (hA : A.shape = [p ^ 3, d1, d2, d3, d4]) :
    ∃ B, view (A.shape.drop 1 ++ [p, p, p]) A = some B ∧ B.shape = [d1, d2, d3, d4, p, p, p] ∧
      ∀ U L D R s0 s1 s2 : Nat, B.val [U, L, D, R, s0, s1, s2] = (Spec.scrambled A).val [s0 * (p * p) + (s1 * p + s2), U, L, D, R] := by
  unfold view
  rw [if_pos (by simp [hA]; ring)]
  refine ⟨_, rfl, by simp [hA], fun U L D R s0 s1 s2 => ?_⟩
  simp only [Spec.scrambled]
  refine congrArg (fun n => A.val (unravel A.shape n)) ?_
  simp [hA, ravel]
  ring

theorem newN_denotes (dim : Nat → Nat) (e : SiteEnv K) (h : FitsN dim e) (p : Nat) (A : Tensor K) (os : List Nat) (hos : os ∈ subsets) (hne : os ≠ []) (hp : ∀ l < 6, dim l = p)
    (hA : A.shape = [p ^ 3, dim 6, dim 7, dim 8, dim 9]) (h1 : dim 10 = dim 6) (h2 : dim 11 = dim 7) (h3 : dim 12 = dim 8) (h4 : dim 13 = dim 9) :
    ∃ R, net1x1 e p A os = some R ∧ Denotes dim R (singles (os ++ os.map (3 + ·))) (innerN os) allN
        (bodyN dim e (fun σ => (Spec.scrambled A).val [gidx dim σ [0, 1, 2], σ 6, σ 7, σ 8, σ 9] * star ((Spec.scrambled A).val [gidx dim σ (braL os), σ 10, σ 11, σ 12, σ 13]))) := by
  obtain ⟨B, eB, sB, vB⟩ := view_scrambled p _ _ _ _ A hA
  obtain ⟨hC1, hT1, hC2, hT2, hC3, hT3, hC4, hT4⟩ := h
  have p0 := hp 0 (by omega)
  have p1 := hp 1 (by omega)
  have p2 := hp 2 (by omega)
  have p3 := hp 3 (by omega)
  have p4 := hp 4 (by omega)
  have p5 := hp 5 (by omega)
  have dC1 := Denotes.leaf dim e.C1 [[20], [21]] (by simp [hC1])
  have dT1 := Denotes.leaf dim e.T1 [[21], [6, 10], [22]] (by simp [hT1, gdim])
  have dC2 := Denotes.leaf dim e.C2 [[22], [23]] (by simp [hC2])
  have dT2 := Denotes.leaf dim e.T2 [[23], [9, 13], [24]] (by simp [hT2, gdim])
  have dC3 := Denotes.leaf dim e.C3 [[24], [25]] (by simp [hC3])
  have dT3 := Denotes.leaf dim e.T3 [[8, 12], [26], [25]] (by simp [hT3, gdim])
  have dC4 := Denotes.leaf dim e.C4 [[27], [26]] (by simp [hC4])
  have dT4 := Denotes.leaf dim e.T4 [[20], [27], [7, 11]] (by simp [hT4, gdim])
  have dB := Denotes.leaf dim B [[6], [7], [8], [9], [0], [1], [2]] (by simp [sB, p0, p1, p2])
  obtain ⟨x1, e1, q1⟩ := Denotes.tensordot dC1 dT1 [1] [0] (dotOK_iff (by decide))
  obtain ⟨x2, e2, q2⟩ := Denotes.tensordot dC4 dT4 [0] [1] (dotOK_iff (by decide))
  obtain ⟨x3, e3, q3⟩ := Denotes.tensordot q2 dT3 [0] [1] (dotOK_iff (by decide))
  obtain ⟨x4, e4, q4⟩ := Denotes.view q3 [[20], [7], [11], [8], [12], [25]] [e.T4.size 0, B.size 1, B.size 1, B.size 2, B.size 2, e.T3.size 2] (by decide)
    (by simp [size, sB, hT4, hT3, gdim, h2, h3])
  obtain ⟨x5, e5, q5⟩ := Denotes.tensordot q4 dB [1, 3] [1, 2] (dotOK_iff (by decide))
  obtain ⟨w, ew, qw⟩ := Denotes.tensordot dC2 dT2 [1] [0] (dotOK_iff (by decide))
  simp only [subsets, List.mem_cons, List.not_mem_nil, or_false] at hos
  rcases hos with rfl | rfl | rfl | rfl | rfl | rfl | rfl | rfl
  · exact absurd rfl hne
  · have dB' := Denotes.conj (Denotes.leaf dim B [[10], [11], [12], [13], [3], [1], [2]] (by simp [sB, h1, h2, h3, h4, p0, p1, p2, p3, p4, p5]))
    obtain ⟨x6, e6, q6⟩ := Denotes.tensordot q5 dB' [1, 2, 7, 8] [1, 2, 5, 6] (dotOK_iff (by decide))
    obtain ⟨x7, e7, q7⟩ := Denotes.permute q6 [0, 2, 5, 1, 3, 6, 4, 7] (by decide)
    obtain ⟨x8, e8, q8⟩ := Denotes.view q7 [[20], [6, 10], [25], [9, 13], [0, 3]] [e.T4.size 0, B.size 0 ^ 2, e.T3.size 2, B.size 3 ^ 2, p ^ 2] (by decide)
      (by simp [size, sB, hT4, hT3, gdim, h1, h4, p0, p1, p2, p3, p4, p5]; ring_nf; simp)
    obtain ⟨x9, e9, q9⟩ := Denotes.tensordot q1 q8 [0, 1] [0, 1] (dotOK_iff (by decide))
    obtain ⟨x10, e10, q10⟩ := Denotes.tensordot qw q9 [0, 1] [0, 2] (dotOK_iff (by decide))
    obtain ⟨x11, e11, q11⟩ := Denotes.tensordot q10 dC3 [0, 1] [0, 1] (dotOK_iff (by decide))
    obtain ⟨x12, e12, q12⟩ := Denotes.view q11 (singles [0, 3]) (List.replicate 2 p) (by decide) (by simp [singles, gdim, p0, p1, p2, p3, p4, p5])
    refine ⟨x12, ?_, Denotes.congr q12 (by decide) (by decide) ?_⟩
    · have t : ([0, 1, 2].filter (· ∉ [0]) : List Nat) = [1, 2] := by decide
      simp only [net1x1, t, e1, e2, e3, eB, e4, e5, Option.bind_eq_bind, Option.bind_some]
      refine (congrArg (· >>= _) e6).trans ?_
      show (permute _ x6 >>= _) = _
      refine (congrArg (· >>= _) e7).trans ?_
      show (view _ x7 >>= _) = _
      refine (congrArg (· >>= _) e8).trans ?_
      show (tensordot _ _ x1 x8 >>= _) = _
      rw [e9]
      show (tensordot _ _ e.C2 e.T2 >>= _) = _
      rw [ew]
      show (tensordot _ _ w x9 >>= _) = _
      rw [e10]
      show (tensordot _ _ x10 e.C3 >>= _) = _
      rw [e11]
      exact e12
    · intro σ
      have g : ∀ i j k, (i = 0 ∨ i = 3) → (j = 1 ∨ j = 4) → (k = 2 ∨ k = 5) → gidx dim σ [i, j, k] = σ i * (p * p) + (σ j * p + σ k) := by
        intro i j k hi hj hk
        rcases hi with rfl | rfl <;> rcases hj with rfl | rfl <;> rcases hk with rfl | rfl <;> simp [gidx, ravel, p0, p1, p2, p3, p4, p5]
      have hb : braL [0] = [3, 1, 2] := by decide
      simp only [bodyN, hb, g _ _ _ (.inl rfl) (.inl rfl) (.inl rfl), g 3 1 2 (by decide) (by decide) (by decide)]
      rw [← vB, ← vB]
      simp
      ring
  · have dB' := Denotes.conj (Denotes.leaf dim B [[10], [11], [12], [13], [0], [4], [2]] (by simp [sB, h1, h2, h3, h4, p0, p1, p2, p3, p4, p5]))
    obtain ⟨x6, e6, q6⟩ := Denotes.tensordot q5 dB' [1, 2, 6, 8] [1, 2, 4, 6] (dotOK_iff (by decide))
    obtain ⟨x7, e7, q7⟩ := Denotes.permute q6 [0, 2, 5, 1, 3, 6, 4, 7] (by decide)
    obtain ⟨x8, e8, q8⟩ := Denotes.view q7 [[20], [6, 10], [25], [9, 13], [1, 4]] [e.T4.size 0, B.size 0 ^ 2, e.T3.size 2, B.size 3 ^ 2, p ^ 2] (by decide)
      (by simp [size, sB, hT4, hT3, gdim, h1, h4, p0, p1, p2, p3, p4, p5]; ring_nf; simp)
    obtain ⟨x9, e9, q9⟩ := Denotes.tensordot q1 q8 [0, 1] [0, 1] (dotOK_iff (by decide))
    obtain ⟨x10, e10, q10⟩ := Denotes.tensordot qw q9 [0, 1] [0, 2] (dotOK_iff (by decide))
    obtain ⟨x11, e11, q11⟩ := Denotes.tensordot q10 dC3 [0, 1] [0, 1] (dotOK_iff (by decide))
    obtain ⟨x12, e12, q12⟩ := Denotes.view q11 (singles [1, 4]) (List.replicate 2 p) (by decide) (by simp [singles, gdim, p0, p1, p2, p3, p4, p5])
    refine ⟨x12, ?_, Denotes.congr q12 (by decide) (by decide) ?_⟩
    · have t : ([0, 1, 2].filter (· ∉ [1]) : List Nat) = [0, 2] := by decide
      simp only [net1x1, t, e1, e2, e3, eB, e4, e5, Option.bind_eq_bind, Option.bind_some]
      refine (congrArg (· >>= _) e6).trans ?_
      show (permute _ x6 >>= _) = _
      refine (congrArg (· >>= _) e7).trans ?_
      show (view _ x7 >>= _) = _
      refine (congrArg (· >>= _) e8).trans ?_
      show (tensordot _ _ x1 x8 >>= _) = _
      rw [e9]
      show (tensordot _ _ e.C2 e.T2 >>= _) = _
      rw [ew]
      show (tensordot _ _ w x9 >>= _) = _
      rw [e10]
      show (tensordot _ _ x10 e.C3 >>= _) = _
      rw [e11]
      exact e12
    · intro σ
      have g : ∀ i j k, (i = 0 ∨ i = 3) → (j = 1 ∨ j = 4) → (k = 2 ∨ k = 5) → gidx dim σ [i, j, k] = σ i * (p * p) + (σ j * p + σ k) := by
        intro i j k hi hj hk
        rcases hi with rfl | rfl <;> rcases hj with rfl | rfl <;> rcases hk with rfl | rfl <;> simp [gidx, ravel, p0, p1, p2, p3, p4, p5]
      have hb : braL [1] = [0, 4, 2] := by decide
      simp only [bodyN, hb, g _ _ _ (.inl rfl) (.inl rfl) (.inl rfl), g 0 4 2 (by decide) (by decide) (by decide)]
      rw [← vB, ← vB]
      simp
      ring
  · have dB' := Denotes.conj (Denotes.leaf dim B [[10], [11], [12], [13], [0], [1], [5]] (by simp [sB, h1, h2, h3, h4, p0, p1, p2, p3, p4, p5]))
    obtain ⟨x6, e6, q6⟩ := Denotes.tensordot q5 dB' [1, 2, 6, 7] [1, 2, 4, 5] (dotOK_iff (by decide))
    obtain ⟨x7, e7, q7⟩ := Denotes.permute q6 [0, 2, 5, 1, 3, 6, 4, 7] (by decide)
    obtain ⟨x8, e8, q8⟩ := Denotes.view q7 [[20], [6, 10], [25], [9, 13], [2, 5]] [e.T4.size 0, B.size 0 ^ 2, e.T3.size 2, B.size 3 ^ 2, p ^ 2] (by decide)
      (by simp [size, sB, hT4, hT3, gdim, h1, h4, p0, p1, p2, p3, p4, p5]; ring_nf; simp)
    obtain ⟨x9, e9, q9⟩ := Denotes.tensordot q1 q8 [0, 1] [0, 1] (dotOK_iff (by decide))
    obtain ⟨x10, e10, q10⟩ := Denotes.tensordot qw q9 [0, 1] [0, 2] (dotOK_iff (by decide))
    obtain ⟨x11, e11, q11⟩ := Denotes.tensordot q10 dC3 [0, 1] [0, 1] (dotOK_iff (by decide))
    obtain ⟨x12, e12, q12⟩ := Denotes.view q11 (singles [2, 5]) (List.replicate 2 p) (by decide) (by simp [singles, gdim, p0, p1, p2, p3, p4, p5])
    refine ⟨x12, ?_, Denotes.congr q12 (by decide) (by decide) ?_⟩
    · have t : ([0, 1, 2].filter (· ∉ [2]) : List Nat) = [0, 1] := by decide
      simp only [net1x1, t, e1, e2, e3, eB, e4, e5, Option.bind_eq_bind, Option.bind_some]
      refine (congrArg (· >>= _) e6).trans ?_
      show (permute _ x6 >>= _) = _
      refine (congrArg (· >>= _) e7).trans ?_
      show (view _ x7 >>= _) = _
      refine (congrArg (· >>= _) e8).trans ?_
      show (tensordot _ _ x1 x8 >>= _) = _
      rw [e9]
      show (tensordot _ _ e.C2 e.T2 >>= _) = _
      rw [ew]
      show (tensordot _ _ w x9 >>= _) = _
      rw [e10]
      show (tensordot _ _ x10 e.C3 >>= _) = _
      rw [e11]
      exact e12
    · intro σ
      have g : ∀ i j k, (i = 0 ∨ i = 3) → (j = 1 ∨ j = 4) → (k = 2 ∨ k = 5) → gidx dim σ [i, j, k] = σ i * (p * p) + (σ j * p + σ k) := by
        intro i j k hi hj hk
        rcases hi with rfl | rfl <;> rcases hj with rfl | rfl <;> rcases hk with rfl | rfl <;> simp [gidx, ravel, p0, p1, p2, p3, p4, p5]
      have hb : braL [2] = [0, 1, 5] := by decide
      simp only [bodyN, hb, g _ _ _ (.inl rfl) (.inl rfl) (.inl rfl), g 0 1 5 (by decide) (by decide) (by decide)]
      rw [← vB, ← vB]
      simp
      ring
  · have dB' := Denotes.conj (Denotes.leaf dim B [[10], [11], [12], [13], [3], [4], [2]] (by simp [sB, h1, h2, h3, h4, p0, p1, p2, p3, p4, p5]))
    obtain ⟨x6, e6, q6⟩ := Denotes.tensordot q5 dB' [1, 2, 8] [1, 2, 6] (dotOK_iff (by decide))
    obtain ⟨x7, e7, q7⟩ := Denotes.permute q6 [0, 2, 6, 1, 3, 7, 4, 5, 8, 9] (by decide)
    obtain ⟨x8, e8, q8⟩ := Denotes.view q7 [[20], [6, 10], [25], [9, 13], [0, 1, 3, 4]] [e.T4.size 0, B.size 0 ^ 2, e.T3.size 2, B.size 3 ^ 2, p ^ 4] (by decide)
      (by simp [size, sB, hT4, hT3, gdim, h1, h4, p0, p1, p2, p3, p4, p5]; ring_nf; simp)
    obtain ⟨x9, e9, q9⟩ := Denotes.tensordot q1 q8 [0, 1] [0, 1] (dotOK_iff (by decide))
    obtain ⟨x10, e10, q10⟩ := Denotes.tensordot qw q9 [0, 1] [0, 2] (dotOK_iff (by decide))
    obtain ⟨x11, e11, q11⟩ := Denotes.tensordot q10 dC3 [0, 1] [0, 1] (dotOK_iff (by decide))
    obtain ⟨x12, e12, q12⟩ := Denotes.view q11 (singles [0, 1, 3, 4]) (List.replicate 4 p) (by decide) (by simp [singles, gdim, p0, p1, p2, p3, p4, p5])
    refine ⟨x12, ?_, Denotes.congr q12 (by decide) (by decide) ?_⟩
    · have t : ([0, 1, 2].filter (· ∉ [0, 1]) : List Nat) = [2] := by decide
      simp only [net1x1, t, e1, e2, e3, eB, e4, e5, Option.bind_eq_bind, Option.bind_some]
      refine (congrArg (· >>= _) e6).trans ?_
      show (permute _ x6 >>= _) = _
      refine (congrArg (· >>= _) e7).trans ?_
      show (view _ x7 >>= _) = _
      refine (congrArg (· >>= _) e8).trans ?_
      show (tensordot _ _ x1 x8 >>= _) = _
      rw [e9]
      show (tensordot _ _ e.C2 e.T2 >>= _) = _
      rw [ew]
      show (tensordot _ _ w x9 >>= _) = _
      rw [e10]
      show (tensordot _ _ x10 e.C3 >>= _) = _
      rw [e11]
      exact e12
    · intro σ
      have g : ∀ i j k, (i = 0 ∨ i = 3) → (j = 1 ∨ j = 4) → (k = 2 ∨ k = 5) → gidx dim σ [i, j, k] = σ i * (p * p) + (σ j * p + σ k) := by
        intro i j k hi hj hk
        rcases hi with rfl | rfl <;> rcases hj with rfl | rfl <;> rcases hk with rfl | rfl <;> simp [gidx, ravel, p0, p1, p2, p3, p4, p5]
      have hb : braL [0, 1] = [3, 4, 2] := by decide
      simp only [bodyN, hb, g _ _ _ (.inl rfl) (.inl rfl) (.inl rfl), g 3 4 2 (by decide) (by decide) (by decide)]
      rw [← vB, ← vB]
      simp
      ring
  · have dB' := Denotes.conj (Denotes.leaf dim B [[10], [11], [12], [13], [3], [1], [5]] (by simp [sB, h1, h2, h3, h4, p0, p1, p2, p3, p4, p5]))
    obtain ⟨x6, e6, q6⟩ := Denotes.tensordot q5 dB' [1, 2, 7] [1, 2, 5] (dotOK_iff (by decide))
    obtain ⟨x7, e7, q7⟩ := Denotes.permute q6 [0, 2, 6, 1, 3, 7, 4, 5, 8, 9] (by decide)
    obtain ⟨x8, e8, q8⟩ := Denotes.view q7 [[20], [6, 10], [25], [9, 13], [0, 2, 3, 5]] [e.T4.size 0, B.size 0 ^ 2, e.T3.size 2, B.size 3 ^ 2, p ^ 4] (by decide)
      (by simp [size, sB, hT4, hT3, gdim, h1, h4, p0, p1, p2, p3, p4, p5]; ring_nf; simp)
    obtain ⟨x9, e9, q9⟩ := Denotes.tensordot q1 q8 [0, 1] [0, 1] (dotOK_iff (by decide))
    obtain ⟨x10, e10, q10⟩ := Denotes.tensordot qw q9 [0, 1] [0, 2] (dotOK_iff (by decide))
    obtain ⟨x11, e11, q11⟩ := Denotes.tensordot q10 dC3 [0, 1] [0, 1] (dotOK_iff (by decide))
    obtain ⟨x12, e12, q12⟩ := Denotes.view q11 (singles [0, 2, 3, 5]) (List.replicate 4 p) (by decide) (by simp [singles, gdim, p0, p1, p2, p3, p4, p5])
    refine ⟨x12, ?_, Denotes.congr q12 (by decide) (by decide) ?_⟩
    · have t : ([0, 1, 2].filter (· ∉ [0, 2]) : List Nat) = [1] := by decide
      simp only [net1x1, t, e1, e2, e3, eB, e4, e5, Option.bind_eq_bind, Option.bind_some]
      refine (congrArg (· >>= _) e6).trans ?_
      show (permute _ x6 >>= _) = _
      refine (congrArg (· >>= _) e7).trans ?_
      show (view _ x7 >>= _) = _
      refine (congrArg (· >>= _) e8).trans ?_
      show (tensordot _ _ x1 x8 >>= _) = _
      rw [e9]
      show (tensordot _ _ e.C2 e.T2 >>= _) = _
      rw [ew]
      show (tensordot _ _ w x9 >>= _) = _
      rw [e10]
      show (tensordot _ _ x10 e.C3 >>= _) = _
      rw [e11]
      exact e12
    · intro σ
      have g : ∀ i j k, (i = 0 ∨ i = 3) → (j = 1 ∨ j = 4) → (k = 2 ∨ k = 5) → gidx dim σ [i, j, k] = σ i * (p * p) + (σ j * p + σ k) := by
        intro i j k hi hj hk
        rcases hi with rfl | rfl <;> rcases hj with rfl | rfl <;> rcases hk with rfl | rfl <;> simp [gidx, ravel, p0, p1, p2, p3, p4, p5]
      have hb : braL [0, 2] = [3, 1, 5] := by decide
      simp only [bodyN, hb, g _ _ _ (.inl rfl) (.inl rfl) (.inl rfl), g 3 1 5 (by decide) (by decide) (by decide)]
      rw [← vB, ← vB]
      simp
      ring
  · have dB' := Denotes.conj (Denotes.leaf dim B [[10], [11], [12], [13], [0], [4], [5]] (by simp [sB, h1, h2, h3, h4, p0, p1, p2, p3, p4, p5]))
    obtain ⟨x6, e6, q6⟩ := Denotes.tensordot q5 dB' [1, 2, 6] [1, 2, 4] (dotOK_iff (by decide))
    obtain ⟨x7, e7, q7⟩ := Denotes.permute q6 [0, 2, 6, 1, 3, 7, 4, 5, 8, 9] (by decide)
    obtain ⟨x8, e8, q8⟩ := Denotes.view q7 [[20], [6, 10], [25], [9, 13], [1, 2, 4, 5]] [e.T4.size 0, B.size 0 ^ 2, e.T3.size 2, B.size 3 ^ 2, p ^ 4] (by decide)
      (by simp [size, sB, hT4, hT3, gdim, h1, h4, p0, p1, p2, p3, p4, p5]; ring_nf; simp)
    obtain ⟨x9, e9, q9⟩ := Denotes.tensordot q1 q8 [0, 1] [0, 1] (dotOK_iff (by decide))
    obtain ⟨x10, e10, q10⟩ := Denotes.tensordot qw q9 [0, 1] [0, 2] (dotOK_iff (by decide))
    obtain ⟨x11, e11, q11⟩ := Denotes.tensordot q10 dC3 [0, 1] [0, 1] (dotOK_iff (by decide))
    obtain ⟨x12, e12, q12⟩ := Denotes.view q11 (singles [1, 2, 4, 5]) (List.replicate 4 p) (by decide) (by simp [singles, gdim, p0, p1, p2, p3, p4, p5])
    refine ⟨x12, ?_, Denotes.congr q12 (by decide) (by decide) ?_⟩
    · have t : ([0, 1, 2].filter (· ∉ [1, 2]) : List Nat) = [0] := by decide
      simp only [net1x1, t, e1, e2, e3, eB, e4, e5, Option.bind_eq_bind, Option.bind_some]
      refine (congrArg (· >>= _) e6).trans ?_
      show (permute _ x6 >>= _) = _
      refine (congrArg (· >>= _) e7).trans ?_
      show (view _ x7 >>= _) = _
      refine (congrArg (· >>= _) e8).trans ?_
      show (tensordot _ _ x1 x8 >>= _) = _
      rw [e9]
      show (tensordot _ _ e.C2 e.T2 >>= _) = _
      rw [ew]
      show (tensordot _ _ w x9 >>= _) = _
      rw [e10]
      show (tensordot _ _ x10 e.C3 >>= _) = _
      rw [e11]
      exact e12
    · intro σ
      have g : ∀ i j k, (i = 0 ∨ i = 3) → (j = 1 ∨ j = 4) → (k = 2 ∨ k = 5) → gidx dim σ [i, j, k] = σ i * (p * p) + (σ j * p + σ k) := by
        intro i j k hi hj hk
        rcases hi with rfl | rfl <;> rcases hj with rfl | rfl <;> rcases hk with rfl | rfl <;> simp [gidx, ravel, p0, p1, p2, p3, p4, p5]
      have hb : braL [1, 2] = [0, 4, 5] := by decide
      simp only [bodyN, hb, g _ _ _ (.inl rfl) (.inl rfl) (.inl rfl), g 0 4 5 (by decide) (by decide) (by decide)]
      rw [← vB, ← vB]
      simp
      ring
  · have dB' := Denotes.conj (Denotes.leaf dim B [[10], [11], [12], [13], [3], [4], [5]] (by simp [sB, h1, h2, h3, h4, p0, p1, p2, p3, p4, p5]))
    obtain ⟨x6, e6, q6⟩ := Denotes.tensordot q5 dB' [1, 2] [1, 2] (dotOK_iff (by decide))
    obtain ⟨x7, e7, q7⟩ := Denotes.permute q6 [0, 2, 7, 1, 3, 8, 4, 5, 6, 9, 10, 11] (by decide)
    obtain ⟨x8, e8, q8⟩ := Denotes.view q7 [[20], [6, 10], [25], [9, 13], [0, 1, 2, 3, 4, 5]] [e.T4.size 0, B.size 0 ^ 2, e.T3.size 2, B.size 3 ^ 2, p ^ 6] (by decide)
      (by simp [size, sB, hT4, hT3, gdim, h1, h4, p0, p1, p2, p3, p4, p5]; ring_nf; simp)
    obtain ⟨x9, e9, q9⟩ := Denotes.tensordot q1 q8 [0, 1] [0, 1] (dotOK_iff (by decide))
    obtain ⟨x10, e10, q10⟩ := Denotes.tensordot qw q9 [0, 1] [0, 2] (dotOK_iff (by decide))
    obtain ⟨x11, e11, q11⟩ := Denotes.tensordot q10 dC3 [0, 1] [0, 1] (dotOK_iff (by decide))
    obtain ⟨x12, e12, q12⟩ := Denotes.view q11 (singles [0, 1, 2, 3, 4, 5]) (List.replicate 6 p) (by decide) (by simp [singles, gdim, p0, p1, p2, p3, p4, p5])
    refine ⟨x12, ?_, Denotes.congr q12 (by decide) (by decide) ?_⟩
    · have t : ([0, 1, 2].filter (· ∉ [0, 1, 2]) : List Nat) = [] := by decide
      simp only [net1x1, t, e1, e2, e3, eB, e4, e5, Option.bind_eq_bind, Option.bind_some]
      refine (congrArg (· >>= _) e6).trans ?_
      show (permute _ x6 >>= _) = _
      refine (congrArg (· >>= _) e7).trans ?_
      show (view _ x7 >>= _) = _
      refine (congrArg (· >>= _) e8).trans ?_
      show (tensordot _ _ x1 x8 >>= _) = _
      rw [e9]
      show (tensordot _ _ e.C2 e.T2 >>= _) = _
      rw [ew]
      show (tensordot _ _ w x9 >>= _) = _
      rw [e10]
      show (tensordot _ _ x10 e.C3 >>= _) = _
      rw [e11]
      exact e12
    · intro σ
      have g : ∀ i j k, (i = 0 ∨ i = 3) → (j = 1 ∨ j = 4) → (k = 2 ∨ k = 5) → gidx dim σ [i, j, k] = σ i * (p * p) + (σ j * p + σ k) := by
        intro i j k hi hj hk
        rcases hi with rfl | rfl <;> rcases hj with rfl | rfl <;> rcases hk with rfl | rfl <;> simp [gidx, ravel, p0, p1, p2, p3, p4, p5]
      have hb : braL [0, 1, 2] = [3, 4, 5] := by decide
      simp only [bodyN, hb, g _ _ _ (.inl rfl) (.inl rfl) (.inl rfl), g 3 4 5 (by decide) (by decide) (by decide)]
      rw [← vB, ← vB]
      simp
      ring

end Verif.KagomeRdm
