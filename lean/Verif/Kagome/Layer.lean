import Verif.Kagome.Net
/-
Entries of the double-layer tensors with some of the three spins open.
-/
namespace Verif.KagomeRdm
open Tensor Corner Rdm
variable {K : Type} [RCLike K]

/-- The physical labels of the bra. -/
def braL (os : List Nat) : List Nat := [0, 1, 2].map (fun x => if x ∈ os then 3 + x else x)

/-- The group of open labels. -/
def openG (os : List Nat) : List (List Nat) := if os = [] then [] else [os ++ os.map (3 + ·)]

/-- The lists of spins `double_layer_a` knows. -/
def subsets : List (List Nat) := [[], [0], [1], [2], [0, 1], [0, 2], [1, 2], [0, 1, 2]]

set_option linter.unusedSimpArgs false in
theorem layer_denotes (dim : Nat → Nat) (p : Nat) (A : Tensor K) (os : List Nat) (hos : os ∈ subsets) (hp : ∀ l < 6, dim l = p)
    (hA : A.shape = [p ^ 3, dim 6, dim 7, dim 8, dim 9]) (h1 : dim 10 = dim 6) (h2 : dim 11 = dim 7) (h3 : dim 12 = dim 8) (h4 : dim 13 = dim 9) :
    ∃ a, doubleLayer p A os = some a ∧ Denotes dim a ([[6, 10], [7, 11], [8, 12], [9, 13]] ++ openG os) ([0, 1, 2].filter (· ∉ os))
      [0, 1, 2, 3, 4, 5, 6, 7, 8, 9, 10, 11, 12, 13]
      (fun σ => A.val [gidx dim σ [0, 1, 2], σ 6, σ 7, σ 8, σ 9] * star (A.val [gidx dim σ (braL os), σ 10, σ 11, σ 12, σ 13])) := by
  have p0 := hp 0 (by omega)
  have p1 := hp 1 (by omega)
  have p2 := hp 2 (by omega)
  have p3 := hp 3 (by omega)
  have p4 := hp 4 (by omega)
  have p5 := hp 5 (by omega)
  have hp3 : p ^ 3 = p * (p * p) := by ring
  have dA := Denotes.leaf dim A [[0, 1, 2], [6], [7], [8], [9]] (by simp [gdim, hA, p0, p1, p2, hp3])
  obtain ⟨B, eB, dB⟩ := dA.view (singles [0, 1, 2, 6, 7, 8, 9]) [p, p, p, A.size 1, A.size 2, A.size 3, A.size 4] (by decide)
    (by simp [singles, size, hA, p0, p1, p2])
  simp only [subsets, List.mem_cons, List.not_mem_nil, or_false] at hos
  rcases hos with rfl | rfl | rfl | rfl | rfl | rfl | rfl | rfl
  · have dA' := Denotes.leaf dim A [[0, 1, 2], [10], [11], [12], [13]] (by simp [gdim, hA, p0, p1, p2, p3, p4, p5, hp3, h1, h2, h3, h4])
    obtain ⟨B', eB', dB'⟩ := dA'.view (singles [0, 1, 2, 10, 11, 12, 13]) [p, p, p, A.size 1, A.size 2, A.size 3, A.size 4] (by decide)
      (by simp [singles, size, hA, p0, p1, p2, p3, p4, p5, h1, h2, h3, h4])
    obtain rfl : B = B' := by rw [eB] at eB'; exact Option.some.inj eB'
    obtain ⟨x1, e1, q1⟩ := Denotes.einsum' (OpsNet.cons dB (OpsNet.cons dB'.conj OpsNet.nil)) [6, 10, 7, 11, 8, 12, 9, 13] (by decide)
    obtain ⟨x2, e2, q2⟩ := q1.view [[6, 10], [7, 11], [8, 12], [9, 13]] [A.size 1 ^ 2, A.size 2 ^ 2, A.size 3 ^ 2, A.size 4 ^ 2] (by decide) (by simp [size, gdim, hA, p0, p1, p2, p3, p4, p5, h1, h2, h3, h4]; ring_nf; simp)
    refine ⟨x2, by simpa [doubleLayer, dlLabels, eB, e1] using e2, Denotes.congr (O := [[6, 10], [7, 11], [8, 12], [9, 13]]) q2 (by decide) (by decide) ?_⟩
    intro σ
    simp [braL]
  · have dA' := Denotes.leaf dim A [[3, 1, 2], [10], [11], [12], [13]] (by simp [gdim, hA, p0, p1, p2, p3, p4, p5, hp3, h1, h2, h3, h4])
    obtain ⟨B', eB', dB'⟩ := dA'.view (singles [3, 1, 2, 10, 11, 12, 13]) [p, p, p, A.size 1, A.size 2, A.size 3, A.size 4] (by decide)
      (by simp [singles, size, hA, p0, p1, p2, p3, p4, p5, h1, h2, h3, h4])
    obtain rfl : B = B' := by rw [eB] at eB'; exact Option.some.inj eB'
    obtain ⟨x1, e1, q1⟩ := Denotes.einsum' (OpsNet.cons dB (OpsNet.cons dB'.conj OpsNet.nil)) [6, 10, 7, 11, 8, 12, 9, 13, 0, 3] (by decide)
    obtain ⟨x2, e2, q2⟩ := q1.view [[6, 10], [7, 11], [8, 12], [9, 13], [0, 3]] [A.size 1 ^ 2, A.size 2 ^ 2, A.size 3 ^ 2, A.size 4 ^ 2, p ^ (2 * 1)] (by decide) (by simp [size, gdim, hA, p0, p1, p2, p3, p4, p5, h1, h2, h3, h4]; ring_nf; simp)
    refine ⟨x2, by simpa [doubleLayer, dlLabels, eB, e1] using e2, Denotes.congr (O := [[6, 10], [7, 11], [8, 12], [9, 13], [0, 3]]) q2 (by decide) (by decide) ?_⟩
    intro σ
    simp [braL]
  · have dA' := Denotes.leaf dim A [[0, 4, 2], [10], [11], [12], [13]] (by simp [gdim, hA, p0, p1, p2, p3, p4, p5, hp3, h1, h2, h3, h4])
    obtain ⟨B', eB', dB'⟩ := dA'.view (singles [0, 4, 2, 10, 11, 12, 13]) [p, p, p, A.size 1, A.size 2, A.size 3, A.size 4] (by decide)
      (by simp [singles, size, hA, p0, p1, p2, p3, p4, p5, h1, h2, h3, h4])
    obtain rfl : B = B' := by rw [eB] at eB'; exact Option.some.inj eB'
    obtain ⟨x1, e1, q1⟩ := Denotes.einsum' (OpsNet.cons dB (OpsNet.cons dB'.conj OpsNet.nil)) [6, 10, 7, 11, 8, 12, 9, 13, 1, 4] (by decide)
    obtain ⟨x2, e2, q2⟩ := q1.view [[6, 10], [7, 11], [8, 12], [9, 13], [1, 4]] [A.size 1 ^ 2, A.size 2 ^ 2, A.size 3 ^ 2, A.size 4 ^ 2, p ^ (2 * 1)] (by decide) (by simp [size, gdim, hA, p0, p1, p2, p3, p4, p5, h1, h2, h3, h4]; ring_nf; simp)
    refine ⟨x2, by simpa [doubleLayer, dlLabels, eB, e1] using e2, Denotes.congr (O := [[6, 10], [7, 11], [8, 12], [9, 13], [1, 4]]) q2 (by decide) (by decide) ?_⟩
    intro σ
    simp [braL]
  · have dA' := Denotes.leaf dim A [[0, 1, 5], [10], [11], [12], [13]] (by simp [gdim, hA, p0, p1, p2, p3, p4, p5, hp3, h1, h2, h3, h4])
    obtain ⟨B', eB', dB'⟩ := dA'.view (singles [0, 1, 5, 10, 11, 12, 13]) [p, p, p, A.size 1, A.size 2, A.size 3, A.size 4] (by decide)
      (by simp [singles, size, hA, p0, p1, p2, p3, p4, p5, h1, h2, h3, h4])
    obtain rfl : B = B' := by rw [eB] at eB'; exact Option.some.inj eB'
    obtain ⟨x1, e1, q1⟩ := Denotes.einsum' (OpsNet.cons dB (OpsNet.cons dB'.conj OpsNet.nil)) [6, 10, 7, 11, 8, 12, 9, 13, 2, 5] (by decide)
    obtain ⟨x2, e2, q2⟩ := q1.view [[6, 10], [7, 11], [8, 12], [9, 13], [2, 5]] [A.size 1 ^ 2, A.size 2 ^ 2, A.size 3 ^ 2, A.size 4 ^ 2, p ^ (2 * 1)] (by decide) (by simp [size, gdim, hA, p0, p1, p2, p3, p4, p5, h1, h2, h3, h4]; ring_nf; simp)
    refine ⟨x2, by simpa [doubleLayer, dlLabels, eB, e1] using e2, Denotes.congr (O := [[6, 10], [7, 11], [8, 12], [9, 13], [2, 5]]) q2 (by decide) (by decide) ?_⟩
    intro σ
    simp [braL]
  · have dA' := Denotes.leaf dim A [[3, 4, 2], [10], [11], [12], [13]] (by simp [gdim, hA, p0, p1, p2, p3, p4, p5, hp3, h1, h2, h3, h4])
    obtain ⟨B', eB', dB'⟩ := dA'.view (singles [3, 4, 2, 10, 11, 12, 13]) [p, p, p, A.size 1, A.size 2, A.size 3, A.size 4] (by decide)
      (by simp [singles, size, hA, p0, p1, p2, p3, p4, p5, h1, h2, h3, h4])
    obtain rfl : B = B' := by rw [eB] at eB'; exact Option.some.inj eB'
    obtain ⟨x1, e1, q1⟩ := Denotes.einsum' (OpsNet.cons dB (OpsNet.cons dB'.conj OpsNet.nil)) [6, 10, 7, 11, 8, 12, 9, 13, 0, 1, 3, 4] (by decide)
    obtain ⟨x2, e2, q2⟩ := q1.view [[6, 10], [7, 11], [8, 12], [9, 13], [0, 1, 3, 4]] [A.size 1 ^ 2, A.size 2 ^ 2, A.size 3 ^ 2, A.size 4 ^ 2, p ^ (2 * 2)] (by decide) (by simp [size, gdim, hA, p0, p1, p2, p3, p4, p5, h1, h2, h3, h4]; ring_nf; simp)
    refine ⟨x2, by simpa [doubleLayer, dlLabels, eB, e1] using e2, Denotes.congr (O := [[6, 10], [7, 11], [8, 12], [9, 13], [0, 1, 3, 4]]) q2 (by decide) (by decide) ?_⟩
    intro σ
    simp [braL]
  · have dA' := Denotes.leaf dim A [[3, 1, 5], [10], [11], [12], [13]] (by simp [gdim, hA, p0, p1, p2, p3, p4, p5, hp3, h1, h2, h3, h4])
    obtain ⟨B', eB', dB'⟩ := dA'.view (singles [3, 1, 5, 10, 11, 12, 13]) [p, p, p, A.size 1, A.size 2, A.size 3, A.size 4] (by decide)
      (by simp [singles, size, hA, p0, p1, p2, p3, p4, p5, h1, h2, h3, h4])
    obtain rfl : B = B' := by rw [eB] at eB'; exact Option.some.inj eB'
    obtain ⟨x1, e1, q1⟩ := Denotes.einsum' (OpsNet.cons dB (OpsNet.cons dB'.conj OpsNet.nil)) [6, 10, 7, 11, 8, 12, 9, 13, 0, 2, 3, 5] (by decide)
    obtain ⟨x2, e2, q2⟩ := q1.view [[6, 10], [7, 11], [8, 12], [9, 13], [0, 2, 3, 5]] [A.size 1 ^ 2, A.size 2 ^ 2, A.size 3 ^ 2, A.size 4 ^ 2, p ^ (2 * 2)] (by decide) (by simp [size, gdim, hA, p0, p1, p2, p3, p4, p5, h1, h2, h3, h4]; ring_nf; simp)
    refine ⟨x2, by simpa [doubleLayer, dlLabels, eB, e1] using e2, Denotes.congr (O := [[6, 10], [7, 11], [8, 12], [9, 13], [0, 2, 3, 5]]) q2 (by decide) (by decide) ?_⟩
    intro σ
    simp [braL]
  · have dA' := Denotes.leaf dim A [[0, 4, 5], [10], [11], [12], [13]] (by simp [gdim, hA, p0, p1, p2, p3, p4, p5, hp3, h1, h2, h3, h4])
    obtain ⟨B', eB', dB'⟩ := dA'.view (singles [0, 4, 5, 10, 11, 12, 13]) [p, p, p, A.size 1, A.size 2, A.size 3, A.size 4] (by decide)
      (by simp [singles, size, hA, p0, p1, p2, p3, p4, p5, h1, h2, h3, h4])
    obtain rfl : B = B' := by rw [eB] at eB'; exact Option.some.inj eB'
    obtain ⟨x1, e1, q1⟩ := Denotes.einsum' (OpsNet.cons dB (OpsNet.cons dB'.conj OpsNet.nil)) [6, 10, 7, 11, 8, 12, 9, 13, 1, 2, 4, 5] (by decide)
    obtain ⟨x2, e2, q2⟩ := q1.view [[6, 10], [7, 11], [8, 12], [9, 13], [1, 2, 4, 5]] [A.size 1 ^ 2, A.size 2 ^ 2, A.size 3 ^ 2, A.size 4 ^ 2, p ^ (2 * 2)] (by decide) (by simp [size, gdim, hA, p0, p1, p2, p3, p4, p5, h1, h2, h3, h4]; ring_nf; simp)
    refine ⟨x2, by simpa [doubleLayer, dlLabels, eB, e1] using e2, Denotes.congr (O := [[6, 10], [7, 11], [8, 12], [9, 13], [1, 2, 4, 5]]) q2 (by decide) (by decide) ?_⟩
    intro σ
    simp [braL]
  · have dA' := Denotes.leaf dim A [[3, 4, 5], [10], [11], [12], [13]] (by simp [gdim, hA, p0, p1, p2, p3, p4, p5, hp3, h1, h2, h3, h4])
    obtain ⟨B', eB', dB'⟩ := dA'.view (singles [3, 4, 5, 10, 11, 12, 13]) [p, p, p, A.size 1, A.size 2, A.size 3, A.size 4] (by decide)
      (by simp [singles, size, hA, p0, p1, p2, p3, p4, p5, h1, h2, h3, h4])
    obtain rfl : B = B' := by rw [eB] at eB'; exact Option.some.inj eB'
    obtain ⟨x1, e1, q1⟩ := Denotes.einsum' (OpsNet.cons dB (OpsNet.cons dB'.conj OpsNet.nil)) [6, 10, 7, 11, 8, 12, 9, 13, 0, 1, 2, 3, 4, 5] (by decide)
    obtain ⟨x2, e2, q2⟩ := q1.view [[6, 10], [7, 11], [8, 12], [9, 13], [0, 1, 2, 3, 4, 5]] [A.size 1 ^ 2, A.size 2 ^ 2, A.size 3 ^ 2, A.size 4 ^ 2, p ^ (2 * 3)] (by decide) (by simp [size, gdim, hA, p0, p1, p2, p3, p4, p5, h1, h2, h3, h4]; ring_nf; simp)
    refine ⟨x2, by simpa [doubleLayer, dlLabels, eB, e1] using e2, Denotes.congr (O := [[6, 10], [7, 11], [8, 12], [9, 13], [0, 1, 2, 3, 4, 5]]) q2 (by decide) (by decide) ?_⟩
    intro σ
    simp [braL]

/-- The index of three spins: the first is the slowest. -/
def enc (p s0 s1 s2 : Nat) : Nat := s0 * (p * p) + (s1 * p + s2)

/-- Product of ket and bra of a site tensor at physical indices `s`, `t` and fused auxiliary indices. -/
def lay (A : Tensor K) (s t U L D R : Nat) : K :=
  A.val [s, U / A.size 1, L / A.size 2, D / A.size 3, R / A.size 4] * star (A.val [t, U % A.size 1, L % A.size 2, D % A.size 3, R % A.size 4])

/-- Trace over a closed spin, or the given ket and bra of an open one. -/
def pairSum (p : Nat) (o : Option (Nat × Nat)) (g : Nat → Nat → K) : K :=
  match o with
  | none => ∑ s ∈ Finset.range p, g s s
  | some (k, b) => g k b

/-- Ket and bra of the open spins. -/
def pairOf (os : List Nat) (k b : Nat → Nat) (x : Nat) : Option (Nat × Nat) := if x ∈ os then some (k x, b x) else none

/-- The fused index of the open spins. -/
def openIdx (p : Nat) (os : List Nat) (k b : Nat → Nat) : List Nat :=
  if os = [] then [] else [ravel (List.replicate (2 * os.length) p) (os.map k ++ os.map b)]

theorem layer_val (p : Nat) (A : Tensor K) (d1 d2 d3 d4 : Nat) (os : List Nat) (hos : os ∈ subsets) (hA : A.shape = [p ^ 3, d1, d2, d3, d4]) :
    ∃ a, doubleLayer p A os = some a ∧ a.shape = [d1 * d1, d2 * d2, d3 * d3, d4 * d4] ++ (if os = [] then [] else [p ^ (2 * os.length)]) ∧
      ∀ (k b : Nat → Nat) (U L D R : Nat), (∀ x, k x < p) → (∀ x, b x < p) → U < d1 * d1 → L < d2 * d2 → D < d3 * d3 → R < d4 * d4 →
        a.val ([U, L, D, R] ++ openIdx p os k b) = pairSum p (pairOf os k b 0) (fun s0 t0 => pairSum p (pairOf os k b 1) (fun s1 t1 =>
          pairSum p (pairOf os k b 2) (fun s2 t2 => lay A (enc p s0 s1 s2) (enc p t0 t1 t2) U L D R))) := by
  let dim : Nat → Nat := fun l => if l < 6 then p else [d1, d2, d3, d4, d1, d2, d3, d4].getD (l - 6) 0
  obtain ⟨a, e, q⟩ := layer_denotes dim p A os hos (fun l hl => by simp [dim, hl]) (by simp [dim, hA]) rfl rfl rfl rfl
  refine ⟨a, e, ?_, ?_⟩
  · rw [q.shape]
    simp only [subsets, List.mem_cons, List.not_mem_nil, or_false] at hos
    rcases hos with rfl | rfl | rfl | rfl | rfl | rfl | rfl | rfl <;> simp [gdim, dim, openG] <;> ring
  · intro k b U L D R hk hb hU hL hD hR
    let σ : Nat → Nat := fun l => if l < 3 then k l else if l < 6 then b (l - 3) else [U / d1, L / d2, D / d3, R / d4, U % d1, L % d2, D % d3, R % d4].getD (l - 6) 0
    have dv : ∀ {n d : Nat}, n < d * d → n / d < d ∧ n % d < d ∧ n / d * d + n % d = n := by
      intro n d h
      have hd : 0 < d := Nat.pos_of_ne_zero (by rintro rfl; simp at h)
      exact ⟨Nat.div_lt_of_lt_mul h, Nat.mod_lt _ hd, Nat.div_add_mod' n d⟩
    have hv := q.val σ (by
      simp only [subsets, List.mem_cons, List.not_mem_nil, or_false] at hos
      have hb' := fun x => hb x
      rcases hos with rfl | rfl | rfl | rfl | rfl | rfl | rfl | rfl <;> simp [openG, σ, dim, dv hU, dv hL, dv hD, dv hR, hk, hb])
    have hg : ([[6, 10], [7, 11], [8, 12], [9, 13]] ++ openG os).map (gidx dim σ) = [U, L, D, R] ++ openIdx p os k b := by
      simp only [subsets, List.mem_cons, List.not_mem_nil, or_false] at hos
      rcases hos with rfl | rfl | rfl | rfl | rfl | rfl | rfl | rfl <;>
        simp [openG, openIdx, gidx, ravel, σ, dim, (dv hU).2.2, (dv hL).2.2, (dv hD).2.2, (dv hR).2.2, List.replicate]
    rw [hg] at hv
    rw [hv]
    simp only [subsets, List.mem_cons, List.not_mem_nil, or_false] at hos
    rcases hos with rfl | rfl | rfl | rfl | rfl | rfl | rfl | rfl <;>
      simp [sumOver, pairSum, pairOf, lay, enc, gidx, ravel, braL, σ, dim, Function.update, size, hA]

end Verif.KagomeRdm
