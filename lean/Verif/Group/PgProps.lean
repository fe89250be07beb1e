import Verif.Group.PgLemmas
import Mathlib.Algebra.BigOperators.Group.List.Basic
import Mathlib.Tactic.LinearCombination
/-
Properties C14 (projection onto A1, A2, B1), C15 (B2) and C53 (symmetrisation of a site).
-/
namespace Verif.Pg
open Spec
variable {K : Type}

theorem tensor_eta (A : Tensor K) {sh : List Nat} (h : A.shape = sh) : A = ⟨sh, A.val⟩ := by
  cases A; cases h; rfl

theorem inB5 {p D : Nat} {idx : List Nat} (h : Tensor.InB [p, D, D, D, D] idx) :
    ∃ s u l d r, idx = [s, u, l, d, r] ∧ s < p ∧ u < D ∧ l < D ∧ d < D ∧ r < D := by
  unfold Tensor.InB at h
  rcases h with _ | ⟨h1, h⟩
  rcases h with _ | ⟨h2, h⟩
  rcases h with _ | ⟨h3, h⟩
  rcases h with _ | ⟨h4, h⟩
  rcases h with _ | ⟨h5, h⟩
  cases h
  exact ⟨_, _, _, _, _, rfl, h1, h2, h3, h4, h5⟩

/-- Invariance of a function of four indices in all eight positions. -/
def TransF [Field K] (χ : Character) (P : Nat → Nat → Nat → Nat → K) : Prop :=
  ∀ u l d r, P u l d r = χ.onRot 0 * P u l d r ∧ P l d r u = χ.onRot 1 * P u l d r ∧
    P d r u l = χ.onRot 2 * P u l d r ∧ P r u l d = χ.onRot 3 * P u l d r ∧
    P u r d l = χ.onRefl 0 * P u l d r ∧ P l u r d = χ.onRefl 1 * P u l d r ∧
    P d l u r = χ.onRefl 2 * P u l d r ∧ P r d l u = χ.onRefl 3 * P u l d r

theorem avg_trans [Field K] (i : Irrep) (ψ : Nat → Nat → Nat → Nat → K) :
    TransF (chOf i) (avg (chOf i) ψ) := by
  intro u l d r
  cases i <;> simp only [avg, chOf, chA1, chA2, chB1, chB2, Fin.isValue, Fin.val_zero, Fin.val_one,
      Fin.val_two, show ((3 : Fin 4) : Nat) % 2 = 1 from rfl, show (2 : Nat) % 2 = 0 from rfl,
      show (0 : Nat) % 2 = 0 from rfl, show (1 : Nat) % 2 = 1 from rfl, one_ne_zero, if_true, if_false] <;>
    push_cast <;> refine ⟨?_, ?_, ?_, ?_, ?_, ?_, ?_, ?_⟩ <;> ring

theorem avg_of_trans [Field K] [CharZero K] (i j : Irrep) (P : Nat → Nat → Nat → Nat → K)
    (h : TransF (chOf j) P) (u l d r : Nat) :
    avg (chOf i) P u l d r = if i = j then P u l d r else 0 := by
  obtain ⟨h0, h1, h2, h3, h4, h5, h6, h7⟩ := h u l d r
  unfold avg
  rw [h1, h2, h3, h4, h5, h6, h7]
  cases i <;> cases j <;> simp [chOf, chA1, chA2, chB1, chB2] <;> ring

/-- Bounded version: only entries inside the range are known to transform. -/
theorem transforms_entries [Field K] {χ : Character} {p D : Nat} {A : Tensor K}
    (h : Transforms χ p D A) {s u l d r : Nat} (hs : s < p) (hu : u < D) (hl : l < D) (hd : d < D)
    (hr : r < D) (g : G) :
    A.val [s, ![u, l, d, r] (g.act 0), ![u, l, d, r] (g.act 1), ![u, l, d, r] (g.act 2),
      ![u, l, d, r] (g.act 3)] = χ.at g * A.val [s, u, l, d, r] := by
  have := h.2 g s ![u, l, d, r] hs (by intro i; fin_cases i <;> simpa)
  simpa [entry] using this

/-- C14. For A1, A2 and B1 the routine succeeds on every tensor with equal auxiliary dimensions, and
its result is the representation-theoretic projector applied to the tensor. -/
theorem C14_is_group_average [Field K] [CharZero K] (i : Irrep) (hi : i ≠ .B2) (p D : Nat)
    (A : Tensor K) (hA : A.shape = [p, D, D, D, D]) :
    ∃ B, projection i A = some B ∧ B.shape = [p, D, D, D, D] ∧
      ∀ s f, entry B s f = average (chOf i) A s f := by
  obtain ⟨w, hw, h⟩ := projection_eq i hi p D A.val
  refine ⟨_, by rw [tensor_eta A hA]; exact hw, rfl, ?_⟩
  intro s f
  rw [average_eq]
  exact h s (f 0) (f 1) (f 2) (f 3)

theorem transF_transforms [Field K] {χ : Character} {p D : Nat} {B : Tensor K}
    (hB : B.shape = [p, D, D, D, D]) (h : ∀ s, TransF χ (fun u l d r => B.val [s, u, l, d, r])) :
    Transforms χ p D B := by
  refine ⟨hB, ?_⟩
  intro g s f _ _
  obtain ⟨h0, h1, h2, h3, h4, h5, h6, h7⟩ := h s (f 0) (f 1) (f 2) (f 3)
  cases g with
  | rot k => fin_cases k <;> assumption
  | refl k => fin_cases k <;> assumption

theorem avg_congr_trans [Field K] [CharZero K] (i : Irrep) {p D : Nat} {A : Tensor K}
    (h : Transforms (chOf i) p D A) {s u l d r : Nat} (hs : s < p) (hu : u < D) (hl : l < D)
    (hd : d < D) (hr : r < D) :
    avg (chOf i) (fun u l d r => A.val [s, u, l, d, r]) u l d r = A.val [s, u, l, d, r] := by
  have t := transforms_entries h hs hu hl hd hr
  have e1 := t (.rot 1); have e2 := t (.rot 2); have e3 := t (.rot 3)
  have f0 := t (.refl 0); have f1 := t (.refl 1); have f2 := t (.refl 2); have f3 := t (.refl 3)
  change A.val [s, l, d, r, u] = (chOf i).onRot 1 * _ at e1
  change A.val [s, d, r, u, l] = (chOf i).onRot 2 * _ at e2
  change A.val [s, r, u, l, d] = (chOf i).onRot 3 * _ at e3
  change A.val [s, u, r, d, l] = (chOf i).onRefl 0 * _ at f0
  change A.val [s, l, u, r, d] = (chOf i).onRefl 1 * _ at f1
  change A.val [s, d, l, u, r] = (chOf i).onRefl 2 * _ at f2
  change A.val [s, r, d, l, u] = (chOf i).onRefl 3 * _ at f3
  simp only [avg]
  rw [e1, e2, e3, f0, f1, f2, f3]
  cases i <;> simp [chOf, chA1, chA2, chB1, chB2] <;> ring

/-- C14. The result transforms with the character of the irrep. -/
theorem C14_transforms [Field K] [CharZero K] (i : Irrep) (hi : i ≠ .B2) (p D : Nat)
    (A B : Tensor K) (hA : A.shape = [p, D, D, D, D]) (hB : projection i A = some B) :
    Transforms (chOf i) p D B := by
  obtain ⟨w, hw, h⟩ := projection_eq i hi p D A.val
  rw [tensor_eta A hA, hw, Option.some.injEq] at hB
  subst hB
  apply transF_transforms rfl
  intro s
  have : (fun u l d r => w [s, u, l, d, r]) = avg (chOf i) (fun u l d r => A.val [s, u, l, d, r]) := by
    funext u l d r; exact h s u l d r
  simp only [this]
  exact avg_trans i _

/-- C14. Tensors that already transform with the character are left unchanged. -/
theorem C14_fixes [Field K] [CharZero K] (i : Irrep) (hi : i ≠ .B2) (p D : Nat)
    (A : Tensor K) (h : Transforms (chOf i) p D A) :
    ∃ B, projection i A = some B ∧ B.Same A := by
  obtain ⟨w, hw, hv⟩ := projection_eq i hi p D A.val
  refine ⟨_, by rw [tensor_eta A h.1]; exact hw, by rw [h.1], ?_⟩
  intro idx hidx
  obtain ⟨s, u, l, d, r, rfl, hs, hu, hl, hd, hr⟩ := inB5 hidx
  show w _ = _
  rw [hv]
  exact avg_congr_trans i h hs hu hl hd hr

/-- C14. Applying the projection twice is the same as applying it once. -/
theorem C14_idempotent [Field K] [CharZero K] (i : Irrep) (hi : i ≠ .B2) (p D : Nat)
    (A B : Tensor K) (hA : A.shape = [p, D, D, D, D]) (hB : projection i A = some B) :
    ∃ C, projection i B = some C ∧ C.Same B :=
  C14_fixes i hi p D B (C14_transforms i hi p D A B hA hB)

/-- C14 (also for B2). Every projection is linear. -/
theorem C14_linear [Field K] [CharZero K] (i : Irrep) (p D : Nat) (A B PA PB : Tensor K) (a b : K)
    (hA : A.shape = [p, D, D, D, D]) (hB : B.shape = [p, D, D, D, D])
    (hPA : projection i A = some PA) (hPB : projection i B = some PB) :
    ∃ C, projection i ⟨[p, D, D, D, D], fun idx => a * A.val idx + b * B.val idx⟩ = some C ∧
      C.Same ⟨[p, D, D, D, D], fun idx => a * PA.val idx + b * PB.val idx⟩ := by
  rw [tensor_eta A hA] at hPA
  rw [tensor_eta B hB] at hPB
  by_cases hi : i = .B2
  · subst hi
    obtain ⟨w, hw, h⟩ := projection_B2_eq p D (fun idx => a * A.val idx + b * B.val idx)
    obtain ⟨wa, hwa, ha⟩ := projection_B2_eq p D A.val
    obtain ⟨wb, hwb, hb⟩ := projection_B2_eq p D B.val
    rw [hwa, Option.some.injEq] at hPA
    rw [hwb, Option.some.injEq] at hPB
    subst hPA hPB
    refine ⟨_, hw, rfl, ?_⟩
    intro idx hidx
    obtain ⟨s, u, l, d, r, rfl, _⟩ := inB5 hidx
    simp only [h, ha, hb]
    ring
  · obtain ⟨w, hw, h⟩ := projection_eq i hi p D (fun idx => a * A.val idx + b * B.val idx)
    obtain ⟨wa, hwa, ha⟩ := projection_eq i hi p D A.val
    obtain ⟨wb, hwb, hb⟩ := projection_eq i hi p D B.val
    rw [hwa, Option.some.injEq] at hPA
    rw [hwb, Option.some.injEq] at hPB
    subst hPA hPB
    refine ⟨_, hw, rfl, ?_⟩
    intro idx hidx
    obtain ⟨s, u, l, d, r, rfl, _⟩ := inB5 hidx
    simp only [h, ha, hb, avg]
    ring

theorem sumLoop [Field K] [CharZero K] (p D : Nat) (A : Tensor K) (hA : A.shape = [p, D, D, D, D]) :
    ∀ (L : List Irrep) (v : List Nat → K), (∀ i ∈ L, i ≠ .B2) →
      ∃ w, L.foldlM (fun acc i => do
          let P ← projection i A
          zipT (· + ·) acc P) (⟨[p, D, D, D, D], v⟩ : Tensor K) = some ⟨[p, D, D, D, D], w⟩ ∧
        ∀ s u l d r, w [s, u, l, d, r] = v [s, u, l, d, r] +
          (L.map (fun i => avg (chOf i) (fun u l d r => A.val [s, u, l, d, r]) u l d r)).sum := by
  intro L
  induction L with
  | nil => intro v _; exact ⟨v, rfl, by simp⟩
  | cons i L ih =>
    intro v hL
    obtain ⟨w0, hw0, h0⟩ := projection_eq i (hL i (by simp)) p D A.val
    rw [← tensor_eta A hA] at hw0
    obtain ⟨w, hw, h⟩ := ih (fun idx => v idx + w0 idx) (fun i hi => hL i (by simp [hi]))
    refine ⟨w, ?_, ?_⟩
    · rw [List.foldlM_cons, hw0]
      simp only [Option.bind_eq_bind, Option.bind_some, zipT, if_true]
      exact hw
    · intro s u l d r
      rw [h, h0]
      simp only [List.map_cons, List.sum_cons]
      ring

/-- C14. `make_c4v_symm` with a list of names of the irreps A1, A2, B1 (repetitions allowed) returns
the sum of the projections on the distinct irreps named. -/
theorem C14_sum [Field K] [CharZero K] (p D : Nat) (A : Tensor K) (hA : A.shape = [p, D, D, D, D])
    (names : List String) (irr : List Irrep) (hn : names.mapM irrepOfName = some irr)
    (hB : .B2 ∉ irr) :
    ∃ B, makeC4vSymm A names = some B ∧ B.shape = [p, D, D, D, D] ∧
      ∀ s f, entry B s f =
        (([Irrep.A1, .A2, .B1].filter (· ∈ irr)).map (fun i => average (chOf i) A s f)).sum := by
  obtain ⟨w, hw, h⟩ := sumLoop p D A hA irr.dedup (fun _ => 0)
    (fun i hi h => hB (by rw [← h]; exact List.mem_dedup.1 hi))
  refine ⟨⟨[p, D, D, D, D], w⟩, ?_, rfl, ?_⟩
  · simp only [makeC4vSymm, hn, Option.bind_eq_bind, Option.bind_some, hA]
    exact hw
  · intro s f
    have hp : irr.dedup.Perm ([Irrep.A1, .A2, .B1].filter (· ∈ irr)) := by
      rw [List.perm_ext_iff_of_nodup (List.nodup_dedup _) ((by decide : [Irrep.A1, .A2, .B1].Nodup).filter _)]
      intro i
      simp only [List.mem_dedup, List.mem_filter, decide_eq_true_eq]
      constructor
      · intro hi
        refine ⟨?_, hi⟩
        cases i with
        | B2 => exact absurd hi hB
        | _ => simp
      · exact fun h => h.2
    have h1 := h s (f 0) (f 1) (f 2) (f 3)
    simp only [average_eq]
    rw [← (hp.map _).sum_eq]
    simpa [entry] using h1

/-- C14. The sum of projections is again a projection: symmetrising twice equals symmetrising once. -/
theorem C14_sum_idempotent [Field K] [CharZero K] (p D : Nat) (A B : Tensor K)
    (hA : A.shape = [p, D, D, D, D]) (names : List String) (irr : List Irrep)
    (hn : names.mapM irrepOfName = some irr) (hB2 : .B2 ∉ irr) (hB : makeC4vSymm A names = some B) :
    ∃ C, makeC4vSymm B names = some C ∧ C.Same B := by
  obtain ⟨w, hw, h⟩ := sumLoop p D A hA irr.dedup (fun _ => 0)
    (fun i hi h => hB2 (by rw [← h]; exact List.mem_dedup.1 hi))
  have hBw : B = ⟨[p, D, D, D, D], w⟩ := by
    simp only [makeC4vSymm, hn, Option.bind_eq_bind, Option.bind_some, hA] at hB
    have h2 := hB.symm.trans hw
    simpa using h2
  obtain ⟨w', hw', h'⟩ := sumLoop p D B (by rw [hBw]) irr.dedup (fun _ => 0)
    (fun i hi h => hB2 (by rw [← h]; exact List.mem_dedup.1 hi))
  refine ⟨⟨[p, D, D, D, D], w'⟩, ?_, by rw [hBw], ?_⟩
  · simp only [makeC4vSymm, hn, Option.bind_eq_bind, Option.bind_some]
    rw [show B.shape = [p, D, D, D, D] by rw [hBw]]
    exact hw'
  · intro idx hidx
    obtain ⟨s, u, l, d, r, rfl, _⟩ := inB5 hidx
    show w' _ = _
    rw [h']
    simp only [hBw, h, zero_add]
    set ψ : Nat → Nat → Nat → Nat → K := fun u l d r => A.val [s, u, l, d, r]
    have hlin : ∀ (i : Irrep) (L : List Irrep) (u l d r : Nat), avg (chOf i)
        (fun u l d r => (L.map (fun j => avg (chOf j) ψ u l d r)).sum) u l d r =
        (L.map (fun j => if i = j then avg (chOf j) ψ u l d r else 0)).sum := by
      intro i L u l d r
      induction L with
      | nil => simp [avg]
      | cons j L ih =>
        simp only [List.map_cons, List.sum_cons]
        rw [← ih, ← avg_of_trans i j (avg (chOf j) ψ) (avg_trans j ψ)]
        unfold avg
        ring
    congr 1
    apply List.map_congr_left
    intro i hi
    have := hlin i irr.dedup u l d r
    rw [this]
    have hnd := List.nodup_dedup irr
    generalize irr.dedup = L at hi hnd
    induction L with
    | nil => simp at hi
    | cons j L ih =>
      rw [List.nodup_cons] at hnd
      rcases List.mem_cons.1 hi with rfl | hi'
      · have : (L.map (fun j => if i = j then avg (chOf j) ψ u l d r else 0)).sum = 0 := by
          apply List.sum_eq_zero
          intro x hx
          obtain ⟨j, hj, rfl⟩ := List.mem_map.1 hx
          rw [if_neg]
          rintro rfl
          exact hnd.1 hj
        simp [this]
      · have hne : i ≠ j := by intro hij; rw [hij] at hi'; exact hnd.1 hi'
        simp only [List.map_cons, List.sum_cons, if_neg hne, zero_add]
        exact ih hi' hnd.2

/-- Unknown names are rejected. -/
theorem C14_unknown [Field K] (A : Tensor K) (names : List String)
    (h : ∃ n ∈ names, n ≠ "A1" ∧ n ≠ "A2" ∧ n ≠ "B1" ∧ n ≠ "B2") : makeC4vSymm A names = none := by
  have : names.mapM irrepOfName = none := by
    obtain ⟨n, hn, h1, h2, h3, h4⟩ := h
    induction names with
    | nil => simp at hn
    | cons m ms ih =>
      rw [List.mapM_cons]
      rcases List.mem_cons.1 hn with rfl | hn
      · have : irrepOfName n = none := by
          unfold irrepOfName; split <;> simp_all
        rw [this]; rfl
      · rw [ih hn]; cases irrepOfName m <;> rfl
  simp [makeC4vSymm, this]

/-- Non-vacuity: a concrete tensor, its projections onto A1 and onto A2 differ from it and from
each other, and a tensor in A1 that is not zero. -/
def sampleSite : Tensor ℚ := ⟨[1, 2, 2, 2, 2], fun i => match i with
  | [_, u, l, d, r] => (u : ℚ) + 2 * l + 4 * d * u + 8 * r * l * l
  | _ => 0⟩
example : (projection .A1 sampleSite).map (fun B => B.val [0, 1, 0, 0, 0]) = some (3/4) := by
  simp [projection, symmA1, symStep_eq _ _ (show [0,1,4,3,2] ∈ usedPerms by decide),
    symStep_eq _ _ (show [0,3,2,1,4] ∈ usedPerms by decide),
    symStep_eq _ _ (show [0,4,1,2,3] ∈ usedPerms by decide),
    symStep_eq _ _ (show [0,2,3,4,1] ∈ usedPerms by decide), sampleSite, pv_eqs]
  norm_num
example : sampleSite.shape = [1, 2, 2, 2, 2] := rfl
example : Transforms chB1 1 2 (⟨[1, 2, 2, 2, 2], fun i => match i with
  | [_, u, l, d, r] => (u : ℚ) - l + d - r
  | _ => 0⟩) := by
  apply transF_transforms rfl
  intro s u l d r
  simp only [chB1]
  norm_num
  refine ⟨?_, ?_, ?_, ?_, ?_, ?_, ?_⟩ <;> ring

/-! ## C15 -/

/-- C15 (violated). A tensor that transforms in B2 is mapped to zero. -/
theorem C15_B2_kills_B2 [Field K] [CharZero K] (p D : Nat) (A : Tensor K)
    (h : Transforms chB2 p D A) :
    ∃ B, projection .B2 A = some B ∧ B.Same ⟨[p, D, D, D, D], fun _ => 0⟩ := by
  obtain ⟨w, hw, hv⟩ := projection_B2_eq p D A.val
  refine ⟨⟨[p, D, D, D, D], w⟩, by rw [tensor_eta A h.1]; exact hw, rfl, ?_⟩
  intro idx hidx
  obtain ⟨s, u, l, d, r, rfl, hs, hu, hl, hd, hr⟩ := inB5 hidx
  have t := transforms_entries h hs hu hl hd hr
  have e1 := t (.rot 1); have e3 := t (.rot 3)
  have f1 := t (.refl 1); have f3 := t (.refl 3)
  change A.val [s, l, d, r, u] = chB2.onRot 1 * _ at e1
  change A.val [s, r, u, l, d] = chB2.onRot 3 * _ at e3
  change A.val [s, l, u, r, d] = chB2.onRefl 1 * _ at f1
  change A.val [s, r, d, l, u] = chB2.onRefl 3 * _ at f3
  show w _ = 0
  rw [hv, e1, e3, f1, f3]
  simp [chB2]

/-- C15 (violated). The output never lies in B2 unless it is zero. -/
theorem C15_B2_output_not_B2 [Field K] [CharZero K] (p D : Nat) (A B : Tensor K)
    (hA : A.shape = [p, D, D, D, D]) (hB : projection .B2 A = some B) (h : Transforms chB2 p D B) :
    B.Same ⟨[p, D, D, D, D], fun _ => 0⟩ := by
  obtain ⟨w, hw, hv⟩ := projection_B2_eq p D A.val
  rw [tensor_eta A hA, hw, Option.some.injEq] at hB
  subst hB
  refine ⟨rfl, ?_⟩
  intro idx hidx
  obtain ⟨s, u, l, d, r, rfl, hs, hu, hl, hd, hr⟩ := inB5 hidx
  have e := transforms_entries h hs hu hl hd hr (.rot 2)
  change w [s, d, r, u, l] = chB2.onRot 2 * w [s, u, l, d, r] at e
  have h2 : w [s, d, r, u, l] = - w [s, u, l, d, r] := by rw [hv, hv]; ring
  rw [h2] at e
  simp only [chB2] at e
  norm_num at e
  have : (2 : K) * w [s, u, l, d, r] = 0 := by linear_combination -e
  simpa using this

/-- C15 (violated): a concrete non-zero B2 tensor which the routine sends to zero. -/
theorem C15_violated : ∃ A : Tensor ℚ, Transforms chB2 1 2 A ∧ A.val [0, 1, 1, 0, 0] ≠ 0 ∧
    ∃ B, projection .B2 A = some B ∧ B.val [0, 1, 1, 0, 0] = 0 := by
  let A : Tensor ℚ := ⟨[1, 2, 2, 2, 2], fun i => match i with
    | [_, u, l, d, r] => (u : ℚ) * l - l * d + d * r - r * u
    | _ => 0⟩
  have hT : Transforms chB2 1 2 A := by
    apply transF_transforms rfl
    intro s u l d r
    simp only [chB2, A]
    norm_num
    refine ⟨?_, ?_, ?_, ?_, ?_, ?_, ?_⟩ <;> ring
  refine ⟨A, hT, by norm_num [A], ?_⟩
  obtain ⟨B, hB, hS⟩ := C15_B2_kills_B2 1 2 A hT
  exact ⟨B, hB, hS.2 _ (by rw [hS.1]; decide)⟩

/-- C15 (partial): what does hold for B2: the routine succeeds, keeps the shape, and is a linear map
(`C14_linear`). Missing: transforming in B2 and fixing B2 tensors, which is false, see above. -/
theorem C15_B2_partial [Field K] [CharZero K] (p D : Nat) (A : Tensor K)
    (hA : A.shape = [p, D, D, D, D]) :
    ∃ B, projection .B2 A = some B ∧ B.shape = A.shape := by
  obtain ⟨w, hw, _⟩ := projection_B2_eq p D A.val
  exact ⟨_, by rw [tensor_eta A hA]; exact hw, by rw [hA]⟩

/-! ## C53 -/

/-- Same kind (real or complex) and same entries. -/
def Spec.SameSite : Site K → Site K → Prop
  | .real A, .real B => A.Same B
  | .cplx A, .cplx B => A.Same B
  | _, _ => False

/-- The site is in the documented class: real and A1, or complex with A1 real and A2 imaginary part. -/
def Spec.InClass [Field K] (p D : Nat) : Site K → Prop
  | .real A => Transforms chA1 p D A
  | .cplx A => Transforms chA1 p D ⟨A.shape, fun i => (A.val i).1⟩ ∧
      Transforms chA2 p D ⟨A.shape, fun i => (A.val i).2⟩

def Spec.siteShape : Site K → List Nat
  | .real A => A.shape
  | .cplx A => A.shape

theorem single [Field K] [CharZero K] (p D : Nat) (A : Tensor K) (hA : A.shape = [p, D, D, D, D])
    (name : String) (i : Irrep) (hn : irrepOfName name = some i) (hi : i ≠ .B2) :
    ∃ B, makeC4vSymm A [name] = some B ∧ Transforms (chOf i) p D B ∧
      (∀ s f, entry B s f = average (chOf i) A s f) ∧
      (Transforms (chOf i) p D A → B.Same A) := by
  obtain ⟨w0, hw0, h0⟩ := projection_eq i hi p D A.val
  rw [← tensor_eta A hA] at hw0
  have hT := C14_transforms i hi p D A _ hA hw0
  refine ⟨⟨[p, D, D, D, D], w0⟩, ?_, hT, ?_, ?_⟩
  · simp only [makeC4vSymm, List.mapM_cons, List.mapM_nil, hn, Option.bind_eq_bind, Option.bind_some,
      hA, Option.pure_def, List.dedup_cons_of_notMem (List.not_mem_nil), List.dedup_nil,
      List.foldlM_cons, List.foldlM_nil, hw0, zipT, if_true, zero_add]
  · intro s f; rw [average_eq]; exact h0 s (f 0) (f 1) (f 2) (f 3)
  · intro h
    obtain ⟨B, hB, hS⟩ := C14_fixes i hi p D A h
    rw [hw0, Option.some.injEq] at hB
    rw [hB]; exact hS

/-- C53. `to_ipeps_c4v` on a one-site state returns a site in the documented class (real A1, or
A1 + i A2), leaves sites of that class unchanged, and hence is idempotent. -/
theorem C53_symmetrize [Field K] [CharZero K] {V : Type} (v : V) (p D : Nat) (X : Site K)
    (hX : siteShape X = [p, D, D, D, D]) :
    ∃ Y, toIpepsC4v [(v, X)] = some Y ∧ InClass p D Y ∧ (InClass p D X → SameSite Y X) ∧
      ∃ Z, toIpepsC4v [(v, Y)] = some Z ∧ SameSite Z Y := by
  have main : ∀ X : Site K, siteShape X = [p, D, D, D, D] →
      ∃ Y, toIpepsC4v [(v, X)] = some Y ∧ InClass p D Y ∧ (InClass p D X → SameSite Y X) := by
    intro X hX
    cases X with
    | real A =>
      obtain ⟨B, hB, hT, _, hF⟩ := single p D A hX "A1" .A1 rfl (by decide)
      exact ⟨.real B, by simp [toIpepsC4v, symmetrizeSite, hB], hT, hF⟩
    | cplx A =>
      obtain ⟨B, hB, hT, _, hF⟩ := single p D (rePart A) hX "A1" .A1 rfl (by decide)
      obtain ⟨C, hC, hT', _, hF'⟩ := single p D (imPart A) hX "A2" .A2 rfl (by decide)
      have hsh : B.shape = C.shape := by rw [hT.1, hT'.1]
      refine ⟨.cplx ⟨B.shape, fun i => (B.val i, C.val i)⟩, ?_, ⟨hT, ?_⟩, ?_⟩
      · simp [toIpepsC4v, symmetrizeSite, hB, hC, hsh]
      · have := hT'; rw [tensor_eta C rfl, ← hsh] at this; exact this
      · rintro ⟨h1, h2⟩
        have s1 := hF h1
        have s2 := hF' h2
        refine ⟨s1.1, ?_⟩
        intro idx hidx
        have a1 := s1.2 idx hidx
        have a2 := s2.2 idx (by rw [← hsh]; exact hidx)
        exact Prod.ext a1 a2
  obtain ⟨Y, hY, hc, hf⟩ := main X hX
  have hYs : siteShape Y = [p, D, D, D, D] := by
    cases Y with
    | real A => exact hc.1
    | cplx A => exact hc.1.1
  obtain ⟨Z, hZ, _, hZf⟩ := main Y hYs
  exact ⟨Y, hY, hc, hf, Z, hZ, hZf hc⟩

/-- C53. States with any other number of sites are rejected. -/
theorem C53_rejects [Field K] {V : Type} (sites : List (V × Site K)) (h : sites.length ≠ 1) :
    toIpepsC4v sites = none := by
  match sites, h with
  | [], _ => rfl
  | [_], h => exact absurd rfl h
  | _ :: _ :: _, _ => rfl

/-- Left-right symmetrisation used by the ladder ansatz: the result is even (odd) under exchanging
the left and right index and symmetric tensors are unchanged. -/
theorem C14_d2 [Field K] [CharZero K] (p D : Nat) (A : Tensor K) (hA : A.shape = [p, D, D, D, D]) :
    (∃ B, makeD2Symm A = some B ∧ (∀ s u l d r, B.val [s, u, r, d, l] = B.val [s, u, l, d, r]) ∧
      ((∀ s u l d r, A.val [s, u, r, d, l] = A.val [s, u, l, d, r]) → B.Same A)) ∧
    (∃ B, makeD2Antisymm A = some B ∧ (∀ s u l d r, B.val [s, u, r, d, l] = - B.val [s, u, l, d, r]) ∧
      ((∀ s u l d r, A.val [s, u, r, d, l] = - A.val [s, u, l, d, r]) → B.Same A)) := by
  have m1 : [0, 1, 4, 3, 2] ∈ usedPerms := by decide
  rw [tensor_eta A hA]
  constructor
  · refine ⟨_, symStep_eq 1 _ m1 p D A.val, ?_, ?_⟩
    · intro s u l d r; simp only [(pv_eqs _ _ _ _ _).1]; ring
    · intro h
      refine ⟨rfl, ?_⟩
      intro idx hidx
      obtain ⟨s, u, l, d, r, rfl, _⟩ := inB5 hidx
      simp only [(pv_eqs _ _ _ _ _).1]
      linear_combination 2⁻¹ * h s u l d r
  · refine ⟨_, symStep_eq (-1) _ m1 p D A.val, ?_, ?_⟩
    · intro s u l d r; simp only [(pv_eqs _ _ _ _ _).1]; ring
    · intro h
      refine ⟨rfl, ?_⟩
      intro idx hidx
      obtain ⟨s, u, l, d, r, rfl, _⟩ := inB5 hidx
      simp only [(pv_eqs _ _ _ _ _).1]
      linear_combination -2⁻¹ * h s u l d r

/-- Non-vacuity of C53: a complex site that the map really changes. -/
example : siteShape (Site.cplx (⟨[1, 2, 2, 2, 2], fun i => ((i.getD 1 0 : ℚ), (i.getD 2 0 : ℚ))⟩ : Tensor (ℚ × ℚ)))
    = [1, 2, 2, 2, 2] := rfl

end Verif.Pg
