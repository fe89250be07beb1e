import Verif.Ctm.MoveCorner
/-
Products of matrices given as rank-2 tensors, equality up to unobservable values.
-/
namespace Verif.Tensor
variable {K : Type} [CommRing K]

theorem Denotes.ofSame {dim : Nat → Nat} {T T' : Tensor K} {O : List (List Nat)} {L S : List Nat} {F : (Nat → Nat) → K}
    (h : Denotes dim T O L S F) (hs : Same T T') : Denotes dim T' O L S F :=
  ⟨hs.1 ▸ h.shape, h.loc, fun σ hσ => by rw [← hs.2 _ (h.shape ▸ inB_groups dim σ O hσ)]; exact h.val σ hσ⟩

/-- The matrix `A` with indices `(i, j)`. -/
theorem td10 {A A' B B' : Tensor K} {x y z : Nat} (hA : Same A A') (hB : Same B B') (sA : A.shape = [x, y]) (sB : B.shape = [y, z]) :
    ∃ R R', tensordot [1] [0] A B = some R ∧ tensordot [1] [0] A' B' = some R' ∧ Same R R' ∧ R.shape = [x, z] ∧
      ∀ i k, i < x → k < z → R.val [i, k] = ∑ j ∈ Finset.range y, A.val [i, j] * B.val [j, k] := by
  let dim : Nat → Nat := fun l => [x, y, z].getD l 0
  have d1 := Denotes.leaf dim A [[0], [1]] (by simp [gdim, dim, sA])
  have d2 := Denotes.leaf dim B [[1], [2]] (by simp [gdim, dim, sB])
  obtain ⟨R, e, q⟩ := Denotes.tensordot d1 d2 [1] [0] (dotOK_iff (by decide))
  obtain ⟨R', e', q'⟩ := Denotes.tensordot (d1.ofSame hA) (d2.ofSame hB) [1] [0] (dotOK_iff (by decide))
  have q2 : Denotes dim R [[0], [2]] [1] [0, 1, 2] (fun σ => A.val [σ 0, σ 1] * B.val [σ 1, σ 2]) := q.congr (by decide) (by decide) (fun σ => by simp)
  refine ⟨R, R', e, e', q.same q' (by decide) (List.Perm.refl _) (fun _ => rfl), by simpa [gdim, dim] using q2.shape, ?_⟩
  intro i k hi hk
  have := q2.val (fun l => [i, 0, k].getD l 0) (by
    intro l hl
    have : l = 0 ∨ l = 2 := by simpa using hl
    rcases this with rfl | rfl <;> simpa [dim])
  simpa [gidx, ravel, sumOver, dim, Function.update] using this

theorem td00 {A A' B B' : Tensor K} {x y z : Nat} (hA : Same A A') (hB : Same B B') (sA : A.shape = [y, x]) (sB : B.shape = [y, z]) :
    ∃ R R', tensordot [0] [0] A B = some R ∧ tensordot [0] [0] A' B' = some R' ∧ Same R R' ∧ R.shape = [x, z] ∧
      ∀ i k, i < x → k < z → R.val [i, k] = ∑ j ∈ Finset.range y, A.val [j, i] * B.val [j, k] := by
  let dim : Nat → Nat := fun l => [x, y, z].getD l 0
  have d1 := Denotes.leaf dim A [[1], [0]] (by simp [gdim, dim, sA])
  have d2 := Denotes.leaf dim B [[1], [2]] (by simp [gdim, dim, sB])
  obtain ⟨R, e, q⟩ := Denotes.tensordot d1 d2 [0] [0] (dotOK_iff (by decide))
  obtain ⟨R', e', q'⟩ := Denotes.tensordot (d1.ofSame hA) (d2.ofSame hB) [0] [0] (dotOK_iff (by decide))
  have q2 : Denotes dim R [[0], [2]] [1] [0, 1, 2] (fun σ => A.val [σ 1, σ 0] * B.val [σ 1, σ 2]) := q.congr (by decide) (by decide) (fun σ => by simp)
  refine ⟨R, R', e, e', q.same q' (by decide) (List.Perm.refl _) (fun _ => rfl), by simpa [gdim, dim] using q2.shape, ?_⟩
  intro i k hi hk
  have := q2.val (fun l => [i, 0, k].getD l 0) (by
    intro l hl
    have : l = 0 ∨ l = 2 := by simpa using hl
    rcases this with rfl | rfl <;> simpa [dim])
  simpa [gidx, ravel, sumOver, dim, Function.update] using this

theorem td11 {A A' B B' : Tensor K} {x y z : Nat} (hA : Same A A') (hB : Same B B') (sA : A.shape = [x, y]) (sB : B.shape = [z, y]) :
    ∃ R R', tensordot [1] [1] A B = some R ∧ tensordot [1] [1] A' B' = some R' ∧ Same R R' ∧ R.shape = [x, z] ∧
      ∀ i k, i < x → k < z → R.val [i, k] = ∑ j ∈ Finset.range y, A.val [i, j] * B.val [k, j] := by
  let dim : Nat → Nat := fun l => [x, y, z].getD l 0
  have d1 := Denotes.leaf dim A [[0], [1]] (by simp [gdim, dim, sA])
  have d2 := Denotes.leaf dim B [[2], [1]] (by simp [gdim, dim, sB])
  obtain ⟨R, e, q⟩ := Denotes.tensordot d1 d2 [1] [1] (dotOK_iff (by decide))
  obtain ⟨R', e', q'⟩ := Denotes.tensordot (d1.ofSame hA) (d2.ofSame hB) [1] [1] (dotOK_iff (by decide))
  have q2 : Denotes dim R [[0], [2]] [1] [0, 1, 2] (fun σ => A.val [σ 0, σ 1] * B.val [σ 2, σ 1]) := q.congr (by decide) (by decide) (fun σ => by simp)
  refine ⟨R, R', e, e', q.same q' (by decide) (List.Perm.refl _) (fun _ => rfl), by simpa [gdim, dim] using q2.shape, ?_⟩
  intro i k hi hk
  have := q2.val (fun l => [i, 0, k].getD l 0) (by
    intro l hl
    have : l = 0 ∨ l = 2 := by simpa using hl
    rcases this with rfl | rfl <;> simpa [dim])
  simpa [gidx, ravel, sumOver, dim, Function.update] using this

theorem td01 {A A' B B' : Tensor K} {x y z : Nat} (hA : Same A A') (hB : Same B B') (sA : A.shape = [y, x]) (sB : B.shape = [z, y]) :
    ∃ R R', tensordot [0] [1] A B = some R ∧ tensordot [0] [1] A' B' = some R' ∧ Same R R' ∧ R.shape = [x, z] ∧
      ∀ i k, i < x → k < z → R.val [i, k] = ∑ j ∈ Finset.range y, A.val [j, i] * B.val [k, j] := by
  let dim : Nat → Nat := fun l => [x, y, z].getD l 0
  have d1 := Denotes.leaf dim A [[1], [0]] (by simp [gdim, dim, sA])
  have d2 := Denotes.leaf dim B [[2], [1]] (by simp [gdim, dim, sB])
  obtain ⟨R, e, q⟩ := Denotes.tensordot d1 d2 [0] [1] (dotOK_iff (by decide))
  obtain ⟨R', e', q'⟩ := Denotes.tensordot (d1.ofSame hA) (d2.ofSame hB) [0] [1] (dotOK_iff (by decide))
  have q2 : Denotes dim R [[0], [2]] [1] [0, 1, 2] (fun σ => A.val [σ 1, σ 0] * B.val [σ 2, σ 1]) := q.congr (by decide) (by decide) (fun σ => by simp)
  refine ⟨R, R', e, e', q.same q' (by decide) (List.Perm.refl _) (fun _ => rfl), by simpa [gdim, dim] using q2.shape, ?_⟩
  intro i k hi hk
  have := q2.val (fun l => [i, 0, k].getD l 0) (by
    intro l hl
    have : l = 0 ∨ l = 2 := by simpa using hl
    rcases this with rfl | rfl <;> simpa [dim])
  simpa [gidx, ravel, sumOver, dim, Function.update] using this

theorem perm10 {A A' : Tensor K} {x y : Nat} (hA : Same A A') (sA : A.shape = [x, y]) :
    ∃ R R', permute [1, 0] A = some R ∧ permute [1, 0] A' = some R' ∧ Same R R' ∧ R.shape = [y, x] ∧
      ∀ i k, i < y → k < x → R.val [i, k] = A.val [k, i] := by
  let dim : Nat → Nat := fun l => [x, y].getD l 0
  have d1 := Denotes.leaf dim A [[0], [1]] (by simp [gdim, dim, sA])
  obtain ⟨R, e, q⟩ := Denotes.permute d1 [1, 0] (by decide)
  obtain ⟨R', e', q'⟩ := Denotes.permute (d1.ofSame hA) [1, 0] (by decide)
  have q2 : Denotes dim R [[1], [0]] [] [0, 1] (fun σ => A.val [σ 0, σ 1]) := q.congr (by decide) (by decide) (fun σ => by simp)
  refine ⟨R, R', e, e', q.same q' (by decide) (List.Perm.refl _) (fun _ => rfl), by simpa [gdim, dim] using q2.shape, ?_⟩
  intro i k hi hk
  have := q2.val (fun l => [k, i].getD l 0) (by
    intro l hl
    have : l = 1 ∨ l = 0 := by simpa using hl
    rcases this with rfl | rfl <;> simpa [dim])
  simpa [gidx, ravel, sumOver, dim] using this

end Verif.Tensor
