import Mathlib.Algebra.BigOperators.Group.Finset.Basic
import Mathlib.Data.List.Forall2
import Mathlib.Tactic.Ring
import Mathlib.Tactic.Linarith
/-
Dense tensors as used throughout peps-torch (torch.Tensor / numpy.ndarray): a shape and a value
for every multi-index.  Only indices inside the shape are meaningful.
-/
namespace Verif

/-- A dense tensor (torch.Tensor). Values at indices outside the shape are never observable. -/
structure Tensor (K : Type) where
  shape : List Nat
  val   : List Nat → K

namespace Tensor
variable {K : Type}

/-- The multi-index lies inside the shape. -/
def InB (shape idx : List Nat) : Prop := List.Forall₂ (· < ·) idx shape

instance (shape idx : List Nat) : Decidable (InB shape idx) := by
  unfold InB; infer_instance

/-- Equal shape and equal entries: the observable equality of tensors. -/
def Same (A B : Tensor K) : Prop :=
  A.shape = B.shape ∧ ∀ idx, InB A.shape idx → A.val idx = B.val idx

theorem Same.refl (A : Tensor K) : A.Same A := ⟨rfl, fun _ _ => rfl⟩
theorem Same.symm {A B : Tensor K} (h : A.Same B) : B.Same A :=
  ⟨h.1.symm, fun i hi => (h.2 i (h.1 ▸ hi)).symm⟩
theorem Same.trans {A B C : Tensor K} (h : A.Same B) (h' : B.Same C) : A.Same C :=
  ⟨h.1.trans h'.1, fun i hi => (h.2 i hi).trans (h'.2 i (h.1 ▸ hi))⟩

/-- All multi-indices in row-major order: `itertools.product(*(range(i) for i in shape))`. -/
def indices : List Nat → List (List Nat)
  | [] => [[]]
  | d :: ds => (List.range d).flatMap (fun i => (indices ds).map (fun is => i :: is))

/-- Row-major position of a multi-index (C order of numpy/torch). -/
def ravel : List Nat → List Nat → Nat
  | _ :: ds, i :: is => i * ds.prod + ravel ds is
  | _, _ => 0

/-- The multi-index at a row-major position. -/
def unravel : List Nat → Nat → List Nat
  | [], _ => []
  | _ :: ds, n => (n / ds.prod) :: unravel ds (n % ds.prod)

theorem mem_indices {shape idx : List Nat} : idx ∈ indices shape ↔ InB shape idx := by
  induction shape generalizing idx with
  | nil => simp [indices, InB]
  | cons d ds ih =>
    simp only [indices, List.mem_flatMap, List.mem_range, List.mem_map, InB]
    constructor
    · rintro ⟨i, hi, is, his, rfl⟩
      exact List.Forall₂.cons hi (ih.1 his)
    · intro h
      cases h with
      | cons h1 h2 => exact ⟨_, h1, _, ih.2 h2, rfl⟩

theorem length_indices (shape : List Nat) : (indices shape).length = shape.prod := by
  induction shape with
  | nil => rfl
  | cons d ds ih =>
    simp only [indices, List.length_flatMap, List.length_map, ih, List.prod_cons]
    simp

theorem nodup_indices (shape : List Nat) : (indices shape).Nodup := by
  induction shape with
  | nil => simp [indices]
  | cons d ds ih =>
    simp only [indices]
    rw [List.nodup_flatMap]
    refine ⟨fun i _ => ih.map (fun a b h => by simpa using h), ?_⟩
    refine List.Pairwise.imp ?_ (List.nodup_range (n := d))
    intro i j hij
    rw [Function.onFun, List.disjoint_left]
    intro a ha hb
    obtain ⟨x, _, rfl⟩ := List.mem_map.1 ha
    obtain ⟨y, _, hy⟩ := List.mem_map.1 hb
    simp only [List.cons.injEq] at hy
    exact hij hy.1.symm

theorem ravel_lt {shape idx : List Nat} (h : InB shape idx) : ravel shape idx < shape.prod := by
  induction h with
  | nil => simp [ravel]
  | @cons i d is ds hi _ ih =>
    simp only [ravel, List.prod_cons]
    have : (i + 1) * ds.prod ≤ d * ds.prod := Nat.mul_le_mul_right _ hi
    have e : (i + 1) * ds.prod = i * ds.prod + ds.prod := by ring
    omega

theorem getElem?_flatMap_range_const {α : Type} (d m : Nat) (f : Nat → List α)
    (hf : ∀ i, (f i).length = m) (i k : Nat) (hi : i < d) (hk : k < m) :
    ((List.range d).flatMap f)[i * m + k]? = (f i)[k]? := by
  induction d with
  | zero => omega
  | succ d ih =>
    rw [List.range_succ, List.flatMap_append]
    have hlen : ((List.range d).flatMap f).length = d * m := by
      simp [List.length_flatMap, hf]
    rcases Nat.lt_succ_iff_lt_or_eq.1 hi with h | rfl
    · rw [List.getElem?_append_left, ih h]
      rw [hlen]
      have : (i + 1) * m ≤ d * m := Nat.mul_le_mul_right _ h
      have e : (i + 1) * m = i * m + m := by ring
      omega
    · rw [List.getElem?_append_right (by omega), hlen]
      simp

/-- The element of the row-major enumeration at position `ravel idx` is `idx`. -/
theorem getElem?_indices_ravel {shape idx : List Nat} (h : InB shape idx) :
    (indices shape)[ravel shape idx]? = some idx := by
  induction h with
  | nil => simp [indices, ravel]
  | @cons i d is ds hi h ih =>
    simp only [indices, ravel]
    rw [getElem?_flatMap_range_const d ds.prod _ (by intro i; simp [length_indices]) i _ hi (ravel_lt h)]
    simp [ih]

theorem unravel_ravel {shape idx : List Nat} (h : InB shape idx) :
    unravel shape (ravel shape idx) = idx := by
  induction h with
  | nil => rfl
  | @cons i d is ds hi h ih =>
    have hl := ravel_lt h
    have hp : 0 < ds.prod := by omega
    simp only [unravel, ravel]
    rw [Nat.mul_comm, Nat.mul_add_div hp, Nat.mul_add_mod, Nat.div_eq_of_lt hl,
      Nat.mod_eq_of_lt hl, ih]
    simp

theorem InB.length {shape idx : List Nat} (h : InB shape idx) : idx.length = shape.length :=
  List.Forall₂.length_eq h

/-- `torch.Tensor.permute(perm)`: result axis `k` is argument axis `perm[k]`.
`none` models the RuntimeError for anything that is not a permutation of the axes. -/
def permute (perm : List Nat) (A : Tensor K) : Option (Tensor K) :=
  if perm.length = A.shape.length ∧ perm.Nodup ∧ (∀ p ∈ perm, p < A.shape.length) then
    some ⟨perm.map (fun p => A.shape.getD p 0),
      fun idx => A.val ((List.range A.shape.length).map (fun j => idx.getD (perm.idxOf j) 0))⟩
  else none

theorem range_map_getD (l : List Nat) : (List.range l.length).map (fun j => l.getD j 0) = l := by
  apply List.ext_getElem?
  intro i
  simp only [List.getElem?_map]
  by_cases h : i < l.length
  · simp [List.getElem?_range h, List.getD_eq_getElem?_getD, h]
  · rw [List.getElem?_eq_none (by simpa using h), List.getElem?_eq_none (by simpa using h)]; rfl

theorem permute_id (A : Tensor K) :
    ∃ B, A.permute (List.range A.shape.length) = some B ∧ A.Same B := by
  refine ⟨_, if_pos ⟨by simp, List.nodup_range, by simp⟩, ?_, ?_⟩
  · simp only []; rw [range_map_getD]
  · intro idx h
    simp only []
    congr 1
    have hl := h.length
    rw [← hl]
    conv_lhs => rw [← range_map_getD idx]
    apply List.map_congr_left
    intro j hj
    have : (List.range idx.length).idxOf j = j := by
      have hj' := List.mem_range.1 hj
      have := (List.nodup_range (n := idx.length)).idxOf_getElem j (by simpa using hj')
      simpa using this
    rw [this]

end Tensor
end Verif
