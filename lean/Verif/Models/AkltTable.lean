import Mathlib.NumberTheory.Zsqrtd.Basic
import Mathlib.Data.Matrix.Basic
import Mathlib.Data.Matrix.Mul
/-
The exchange operator of two spins of size two over the integers with the square root of six, and its products with shifts of itself. The products are given by tables whose entries the
kernel checks.
-/
namespace Verif.Models.Aklt

abbrev Z6 := Zsqrtd 6
abbrev Mat := Matrix (Fin 5 × Fin 5) (Fin 5 × Fin 5) Z6

/-- A table of blocks: the first index is `a + b`, the others are `a` and `c`. -/
def ofTab (t : List (List (List (Int × Int)))) : Mat := fun r s =>
  if r.1.val + r.2.val = s.1.val + s.2.val then
    let v := ((t.getD (r.1.val + r.2.val) []).getD r.1.val []).getD s.1.val (0, 0)
    ⟨v.1, v.2⟩
  else 0

/-- The matrix elements of `S^+` above the diagonal. -/
def up : Nat → Z6
  | 0 => 2
  | 1 => ⟨0, 1⟩
  | 2 => ⟨0, 1⟩
  | _ => 2

/-- Twice the exchange operator. -/
def twice : Mat := fun r s =>
  2 * (if r = s then ((2 - (r.1.val : Int)) * (2 - (r.2.val : Int)) : Int) else 0) +
    (if s.1.val = r.1.val + 1 ∧ r.2.val = s.2.val + 1 then up r.1 * up s.2 else 0) + (if r.1.val = s.1.val + 1 ∧ s.2.val = r.2.val + 1 then up s.1 * up r.2 else 0)

def x : Mat := ofTab [
    [[(4, 0), (0, 0), (0, 0), (0, 0), (0, 0)], [(0, 0), (0, 0), (0, 0), (0, 0), (0, 0)], [(0, 0), (0, 0), (0, 0), (0, 0), (0, 0)], [(0, 0), (0, 0), (0, 0), (0, 0), (0, 0)], [(0, 0), (0, 0), (0, 0), (0, 0), (0, 0)]],
    [[(2, 0), (2, 0), (0, 0), (0, 0), (0, 0)], [(2, 0), (2, 0), (0, 0), (0, 0), (0, 0)], [(0, 0), (0, 0), (0, 0), (0, 0), (0, 0)], [(0, 0), (0, 0), (0, 0), (0, 0), (0, 0)], [(0, 0), (0, 0), (0, 0), (0, 0), (0, 0)]],
    [[(0, 0), (0, 1), (0, 0), (0, 0), (0, 0)], [(0, 1), (1, 0), (0, 1), (0, 0), (0, 0)], [(0, 0), (0, 1), (0, 0), (0, 0), (0, 0)], [(0, 0), (0, 0), (0, 0), (0, 0), (0, 0)], [(0, 0), (0, 0), (0, 0), (0, 0), (0, 0)]],
    [[(-2, 0), (0, 1), (0, 0), (0, 0), (0, 0)], [(0, 1), (0, 0), (3, 0), (0, 0), (0, 0)], [(0, 0), (3, 0), (0, 0), (0, 1), (0, 0)], [(0, 0), (0, 0), (0, 1), (-2, 0), (0, 0)], [(0, 0), (0, 0), (0, 0), (0, 0), (0, 0)]],
    [[(-4, 0), (2, 0), (0, 0), (0, 0), (0, 0)], [(2, 0), (-1, 0), (3, 0), (0, 0), (0, 0)], [(0, 0), (3, 0), (0, 0), (3, 0), (0, 0)], [(0, 0), (0, 0), (3, 0), (-1, 0), (2, 0)], [(0, 0), (0, 0), (0, 0), (2, 0), (-4, 0)]],
    [[(0, 0), (0, 0), (0, 0), (0, 0), (0, 0)], [(0, 0), (-2, 0), (0, 1), (0, 0), (0, 0)], [(0, 0), (0, 1), (0, 0), (3, 0), (0, 0)], [(0, 0), (0, 0), (3, 0), (0, 0), (0, 1)], [(0, 0), (0, 0), (0, 0), (0, 1), (-2, 0)]],
    [[(0, 0), (0, 0), (0, 0), (0, 0), (0, 0)], [(0, 0), (0, 0), (0, 0), (0, 0), (0, 0)], [(0, 0), (0, 0), (0, 0), (0, 1), (0, 0)], [(0, 0), (0, 0), (0, 1), (1, 0), (0, 1)], [(0, 0), (0, 0), (0, 0), (0, 1), (0, 0)]],
    [[(0, 0), (0, 0), (0, 0), (0, 0), (0, 0)], [(0, 0), (0, 0), (0, 0), (0, 0), (0, 0)], [(0, 0), (0, 0), (0, 0), (0, 0), (0, 0)], [(0, 0), (0, 0), (0, 0), (2, 0), (2, 0)], [(0, 0), (0, 0), (0, 0), (2, 0), (2, 0)]],
    [[(0, 0), (0, 0), (0, 0), (0, 0), (0, 0)], [(0, 0), (0, 0), (0, 0), (0, 0), (0, 0)], [(0, 0), (0, 0), (0, 0), (0, 0), (0, 0)], [(0, 0), (0, 0), (0, 0), (0, 0), (0, 0)], [(0, 0), (0, 0), (0, 0), (0, 0), (4, 0)]]]
def a1 : Mat := ofTab [
    [[(28, 0), (0, 0), (0, 0), (0, 0), (0, 0)], [(0, 0), (0, 0), (0, 0), (0, 0), (0, 0)], [(0, 0), (0, 0), (0, 0), (0, 0), (0, 0)], [(0, 0), (0, 0), (0, 0), (0, 0), (0, 0)], [(0, 0), (0, 0), (0, 0), (0, 0), (0, 0)]],
    [[(14, 0), (14, 0), (0, 0), (0, 0), (0, 0)], [(14, 0), (14, 0), (0, 0), (0, 0), (0, 0)], [(0, 0), (0, 0), (0, 0), (0, 0), (0, 0)], [(0, 0), (0, 0), (0, 0), (0, 0), (0, 0)], [(0, 0), (0, 0), (0, 0), (0, 0), (0, 0)]],
    [[(6, 0), (0, 4), (6, 0), (0, 0), (0, 0)], [(0, 4), (16, 0), (0, 4), (0, 0), (0, 0)], [(6, 0), (0, 4), (6, 0), (0, 0), (0, 0)], [(0, 0), (0, 0), (0, 0), (0, 0), (0, 0)], [(0, 0), (0, 0), (0, 0), (0, 0), (0, 0)]],
    [[(4, 0), (0, 1), (0, 3), (0, 0), (0, 0)], [(0, 1), (15, 0), (9, 0), (0, 3), (0, 0)], [(0, 3), (9, 0), (15, 0), (0, 1), (0, 0)], [(0, 0), (0, 3), (0, 1), (4, 0), (0, 0)], [(0, 0), (0, 0), (0, 0), (0, 0), (0, 0)]],
    [[(8, 0), (-4, 0), (6, 0), (0, 0), (0, 0)], [(-4, 0), (11, 0), (6, 0), (9, 0), (0, 0)], [(6, 0), (6, 0), (18, 0), (6, 0), (6, 0)], [(0, 0), (9, 0), (6, 0), (11, 0), (-4, 0)], [(0, 0), (0, 0), (6, 0), (-4, 0), (8, 0)]],
    [[(0, 0), (0, 0), (0, 0), (0, 0), (0, 0)], [(0, 0), (4, 0), (0, 1), (0, 3), (0, 0)], [(0, 0), (0, 1), (15, 0), (9, 0), (0, 3)], [(0, 0), (0, 3), (9, 0), (15, 0), (0, 1)], [(0, 0), (0, 0), (0, 3), (0, 1), (4, 0)]],
    [[(0, 0), (0, 0), (0, 0), (0, 0), (0, 0)], [(0, 0), (0, 0), (0, 0), (0, 0), (0, 0)], [(0, 0), (0, 0), (6, 0), (0, 4), (6, 0)], [(0, 0), (0, 0), (0, 4), (16, 0), (0, 4)], [(0, 0), (0, 0), (6, 0), (0, 4), (6, 0)]],
    [[(0, 0), (0, 0), (0, 0), (0, 0), (0, 0)], [(0, 0), (0, 0), (0, 0), (0, 0), (0, 0)], [(0, 0), (0, 0), (0, 0), (0, 0), (0, 0)], [(0, 0), (0, 0), (0, 0), (14, 0), (14, 0)], [(0, 0), (0, 0), (0, 0), (14, 0), (14, 0)]],
    [[(0, 0), (0, 0), (0, 0), (0, 0), (0, 0)], [(0, 0), (0, 0), (0, 0), (0, 0), (0, 0)], [(0, 0), (0, 0), (0, 0), (0, 0), (0, 0)], [(0, 0), (0, 0), (0, 0), (0, 0), (0, 0)], [(0, 0), (0, 0), (0, 0), (0, 0), (28, 0)]]]
def a2 : Mat := ofTab [
    [[(252, 0), (0, 0), (0, 0), (0, 0), (0, 0)], [(0, 0), (0, 0), (0, 0), (0, 0), (0, 0)], [(0, 0), (0, 0), (0, 0), (0, 0), (0, 0)], [(0, 0), (0, 0), (0, 0), (0, 0), (0, 0)], [(0, 0), (0, 0), (0, 0), (0, 0), (0, 0)]],
    [[(126, 0), (126, 0), (0, 0), (0, 0), (0, 0)], [(126, 0), (126, 0), (0, 0), (0, 0), (0, 0)], [(0, 0), (0, 0), (0, 0), (0, 0), (0, 0)], [(0, 0), (0, 0), (0, 0), (0, 0), (0, 0)], [(0, 0), (0, 0), (0, 0), (0, 0), (0, 0)]],
    [[(54, 0), (0, 36), (54, 0), (0, 0), (0, 0)], [(0, 36), (144, 0), (0, 36), (0, 0), (0, 0)], [(54, 0), (0, 36), (54, 0), (0, 0), (0, 0)], [(0, 0), (0, 0), (0, 0), (0, 0), (0, 0)], [(0, 0), (0, 0), (0, 0), (0, 0), (0, 0)]],
    [[(18, 0), (0, 18), (0, 18), (18, 0), (0, 0)], [(0, 18), (108, 0), (108, 0), (0, 18), (0, 0)], [(0, 18), (108, 0), (108, 0), (0, 18), (0, 0)], [(18, 0), (0, 18), (0, 18), (18, 0), (0, 0)], [(0, 0), (0, 0), (0, 0), (0, 0), (0, 0)]],
    [[(0, 0), (18, 0), (18, 0), (18, 0), (0, 0)], [(18, 0), (54, 0), (90, 0), (54, 0), (18, 0)], [(18, 0), (90, 0), (126, 0), (90, 0), (18, 0)], [(18, 0), (54, 0), (90, 0), (54, 0), (18, 0)], [(0, 0), (18, 0), (18, 0), (18, 0), (0, 0)]],
    [[(0, 0), (0, 0), (0, 0), (0, 0), (0, 0)], [(0, 0), (18, 0), (0, 18), (0, 18), (18, 0)], [(0, 0), (0, 18), (108, 0), (108, 0), (0, 18)], [(0, 0), (0, 18), (108, 0), (108, 0), (0, 18)], [(0, 0), (18, 0), (0, 18), (0, 18), (18, 0)]],
    [[(0, 0), (0, 0), (0, 0), (0, 0), (0, 0)], [(0, 0), (0, 0), (0, 0), (0, 0), (0, 0)], [(0, 0), (0, 0), (54, 0), (0, 36), (54, 0)], [(0, 0), (0, 0), (0, 36), (144, 0), (0, 36)], [(0, 0), (0, 0), (54, 0), (0, 36), (54, 0)]],
    [[(0, 0), (0, 0), (0, 0), (0, 0), (0, 0)], [(0, 0), (0, 0), (0, 0), (0, 0), (0, 0)], [(0, 0), (0, 0), (0, 0), (0, 0), (0, 0)], [(0, 0), (0, 0), (0, 0), (126, 0), (126, 0)], [(0, 0), (0, 0), (0, 0), (126, 0), (126, 0)]],
    [[(0, 0), (0, 0), (0, 0), (0, 0), (0, 0)], [(0, 0), (0, 0), (0, 0), (0, 0), (0, 0)], [(0, 0), (0, 0), (0, 0), (0, 0), (0, 0)], [(0, 0), (0, 0), (0, 0), (0, 0), (0, 0)], [(0, 0), (0, 0), (0, 0), (0, 0), (252, 0)]]]
def a3 : Mat := ofTab [
    [[(2520, 0), (0, 0), (0, 0), (0, 0), (0, 0)], [(0, 0), (0, 0), (0, 0), (0, 0), (0, 0)], [(0, 0), (0, 0), (0, 0), (0, 0), (0, 0)], [(0, 0), (0, 0), (0, 0), (0, 0), (0, 0)], [(0, 0), (0, 0), (0, 0), (0, 0), (0, 0)]],
    [[(1260, 0), (1260, 0), (0, 0), (0, 0), (0, 0)], [(1260, 0), (1260, 0), (0, 0), (0, 0), (0, 0)], [(0, 0), (0, 0), (0, 0), (0, 0), (0, 0)], [(0, 0), (0, 0), (0, 0), (0, 0), (0, 0)], [(0, 0), (0, 0), (0, 0), (0, 0), (0, 0)]],
    [[(540, 0), (0, 360), (540, 0), (0, 0), (0, 0)], [(0, 360), (1440, 0), (0, 360), (0, 0), (0, 0)], [(540, 0), (0, 360), (540, 0), (0, 0), (0, 0)], [(0, 0), (0, 0), (0, 0), (0, 0), (0, 0)], [(0, 0), (0, 0), (0, 0), (0, 0), (0, 0)]],
    [[(180, 0), (0, 180), (0, 180), (180, 0), (0, 0)], [(0, 180), (1080, 0), (1080, 0), (0, 180), (0, 0)], [(0, 180), (1080, 0), (1080, 0), (0, 180), (0, 0)], [(180, 0), (0, 180), (0, 180), (180, 0), (0, 0)], [(0, 0), (0, 0), (0, 0), (0, 0), (0, 0)]],
    [[(36, 0), (144, 0), (216, 0), (144, 0), (36, 0)], [(144, 0), (576, 0), (864, 0), (576, 0), (144, 0)], [(216, 0), (864, 0), (1296, 0), (864, 0), (216, 0)], [(144, 0), (576, 0), (864, 0), (576, 0), (144, 0)], [(36, 0), (144, 0), (216, 0), (144, 0), (36, 0)]],
    [[(0, 0), (0, 0), (0, 0), (0, 0), (0, 0)], [(0, 0), (180, 0), (0, 180), (0, 180), (180, 0)], [(0, 0), (0, 180), (1080, 0), (1080, 0), (0, 180)], [(0, 0), (0, 180), (1080, 0), (1080, 0), (0, 180)], [(0, 0), (180, 0), (0, 180), (0, 180), (180, 0)]],
    [[(0, 0), (0, 0), (0, 0), (0, 0), (0, 0)], [(0, 0), (0, 0), (0, 0), (0, 0), (0, 0)], [(0, 0), (0, 0), (540, 0), (0, 360), (540, 0)], [(0, 0), (0, 0), (0, 360), (1440, 0), (0, 360)], [(0, 0), (0, 0), (540, 0), (0, 360), (540, 0)]],
    [[(0, 0), (0, 0), (0, 0), (0, 0), (0, 0)], [(0, 0), (0, 0), (0, 0), (0, 0), (0, 0)], [(0, 0), (0, 0), (0, 0), (0, 0), (0, 0)], [(0, 0), (0, 0), (0, 0), (1260, 0), (1260, 0)], [(0, 0), (0, 0), (0, 0), (1260, 0), (1260, 0)]],
    [[(0, 0), (0, 0), (0, 0), (0, 0), (0, 0)], [(0, 0), (0, 0), (0, 0), (0, 0), (0, 0)], [(0, 0), (0, 0), (0, 0), (0, 0), (0, 0)], [(0, 0), (0, 0), (0, 0), (0, 0), (0, 0)], [(0, 0), (0, 0), (0, 0), (0, 0), (2520, 0)]]]

def shift (n : Int) (A : Mat) : Mat := fun r s => A r s + if r = s then (n : Z6) else 0

def same (f g : Fin 5 × Fin 5 → Fin 5 × Fin 5 → Z6) : Bool := decide (∀ r s, f r s = g r s)
theorem same_spec {f g : Fin 5 × Fin 5 → Fin 5 × Fin 5 → Z6} (h : same f g = true) : ∀ r s, f r s = g r s := of_decide_eq_true h

theorem x_twice : ∀ r s, twice r s = 2 * x r s := same_spec (show same (fun r s => twice r s) (fun r s => 2 * x r s) = true by decide +kernel)
theorem a1_eq : ∀ r s, ∑ k, x r k * shift 3 x k s = a1 r s := same_spec (show same (fun r s => ∑ k, x r k * shift 3 x k s) (fun r s => a1 r s) = true by decide +kernel)
theorem a2_eq : ∀ r s, ∑ k, a1 r k * shift 5 x k s = a2 r s := same_spec (show same (fun r s => ∑ k, a1 r k * shift 5 x k s) (fun r s => a2 r s) = true by decide +kernel)
theorem a3_eq : ∀ r s, ∑ k, a2 r k * shift 6 x k s = a3 r s := same_spec (show same (fun r s => ∑ k, a2 r k * shift 6 x k s) (fun r s => a3 r s) = true by decide +kernel)
theorem a4_eq : ∀ r s, ∑ k, a3 r k * shift (-4) x k s = 0 := same_spec (show same (fun r s => ∑ k, a3 r k * shift (-4) x k s) (fun r s => 0) = true by decide +kernel)

theorem shift_eq (n : Int) (A : Mat) : shift n A = A + (n : Z6) • (1 : Mat) := by
  ext r s <;> simp [shift, Matrix.one_apply]

theorem product : x * (x + (3 : Z6) • (1 : Mat)) * (x + (5 : Z6) • (1 : Mat)) * (x + (6 : Z6) • (1 : Mat)) = a3 := by
  have h1 : x * (x + (3 : Z6) • (1 : Mat)) = a1 := by
    have := shift_eq 3 x
    push_cast at this
    rw [← this]
    exact Matrix.ext a1_eq
  have h2 : a1 * (x + (5 : Z6) • (1 : Mat)) = a2 := by
    have := shift_eq 5 x
    push_cast at this
    rw [← this]
    exact Matrix.ext a2_eq
  have h3 : a2 * (x + (6 : Z6) • (1 : Mat)) = a3 := by
    have := shift_eq 6 x
    push_cast at this
    rw [← this]
    exact Matrix.ext a3_eq
  rw [h1, h2, h3]

/-- The minimal polynomial. -/
theorem minimal : x * (x + (3 : Z6) • (1 : Mat)) * (x + (5 : Z6) • (1 : Mat)) * (x + (6 : Z6) • (1 : Mat)) * (x + (-4 : Z6) • (1 : Mat)) = 0 := by
  have h4 : a3 * (x + (-4 : Z6) • (1 : Mat)) = 0 := by
    have := shift_eq (-4) x
    push_cast at this
    rw [← this]
    exact Matrix.ext a4_eq
  rw [product, h4]

end Verif.Models.Aklt
