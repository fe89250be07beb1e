import Verif.Models.PairProps
/-
Product states with a physical index of any dimension: used for counterexamples and to show that hypotheses are met.
-/
namespace Verif.Models
open Tensor Ctm Ctm.Spec Spec
open Corrf (pEnv)

def gDims (p : Nat) : Dims := ⟨fun _ => p, fun _ => 1, fun _ => 1, fun _ => 1, fun _ => 1, fun _ => 1, fun _ => 1⟩
def gSite (p : Nat) (v : Nat → ℂ) : Tensor ℂ := ⟨[p, 1, 1, 1, 1], fun idx => v (idx.getD 0 0)⟩

/-- The product state with the vector `v c` on site `c` of the cell. -/
def gState (p : Nat) (keys : List Coord) (vts : Coord → Coord) (v : Coord → Nat → ℂ) : State ℂ := { keys := keys, sites := fun c => some (gSite p (v c)), vts := vts, lX := 1, lY := 1 }

def gTensors (p : Nat) (vts : Coord → Coord) (v : Coord → Nat → ℂ) : Corrf.Spec.Tensors ℂ :=
  ⟨fun _ => ⟨[1, 1], fun _ => 1⟩, fun _ => ⟨[1, 1], fun _ => 1⟩, fun _ => ⟨[1, 1], fun _ => 1⟩, fun _ => ⟨[1, 1], fun _ => 1⟩, fun _ => ⟨[1, 1, 1], fun _ => 1⟩,
    fun _ => ⟨[1, 1, 1], fun _ => 1⟩, fun _ => ⟨[1, 1, 1], fun _ => 1⟩, fun _ => ⟨[1, 1, 1], fun _ => 1⟩, fun c => gSite p (v (vts c))⟩

/-- The expectation value on one site. -/
noncomputable def gExpect (p : Nat) (v : Nat → ℂ) (o : Corrf.Spec.Op ℂ) : ℂ := ∑ s' ∈ Finset.range p, ∑ s ∈ Finset.range p, star (v s') * o s' s * v s

section
variable {p : Nat} (keys : List Coord) (vts : Coord → Coord) (v : Coord → Nat → ℂ)

theorem gSizes {n : Nat} (h : 0 < n) : Sizes (gState p keys vts v) (fun _ => n) := ⟨fun _ => h, fun _ => rfl⟩
theorem gFitsState (hp : 0 < p) : FitsState (gDims p) (gState p keys vts v) :=
  ⟨fun _ => ⟨_, rfl, rfl⟩, gSizes _ _ _ hp, gSizes _ _ _ (by decide), gSizes _ _ _ (by decide)⟩
theorem gFitsEnv : FitsEnv (gDims p) (gState p keys vts v) pEnv := by
  refine ⟨?_, ?_, ?_, ?_, ?_, ?_, ?_, ?_, gSizes _ _ _ (by decide), gSizes _ _ _ (by decide), gSizes _ _ _ (by decide), gSizes _ _ _ (by decide)⟩ <;> exact fun _ => ⟨_, rfl, rfl⟩
theorem gReads : Corrf.Spec.Reads (gState p keys vts v) pEnv (gTensors p vts v) :=
  ⟨fun _ => rfl, fun _ => rfl, fun _ => rfl, fun _ => rfl, fun _ => rfl, fun _ => rfl, fun _ => rfl, fun _ => rfl, fun _ => rfl⟩

theorem gLayer (w : Nat → ℂ) (o : Corrf.Spec.Op ℂ) (u l d r : Nat) : Corrf.Spec.layer (gSite p w) o u l d r = gExpect p w o := by
  simp [Corrf.Spec.layer, gExpect, gSite, size]

theorem gStep (d : Dir) (c : Coord) (o : Corrf.Spec.Op ℂ) (f : Corrf.Spec.Vec ℂ) (x y z : Nat) :
    Corrf.Spec.step (gTensors p vts v) (gDims p) d c o f x y z = f 0 0 0 * gExpect p (v (vts c)) o := by
  cases d <;> simp [Corrf.Spec.step, Corrf.Spec.cut, Corrf.Spec.sides, gDims, Corrf.Spec.first, Corrf.Spec.second, Corrf.Spec.middle, gTensors, gLayer]

theorem gEdge (d : Dir) (c : Coord) (x y z : Nat) : Corrf.Spec.edge (gTensors p vts v) (gDims p) d c x y z = 1 := by
  cases d <;> simp [Corrf.Spec.edge, gDims, gTensors]

theorem gDot (d : Dir) (c : Coord) (f g : Corrf.Spec.Vec ℂ) : Corrf.Spec.dot (Corrf.Spec.cut (gDims p) d c) f g = f 0 0 0 * g 0 0 0 := by
  cases d <;> simp [Corrf.Spec.dot, Corrf.Spec.cut, gDims]

/-- The product of the expectation values along the strip. -/
noncomputable def gAlong (p : Nat) (d : Dir) : Coord → List (Corrf.Spec.Op ℂ) → ℂ
  | _, [] => 1
  | c, o :: os => gExpect p (v (vts c)) o * gAlong p d (Corrf.Spec.ahead d c 1) os

theorem gGrow (d : Dir) (c : Coord) (os : List (Corrf.Spec.Op ℂ)) (f : Corrf.Spec.Vec ℂ) (g : ℂ) (hf : ∀ x y z, f x y z = g) (x y z : Nat) :
    Corrf.Spec.grow (gTensors p vts v) (gDims p) d c os f x y z = g * gAlong vts v p d c os := by
  induction os generalizing c f g with
  | nil => simp [Corrf.Spec.grow, hf, gAlong]
  | cons o os ih =>
    simp only [Corrf.Spec.grow, gAlong]
    rw [ih _ _ (g * gExpect p (v (vts c)) o) (fun x y z => by rw [gStep, hf]), mul_assoc]

theorem gNetwork (d : Dir) (c : Coord) (os : List (Corrf.Spec.Op ℂ)) : Corrf.Spec.network (gTensors p vts v) (gDims p) d c os = gAlong vts v p d c os := by
  rw [Corrf.Spec.network, gDot, gEdge, mul_one, gGrow vts v d c os _ 1 (gEdge vts v _ _), one_mul]

theorem gNorm (hv : ∀ c, gExpect p (v c) Corrf.Spec.one = 1) (d : Dir) (c : Coord) (n : Nat) : Corrf.Spec.norm (gTensors p vts v) (gDims p) d c n = 1 := by
  rw [Corrf.Spec.norm, gNetwork]
  induction n generalizing c with
  | zero => rfl
  | succ n ih => rw [List.replicate_succ, gAlong, hv, ih, one_mul]

theorem gUnit (w : Nat → ℂ) (i j : Fin p) : gExpect p w (Corrf.Spec.unit i j) = star (w i) * w j := by
  have hi := i.isLt
  have hj := j.isLt
  rw [gExpect, Finset.sum_eq_single (i : Nat), Finset.sum_eq_single (j : Nat)]
  · simp [Corrf.Spec.unit]
  · intro b _ hb; simp [Corrf.Spec.unit, hb]
  · intro h; simp at h
  · intro b _ hb; simp [Corrf.Spec.unit, hb]
  · intro h; simp at h

/-- The operator on two sites of a product state. -/
theorem gBondNet (d : Dir) (c : Coord) (H : Op2 p) : bondNet (gTensors p vts v) (gDims p) d c H =
    ∑ r, ∑ s, H r s * ((star (v (vts c) r.1) * v (vts c) s.1) * (star (v (vts (Corrf.Spec.ahead d c 1)) r.2) * v (vts (Corrf.Spec.ahead d c 1)) s.2)) := by
  rw [bondNet]
  refine Finset.sum_congr rfl fun r _ => Finset.sum_congr rfl fun s _ => ?_
  rw [Corrf.Spec.twoPoint, gNetwork]
  simp [gAlong, gUnit]

theorem gBond (hv : ∀ c, gExpect p (v c) Corrf.Spec.one = 1) (d : Dir) (c : Coord) (H : Op2 p) : bond (gTensors p vts v) (gDims p) d c H =
    (∑ r, ∑ s, H r s * ((star (v (vts c) r.1) * v (vts c) s.1) * (star (v (vts (Corrf.Spec.ahead d c 1)) r.2) * v (vts (Corrf.Spec.ahead d c 1)) s.2))).re := by
  rw [bond, gBondNet, gNorm vts v hv]
  simp
end

/-! ### Spins up and down -/

/-- The vector with one component. -/
def ket (x : Nat) (n : Nat) : ℂ := if n = x then 1 else 0

theorem ket_norm {p x : Nat} (hx : x < p) : gExpect p (ket x) Corrf.Spec.one = 1 := by
  rw [gExpect, Finset.sum_eq_single x, Finset.sum_eq_single x]
  · simp [ket, Corrf.Spec.one]
  · intro b _ hb; simp [ket, hb]
  · intro h; simp at h; omega
  · intro b _ hb; simp [ket, hb]
  · intro h; simp at h; omega

/-- The diagonal entry of the operator. -/
theorem ketBond {p : Nat} (vts : Coord → Coord) (x : Coord → Fin p) (d : Dir) (c : Coord) (H : Op2 p) :
    bond (gTensors p vts (fun c => ket (x c))) (gDims p) d c H = (H (x (vts c), x (vts (Corrf.Spec.ahead d c 1))) (x (vts c), x (vts (Corrf.Spec.ahead d c 1)))).re := by
  rw [gBond vts _ (fun c => ket_norm (x c).isLt), Finset.sum_eq_single (x (vts c), x (vts (Corrf.Spec.ahead d c 1))), Finset.sum_eq_single (x (vts c), x (vts (Corrf.Spec.ahead d c 1)))]
  · simp [ket]
  · rintro ⟨a, b⟩ _ hb
    by_cases h1 : a = x (vts c)
    · have h2 : (b : Nat) ≠ x (vts (Corrf.Spec.ahead d c 1)) := fun h => hb (by rw [h1, Fin.ext h])
      simp [ket, h2]
    · have h2 : (a : Nat) ≠ x (vts c) := fun h => h1 (Fin.ext h)
      simp [ket, h2]
  · intro h; simp at h
  · rintro ⟨a, b⟩ _ hb
    refine Finset.sum_eq_zero fun s _ => ?_
    by_cases h1 : a = x (vts c)
    · have h2 : (b : Nat) ≠ x (vts (Corrf.Spec.ahead d c 1)) := fun h => hb (by rw [h1, Fin.ext h])
      simp [ket, h2]
    · have h2 : (a : Nat) ≠ x (vts c) := fun h => h1 (Fin.ext h)
      simp [ket, h2]
  · intro h; simp at h

end Verif.Models
