import Verif.Energy.CorrModel
import Verif.Energy.C4vProps
/-
Two-point functions: linearity in the operators, states with one sublattice rotated.
-/
namespace Verif.Energy
open Tensor Ctm Ctm.Spec

namespace Spec

/-- `<o(c) o'(c + (r+1) d)>` in the strip. -/
noncomputable def corr (N : Corrf.Spec.Tensors ℂ) (D : Dims) (d : Dir) (c : Coord) (o o' : Corrf.Spec.Op ℂ) (r : Nat) : ℂ :=
  Corrf.Spec.twoPoint N D d c o o' r / Corrf.Spec.norm N D d c (r + 2)

/-- Whether `c` is on the other sublattice than `c0`. -/
def other (c0 c : Coord) : Bool := (c.1 + c.2 - (c0.1 + c0.2)) % 2 != 0

/-- The state with the physical space of all sites of the sublattice that does not contain `c0` rotated. -/
noncomputable def stagger (c0 : Coord) (N : Corrf.Spec.Tensors ℂ) : Corrf.Spec.Tensors ℂ := { N with a := fun c => if other c0 c then rotated (N.a c) else N.a c }

end Spec

/-! ### Linearity -/

section
variable {N : Corrf.Spec.Tensors ℂ} {D : Dims} {ι : Type}

theorem step_ops (s : Finset ι) (w : ι → ℂ) (O : ι → Corrf.Spec.Op ℂ) (d : Dir) (c : Coord) (E : Corrf.Spec.Vec ℂ) (x y z : Nat) :
    Corrf.Spec.step N D d c (fun i j => ∑ k ∈ s, w k * O k i j) E x y z = ∑ k ∈ s, w k * Corrf.Spec.step N D d c (O k) E x y z := by
  rw [Corrf.step_expand]
  simp only [fun k => Corrf.step_expand (N := N) (D := D) d c (O k) E x y z]
  simp only [Finset.mul_sum, Finset.sum_mul]
  rw [Finset.sum_congr rfl fun i _ => Finset.sum_comm]
  rw [Finset.sum_comm]
  exact Finset.sum_congr rfl fun _ _ => Finset.sum_congr rfl fun _ _ => Finset.sum_congr rfl fun _ _ => by ring

theorem grow_vec (s : Finset ι) (w : ι → ℂ) (d : Dir) (os : List (Corrf.Spec.Op ℂ)) : ∀ (c : Coord) (F : ι → Corrf.Spec.Vec ℂ),
    Corrf.Spec.grow N D d c os (fun x y z => ∑ k ∈ s, w k * F k x y z) = fun x y z => ∑ k ∈ s, w k * Corrf.Spec.grow N D d c os (F k) x y z := by
  induction os with
  | nil => intro c F; rfl
  | cons o os ih =>
    intro c F
    have : Corrf.Spec.step N D d c o (fun x y z => ∑ k ∈ s, w k * F k x y z) = fun x y z => ∑ k ∈ s, w k * Corrf.Spec.step N D d c o (F k) x y z := by
      funext x y z
      exact Corrf.step_vec s w F d c o x y z
    rw [Corrf.Spec.grow, this, ih]
    rfl

theorem dot_vec (s : Finset ι) (w : ι → ℂ) (t : Nat × Nat × Nat) (F : ι → Corrf.Spec.Vec ℂ) (G : Corrf.Spec.Vec ℂ) :
    Corrf.Spec.dot t (fun x y z => ∑ k ∈ s, w k * F k x y z) G = ∑ k ∈ s, w k * Corrf.Spec.dot t (F k) G := by
  simp only [Corrf.Spec.dot, Finset.mul_sum, Finset.sum_mul]
  rw [Finset.sum_congr rfl fun x _ => (Finset.sum_congr rfl fun y _ => Finset.sum_comm).trans Finset.sum_comm, Finset.sum_comm]
  exact Finset.sum_congr rfl fun _ _ => Finset.sum_congr rfl fun _ _ => Finset.sum_congr rfl fun _ _ => Finset.sum_congr rfl fun _ _ => by ring

theorem twoPoint_left (s : Finset ι) (w : ι → ℂ) (O : ι → Corrf.Spec.Op ℂ) (o : Corrf.Spec.Op ℂ) (d : Dir) (c : Coord) (r : Nat) :
    Corrf.Spec.twoPoint N D d c (fun i j => ∑ k ∈ s, w k * O k i j) o r = ∑ k ∈ s, w k * Corrf.Spec.twoPoint N D d c (O k) o r := by
  have : ∀ E, Corrf.Spec.step N D d c (fun i j => ∑ k ∈ s, w k * O k i j) E = fun x y z => ∑ k ∈ s, w k * Corrf.Spec.step N D d c (O k) E x y z := fun E => by
    funext x y z
    exact step_ops s w O d c E x y z
  simp only [Corrf.Spec.twoPoint, Corrf.Spec.network, List.cons_append, Corrf.Spec.grow, this, grow_vec, dot_vec]
  rfl

theorem twoPoint_right (s : Finset ι) (w : ι → ℂ) (O : ι → Corrf.Spec.Op ℂ) (o : Corrf.Spec.Op ℂ) (d : Dir) (c : Coord) (r : Nat) :
    Corrf.Spec.twoPoint N D d c o (fun i j => ∑ k ∈ s, w k * O k i j) r = ∑ k ∈ s, w k * Corrf.Spec.twoPoint N D d c o (O k) r := by
  have : ∀ c E, Corrf.Spec.step N D d c (fun i j => ∑ k ∈ s, w k * O k i j) E = fun x y z => ∑ k ∈ s, w k * Corrf.Spec.step N D d c (O k) E x y z := fun c E => by
    funext x y z
    exact step_ops s w O d c E x y z
  simp only [Corrf.Spec.twoPoint, Corrf.Spec.network, Corrf.grow_append, this, dot_vec, List.length_append, List.length_cons, List.length_nil]

/-- Multiples. -/
theorem twoPoint_smul (w w' : ℂ) (o o' : Corrf.Spec.Op ℂ) (d : Dir) (c : Coord) (r : Nat) :
    Corrf.Spec.twoPoint N D d c (fun i j => w * o i j) (fun i j => w' * o' i j) r = w * w' * Corrf.Spec.twoPoint N D d c o o' r := by
  have h1 := twoPoint_left (N := N) (D := D) (Finset.univ : Finset Unit) (fun _ => w) (fun _ => o) (fun i j => w' * o' i j) d c r
  have h2 := twoPoint_right (N := N) (D := D) (Finset.univ : Finset Unit) (fun _ => w') (fun _ => o') o d c r
  simp only [Finset.univ_unique, Finset.sum_singleton] at h1 h2
  rw [h1, h2]
  ring

end

/-! ### Rotated sublattices -/

section
variable {N : Corrf.Spec.Tensors ℂ} {D : Dims}

theorem layer_rotated {a : Tensor ℂ} (ha : a.size 0 = 2) (o : Corrf.Spec.Op ℂ) (u l d r : Nat) : Corrf.Spec.layer (Spec.rotated a) o u l d r = Corrf.Spec.layer a (conjO true o) u l d r := by
  have hsz : ∀ n, (Spec.rotated a).size n = a.size n := fun _ => rfl
  simp only [Corrf.Spec.layer, hsz, ha, conjO]
  simp only [sum_range2, rotated_val a 0 (by decide), rotated_val a 1 (by decide), se, fb]
  simp
  ring

theorem step_stagger (hN : ∀ c, (N.a c).size 0 = 2) (c0 : Coord) (d : Dir) (c : Coord) (o : Corrf.Spec.Op ℂ) (E : Corrf.Spec.Vec ℂ) :
    Corrf.Spec.step (Spec.stagger c0 N) D d c o E = Corrf.Spec.step N D d c (conjO (Spec.other c0 c) o) E := by
  have hm : ∀ y m n y', Corrf.Spec.middle (Spec.stagger c0 N) d c o y m n y' = Corrf.Spec.middle N d c (conjO (Spec.other c0 c) o) y m n y' := by
    intro y m n y'
    have hl : ∀ u l d' r, Corrf.Spec.layer ((Spec.stagger c0 N).a c) o u l d' r = Corrf.Spec.layer (N.a c) (conjO (Spec.other c0 c) o) u l d' r := by
      intro u l d' r
      simp only [Spec.stagger]
      cases Spec.other c0 c
      · have : conjO false o = o := by funext i j; simp [conjO, se, fb]
        rw [this]
        rfl
      · exact layer_rotated (hN c) o u l d' r
    cases d <;> exact hl _ _ _ _
  have hf : ∀ x m x', Corrf.Spec.first (Spec.stagger c0 N) d c x m x' = Corrf.Spec.first N d c x m x' := by intro x m x'; cases d <;> rfl
  have hg : ∀ x m x', Corrf.Spec.second (Spec.stagger c0 N) d c x m x' = Corrf.Spec.second N d c x m x' := by intro x m x'; cases d <;> rfl
  funext x y z
  simp only [Corrf.Spec.step, hm, hf, hg]

/-- The operators of a strip, rotated on the other sublattice. -/
noncomputable def flipAll (c0 : Coord) (d : Dir) : Coord → List (Corrf.Spec.Op ℂ) → List (Corrf.Spec.Op ℂ)
  | _, [] => []
  | c, o :: os => conjO (Spec.other c0 c) o :: flipAll c0 d (Corrf.Spec.ahead d c 1) os

theorem flipAll_length (c0 : Coord) (d : Dir) (os : List (Corrf.Spec.Op ℂ)) : ∀ c, (flipAll c0 d c os).length = os.length := by
  induction os with
  | nil => intro c; rfl
  | cons o os ih => intro c; simp [flipAll, ih]

theorem grow_stagger (hN : ∀ c, (N.a c).size 0 = 2) (c0 : Coord) (d : Dir) (os : List (Corrf.Spec.Op ℂ)) : ∀ (c : Coord) (E : Corrf.Spec.Vec ℂ),
    Corrf.Spec.grow (Spec.stagger c0 N) D d c os E = Corrf.Spec.grow N D d c (flipAll c0 d c os) E := by
  induction os with
  | nil => intro c E; rfl
  | cons o os ih => intro c E; rw [Corrf.Spec.grow, flipAll, Corrf.Spec.grow, step_stagger hN, ih]

theorem stagger_edge (c0 : Coord) (d : Dir) (c : Coord) : Corrf.Spec.edge (Spec.stagger c0 N) D d c = Corrf.Spec.edge N D d c := by
  funext x y z
  cases d <;> rfl

theorem network_stagger (hN : ∀ c, (N.a c).size 0 = 2) (c0 : Coord) (d : Dir) (c : Coord) {os os' : List (Corrf.Spec.Op ℂ)} (h : List.Forall₂ Agree (flipAll c0 d c os) os') :
    Corrf.Spec.network (Spec.stagger c0 N) D d c os = Corrf.Spec.network N D d c os' := by
  have hl : os'.length = os.length := by rw [← h.length_eq, flipAll_length]
  rw [Corrf.Spec.network, Corrf.Spec.network, grow_stagger hN, stagger_edge, stagger_edge, grow_agree D hN d h, hl]

theorem agree_one (b : Bool) : Agree (conjO b Corrf.Spec.one) Corrf.Spec.one := fun _ hi _ hj => conj_one b hi hj

theorem norm_stagger (hN : ∀ c, (N.a c).size 0 = 2) (c0 : Coord) (d : Dir) (c : Coord) (n : Nat) : Corrf.Spec.norm (Spec.stagger c0 N) D d c n = Corrf.Spec.norm N D d c n := by
  refine network_stagger hN c0 d c ?_
  induction n generalizing c with
  | zero => exact .nil
  | succ n ih => exact .cons (agree_one _) (ih _)

theorem other_ahead (d : Dir) (c : Coord) (n : Nat) : Spec.other c (Corrf.Spec.ahead d c n) = (n % 2 != 0) := by
  have : ∀ x : Int, (x + (n : Int) - x) % 2 = ((n % 2 : Nat) : Int) := by intro x; omega
  have h2 : ∀ x : Int, (x + -(n : Int) - x) % 2 = ((n % 2 : Nat) : Int) := by intro x; omega
  have key : ((Corrf.Spec.ahead d c n).1 + (Corrf.Spec.ahead d c n).2 - (c.1 + c.2)) % 2 = ((n % 2 : Nat) : Int) := by
    cases d <;> simp only [Corrf.Spec.ahead, Dir.vec] <;> omega
  rw [Spec.other, key]
  rcases Nat.mod_two_eq_zero_or_one n with h | h <;> rw [h] <;> rfl

theorem twoPoint_stagger (hN : ∀ c, (N.a c).size 0 = 2) (d : Dir) (c : Coord) (o o' : Corrf.Spec.Op ℂ) (r : Nat) :
    Corrf.Spec.twoPoint (Spec.stagger c N) D d c o o' r = Corrf.Spec.twoPoint N D d c o (conjO (r % 2 == 0) o') r := by
  refine network_stagger hN c d c (.cons ?_ ?_)
  · have := other_ahead d c 0
    rw [Rdm.ahead_zero] at this
    rw [this]
    intro i _ j _
    simp [conjO, se, fb]
  · have key : ∀ (n m : Nat) (o'' : Corrf.Spec.Op ℂ), o'' = conjO ((m + n) % 2 != 0) o' →
        List.Forall₂ Agree (flipAll c d (Corrf.Spec.ahead d c m) (List.replicate n Corrf.Spec.one ++ [o'])) (List.replicate n Corrf.Spec.one ++ [o'']) := by
      intro n
      induction n with
      | zero =>
        intro m o'' ho
        refine .cons ?_ .nil
        rw [other_ahead, ho]
        exact fun _ _ _ _ => rfl
      | succ n ih =>
        intro m o'' ho
        refine .cons (agree_one _) ?_
        have : Corrf.Spec.ahead d (Corrf.Spec.ahead d c m) 1 = Corrf.Spec.ahead d c (m + 1) := by
          simp only [Corrf.Spec.ahead, Prod.mk.injEq]
          push_cast
          constructor <;> ring
        rw [this]
        exact ih (m + 1) o'' (by rw [ho]; congr 2; omega)
    refine key r 1 _ ?_
    congr 1
    rcases Nat.mod_two_eq_zero_or_one r with h | h
    · rw [h, show (1 + r) % 2 = 1 by omega]; rfl
    · rw [h, show (1 + r) % 2 = 0 by omega]; rfl

end
end Verif.Energy
