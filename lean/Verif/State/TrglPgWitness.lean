import Verif.State.TrglPgProps
/-
Concrete symmetric states on the triangular lattice; the symmetry of the models that the ansatz lacks (C131).
-/
namespace Verif.TrglPg
open Verif.State
open Verif.Tensor
open Verif.Kagome (Err Ten Irrep lift lift_ok bind_ok)
open Verif.Kagome.Spec (Cyclic Mirror squareAmplitude)
open Spec

/-- Every triangle chooses 0 or 1. -/
def auxN (a b c : Nat) : Nat := if a = b ∧ b = c then 1 else 0
/-- A spin is up exactly if one of its triangles chooses 1. -/
def physN (a b c s : Nat) : Nat := if (s = 0 ↔ a = 0 ∧ b = 0 ∧ c = 0) then 1 else 0

noncomputable def exAux : Tensor ℂ := ⟨[2, 2, 2], fun i => match i with | [a, b, c] => (auxN a b c : ℂ) | _ => 0⟩
noncomputable def exPhys : Tensor ℂ := ⟨[2, 2, 2, 2], fun i => match i with | [a, b, c, s] => (physN a b c s : ℂ) | _ => 0⟩

noncomputable def exEl : Elem := ⟨⟨false, exAux⟩, ⟨false, exPhys⟩⟩
def exPgs : Pgs := [(.aux, some .A1), (.phys, some .A1)]

theorem exAux_in : AuxIn .A1 exAux := by
  refine ⟨Or.inl rfl, 2, rfl, ?_, ?_⟩
  · intro a b c _ _ _
    show ((auxN b c a : ℕ) : ℂ) = (auxN a b c : ℕ)
    have : auxN b c a = auxN a b c := by unfold auxN; congr 1; apply propext; constructor <;> (rintro ⟨h1, h2⟩; omega)
    rw [this]
  · intro s a b _ _ _
    show ((auxN s b a : ℕ) : ℂ) = 1 * star ((auxN s a b : ℕ) : ℂ)
    have : auxN s b a = auxN s a b := by unfold auxN; congr 1; apply propext; constructor <;> (rintro ⟨h1, h2⟩; omega)
    rw [this, one_mul, star_natCast]

theorem exPhys_in : PhysIn .ttphys .A1 exPhys := by
  refine ⟨Or.inl rfl, 2, 2, rfl, ?_⟩
  intro s _
  refine ⟨?_, ?_⟩
  · intro a b c _ _ _
    show ((physN b c a s : ℕ) : ℂ) = (physN a b c s : ℕ)
    have : physN b c a s = physN a b c s := by unfold physN; congr 1; apply propext; constructor <;> (intro h; omega)
    rw [this]
  · intro a b c _ _ _
    show ((physN a c b s : ℕ) : ℂ) = 1 * star ((physN a b c s : ℕ) : ℂ)
    have : physN a c b s = physN a b c s := by unfold physN; congr 1; apply propext; constructor <;> (intro h; omega)
    rw [this, one_mul, star_natCast]

theorem exEl_symm : Symmetric .ttphys exPgs exEl := by
  constructor
  · intro p hp
    simp [exPgs, dictFind] at hp
    subst hp; exact exAux_in
  · intro p hp
    simp [exPgs, dictFind] at hp
    subst hp; exact exPhys_in

/-- The state of the two tensors. -/
theorem ex_state : ∃ s, mk .ttphys exEl exPgs false = .ok s ∧ s.kind = .ttphys ∧ s.el = exEl ∧ s.pgs = exPgs := by
  obtain ⟨A, hA⟩ := build_tt (el := exEl) rfl (nl := 2) (nd := 2) (nx := 2) (nu := 2) (nr := 2) (np := 2) rfl rfl
  exact ⟨⟨.ttphys, exPgs, exEl, A⟩, by unfold mk; rw [if_pos (by decide)]; exact bind_ok.2 ⟨exEl, rfl, bind_ok.2 ⟨A, hA, rfl⟩⟩, rfl, rfl, rfl⟩

theorem mk_inv {k : Kind} {el : Elem} {pgs : Pgs} {sy : Bool} {s : TState} (h : mk k el pgs sy = .ok s) :
    keysOk pgs = true ∧ s.kind = k ∧ s.pgs = pgs ∧ ifSymm sy k pgs el = .ok s.el ∧ build k s.el = .ok s.site := by
  unfold mk at h
  split at h
  · rename_i hk
    obtain ⟨el', h1, h⟩ := bind_ok.1 h
    obtain ⟨A, h2, h⟩ := bind_ok.1 h
    cases Except.ok.inj h
    exact ⟨hk, rfl, rfl, h1, h2⟩
  · cases h

/-- Non-vacuity of C131_rotation and C131_mirror. -/
example : ∃ s : TState, s.kind = .ttphys ∧ IsSite s.kind s.el s.site ∧ Symmetric s.kind s.pgs s.el ∧
    dictFind s.pgs .aux = some (some .A1) ∧ dictFind s.pgs .phys = some (some .A1) := by
  obtain ⟨s, h, hk, he, hp⟩ := ex_state
  refine ⟨s, hk, ?_, by rw [hk, he, hp]; exact exEl_symm, by rw [hp]; rfl, by rw [hp]; rfl⟩
  rw [hk]
  exact build_site (mk_inv h).2.2.2.2

/-- A bond tensor that changes sign under reflections. -/
noncomputable def exBond : Tensor ℂ := ⟨[2, 2, 2], fun i => match i with | [a, b, s] => ((a : ℂ) - b) * (s + 1) | _ => 0⟩

/-- Non-vacuity of C131_inversion, with the irreps A_1 and B; the site tensor does not vanish. -/
example : ∃ s : TState, s.kind = .tbt ∧ IsSite s.kind s.el s.site ∧ Symmetric s.kind s.pgs s.el ∧
    dictFind s.pgs .aux = some (some .A1) ∧ dictFind s.pgs .phys = some (some .B) ∧ s.site.t.val [1, 0, 1, 1, 0] = 2 := by
  obtain ⟨A, hA⟩ := build_tbt (el := ⟨⟨false, exAux⟩, ⟨false, exBond⟩⟩) rfl (nl := 2) (nd := 2) (nx := 2) (np := 2) rfl rfl
  have hs := build_site hA
  refine ⟨⟨.tbt, [(.aux, some .A1), (.phys, some .B)], ⟨⟨false, exAux⟩, ⟨false, exBond⟩⟩, A⟩, rfl, hs, ⟨?_, ?_⟩, rfl, rfl, ?_⟩
  · intro p hp
    simp [dictFind] at hp
    subst hp; exact exAux_in
  · intro p hp
    simp [dictFind] at hp
    subst hp
    refine ⟨Or.inr rfl, 2, 2, rfl, ?_⟩
    intro a b s _ _ _
    show ((b : ℂ) - a) * (s + 1) = -1 * star (((a : ℂ) - b) * (s + 1))
    simp
    ring
  · obtain ⟨_, _, nl, nd, nx, np, e1, e2, _, hv⟩ := hs
    have e1 : [2, 2, 2] = [nl, nd, nx] := e1
    have e2 : [2, 2, 2] = [nx, nl, np] := e2
    simp only [List.cons.injEq, and_true] at e1 e2
    obtain ⟨rfl, rfl, rfl⟩ := e1
    obtain ⟨_, _, rfl⟩ := e2
    show A.t.val [1, 0, 1, 1, 0] = 2
    rw [hv 1 0 1 1 0 (by simp) (by simp) (by simp) (by simp) (by simp)]
    simp [siteTBT, exAux, exBond, auxN]
    norm_num

/-- The projection moves a tensor outside the irrep: one entry of `t_phys` is spread over three. -/
example : ∃ Y, symmPhys .ttphys .A1 ⟨false, ⟨[2, 2, 2, 1], fun i => if i = [0, 0, 1, 0] then 6 else 0⟩⟩ = .ok Y ∧ Y.t.val [1, 0, 0, 0] = 2 := by
  obtain ⟨w, h0, hs, hv⟩ := cyclicPart4_ok ⟨[2, 2, 2, 1], fun i => if i = [0, 0, 1, 0] then (6 : ℂ) else 0⟩ rfl
  obtain ⟨y, h1, _, hv1⟩ := reflectPart4_ok false w hs
  refine ⟨⟨false, y⟩, ?_, ?_⟩
  · show ((lift (cyclicPart4 ⟨[2, 2, 2, 1], fun i => if i = [0, 0, 1, 0] then (6 : ℂ) else 0⟩)).bind fun w =>
      (lift (reflectPart4 false w)).bind fun t => .ok (⟨false, t⟩ : Ten)) = _
    exact bind_ok.2 ⟨w, lift_ok.2 h0, bind_ok.2 ⟨y, lift_ok.2 h1, rfl⟩⟩
  show y.val [1, 0, 0, 0] = 2
  rw [hv1, hv]
  norm_num [Kagome.signOf]

/-! ### A symmetry of the models that the ansatz lacks -/

/-- The three spins of the triangle of the site 0 are up. -/
def exSpins : ZMod 3 × ZMod 3 → Nat := fun r => if r = (0, 0) ∨ r = (0, 1) ∨ r = (2, 0) then 1 else 0

/-- The weight of a choice of bond indices, a natural number. -/
def weight (σ : ZMod 3 × ZMod 3 → Nat) (b : Fin 3 → ZMod 3 × ZMod 3 → Fin 2) (r : ZMod 3 × ZMod 3) : Nat :=
  physN (b 0 r) (b 1 r) (b 2 r) (σ r) * auxN (b 2 (r - (1, 0))) (b 1 (r + (0, 1))) (b 0 r)

theorem ex_amplitude (σ : ZMod 3 × ZMod 3 → Nat) : simplexAmplitude 2 exAux exPhys σ = ((∑ b, ∏ r, weight σ b r : Nat) : ℂ) := by
  unfold simplexAmplitude
  rw [Nat.cast_sum]
  refine Finset.sum_congr rfl fun b _ => ?_
  rw [Nat.cast_prod]
  refine Finset.prod_congr rfl fun r _ => ?_
  unfold weight
  rw [Nat.cast_mul]
  rfl

/-- The triangle of the site 0 chooses 1, the others 0. -/
def exBonds : Fin 3 → ZMod 3 × ZMod 3 → Fin 2 :=
  ![fun r => if r = (0, 0) then 1 else 0, fun r => if r = (0, 1) then 1 else 0, fun r => if r = (2, 0) then 1 else 0]

theorem ex_witness : ∀ r : ZMod 3 × ZMod 3, weight exSpins exBonds r ≠ 0 := by
  decide +kernel

theorem ex_nonzero : simplexAmplitude 2 exAux exPhys exSpins ≠ 0 := by
  rw [ex_amplitude, Nat.cast_ne_zero]
  intro h
  rw [Finset.sum_eq_zero_iff] at h
  have h := h exBonds (@Finset.mem_univ _ _ _)
  rw [Finset.prod_eq_zero_iff] at h
  obtain ⟨r, _, h⟩ := h
  exact ex_witness r h

theorem ex_zero : simplexAmplitude 2 exAux exPhys (fun r => exSpins (modelTurn r)) = 0 := by
  rw [ex_amplitude, Nat.cast_eq_zero]
  apply Finset.sum_eq_zero
  intro b _
  by_contra hne
  rw [Finset.prod_eq_zero_iff] at hne
  have hw : ∀ r, weight (fun r => exSpins (modelTurn r)) b r ≠ 0 := fun r h => hne ⟨r, Finset.mem_univ _, h⟩
  have hp : ∀ r, exSpins (modelTurn r) = 0 ↔ ((b 0 r : Nat) = 0 ∧ (b 1 r : Nat) = 0 ∧ (b 2 r : Nat) = 0) := by
    intro r
    by_contra hc
    exact hw r (by unfold weight physN; rw [if_neg hc, zero_mul])
  have ha : ∀ r, (b 2 (r - (1, 0)) : Nat) = b 1 (r + (0, 1)) ∧ (b 1 (r + (0, 1)) : Nat) = b 0 r := by
    intro r
    by_contra hc
    exact hw r (by unfold weight auxN; rw [if_neg hc, mul_zero])
  have ht : ∀ t : ZMod 3 × ZMod 3, exSpins (modelTurn t) = 0 ∨ exSpins (modelTurn (t - (1, 0))) = 0 ∨ exSpins (modelTurn (t + (0, 1))) = 0 := by
    decide +kernel
  have h0 : ∀ t, (b 0 t : Nat) = 0 := by
    intro t
    obtain ⟨a1, a2⟩ := ha t
    rcases ht t with h | h | h
    · exact ((hp _).1 h).1
    · rw [← a2, ← a1]; exact ((hp _).1 h).2.2
    · rw [← a2]; exact ((hp _).1 h).2.1
  have h1 : ∀ r, (b 1 r : Nat) = 0 := by
    intro r
    have := (ha (r - (0, 1))).2
    rw [sub_add_cancel] at this
    rw [this]; exact h0 _
  have h2 : ∀ r, (b 2 r : Nat) = 0 := by
    intro r
    have := (ha (r + (1, 0))).1
    rw [add_sub_cancel_right] at this
    rw [this]; exact h1 _
  have := (hp (0, 0)).2 ⟨h0 _, h1 _, h2 _⟩
  revert this
  decide +kernel

/-- C131 (violated). The ansatz does not have the symmetry of the lattice of the models in spin_triangular.py: there is a state whose
tensors belong to `A_1` (`PG_A1`) and whose wavefunction changes under the rotation by 120 degrees that maps the bonds coupled by the models
onto each other (`modelTurn_neighbours`). -/
theorem C131_model_rotation_violated : ∃ s : TState, mk .ttphys s.el s.pgs false = .ok s ∧ s.pgs = [(.aux, some .A1), (.phys, some .A1)] ∧
    Symmetric s.kind s.pgs s.el ∧ ∃ σ : ZMod 3 × ZMod 3 → Nat, (∀ r, σ r < 2) ∧
      squareAmplitude 2 s.site.t (fun r => σ (modelTurn r)) ≠ squareAmplitude 2 s.site.t σ := by
  obtain ⟨s, h, hk, he, hp⟩ := ex_state
  refine ⟨s, by rw [he, hp]; exact h, hp, by rw [hk, he, hp]; exact exEl_symm, exSpins, by decide +kernel, ?_⟩
  have hs := build_site (mk_inv h).2.2.2.2
  rw [he] at hs
  obtain ⟨_, _, nl, nd, nx, nu, nr, np, e1, e2, _, hv⟩ := hs
  have e1 : [2, 2, 2] = [nl, nd, nx] := e1
  have e2 : [2, 2, 2, 2] = [nx, nu, nr, np] := e2
  simp only [List.cons.injEq, and_true] at e1 e2
  obtain ⟨rfl, rfl, rfl⟩ := e1
  obtain ⟨_, rfl, rfl, rfl⟩ := e2
  rw [square_simplex hv _ (by decide +kernel), square_simplex hv _ (by decide +kernel)]
  show simplexAmplitude 2 exAux exPhys _ ≠ simplexAmplitude 2 exAux exPhys _
  rw [ex_zero]
  exact ex_nonzero.symm

end Verif.TrglPg
