import Verif.Models.JqPlaqModel
import Verif.Models.JqProps
import Verif.Models.AkltProps
/-
C111. The energy of the J-Q model on tensors that hold the four spins of a plaquette.
-/
namespace Verif.Models
open Tensor Ctm Ctm.Spec
open Energy (ssT comb pairOp ofOp comb_cons comb_nil at8 eight)
open Energy.Spec (heis onBond)

namespace Spec

/-- Spin `x` of a tensor: the spins `s0 s1 / s2 s3` are the digits of the physical index, jq.py L703-L709. -/
def spin (i x : Nat) : Nat := i / 2 ^ (3 - x) % 2

/-- Spins of several tensors: number `4 n + x` is spin `x` of tensor `n`. -/
def spins (l : List Nat) (x : Nat) : Nat := spin (l.getD (x / 4) 0) (x % 4)

/-- The operator `O` on the spins `K` of `n` spins, the identity on the others. -/
def onSpins (n : Nat) (K : List Nat) (O : List Nat → List Nat → ℂ) (t s : Nat → Nat) : ℂ := if ∀ x ∈ List.range n, x ∈ K ∨ t x = s x then O (K.map t) (K.map s) else 0

/-- `S.S` of two spins. -/
noncomputable def dot (t s : List Nat) : ℂ := heis 1 (t.getD 0 0) (t.getD 1 0) (s.getD 0 0) (s.getD 1 0)

/-- The terms inside a tensor: four bonds and a plaquette. -/
noncomputable def inside (j q : ℝ) : Corrf.Spec.Op ℂ := fun t s =>
  j * (onSpins 4 [0, 1] dot (spins [t]) (spins [s]) + onSpins 4 [2, 3] dot (spins [t]) (spins [s]) + onSpins 4 [0, 2] dot (spins [t]) (spins [s]) + onSpins 4 [1, 3] dot (spins [t]) (spins [s])) -
  q * onSpins 4 [0, 1, 2, 3] ring (spins [t]) (spins [s])

/-- The terms between a tensor and the one to the right: `s1 - s0`, `s3 - s2` and the plaquette of these four spins. -/
noncomputable def across (j q : ℝ) : Op2 16 := fun t s =>
  j * (onSpins 8 [1, 4] dot (spins [t.1, t.2]) (spins [s.1, s.2]) + onSpins 8 [3, 6] dot (spins [t.1, t.2]) (spins [s.1, s.2])) -
  q * onSpins 8 [1, 4, 3, 6] ring (spins [t.1, t.2]) (spins [s.1, s.2])

/-- The terms between a tensor and the one below: `s2 - s0`, `s3 - s1` and the plaquette of these four spins. -/
noncomputable def below (j q : ℝ) : Op2 16 := fun t s =>
  j * (onSpins 8 [2, 4] dot (spins [t.1, t.2]) (spins [s.1, s.2]) + onSpins 8 [3, 5] dot (spins [t.1, t.2]) (spins [s.1, s.2])) -
  q * onSpins 8 [2, 3, 4, 5] ring (spins [t.1, t.2]) (spins [s.1, s.2])

/-- The plaquette of the corners of four tensors. -/
noncomputable def corner (t s : List Nat) : ℂ := onSpins 16 [3, 6, 9, 12] ring (spins t) (spins s)

/-- The expectation value in a density matrix of four tensors. -/
noncomputable def expect4 (r : Tensor ℂ) (O : List Nat → List Nat → ℂ) : ℂ := sumIdx [16, 16, 16, 16] fun s => sumIdx [16, 16, 16, 16] fun t => r.val (s ++ t) * O t s

/-- The energy per spin of the one-site state: the terms inside the tensor, to the right, below, and at the lower right corner, divided by four. `r` is the density matrix of four tensors. -/
noncomputable def fourSpinEnergy (N : Corrf.Spec.Tensors ℂ) (D : Dims) (r : Tensor ℂ) (j q : ℝ) : ℝ :=
  (Energy.Spec.onsite N D (0, 0) (inside j q) + bond N D .right (0, 0) (across j q) + bond N D .down (0, 0) (below j q) - q * (expect4 r corner).re) / 4

end Spec
open Spec (spin spins onSpins dot inside across below corner bond Op2)

/-! ### Tensors with indices of size two -/

/-- `T` has `n` indices of size two and the entries `f`. -/
structure IsB (n : Nat) (T : Tensor ℂ) (f : (Nat → Nat) → ℂ) : Prop where
  shape : T.shape = List.replicate n 2
  val : ∀ σ, (∀ x, σ x < 2) → T.val ((List.range n).map σ) = f σ

theorem IsB.congr {n : Nat} {T : Tensor ℂ} {f g : (Nat → Nat) → ℂ} (h : IsB n T f) (hg : ∀ σ, (∀ x, σ x < 2) → f σ = g σ) : IsB n T g :=
  ⟨h.shape, fun σ hσ => (h.val σ hσ).trans (hg σ hσ)⟩

theorem permB {n : Nat} {T : Tensor ℂ} {f} (h : IsB n T f) (q : List Nat) (hp : q.Perm (List.range n)) : ∃ T', permute q T = some T' ∧ IsB n T' (fun σ => f (fun x => σ (q.idxOf x))) := by
  have hl : q.length = n := by rw [hp.length_eq, List.length_range]
  have hm : ∀ x ∈ q, x < n := fun x hx => List.mem_range.1 (hp.mem_iff.1 hx)
  have hn : T.shape.length = n := by rw [h.shape, List.length_replicate]
  refine ⟨_, by rw [permute, if_pos ⟨by rw [hl, hn], hp.nodup_iff.2 List.nodup_range, by rw [hn]; exact hm⟩], ?_, ?_⟩
  · simp only [h.shape]
    refine Eq.trans (List.map_congr_left (g := fun _ => 2) (fun x hx => ?_)) (by rw [List.map_const', hl])
    rw [List.getD_eq_getElem?_getD, List.getElem?_replicate, if_pos (hm x hx), Option.getD_some]
  · intro σ hσ
    simp only [hn]
    rw [← h.val _ (fun x => hσ _)]
    congr 1
    refine List.map_congr_left fun x hx => ?_
    have hq : q.idxOf x < n := by
      rw [← hl]
      exact List.idxOf_lt_length_of_mem (hp.mem_iff.2 hx)
    rw [List.getD_eq_getElem?_getD, List.getElem?_map, List.getElem?_range hq]
    rfl

theorem linB_nil {n : Nat} : IsB n (lin (List.replicate n 2) []) (fun _ => 0) := ⟨rfl, fun _ _ => by simp [lin]⟩

theorem linB_cons {n : Nat} {z : ℂ} {T : Tensor ℂ} {l : List (ℂ × Tensor ℂ)} {f g} (h : IsB n T f) (hl : IsB n (lin (List.replicate n 2) l) g) :
    IsB n (lin (List.replicate n 2) ((z, T) :: l)) (fun σ => z * f σ + g σ) := by
  refine ⟨rfl, fun σ hσ => ?_⟩
  have h1 := h.val σ hσ
  have h2 := hl.val σ hσ
  simp only [lin, List.map_cons, List.sum_cons] at h2 ⊢
  rw [h1, h2]

theorem einsumB (n : Nat) (ops : List (Tensor ℂ × List Nat)) (out : List Nat) (hs : ∀ p ∈ ops, p.1.shape = p.2.map (fun _ => 2)) (hl : out.length = n) (hn : out.Nodup) (ho : ∀ l ∈ out, l ∈ ops.flatMap Prod.snd) :
    ∃ T, einsum ops out = some T ∧ IsB n T (fun σ => sumOver (fun _ => 2) ((ops.flatMap Prod.snd).dedup.filter (fun l => l ∉ out)) (termOf ops) (fun l => σ (out.idxOf l))) := by
  obtain ⟨R, e, s, v⟩ := einsum_ok (fun _ => 2) ops out hs hn ho
  refine ⟨R, e, by rw [s, List.map_const', hl], fun σ hσ => ?_⟩
  rw [← v _ (fun l _ => hσ _)]
  congr 1
  subst hl
  refine List.ext_getElem (by simp) fun i h1 h2 => ?_
  simp only [List.getElem_map, List.getElem_range]
  rw [List.Nodup.idxOf_getElem hn]

theorem ofOp_B {T : Tensor ℂ} {P} (h : Energy.Is8 T (ofOp P)) : IsB 8 T (fun σ => P [σ 4, σ 5, σ 6, σ 7] [σ 0, σ 1, σ 2, σ 3]) :=
  ⟨h.shape, fun σ hσ => (h.val _ _ _ _ _ _ _ _ (hσ 0) (hσ 1) (hσ 2) (hσ 3) (hσ 4) (hσ 5) (hσ 6) (hσ 7))⟩

theorem pair_B {T : Tensor ℂ} {O} (h : IsPair T O) : IsB 4 T (fun σ => O (σ 2) (σ 3) (σ 0) (σ 1)) := ⟨h.1, fun σ hσ => h.2 _ _ _ _ (hσ 0) (hσ 1) (hσ 2) (hσ 3)⟩

theorem id2_B : ∃ T, Energy.idT 2 = some T ∧ IsB 4 T (fun σ => if σ 0 = σ 2 ∧ σ 1 = σ 3 then 1 else 0) := by
  obtain ⟨I, eI, sI, vI⟩ := Energy.id2_val
  exact ⟨I, eI, sI, fun σ hσ => vI _ _ _ _ (hσ 0) (hσ 1) (hσ 2) (hσ 3)⟩

theorem inB_rep {n : Nat} {σ : Nat → Nat} (hσ : ∀ x, σ x < 2) : InB (List.replicate n 2) ((List.range n).map σ) := by
  have : ∀ l : List Nat, InB (List.replicate l.length 2) (l.map σ) := fun l => by
    induction l with
    | nil => exact .nil
    | cons a l ih => exact .cons (hσ a) ih
  simpa using this (List.range n)

theorem id3_B : ∃ T, idT3 = some T ∧ IsB 6 T (fun σ => if σ 0 = σ 3 ∧ σ 1 = σ 4 ∧ σ 2 = σ 5 then 1 else 0) := by
  refine ⟨_, by rw [idT3, view, if_pos (by decide)], rfl, fun σ hσ => ?_⟩
  have h0 := hσ 0
  have h1 := hσ 1
  have h2 := hσ 2
  have h3 := hσ 3
  have h4 := hσ 4
  have h5 := hσ 5
  have e : ravel [2, 2, 2, 2, 2, 2] ((List.range 6).map σ) = ravel [8, 8] [4 * σ 0 + 2 * σ 1 + σ 2, 4 * σ 3 + 2 * σ 4 + σ 5] := by
    simp [ravel, List.range_succ]
    omega
  simp only []
  rw [e, unravel_ravel (.cons (by omega) (.cons (by omega) .nil))]
  simp only [List.getD_cons_zero, List.getD_cons_succ]
  refine if_congr ?_ rfl rfl
  omega

/-- `[t, s]` restricted to a list of spins agrees elsewhere. -/
theorem onSpins_eq (n : Nat) (K : List Nat) (O : List Nat → List Nat → ℂ) (t s : Nat → Nat) : onSpins n K O t s = if ∀ x ∈ (List.range n).filter (· ∉ K), t x = s x then O (K.map t) (K.map s) else 0 := by
  refine if_congr ?_ rfl rfl
  simp only [List.mem_filter, decide_eq_true_eq]
  exact ⟨fun h x hx => (h x hx.1).resolve_left hx.2, fun h x hx => (Classical.em (x ∈ K)).imp id fun hk => h x ⟨hx, hk⟩⟩

theorem plaqBond_ok {T : Tensor ℂ} {O} (h : IsPair T O) : ∃ X, plaqBond T = some X ∧
    IsB 16 X (fun σ => onSpins 8 [1, 4] (fun t s => O (t.getD 0 0) (t.getD 1 0) (s.getD 0 0) (s.getD 1 0)) (fun x => σ (x + 8)) σ) := by
  obtain ⟨I, eI, qI⟩ := id3_B
  obtain ⟨X, e, q⟩ := einsumB 16 [(T, [0, 1, 2, 3]), (I, [4, 5, 6, 7, 8, 9]), (I, [10, 11, 12, 13, 14, 15])] [4, 0, 5, 6, 1, 10, 11, 12, 7, 2, 8, 9, 3, 13, 14, 15]
    (by simp [h.1, qI.shape]) rfl (by decide) (by simp only [List.flatMap_cons, List.flatMap_nil]; decide)
  refine ⟨X, by simp only [plaqBond, eI, Option.bind_eq_bind, Option.bind_some]; exact e, q.congr fun σ hσ => ?_⟩
  rw [show ((([(T, [0, 1, 2, 3]), (I, [4, 5, 6, 7, 8, 9]), (I, [10, 11, 12, 13, 14, 15])] : List (Tensor ℂ × List Nat)).flatMap Prod.snd).dedup.filter
    (fun l => l ∉ [4, 0, 5, 6, 1, 10, 11, 12, 7, 2, 8, 9, 3, 13, 14, 15])) = [] from by simp only [List.flatMap_cons, List.flatMap_nil]; decide]
  have v1 := (pair_B h).val (fun x => σ ([1, 4, 9, 12].getD x 0)) (fun _ => hσ _)
  have v2 := qI.val (fun x => σ ([0, 2, 3, 8, 10, 11].getD x 0)) (fun _ => hσ _)
  have v3 := qI.val (fun x => σ ([5, 6, 7, 13, 14, 15].getD x 0)) (fun _ => hσ _)
  have w1 : T.val [σ 1, σ 4, σ 9, σ 12] = _ := v1
  have w2 : I.val [σ 0, σ 2, σ 3, σ 8, σ 10, σ 11] = _ := v2
  have w3 : I.val [σ 5, σ 6, σ 7, σ 13, σ 14, σ 15] = _ := v3
  rw [onSpins_eq, show (List.range 8).filter (· ∉ [1, 4]) = [0, 2, 3, 5, 6, 7] from by decide]
  show T.val [σ 1, σ 4, σ 9, σ 12] * (I.val [σ 0, σ 2, σ 3, σ 8, σ 10, σ 11] * (I.val [σ 5, σ 6, σ 7, σ 13, σ 14, σ 15] * 1)) = _
  rw [w1, w2, w3]
  simp only [List.getD_cons_zero, List.getD_cons_succ, List.map_cons, List.map_nil, List.forall_mem_cons, List.not_mem_nil, false_implies, implies_true, and_true, Nat.reduceAdd, eq_comm (a := σ 0),
    eq_comm (a := σ 2), eq_comm (a := σ 3), eq_comm (a := σ 5), eq_comm (a := σ 6), eq_comm (a := σ 7)]
  split_ifs <;> simp_all

theorem plaqRing_ok {R : Tensor ℂ} {P} (h : Energy.Is8 R (ofOp P)) : ∃ X, plaqRing R = some X ∧ IsB 16 X (fun σ => onSpins 8 [1, 3, 4, 6] P (fun x => σ (x + 8)) σ) := by
  obtain ⟨I, eI, qI⟩ := id2_B
  obtain ⟨X, e, q⟩ := einsumB 16 [(R, [0, 1, 2, 3, 4, 5, 6, 7]), (I, [8, 9, 10, 11]), (I, [12, 13, 14, 15])] [8, 0, 9, 1, 2, 12, 3, 13, 10, 4, 11, 5, 6, 14, 7, 15]
    (by simp [h.shape, qI.shape, eight]) rfl (by decide) (by simp only [List.flatMap_cons, List.flatMap_nil]; decide)
  refine ⟨X, by simp only [plaqRing, eI, Option.bind_eq_bind, Option.bind_some]; exact e, q.congr fun σ hσ => ?_⟩
  rw [show ((([(R, [0, 1, 2, 3, 4, 5, 6, 7]), (I, [8, 9, 10, 11]), (I, [12, 13, 14, 15])] : List (Tensor ℂ × List Nat)).flatMap Prod.snd).dedup.filter
    (fun l => l ∉ [8, 0, 9, 1, 2, 12, 3, 13, 10, 4, 11, 5, 6, 14, 7, 15])) = [] from by simp only [List.flatMap_cons, List.flatMap_nil]; decide]
  have v1 := (ofOp_B h).val (fun x => σ ([1, 3, 4, 6, 9, 11, 12, 14].getD x 0)) (fun _ => hσ _)
  have v2 := qI.val (fun x => σ ([0, 2, 8, 10].getD x 0)) (fun _ => hσ _)
  have v3 := qI.val (fun x => σ ([5, 7, 13, 15].getD x 0)) (fun _ => hσ _)
  have w1 : R.val [σ 1, σ 3, σ 4, σ 6, σ 9, σ 11, σ 12, σ 14] = _ := v1
  have w2 : I.val [σ 0, σ 2, σ 8, σ 10] = _ := v2
  have w3 : I.val [σ 5, σ 7, σ 13, σ 15] = _ := v3
  rw [onSpins_eq, show (List.range 8).filter (· ∉ [1, 3, 4, 6]) = [0, 2, 5, 7] from by decide]
  show R.val [σ 1, σ 3, σ 4, σ 6, σ 9, σ 11, σ 12, σ 14] * (I.val [σ 0, σ 2, σ 8, σ 10] * (I.val [σ 5, σ 7, σ 13, σ 15] * 1)) = _
  rw [w1, w2, w3]
  simp only [List.getD_cons_zero, List.getD_cons_succ, List.map_cons, List.map_nil, List.forall_mem_cons, List.not_mem_nil, false_implies, implies_true, and_true, Nat.reduceAdd, eq_comm (a := σ 0),
    eq_comm (a := σ 2), eq_comm (a := σ 5), eq_comm (a := σ 7)]
  split_ifs <;> simp_all

/-- Exchanging spins moves the operator. -/
theorem move {X : Tensor ℂ} {O} {K : List Nat} (h : IsB 16 X (fun σ => onSpins 8 K O (fun x => σ (x + 8)) σ)) (l : List Nat) (hp : (bk l).Perm (List.range 16))
    (hl : ∀ x ∈ List.range 8, (bk l).idxOf x = l.getD x 0 ∧ (bk l).idxOf (x + 8) = l.getD x 0 + 8 ∧ l.getD x 0 ∈ List.range 8 ∧ l.getD (l.getD x 0) 0 = x ∧ (x ∈ K ↔ l.getD x 0 ∈ K.map (l.getD · 0)))
    (hK : ∀ x ∈ K, x ∈ List.range 8) : ∃ Y, permute (bk l) X = some Y ∧ IsB 16 Y (fun σ => onSpins 8 (K.map (l.getD · 0)) O (fun x => σ (x + 8)) σ) := by
  obtain ⟨Y, e, q⟩ := permB h (bk l) hp
  refine ⟨Y, e, q.congr fun σ _ => ?_⟩
  have h1 : K.map (fun x => σ ((bk l).idxOf (x + 8))) = (K.map (l.getD · 0)).map (fun x => σ (x + 8)) := by
    rw [List.map_map]
    exact List.map_congr_left fun x hx => by simp only [Function.comp, (hl x (hK x hx)).2.1]
  have h2 : K.map (fun x => σ ((bk l).idxOf x)) = (K.map (l.getD · 0)).map σ := by
    rw [List.map_map]
    exact List.map_congr_left fun x hx => by simp only [Function.comp, (hl x (hK x hx)).1]
  unfold onSpins
  rw [h1, h2]
  refine if_congr ⟨fun h x hx => ?_, fun h x hx => ?_⟩ rfl rfl
  · obtain ⟨a1, a2, a3, a4, a5⟩ := hl x hx
    obtain ⟨b1, b2, b3, b4, b5⟩ := hl _ a3
    have := h _ a3
    simp only [] at this
    rw [b1, b2, a4] at this
    rw [b5, a4] at this
    exact this
  · obtain ⟨a1, a2, a3, a4, a5⟩ := hl x hx
    simp only []
    rw [a1, a2, a5]
    exact h _ a3

theorem ring_swap (t s : Nat → Nat) (a b c d : Nat) : Spec.ring ([a, b, c, d].map t) ([a, b, c, d].map s) = Spec.ring ([a, c, b, d].map t) ([a, c, b, d].map s) := by
  simp only [Spec.ring, Spec.onTwo, List.map_cons, List.map_nil, List.getD_cons_zero, List.getD_cons_succ]
  ring

/-- The sixteen spins of two tensors before and after. -/
def digits (i j a b x : Nat) : Nat := spin ([i, j, a, b].getD (x / 4) 0) (x % 4)

theorem digits_lt (i j a b x : Nat) : digits i j a b x < 2 := Nat.mod_lt _ (by decide)

theorem view16 {T T' : Tensor ℂ} {f} (h : IsB 16 T f) (e : view [16, 16, 16, 16] T = some T') : T'.shape = [16, 16, 16, 16] ∧ ∀ i j a b : Fin 16, T'.val [i, j, a, b] = f (digits i j a b) := by
  rw [view, if_pos (by rw [h.shape]; decide)] at e
  injection e with e
  subst e
  refine ⟨rfl, fun i j a b => ?_⟩
  have hi := i.isLt
  have hj := j.isLt
  have ha := a.isLt
  have hb := b.isLt
  have h1 : ravel [16, 16, 16, 16] [(i : Nat), j, a, b] = ravel (List.replicate 16 2) ((List.range 16).map (digits i j a b)) := by
    simp [ravel, List.range_succ, List.replicate_succ, digits, spin]
    omega
  simp only [h.shape]
  rw [h1, unravel_ravel (inB_rep (digits_lt _ _ _ _))]
  exact h.val _ (digits_lt _ _ _ _)

theorem onSpins_digits (K : List Nat) (O) (i j a b : Nat) (hK : ∀ x ∈ K, x < 8) : onSpins 8 K O (fun x => digits i j a b (x + 8)) (digits i j a b) = onSpins 8 K O (spins [a, b]) (spins [i, j]) := by
  have h1 : ∀ x < 8, digits i j a b (x + 8) = spins [a, b] x := fun x hx => by
    interval_cases x <;> rfl
  have h2 : ∀ x < 8, digits i j a b x = spins [i, j] x := fun x hx => by
    interval_cases x <;> rfl
  unfold onSpins
  rw [List.map_congr_left fun x hx => h1 x (hK x hx), List.map_congr_left fun x hx => h2 x (hK x hx)]
  refine if_congr (forall₂_congr fun x hx => ?_) rfl rfl
  simp only []
  rw [h1 x (List.mem_range.1 hx), h2 x (List.mem_range.1 hx)]

theorem plaqPair_ok (j q : ℝ) {R : Tensor ℂ} (hR : Energy.Is8 R (ofOp Spec.ring)) : ∃ X, plaqPair j q (ssT (1, 1, 1)) R = some X ∧ Is4 16 X (across j q + below j q).transpose := by
  obtain ⟨x, e, i⟩ := plaqBond_ok ss_pair
  obtain ⟨r, e', i'⟩ := plaqRing_ok hR
  obtain ⟨x1, e1, i1⟩ := move i [0, 3, 2, 1, 6, 5, 4, 7] (by decide) (by decide) (by decide)
  obtain ⟨x2, e2, i2⟩ := move i [0, 2, 1, 3, 4, 5, 6, 7] (by decide) (by decide) (by decide)
  obtain ⟨x3, e3, i3⟩ := move i [0, 3, 2, 1, 5, 4, 6, 7] (by decide) (by decide) (by decide)
  obtain ⟨r1, e4, i4⟩ := move i' [0, 2, 1, 3, 4, 6, 5, 7] (by decide) (by decide) (by decide)
  have hl := linB_cons (z := (j : ℂ)) i (linB_cons (z := (j : ℂ)) i1 (linB_cons (z := (-q : ℂ)) i' (linB_cons (z := (j : ℂ)) i2 (linB_cons (z := (j : ℂ)) i3 (linB_cons (z := (-q : ℂ)) i4 linB_nil)))))
  obtain ⟨X, eX⟩ : ∃ X, view [16, 16, 16, 16] (lin (List.replicate 16 2) [(((j : ℝ) : ℂ), x), ((j : ℂ), x1), (-q, r), ((j : ℂ), x2), ((j : ℂ), x3), (-q, r1)]) = some X := ⟨_, by rw [view, if_pos (by rw [hl.shape]; decide)]⟩
  obtain ⟨s, v⟩ := view16 hl eX
  refine ⟨X, by simp only [plaqPair, e, e', e1, e2, e3, e4, Option.bind_eq_bind, Option.bind_some]; exact eX, s, fun i j' a b => ?_⟩
  rw [v, Matrix.transpose_apply, Matrix.add_apply]
  simp only [across, below, List.map_cons, List.map_nil, List.getD_cons_zero, List.getD_cons_succ]
  rw [onSpins_digits _ _ _ _ _ _ (by decide), onSpins_digits _ _ _ _ _ _ (by decide), onSpins_digits _ _ _ _ _ _ (by decide), onSpins_digits _ _ _ _ _ _ (by decide), onSpins_digits _ _ _ _ _ _ (by decide),
    onSpins_digits _ _ _ _ _ _ (by decide)]
  have h1 : onSpins 8 [1, 3, 4, 6] Spec.ring (spins [↑a, ↑b]) (spins [↑i, ↑j']) = onSpins 8 [1, 4, 3, 6] Spec.ring (spins [↑a, ↑b]) (spins [↑i, ↑j']) := by
    rw [onSpins_eq, onSpins_eq, ring_swap]
    rfl
  rw [h1]
  show _ = ((j : ℂ) * (onSpins 8 [1, 4] (fun t s => heis 1 (t.getD 0 0) (t.getD 1 0) (s.getD 0 0) (s.getD 1 0)) (spins [↑a, ↑b]) (spins [↑i, ↑j']) + onSpins 8 [3, 6] (fun t s => heis 1 (t.getD 0 0) (t.getD 1 0) (s.getD 0 0) (s.getD 1 0)) (spins [↑a, ↑b]) (spins [↑i, ↑j'])) - q * _) +
    ((j : ℂ) * (onSpins 8 [2, 4] (fun t s => heis 1 (t.getD 0 0) (t.getD 1 0) (s.getD 0 0) (s.getD 1 0)) (spins [↑a, ↑b]) (spins [↑i, ↑j']) + onSpins 8 [3, 5] (fun t s => heis 1 (t.getD 0 0) (t.getD 1 0) (s.getD 0 0) (s.getD 1 0)) (spins [↑a, ↑b]) (spins [↑i, ↑j'])) - q * _)
  ring

/-! ### The density matrix of one tensor -/

/-- `Tr(rho o)`. -/
noncomputable def expect1P (p : Nat) (r : Tensor ℂ) (o : Corrf.Spec.Op ℂ) : ℂ := ∑ i ∈ Finset.range p, ∑ j ∈ Finset.range p, r.val [i, j] * o j i

theorem sym_expect1P (eigh : Tensor ℂ → List ℝ × Tensor ℂ) {p : Nat} (hp : 0 < p) {rho : Tensor ℂ} (hs : rho.shape = [p, p]) (h0 : (expect1P p rho Corrf.Spec.one).re ≠ 0) :
    ∃ R, Rdm.symRdm eigh false rho = .ok R ∧ R.shape = [p, p] ∧ ∀ o, (∀ i j, star (o i j) = o j i) → expect1P p R o = (((expect1P p rho o).re / (expect1P p rho Corrf.Spec.one).re : ℝ) : ℂ) := by
  have ht : Matrix.trace (Rdm.Spec.op [p] rho) = expect1P p rho Corrf.Spec.one := by
    rw [Rdm.trace_op]
    simp only [sumIdx, expect1P, Corrf.Spec.one]
    refine Finset.sum_congr rfl fun i hi => ?_
    rw [Finset.sum_eq_single i]
    · simp
    · intro b _ hb; simp [hb]
    · intro h; exact absurd hi h
  obtain ⟨R, e1, e2, e3⟩ := Rdm.symRdm_entries eigh (s := [p]) (T := rho) hs (by simpa using hp) (by rw [ht]; exact h0)
  refine ⟨R, e1, e2, fun o ho => ?_⟩
  rw [ht] at e3
  obtain ⟨n, hn⟩ : ∃ n : ℝ, n = (expect1P p rho Corrf.Spec.one).re := ⟨_, rfl⟩
  rw [← hn] at h0 ⊢
  have e3' : ∀ i < p, ∀ j < p, R.val [i, j] = 1 / (2 * (n : ℂ)) * (rho.val [i, j] + star (rho.val [j, i])) := by
    intro i hi j hj
    have := e3 [i] [j] (.cons hi .nil) (.cons hj .nil)
    rw [hn]
    simpa using this
  have hX : expect1P p rho o + star (expect1P p rho o) = ((2 * (expect1P p rho o).re : ℝ) : ℂ) := by
    have := Complex.add_conj (expect1P p rho o)
    simpa using this
  have hY : expect1P p R o = 1 / (2 * (n : ℂ)) * (expect1P p rho o + star (expect1P p rho o)) := by
    have hst : star (expect1P p rho o) = ∑ i ∈ Finset.range p, ∑ j ∈ Finset.range p, star (rho.val [j, i]) * o j i := by
      unfold expect1P
      rw [Finset.sum_comm]
      simp only [star_sum, star_mul', ho]
    rw [hst]
    unfold expect1P
    simp only [Finset.mul_sum, ← Finset.sum_add_distrib]
    refine Finset.sum_congr rfl fun i hi => Finset.sum_congr rfl fun j hj => ?_
    rw [e3' i (Finset.mem_range.1 hi) j (Finset.mem_range.1 hj)]
    ring
  rw [hY, hX]
  have : (n : ℂ) ≠ 0 := by exact_mod_cast h0
  push_cast
  field_simp

theorem siteP (eigh : Tensor ℂ → List ℝ × Tensor ℂ) {p : Nat} (hp0 : 0 < p) {D : Dims} {st : State ℂ} {env : Env ℂ} {N : Corrf.Spec.Tensors ℂ} (hs : FitsState D st) (he : FitsEnv D st env) (ht : Tiling st)
    (hp : ∀ c, D.p c = p) (hN : Corrf.Spec.Reads st env N) (c : Coord) (h0 : (Corrf.Spec.norm N D .right c 1).re ≠ 0) :
    ∃ R, Rdm.rdm1x1 eigh true false st env c none = .ok R ∧ R.shape = [p, p] ∧ ∀ o, (∀ i j, star (o i j) = o j i) → expect1P p R o = (Energy.Spec.onsite N D c o : ℂ) := by
  obtain ⟨e, a, rho, r, h1, h2, h3, -⟩ := Rdm.C31_expectation eigh true false ht hs he c (.inl rfl) (opP p 1) (by rw [hp]; rfl)
  have hx : ∀ o, expect1P p rho o = Corrf.Spec.network N D .right c [o] := by
    intro o
    have := Rdm.single_expect hs hN h1 h2 o
    rw [hp] at this
    exact this
  have hsh : rho.shape = [p, p] := by
    rw [h2.1]
    simp [Rdm.Spec.dims1, hp]
  have hn : expect1P p rho Corrf.Spec.one = Corrf.Spec.norm N D .right c 1 := hx _
  obtain ⟨R, e1, e2, e3⟩ := sym_expect1P eigh hp0 hsh (by rw [hn]; exact h0)
  refine ⟨R, h3.trans e1, e2, fun o ho => ?_⟩
  rw [e3 o ho, hx, hn]
  rfl

theorem full2_is {p : Nat} {r h : Tensor ℂ} {o : Corrf.Spec.Op ℂ} (hr : r.shape = [p, p]) (hh : h.shape = [p, p]) (hv : ∀ i < p, ∀ j < p, h.val [i, j] = o j i) : full2 r h = some (expect1P p r o) := by
  obtain ⟨R, e, -, v⟩ := einsum_ok (fun _ => p) [(r, [0, 1]), (h, [0, 1])] [] (by simp [hr, hh]) (by decide) (by simp)
  have hw := v (fun _ => 0) (by simp)
  rw [List.map_nil] at hw
  have hL : ((List.flatMap Prod.snd [(r, [0, 1]), (h, [0, 1])]).dedup.filter (fun l => l ∉ ([] : List Nat))) = [0, 1] := by
    simp only [List.flatMap_cons, List.flatMap_nil]
    decide
  rw [hL] at hw
  unfold full2
  rw [e]
  refine congrArg some (hw.trans ?_)
  simp only [sumOver, expect1P]
  refine Finset.sum_congr rfl fun i hi => Finset.sum_congr rfl fun j hj => ?_
  rw [← hv i (Finset.mem_range.1 hi) j (Finset.mem_range.1 hj)]
  simp [termOf, Function.update]

/-! ### Hermitian operators -/

theorem heis_real (a b i j : Nat) : star (heis 1 a b i j) = heis 1 a b i j := by
  simp only [heis, Energy.Spec.sz, Energy.Spec.sx, Energy.Spec.sy]
  split_ifs <;> simp <;> ring

theorem dot_T (t s : List Nat) : dot t s = dot s t := by rw [dot, ← heis_real, Energy.heis_conj]; rfl
theorem dot_R (t s : List Nat) : star (dot t s) = dot t s := heis_real _ _ _ _

theorem dimer_T (a b i j : Nat) : Spec.dimerPart a b i j = Spec.dimerPart i j a b := by
  rw [Spec.dimerPart, Spec.dimerPart, ← heis_real, Energy.heis_conj]
  simp only [eq_comm]

theorem dimer_R (a b i j : Nat) : star (Spec.dimerPart a b i j) = Spec.dimerPart a b i j := by
  rw [Spec.dimerPart, star_sub, heis_real]
  split_ifs <;> simp

theorem ring_T (t s : List Nat) : Spec.ring t s = Spec.ring s t := by
  simp only [Spec.ring, Spec.onTwo]
  rw [dimer_T (t.getD 0 0), dimer_T (t.getD 2 0), dimer_T (t.getD 0 0), dimer_T (t.getD 1 0)]

theorem ring_R (t s : List Nat) : star (Spec.ring t s) = Spec.ring t s := by
  simp only [Spec.ring, Spec.onTwo, star_add, star_mul', dimer_R]

theorem onSpins_T {n : Nat} {K : List Nat} {O : List Nat → List Nat → ℂ} (h : ∀ t s, O t s = O s t) (t s : Nat → Nat) : onSpins n K O t s = onSpins n K O s t := by
  unfold onSpins
  rw [h]
  simp only [eq_comm]

theorem onSpins_R {n : Nat} {K : List Nat} {O : List Nat → List Nat → ℂ} (h : ∀ t s, star (O t s) = O t s) (t s : Nat → Nat) : star (onSpins n K O t s) = onSpins n K O t s := by
  unfold onSpins
  split_ifs
  · exact h _ _
  · exact star_zero _

theorem inside_herm (j q : ℝ) (t s : Nat) : star (inside j q t s) = inside j q s t := by
  simp only [inside, star_sub, star_mul', star_add, onSpins_R dot_R, onSpins_R ring_R, onSpins_T dot_T _ (spins [s]), onSpins_T ring_T _ (spins [s])]
  simp

theorem across_T (j q : ℝ) : (across j q).transpose = across j q := by
  ext t s
  simp only [Matrix.transpose_apply, across, onSpins_T dot_T _ (spins [(t.1 : Nat), t.2]), onSpins_T ring_T _ (spins [(t.1 : Nat), t.2])]

theorem below_T (j q : ℝ) : (below j q).transpose = below j q := by
  ext t s
  simp only [Matrix.transpose_apply, below, onSpins_T dot_T _ (spins [(t.1 : Nat), t.2]), onSpins_T ring_T _ (spins [(t.1 : Nat), t.2])]

theorem across_herm (j q : ℝ) : (across j q).IsHermitian := by
  ext t s
  rw [Matrix.conjTranspose_apply, ← Matrix.transpose_apply (across j q), across_T]
  simp only [across, star_sub, star_mul', star_add, onSpins_R dot_R, onSpins_R ring_R]
  simp

theorem below_herm (j q : ℝ) : (below j q).IsHermitian := by
  ext t s
  rw [Matrix.conjTranspose_apply, ← Matrix.transpose_apply (below j q), below_T]
  simp only [below, star_sub, star_mul', star_add, onSpins_R dot_R, onSpins_R ring_R]
  simp

theorem onBond_spins (i a : Nat) : onBond 0 1 (heis 1) ((List.range 4).map (spin a)) ((List.range 4).map (spin i)) = onSpins 4 [0, 1] dot (spins [a]) (spins [i]) ∧
    onBond 2 3 (heis 1) ((List.range 4).map (spin a)) ((List.range 4).map (spin i)) = onSpins 4 [2, 3] dot (spins [a]) (spins [i]) ∧
    onBond 0 2 (heis 1) ((List.range 4).map (spin a)) ((List.range 4).map (spin i)) = onSpins 4 [0, 2] dot (spins [a]) (spins [i]) ∧
    onBond 1 3 (heis 1) ((List.range 4).map (spin a)) ((List.range 4).map (spin i)) = onSpins 4 [1, 3] dot (spins [a]) (spins [i]) ∧
    Spec.ring ((List.range 4).map (spin a)) ((List.range 4).map (spin i)) = onSpins 4 [0, 1, 2, 3] Spec.ring (spins [a]) (spins [i]) := by
  refine ⟨?_, ?_, ?_, ?_, ?_⟩ <;> simp [onBond, onSpins, List.range_succ, spins, dot]

theorem plaqSite_ok (j q : ℝ) {R : Tensor ℂ} (hR : Energy.Is8 R (ofOp Spec.ring)) : ∃ X, plaqSite j q (ssT (1, 1, 1)) R = some X ∧ X.shape = [16, 16] ∧ ∀ i < 16, ∀ a < 16, X.val [i, a] = inside j q a i := by
  obtain ⟨x, e, q0⟩ := pair8 ss_pair
  obtain ⟨y, e1, q1'⟩ := Energy.perm8 q0 (bk [2, 3, 0, 1]) (by decide)
  obtain ⟨z, e2, q2'⟩ := Energy.perm8 q0 (bk [0, 2, 1, 3]) (by decide)
  obtain ⟨w, e3, q3'⟩ := Energy.perm8 q0 (bk [2, 0, 3, 1]) (by decide)
  have q1 : Energy.Is8 y (ofOp (onBond 2 3 (heis 1))) := q1'.congr fun i j k l a b c d _ _ _ _ _ _ _ _ => by simp [Energy.permFn, at8, ofOp, onBond, bk]
  have q2 : Energy.Is8 z (ofOp (onBond 0 2 (heis 1))) := q2'.congr fun i j k l a b c d _ _ _ _ _ _ _ _ => by simp [Energy.permFn, at8, ofOp, onBond, bk]
  have q3 : Energy.Is8 w (ofOp (onBond 1 3 (heis 1))) := q3'.congr fun i j k l a b c d _ _ _ _ _ _ _ _ => by simp [Energy.permFn, at8, ofOp, onBond, bk]
  have hl := comb_cons (z := (j : ℂ)) q0 (comb_cons (z := (j : ℂ)) q1 (comb_cons (z := (j : ℂ)) q2 (comb_cons (z := (j : ℂ)) q3 (comb_cons (z := (-q : ℂ)) hR comb_nil))))
  refine ⟨_, by simp only [plaqSite, e, e1, e2, e3, Option.bind_eq_bind, Option.bind_some]; rw [view, if_pos (by simp [comb, eight])], rfl, fun i hi a ha => ?_⟩
  have h1 : ravel [16, 16] [i, a] = ravel [2, 2, 2, 2, 2, 2, 2, 2] [spin i 0, spin i 1, spin i 2, spin i 3, spin a 0, spin a 1, spin a 2, spin a 3] := by
    simp [ravel, spin]
    omega
  have hlt : ∀ i x, spin i x < 2 := fun i x => Nat.mod_lt _ (by decide)
  have h2 : unravel (comb [(((j : ℝ) : ℂ), x), ((j : ℂ), y), ((j : ℂ), z), ((j : ℂ), w), (-(q : ℂ), R)]).shape (ravel [16, 16] [i, a]) = [spin i 0, spin i 1, spin i 2, spin i 3, spin a 0, spin a 1, spin a 2, spin a 3] := by
    rw [h1]
    exact unravel_ravel (.cons (hlt _ _) (.cons (hlt _ _) (.cons (hlt _ _) (.cons (hlt _ _) (.cons (hlt _ _) (.cons (hlt _ _) (.cons (hlt _ _) (.cons (hlt _ _) .nil))))))))
  simp only []
  rw [h2, hl.val _ _ _ _ _ _ _ _ (hlt _ _) (hlt _ _) (hlt _ _) (hlt _ _) (hlt _ _) (hlt _ _) (hlt _ _) (hlt _ _)]
  obtain ⟨b1, b2, b3, b4, b5⟩ := onBond_spins i a
  simp only [List.range_succ, List.range_zero, List.nil_append, List.cons_append, List.map_cons, List.map_nil] at b1 b2 b3 b4 b5
  simp only [ofOp, b1, b2, b3, b4, b5, inside]
  ring

/-! ### The energy -/

section
variable {chi D : Nat} {a : Tensor ℂ} {env : C4v.Env ℂ}

/-- C111. What `JQ_C4V_PLAQUETTE.energy_1x1` returns for every one-site state: a quarter of the terms inside a tensor, to the right and below. The plaquette at the corner of four tensors is missing. -/
theorem C111_value (eigh : Tensor ℂ → List ℝ × Tensor ℂ) (j q qi : ℝ) (hchi : 0 < chi) (hD : 0 < D) (hf : C4v.Spec.Fits chi D 16 a env) (hr : C4v.Spec.Rotated D 16 a) (hS : C4v.Spec.CSymm chi env)
    (h1 : (Corrf.Spec.norm (C4v.tensors a env) (C4v.Spec.dims chi D 16) .right (0, 0) 1).re ≠ 0) (h2 : (Corrf.Spec.norm (C4v.tensors a env) (C4v.Spec.dims chi D 16) .right (0, 0) 2).re ≠ 0) :
    jqPlaq eigh j q qi a env = .ok (((Energy.Spec.onsite (C4v.tensors a env) (C4v.Spec.dims chi D 16) (0, 0) (inside j q) + bond (C4v.tensors a env) (C4v.Spec.dims chi D 16) .right (0, 0) (across j qi) +
      bond (C4v.tensors a env) (C4v.Spec.dims chi D 16) .down (0, 0) (below j qi)) / 4 : ℝ) : ℂ) := by
  obtain ⟨o, e1, i1⟩ := less_ok ss_pair
  obtain ⟨ring, e2, i2⟩ := two_ok i1
  have i2' : Energy.Is8 ring (ofOp Spec.ring) := i2
  obtain ⟨H1, e3, s3, v3⟩ := plaqSite_ok j q i2'
  obtain ⟨H2, e4, i4⟩ := plaqPair_ok j qi i2'
  have hT : (across j qi + below j qi).transpose = across j qi + below j qi := by rw [Matrix.transpose_add, across_T, below_T]
  rw [hT] at i4
  obtain ⟨R1, f1, f2, f3⟩ := siteP eigh (by decide : 0 < 16) (C4v.fitsState hD (by decide) hf) (C4v.fitsEnv hchi hf) (C4v.tiling a) (fun _ => rfl) (C4v.reads a env) (0, 0) h1
  obtain ⟨R2, g1, g2, g3⟩ := (pairP eigh (by decide : 0 < 16) (C4v.fitsState hD (by decide) hf) (C4v.fitsEnv hchi hf) (fun _ => rfl) (C4v.reads a env) (0, 0)).1 h2
  have f1' := (C4v.C74_site_partial eigh false false hchi hD (by decide) hf hS (.inl rfl) (0, 0)).trans f1
  have g1' := (C4v.C74_row eigh false false hchi hD (by decide) hf hr hS (0, 0)).trans g1
  have hlin : bond (C4v.tensors a env) (C4v.Spec.dims chi D 16) .right (0, 0) (across j qi + below j qi) =
      bond (C4v.tensors a env) (C4v.Spec.dims chi D 16) .right (0, 0) (across j qi) + bond (C4v.tensors a env) (C4v.Spec.dims chi D 16) .right (0, 0) (below j qi) := by
    simp only [bond, Spec.bondNet, Matrix.add_apply, add_mul, Finset.sum_add_distrib, Complex.add_re, add_div]
  rw [jqPlaq, e1, C4v.lift_some, e2, C4v.lift_some, e3, C4v.lift_some, e4, C4v.lift_some, f1', Energy.bindOk, g1', Energy.bindOk, full2_is f2 s3 v3, C4v.lift_some, full4_is g2 i4 hT, C4v.lift_some,
    f3 _ (inside_herm j q), g3 _ ((across_herm j qi).add (below_herm j qi)), hlin, bond_turn hf hr .down]
  refine congrArg Except.ok ?_
  push_cast
  ring

/-- C111, partial. The full property is `energy_1x1 = fourSpinEnergy` for `q_inter = q`; the result differs from it by the plaquette at the corner, so it holds if `q = 0` or if that plaquette has expectation value zero. -/
theorem C111_energy_partial (eigh : Tensor ℂ → List ℝ × Tensor ℂ) (j q : ℝ) (hchi : 0 < chi) (hD : 0 < D) (hf : C4v.Spec.Fits chi D 16 a env) (hr : C4v.Spec.Rotated D 16 a) (hS : C4v.Spec.CSymm chi env)
    (h1 : (Corrf.Spec.norm (C4v.tensors a env) (C4v.Spec.dims chi D 16) .right (0, 0) 1).re ≠ 0) (h2 : (Corrf.Spec.norm (C4v.tensors a env) (C4v.Spec.dims chi D 16) .right (0, 0) 2).re ≠ 0) (r : Tensor ℂ) :
    jqPlaq eigh j q q a env = .ok ((Spec.fourSpinEnergy (C4v.tensors a env) (C4v.Spec.dims chi D 16) r j q + q / 4 * (Spec.expect4 r corner).re : ℝ) : ℂ) ∧
    (q * (Spec.expect4 r corner).re = 0 → jqPlaq eigh j q q a env = .ok (Spec.fourSpinEnergy (C4v.tensors a env) (C4v.Spec.dims chi D 16) r j q : ℂ)) := by
  have h := C111_value eigh j q q hchi hD hf hr hS h1 h2
  constructor
  · rw [h, Spec.fourSpinEnergy]
    congr 2
    ring
  · intro h0
    rw [h, Spec.fourSpinEnergy, h0, sub_zero]
end

end Verif.Models
