import Verif.Kagome.Spec
import Verif.Rdm.PlaqProps
/-
Partial traces over spins commute with the symmetrisation and normalisation of density matrices.
-/
namespace Verif.KagomeRdm
open Tensor Rdm Spec
variable {K : Type} [RCLike K]

theorem agree_comm {p n : Nat} {ks : List Nat} {k b : Nat → Nat} {s t : List Nat} : Agree p n ks k b s t ↔ Agree p n ks b k t s := by
  unfold Agree
  refine forall₂_congr fun x _ => ?_
  split
  · exact and_comm
  · exact eq_comm

theorem sumIdx_congr {M : Type} [AddCommMonoid M] (sh : List Nat) {f g : List Nat → M} (h : ∀ s, InB sh s → f s = g s) : sumIdx sh f = sumIdx sh g := by
  induction sh generalizing f g with
  | nil => exact h [] List.Forall₂.nil
  | cons d sh ih =>
    simp only [sumIdx]
    exact Finset.sum_congr rfl fun i hi => ih fun s hs => h _ (List.Forall₂.cons (Finset.mem_range.1 hi) hs)

theorem sumIdx_add (sh : List Nat) (f g : List Nat → K) : sumIdx sh (fun s => f s + g s) = sumIdx sh f + sumIdx sh g := by
  induction sh generalizing f g with
  | nil => rfl
  | cons d sh ih => simp only [sumIdx, ih, Finset.sum_add_distrib]

theorem sumIdx_zero (sh : List Nat) : sumIdx sh (fun _ => (0 : K)) = 0 := by
  induction sh with
  | nil => rfl
  | cons d sh ih => simp only [sumIdx, ih, Finset.sum_const_zero]

theorem mul_sumIdx (sh : List Nat) (c : K) (f : List Nat → K) : c * sumIdx sh f = sumIdx sh (fun s => c * f s) := by
  induction sh generalizing f with
  | nil => rfl
  | cons d sh ih => simp only [sumIdx, ← ih, Finset.mul_sum]

theorem star_sumIdx (sh : List Nat) (f : List Nat → K) : star (sumIdx sh f) = sumIdx sh (fun s => star (f s)) := by
  induction sh generalizing f with
  | nil => rfl
  | cons d sh ih => simp only [sumIdx, ← ih, star_sum]

theorem sumIdx_sum {ι : Type} (sh : List Nat) (S : Finset ι) (f : ι → List Nat → K) :
    sumIdx sh (fun s => ∑ i ∈ S, f i s) = ∑ i ∈ S, sumIdx sh (f i) := by
  induction sh generalizing f with
  | nil => rfl
  | cons d sh ih => simp only [sumIdx, ih]; exact Finset.sum_comm

theorem sumIdx_comm (sh sh' : List Nat) (f : List Nat → List Nat → K) :
    sumIdx sh (fun s => sumIdx sh' (fun t => f s t)) = sumIdx sh' (fun t => sumIdx sh (fun s => f s t)) := by
  induction sh generalizing f with
  | nil => rfl
  | cons d sh ih =>
    simp only [sumIdx, ih]
    rw [sumIdx_sum]

/-- A sum with one term. -/
theorem sumIdx_single (sh : List Nat) (s0 : List Nat) (h0 : InB sh s0) (f : List Nat → K) (h : ∀ s, InB sh s → s ≠ s0 → f s = 0) : sumIdx sh f = f s0 := by
  induction h0 generalizing f with
  | nil => rfl
  | @cons i d s0 sh hi _ ih =>
    simp only [sumIdx]
    rw [Finset.sum_eq_single i]
    · exact ih (fun s => f (i :: s)) (fun s hs hne => h _ (List.Forall₂.cons hi hs) (by simpa using hne))
    · intro j hj hji
      rw [sumIdx_congr sh (g := fun _ => (0 : K)) (fun s hs => h _ (List.Forall₂.cons (Finset.mem_range.1 hj) hs) (by simp [hji])), sumIdx_zero]
    · intro hi'; exact absurd (Finset.mem_range.2 hi) hi'

/-! ### Spins of a configuration -/

theorem enc_digits {p v : Nat} (h : v < p ^ 3) : v = v / p ^ 2 % p * (p * p) + (v / p ^ 1 % p * p + v / p ^ 0 % p) := by
  have hp : 0 < p := Nat.pos_of_ne_zero (by rintro rfl; simp at h)
  have h2 : v / p ^ 2 < p := by
    rw [Nat.div_lt_iff_lt_mul (by positivity)]
    calc v < p ^ 3 := h
      _ = p * p ^ 2 := by ring
  have e1 : v / p ^ 2 = v / p / p := by rw [pow_two, Nat.div_div_eq_div_mul]
  rw [Nat.mod_eq_of_lt h2, pow_one, pow_zero, Nat.div_one, e1]
  have a := Nat.div_add_mod v p
  have b := Nat.div_add_mod (v / p) p
  calc v = p * (v / p) + v % p := a.symm
    _ = p * (p * (v / p / p) + v / p % p) + v % p := by rw [b]
    _ = _ := by ring

theorem spin_lt {p : Nat} (hp : 0 < p) (s : List Nat) (x : Nat) : spin p s x < p := Nat.mod_lt _ hp

/-- A configuration is determined by its spins. -/
theorem spins_inj {p n : Nat} {s t : List Nat} (hs : InB (List.replicate n (p ^ 3)) s) (ht : InB (List.replicate n (p ^ 3)) t)
    (h : ∀ x < 3 * n, spin p s x = spin p t x) : s = t := by
  have hls : s.length = n := by simpa using hs.length_eq
  have hlt : t.length = n := by simpa using ht.length_eq
  have key : ∀ (u : List Nat), InB (List.replicate n (p ^ 3)) u → ∀ i < n, u.getD i 0 < p ^ 3 := by
    intro u hu i hi
    have hl : u.length = n := by simpa using hu.length_eq
    have := List.Forall₂.get hu (i := i) (by omega) (by simpa using hi)
    simpa [List.getD_eq_getElem?_getD, hl, hi] using this
  apply List.ext_getElem (by omega)
  intro i h1 h2
  have hi : i < n := by omega
  have g : s.getD i 0 = t.getD i 0 := by
    rw [enc_digits (key s hs i hi), enc_digits (key t ht i hi)]
    have a0 := h (3 * i) (by omega)
    have a1 := h (3 * i + 1) (by omega)
    have a2 := h (3 * i + 2) (by omega)
    simp only [spin, show 3 * i / 3 = i by omega, show (3 * i + 1) / 3 = i by omega, show (3 * i + 2) / 3 = i by omega, show 3 * i % 3 = 0 by omega,
      show (3 * i + 1) % 3 = 1 by omega, show (3 * i + 2) % 3 = 2 by omega] at a0 a1 a2
    norm_num only at a0 a1 a2
    rw [a0, a1, a2]
  simpa [List.getD_eq_getElem?_getD, h1, h2] using g

/-- The function on spins with given values on the kept spins. -/
def ofIdx (ks : List Nat) (k : List Nat) (x : Nat) : Nat := k.getD (ks.idxOf x) 0

theorem ofIdx_map {ks k : List Nat} (hn : ks.Nodup) (hl : k.length = ks.length) : ks.map (ofIdx ks k) = k := by
  apply List.ext_getElem (by simp [hl])
  intro i h1 h2
  simp only [List.length_map] at h1
  simp [ofIdx, List.Nodup.idxOf_getElem hn, h2]

theorem ofIdx_lt {p : Nat} (hp : 0 < p) {ks k : List Nat} (hk : InB (List.replicate ks.length p) k) (x : Nat) : ofIdx ks k x < p := by
  unfold ofIdx
  have hl : k.length = ks.length := by simpa using hk.length_eq
  by_cases h : ks.idxOf x < k.length
  · have := List.Forall₂.get hk (i := ks.idxOf x) h (by simpa [← hl] using h)
    simpa [List.getD_eq_getElem?_getD, h] using this
  · rw [List.getD_eq_getElem?_getD, List.getElem?_eq_none (by omega)]; exact hp

theorem map_inB {p : Nat} (ks : List Nat) {k : Nat → Nat} (hk : ∀ x, k x < p) : InB (List.replicate ks.length p) (ks.map k) := by
  induction ks with
  | nil => exact List.Forall₂.nil
  | cons a ks ih => exact List.Forall₂.cons (hk a) ih

/-! ### Trace and symmetrisation -/

theorem trace_marginal {p n : Nat} (hp : 0 < p) {ks : List Nat} (hn : ks.Nodup) (hlt : ∀ x ∈ ks, x < 3 * n) {T T' : Tensor K} (h : IsMarginal p n T T' ks) :
    Matrix.trace (op (List.replicate ks.length p) T') = Matrix.trace (op (List.replicate n (p ^ 3)) T) := by
  rw [trace_op, trace_op]
  have e1 : ∀ k, InB (List.replicate ks.length p) k → T'.val (k ++ k) = marginal p n T ks (ofIdx ks k) (ofIdx ks k) := by
    intro k hk
    have := h.val (ofIdx ks k) (ofIdx ks k) (ofIdx_lt hp hk) (ofIdx_lt hp hk)
    rwa [ofIdx_map hn (by simpa using hk.length_eq)] at this
  rw [sumIdx_congr _ e1]
  unfold marginal
  rw [sumIdx_comm]
  refine sumIdx_congr _ fun s hs => ?_
  rw [sumIdx_comm, sumIdx_single _ s hs]
  · rw [sumIdx_single _ (ks.map (spin p s)) (map_inB ks (spin_lt hp s))]
    · rw [if_pos]
      intro x hx
      split
      · rename_i hxk
        have : ofIdx ks (ks.map (spin p s)) x = spin p s x := by
          unfold ofIdx
          exact getD_map_idxOf _ _ _ _ hxk
        exact ⟨this.symm, this.symm⟩
      · rfl
    · intro k hk hne
      rw [if_neg]
      intro ha
      apply hne
      have hl : k.length = ks.length := by simpa using hk.length_eq
      rw [← ofIdx_map hn hl]
      apply List.map_congr_left
      intro x hx
      have := ha x (hlt x hx)
      rw [if_pos hx] at this
      exact this.1.symm
  · intro t ht hne
    rw [sumIdx_congr _ (g := fun _ => (0 : K)), sumIdx_zero]
    intro k hk
    rw [if_neg]
    intro ha
    apply hne
    refine (spins_inj hs ht fun x hx => ?_).symm
    have := ha x hx
    split at this
    · exact this.1.trans this.2.symm
    · exact this

theorem marginal_herm (p n : Nat) (ks : List Nat) (k b : Nat → Nat) (c : K) (T R : Tensor K)
    (hR : ∀ s t, InB (List.replicate n (p ^ 3)) s → InB (List.replicate n (p ^ 3)) t → R.val (s ++ t) = c * (T.val (s ++ t) + star (T.val (t ++ s)))) :
    marginal p n R ks k b = c * (marginal p n T ks k b + star (marginal p n T ks b k)) := by
  have e : star (marginal p n T ks b k) = sumIdx (List.replicate n (p ^ 3)) fun s => sumIdx (List.replicate n (p ^ 3)) fun t =>
      if Agree p n ks k b s t then star (T.val (t ++ s)) else 0 := by
    unfold marginal
    rw [star_sumIdx]
    simp only [star_sumIdx]
    rw [sumIdx_comm]
    refine sumIdx_congr _ fun s hs => sumIdx_congr _ fun t ht => ?_
    by_cases h : Agree p n ks k b s t
    · rw [if_pos h, if_pos (agree_comm.1 h)]
    · rw [if_neg h, if_neg (fun h' => h (agree_comm.1 h'))]; simp
  rw [e]
  unfold marginal
  rw [← sumIdx_add, mul_sumIdx]
  refine sumIdx_congr _ fun s hs => ?_
  rw [← sumIdx_add, mul_sumIdx]
  refine sumIdx_congr _ fun t ht => ?_
  by_cases h : Agree p n ks k b s t
  · rw [if_pos h, if_pos h, if_pos h, hR s t hs ht]
  · rw [if_neg h, if_neg h, if_neg h]; simp

/-- The symmetrised and normalised density matrix of a partial trace is the partial trace of the symmetrised and normalised density matrix. -/
theorem symRdm_marginal (eigh : Tensor K → List ℝ × Tensor K) {p n : Nat} (hp : 0 < p) {ks : List Nat} (hn : ks.Nodup) (hlt : ∀ x ∈ ks, x < 3 * n)
    {T T' R : Tensor K} (hT : T.shape = List.replicate n (p ^ 3) ++ List.replicate n (p ^ 3)) (h : IsMarginal p n T T' ks)
    (hR : symRdm eigh false T = .ok R) : ∃ R', symRdm eigh false T' = .ok R' ∧ IsMarginal p n R R' ks := by
  obtain ⟨h0, ht⟩ := symRdm_ok eigh hT hR
  obtain ⟨R1, e1, -, v1⟩ := symRdm_entries eigh hT h0 ht
  obtain rfl : R = R1 := by rw [hR] at e1; exact Except.ok.inj e1
  have htr := trace_marginal hp hn hlt h
  obtain ⟨R', e2, s2, v2⟩ := symRdm_entries eigh h.shape (by simp [hp]) (by rw [htr]; exact ht)
  refine ⟨R', e2, s2, fun k b hk hb => ?_⟩
  rw [v2 _ _ (map_inB ks hk) (map_inB ks hb), h.val k b hk hb, h.val b k hb hk, htr]
  exact (marginal_herm p n ks k b _ T R v1).symm

end Verif.KagomeRdm
