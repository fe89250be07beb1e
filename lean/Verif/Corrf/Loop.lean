import Verif.Corrf.Lemmas
import Mathlib.Algebra.BigOperators.Field
/-
The loop of `corrf_1sO1sO`.
-/
namespace Verif.Corrf
open Tensor Ctm Ctm.Spec
set_option linter.unusedSimpArgs false
set_option linter.unusedSectionVars false
variable {K : Type} [RCLike K]
section
variable {D : Dims} {st : State K} {env : Env K} {N : Spec.Tensors K}

theorem lift_bind {α β : Type} (a : α) (f : α → Except Err β) : (lift (some a) >>= f) = f a := rfl

/-- An edge divided by a number. -/
noncomputable def scaled (M : ℝ) (f : Spec.Vec K) : Spec.Vec K := fun x y z => f x y z / (M : K)

theorem step_scaled (d : Dir) (c : Coord) (o : Spec.Op K) (M : ℝ) (f : Spec.Vec K) :
    Spec.step N D d c o (scaled M f) = scaled M (Spec.step N D d c o f) := by
  funext x y z
  simp only [Spec.step, scaled, Finset.sum_div]
  refine Finset.sum_congr rfl (fun _ _ => Finset.sum_congr rfl (fun _ _ => Finset.sum_congr rfl (fun _ _ =>
    Finset.sum_congr rfl (fun _ _ => Finset.sum_congr rfl (fun _ _ => by ring)))))

theorem dot_scaled (s : Nat × Nat × Nat) (M : ℝ) (f g : Spec.Vec K) : Spec.dot s (scaled M f) g = Spec.dot s f g / (M : K) := by
  simp only [Spec.dot, scaled, Finset.sum_div]
  refine Finset.sum_congr rfl (fun _ _ => Finset.sum_congr rfl (fun _ _ => Finset.sum_congr rfl (fun _ _ => by ring)))

theorem grow_append (d : Dir) (c : Coord) (os : List (Spec.Op K)) (o : Spec.Op K) (E : Spec.Vec K) :
    Spec.grow N D d c (os ++ [o]) E = Spec.step N D d (Spec.ahead d c os.length) o (Spec.grow N D d c os E) := by
  induction os generalizing c E with
  | nil => simp [Spec.grow, ahead_zero]
  | cons p os ih => simp only [List.cons_append, Spec.grow, ih, ahead_ahead, List.length_cons, Nat.add_comm 1]

theorem rep_divBy {s : Nat × Nat × Nat} {E : Tensor K} {f : Spec.Vec K} {M : ℝ} (m : ℝ) (h : Rep s E (scaled M f)) : Rep s (divBy m E) (scaled (M * m) f) := by
  refine ⟨h.1, fun x y z hx hy hz => ?_⟩
  simp only [divBy, h.2 x y z hx hy hz, scaled, div_div, RCLike.ofReal_mul]

theorem foldr_max_nonneg (l : List ℝ) : 0 ≤ l.foldr max 0 := by
  induction l with
  | nil => simp
  | cons a l ih => simp [ih]

theorem le_foldr_max {l : List ℝ} {a : ℝ} (h : a ∈ l) : a ≤ l.foldr max 0 := by
  induction l with
  | nil => simp at h
  | cons b l ih =>
    simp only [List.foldr_cons]
    rcases List.mem_cons.1 h with rfl | h
    · exact le_max_left _ _
    · exact (ih h).trans (le_max_right _ _)

/-- If the largest entry vanishes, so does the whole edge and every number computed from it. -/
theorem dot_zero_of_norm {s : Nat × Nat × Nat} {E : Tensor K} {f : Spec.Vec K} (h : Rep s E f) (hz : vecNorm true E = 0) (g : Spec.Vec K) : Spec.dot s f g = 0 := by
  simp only [Spec.dot]
  refine Finset.sum_eq_zero (fun x h1 => Finset.sum_eq_zero (fun y h2 => Finset.sum_eq_zero (fun z h3 => ?_)))
  simp only [Finset.mem_range] at h1 h2 h3
  rw [← h.2 x y z h1 h2 h3]
  have hm : ‖E.val [x, y, z]‖ ≤ vecNorm true E := by
    unfold vecNorm
    simp only [if_true]
    refine le_foldr_max (List.mem_map.2 ⟨_, mem_indices.2 ?_, rfl⟩)
    rw [h.1]
    exact .cons h1 (.cons h2 (.cons h3 .nil))
  rw [hz] at hm
  rw [norm_le_zero_iff.1 hm, zero_mul]

/-- The loop of `corrf_1sO1sO` from iteration `r` on. -/
theorem loop11_spec (ht : Tiling st) (hs : FitsState D st) (he : FitsEnv D st env) (hN : Spec.Reads st env N) (d : Dir) (c : Coord) (o1 : Spec.Op K)
    (op2 : Nat → Tensor K) (n : Nat) : ∀ (r : Nat) (E0 E1 : Tensor K) (M : ℝ), M ≠ 0 → (∀ k < n, (op2 (r + k)).shape = [D.p (Spec.ahead d c (r + k + 1)), D.p (Spec.ahead d c (r + k + 1))]) →
    Rep (Spec.cut D d (Spec.ahead d c (r + 1))) E0 (scaled M (Spec.grow N D d c (List.replicate (r + 1) Spec.one) (Spec.edge N D (rev d) c))) →
    Rep (Spec.cut D d (Spec.ahead d c (r + 1))) E1 (scaled M (Spec.grow N D d c (o1 :: List.replicate r Spec.one) (Spec.edge N D (rev d) c))) →
    ((∀ k < n, Spec.norm N D d c (r + k + 2) ≠ 0) → ∃ l, loop11 st env d op2 n r (Spec.ahead d c r) E0 E1 = .ok l ∧ l.length = n ∧
      ∀ k < n, l[k]? = some (Spec.twoPoint N D d c o1 (Spec.transposed (op2 (r + k))) (r + k) / Spec.norm N D d c (r + k + 2))) ∧
    ((∃ k < n, Spec.norm N D d c (r + k + 2) = 0) → loop11 st env d op2 n r (Spec.ahead d c r) E0 E1 = .error .nan) := by
  induction n with
  | zero =>
    intro r E0 E1 M hM h2 h0 h1
    exact ⟨fun _ => ⟨[], rfl, rfl, fun k hk => absurd hk (Nat.not_lt_zero k)⟩, fun ⟨k, hk, _⟩ => absurd hk (Nat.not_lt_zero k)⟩
  | succ n ih =>
    intro r E0 E1 M hM h2 h0 h1
    have hc : shift (Spec.ahead d c r) d.vec = Spec.ahead d c (r + 1) := by rw [shift_vec, ahead_ahead]
    obtain ⟨F12, e12, q12⟩ := applyTM_rep ht hs he hN d (Spec.ahead d c (r + 1)) (some (op2 r)) (fun o ho => by cases ho; exact h2 0 (Nat.succ_pos n)) h1
    obtain ⟨F0, e0, q0⟩ := applyTM_rep ht hs he hN d (Spec.ahead d c (r + 1)) none (fun o ho => by cases ho) h0
    obtain ⟨F1, e1, q1⟩ := applyTM_rep ht hs he hN d (Spec.ahead d c (r + 1)) none (fun o ho => by cases ho) h1
    have l0 : List.replicate (r + 2) (Spec.one : Spec.Op K) = List.replicate (r + 1) Spec.one ++ [Spec.one] := List.replicate_succ'
    have l1 : Spec.one :: List.replicate r (Spec.one : Spec.Op K) = List.replicate r Spec.one ++ [Spec.one] := List.replicate_succ'
    have g0 : Spec.step N D d (Spec.ahead d c (r + 1)) Spec.one (Spec.grow N D d c (List.replicate (r + 1) Spec.one) (Spec.edge N D (rev d) c)) =
        Spec.grow N D d c (List.replicate (r + 2) Spec.one) (Spec.edge N D (rev d) c) := by rw [l0, grow_append, List.length_replicate]
    have g1 : ∀ o, Spec.step N D d (Spec.ahead d c (r + 1)) o (Spec.grow N D d c (o1 :: List.replicate r Spec.one) (Spec.edge N D (rev d) c)) =
        Spec.grow N D d c (o1 :: List.replicate r Spec.one ++ [o]) (Spec.edge N D (rev d) c) := by
      intro o; rw [grow_append, List.length_cons, List.length_replicate]
    simp only [inserted] at q0 q1 q12
    rw [step_scaled, g0, ahead_ahead] at q0
    rw [step_scaled, g1, ahead_ahead] at q1 q12
    obtain ⟨S12, f12, v12⟩ := applyEdge_rep he hN d (Spec.ahead d c (r + 1)) (by rw [ahead_ahead]; exact q12)
    obtain ⟨S00, f00, v00⟩ := applyEdge_rep he hN d (Spec.ahead d c (r + 1)) (by rw [ahead_ahead]; exact q0)
    rw [dot_scaled, ahead_ahead] at v12 v00
    have hn : S00.val [] = Spec.norm N D d c (r + 2) / (M : K) := by
      rw [v00]; simp only [Spec.norm, Spec.network, List.length_replicate]; rfl
    have ht2 : S12.val [] = Spec.twoPoint N D d c o1 (Spec.transposed (op2 r)) r / (M : K) := by
      rw [v12]; simp only [Spec.twoPoint, Spec.network, List.length_append, List.length_cons, List.length_replicate, List.length_nil]; rfl
    have hMK : (M : K) ≠ 0 := by exact_mod_cast hM
    have hstep : loop11 st env d op2 (n + 1) r (Spec.ahead d c r) E0 E1 =
        (entry S12 S00 F0 F1 >>= fun p => loop11 st env d op2 n (r + 1) (Spec.ahead d c (r + 1)) p.2.1 p.2.2 >>= fun vs => .ok (p.1 :: vs)) := by
      simp only [loop11, hc, e12, e0, e1, lift_bind, f12, f00]
      rfl
    rw [hstep]
    by_cases hz : Spec.norm N D d c (r + 2) = 0
    · refine ⟨fun h => absurd hz (h 0 (Nat.succ_pos n)), fun _ => ?_⟩
      simp only [entry, hn, hz, zero_div, true_or, if_true]
      rfl
    · have hv : vecNorm true F0 ≠ 0 := by
        intro hv
        have := dot_zero_of_norm q0 hv (Spec.edge N D d (Spec.ahead d c (r + 1)))
        rw [dot_scaled, div_eq_zero_iff] at this
        rcases this with h | h
        · exact hz (by simp only [Spec.norm, Spec.network, List.length_replicate]; exact h)
        · exact hMK h
      have hent : entry S12 S00 F0 F1 = .ok (Spec.twoPoint N D d c o1 (Spec.transposed (op2 r)) r / Spec.norm N D d c (r + 2), divBy (vecNorm true F0) F0, divBy (vecNorm true F0) F1) := by
        simp only [entry, hn, ht2, div_eq_zero_iff, hz, hMK, hv, or_self, if_false, Except.ok.injEq, Prod.mk.injEq, and_true]
        field_simp
      rw [hent]
      have hl : o1 :: List.replicate (r + 1) Spec.one = o1 :: List.replicate r Spec.one ++ [Spec.one] := by rw [List.replicate_succ', List.cons_append]
      obtain ⟨i1, i2⟩ := ih (r + 1) (divBy (vecNorm true F0) F0) (divBy (vecNorm true F0) F1) (M * vecNorm true F0) (mul_ne_zero hM hv)
        (fun k hk => by have := h2 (k + 1) (by omega); rwa [show r + (k + 1) = r + 1 + k by omega] at this)
        (rep_divBy _ q0) (by rw [hl]; exact rep_divBy _ q1)
      refine ⟨fun h => ?_, fun ⟨k, hk, hk0⟩ => ?_⟩
      · obtain ⟨l, el, hlen, hval⟩ := i1 (fun k hk => by have := h (k + 1) (by omega); rwa [show r + (k + 1) = r + 1 + k by omega] at this)
        refine ⟨_ :: l, by show (loop11 st env d op2 n (r + 1) (Spec.ahead d c (r + 1)) _ _ >>= _) = _; rw [el]; rfl, by simp [hlen], fun k hk => ?_⟩
        cases k with
        | zero => rfl
        | succ k => rw [List.getElem?_cons_succ, hval k (by omega), show r + 1 + k = r + (k + 1) by omega]
      · have : loop11 st env d op2 n (r + 1) (Spec.ahead d c (r + 1)) (divBy (vecNorm true F0) F0) (divBy (vecNorm true F0) F1) = .error .nan := by
          cases k with
          | zero => exact absurd hk0 hz
          | succ k => exact i2 ⟨k, by omega, by rwa [show r + 1 + k = r + (k + 1) by omega]⟩
        show (loop11 st env d op2 n (r + 1) (Spec.ahead d c (r + 1)) _ _ >>= _) = _
        rw [this]; rfl
end
end Verif.Corrf
