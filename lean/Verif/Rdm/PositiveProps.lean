import Verif.Rdm.PlaqProps
/-
Density matrices without negative eigenvalues: `sym_pos_def=True` changes nothing, for the plaquette and for every subset of its sites.
-/
namespace Verif.Rdm
open Tensor Ctm Ctm.Spec Spec Matrix
open scoped ComplexOrder
variable {K : Type} [RCLike K]

namespace Spec
/-- The Hermitian part. -/
noncomputable def hermPart (s : List Nat) (T : Tensor K) : Matrix (Fin s.prod) (Fin s.prod) K := (1 / 2 : K) • (op s T + (op s T)ᴴ)
end Spec

theorem sym_unclamped {eigh : Tensor K → List ℝ × Tensor K} (hE : Eigh eigh) {s : List Nat} (hs : 0 < s.prod) {T : Tensor K} (hT : T.shape = s ++ s) (hp : (hermPart s T).PosSemidef)
    (ht : RCLike.re (trace (op s T)) ≠ 0) : ∃ r r', symRdm eigh false T = .ok r ∧ symRdm eigh true T = .ok r' ∧ Same r' r := by
  obtain ⟨Y, -, -, -, h4, -, -, h7⟩ := symRdm_eq eigh false hs hT (fun _ => hE)
  obtain ⟨Z, -, -, -, g4, -, -, g7⟩ := symRdm_eq eigh true hs hT (fun _ => hE)
  have hr : RCLike.re (trace (hermPart s T)) ≠ 0 := by rw [hermPart, re_trace_herm]; exact ht
  obtain ⟨R, e1, e2, e3⟩ := h7 (by rw [h4 hp]; exact hr)
  obtain ⟨R', e1', e2', e3'⟩ := g7 (by rw [g4 hp]; exact hr)
  exact ⟨R, R', e1, e1', op_same e2' e2 (fun i j => by rw [e3, e3', h4 hp, g4 hp])⟩

theorem sumOver_psd (dim : Nat → Nat) {n : Nat} (ls : List Nat) (F : (Nat → Nat) → Matrix (Fin n) (Fin n) K) (σ : Nat → Nat) (h : ∀ τ, (∀ l ∈ ls, τ l < dim l) → (F τ).PosSemidef) :
    (Matrix.of fun i j => sumOver dim ls (fun τ => F τ i j) σ).PosSemidef := by
  have key : ∀ (ls : List Nat) (P : Nat → Prop) (σ : Nat → Nat), (∀ l, P l → σ l < dim l) → (∀ τ, (∀ l ∈ ls, τ l < dim l) → (∀ l, P l → τ l < dim l) → (F τ).PosSemidef) →
      (Matrix.of fun i j => sumOver dim ls (fun τ => F τ i j) σ).PosSemidef := by
    intro ls
    induction ls with
    | nil => intro P σ hσ h; exact h σ (by simp) hσ
    | cons a ls ih =>
      intro P σ hσ h
      have : (Matrix.of fun i j => sumOver dim (a :: ls) (fun τ => F τ i j) σ) =
          ∑ x ∈ Finset.range (dim a), (Matrix.of fun i j => sumOver dim ls (fun τ => F τ i j) (Function.update σ a x)) := by
        ext i j
        simp [sumOver, Matrix.sum_apply]
      rw [this]
      refine Matrix.posSemidef_sum _ fun x hx => ?_
      refine ih (fun l => P l ∨ l = a) _ (fun l hl => ?_) (fun τ h1 h2 => h τ (fun l hl => ?_) (fun l hl => h2 l (Or.inl hl)))
      · by_cases hla : l = a
        · subst hla; simpa using hx
        · rw [Function.update_of_ne hla]; exact hσ l (hl.resolve_right hla)
      · rcases List.mem_cons.1 hl with rfl | hl
        · exact h2 _ (Or.inr rfl)
        · exact h1 l hl
  exact key ls (fun _ => False) σ (fun _ h => h.elim) (fun τ h1 _ => h τ h1)

/-- Tracing out sites keeps the Hermitian part positive. -/
theorem ptrace_psd (d : Nat → Nat) (os : List Nat) {T : Tensor K} (hp : (hermPart ((List.range 4).map d) T).PosSemidef) (h0 : 0 < ((List.range 4).map d).prod) :
    (hermPart (((List.range 4).filter (· ∈ os)).map d) (ptrace d os T)).PosSemidef := by
  obtain ⟨ks, hks⟩ : ∃ ks, ks = ((List.range 4).filter (fun x => decide (x ∈ os))).map d := ⟨_, rfl⟩
  rw [← hks]
  have hl : ks.length = ((List.range 4).filter (fun x => decide (x ∈ os))).length := by rw [hks, List.length_map]
  let g : (Nat → Nat) → Fin ks.prod → Fin ((List.range 4).map d).prod := fun t i =>
    ⟨ravel ((List.range 4).map d) (fill os (unravel ks i) t) % ((List.range 4).map d).prod, Nat.mod_lt _ h0⟩
  have heq : hermPart ks (ptrace d os T) = Matrix.of fun i j => sumOver d (closedSites os) (fun t => ((hermPart ((List.range 4).map d) T).submatrix (g t) (g t)) i j) (fun _ => 0) := by
    ext i j
    have hi : InB ks (unravel ks i) := (inB_unravel _ _ i.2).1
    have hj : InB ks (unravel ks j) := (inB_unravel _ _ j.2).1
    have li : (unravel ks i).length = ((List.range 4).filter (fun x => decide (x ∈ os))).length := by rw [← hl]; exact hi.length_eq
    have lj : (unravel ks j).length = ((List.range 4).filter (fun x => decide (x ∈ os))).length := by rw [← hl]; exact hj.length_eq
    simp only [hermPart, Matrix.smul_apply, Matrix.add_apply, Matrix.conjTranspose_apply, Matrix.submatrix_apply, Matrix.of_apply, smul_eq_mul, op]
    rw [ptrace_val _ _ _ _ _ li, ptrace_val _ _ _ _ _ lj, star_sumOver, add_sumOver, mul_sumOver]
    apply sumOver_congr
    intro t ht _
    have up : ∀ v, InB ks v → InB ((List.range 4).map d) (fill os v t) := fun v hv => by
      rw [hks] at hv
      exact fill_inB hv ht
    have fi := up _ hi
    have fj := up _ hj
    have e1 : unravel ((List.range 4).map d) (g t i) = fill os (unravel ks i) t := by
      show unravel _ (ravel _ _ % _) = _
      rw [Nat.mod_eq_of_lt (ravel_lt fi), unravel_ravel fi]
    have e2 : unravel ((List.range 4).map d) (g t j) = fill os (unravel ks j) t := by
      show unravel _ (ravel _ _ % _) = _
      rw [Nat.mod_eq_of_lt (ravel_lt fj), unravel_ravel fj]
    rw [e1, e2]
  rw [heq]
  exact sumOver_psd d _ _ _ fun τ _ => hp.submatrix _

theorem hermPart_same {s : List Nat} {A B : Tensor K} (hA : A.shape = s ++ s) (h : Same A B) : hermPart s A = hermPart s B ∧ op s A = op s B := by
  have : op s A = op s B := by
    ext i j
    refine h.2 _ ?_
    rw [hA]
    exact List.rel_append (inB_unravel _ _ i.2).1 (inB_unravel _ _ j.2).1
  exact ⟨by rw [hermPart, hermPart, this], this⟩

/-- If the network of the plaquette has a positive Hermitian part, `sym_pos_def=True` changes nothing for any set of sites. -/
theorem plaq_unclamped {eigh : Tensor K → List ℝ × Tensor K} (hE : Eigh eigh) {D : Dims} {st : State K} {env : Env K} (hs : FitsState D st) (he : FitsEnv D st env) (c : Coord)
    {e : PlaqEnv K} {s : PlaqSites K} {R : Tensor K} (h1 : plaq st env c = some (e, s)) (hR : oe2x2 e s [0, 1, 2, 3] = some R)
    (hp : (hermPart ((List.range 4).map (physP D c)) R).PosSemidef) (h0 : 0 < ((List.range 4).map (physP D c)).prod) (ht : RCLike.re (trace (op ((List.range 4).map (physP D c)) R)) ≠ 0)
    (os : List Nat) (hn : os.Nodup) (hlt : ∀ x ∈ os, x < 4) :
    ∃ r r', rdm2x2 eigh false st env c os = .ok r ∧ rdm2x2 eigh true st env c os = .ok r' ∧ Same r' r := by
  obtain ⟨e', s', g1, g0, g2⟩ := plaq_ok hs he c
  obtain ⟨rfl, rfl⟩ : e = e' ∧ s = s' := by rw [h1] at g1; simpa using g1
  obtain ⟨R4, e4, q4⟩ := oe2x2_denotes (dimsP D c) e s g2 [0, 1, 2, 3] (by decide)
  obtain rfl : R = R4 := by rw [hR] at e4; injection e4
  obtain ⟨P, eP, hP⟩ := ptrace_same (dimsP D c) e s g2 q4 os
  rw [dimsP_phys] at hP
  have hpos : 0 < (((List.range 4).filter (fun x => decide (x ∈ os))).map (physP D c)).prod := by
    rw [List.prod_pos_iff_forall_pos_nat]
    intro n hm
    obtain ⟨x, hx, rfl⟩ := List.mem_map.1 hm
    rw [List.prod_pos_iff_forall_pos_nat] at h0
    exact h0 _ (List.mem_map_of_mem (List.mem_filter.1 hx).1)
  rw [rdm2x2_eq eigh false h1 ⟨hn, hlt⟩ eP, rdm2x2_eq eigh true h1 ⟨hn, hlt⟩ eP, symRdm_same eigh false hP, symRdm_same eigh true hP]
  exact sym_unclamped hE hpos rfl (ptrace_psd _ os hp h0) (by rw [trace_ptrace]; exact ht)

end Verif.Rdm
