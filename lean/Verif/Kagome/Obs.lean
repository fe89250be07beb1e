import Verif.Kagome.ObsModel
import Verif.Kagome.HamProps
import Verif.Kagome.OneProps
/-
Lemmas for C117: operators on one spin and the traces of the one-site network.
-/
namespace Verif.KagomeRdm
open Tensor Ctm Rdm Ctm.Spec Spec

variable {p : Nat}

theorem at_add (x : Fin 3) (A B : Su2.Op p) : at' x (A + B) = at' x A + at' x B := by
  ext t s
  fin_cases x <;> simp [at', tensor, Fin.prod_univ_three, Function.update] <;> ring

theorem at_smul (x : Fin 3) (z : ℂ) (A : Su2.Op p) : at' x (z • A) = z • at' x A := by
  ext t s
  fin_cases x <;> simp [at', tensor, Fin.prod_univ_three, Function.update] <;> ring

theorem at_one (x : Fin 3) : at' x (1 : Su2.Op p) = 1 := by
  unfold at'
  rw [show (fun _ => (1 : Su2.Op p)) = Function.const _ 1 from rfl]
  rw [show Function.update (Function.const (Fin 3) (1 : Su2.Op p)) x 1 = Function.const _ 1 from Function.update_eq_self x _]
  ext t s
  simp only [tensor, Matrix.of_apply, Function.const, Matrix.one_apply, Fin.prod_univ_three]
  by_cases h : t = s
  · subst h; simp
  · rw [if_neg h]
    by_cases h0 : t 0 = s 0
    · by_cases h1 : t 1 = s 1
      · by_cases h2 : t 2 = s 2
        · exact absurd (funext fun i => by fin_cases i <;> assumption) h
        · simp [h2]
      · simp [h1]
    · simp [h0]

theorem sp_spins : Su2.SP p = spins p 0 + Complex.I • spins p 1 := by
  ext i j
  simp only [spins, Su2.Spec.Sx, Su2.Spec.Sy, Matrix.add_apply, Matrix.smul_apply, Matrix.sub_apply, smul_eq_mul]
  linear_combination (1 / 2 * (Su2.SP p i j - Su2.SM p i j)) * Complex.I_mul_I

theorem sm_spins : Su2.SM p = spins p 0 - Complex.I • spins p 1 := by
  ext i j
  simp only [spins, Su2.Spec.Sx, Su2.Spec.Sy, Matrix.add_apply, Matrix.smul_apply, Matrix.sub_apply, smul_eq_mul]
  linear_combination (-(1 / 2) * (Su2.SP p i j - Su2.SM p i j)) * Complex.I_mul_I

theorem obsOp_holds (o : Su2.Op p) (x : Fin 3) : ∃ T, obsOp p o x = some T ∧ Holds T (at' x o) := by
  obtain ⟨S, eS, hS⟩ := siteId_holds o
  have h : ∀ e : Equiv.Perm (Fin 3), ∃ T, permute (axes e) S = some T ∧ Holds T (at' (e.symm 0) o) := by
    intro e
    obtain ⟨T, h1, h2⟩ := permute_holds hS e
    rw [at_rot] at h2
    exact ⟨T, h1, h2⟩
  fin_cases x
  · exact ⟨S, eS, hS⟩
  · obtain ⟨T, h1, h2⟩ := h e201
    exact ⟨T, by simp only [obsOp, eS]; exact h1, h2⟩
  · obtain ⟨T, h1, h2⟩ := h e120
    exact ⟨T, by simp only [obsOp, eS]; exact h1, h2⟩

theorem obsView (o : Su2.Op p) (x : Fin 3) : ∃ T T', obsOp p o x = some T ∧ view [p ^ 3, p ^ 3] T = some T' ∧ Represents T' (at' x o) := by
  obtain ⟨T, h1, h2⟩ := obsOp_holds o x
  obtain ⟨-, T', h3, h4, h5⟩ := fuseOp_ok (.inl h2)
  refine ⟨T, T', h1, ?_, .inr ⟨h4, h5⟩⟩
  unfold fuseOp at h3
  rw [if_pos (by simp [h2.1]), if_pos (by simp [h2.1]), size, h2.1] at h3
  exact h3

theorem id3_one : Represents (id3 p) (1 : Op3 ℂ p) := by
  refine .inr ⟨rfl, fun t s => ?_⟩
  show (if index t = index s then (1 : ℂ) else 0) = _
  rw [Matrix.one_apply]
  refine if_congr ⟨fun h => ?_, fun h => by rw [h]⟩ rfl rfl
  rw [index_enc, index_enc] at h
  obtain ⟨a0, a1, a2⟩ := sp_enc (t 0).2 (t 1).2 (t 2).2
  obtain ⟨b0, b1, b2⟩ := sp_enc (s 0).2 (s 1).2 (s 2).2
  rw [h] at a0 a1 a2
  funext i
  fin_cases i
  exacts [Fin.ext (a0.symm.trans b0), Fin.ext (a1.symm.trans b1), Fin.ext (a2.symm.trans b2)]

theorem trace_reduced (hp : 0 < p) (T : Tensor ℂ) : Matrix.trace (reduced p 1 T 0 1 2) = Matrix.trace (Rdm.Spec.op (List.replicate 1 (p ^ 3)) T) := by
  have hm : IsMarginal p 1 T ⟨[p, p, p, p, p, p], fun idx => marginal p 1 T [0, 1, 2] (fun x => idx.getD x 0) (fun x => idx.getD (3 + x) 0)⟩ [0, 1, 2] := by
    refine ⟨rfl, fun k b _ _ => ?_⟩
    unfold marginal
    refine sumIdx_congr _ fun s _ => sumIdx_congr _ fun t _ => if_congr ?_ rfl rfl
    have h : ∀ x < 3 * 1, [k 0, k 1, k 2, b 0, b 1, b 2].getD x 0 = k x ∧ [k 0, k 1, k 2, b 0, b 1, b 2].getD (3 + x) 0 = b x := by
      intro x hx
      have : x = 0 ∨ x = 1 ∨ x = 2 := by omega
      rcases this with rfl | rfl | rfl <;> exact ⟨rfl, rfl⟩
    unfold Agree
    refine forall_congr' fun x => forall_congr' fun hx => ?_
    have := h x hx
    simp only [List.map_cons, List.map_nil, List.cons_append, List.nil_append]
    rw [this.1, this.2]
  rw [← trace_marginal hp (by decide) (by decide) hm]
  have hh := holds_marginal (by decide) (by decide) (by decide) hm
  rw [show Matrix.trace (reduced p 1 T 0 1 2) = ∑ s : Spins p, _ from Finset.sum_congr rfl fun s _ => (hh.2 s s).symm]
  rw [sum_spins3 p (fun x y z => (⟨[p, p, p, p, p, p], fun idx => marginal p 1 T [0, 1, 2] (fun x => idx.getD x 0) (fun x => idx.getD (3 + x) 0)⟩ : Tensor ℂ).val [x, y, z, x, y, z]), trace_op]
  simp [sumIdx, List.replicate]

/-- A Hermitian network of one site and the density matrix made of it. -/
theorem reduced_ratio (eigh : Tensor ℂ → List ℝ × Tensor ℂ) {T R : Tensor ℂ} (sT : T.shape = List.replicate 1 (p ^ 3) ++ List.replicate 1 (p ^ 3)) (hR : symRdm eigh false T = .ok R)
    (hT : ∀ s < p ^ 3, ∀ t < p ^ 3, T.val [s, t] = star (T.val [t, s])) (O : Op3 ℂ p) :
    Matrix.trace (reduced p 1 T 0 1 2) ≠ 0 ∧ Matrix.trace (reduced p 1 T 0 1 2 * O) / Matrix.trace (reduced p 1 T 0 1 2) = Matrix.trace (reduced p 1 R 0 1 2 * O) := by
  obtain ⟨hpos, hn⟩ := symRdm_ok eigh sT hR
  obtain ⟨R1, e1, -, v1⟩ := symRdm_entries eigh sT hpos hn
  obtain rfl : R = R1 := by rw [hR] at e1; exact Except.ok.inj e1
  have hh : (reduced p 1 T 0 1 2).conjTranspose = reduced p 1 T 0 1 2 := by
    have := reduced_herm (x := 0) (y := 1) (z := 2) (1 / 2 : ℂ) T T (n := 1) (p := p) (fun s t hs ht => by
      obtain ⟨s0, rfl, h1⟩ : ∃ s0, s = [s0] ∧ s0 < p ^ 3 := by
        cases hs with
        | cons h h' => cases h'; exact ⟨_, rfl, h⟩
      obtain ⟨t0, rfl, h2⟩ : ∃ s0, t = [s0] ∧ s0 < p ^ 3 := by
        cases ht with
        | cons h h' => cases h'; exact ⟨_, rfl, h⟩
      have := hT s0 h1 t0 h2
      show T.val [s0, t0] = _ * (T.val [s0, t0] + star (T.val [t0, s0]))
      rw [← this]; ring)
    rw [← sub_eq_zero]
    have h2 : (2 : ℂ) • reduced p 1 T 0 1 2 = reduced p 1 T 0 1 2 + (reduced p 1 T 0 1 2).conjTranspose := by
      nth_rewrite 1 [this]
      rw [smul_smul]; norm_num
    rw [two_smul] at h2
    exact sub_eq_zero.2 (add_left_cancel h2).symm
  have htr : Matrix.trace (reduced p 1 T 0 1 2) = Matrix.trace (Rdm.Spec.op (List.replicate 1 (p ^ 3)) T) := by
    refine trace_reduced (Nat.pos_of_ne_zero fun h => ?_) T
    subst h; simp at hpos
  have hre : ((RCLike.re (Matrix.trace (Rdm.Spec.op (List.replicate 1 (p ^ 3)) T)) : ℝ) : ℂ) = Matrix.trace (Rdm.Spec.op (List.replicate 1 (p ^ 3)) T) := by
    rw [← htr]
    refine Complex.conj_eq_iff_re.1 ?_
    exact (Matrix.trace_conjTranspose _).symm.trans (by rw [hh])
  have h0 : Matrix.trace (reduced p 1 T 0 1 2) ≠ 0 := by
    rw [htr]; intro h
    rw [h] at hn; simp at hn
  refine ⟨h0, ?_⟩
  rw [reduced_herm _ T R v1, hh, ← two_smul ℂ (reduced p 1 T 0 1 2), smul_smul, Matrix.smul_mul, Matrix.trace_smul, smul_eq_mul]
  rw [htr] at h0 ⊢
  have key : ∀ (r : ℝ) (X t : ℂ), (r : ℂ) = t → t ≠ 0 → X / t = 1 / (2 * (RCLike.ofReal r : ℂ)) * 2 * X := by
    intro r X t h h0
    rw [show (RCLike.ofReal r : ℂ) = t from h]; field_simp
  exact key _ _ _ hre h0

end Verif.KagomeRdm
