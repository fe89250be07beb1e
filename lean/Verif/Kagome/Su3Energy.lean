import Verif.Kagome.Su3Ham
import Mathlib.Analysis.SpecialFunctions.Trigonometric.Basic
/-
C119. The Hamiltonian and the energies of KAGOME_SU3.
-/
namespace Verif.KagomeRdm
open Tensor Ctm Rdm Ctm.Spec Spec

/-- `h_tri` is the documented Hamiltonian of a triangle, for all couplings; it is Hermitian and commutes with every change of basis that acts on all spins alike. -/
theorem C119_hamiltonian (m : Su3Couplings) : (∃ T, su3H m = some T ∧ Holds T (su3Triangle m)) ∧ (su3Triangle m).IsHermitian ∧
    ∀ U : Su2.Op 3, tensor (fun _ => U) * su3Triangle m = su3Triangle m * tensor (fun _ => U) := by
  refine ⟨su3H_holds m, su3Triangle_herm m, fun U => ?_⟩
  have key : ∀ e : Equiv.Perm (Fin 3), ∀ P : Op3 ℂ 3, (∀ t s, P t s = if t = s ∘ e then 1 else 0) → tensor (fun _ => U) * P = P * tensor (fun _ => U) := by
    intro e P hP
    ext t s
    simp only [Matrix.mul_apply, hP, mul_ite, ite_mul, mul_one, mul_zero, one_mul, zero_mul]
    have h2 : ∀ u : Spins 3, (t = u ∘ e) = (t ∘ e.symm = u) := by
      intro u
      apply propext
      constructor <;> rintro rfl <;> funext i <;> simp
    simp only [h2]
    rw [Finset.sum_ite_eq' Finset.univ (s ∘ e), if_pos (Finset.mem_univ _), Finset.sum_ite_eq Finset.univ (t ∘ e.symm), if_pos (Finset.mem_univ _)]
    simp only [tensor, Matrix.of_apply, Function.comp]
    exact (Equiv.prod_comp e.symm (fun i => U (t i) (s (e i)))).symm.trans (by simp)
  have hsw : ∀ x y, tensor (fun _ => U) * swap 3 x y = swap 3 x y * tensor (fun _ => U) := fun x y => key (Equiv.swap x y) _ fun _ _ => rfl
  have hc : tensor (fun _ => U) * cyclic 3 = cyclic 3 * tensor (fun _ => U) := key e201 _ fun t s => by
    refine if_congr ?_ rfl rfl
    rw [spins_ext]
    exact ⟨fun ⟨a, b, c⟩ => ⟨c, a, b⟩, fun ⟨a, b, c⟩ => ⟨b, c, a⟩⟩
  have hc' : tensor (fun _ => U) * (cyclic 3).conjTranspose = (cyclic 3).conjTranspose * tensor (fun _ => U) := key e120 _ fun t s => by
    rw [Matrix.conjTranspose_apply]
    unfold cyclic
    rw [Matrix.of_apply, apply_ite star, star_one, star_zero]
    refine if_congr ?_ rfl rfl
    rw [spins_ext]
    exact ⟨fun ⟨a, b, c⟩ => ⟨a.symm, b.symm, c.symm⟩, fun ⟨a, b, c⟩ => ⟨a.symm, b.symm, c.symm⟩⟩
  unfold su3Triangle swaps
  simp only [mul_add, add_mul, mul_sub, sub_mul, Matrix.mul_smul, Matrix.smul_mul, hsw, hc, hc']

/-- The documented parametrisation through angles. -/
theorem C119_angles (φ θ : ℝ) : su3Triangle ⟨Real.cos φ, Real.sin φ * Real.cos θ, Real.sin φ * Real.sin θ⟩ =
    (Real.cos φ : ℂ) • swaps 3 + (Real.sin φ : ℂ) • (Complex.exp (Complex.I * θ) • cyclic 3 + Complex.exp (-(Complex.I * θ)) • (cyclic 3).conjTranspose) := by
  have h1 : Complex.exp (Complex.I * θ) = Complex.cos θ + Complex.sin θ * Complex.I := by rw [mul_comm, Complex.exp_mul_I]
  have h2 : Complex.exp (-(Complex.I * θ)) = Complex.cos θ - Complex.sin θ * Complex.I := by
    rw [show -(Complex.I * θ) = ((-θ : ℂ)) * Complex.I by ring, Complex.exp_mul_I, Complex.cos_neg, Complex.sin_neg]; ring
  rw [h1, h2]
  unfold su3Triangle
  push_cast
  module

/-- The energies of the two triangles are the expectation values of the Hamiltonian in the density matrix of the plaquette. -/
theorem C119_energies (eigh : Tensor ℂ → List ℝ × Tensor ℂ) (m : Su3Couplings) {D : Dims} {st : State ℂ} {env : Env ℂ} (ht : Tiling st) (hs : FitsState D st) (he : FitsEnv D st env)
    (hp : ∀ c, D.p c = 3 ^ 3) {R : Tensor ℂ} (hR : rdm2x2 eigh false st env (0, 0) [0, 1, 2, 3] = .ok R) :
    ∃ d u, su3Energies eigh m st env = .ok (d, u) ∧ (d : ℂ) = Matrix.trace (reduced 3 4 R 0 1 2 * su3Triangle m) ∧ (u : ℂ) = Matrix.trace (reduced 3 4 R 4 8 9 * su3Triangle m) := by
  obtain ⟨T, eT, hT⟩ := su3H_holds m
  obtain ⟨v, n, e1, hv⟩ := C115_down_hermitian eigh ht hs he hp (0, 0) (.inl hT) (su3Triangle_herm m) hR
  obtain ⟨R', e2, hm⟩ := C113_plaquette eigh ht hs he hp (0, 0) [] ['B'] ['A'] ['C'] (by simp [Keep]) (by simp [Keep]) (by simp [Keep]) (by simp [Keep]) (by decide) hR
  rw [show kept [letters [], letters ['B'], letters ['A'], letters ['C']] = [4, 8, 9] by decide +kernel] at hm
  have h2 := full6_val (holds_marginal (by decide) (by decide) (by decide) hm) hT
  refine ⟨v.re, (Matrix.trace (reduced 3 4 R 4 8 9 * su3Triangle m)).re, ?_, hv, trace_real (reduced_isHerm eigh hs he hp (0, 0) hR 4 8 9) (su3Triangle_herm m)⟩
  simp only [su3Energies, eT, lift, e1, e2, h2, bind, Except.bind]
  rfl

/-- The energy per site is a third of the energies of the two triangles of a unit cell of three sites. -/
theorem C119_per_site (eigh : Tensor ℂ → List ℝ × Tensor ℂ) (m : Su3Couplings) {D : Dims} {st : State ℂ} {env : Env ℂ} (ht : Tiling st) (hs : FitsState D st) (he : FitsEnv D st env)
    (hp : ∀ c, D.p c = 3 ^ 3) {R : Tensor ℂ} (hR : rdm2x2 eigh false st env (0, 0) [0, 1, 2, 3] = .ok R) :
    ∃ e : ℝ, su3PerSite eigh m st env = .ok e ∧ (e : ℂ) = (Matrix.trace (reduced 3 4 R 0 1 2 * su3Triangle m) + Matrix.trace (reduced 3 4 R 4 8 9 * su3Triangle m)) / 3 := by
  obtain ⟨d, u, e, h1, h2⟩ := C119_energies eigh m ht hs he hp hR
  refine ⟨(d + u) / 3, by simp only [su3PerSite, e, bind, Except.bind]; rfl, ?_⟩
  push_cast
  rw [h1, h2]

variable {p : Nat}

/-- The real parts of two traces with the network of one site: the expectation value of a Hermitian operator in the density matrix made of it. -/
theorem reduced_re (eigh : Tensor ℂ → List ℝ × Tensor ℂ) {T R : Tensor ℂ} (sT : T.shape = List.replicate 1 (p ^ 3) ++ List.replicate 1 (p ^ 3)) (hR : symRdm eigh false T = .ok R)
    {O : Op3 ℂ p} (hO : O.IsHermitian) :
    (Matrix.trace (reduced p 1 T 0 1 2)).re ≠ 0 ∧ (((Matrix.trace (reduced p 1 T 0 1 2 * O)).re / (Matrix.trace (reduced p 1 T 0 1 2)).re : ℝ) : ℂ) = Matrix.trace (reduced p 1 R 0 1 2 * O) := by
  obtain ⟨hpos, hn⟩ := symRdm_ok eigh sT hR
  obtain ⟨R1, e1, -, v1⟩ := symRdm_entries eigh sT hpos hn
  obtain rfl : R = R1 := by rw [hR] at e1; exact Except.ok.inj e1
  have htr : Matrix.trace (reduced p 1 T 0 1 2) = Matrix.trace (Rdm.Spec.op (List.replicate 1 (p ^ 3)) T) := by
    refine trace_reduced (Nat.pos_of_ne_zero fun h => ?_) T
    subst h; simp at hpos
  rw [htr]
  refine ⟨hn, ?_⟩
  rw [reduced_herm _ T R v1, Matrix.smul_mul, Matrix.trace_smul, trace_herm _ _ hO, smul_eq_mul]
  have key : ∀ (r x : ℝ), r ≠ 0 → ((x / r : ℝ) : ℂ) = 1 / (2 * (RCLike.ofReal r : ℂ)) * (RCLike.ofReal (2 * x) : ℂ) := by
    intro r x h
    have h' : (r : ℂ) ≠ 0 := Complex.ofReal_ne_zero.2 h
    show ((x / r : ℝ) : ℂ) = 1 / (2 * (r : ℂ)) * ((2 * x : ℝ) : ℂ)
    push_cast
    field_simp
  exact key _ _ hn

/-- The one-site density matrix and the traces of the one-site network. -/
theorem one_site (eigh : Tensor ℂ → List ℝ × Tensor ℂ) {D : Dims} {st : State ℂ} {env : Env ℂ} (ht : Tiling st) (hs : FitsState D st) (he : FitsEnv D st env) (hp : ∀ c, D.p c = p ^ 3)
    (c : Coord) (hc : c ∈ st.keys) {R : Tensor ℂ} {sl : Bool} (hR : rdm1x1 eigh sl false st env c none = .ok R) :
    ∃ n : ℂ, trace1x1 st env c (id3 p) = some n ∧ n.re ≠ 0 ∧ ∀ (o : Tensor ℂ) (O : Op3 ℂ p), Represents o O → O.IsHermitian →
      ∃ v, trace1x1 st env c o = some v ∧ ((v.re / n.re : ℝ) : ℂ) = Matrix.trace (reduced p 1 R 0 1 2 * O) := by
  obtain ⟨e, a, rho, h0, h1, h2, h4⟩ := C114_trace_partial ht hs he hp c hc
  have h3 := h4 _ _ (id3_one (p := p))
  rw [mul_one] at h3
  rw [h2] at hR
  have sT : rho.shape = List.replicate 1 (p ^ 3) ++ List.replicate 1 (p ^ 3) := by
    refine h1.1.trans ?_
    have h4 : Rdm.Spec.dims1 D c 4 = p ^ 3 := hp _
    have h7 : Rdm.Spec.dims1 D c 7 = p ^ 3 := hp _
    simp [h4, h7]
  refine ⟨_, h3, (reduced_re eigh sT hR (O := 1) Matrix.isHermitian_one).1, fun o O ho hO => ⟨_, h4 o O ho, (reduced_re eigh sT hR hO).2⟩⟩

/-- The energy of the down triangle from the network of one site is the expectation value in the density matrix of the site. -/
theorem C119_down_1x1 (eigh : Tensor ℂ → List ℝ × Tensor ℂ) (m : Su3Couplings) {D : Dims} {st : State ℂ} {env : Env ℂ} (ht : Tiling st) (hs : FitsState D st) (he : FitsEnv D st env)
    (hp : ∀ c, D.p c = 3 ^ 3) (hc : (0, 0) ∈ st.keys) {R : Tensor ℂ} {sl : Bool} (hR : rdm1x1 eigh sl false st env (0, 0) none = .ok R) :
    ∃ e : ℝ, su3Dn1x1 m st env = .ok e ∧ (e : ℂ) = Matrix.trace (reduced 3 1 R 0 1 2 * su3Triangle m) := by
  obtain ⟨T, eT, hT⟩ := su3H_holds m
  obtain ⟨n, e1, hn, h⟩ := one_site eigh ht hs he hp (0, 0) hc hR
  obtain ⟨v, e2, hv⟩ := h T _ (.inl hT) (su3Triangle_herm m)
  refine ⟨v.re / n.re, ?_, hv⟩
  simp only [su3Dn1x1, eT, e1, e2, lift, bind, Except.bind, Option.bind, reRatio]
  rw [if_neg hn]

end Verif.KagomeRdm
