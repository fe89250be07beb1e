import Verif.Kagome.Ham
import Verif.State.KagomeIO
/-
C116. Energies of the triangles of the Kagome lattice.
-/
namespace Verif.KagomeRdm
open Tensor Ctm Rdm Ctm.Spec Spec

variable {p : Nat}

theorem hTriangle_holds (m : Couplings) : ∃ T, hTriangle m = some T ∧ Holds T (triangle m m.jtrip) := by
  obtain ⟨S, eS, hS⟩ := ssnn_holds m
  obtain ⟨S2, P2, eS2, eP2, hP2⟩ := ss2_holds m.p
  obtain ⟨Z, eZ, hZ⟩ := siteId_holds (Su2.SZ m.p)
  obtain ⟨X, eX, hX⟩ := triple_holds m.p
  obtain ⟨N, eN, hN⟩ := threeTurns_holds hS
  obtain ⟨N2, eN2, hN2⟩ := threeTurns_holds hP2
  obtain ⟨G, eG, hG⟩ := threeTurns_holds hZ
  refine ⟨_, by simp only [hTriangle, eS, eS2, eP2, eZ, eX, eN, eN2, eG, Option.bind_eq_bind, Option.bind_some]; rfl, ?_⟩
  have := lin_holds_cons (z := 1) hN (lin_holds_cons (z := (m.j1sq : ℂ)) hN2 (lin_holds_cons (z := (m.jtrip : ℂ)) hX (lin_holds_cons (z := m.jperm) (perm_holds m.p)
    (lin_holds_cons (z := star m.jperm) (permInv_holds m.p) (lin_holds_cons (z := (m.h : ℂ)) hG lin_holds_nil)))))
  refine ⟨this.1, fun t s => (this.2 t s).trans (congrFun (congrFun ?_ t) s)⟩
  simp only [Matrix.submatrix_add, Matrix.submatrix_smul, Pi.add_apply, Pi.smul_apply, mul_rot, dot_rot, cross_rot, at_rot]
  rw [show e120.symm 0 = 2 from rfl, show e120.symm 1 = 0 from rfl, show e201.symm 0 = 1 from rfl, show e201.symm 1 = 2 from rfl]
  unfold triangle
  rw [Fin.sum_univ_three, show (0 + 1 : Fin 3) = 1 from rfl, show (1 + 1 : Fin 3) = 2 from rfl, show (2 + 1 : Fin 3) = 0 from rfl]
  simp only [smul_add, one_smul, add_zero]
  abel

/-! ### The Hamiltonian is Hermitian -/

theorem at_conj (x : Fin 3) (A : Su2.Op p) : (at' x A).conjTranspose = at' x A.conjTranspose := by
  unfold at'
  rw [tensor_conj]
  congr 1
  funext y
  by_cases h : y = x
  · subst h; simp
  · simp [h]

theorem at_comm {x y : Fin 3} (h : x ≠ y) (A B : Su2.Op p) : at' x A * at' y B = at' y B * at' x A := by
  unfold at'
  rw [tensor_mul, tensor_mul]
  congr 1
  funext z
  by_cases h1 : z = x
  · subst h1; simp [h]
  · simp [h1]

theorem spins_conj (a : Fin 3) : (spins p a).conjTranspose = spins p a := by
  obtain ⟨z0, z1, z2⟩ := svec_spins (p := p)
  fin_cases a
  · show (spins p 0).conjTranspose = spins p 0
    rw [← z1]; exact (Su2.C10_cartesian p).2.1 1
  · show (spins p 1).conjTranspose = spins p 1
    rw [← z2]; exact (Su2.C10_cartesian p).2.1 2
  · exact Su2.SZ_conj p

theorem dot_conj {x y : Fin 3} (h : x ≠ y) : (dot p x y).conjTranspose = dot p x y := by
  unfold dot
  rw [Matrix.conjTranspose_sum]
  refine Finset.sum_congr rfl fun a _ => ?_
  rw [Matrix.conjTranspose_mul, at_conj, at_conj, spins_conj, at_comm h.symm]

theorem cross_conj {x y : Fin 3} (h : x ≠ y) (a : Fin 3) : (cross p x y a).conjTranspose = cross p x y a := by
  unfold cross
  rw [Matrix.conjTranspose_sub, Matrix.conjTranspose_mul, Matrix.conjTranspose_mul, at_conj, at_conj, at_conj, at_conj, spins_conj, spins_conj, at_comm h.symm, at_comm h.symm]

theorem chirality_conj : (chirality p).conjTranspose = chirality p := by
  unfold chirality
  rw [Matrix.conjTranspose_sum]
  refine Finset.sum_congr rfl fun a _ => ?_
  rw [Matrix.conjTranspose_mul, at_conj, spins_conj, cross_conj (by decide)]
  unfold cross
  have h2 : ∀ A B C : Su2.Op p, at' 2 C * (at' 0 A * at' 1 B) = at' 0 A * at' 1 B * at' 2 C := by
    intro A B C
    rw [← mul_assoc, at_comm (by decide), mul_assoc, at_comm (x := 2) (y := 1) (by decide), mul_assoc]
  rw [mul_sub, sub_mul, h2, h2]

theorem triangle_herm (m : Couplings) (χ : ℝ) : (triangle m χ).IsHermitian := by
  unfold Matrix.IsHermitian triangle
  have hr : ∀ r : ℝ, star (r : ℂ) = r := fun r => Complex.conj_ofReal r
  have hne : ∀ x : Fin 3, x ≠ x + 1 := by decide
  simp only [Matrix.conjTranspose_add, Matrix.conjTranspose_sum, Matrix.conjTranspose_smul, Matrix.conjTranspose_mul, hr, chirality_conj, at_conj, Su2.SZ_conj,
    Matrix.conjTranspose_conjTranspose, star_star, dot_conj (hne _), cross_conj (hne _)]
  rw [add_comm (star m.jperm • _)]

/-- Without a chirality the operator of the code is the documented Hamiltonian. -/
theorem documented_of {m : Couplings} (h : m.jtrip = 0) : triangle m m.jtrip = documented m := by
  unfold documented; rw [h, neg_zero]

theorem reduced_isHerm (eigh : Tensor ℂ → List ℝ × Tensor ℂ) {D : Dims} {st : State ℂ} {env : Env ℂ} (hs : FitsState D st) (he : FitsEnv D st env)
    (hp : ∀ c, D.p c = p ^ 3) (c : Coord) {R : Tensor ℂ} (hR : rdm2x2 eigh false st env c [0, 1, 2, 3] = .ok R) (x y z : Nat) : (reduced p 4 R x y z).IsHermitian := by
  obtain ⟨e, s, h1, h0, h2⟩ := plaq_ok hs he c
  obtain ⟨T, eT, sT, -⟩ := plaq_full h2 (P := p ^ 3) (hp _) (hp _) (hp _) (hp _)
  rw [rdm2x2_eq eigh false h1 (by decide) eT] at hR
  obtain ⟨hpos, hn⟩ := symRdm_ok eigh sT hR
  obtain ⟨R1, e1, -, v1⟩ := symRdm_entries eigh sT hpos hn
  obtain rfl : R = R1 := by rw [hR] at e1; exact Except.ok.inj e1
  rw [reduced_herm _ T R v1]
  unfold Matrix.IsHermitian
  rw [Matrix.conjTranspose_smul, Matrix.conjTranspose_add, Matrix.conjTranspose_conjTranspose, add_comm]
  congr 1
  simp

theorem trace_real {A B : Op3 ℂ p} (hA : A.IsHermitian) (hB : B.IsHermitian) : (((Matrix.trace (A * B)).re : ℝ) : ℂ) = Matrix.trace (A * B) := by
  have h : star (Matrix.trace (A * B)) = Matrix.trace (A * B) := by
    rw [← Matrix.trace_conjTranspose, Matrix.conjTranspose_mul, hA.eq, hB.eq, Matrix.trace_mul_comm]
  exact Complex.conj_eq_iff_re.1 h

theorem mapM_keys {α : Type} (f : Coord → Except Err (Coord × α)) (P : Coord → α → Prop) (l : List Coord) (h : ∀ c ∈ l, ∃ x, f c = .ok (c, x) ∧ P c x) :
    ∃ out, l.mapM f = .ok out ∧ out.map Prod.fst = l ∧ ∀ q ∈ out, P q.1 q.2 := by
  induction l with
  | nil => exact ⟨[], rfl, rfl, by simp⟩
  | cons c l ih =>
    obtain ⟨x, hx, px⟩ := h c (by simp)
    obtain ⟨out, h1, h2, h3⟩ := ih (fun c hc => h c (by simp [hc]))
    refine ⟨(c, x) :: out, ?_, by simp [h2], ?_⟩
    · rw [List.mapM_cons, hx, h1]; rfl
    · intro q hq
      rcases List.mem_cons.1 hq with rfl | hq
      · exact px
      · exact h3 q hq

/-- The energy of every down triangle is the expectation value, in the density matrix of the plaquette, of the Hamiltonian with the chirality `+ jtrip`. -/
theorem C116_down (eigh : Tensor ℂ → List ℝ × Tensor ℂ) (m : Couplings) {D : Dims} {st : State ℂ} {env : Env ℂ} (ht : Tiling st) (hs : FitsState D st) (he : FitsEnv D st env)
    (hp : ∀ c, D.p c = m.p ^ 3) {R : Coord → Tensor ℂ} (hR : ∀ c ∈ st.keys, rdm2x2 eigh false st env c [0, 1, 2, 3] = .ok (R c)) :
    ∃ out, energyDn m st env = .ok out ∧ out.map Prod.fst = st.keys ∧
      ∀ q ∈ out, (q.2.1 : ℂ) = Matrix.trace (reduced m.p 4 (R q.1) 0 1 2 * triangle m m.jtrip) := by
  obtain ⟨T, eT, hT⟩ := hTriangle_holds m
  obtain ⟨out, h1, h2, h3⟩ := mapM_keys (fun c => do let q ← dnTriangle st env c T; return (c, q.1.re, q.2))
    (fun c x => (x.1 : ℂ) = Matrix.trace (reduced m.p 4 (R c) 0 1 2 * triangle m m.jtrip)) st.keys (fun c hc => by
      obtain ⟨v, n, e, hv⟩ := C115_down_hermitian eigh ht hs he hp c (.inl hT) (triangle_herm m _) (hR c hc)
      refine ⟨(v.re, n), ?_, hv⟩
      rw [e]; rfl)
  refine ⟨out, ?_, h2, h3⟩
  unfold energyDn
  rw [eT]
  exact h1

/-- The same for up triangles; the norms are one. -/
theorem C116_up (eigh : Tensor ℂ → List ℝ × Tensor ℂ) (m : Couplings) {D : Dims} {st : State ℂ} {env : Env ℂ} (ht : Tiling st) (hs : FitsState D st) (he : FitsEnv D st env)
    (hp : ∀ c, D.p c = m.p ^ 3) {R : Coord → Tensor ℂ} (hR : ∀ c ∈ st.keys, rdm2x2 eigh false st env c [0, 1, 2, 3] = .ok (R c)) :
    ∃ out, energyUp eigh m st env = .ok out ∧ out.map Prod.fst = st.keys ∧
      ∀ q ∈ out, (q.2.1 : ℂ) = Matrix.trace (reduced m.p 4 (R q.1) 4 8 9 * triangle m m.jtrip) ∧ q.2.2 = 1 := by
  obtain ⟨T, eT, hT⟩ := hTriangle_holds m
  obtain ⟨out, h1, h2, h3⟩ := mapM_keys (fun c => do
      let r ← rdmUp eigh false st env c
      let n ← lift (norm6 r)
      let v ← lift (full6 r T)
      return (c, v.re, n))
    (fun c x => (x.1 : ℂ) = Matrix.trace (reduced m.p 4 (R c) 4 8 9 * triangle m m.jtrip) ∧ x.2 = 1) st.keys (fun c hc => by
      obtain ⟨R', e, hv, hn⟩ := C115_up eigh ht hs he hp c hT (hR c hc)
      refine ⟨((Matrix.trace (reduced m.p 4 (R c) 4 8 9 * triangle m m.jtrip)).re, 1), ?_, ?_, rfl⟩
      · rw [e]
        show (lift (norm6 R') >>= _) = _
        rw [hn]
        show (lift (full6 R' T) >>= _) = _
        rw [hv]
        rfl
      · exact trace_real (reduced_isHerm eigh hs he hp c (hR c hc) 4 8 9) (triangle_herm m _))
  refine ⟨out, ?_, h2, h3⟩
  unfold energyUp
  rw [eT]
  exact h1

/-- Without the chirality term the energies are those of the documented Hamiltonian. Missing: `jtrip ≠ 0`, where the code has the opposite sign (`C116_violated`). -/
theorem C116_documented_partial (eigh : Tensor ℂ → List ℝ × Tensor ℂ) (m : Couplings) (hm : m.jtrip = 0) {D : Dims} {st : State ℂ} {env : Env ℂ} (ht : Tiling st) (hs : FitsState D st)
    (he : FitsEnv D st env) (hp : ∀ c, D.p c = m.p ^ 3) {R : Coord → Tensor ℂ} (hR : ∀ c ∈ st.keys, rdm2x2 eigh false st env c [0, 1, 2, 3] = .ok (R c)) :
    (∃ out, energyDn m st env = .ok out ∧ out.map Prod.fst = st.keys ∧ ∀ q ∈ out, (q.2.1 : ℂ) = Matrix.trace (reduced m.p 4 (R q.1) 0 1 2 * documented m)) ∧
    ∃ out, energyUp eigh m st env = .ok out ∧ out.map Prod.fst = st.keys ∧ ∀ q ∈ out, (q.2.1 : ℂ) = Matrix.trace (reduced m.p 4 (R q.1) 4 8 9 * documented m) := by
  rw [← documented_of hm]
  refine ⟨C116_down eigh m ht hs he hp hR, ?_⟩
  obtain ⟨out, h1, h2, h3⟩ := C116_up eigh m ht hs he hp hR
  exact ⟨out, h1, h2, fun q hq => (h3 q hq).1⟩

end Verif.KagomeRdm
