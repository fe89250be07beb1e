import Verif.Trgl.ObsModel
import Verif.Trgl.Energy
import Verif.Energy.ObsProps
/-
C124: the observables of the triangular models.
-/
namespace Verif.Trgl
open Tensor Ctm Rdm Models Spec

namespace Spec
/-- The component `a` of the spin in the state with the density matrix `R`. -/
noncomputable def moment (p : Nat) (R : Tensor ℂ) (a : Fin 3) : ℝ := (∑ s : Fin p, ∑ t : Fin p, R.val [(s : Nat), (t : Nat)] * Trgl.Spec.spin p a t s).re

/-- The length of the vector of magnetisation. -/
noncomputable def length (p : Nat) (R : Tensor ℂ) : ℝ := Real.sqrt (moment p R 0 ^ 2 + moment p R 1 ^ 2 + moment p R 2 ^ 2)

/-- The value named by a label: `rho`, `h`, `v`, `d` are the density matrices of a site, of the pairs of sites `(c, c + (1,0))`, `(c, c + (0,1))` and `(c, c + (1,-1))`. -/
noncomputable def observable (p : Nat) (q : ℝ × ℝ) (keys : List Coord) (rho h v d : Coord → Tensor ℂ) : Label → ℂ
  | .avgM => ((keys.map fun c => length p (rho c)).sum : ℝ) / (keys.length : ℂ)
  | .m c => (length p (rho c) : ℝ)
  | .sz c => (moment p (rho c) 2 : ℝ)
  | .sp c => (moment p (rho c) 0 : ℝ) + Complex.I * (moment p (rho c) 1 : ℝ)
  | .sm c => (moment p (rho c) 0 : ℝ) - Complex.I * (moment p (rho c) 1 : ℝ)
  | .row c => ((expect (-q.1, q.1) ![c, (c.1 + 1, c.2)] (h c) (Trgl.Spec.dot 2 p 0 1)).re : ℝ)
  | .column c => ((expect (-q.1, q.1) ![c, (c.1, c.2 + 1)] (v c) (Trgl.Spec.dot 2 p 0 1)).re : ℝ)
  | .anti c => ((expect (-q.1, q.1) ![c, (c.1 + 1, c.2 - 1)] (d c) (Trgl.Spec.dot 2 p 0 1)).re : ℝ)
  | .qx => (q.1 : ℝ)
  | .qy => (q.2 : ℝ)

/-- The labels in their order. -/
def labels (keys : List Coord) : List Label :=
  [.avgM] ++ keys.map .m ++ keys.flatMap (fun c => [.sz c, .sp c, .sm c]) ++ keys.map .row ++ keys.map .column ++ keys.map .anti ++ [.qx, .qy]
end Spec

variable {p : Nat}

theorem herm_entries (eigh : Tensor ℂ → List ℝ × Tensor ℂ) {T R : Tensor ℂ} (hT : T.shape = [p, p]) (h : symRdm eigh false T = .ok R) :
    R.shape = [p, p] ∧ ∀ s t : Fin p, star (R.val [(s : Nat), (t : Nat)]) = R.val [(t : Nat), (s : Nat)] := by
  obtain ⟨h0, h1⟩ := symRdm_ok eigh (s := [p]) hT h
  obtain ⟨R', e, sh, v⟩ := symRdm_entries eigh (s := [p]) hT h0 h1
  rw [h] at e
  obtain rfl := Except.ok.inj e
  refine ⟨sh, fun s t => ?_⟩
  have h1 := v [(s : Nat)] [(t : Nat)] (by simp [InB]) (by simp [InB])
  have h2 := v [(t : Nat)] [(s : Nat)] (by simp [InB]) (by simp [InB])
  simp only [List.cons_append, List.nil_append] at h1 h2
  rw [h1, h2]
  simp only [star_mul', star_add, star_star]
  rw [add_comm]
  congr 1
  simp

theorem traceMul_op {R : Tensor ℂ} (hR : R.shape = [p, p]) (O : Su2.Op p) :
    Energy.traceMul R (opP p O) = some (∑ s : Fin p, ∑ t : Fin p, R.val [(s : Nat), (t : Nat)] * O t s) := by
  obtain ⟨X, e, -, v⟩ := einsum_ok (fun _ => p) [(R, [0, 1]), (opP p O, [1, 0])] [] (by simp [hR, opP]) (by decide) (by simp)
  have h := v (fun _ => 0) (by simp)
  have hl : (([(R, [0, 1]), (opP p O, [1, 0])] : List (Tensor ℂ × List Nat)).flatMap Prod.snd).dedup.filter (fun l => l ∉ ([] : List Nat)) = [1, 0] := by
    simp only [List.flatMap_cons, List.flatMap_nil]; decide
  rw [hl] at h
  unfold Energy.traceMul
  rw [e]
  show some (X.val []) = _
  rw [List.map_nil] at h
  rw [h]
  congr 1
  simp only [sumOver, termOf, List.map_cons, List.map_nil, List.prod_cons, List.prod_nil, mul_one, Finset.sum_range]
  rw [Finset.sum_comm]
  refine Finset.sum_congr rfl fun a _ => Finset.sum_congr rfl fun b _ => ?_
  simp [Function.update, opP]

theorem spin_conj (a : Fin 3) : (Trgl.Spec.spin p a).conjTranspose = Trgl.Spec.spin p a := by
  fin_cases a
  · show (Su2.Spec.Sx p).conjTranspose = Su2.Spec.Sx p
    simp only [Su2.Spec.Sx, Matrix.conjTranspose_smul, Matrix.conjTranspose_add, Su2.SP_conj, Su2.SM_conj]
    rw [add_comm]
    simp
  · exact sy_conj p
  · exact Su2.SZ_conj p

/-- Hermitian operators have real expectation values. -/
theorem moment_real {R : Tensor ℂ} (h : ∀ s t : Fin p, star (R.val [(s : Nat), (t : Nat)]) = R.val [(t : Nat), (s : Nat)]) (a : Fin 3) :
    ∑ s : Fin p, ∑ t : Fin p, R.val [(s : Nat), (t : Nat)] * Trgl.Spec.spin p a t s = ((moment p R a : ℝ) : ℂ) := by
  refine (Complex.conj_eq_iff_re.1 ?_).symm
  show star _ = _
  rw [star_sum, Finset.sum_congr rfl fun s _ => star_sum _ _, Finset.sum_comm]
  refine Finset.sum_congr rfl fun s _ => Finset.sum_congr rfl fun t _ => ?_
  rw [star_mul', h]
  congr 1
  exact congrFun (congrFun (spin_conj (p := p) a) _) _

theorem zip_graph {α β : Type} (l : List α) (f : α → β) : l.zip (l.map f) = l.map fun a => (a, f a) := by
  induction l with
  | nil => rfl
  | cons a l ih => simp [ih]

theorem mapM_ok {α β : Type} {f : α → Except Err β} {g : α → β} {l : List α} (h : ∀ a ∈ l, f a = .ok (g a)) : l.mapM f = .ok (l.map g) := by
  induction l with
  | nil => rfl
  | cons a l ih =>
    rw [List.mapM_cons, h a (by simp), ih fun b hb => h b (by simp [hb])]
    rfl

section
variable (eigh : Tensor ℂ → List ℝ × Tensor ℂ) {D : Dims} {st : State ℂ} {env : Env ℂ} (ht : Tiling st) (hs : FitsState D st) (he : FitsEnv D st env) (hp : ∀ c, D.p c = p)
include ht hs he hp

theorem site_herm {c : Coord} {R : Tensor ℂ} (h : rdm1x1 eigh true false st env c none = .ok R) :
    R.shape = [p, p] ∧ ∀ s t : Fin p, star (R.val [(s : Nat), (t : Nat)]) = R.val [(t : Nat), (s : Nat)] := by
  obtain ⟨e, a, rho, r, -, hn, e1, -⟩ := C31_expectation eigh true false ht hs he c (.inl rfl) ⟨[D.p c, D.p c], fun _ => 0⟩ rfl
  rw [e1] at h
  refine herm_entries eigh ?_ h
  rw [hn.1]
  simp [Rdm.Spec.dims1, hp]

theorem shape_anti {c : Coord} {R : Tensor ℂ} (h : rdm1n1 eigh false st env c = .ok R) : R.shape = [p, p, p, p] := by
  obtain ⟨-, rho, Y, -, e1, sY, -⟩ := C67_antidiagonal eigh false ht hs he c
  rw [e1] at h
  refine symRdm_shape eigh (s := [p, p]) ?_ h
  rw [sY]
  simp [hp]

theorem siteValues_ok {c : Coord} {R : Tensor ℂ} (h : rdm1x1 eigh true false st env c none = .ok R) (keys : List Coord) (q : ℝ × ℝ) (rho hh v d : Coord → Tensor ℂ) (hr : rho c = R) :
    siteValues eigh p st env c = .ok (observable p q keys rho hh v d (.sz c), observable p q keys rho hh v d (.sp c), observable p q keys rho hh v d (.sm c),
      observable p q keys rho hh v d (.m c)) := by
  obtain ⟨sh, hh⟩ := site_herm eigh ht hs he hp h
  subst hr
  have hz : Energy.traceMul (rho c) (opP p (Su2.SZ p)) = some ((moment p (rho c) 2 : ℝ) : ℂ) := by
    rw [traceMul_op sh, ← moment_real hh]; rfl
  have hu : Energy.traceMul (rho c) (opP p (Su2.SP p)) = some ((moment p (rho c) 0 : ℝ) + Complex.I * (moment p (rho c) 1 : ℝ) : ℂ) := by
    rw [traceMul_op sh, ← moment_real hh, ← moment_real hh]
    simp only [Finset.mul_sum, ← Finset.sum_add_distrib]
    congr 1
    refine Finset.sum_congr rfl fun s _ => Finset.sum_congr rfl fun t _ => ?_
    simp [Trgl.Spec.spin, Su2.Spec.Sx, Su2.Spec.Sy]
    ring_nf
    simp
    ring
  have hd : Energy.traceMul (rho c) (opP p (Su2.SM p)) = some ((moment p (rho c) 0 : ℝ) - Complex.I * (moment p (rho c) 1 : ℝ) : ℂ) := by
    rw [traceMul_op sh, ← moment_real hh, ← moment_real hh]
    simp only [Finset.mul_sum, ← Finset.sum_sub_distrib]
    congr 1
    refine Finset.sum_congr rfl fun s _ => Finset.sum_congr rfl fun t _ => ?_
    simp [Trgl.Spec.spin, Su2.Spec.Sx, Su2.Spec.Sy]
    ring_nf
    simp
    ring
  have hm := Energy.magnitude_val (moment p (rho c) 0) (moment p (rho c) 1) (moment p (rho c) 2)
  unfold siteValues
  rw [h]
  simp only [bind, Except.bind, hz, hu, hd, lift, hm]
  rfl

theorem pairValues_ok (q : ℝ × ℝ) {c : Coord} (keys : List Coord) (rho h v d : Coord → Tensor ℂ) (eh : rdm2x1 eigh true false st env c = .ok (h c))
    (ev : rdm1x2 eigh true false st env c = .ok (v c)) (ed : rdm1n1 eigh false st env c = .ok (d c)) :
    ∃ a b e, pairValues eigh p (rotation p q.1) (rotation p q.1).conjTranspose st env c = .ok (a, b, e) ∧ observable p q keys rho h v d (.row c) = (a : ℂ) ∧
      observable p q keys rho h v d (.column c) = (b : ℂ) ∧ observable p q keys rho h v d (.anti c) = (e : ℂ) := by
  have swap : ∀ (φ : ℝ) (r : Tensor ℂ), r.shape = [p, p, p, p] → (do full4 r (← rotSecond p (ssP p) (turn p φ))) = (do full4 (← rotSecond p (ssP p) (turn p φ)) r) := by
    intro φ r hr
    obtain ⟨y, e, hy⟩ := rotSecond_holds (ssP_holds p) (turn p φ)
    rw [e]
    show full4 r y = full4 y r
    rw [full4_val hy (dens2 hr), full4_val (dens2 hr) hy, Matrix.trace_mul_comm]
  have h1 := expect_second q c (1, 0) (-(2 * Real.pi * q.1)) (by simp [pitch]) rfl (shape_row eigh hs he hp eh)
  have h2 := expect_second q c (0, 1) (-(-(2 * Real.pi * q.1))) (by simp [pitch]) rfl (shape_column eigh hs he hp ev)
  have h3 := expect_second q c (1, -1) (-(2 * Real.pi * q.1) + -(2 * Real.pi * q.1)) (by simp [pitch]; ring) rfl (shape_anti eigh ht hs he hp ed)
  rw [← swap _ _ (shape_row eigh hs he hp eh)] at h1
  rw [← swap _ _ (shape_column eigh hs he hp ev)] at h2
  rw [← swap _ _ (shape_anti eigh ht hs he hp ed)] at h3
  simp only [add_zero] at h1 h2
  refine ⟨_, _, _, ?_, rfl, rfl, rfl⟩
  unfold pairValues
  rw [rotation_turn, turn_conj, ← turn_add, eh, ev, ed]
  simp only [bind, Except.bind] at h1 h2 h3 ⊢
  simp only [h1, h2, h3]
  rfl

/-- `eval_obs` returns the listed observables under their labels: bonds in the spiral of pitch `(-q, q)`. -/
theorem C124_eval_obs (q : ℝ × ℝ) (hk : st.keys ≠ []) (rho h v d : Coord → Tensor ℂ) (e0 : ∀ c ∈ st.keys, rdm1x1 eigh true false st env c none = .ok (rho c))
    (eh : ∀ c ∈ st.keys, rdm2x1 eigh true false st env c = .ok (h c)) (ev : ∀ c ∈ st.keys, rdm1x2 eigh true false st env c = .ok (v c))
    (ed : ∀ c ∈ st.keys, rdm1n1 eigh false st env c = .ok (d c)) :
    evalObs eigh p q st env = .ok ((labels st.keys).map fun l => (l, observable p q st.keys rho h v d l)) := by
  have hS : st.keys.mapM (siteValues eigh p st env) = .ok (st.keys.map fun c => (observable p q st.keys rho h v d (.sz c), observable p q st.keys rho h v d (.sp c),
      observable p q st.keys rho h v d (.sm c), observable p q st.keys rho h v d (.m c))) :=
    mapM_ok fun c hc => siteValues_ok eigh ht hs he hp (e0 c hc) st.keys q rho h v d rfl
  have hT : st.keys.mapM (pairValues eigh p (rotation p q.1) (rotation p q.1).conjTranspose st env) = .ok (st.keys.map fun c => ((observable p q st.keys rho h v d (.row c)).re,
      (observable p q st.keys rho h v d (.column c)).re, (observable p q st.keys rho h v d (.anti c)).re)) :=
    mapM_ok fun c hc => by
      obtain ⟨a, b, e, h1, h2, h3, h4⟩ := pairValues_ok eigh ht hs he hp q st.keys rho h v d (eh c hc) (ev c hc) (ed c hc)
      rw [h1, h2, h3, h4]
      simp
  unfold evalObs
  rw [hS, hT]
  simp only [bind, Except.bind, if_neg hk, pure, Except.pure, labels, List.map_append, List.map_map, List.map_flatMap, zip_graph, List.flatMap_map, List.map_cons, List.map_nil, Function.comp_def]
  congr 1
  have h1 : (List.map (fun c => observable p q st.keys rho h v d (.m c)) st.keys).sum / (st.keys.length : ℂ) = observable p q st.keys rho h v d .avgM := by
    simp only [observable]
    congr 1
    rw [← Complex.ofRealHom_eq_coe, map_list_sum, List.map_map]
    rfl
  have h2 : ∀ x, ((observable p q st.keys rho h v d (.row x)).re : ℂ) = observable p q st.keys rho h v d (.row x) := fun x => by simp [observable]
  have h3 : ∀ x, ((observable p q st.keys rho h v d (.column x)).re : ℂ) = observable p q st.keys rho h v d (.column x) := fun x => by simp [observable]
  have h4 : ∀ x, ((observable p q st.keys rho h v d (.anti x)).re : ℂ) = observable p q st.keys rho h v d (.anti x) := fun x => by simp [observable]
  simp only [h1, h2, h3, h4]
  rfl

omit ht in
/-- `eval_obs_chirality` returns the chiralities of the two triangles of the plaquette at `c`, the spins taken counter-clockwise. -/
theorem C124_chirality (q : ℝ × ℝ) (c : Coord) {r s : Tensor ℂ} (er : rdm2x2 eigh false st env c [1, 2, 3] = .ok r) (es : rdm2x2 eigh false st env c [0, 1, 2] = .ok s) :
    ∃ chi, KagomeRdm.tripleT p = some chi ∧ obsChirality eigh p st env (rotation p q.1) (rotation p q.1).conjTranspose chi c =
      .ok (expect (-q.1, q.1) ![(c.1 + 1, c.2), (c.1, c.2 + 1), (c.1 + 1, c.2 + 1)] r (triple 3 p 0 1 2),
        expect (-q.1, q.1) ![c, (c.1 + 1, c.2), (c.1, c.2 + 1)] s (triple 3 p 2 1 0)) := by
  obtain ⟨chi, ec, hc⟩ := hChi_holds p
  refine ⟨chi, ec, ?_⟩
  obtain ⟨r', e1, h1⟩ := rot01_holds (dens3 (shape_plaq eigh hs he hp [1, 2, 3] (by decide) (by decide) (by decide) er)) (rotation p q.1) (rotation p q.1).conjTranspose
  obtain ⟨s', e2, h2⟩ := rot12_holds (dens3 (shape_plaq eigh hs he hp [0, 1, 2] (by decide) (by decide) (by decide) es)) (rotation p q.1) (rotation p q.1).conjTranspose
  have hl := expect_lower q c r (ad_triple (p := p) 0 1 2)
  have hu := expect_upper q c s (ad_triple (p := p) 2 1 0)
  unfold pitch at hl hu
  rw [hl, hu]
  unfold obsChirality
  rw [er, es]
  simp only [bind, Except.bind, e1, e2, all3_val hc h1, all3rev_val hc h2, triple_rev, lift]
  rfl

end
end Verif.Trgl
