import Verif.Trgl.RingProps
/-
C128: the energy of the triangular models with the interaction on rhombi.
-/
namespace Verif.Trgl
open Tensor Ctm Rdm Models Spec
variable {p : Nat}

section
variable (eigh : Tensor ℂ → List ℝ × Tensor ℂ) {D : Dims} {st : State ℂ} {env : Env ℂ} (hs : FitsState D st) (he : FitsEnv D st env) (hp : ∀ c, D.p c = p)

namespace Spec

/-- The rhombus in the patch of three columns and two rows at `c`, in the order of the spins of its density matrix; around it, from an end of the long diagonal, the vertices are 2 3 1 0.
The y-axis points down. -/
def wideSites (c : Coord) : Fin 4 → Coord := ![(c.1 + 1, c.2), (c.1 + 2, c.2), (c.1, c.2 + 1), (c.1 + 1, c.2 + 1)]
/-- The rhombus in the patch of two columns and three rows at `c`; around it the vertices are 1 3 2 0. -/
def tallSites (c : Coord) : Fin 4 → Coord := ![(c.1, c.2 + 1), (c.1, c.2 + 2), (c.1 + 1, c.2), (c.1 + 1, c.2 + 1)]
/-- The plaquette at `c`, whose long diagonal goes down to the right; around it the vertices are 0 2 3 1. -/
def squareSites (c : Coord) : Fin 4 → Coord := ![c, (c.1 + 1, c.2), (c.1, c.2 + 1), (c.1 + 1, c.2 + 1)]

end Spec

include hs he hp in
theorem shape_wide4 {c : Coord} {R : Tensor ℂ} (h : rdm2x3 eigh false st env c [1, 2, 3, 4] = .ok R) : R.shape = [p, p, p, p, p, p, p, p] := by
  obtain ⟨rho, ⟨e, s, -, hn, -⟩, e1, -⟩ := C126_horizontal eigh false hs he c [1, 2, 3, 4] (by decide) (by decide)
  rw [e1] at h
  refine symRdm_shape eigh (s := [p, p, p, p]) ?_ h
  rw [hn]
  simp [Rdm.Spec.open6, Rdm.Spec.dims23, hp, List.range_succ]

include hs he hp in
theorem shape_tall4 {c : Coord} {R : Tensor ℂ} (h : rdm3x2 eigh false st env c [1, 2, 3, 4] = .ok R) : R.shape = [p, p, p, p, p, p, p, p] := by
  obtain ⟨rho, ⟨e, s, -, hn, -⟩, e1, -⟩ := C126_vertical eigh false hs he c [1, 2, 3, 4] (by decide) (by decide)
  rw [e1] at h
  refine symRdm_shape eigh (s := [p, p, p, p]) ?_ h
  rw [hn]
  simp [Rdm.Spec.open6, Rdm.Spec.dims32, hp, List.range_succ]

/-- The density matrices in the order of the sites in `eval_j1j2j4jX_per_site_legacy`. -/
theorem wide_val (q : ℝ × ℝ) (c : Coord) {o : RingOps} (ho : HoldsOps p o) {r : Tensor ℂ} (hr : r.shape = [p, p, p, p, p, p, p, p]) :
    (do slanted p o (← permute [2, 3, 1, 0, 6, 7, 5, 4] r) (rotation p q.1) (rotation p q.1 * rotation p q.1 * rotation p q.1) (rotation p q.1 * rotation p q.1)) =
      some (rhombus (p := p) (pitch q) (wideSites c) r 2 3 1 0) := by
  obtain ⟨y, e, hy⟩ := permute_holds4 (dens4 hr) f2310
  rw [show axes4 f2310 = [2, 3, 1, 0, 6, 7, 5, 4] by decide] at e
  rw [e, Option.bind_eq_bind, Option.bind_some]
  rw [slanted_val ho hy, turned_relabel, terms_relabel]
  refine congrArg some ?_
  have hw : wideSites c = fun i => ((c.1, c.2 + 1).1 + ((![(1, -1), (2, -1), (0, 0), (1, 0)] : Fin 4 → Coord) i).1, (c.1, c.2 + 1).2 + ((![(1, -1), (2, -1), (0, 0), (1, 0)] : Fin 4 → Coord) i).2) := by
    funext i; fin_cases i <;> simp [wideSites]
  rw [hw, rhombus_eq (pitch q) (c.1, c.2 + 1) _ _ ?_ r]
  · rw [show f2310 0 = 2 from rfl, show f2310 1 = 3 from rfl, show f2310 2 = 1 from rfl, show f2310 3 = 0 from rfl]
  · intro i
    simp only [rotation_turn, ← turn_add, ← turn_zero]
    fin_cases i <;> simp [f2310, pitch] <;> congr 1 <;> ring

theorem tall_val (q : ℝ × ℝ) (c : Coord) {o : RingOps} (ho : HoldsOps p o) {r : Tensor ℂ} (hr : r.shape = [p, p, p, p, p, p, p, p]) :
    (do slanted p o (← permute [1, 3, 2, 0, 5, 7, 6, 4] r) (rotation p q.1 * rotation p q.1) (rotation p q.1 * rotation p q.1 * rotation p q.1) (rotation p q.1)) =
      some (rhombus (p := p) (pitch q) (tallSites c) r 1 3 2 0) := by
  obtain ⟨y, e, hy⟩ := permute_holds4 (dens4 hr) f1320
  rw [show axes4 f1320 = [1, 3, 2, 0, 5, 7, 6, 4] by decide] at e
  rw [e, Option.bind_eq_bind, Option.bind_some]
  rw [slanted_val ho hy, turned_relabel, terms_relabel]
  refine congrArg some ?_
  have hw : tallSites c = fun i => ((c.1, c.2 + 2).1 + ((![(0, -1), (0, 0), (1, -2), (1, -1)] : Fin 4 → Coord) i).1, (c.1, c.2 + 2).2 + ((![(0, -1), (0, 0), (1, -2), (1, -1)] : Fin 4 → Coord) i).2) := by
    funext i; fin_cases i <;> simp [tallSites] <;> ring
  rw [hw, rhombus_eq (pitch q) (c.1, c.2 + 2) _ _ ?_ r]
  · rw [show f1320 0 = 1 from rfl, show f1320 1 = 3 from rfl, show f1320 2 = 2 from rfl, show f1320 3 = 0 from rfl]
  · intro i
    simp only [rotation_turn, ← turn_add, ← turn_zero]
    fin_cases i <;> simp [f1320, pitch] <;> congr 1 <;> ring

theorem square_val (q : ℝ × ℝ) (c : Coord) {o : RingOps} (ho : HoldsOps p o) {r : Tensor ℂ} (hr : r.shape = [p, p, p, p, p, p, p, p]) :
    (do upright p o (← permute [0, 1, 3, 2, 4, 5, 7, 6] r) (rotation p q.1) (rotation p q.1).conjTranspose) = some (rhombus (p := p) (pitch q) (squareSites c) r 0 2 3 1) := by
  obtain ⟨y, e, hy⟩ := permute_holds4 (dens4 hr) f0132
  rw [show axes4 f0132 = [0, 1, 3, 2, 4, 5, 7, 6] by decide] at e
  rw [e, Option.bind_eq_bind, Option.bind_some]
  rw [upright_val ho hy, turned_relabel, terms_relabel]
  refine congrArg some ?_
  have hw : squareSites c = fun i => (c.1 + ((![(0, 0), (1, 0), (0, 1), (1, 1)] : Fin 4 → Coord) i).1, c.2 + ((![(0, 0), (1, 0), (0, 1), (1, 1)] : Fin 4 → Coord) i).2) := by
    funext i; fin_cases i <;> simp [squareSites]
  rw [hw, rhombus_eq (pitch q) c _ _ ?_ r]
  · rw [show f0132 0 = 0 from rfl, show f0132 3 = 2 from rfl, show f0132 2 = 3 from rfl, show f0132 1 = 1 from rfl]
  · intro i
    simp only [rotation_turn, turn_conj, ← turn_zero]
    fin_cases i <;> simp [f0132, pitch]

theorem fold_terms {α : Type} {f : α → Except Err Terms} {z : α → Terms} {l : List α} (h : ∀ a ∈ l, f a = .ok (z a)) (e : Terms) :
    l.foldlM (fun (e : Terms) a => do let z ← f a; return (⟨e.nn + z.nn, e.nnn + z.nnn, e.chi + z.chi, e.p + z.p⟩ : Terms)) e =
      .ok ⟨e.nn + (l.map fun a => (z a).nn).sum, e.nnn + (l.map fun a => (z a).nnn).sum, e.chi + (l.map fun a => (z a).chi).sum, e.p + (l.map fun a => (z a).p).sum⟩ := by
  induction l generalizing e with
  | nil => simp [pure, Except.pure]
  | cons a l ih =>
    rw [List.foldlM_cons, h a (by simp)]
    show l.foldlM _ _ = _
    rw [ih fun b hb => h b (by simp [hb])]
    simp [add_assoc]

namespace Spec

/-- The energy of a rhombus. A side belongs to four rhombi, a triangle to three, a pair of next-nearest neighbours to one. -/
noncomputable def rhombusEnergy (j1 j2 j4 jchi : ℝ) (t : Terms) : ℂ := j1 * t.nn / 4 + j2 * t.nnn + j4 * t.p + jchi * t.chi / 3

end Spec

include hs he hp in
/-- The sums for the three rhombi at a vertex. -/
theorem C128_rhombi (q : ℝ × ℝ) (c : Coord) {r s t : Tensor ℂ} (er : rdm2x3 eigh false st env c [1, 2, 3, 4] = .ok r) (es : rdm3x2 eigh false st env c [1, 2, 3, 4] = .ok s)
    (et : rdm2x2 eigh false st env c [0, 1, 2, 3] = .ok t) : ∃ o, ringOps p = some o ∧
    let a := rhombus (p := p) (pitch q) (wideSites c) r 2 3 1 0
    let b := rhombus (p := p) (pitch q) (tallSites c) s 1 3 2 0
    let d := rhombus (p := p) (pitch q) (squareSites c) t 0 2 3 1
    ringPerSite eigh p o st env (rotation p q.1) (rotation p q.1).conjTranspose c =
      .ok ⟨(a.nn + b.nn + d.nn) / 4, a.nnn + b.nnn + d.nnn, (a.chi + b.chi + d.chi) / 3, a.p + b.p + d.p⟩ := by
  obtain ⟨o, eo, ho⟩ := ringOps_holds p
  refine ⟨o, eo, ?_⟩
  have h1 := wide_val q c ho (shape_wide4 eigh hs he hp er)
  have h2 := tall_val q c ho (shape_tall4 eigh hs he hp es)
  have h3 := square_val q c ho (shape_plaq eigh hs he hp [0, 1, 2, 3] (by decide) (by decide) (by decide) et)
  unfold ringPerSite
  rw [er, es, et]
  cases e1 : permute [2, 3, 1, 0, 6, 7, 5, 4] r with
  | none => rw [e1] at h1; cases h1
  | some r' =>
  cases e2 : permute [1, 3, 2, 0, 5, 7, 6, 4] s with
  | none => rw [e2] at h2; cases h2
  | some s' =>
  cases e3 : permute [0, 1, 3, 2, 4, 5, 7, 6] t with
  | none => rw [e3] at h3; cases h3
  | some t' =>
  rw [e1] at h1
  rw [e2] at h2
  rw [e3] at h3
  simp only [Option.bind_eq_bind, Option.bind_some] at h1 h2 h3
  simp only [bind, Except.bind, lift, h1, h2, h3, e1, e2, e3]
  rfl

include hs he in
/-- `energy_per_site` with `j4` returns the energy per site of the spiral of pitch `(-q, q)`: the sum over the rhombi of the cell, divided by the number of its sites. -/
theorem C128_energy {m : Couplings} (hp : ∀ c, D.p c = m.p) (j2 j4 : ℝ) (hj : j4 ≠ 0) (hd : m.diag = 1) (q : ℝ × ℝ) (hk : st.keys ≠ []) (r s t : Coord → Tensor ℂ)
    (er : ∀ c ∈ st.keys, rdm2x3 eigh false st env c [1, 2, 3, 4] = .ok (r c)) (es : ∀ c ∈ st.keys, rdm3x2 eigh false st env c [1, 2, 3, 4] = .ok (s c))
    (et : ∀ c ∈ st.keys, rdm2x2 eigh false st env c [0, 1, 2, 3] = .ok (t c)) :
    energyJ4 eigh m j2 j4 q st env = .ok ((st.keys.map fun c =>
      rhombusEnergy m.j1 j2 j4 m.jchi (rhombus (p := m.p) (pitch q) (wideSites c) (r c) 2 3 1 0) +
      rhombusEnergy m.j1 j2 j4 m.jchi (rhombus (p := m.p) (pitch q) (tallSites c) (s c) 1 3 2 0) +
      rhombusEnergy m.j1 j2 j4 m.jchi (rhombus (p := m.p) (pitch q) (squareSites c) (t c) 0 2 3 1)).sum / (st.keys.length : ℂ)).re := by
  obtain ⟨o, eo, -⟩ := ringOps_holds m.p
  unfold energyJ4 cellRing
  rw [if_neg (by simp [hd]), if_pos hj, eo]
  have hf := fold_terms (f := ringPerSite eigh m.p o st env (rotation m.p q.1) (rotation m.p q.1).conjTranspose) (l := st.keys) (z := fun c =>
    let a := rhombus (p := m.p) (pitch q) (wideSites c) (r c) 2 3 1 0
    let b := rhombus (p := m.p) (pitch q) (tallSites c) (s c) 1 3 2 0
    let d := rhombus (p := m.p) (pitch q) (squareSites c) (t c) 0 2 3 1
    ⟨(a.nn + b.nn + d.nn) / 4, a.nnn + b.nnn + d.nnn, (a.chi + b.chi + d.chi) / 3, a.p + b.p + d.p⟩) (by
    intro c hc
    obtain ⟨o', eo', h⟩ := C128_rhombi eigh hs he hp q c (er c hc) (es c hc) (et c hc)
    rw [eo] at eo'
    obtain rfl := Option.some.inj eo'
    exact h) ⟨0, 0, 0, 0⟩
  simp only [lift, bind, Except.bind] at hf ⊢
  rw [hf]
  simp only [if_neg hk, zero_add, mul_zero, add_zero]
  congr 3
  simp only [rhombusEnergy]
  rw [← List.sum_map_mul_left, ← List.sum_map_mul_left, ← List.sum_map_mul_left, ← List.sum_map_mul_left, ← List.sum_map_add, ← List.sum_map_add, ← List.sum_map_add]
  congr 2
  funext c
  ring

/-- The interaction on rhombi needs `diag = 1`. -/
theorem C128_diag (m : Couplings) (j2 j4 : ℝ) (hj : j4 ≠ 0) (hd : m.diag ≠ 1) (q : ℝ × ℝ) : energyJ4 eigh m j2 j4 q st env = .error .raise := by
  unfold energyJ4
  rw [if_pos ⟨hj, hd⟩]

/-- Without it the energy is that of `C127_energy`. -/
theorem C128_without (m : Couplings) (j2 : ℝ) (q : ℝ × ℝ) : energyJ4 eigh m j2 0 q st env = energyJ2 eigh m j2 q st env := by
  unfold energyJ4
  rw [if_neg (by simp), if_neg (by simp)]

end
end Verif.Trgl
