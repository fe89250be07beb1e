import Verif.Trgl.NnnModel
import Verif.Trgl.Turned
import Verif.Trgl.Energy
import Verif.Rdm.SixProps
/-
C127: next-nearest neighbours of the triangular models.
-/
namespace Verif.Trgl
open Tensor Ctm Rdm Models Spec
variable {p : Nat}

section
variable (eigh : Tensor ℂ → List ℝ × Tensor ℂ) {D : Dims} {st : State ℂ} {env : Env ℂ} (hs : FitsState D st) (he : FitsEnv D st env) (hp : ∀ c, D.p c = p)
include hs he hp

theorem shape_wide {c : Coord} {R : Tensor ℂ} (h : rdm2x3 eigh false st env c [2, 3] = .ok R) : R.shape = [p, p, p, p] := by
  obtain ⟨rho, ⟨e, s, -, hn, -⟩, e1, -⟩ := C126_horizontal eigh false hs he c [2, 3] (by decide) (by decide)
  rw [e1] at h
  refine symRdm_shape eigh (s := [p, p]) ?_ h
  rw [hn]
  simp [Rdm.Spec.open6, Rdm.Spec.dims23, hp, List.range_succ]

theorem shape_tall {c : Coord} {R : Tensor ℂ} (h : rdm3x2 eigh false st env c [2, 3] = .ok R) : R.shape = [p, p, p, p] := by
  obtain ⟨rho, ⟨e, s, -, hn, -⟩, e1, -⟩ := C126_vertical eigh false hs he c [2, 3] (by decide) (by decide)
  rw [e1] at h
  refine symRdm_shape eigh (s := [p, p]) ?_ h
  rw [hn]
  simp [Rdm.Spec.open6, Rdm.Spec.dims32, hp, List.range_succ]

end

theorem full4_comm {x y : Tensor ℂ} {A B : OpN 2 p} (hx : Holds2 x A) (hy : Holds2 y B) : full4 x y = full4 y x := by
  rw [full4_val hx hy, full4_val hy hx, Matrix.trace_mul_comm]

theorem expect_second' (q : ℝ × ℝ) (c d : Coord) (φ : ℝ) (hφ : φ = 2 * Real.pi * ((pitch q).1 * d.1 + (pitch q).2 * d.2)) {r : Tensor ℂ} (hr : r.shape = [p, p, p, p]) :
    (do full4 r (← rotSecond p (ssP p) (turn p φ))) = some (expect (pitch q) ![c, (c.1 + d.1, c.2 + d.2)] r (dot 2 p 0 1)) := by
  rw [← expect_second q c d φ hφ rfl hr]
  obtain ⟨y, e, hy⟩ := rotSecond_holds (ssP_holds p) (turn p φ)
  rw [e]
  exact full4_comm (dens2 hr) hy

/-- Turning the second spin of a pair in the opposite sense. -/
theorem expect_opposite (q : ℝ × ℝ) (c d : Coord) (r : Tensor ℂ) : expect (pitch (-q.1, q.2)) ![c, (c.1 + d.1, c.2 + d.2)] r (dot 2 p 0 1) =
    expect (pitch q) ![c, (c.1 + d.1, c.2 + d.2)] r (dot 2 p 0 1) +
      2 * (Real.sin (2 * Real.pi * ((pitch q).1 * d.1 + (pitch q).2 * d.2)) : ℂ) * Matrix.trace (dens 2 p r * crossY 2 p 0 1) := by
  have hv : (![c, (c.1 + d.1, c.2 + d.2)] : Fin 2 → Coord) = fun i => (c.1 + ((![(0, 0), d] : Fin 2 → Coord) i).1, c.2 + ((![(0, 0), d] : Fin 2 → Coord) i).2) := by
    funext i; fin_cases i <;> simp
  have hsp : ∀ q' : ℝ × ℝ, spiral p (pitch q') ![(0, 0), d] = prod ![1, turn p (2 * Real.pi * ((pitch q').1 * d.1 + (pitch q').2 * d.2))] := by
    intro q'
    unfold spiral
    congr 1
    funext i
    fin_cases i
    · simp [turn_zero]
    · rfl
  rw [hv, expect_shift (ad_dot 0 1), expect_shift (ad_dot 0 1), expect_turns, expect_turns, hsp, hsp]
  have hm : 2 * Real.pi * ((pitch (-q.1, q.2)).1 * d.1 + (pitch (-q.1, q.2)).2 * d.2) = -(2 * Real.pi * ((pitch q).1 * d.1 + (pitch q).2 * d.2)) := by
    simp only [pitch]; ring
  rw [hm]
  generalize 2 * Real.pi * ((pitch q).1 * d.1 + (pitch q).2 * d.2) = φ
  have tt : ∀ V : OpN 2 p, Matrix.trace (V * dens 2 p r * V.transpose * dot 2 p 0 1) = Matrix.trace (dens 2 p r * (V.transpose * dot 2 p 0 1 * V)) := by
    intro V
    rw [← trace_turned, Matrix.trace_mul_comm]
  rw [tt, tt, turned_dot, mul_add, Matrix.trace_add, mul_smul_comm, Matrix.trace_smul]
  simp

namespace Spec
/-- The energy of the three bonds between next-nearest neighbours that belong to the vertex `c`; the density matrices of the periodic state on these bonds are `r`, `s`, `t`. -/
noncomputable def nextBonds (p : Nat) (q : ℝ × ℝ) (r s t : Tensor ℂ) (c : Coord) : ℂ :=
  expect q ![(c.1 + 2, c.2), (c.1, c.2 + 1)] r (dot 2 p 0 1) + expect q ![(c.1, c.2 + 2), (c.1 + 1, c.2)] s (dot 2 p 0 1) + expect q ![c, (c.1 + 1, c.2 + 1)] t (dot 2 p 0 1)

/-- The expectation value of the component y of the cross product of two spins in the state that is not rotated. -/
noncomputable def cross (p : Nat) (r : Tensor ℂ) : ℂ := Matrix.trace (dens 2 p r * crossY 2 p 0 1)
end Spec

section
variable (eigh : Tensor ℂ → List ℝ × Tensor ℂ) {D : Dims} {st : State ℂ} {env : Env ℂ} (hs : FitsState D st) (he : FitsEnv D st env)
include hs he

/-- Both routines for next-nearest neighbours return the same value, for every state and angle: that of the spiral of pitch `(-q, q)` on two of the three bonds, but the spins at
`(x+2,y)` and `(x,y+1)` are turned in the wrong sense, which adds `2 sin(6 pi q)` times the component y of their cross product. -/
theorem C127_pairs (hp : ∀ c, D.p c = p) (mode : NnnMode) (q : ℝ × ℝ) (c : Coord) {r s t : Tensor ℂ} (er : rdm2x3 eigh false st env c [2, 3] = .ok r)
    (es : rdm3x2 eigh false st env c [2, 3] = .ok s) (et : rdm2x2 eigh false st env c [0, 3] = .ok t) :
    nnnPerSite eigh mode p st env (rotation p q.1) (ssP p) c = .ok (nextBonds p (pitch q) r s t c + 2 * (Real.sin (6 * Real.pi * q.1) : ℂ) * cross p r) := by
  have hR : rotation p q.1 * rotation p q.1 * rotation p q.1 = turn p (-(6 * Real.pi * q.1)) := by
    rw [rotation_turn, ← turn_add, ← turn_add]; congr 1; ring
  have er' : mode.wide eigh st env c = .ok r := by
    cases mode
    · obtain ⟨rho, -, e1, e2⟩ := C126_horizontal eigh false hs he c [2, 3] (by decide) (by decide)
      show rdm2x3Semi eigh false st env c [2, 3] = _
      rw [e2, ← e1, er]
    · exact er
  have es' : mode.tall eigh st env c = .ok s := by
    cases mode
    · obtain ⟨rho, -, e1, e2⟩ := C126_vertical eigh false hs he c [2, 3] (by decide) (by decide)
      show rdm3x2Semi eigh false st env c [2, 3] = _
      rw [e2, ← e1, es]
    · exact es
  have h1 := expect_second' (p := p) (-q.1, q.2) (c.1 + 2, c.2) (-2, 1) (-(6 * Real.pi * q.1)) (by simp [pitch]; ring) (shape_wide eigh hs he hp er)
  have h2 := expect_second' (p := p) q (c.1, c.2 + 2) (1, -2) (-(6 * Real.pi * q.1)) (by simp [pitch]; ring) (shape_tall eigh hs he hp es)
  have h3 := expect_second' (p := p) q c (1, 1) 0 (by simp [pitch]) (shape_plaq eigh hs he hp [0, 3] (by decide) (by decide) (by decide) et)
  have h3' : (do full4 t (← rotSecond p (ssP p) (turn p 0))) = full4 t (ssP p) := by
    obtain ⟨y, e, hy⟩ := rotSecond_holds (ssP_holds p) (turn p 0)
    have ht := dens2 (p := p) (shape_plaq eigh hs he hp [0, 3] (by decide) (by decide) (by decide) et)
    rw [e]
    show full4 t y = _
    rw [full4_val ht hy, full4_val ht (ssP_holds p), turn_zero]
    have : (prod ![(1 : Su2.Op p), 1]) = 1 := by
      rw [← prod_one]; congr 1; funext i; fin_cases i <;> rfl
    rw [this]
    simp
  rw [h3'] at h3
  rw [expect_opposite] at h1
  rw [show 2 * Real.pi * ((pitch q).1 * ((-2, 1) : Coord).1 + (pitch q).2 * ((-2, 1) : Coord).2) = 6 * Real.pi * q.1 by simp [pitch]; ring] at h1
  simp only at h1 h2
  rw [show c.1 + 2 + -2 = c.1 by ring] at h1
  rw [show c.2 + 2 + -2 = c.2 by ring] at h2
  unfold nnnPerSite
  rw [hR, er', es', et]
  simp only [bind, Except.bind] at h1 h2 h3 ⊢
  simp only [h1, h2, h3]
  show Except.ok _ = _
  congr 1
  simp only [nextBonds, cross]
  ring

theorem fold_val {α : Type} {f : α → Except Err ℂ} {z : α → ℂ} {l : List α} (h : ∀ a ∈ l, f a = .ok (z a)) (e : ℂ) :
    l.foldlM (fun e a => do return e + (← f a)) e = .ok (e + (l.map z).sum) := by
  clear hs he
  induction l generalizing e with
  | nil => simp [pure, Except.pure]
  | cons a l ih =>
    rw [List.foldlM_cons, h a (by simp)]
    show l.foldlM _ _ = _
    rw [ih fun b hb => h b (by simp [hb])]
    simp [add_assoc]

/-- `energy_per_site` with `j2` adds to the energy without it that of the bonds between next-nearest neighbours, with the deviation of `C127_pairs`. -/
theorem C127_energy {m : Couplings} (hp : ∀ c, D.p c = m.p) (j2 : ℝ) (q : ℝ × ℝ) (r s t : Coord → Tensor ℂ) (er : ∀ c ∈ st.keys, rdm2x3 eigh false st env c [2, 3] = .ok (r c))
    (es : ∀ c ∈ st.keys, rdm3x2 eigh false st env c [2, 3] = .ok (s c)) (et : ∀ c ∈ st.keys, rdm2x2 eigh false st env c [0, 3] = .ok (t c)) {E : ℝ}
    (hE : energyNN eigh m q st env = .ok E) :
    energyJ2 eigh m j2 q st env = .ok (E + ((j2 : ℂ) * (st.keys.map fun c => nextBonds m.p (pitch q) (r c) (s c) (t c) c).sum / (st.keys.length : ℂ)).re +
      ((j2 : ℂ) * (2 * (Real.sin (6 * Real.pi * q.1) : ℂ) * (st.keys.map fun c => cross m.p (r c)).sum) / (st.keys.length : ℂ)).re) := by
  have hf := fold_val hs he (f := nnnPerSite eigh .semimanual m.p st env (rotation m.p q.1) (ssP m.p)) (l := st.keys) (fun c hc => C127_pairs eigh hs he hp .semimanual q c (er c hc) (es c hc) (et c hc)) 0
  unfold energyNN at hE
  unfold energyJ2
  rcases hc : cellNN eigh m (rotation m.p q.1) (rotation m.p q.1).conjTranspose st env with err | e
  · rw [hc] at hE; cases hE
  · rw [hc] at hE
    simp only [bind, Except.bind] at hE
    by_cases hk : st.keys = []
    · rw [if_pos hk] at hE; cases hE
    · rw [if_neg hk] at hE
      have hE' := Except.ok.inj hE
      have hsum : (st.keys.map fun c => nextBonds m.p (pitch q) (r c) (s c) (t c) c + 2 * (Real.sin (6 * Real.pi * q.1) : ℂ) * cross m.p (r c)).sum =
          (st.keys.map fun c => nextBonds m.p (pitch q) (r c) (s c) (t c) c).sum + 2 * (Real.sin (6 * Real.pi * q.1) : ℂ) * (st.keys.map fun c => cross m.p (r c)).sum := by
        rw [List.sum_map_add, List.sum_map_mul_left]
      by_cases hj : j2 = 0
      · subst hj
        simp only [ne_eq, not_true_eq_false, if_false, bind, Except.bind, if_neg hk, Complex.ofReal_zero, zero_mul, zero_div, Complex.zero_re, add_zero]
        rw [← hE']
      · unfold cellNnn
        rw [if_pos hj, hf]
        simp only [bind, Except.bind, if_neg hk, zero_add]
        congr 1
        rw [← hE', hsum, ← Complex.add_re, ← Complex.add_re]
        congr 1
        ring

/-- `energy_per_site` with `j2` returns the energy of the spiral if the rotation by three steps is one by a multiple of 180 degrees, as for 120 degree order. Missing: other pitch
vectors, see `C127_violated`. -/
theorem C127_energy_partial {m : Couplings} (hp : ∀ c, D.p c = m.p) (j2 : ℝ) (q : ℝ × ℝ) (hq : Real.sin (6 * Real.pi * q.1) = 0) (r s t : Coord → Tensor ℂ)
    (er : ∀ c ∈ st.keys, rdm2x3 eigh false st env c [2, 3] = .ok (r c)) (es : ∀ c ∈ st.keys, rdm3x2 eigh false st env c [2, 3] = .ok (s c))
    (et : ∀ c ∈ st.keys, rdm2x2 eigh false st env c [0, 3] = .ok (t c)) {E : ℝ} (hE : energyNN eigh m q st env = .ok E) :
    energyJ2 eigh m j2 q st env = .ok (E + ((j2 : ℂ) * (st.keys.map fun c => nextBonds m.p (pitch q) (r c) (s c) (t c) c).sum / (st.keys.length : ℂ)).re) := by
  rw [C127_energy eigh hs he hp j2 q r s t er es et hE, hq]
  simp

end
end Verif.Trgl
