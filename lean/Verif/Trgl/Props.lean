import Verif.Trgl.Hold
import Verif.Models.PlaqProps
/-
C123: the energies of the bonds and triangles computed by spin_triangular.py are those of a spiral.
-/
namespace Verif.Trgl
open Tensor Ctm Rdm Models Spec
variable {n p : Nat}

theorem rotation_turn (p : Nat) (x : ℝ) : rotation p x = turn p (-(2 * Real.pi * x)) := by
  unfold rotation turn
  congr 1
  have : Su2.SP p - Su2.SM p = ((2 * Complex.I : ℂ)) • Su2.Spec.Sy p := by
    unfold Su2.Spec.Sy
    rw [smul_smul]
    rw [show 2 * Complex.I * -(Complex.I / 2) = 1 by linear_combination (-1 : ℂ) * Complex.I_mul_I, one_smul]
  rw [this, smul_smul]
  congr 1
  push_cast
  ring

/-- The rotations have real entries. -/
theorem turns_transpose (φ : Fin n → ℝ) : (prod fun i => turn p (φ i)).transpose = (prod fun i => turn p (φ i)).conjTranspose := by
  rw [prod_transpose, prod_conj]
  simp only [turn_conj, turn_transpose]

theorem trace_turned (A B V : OpN n p) : Matrix.trace (V.transpose * A * V * B) = Matrix.trace (V * B * V.transpose * A) := by
  calc _ = Matrix.trace ((V.transpose * A) * (V * B)) := by rw [Matrix.mul_assoc]
    _ = Matrix.trace ((V * B) * (V.transpose * A)) := Matrix.trace_mul_comm _ _
    _ = _ := by simp only [Matrix.mul_assoc]

theorem symRdm_shape (eigh : Tensor ℂ → List ℝ × Tensor ℂ) {s : List Nat} {T R : Tensor ℂ} (hT : T.shape = s ++ s) (h : symRdm eigh false T = .ok R) : R.shape = s ++ s := by
  obtain ⟨h0, h1⟩ := symRdm_ok eigh hT h
  obtain ⟨R', e, sh, -⟩ := symRdm_entries eigh hT h0 h1
  rw [h] at e
  obtain rfl := Except.ok.inj e
  exact sh

section
variable (eigh : Tensor ℂ → List ℝ × Tensor ℂ) {D : Dims} {st : State ℂ} {env : Env ℂ} (hs : FitsState D st) (he : FitsEnv D st env) (hp : ∀ c, D.p c = p)
include hs he hp

theorem shape_row {c : Coord} {R : Tensor ℂ} (h : rdm2x1 eigh true false st env c = .ok R) : R.shape = [p, p, p, p] := by
  obtain ⟨-, e, a, b, rho, -, hn, e1⟩ := C32_row eigh false hs he c
  rw [e1] at h
  refine symRdm_shape eigh (s := [p, p]) ?_ h
  rw [hn.1]
  simp [Rdm.Spec.dimsH, hp]

theorem shape_column {c : Coord} {R : Tensor ℂ} (h : rdm1x2 eigh true false st env c = .ok R) : R.shape = [p, p, p, p] := by
  obtain ⟨-, e, a, b, rho, -, hn, e1⟩ := C32_column eigh false hs he c
  rw [e1] at h
  refine symRdm_shape eigh (s := [p, p]) ?_ h
  rw [hn.1]
  simp [Rdm.Spec.dimsV, hp]

theorem shape_plaq (os : List Nat) (hn : os.Nodup) (hlt : ∀ x ∈ os, x < 4) (hne : os ≠ []) {c : Coord} {R : Tensor ℂ} (h : rdm2x2 eigh false st env c os = .ok R) :
    R.shape = List.replicate ((List.range 4).filter (· ∈ os)).length p ++ List.replicate ((List.range 4).filter (· ∈ os)).length p := by
  obtain ⟨rho, -, e1⟩ := C33_partial_trace eigh false hs he c
  rw [e1 os hn hlt hne] at h
  refine symRdm_shape eigh ?_ h
  have : ((List.range 4).filter (· ∈ os)).map (physP D c) = List.replicate ((List.range 4).filter (· ∈ os)).length p := by
    rw [List.eq_replicate_iff]
    refine ⟨by simp, fun b hb => ?_⟩
    obtain ⟨x, hx, rfl⟩ := List.mem_map.1 hb
    have hx4 : x < 4 := List.mem_range.1 (List.mem_filter.1 hx).1
    have : x = 0 ∨ x = 1 ∨ x = 2 ∨ x = 3 := by omega
    rcases this with rfl | rfl | rfl | rfl <;> exact hp _
  simp only [ptrace, this]

end

/-! ### The spiral -/

/-- The pitch vector of the spiral: the code reads only the first component. -/
def pitch (q : ℝ × ℝ) : ℝ × ℝ := (-q.1, q.1)

theorem expect_turns (q : ℝ × ℝ) (r : Fin n → Coord) (R : Tensor ℂ) (O : OpN n p) : expect q r R O = Matrix.trace (spiral p q r * dens n p R * (spiral p q r).transpose * O) := by
  unfold expect spiral
  rw [turns_transpose]

/-- Two spins, the rotation of the first one being common. -/
theorem expect_second (q : ℝ × ℝ) (c d : Coord) (φ : ℝ) (hφ : φ = 2 * Real.pi * ((pitch q).1 * d.1 + (pitch q).2 * d.2)) {x r : Tensor ℂ} (hx : x = ssP p) (hr : r.shape = [p, p, p, p]) :
    (do full4 (← rotSecond p x (turn p φ)) r) = some (expect (pitch q) ![c, (c.1 + d.1, c.2 + d.2)] r (dot 2 p 0 1)) := by
  subst hx
  obtain ⟨y, e, hy⟩ := rotSecond_holds (ssP_holds p) (turn p φ)
  rw [e]
  show full4 y r = _
  rw [full4_val hy (dens2 hr), trace_turned]
  have hv : (![c, (c.1 + d.1, c.2 + d.2)] : Fin 2 → Coord) = fun i => (c.1 + ((![(0, 0), d] : Fin 2 → Coord) i).1, c.2 + ((![(0, 0), d] : Fin 2 → Coord) i).2) := by
    funext i; fin_cases i <;> simp
  rw [hv, expect_shift (ad_dot 0 1), expect_turns]
  have : spiral p (pitch q) ![(0, 0), d] = prod ![1, turn p φ] := by
    unfold spiral
    congr 1
    funext i
    fin_cases i
    · simp [turn_zero]
    · rw [hφ]; rfl
  rw [this]

/-- Two spins, the rotation of the second one being common. -/
theorem expect_first (q : ℝ × ℝ) (c d : Coord) (φ : ℝ) (hφ : φ = 2 * Real.pi * ((pitch q).1 * d.1 + (pitch q).2 * d.2)) {x r : Tensor ℂ} (hx : x = ssP p) (hr : r.shape = [p, p, p, p]) :
    (do full4 (← rotFirst p x (turn p φ)) r) = some (expect (pitch q) ![(c.1 + d.1, c.2 + d.2), c] r (dot 2 p 0 1)) := by
  subst hx
  obtain ⟨y, e, hy⟩ := rotFirst_holds (ssP_holds p) (turn p φ)
  rw [e]
  show full4 y r = _
  rw [full4_val hy (dens2 hr), trace_turned]
  have hv : (![(c.1 + d.1, c.2 + d.2), c] : Fin 2 → Coord) = fun i => (c.1 + ((![d, (0, 0)] : Fin 2 → Coord) i).1, c.2 + ((![d, (0, 0)] : Fin 2 → Coord) i).2) := by
    funext i; fin_cases i <;> simp
  rw [hv, expect_shift (ad_dot 0 1), expect_turns]
  have : spiral p (pitch q) ![d, (0, 0)] = prod ![turn p φ, 1] := by
    unfold spiral
    congr 1
    funext i
    fin_cases i
    · rw [hφ]; rfl
    · simp [turn_zero]
  rw [this]

/-- Three spins, the rotation of the last one being common. -/
theorem expect_lower (q : ℝ × ℝ) (c : Coord) (r : Tensor ℂ) {O : OpN 3 p} (hO : ad 3 O = 0) : expect (pitch q) ![(c.1 + 1, c.2), (c.1, c.2 + 1), (c.1 + 1, c.2 + 1)] r O =
    Matrix.trace (prod ![rotation p q.1, (rotation p q.1).conjTranspose, 1] * dens 3 p r * (prod ![rotation p q.1, (rotation p q.1).conjTranspose, 1]).transpose * O) := by
  have hv : (![(c.1 + 1, c.2), (c.1, c.2 + 1), (c.1 + 1, c.2 + 1)] : Fin 3 → Coord) = fun i => ((c.1 + 1) + ((![(0, -1), (-1, 0), (0, 0)] : Fin 3 → Coord) i).1,
      (c.2 + 1) + ((![(0, -1), (-1, 0), (0, 0)] : Fin 3 → Coord) i).2) := by
    funext i; fin_cases i <;> simp
  rw [hv, expect_shift hO _ (c.1 + 1, c.2 + 1), expect_turns]
  have : spiral p (pitch q) ![(0, -1), (-1, 0), (0, 0)] = prod ![rotation p q.1, (rotation p q.1).conjTranspose, 1] := by
    rw [rotation_turn, turn_conj]
    unfold spiral
    congr 1
    funext i
    fin_cases i <;> simp [turn_zero, pitch]
  rw [this]

/-- Three spins, the rotation of the first one being common. -/
theorem expect_upper (q : ℝ × ℝ) (c : Coord) (s : Tensor ℂ) {O : OpN 3 p} (hO : ad 3 O = 0) : expect (pitch q) ![c, (c.1 + 1, c.2), (c.1, c.2 + 1)] s O =
    Matrix.trace (prod ![1, rotation p q.1, (rotation p q.1).conjTranspose] * dens 3 p s * (prod ![1, rotation p q.1, (rotation p q.1).conjTranspose]).transpose * O) := by
  have hv : (![c, (c.1 + 1, c.2), (c.1, c.2 + 1)] : Fin 3 → Coord) = fun i => (c.1 + ((![(0, 0), (1, 0), (0, 1)] : Fin 3 → Coord) i).1,
      c.2 + ((![(0, 0), (1, 0), (0, 1)] : Fin 3 → Coord) i).2) := by
    funext i; fin_cases i <;> simp
  rw [hv, expect_shift hO, expect_turns]
  have : spiral p (pitch q) ![(0, 0), (1, 0), (0, 1)] = prod ![1, rotation p q.1, (rotation p q.1).conjTranspose] := by
    rw [rotation_turn, turn_conj]
    unfold spiral
    congr 1
    funext i
    fin_cases i <;> simp [turn_zero, pitch]
  rw [this]

section
variable (eigh : Tensor ℂ → List ℝ × Tensor ℂ) {D : Dims} {st : State ℂ} {env : Env ℂ} (hs : FitsState D st) (he : FitsEnv D st env) (hp : ∀ c, D.p c = p)
include hs he hp

/-- `eval_nn_per_site` returns the expectation values of `S.S` on the bonds to the right and down and on the diagonal between these two neighbours, in the spiral of pitch
`(-q, q)`. -/
theorem C123_bonds (q : ℝ × ℝ) (c : Coord) {h v d : Tensor ℂ} (eh : rdm2x1 eigh true false st env c = .ok h) (ev : rdm1x2 eigh true false st env c = .ok v)
    (ed : rdm2x2 eigh false st env c [1, 2] = .ok d) :
    nnPerSite eigh p st env (rotation p q.1) (rotation p q.1).conjTranspose (ssP p) (ssP p) c = .ok
      (expect (pitch q) ![c, (c.1 + 1, c.2)] h (dot 2 p 0 1) + expect (pitch q) ![c, (c.1, c.2 + 1)] v (dot 2 p 0 1),
        expect (pitch q) ![(c.1 + 1, c.2), (c.1, c.2 + 1)] d (dot 2 p 0 1)) := by
  have h1 := expect_second q c (1, 0) (-(2 * Real.pi * q.1)) (by simp [pitch]) rfl (shape_row eigh hs he hp eh)
  have h2 := expect_second q c (0, 1) (-(-(2 * Real.pi * q.1))) (by simp [pitch]) rfl (shape_column eigh hs he hp ev)
  have h3 := expect_first q (c.1, c.2 + 1) (1, -1) (-(2 * Real.pi * q.1) + -(2 * Real.pi * q.1)) (by simp [pitch]; ring) rfl (shape_plaq eigh hs he hp [1, 2] (by decide) (by decide) (by decide) ed)
  simp only [add_zero] at h1 h2
  rw [show c.2 + 1 + (1, -1).2 = c.2 by simp] at h3
  unfold nnPerSite
  rw [rotation_turn, turn_conj, ← turn_add, eh, ev, ed]
  simp only [bind, Except.bind] at h1 h2 h3 ⊢
  simp only [h1, h2, h3]
  rfl

/-- `eval_nn_and_chirality_per_site` returns one half of the expectation values of `S.S` on the bonds of the two triangles between `(x+1,y)` and `(x,y+1)`, and the sum of their
chiralities, the spins being taken counter-clockwise. -/
theorem C123_triangles (q : ℝ × ℝ) (c : Coord) {r s : Tensor ℂ} (er : rdm2x2 eigh false st env c [1, 2, 3] = .ok r) (es : rdm2x2 eigh false st env c [0, 1, 2] = .ok s) :
    ∃ chi, KagomeRdm.tripleT p = some chi ∧ nnChiPerSite eigh p st env (rotation p q.1) (rotation p q.1).conjTranspose (ssP p) (ssP p) chi c =
      let lower := fun O => expect (pitch q) ![(c.1 + 1, c.2), (c.1, c.2 + 1), (c.1 + 1, c.2 + 1)] r O
      let upper := fun O => expect (pitch q) ![c, (c.1 + 1, c.2), (c.1, c.2 + 1)] s O
      .ok ((lower (dot 3 p 1 2) + lower (dot 3 p 0 2) + (upper (dot 3 p 0 1) + upper (dot 3 p 0 2))) / 2, (lower (dot 3 p 0 1) + upper (dot 3 p 1 2)) / 2,
        lower (triple 3 p 0 1 2) + upper (triple 3 p 2 1 0)) := by
  obtain ⟨chi, ec, hc⟩ := hChi_holds p
  refine ⟨chi, ec, ?_⟩
  have hl := fun O (h : ad 3 O = 0) => expect_lower (p := p) q c r h
  have hu := fun O (h : ad 3 O = 0) => expect_upper (p := p) q c s h
  obtain ⟨r', e1, h1⟩ := rot01_holds (dens3 (shape_plaq eigh hs he hp [1, 2, 3] (by decide) (by decide) (by decide) er)) (rotation p q.1) (rotation p q.1).conjTranspose
  obtain ⟨s', e2, h2⟩ := rot12_holds (dens3 (shape_plaq eigh hs he hp [0, 1, 2] (by decide) (by decide) (by decide) es)) (rotation p q.1) (rotation p q.1).conjTranspose
  simp only [hl _ (ad_dot _ _), hl _ (ad_triple _ _ _), hu _ (ad_dot _ _), hu _ (ad_triple _ _ _)]
  unfold nnChiPerSite
  rw [er, es]
  simp only [bind, Except.bind, e1, e2, last2_val h1, outer2_val h1, first2_val h1, all3_val hc h1, last2_val h2, outer2_val h2, first2_val h2, all3rev_val hc h2, triple_rev, lift]
  rfl

end

end Verif.Trgl
