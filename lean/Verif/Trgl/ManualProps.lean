import Verif.Trgl.ManualModel
import Verif.Trgl.RingEnergy
import Verif.Rdm.ManualProps
import Verif.Energy.Sum
/-
C130: the energy of the triangular models with the interaction on rhombi does not depend on index unrolling.
-/
namespace Verif.Trgl
open Tensor Ctm Ctm.Spec Rdm Models Spec
variable {p : Nat}

section
variable (eigh : Tensor ℂ → List ℝ × Tensor ℂ) {D : Dims} {st : State ℂ} {env : Env ℂ} (ht : Tiling st) (hs : FitsState D st) (he : FitsEnv D st env) (hp : ∀ c, D.p c = p)

include ht in
theorem vts_shift (c : Coord) : (∀ a b : ℤ, st.vts ((st.vts c).1 + a, (st.vts c).2 + b) = st.vts (c.1 + a, c.2 + b)) ∧ (∀ a : ℤ, st.vts ((st.vts c).1 + a, (st.vts c).2) = st.vts (c.1 + a, c.2)) ∧
    (∀ b : ℤ, st.vts ((st.vts c).1, (st.vts c).2 + b) = st.vts (c.1, c.2 + b)) :=
  ⟨fun a b => ht.shift c (a, b), fun a => by simpa using ht.shift c (a, 0), fun b => by simpa using ht.shift c (0, b)⟩

include ht in
theorem rdm2x3_vts (spd : Bool) (c : Coord) (os : List Nat) : rdm2x3 eigh spd st env (st.vts c) os = rdm2x3 eigh spd st env c os := by
  obtain ⟨h1, h2, h3⟩ := vts_shift ht c
  have : fetch23 st env (st.vts c) = fetch23 st env c := by simp only [fetch23, State.site, h1, h2, h3, Rdm.vts_vts ht]
  unfold rdm2x3; rw [this]

include ht in
theorem rdm3x2_vts (spd : Bool) (c : Coord) (os : List Nat) : rdm3x2 eigh spd st env (st.vts c) os = rdm3x2 eigh spd st env c os := by
  obtain ⟨h1, h2, h3⟩ := vts_shift ht c
  have : fetch32 st env (st.vts c) = fetch32 st env c := by simp only [fetch32, State.site, h1, h2, h3, Rdm.vts_vts ht]
  unfold rdm3x2; rw [this]

include ht hs he hp in
/-- The terms of the first rhombus. -/
theorem manual_wide (q : ℝ × ℝ) (c c' : Coord) {o : RingOps} (ho : HoldsOps p o) {r : Tensor ℂ} (er : rdm2x3 eigh false st env (c.1, c.2 - 1) [1, 2, 3, 4] = .ok r) :
    ∃ r', rdm23Manual eigh false st env c = .ok r' ∧ slanted p o r' (rotation p q.1) (rotation p q.1 * rotation p q.1 * rotation p q.1) (rotation p q.1 * rotation p q.1) =
      some (rhombus (p := p) (pitch q) (wideSites c') r 2 3 1 0) := by
  obtain ⟨A, h1, h2, h3⟩ := C129_horizontal_agrees eigh ht hs he c (by rw [hp, hp]) (by rw [hp, hp]) (by rw [hp, hp]) er
  have hr := shape_wide4 eigh hs he hp er
  have h := wide_val q c' ho hr
  obtain ⟨y, e, hy⟩ := permute_holds4 (dens4 hr) f2310
  rw [show axes4 f2310 = [2, 3, 1, 0, 6, 7, 5, 4] by decide] at e
  rw [e, Option.bind_eq_bind, Option.bind_some] at h
  have hA : Holds4 A (relabel f2310 (dens 4 p r)) := by
    refine ⟨by rw [h2, hp]; rfl, fun i j k l a b c d => ?_⟩
    rw [h3 _ _ _ _ _ _ _ _ (by rw [hp]; exact i.2) (by rw [hp]; exact j.2) (by rw [hp]; exact k.2) (by rw [hp]; exact l.2) (by rw [hp]; exact a.2) (by rw [hp]; exact b.2) (by rw [hp]; exact c.2) (by rw [hp]; exact d.2)]
    simp [relabel, dens, f2310]
  exact ⟨A, h1, by rw [slanted_val ho hA, ← slanted_val ho hy, h]⟩

include ht hs he hp in
/-- The terms of the second rhombus. -/
theorem manual_tall (q : ℝ × ℝ) (c c' : Coord) {o : RingOps} (ho : HoldsOps p o) {r : Tensor ℂ} (er : rdm3x2 eigh false st env (c.1, c.2 - 2) [1, 2, 3, 4] = .ok r) :
    ∃ r', rdm32Manual eigh false st env c = .ok r' ∧ slanted p o r' (rotation p q.1 * rotation p q.1) (rotation p q.1 * rotation p q.1 * rotation p q.1) (rotation p q.1) =
      some (rhombus (p := p) (pitch q) (tallSites c') r 1 3 2 0) := by
  obtain ⟨A, h1, h2, h3⟩ := C129_vertical_agrees eigh ht hs he c (by rw [hp, hp]) (by rw [hp, hp]) (by rw [hp, hp]) er
  have hr := shape_tall4 eigh hs he hp er
  have h := tall_val q c' ho hr
  obtain ⟨y, e, hy⟩ := permute_holds4 (dens4 hr) f1320
  rw [show axes4 f1320 = [1, 3, 2, 0, 5, 7, 6, 4] by decide] at e
  rw [e, Option.bind_eq_bind, Option.bind_some] at h
  have hA : Holds4 A (relabel f1320 (dens 4 p r)) := by
    refine ⟨by rw [h2, hp]; rfl, fun i j k l a b c d => ?_⟩
    rw [h3 _ _ _ _ _ _ _ _ (by rw [hp]; exact i.2) (by rw [hp]; exact j.2) (by rw [hp]; exact k.2) (by rw [hp]; exact l.2) (by rw [hp]; exact a.2) (by rw [hp]; exact b.2) (by rw [hp]; exact c.2) (by rw [hp]; exact d.2)]
    simp [relabel, dens, f1320]
  exact ⟨A, h1, by rw [slanted_val ho hA, ← slanted_val ho hy, h]⟩

/-! ### C130 -/

include ht hs he hp in
/-- The sums without index unrolling: the rhombi of the patches which end at the vertex `c` instead of those which start there. -/
theorem C130_rhombi (q : ℝ × ℝ) (c : Coord) {r s t : Tensor ℂ} (er : rdm2x3 eigh false st env (c.1, c.2 - 1) [1, 2, 3, 4] = .ok r)
    (es : rdm3x2 eigh false st env (c.1, c.2 - 2) [1, 2, 3, 4] = .ok s) (et : rdm2x2 eigh false st env c [0, 1, 2, 3] = .ok t) (c' c'' : Coord) : ∃ o, ringOps p = some o ∧
    let a := rhombus (p := p) (pitch q) (wideSites c') r 2 3 1 0
    let b := rhombus (p := p) (pitch q) (tallSites c'') s 1 3 2 0
    let d := rhombus (p := p) (pitch q) (squareSites c) t 0 2 3 1
    ringPerSiteManual eigh p o st env (rotation p q.1) (rotation p q.1).conjTranspose c =
      .ok ⟨(a.nn + b.nn + d.nn) / 4, a.nnn + b.nnn + d.nnn, (a.chi + b.chi + d.chi) / 3, a.p + b.p + d.p⟩ := by
  obtain ⟨o, eo, ho⟩ := ringOps_holds p
  refine ⟨o, eo, ?_⟩
  obtain ⟨r', g1, h1⟩ := manual_wide eigh ht hs he hp q c c' ho er
  obtain ⟨s', g2, h2⟩ := manual_tall eigh ht hs he hp q c c'' ho es
  have h3 := square_val q c ho (shape_plaq eigh hs he hp [0, 1, 2, 3] (by decide) (by decide) (by decide) et)
  unfold ringPerSiteManual
  rw [g1, g2, et]
  cases e3 : permute [0, 1, 3, 2, 4, 5, 7, 6] t with
  | none => rw [e3] at h3; cases h3
  | some t' =>
  rw [e3] at h3
  simp only [Option.bind_eq_bind, Option.bind_some] at h3
  simp only [bind, Except.bind, lift, h1, h2, h3, e3]
  rfl

include ht hs he in
/-- The energy without index unrolling is that with index unrolling, on every cell. -/
theorem C130_energy {m : Couplings} (hp : ∀ c, D.p c = m.p) (j2 j4 : ℝ) (hd : m.diag = 1) (q : ℝ × ℝ)
    (er : ∀ c ∈ st.keys, ∃ r, rdm2x3 eigh false st env c [1, 2, 3, 4] = .ok r) (es : ∀ c ∈ st.keys, ∃ r, rdm3x2 eigh false st env c [1, 2, 3, 4] = .ok r)
    (et : ∀ c ∈ st.keys, ∃ r, rdm2x2 eigh false st env c [0, 1, 2, 3] = .ok r) :
    energyDefault eigh m j2 j4 q st env = energyJ4 eigh m j2 j4 q st env := by
  by_cases hj : j4 = 0
  · unfold energyDefault energyJ4
    simp [hj]
  by_cases hk : st.keys = []
  · have : st.vts (0, 0) ∈ st.keys := ht.mem _
    rw [hk] at this; cases this
  haveI : Nonempty (Tensor ℂ) := ⟨⟨[], fun _ => 0⟩⟩
  choose! r er using er
  choose! s es using es
  choose! t et using et
  rw [C128_energy eigh hs he hp j2 j4 hj hd q hk r s t er es et]
  obtain ⟨o, eo, -⟩ := ringOps_holds m.p
  unfold energyDefault cellRingManual
  rw [if_neg (by simp [hd]), if_pos hj, eo]
  have hf := fold_terms (f := ringPerSiteManual eigh m.p o st env (rotation m.p q.1) (rotation m.p q.1).conjTranspose) (l := st.keys) (z := fun c =>
    let a := rhombus (p := m.p) (pitch q) (wideSites (st.vts (c.1 + 0, c.2 + -1))) (r (st.vts (c.1 + 0, c.2 + -1))) 2 3 1 0
    let b := rhombus (p := m.p) (pitch q) (tallSites (st.vts (c.1 + 0, c.2 + -2))) (s (st.vts (c.1 + 0, c.2 + -2))) 1 3 2 0
    let d := rhombus (p := m.p) (pitch q) (squareSites c) (t c) 0 2 3 1
    ⟨(a.nn + b.nn + d.nn) / 4, a.nnn + b.nnn + d.nnn, (a.chi + b.chi + d.chi) / 3, a.p + b.p + d.p⟩) (by
    intro c hc
    have e1 : rdm2x3 eigh false st env (c.1, c.2 - 1) [1, 2, 3, 4] = .ok (r (st.vts (c.1 + 0, c.2 + -1))) := by
      rw [← er _ (ht.mem _), rdm2x3_vts eigh ht, add_zero]; rfl
    have e2 : rdm3x2 eigh false st env (c.1, c.2 - 2) [1, 2, 3, 4] = .ok (s (st.vts (c.1 + 0, c.2 + -2))) := by
      rw [← es _ (ht.mem _), rdm3x2_vts eigh ht, add_zero]; rfl
    obtain ⟨o', eo', h⟩ := C130_rhombi eigh ht hs he hp q c e1 e2 (et c hc) (st.vts (c.1 + 0, c.2 + -1)) (st.vts (c.1 + 0, c.2 + -2))
    rw [eo] at eo'
    obtain rfl := Option.some.inj eo'
    exact h) ⟨0, 0, 0, 0⟩
  simp only [lift, bind, Except.bind] at hf ⊢
  rw [hf]
  simp only [if_neg hk, zero_add, mul_zero, add_zero]
  have hsum : ∀ w g h : Coord → ℂ, (st.keys.map fun c => w (st.vts (c.1, c.2 + -1)) + g (st.vts (c.1, c.2 + -2)) + h c).sum = (st.keys.map fun c => w c + g c + h c).sum := by
    intro w g h
    rw [List.sum_map_add, List.sum_map_add, List.sum_map_add, List.sum_map_add]
    have e1 := Energy.sum_shift ht (0, -1) w
    have e2 := Energy.sum_shift ht (0, -2) g
    simp only [add_zero] at e1 e2
    rw [e1, e2]
  rw [← hsum (fun c => rhombusEnergy m.j1 j2 j4 m.jchi (rhombus (p := m.p) (pitch q) (wideSites c) (r c) 2 3 1 0))
    (fun c => rhombusEnergy m.j1 j2 j4 m.jchi (rhombus (p := m.p) (pitch q) (tallSites c) (s c) 1 3 2 0))
    (fun c => rhombusEnergy m.j1 j2 j4 m.jchi (rhombus (p := m.p) (pitch q) (squareSites c) (t c) 0 2 3 1))]
  congr 3
  simp only [rhombusEnergy]
  rw [← List.sum_map_mul_left, ← List.sum_map_mul_left, ← List.sum_map_mul_left, ← List.sum_map_mul_left, ← List.sum_map_add, ← List.sum_map_add, ← List.sum_map_add]
  congr 2
  funext c
  ring

end
end Verif.Trgl
