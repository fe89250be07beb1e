import Verif.Trgl.Props
/-
C123: `energy_per_site` of the triangular models without `j2` and `j4`.
-/
namespace Verif.Trgl
open Tensor Ctm Rdm Models Spec

namespace Spec
variable (p : Nat) (q : ℝ × ℝ)

/-- The energy of the three bonds of the vertex `c`: to the right, down, and from the right neighbour to the lower neighbour. The density matrices of the periodic state on these
bonds are `h`, `v` and `d`; `k` is the weight of the diagonal bonds. -/
noncomputable def threeBonds (k : ℝ) (h v d : Tensor ℂ) (c : Coord) : ℂ :=
  expect q ![c, (c.1 + 1, c.2)] h (dot 2 p 0 1) + expect q ![c, (c.1, c.2 + 1)] v (dot 2 p 0 1) + k * expect q ![(c.1 + 1, c.2), (c.1, c.2 + 1)] d (dot 2 p 0 1)

/-- The energy of a triangle at the vertices `r`, whose bond between the vertices `x` and `y` is a diagonal one and has the weight `k`; every bond is shared by two triangles. -/
noncomputable def triangleEnergy (j1 jchi k : ℝ) (x y z : Fin 3) (r : Fin 3 → Coord) (R : Tensor ℂ) : ℂ :=
  j1 * ((expect q r R (dot 3 p x z) + expect q r R (dot 3 p y z) + k * expect q r R (dot 3 p x y)) / 2) + jchi * expect q r R (triple 3 p x y z)
end Spec

theorem dot_comm {n p : Nat} (x y : Fin n) : dot n p x y = dot n p y x := by
  unfold dot
  refine Finset.sum_congr rfl fun a _ => ?_
  rcases eq_or_ne x y with rfl | h
  · rfl
  · exact on_comm h _ _

theorem fold_add {α : Type} {step : ℂ × ℂ × ℂ → α → Except Err (ℂ × ℂ × ℂ)} {z : α → ℂ × ℂ × ℂ} {l : List α} (h : ∀ a ∈ l, ∀ e, step e a = .ok (e + z a)) (e : ℂ × ℂ × ℂ) :
    l.foldlM step e = .ok (e + (l.map z).sum) := by
  induction l generalizing e with
  | nil => simp [pure, Except.pure]
  | cons a l ih =>
    rw [List.foldlM_cons, h a (by simp) e]
    show l.foldlM step _ = _
    rw [ih fun b hb => h b (by simp [hb])]
    simp [add_assoc]

theorem sum_triple {α : Type} (l : List α) (f g h : α → ℂ) (a b c : ℂ) :
    a * ((l.map fun x => (f x, g x, h x)).sum.1 + b * (l.map fun x => (f x, g x, h x)).sum.2.1) + c * (l.map fun x => (f x, g x, h x)).sum.2.2 =
      (l.map fun x => a * (f x + b * g x) + c * h x).sum := by
  induction l with
  | nil => simp
  | cons x l ih =>
    simp only [List.map_cons, List.sum_cons, Prod.fst_add, Prod.snd_add]
    rw [← ih]
    ring

section
variable (eigh : Tensor ℂ → List ℝ × Tensor ℂ) {D : Dims} {st : State ℂ} {env : Env ℂ} {m : Couplings} (hs : FitsState D st) (he : FitsEnv D st env) (hp : ∀ c, D.p c = m.p)
  (hk : st.keys ≠ []) (q : ℝ × ℝ)
include hs he hp hk

/-- Without chirality `energy_per_site` returns the energy of the bonds per site, in the spiral of pitch `(-q, q)`. Missing: a pitch vector with any two components, as it is
documented, see `C123_violated`. -/
theorem C123_energy_partial (hj : m.jchi = 0) (h v d : Coord → Tensor ℂ) (eh : ∀ c ∈ st.keys, rdm2x1 eigh true false st env c = .ok (h c))
    (ev : ∀ c ∈ st.keys, rdm1x2 eigh true false st env c = .ok (v c)) (ed : ∀ c ∈ st.keys, rdm2x2 eigh false st env c [1, 2] = .ok (d c)) :
    energyNN eigh m q st env = .ok ((st.keys.map fun c => (m.j1 : ℂ) * threeBonds m.p (pitch q) m.diag (h c) (v c) (d c) c).sum / (st.keys.length : ℂ)).re := by
  obtain ⟨chi, ec, -⟩ := hChi_holds m.p
  have hf := fold_add (step := nnStep eigh m.p (rotation m.p q.1) (rotation m.p q.1).conjTranspose st env) (l := st.keys)
    (z := fun c => (expect (pitch q) ![c, (c.1 + 1, c.2)] (h c) (dot 2 m.p 0 1) + expect (pitch q) ![c, (c.1, c.2 + 1)] (v c) (dot 2 m.p 0 1),
      expect (pitch q) ![(c.1 + 1, c.2), (c.1, c.2 + 1)] (d c) (dot 2 m.p 0 1), 0)) (by
    intro c hc e
    unfold nnStep
    rw [C123_bonds eigh hs he hp q c (eh c hc) (ev c hc) (ed c hc)]
    simp only [bind, Except.bind, pure, Except.pure]
    congr 1
    simp [Prod.ext_iff]) 0
  unfold energyNN cellNN
  rw [ec]
  simp only [lift, bind, Except.bind, hj, ne_eq, not_true_eq_false, if_false]
  have hf' := hf
  rw [show (0 : ℂ × ℂ × ℂ) = (0, 0, 0) from rfl] at hf'
  rw [hf']
  simp only [if_neg hk, Prod.mk_zero_zero, zero_add]
  rw [sum_triple]
  simp only [threeBonds, mul_zero, add_zero]

/-- With chirality `energy_per_site` returns the energy of the triangles per site, in the spiral of pitch `(-q, q)`. Missing: a pitch vector with any two components, as it is
documented, see `C123_violated`. -/
theorem C123_chiral_energy_partial (hj : m.jchi ≠ 0) (r s : Coord → Tensor ℂ) (er : ∀ c ∈ st.keys, rdm2x2 eigh false st env c [1, 2, 3] = .ok (r c))
    (es : ∀ c ∈ st.keys, rdm2x2 eigh false st env c [0, 1, 2] = .ok (s c)) :
    energyNN eigh m q st env = .ok ((st.keys.map fun c => triangleEnergy m.p (pitch q) m.j1 m.jchi m.diag 0 1 2 ![(c.1 + 1, c.2), (c.1, c.2 + 1), (c.1 + 1, c.2 + 1)] (r c) +
      triangleEnergy m.p (pitch q) m.j1 m.jchi m.diag 2 1 0 ![c, (c.1 + 1, c.2), (c.1, c.2 + 1)] (s c)).sum / (st.keys.length : ℂ)).re := by
  obtain ⟨chi, ec, -⟩ := hChi_holds m.p
  have hf := fold_add (step := chiStep eigh m.p (rotation m.p q.1) (rotation m.p q.1).conjTranspose chi st env) (l := st.keys)
    (z := fun c =>
      let lower := fun O => expect (pitch q) ![(c.1 + 1, c.2), (c.1, c.2 + 1), (c.1 + 1, c.2 + 1)] (r c) O
      let upper := fun O => expect (pitch q) ![c, (c.1 + 1, c.2), (c.1, c.2 + 1)] (s c) O
      ((lower (dot 3 m.p 1 2) + lower (dot 3 m.p 0 2) + (upper (dot 3 m.p 0 1) + upper (dot 3 m.p 0 2))) / 2, (lower (dot 3 m.p 0 1) + upper (dot 3 m.p 1 2)) / 2,
        lower (triple 3 m.p 0 1 2) + upper (triple 3 m.p 2 1 0))) (by
    intro c hc e
    unfold chiStep
    obtain ⟨chi', ec', h⟩ := C123_triangles eigh hs he hp q c (er c hc) (es c hc)
    rw [ec] at ec'
    obtain rfl := Option.some.inj ec'
    rw [h]
    rfl) 0
  unfold energyNN cellNN
  rw [ec]
  simp only [lift, bind, Except.bind, hj, ne_eq, not_false_eq_true, if_true]
  have hf' := hf
  rw [show (0 : ℂ × ℂ × ℂ) = (0, 0, 0) from rfl] at hf'
  rw [hf']
  simp only [if_neg hk, Prod.mk_zero_zero, zero_add]
  rw [sum_triple]
  congr 5
  funext c
  simp only [triangleEnergy, dot_comm 1 0, dot_comm 2 0, dot_comm 2 1]
  ring

end
end Verif.Trgl
