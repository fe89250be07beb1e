import Verif.Models.JqProps
import Verif.Models.Witness
import Verif.Energy.C4vWitness
/-
C110: cases that meet the hypotheses.
-/
namespace Verif.Models
open Tensor Ctm Ctm.Spec
open Corrf (pEnv pSite)
open Energy.Spec (heis expect onBond)

/-- Up on the even, down on the odd sites of the cell of two by two sites. -/
def afm (c : Coord) : Nat := ((c.1 + c.2) % 2).toNat
noncomputable def afmState : State ℂ := Energy.prodState cellKeys cellVts (fun c => ket (afm c))

theorem afm_norm (c : Coord) : Corrf.pExpect (ket (afm c)) Corrf.Spec.one = 1 := by
  have : afm c = 0 ∨ afm c = 1 := by unfold afm; omega
  rcases this with h | h <;> rw [h] <;> simp [Corrf.pExpect, ket, Corrf.Spec.one, Finset.sum_range_succ]

/-- Expectation values in a product of basis vectors. -/
theorem ket_expect {n : Nat → Nat} (h : ∀ x, n x < 2) (O : List Nat → List Nat → ℂ) : expect (Energy.prodRdm fun x => ket (n x)) O = O [n 0, n 1, n 2, n 3] [n 0, n 1, n 2, n 3] := by
  have hs : ∀ (m : Nat), m < 2 → ∀ f : Nat → ℂ, ∑ i ∈ Finset.range 2, ket m i * f i = f m := by
    intro m hm f
    simp [ket, hm]
  have hs' : ∀ (m : Nat), m < 2 → ∀ f : Nat → ℂ, ∑ i ∈ Finset.range 2, star (ket m i) * f i = f m := by
    intro m hm f
    rw [← hs m hm f]
    refine Finset.sum_congr rfl fun i _ => ?_
    unfold ket
    split_ifs <;> simp
  have e : expect (Energy.prodRdm fun x => ket (n x)) O = ∑ i ∈ Finset.range 2, ket (n 0) i * ∑ j ∈ Finset.range 2, ket (n 1) j * ∑ k ∈ Finset.range 2, ket (n 2) k * ∑ l ∈ Finset.range 2, ket (n 3) l *
      ∑ a ∈ Finset.range 2, star (ket (n 0) a) * ∑ b ∈ Finset.range 2, star (ket (n 1) b) * ∑ c ∈ Finset.range 2, star (ket (n 2) c) * ∑ d ∈ Finset.range 2, star (ket (n 3) d) * O [a, b, c, d] [i, j, k, l] := by
    simp only [expect, sumIdx, Finset.mul_sum]
    refine Finset.sum_congr rfl fun i _ => Finset.sum_congr rfl fun j _ => Finset.sum_congr rfl fun k _ => Finset.sum_congr rfl fun l _ =>
      Finset.sum_congr rfl fun a _ => Finset.sum_congr rfl fun b _ => Finset.sum_congr rfl fun c _ => Finset.sum_congr rfl fun d _ => ?_
    simp only [Energy.prodRdm, List.cons_append, List.nil_append, List.getD_cons_zero, List.getD_cons_succ]
    ring
  rw [e, hs _ (h 0), hs _ (h 1), hs _ (h 2), hs _ (h 3), hs' _ (h 0), hs' _ (h 1), hs' _ (h 2), hs' _ (h 3)]

/-- C110: the antiferromagnetic state has the energy `-j/2 - q/2` per site. -/
example (eigh : Tensor ℂ → List ℝ × Tensor ℂ) (j q : ℝ) : jq4 eigh j q afmState pEnv = .ok (-j / 2 - q / 2) := by
  have h := fun c => Energy.prodRdm_ok cellKeys cellVts (fun c => ket (afm c)) eigh afm_norm c
  choose r h1 h2 using h
  have hlt : ∀ c x, afm (cellVts (Energy.vertex c x)) < 2 := fun c x => by unfold afm; omega
  have hv : ∀ c O, expect (r c) O = O [afm (cellVts (Energy.vertex c 0)), afm (cellVts (Energy.vertex c 1)), afm (cellVts (Energy.vertex c 2)), afm (cellVts (Energy.vertex c 3))]
      [afm (cellVts (Energy.vertex c 0)), afm (cellVts (Energy.vertex c 1)), afm (cellVts (Energy.vertex c 2)), afm (cellVts (Energy.vertex c 3))] := fun c O => by
    rw [h2, ket_expect (hlt c)]
  have hc : Energy.Spec.Consistent afmState r := by
    constructor
    · intro c hc O
      simp only [afmState, Energy.prodState, cellKeys, List.mem_cons, List.not_mem_nil, or_false] at hc
      rcases hc with rfl | rfl | rfl | rfl <;> simp [hv, onBond, afmState, Energy.prodState, cellVts, Energy.vertex, afm, rt, dn]
    · intro c hc O
      simp only [afmState, Energy.prodState, cellKeys, List.mem_cons, List.not_mem_nil, or_false] at hc
      rcases hc with rfl | rfl | rfl | rfl <;> simp [hv, onBond, afmState, Energy.prodState, cellVts, Energy.vertex, afm, rt, dn]
  rw [C110_cell (D := Corrf.pDims) (st := afmState) eigh j q (Energy.prodFitsState _ _ _) (Energy.prodFitsEnv _ _ _) (fun _ => rfl) ⟨List.Perm.refl _, fun _ => rfl⟩ (fun c _ => h1 c) hc]
  have hs : ∀ c ∈ cellKeys, Spec.jqSite j q (r c) = ((-j / 2 - q / 2 : ℝ) : ℂ) := by
    intro c hc
    simp only [cellKeys, List.mem_cons, List.not_mem_nil, or_false] at hc
    rcases hc with rfl | rfl | rfl | rfl <;> simp [Spec.jqSite, hv, onBond, cellVts, Energy.vertex, afm, rt, dn, Spec.ring, Spec.onTwo, Spec.dimerPart, heis, Energy.Spec.sz, Energy.Spec.sx, Energy.Spec.sy] <;> ring
  congr 1
  simp only [Spec.jqEnergy, afmState, Energy.prodState, cellKeys, List.map_cons, List.map_nil, hs _ (show (0, 0) ∈ cellKeys by simp [cellKeys]), hs _ (show (1, 0) ∈ cellKeys by simp [cellKeys]),
    hs _ (show (0, 1) ∈ cellKeys by simp [cellKeys]), hs _ (show (1, 1) ∈ cellKeys by simp [cellKeys])]
  have : (([((-j / 2 - q / 2 : ℝ) : ℂ), ((-j / 2 - q / 2 : ℝ) : ℂ), ((-j / 2 - q / 2 : ℝ) : ℂ), ((-j / 2 - q / 2 : ℝ) : ℂ)] : List ℂ).sum / (([(0, 0), (1, 0), (0, 1), (1, 1)] : List Coord).length : ℂ)) = ((-j / 2 - q / 2 : ℝ) : ℂ) := by
    simp
    ring
  rw [this, Complex.ofReal_re]

/-- C110: a product state of one site, not along an axis, meets the hypotheses. -/
example : ∃ (eigh : Tensor ℂ → List ℝ × Tensor ℂ) (x y : ℂ), jqC4v eigh 3 5 (pSite Energy.yVec) C4v.oneEnv = .ok x ∧ jqBP eigh 3 5 (pSite Energy.yVec) C4v.oneEnv = .ok y := by
  obtain ⟨eigh, hE⟩ := Rdm.exEigh (K := ℂ)
  obtain ⟨r, r', h1, -, -⟩ := (Energy.plaq_positive hE one_pos one_pos (C4v.oneEnv_fits Energy.yVec) (C4v.oneEnv_rotated Energy.yVec) (Energy.pPositive Energy.yNorm)).1
  obtain ⟨R, -, h2⟩ := C110_bipartite eigh 3 5 one_pos one_pos (C4v.oneEnv_fits Energy.yVec) (C4v.oneEnv_rotated Energy.yVec) h1
  exact ⟨eigh, _, _, C110_uniform eigh 3 5 one_pos one_pos (C4v.oneEnv_fits Energy.yVec) (C4v.oneEnv_rotated Energy.yVec)
    ((C4v.C73_plaquette eigh false one_pos one_pos (by decide) (C4v.oneEnv_fits Energy.yVec) (C4v.oneEnv_rotated Energy.yVec) (0, 0)).symm.trans h1), h2⟩

end Verif.Models
