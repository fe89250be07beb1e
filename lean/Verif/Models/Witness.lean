import Verif.Models.PlaqProps
/-
C105, C106: counterexamples, and cases that meet the hypotheses.
-/
namespace Verif.Models
open Tensor Ctm Ctm.Spec Spec Su2 Su2.Spec
open Corrf (pEnv)

theorem X_diag (p : Nat) (a b : Fin p) : exchange p 1 1 1 (a, b) (a, b) = szEntry p a * szEntry p b := by
  rw [← C11_is_dot_product, asMatrix_SS]
  simp only [Matrix.add_apply, Matrix.smul_apply, Matrix.kroneckerMap_apply, SP_apply, SM_apply, SZ, Matrix.of_apply, smul_eq_mul]
  simp

/-! ### The antiferromagnetic product state -/

def neelVts (c : Coord) : Coord := ((c.1 + c.2) % 2, 0)
/-- Up on the even, down on the odd sublattice. -/
def neel (p : Nat) (hp : 0 < p) (c : Coord) : Fin p := if c = (0, 0) then ⟨0, hp⟩ else ⟨p - 1, by omega⟩
def neelState (p : Nat) (hp : 0 < p) : State ℂ := gState p [(0, 0), (1, 0)] neelVts (fun c => ket (neel p hp c))

theorem neelTiling (p : Nat) (hp : 0 < p) : Tiling (neelState p hp) := by
  refine ⟨fun c v => ?_, fun c => ?_, fun c hc => ?_, by simp [neelState, gState]⟩
  · simp only [neelState, gState, neelVts]
    ext <;> simp only
    omega
  · simp only [neelState, gState, neelVts, List.mem_cons, List.not_mem_nil, or_false, Prod.mk.injEq, and_true]
    omega
  · simp only [neelState, gState, List.mem_cons, List.not_mem_nil, or_false] at hc
    rcases hc with rfl | rfl <;> rfl

/-- C105: the hypotheses hold for spin one, and the energy per site is `-2 j S^2`. -/
example (eigh : Tensor ℂ → List ℝ × Tensor ℂ) (j : ℝ) : hbEnergy eigh 3 j 0 (neelState 3 (by decide)) pEnv = .ok ((-2 * j : ℝ) : ℂ) := by
  have h := C105_heisenberg (N := gTensors 3 neelVts fun c => ket (neel 3 (by decide) c)) eigh (by decide : 0 < 3) j 0 (gFitsState _ _ _ (by decide)) (gFitsEnv _ _ _) (neelTiling 3 (by decide)) (fun _ => rfl) (gReads _ _ _)
    (fun c _ => by rw [gNorm _ _ (fun c => ket_norm (Fin.isLt _)), gNorm _ _ (fun c => ket_norm (Fin.isLt _))]; simp)
  refine h.trans ?_
  congr 2
  have hv : ∀ a b : Fin 3, ((j : ℂ) • exchange 3 1 1 1 + ((0 : ℝ) : ℂ) • exchange 3 1 1 1 ^ 2) (a, b) (a, b) = j * (szEntry 3 a * szEntry 3 b) := by
    intro a b
    rw [Matrix.add_apply, Matrix.smul_apply, Matrix.smul_apply, X_diag]
    simp
  simp only [energy, ketBond, hv]
  simp [neelState, gState, neelVts, neel, Corrf.Spec.ahead, Dir.vec, szEntry]
  norm_num
  ring

/-- C105: the hypotheses hold for the ladders. -/
example (eigh : Tensor ℂ → List ℝ × Tensor ℂ) (alpha bz : ℝ) : ∃ x, ladderEnergy eigh alpha bz (neelState 2 (by decide)) pEnv = .ok x :=
  ⟨_, C105_ladders (N := gTensors 2 neelVts fun c => ket (neel 2 (by decide) c)) eigh alpha bz (gFitsState _ _ _ (by decide)) (gFitsEnv _ _ _) (neelTiling 2 (by decide)) (fun _ => rfl) (gReads _ _ _)
    (fun c _ => by rw [gNorm _ _ (fun c => ket_norm (Fin.isLt _)), gNorm _ _ (fun c => ket_norm (Fin.isLt _))]; simp)⟩

/-- C105: the hypotheses hold for the ladders of the rotated state. -/
example (eigh : Tensor ℂ → List ℝ × Tensor ℂ) (alpha : ℝ) : ∃ x, d2Energy eigh alpha (neelState 2 (by decide)) pEnv = .ok x :=
  ⟨_, C105_rotated_ladders (N := gTensors 2 neelVts fun c => ket (neel 2 (by decide) c)) eigh alpha (gFitsState _ _ _ (by decide)) (gFitsEnv _ _ _) (neelTiling 2 (by decide)) (fun _ => rfl) (gReads _ _ _)
    (fun c _ => by rw [gNorm _ _ (fun c => ket_norm (Fin.isLt _)), gNorm _ _ (fun c => ket_norm (Fin.isLt _))]; simp)⟩

/-- C105: the hypotheses hold for spin two. -/
example (eigh : Tensor ℂ → List ℝ × Tensor ℂ) : ∃ x, akltEnergy eigh (neelState 5 (by decide)) pEnv = .ok x :=
  ⟨_, C105_aklt (N := gTensors 5 neelVts fun c => ket (neel 5 (by decide) c)) eigh (gFitsState _ _ _ (by decide)) (gFitsEnv _ _ _) (neelTiling 5 (by decide)) (fun _ => rfl) (gReads _ _ _)
    (fun c _ => by rw [gNorm _ _ (fun c => ket_norm (Fin.isLt _)), gNorm _ _ (fun c => ket_norm (Fin.isLt _))]; simp)⟩

/-! ### The cell of two by two sites -/

def cellVts (c : Coord) : Coord := (c.1 % 2, c.2 % 2)
def cellKeys : List Coord := [(0, 0), (1, 0), (0, 1), (1, 1)]
/-- All spins up. -/
noncomputable def upState : State ℂ := Energy.prodState cellKeys cellVts (fun _ => ket 0)

theorem upTiling : Tiling upState := by
  refine ⟨fun c v => ?_, fun c => ?_, fun c hc => ?_, by simp [upState, Energy.prodState, cellKeys]⟩
  · simp only [upState, Energy.prodState, cellVts]
    ext <;> simp only <;> omega
  · simp only [upState, Energy.prodState, cellVts, cellKeys, List.mem_cons, List.not_mem_nil, or_false, Prod.mk.injEq]
    omega
  · simp only [upState, Energy.prodState, cellKeys, List.mem_cons, List.not_mem_nil, or_false] at hc
    rcases hc with rfl | rfl | rfl | rfl <;> rfl

theorem upCell : TwoByTwo upState := ⟨List.Perm.refl _, fun _ => rfl⟩

theorem up_norm : Corrf.pExpect (ket 0) Corrf.Spec.one = 1 := by
  simp [Corrf.pExpect, ket, Corrf.Spec.one, Finset.sum_range_succ]

theorem plaq_two (r : Tensor ℂ) (m n : Nat) (H : Op2 2) : plaq r m n H = Energy.Spec.expect r (Energy.Spec.onBond m n (entry H)) := rfl

theorem up_expect (m n : Nat) (hm : m < n) (hn : n < 4) (H : Op2 2) : plaq (Energy.prodRdm fun _ => ket 0) m n H = H (0, 0) (0, 0) := by
  rw [plaq_two, Energy.four_any (w := fun _ => ket 0) (fun _ => up_norm) m n hm hn]
  simp [sumIdx, Finset.sum_range_succ, Corrf.pExpect, ket, Corrf.Spec.unit, entry]

/-- The density matrices of the plaquettes. -/
theorem upRdm (eigh : Tensor ℂ → List ℝ × Tensor ℂ) : ∃ r : Coord → Tensor ℂ, (∀ c ∈ upState.keys, Rdm.rdm2x2 eigh false upState pEnv c [0, 1, 2, 3] = .ok (r c)) ∧ Agree 2 upState r ∧
    ∀ Hx Hy : Op2 2, plaqEnergy upState.keys r Hx Hy = Hx (0, 0) (0, 0) + Hy (0, 0) (0, 0) := by
  have h := fun c => Energy.prodRdm_ok cellKeys cellVts (fun _ => ket 0) eigh (fun _ => up_norm) c
  choose r h1 h2 using h
  have hv : ∀ (c : Coord) (m n : Nat), m < n → n < 4 → ∀ H : Op2 2, plaq (r c) m n H = H (0, 0) (0, 0) := by
    intro c m n hm hn H
    rw [plaq_two, h2]
    exact up_expect m n hm hn H
  refine ⟨r, fun c _ => h1 c, ⟨fun c _ H => ?_, fun c _ H => ?_⟩, fun Hx Hy => ?_⟩
  · rw [hv _ _ _ (by decide) (by decide), hv _ _ _ (by decide) (by decide)]
  · rw [hv _ _ _ (by decide) (by decide), hv _ _ _ (by decide) (by decide)]
  · simp only [plaqEnergy, hv _ 0 1 (by decide) (by decide), hv _ 0 2 (by decide) (by decide)]
    simp [upState, Energy.prodState, cellKeys]
    ring

/-- C106. All spins up: the energy per site is `j/2`; `HB.energy_2x1_1x2` returns it, `HB.energy_2x2_4site` returns `2 j`, and `COUPLEDCHAINS.energy_2x2_4site` `j/4` for the same couplings. -/
theorem C106_violated (eigh : Tensor ℂ → List ℝ × Tensor ℂ) (j : ℝ) : ∃ (st : State ℂ) (env : Env ℂ) (r : Coord → Tensor ℂ), TwoByTwo st ∧ Tiling st ∧
    (∀ c ∈ st.keys, Rdm.rdm2x2 eigh false st env c [0, 1, 2, 3] = .ok (r c)) ∧ Agree 2 st r ∧ plaqEnergy (p := 2) st.keys r ((j : ℂ) • exchange 2 1 1 1) ((j : ℂ) • exchange 2 1 1 1) = j / 2 ∧
    hbEnergy eigh 2 j 0 st env = .ok (j / 2) ∧ hb4 eigh 2 j 0 st env = .ok (2 * j) ∧
    chainsEnergy eigh 2 j j 0 0 st env = .ok (j / 2) ∧ chains4 eigh 2 j j 0 0 st env = .ok (j / 4) := by
  obtain ⟨r, h1, h2, h3⟩ := upRdm eigh
  have hX : exchange 2 1 1 1 (0, 0) (0, 0) = (1 / 4 : ℂ) := by
    rw [X_diag]
    simp [szEntry]
    norm_num
  have hH : ((j : ℂ) • exchange 2 1 1 1 + ((0 : ℝ) : ℂ) • exchange 2 1 1 1 ^ 2) (0, 0) (0, 0) = j / 4 := by
    rw [Matrix.add_apply, Matrix.smul_apply, Matrix.smul_apply, hX]
    simp
    ring
  have hN : ∀ c d n, Corrf.Spec.norm (gTensors 2 cellVts fun _ => ket 0) (gDims 2) d c n = 1 := fun c d n => gNorm _ _ (fun c => ket_norm (by decide)) _ _ _
  have hE : energy (gTensors 2 cellVts fun _ => ket 0) (gDims 2) upState.keys (p := 2) (fun _ => (j : ℂ) • exchange 2 1 1 1 + ((0 : ℝ) : ℂ) • exchange 2 1 1 1 ^ 2)
      (fun _ => (j : ℂ) • exchange 2 1 1 1 + ((0 : ℝ) : ℂ) • exchange 2 1 1 1 ^ 2) = j / 2 := by
    have hb : ∀ d c H, bond (gTensors 2 cellVts fun _ => ket 0) (gDims 2) d c H = (H ((0 : Fin 2), (0 : Fin 2)) (0, 0)).re := fun d c H => ketBond cellVts (fun _ => (0 : Fin 2)) d c H
    simp only [energy, hb, hH]
    simp [upState, Energy.prodState, cellKeys]
    ring
  refine ⟨upState, pEnv, r, upCell, upTiling, h1, h2, ?_, ?_, ?_, ?_, ?_⟩
  · rw [h3, Matrix.smul_apply, hX]
    simp
    ring
  · have h := C105_heisenberg (N := gTensors 2 cellVts fun _ => ket 0) (st := upState) eigh (by decide : 0 < 2) j 0 (Energy.prodFitsState _ _ _) (Energy.prodFitsEnv _ _ _) upTiling (fun _ => rfl) (gReads cellKeys cellVts fun _ => ket 0)
      (fun c _ => by
        have := hN c
        exact ⟨by rw [show Corrf.pDims = gDims 2 from rfl, this]; simp, by rw [show Corrf.pDims = gDims 2 from rfl, this]; simp⟩)
    refine h.trans ?_
    rw [show Corrf.pDims = gDims 2 from rfl, hE]
    push_cast
    rfl
  · rw [C106_heisenberg (D := Corrf.pDims) (st := upState) (by decide) (Energy.prodFitsState _ _ _) (Energy.prodFitsEnv _ _ _) (fun _ => rfl) eigh j 0 upCell h1 h2, h3, hH]
    congr 1
    ring
  · have h := C105_chains (N := gTensors 2 cellVts fun _ => ket 0) (st := upState) eigh (by decide : 0 < 2) j j 0 0 (Energy.prodFitsState _ _ _) (Energy.prodFitsEnv _ _ _) upTiling (fun _ => rfl) (gReads cellKeys cellVts fun _ => ket 0)
      (fun c _ => by
        have := hN c
        exact ⟨by rw [show Corrf.pDims = gDims 2 from rfl, this]; simp, by rw [show Corrf.pDims = gDims 2 from rfl, this]; simp⟩)
    refine h.trans ?_
    rw [show Corrf.pDims = gDims 2 from rfl, hE]
    push_cast
    rfl
  · rw [C106_chains (D := Corrf.pDims) (st := upState) (by decide) (Energy.prodFitsState _ _ _) (Energy.prodFitsEnv _ _ _) (fun _ => rfl) eigh j j 0 0 upCell h1 h2, h3, hH]
    congr 1
    ring

end Verif.Models
