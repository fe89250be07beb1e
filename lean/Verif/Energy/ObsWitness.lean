import Verif.Energy.ObsC4v
import Verif.Energy.C4vWitness
/-
C103, C104: product states.
-/
namespace Verif.Energy
open Tensor Ctm Ctm.Spec Corrf

theorem prodOnsite (vts : Coord → Coord) (v : Coord → Nat → ℂ) (hv : ∀ c, pExpect (v c) Corrf.Spec.one = 1) (c : Coord) (o : Corrf.Spec.Op ℂ) :
    Spec.onsite (prodTensors vts v) pDims c o = (pExpect (v (vts c)) o).re := by
  rw [Spec.onsite, prodNorm vts v hv, prodNetwork]
  simp [along]

/-- Two columns of spins, one along x and one along y: nine labels more than one site, all values finite. -/
example (eigh : Tensor ℂ → List ℝ × Tensor ℂ) :
    evalObs eigh xyState pEnv = .ok ((obsLabels [(0, 0), (1, 0)]).map (Spec.observable (prodTensors xyVts xyVec) (fun _ => prodTensors xyVts xyVec) pDims [(0, 0), (1, 0)]), obsLabels [(0, 0), (1, 0)]) :=
  C103_values (N := prodTensors xyVts xyVec) eigh (prodFitsState _ _ _) (prodFitsEnv _ _ _) xyTiling (fun _ => rfl) (prodReads _ _ _) (by simp [xyState, prodState])
    (fun c _ => by rw [prodNorm _ _ xyNorm]; simp) (fun c _ => by rw [prodNorm _ _ xyNorm]; simp) (fun c _ => by rw [prodNorm _ _ xyNorm]; simp)

example : obsLabels [(0, 0), (1, 0)] = [.avgM, .m (0, 0), .m (1, 0), .sz (0, 0), .sp (0, 0), .sm (0, 0), .sz (1, 0), .sp (1, 0), .sm (1, 0), .ss2x1 (0, 0), .ss2x1 (1, 0), .ss1x2 (0, 0), .ss1x2 (1, 0)] := rfl

/-- The value of the label `sp(1, 0)` is `12/25 i`. -/
example : Spec.observable (prodTensors xyVts xyVec) (fun _ => prodTensors xyVts xyVec) pDims [(0, 0), (1, 0)] (.sp (1, 0)) = 12 / 25 * Complex.I := by
  have h : xyVec (xyVts (1, 0)) = yVec := by simp [xyVts, xyVec]
  simp only [Spec.observable, prodOnsite _ _ xyNorm, h, yX, yY, Complex.ofReal_re]
  push_cast
  ring

/-- The length of the moment of both sites is one half. -/
example : Spec.observable (prodTensors xyVts xyVec) (fun _ => prodTensors xyVts xyVec) pDims [(0, 0), (1, 0)] .avgM = 1 / 2 := by
  have h0 : xyVec (xyVts (0, 0)) = xVec := by simp [xyVts, xyVec]
  have h1 : xyVec (xyVts (1, 0)) = yVec := by simp [xyVts, xyVec]
  have s : Real.sqrt (1 / 4) = 1 / 2 := by
    rw [show (1 / 4 : ℝ) = (1 / 2) ^ 2 by norm_num]
    exact Real.sqrt_sq (by norm_num)
  have m0 : Spec.moment (prodTensors xyVts xyVec) pDims (0, 0) = 1 / 2 := by
    simp only [Spec.moment, prodOnsite _ _ xyNorm, h0, xX, xY, xZ, Complex.ofReal_re, Complex.zero_re]
    rw [← s]
    norm_num
  have m1 : Spec.moment (prodTensors xyVts xyVec) pDims (1, 0) = 1 / 2 := by
    simp only [Spec.moment, prodOnsite _ _ xyNorm, h1, yX, yY, yZ, Complex.ofReal_re]
    rw [← s]
    norm_num
  simp only [Spec.observable, List.map_cons, List.map_nil, m0, m1]
  norm_num

/-- The routine for a bipartite cell of one site. -/
example (eigh : Tensor ℂ → List ℝ × Tensor ℂ) :
    evalObs1siteBP eigh xState pEnv = .ok ((obsLabels [(0, 0)]).map (Spec.observable (prodTensors (fun _ => (0, 0)) fun _ => xVec) (fun c => Spec.stagger c (prodTensors (fun _ => (0, 0)) fun _ => xVec)) pDims [(0, 0)]),
      obsLabels [(0, 0)]) :=
  C103_bipartite (N := prodTensors (fun _ => (0, 0)) fun _ => xVec) eigh (prodFitsState _ _ _) (prodFitsEnv _ _ _) xTiling (fun _ => rfl) (prodReads _ _ _) (by simp [xState, prodState])
    (fun c _ => by rw [prodNorm _ _ fun _ => xNorm]; simp) (fun c _ => by rw [prodNorm _ _ fun _ => xNorm]; simp) (fun c _ => by rw [prodNorm _ _ fun _ => xNorm]; simp)

/-- The neighbours of the staggered state are antiparallel: `-1/4` for every bond, where the uniform state has `1/4`. -/
example (d : Dir) (c : Coord) : Spec.bond (Spec.stagger c (C4v.tensors (pSite xVec) C4v.oneEnv)) (C4v.Spec.dims 1 1 2) d c = -1 / 4 := by
  have h := fun o o' => staggerCorr xNorm d c o o'
  have hN := tensors_two (C4v.oneEnv_fits xVec)
  have hn : Corrf.Spec.norm (Spec.stagger c (C4v.tensors (pSite xVec) C4v.oneEnv)) (C4v.Spec.dims 1 1 2) d c 2 = 1 := by rw [norm_stagger hN, vNorm xNorm]
  have h' : ∀ o o', Corrf.Spec.twoPoint (Spec.stagger c (C4v.tensors (pSite xVec) C4v.oneEnv)) (C4v.Spec.dims 1 1 2) d c o o' 0 = pExpect xVec o * pExpect xVec (conjO true o') := by
    intro o o'
    rw [← h, Spec.corr, show (0 : Nat) + 2 = 2 from rfl, hn, div_one]
  have cx : pExpect xVec (conjO true Spec.sx) = ((-(12 / 25) : ℝ) : ℂ) := by
    simp [pExpect, xVec, Spec.sx, conjO, se, fb, Finset.sum_range_succ, map_ofNat]; norm_num
  have cz : pExpect xVec (conjO true Spec.sz) = ((7 / 50 : ℝ) : ℂ) := by
    simp [pExpect, xVec, Spec.sz, conjO, se, fb, Finset.sum_range_succ, map_ofNat]; norm_num
  rw [Spec.bond, hn, Spec.dotNet, h', h', h', xX, xY, xZ, cx, cz, zero_mul, add_zero, ← Complex.ofReal_mul, ← Complex.ofReal_mul, ← Complex.ofReal_add, Complex.ofReal_re, Complex.one_re]
  norm_num

/-- All couplings, spins along y. -/
example {eigh : Tensor ℂ → List ℝ × Tensor ℂ} (hE : Rdm.Spec.Eigh eigh) (m : J1J2) :
    ∃ r0, Rdm.rdm2x2 eigh false (Spec.checker (pSite yVec)) (Spec.both (C4v.Spec.unfold C4v.oneEnv)) (0, 0) [0, 1, 2, 3] = .ok r0 ∧
      evalObsC4v eigh m (pSite yVec) C4v.oneEnv = .ok ((obsLabels4 m).map (Spec.observable4 (Spec.stagger (0, 0) (C4v.tensors (pSite yVec) C4v.oneEnv)) (C4v.Spec.dims 1 1 2) r0), obsLabels4 m) := by
  obtain ⟨r, r', h, -, -⟩ := (plaq_positive hE one_pos one_pos (C4v.oneEnv_fits yVec) (C4v.oneEnv_rotated yVec) (pPositive yNorm)).1
  exact C104_values eigh m one_pos one_pos (C4v.oneEnv_fits yVec) (C4v.oneEnv_rotated yVec) C4v.oneEnv_c (by rw [vNorm yNorm]; simp) (.inr (by rw [vNorm yNorm]; simp)) h

example (m : J1J2) (h2 : m.j2 = 1) (h3 : m.j3 = 0) (hl : m.lmbd = 1) : obsLabels4 m = [.m, .sz, .sp, .sm, .ss2x1, .ssNnn, .chiralT] := by
  simp [obsLabels4, h2, h3, hl]

end Verif.Energy
