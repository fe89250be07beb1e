import Verif.State.GaugeProps
import Mathlib.Analysis.Matrix.Spectrum
import Mathlib.Data.Fin.Tuple.Sort
import Mathlib.Tactic.IntervalCases
/-
C140: the hypotheses are met, and cutting small eigenvalues changes the state.
-/
namespace Verif.Gauge
open Verif.Lattice (Vertex)
open Verif.State (Mat)
variable {K : Type} [RCLike K]

/-- The backend contract of `eigh` can be met. -/
theorem exists_eigh : ∃ eig : Eigh K, Spec.IsEigh eig := by
  classical
  have h : ∀ (n : Nat) (M : Mat K), ∃ q : (Nat → ℝ) × Mat K, (∀ x < n, ∀ y < n, M x y = star (M y x)) →
      (∀ x < n, ∀ y < n, ∑ k ∈ Finset.range n, q.2 x k * star (q.2 y k) = if x = y then 1 else 0) ∧
      (∀ x < n, ∀ k < n, ∑ y ∈ Finset.range n, M x y * q.2 y k = ((q.1 k : ℝ) : K) * q.2 x k) ∧ (∀ j k, j ≤ k → k < n → q.1 j ≤ q.1 k) := by
    intro n M
    by_cases hM : ∀ x < n, ∀ y < n, M x y = star (M y x)
    · let A : Matrix (Fin n) (Fin n) K := fun x y => M x y
      have hA : A.IsHermitian := by
        ext x y
        exact (hM x x.2 y y.2).symm
      let b := hA.eigenvectorBasis
      let σ := Tuple.sort hA.eigenvalues
      let U : Matrix (Fin n) (Fin n) K := fun x k => b (σ k) x
      have hU : U.conjTranspose * U = 1 := by
        ext i j
        rw [Matrix.mul_apply, Matrix.one_apply]
        have ho := orthonormal_iff_ite.1 b.orthonormal (σ i) (σ j)
        rw [PiLp.inner_apply] at ho
        simp only [RCLike.inner_apply, σ.injective.eq_iff] at ho
        rw [← ho]
        exact Finset.sum_congr rfl (fun x _ => mul_comm _ _)
      have hU' := mul_eq_one_comm.mp hU
      refine ⟨(fun k => if h : k < n then hA.eigenvalues (σ ⟨k, h⟩) else 0, fun x k => if h : x < n ∧ k < n then U ⟨x, h.1⟩ ⟨k, h.2⟩ else 0), fun _ => ⟨?_, ?_, ?_⟩⟩
      · intro x hx y hy
        have := congrFun (congrFun hU' ⟨x, hx⟩) ⟨y, hy⟩
        rw [Matrix.mul_apply, Matrix.one_apply] at this
        simp only [Fin.mk.injEq] at this
        rw [← this, Finset.sum_range]
        refine Finset.sum_congr rfl (fun k _ => ?_)
        simp [hx, hy, Matrix.conjTranspose_apply]
      · intro x hx k hk
        have hm := congrFun (hA.mulVec_eigenvectorBasis (σ ⟨k, hk⟩)) ⟨x, hx⟩
        simp only [Matrix.mulVec, dotProduct, Pi.smul_apply] at hm
        rw [RCLike.real_smul_eq_coe_mul] at hm
        rw [Finset.sum_range]
        simp only [hx, hk, and_true, dif_pos, Fin.is_lt]
        exact hm
      · intro i k hik hk
        have hi : i < n := by omega
        simp only [hi, hk, dif_pos]
        exact Tuple.monotone_sort hA.eigenvalues (a := ⟨i, hi⟩) (b := ⟨k, hk⟩) hik
    · exact ⟨(fun _ => 0, M), fun h => absurd h hM⟩
  choose q hq using h
  exact ⟨q, fun n M hM => hq n M hM⟩

/-- The contract of `svd` that is used can be met. -/
theorem exists_svd : ∃ svd : Svd K, Spec.IsSvd svd :=
  ⟨fun _ M => (M, fun _ => 1, fun x y => if x = y then 1 else 0), fun n M => ⟨fun x _ y hy => by simp [hy], fun _ => zero_le_one⟩⟩

/-! ### A family of states with one site -/

/-- One site with vertical bonds of size two and horizontal bonds of size one. -/
def exCell : Cell := ⟨[(0, 0)], fun _ => (0, 0), fun _ => 2, fun _ d => match d with | .up => 2 | .down => 2 | .left => 1 | .right => 1⟩

/-- The physical index equals both vertical indices; weights are the identity. -/
def exState (v : Nat → K) : Weighted K := ⟨fun _ s i => if i .up = s ∧ i .down = s then v s else 0, fun _ x y => if x = y then 1 else 0⟩

theorem exTiling : Spec.Tiling exCell := by
  refine ⟨?_, fun _ => by simp [exCell], fun _ _ => rfl, ?_⟩
  · intro c hc
    simp only [exCell, List.mem_singleton] at hc
    rw [hc]; rfl
  · intro c _ d
    cases d <;> rfl

/-- The torus with one vertex. -/
def exPatch : Spec.Patch exCell Unit := ⟨fun _ => (0, 0), 1, 1, fun _ => by simp [exCell], fun _ => rfl, fun _ => rfl⟩

def mk (a b c d : Nat) : Dir → Nat
  | .up => a | .left => b | .down => c | .right => d

theorem sum_legs (f : (Dir → Nat) → K) (c : Vertex) : ∑ i ∈ exCell.legs c, f i = f (mk 0 0 0 0) + f (mk 0 0 1 0) + (f (mk 1 0 0 0) + f (mk 1 0 1 0)) := by
  have : ∑ i ∈ exCell.legs c, f i = ∑ j ∈ Finset.range 2 ×ˢ Finset.range 2, f (mk j.1 0 j.2 0) := by
    refine Finset.sum_nbij' (fun i => (i .up, i .down)) (fun j => mk j.1 0 j.2 0) ?_ ?_ ?_ ?_ ?_
    · intro i hi
      have := Fintype.mem_piFinset.mp hi
      simp only [Finset.mem_product]
      exact ⟨this .up, this .down⟩
    · intro j hj
      simp only [Finset.mem_product, Finset.mem_range] at hj
      refine Fintype.mem_piFinset.mpr (fun d => ?_)
      cases d <;> simp [mk, exCell, hj.1, hj.2]
    · intro i hi
      have := Fintype.mem_piFinset.mp hi
      have h1 : i .left = 0 := by simpa [exCell] using this .left
      have h2 : i .right = 0 := by simpa [exCell] using this .right
      funext d
      cases d <;> simp [mk, h1, h2]
    · intro j _
      rfl
    · intro i hi
      have := Fintype.mem_piFinset.mp hi
      have h1 : i .left = 0 := by simpa [exCell] using this .left
      have h2 : i .right = 0 := by simpa [exCell] using this .right
      congr 1
      funext d
      cases d <;> simp [mk, h1, h2]
  rw [this, Finset.sum_product]
  simp [Finset.sum_range_succ]

theorem prod_erase_up (f : Dir → K) : ∏ e ∈ Finset.univ.erase Dir.up, f e = f .left * (f .down * f .right) := by
  have : Finset.univ.erase Dir.up = {.left, .down, .right} := by decide
  rw [this, Finset.prod_insert (by decide), Finset.prod_insert (by decide), Finset.prod_singleton]

theorem prod_erase_left (f : Dir → K) : ∏ e ∈ Finset.univ.erase Dir.left, f e = f .up * (f .down * f .right) := by
  have : Finset.univ.erase Dir.left = {.up, .down, .right} := by decide
  rw [this, Finset.prod_insert (by decide), Finset.prod_insert (by decide), Finset.prod_singleton]

theorem prod_erase_down (f : Dir → K) : ∏ e ∈ Finset.univ.erase Dir.down, f e = f .up * (f .left * f .right) := by
  have : Finset.univ.erase Dir.down = {.up, .left, .right} := by decide
  rw [this, Finset.prod_insert (by decide), Finset.prod_insert (by decide), Finset.prod_singleton]

theorem prod_erase_right (f : Dir → K) : ∏ e ∈ Finset.univ.erase Dir.right, f e = f .up * (f .left * f .down) := by
  have : Finset.univ.erase Dir.right = {.up, .left, .down} := by decide
  rw [this, Finset.prod_insert (by decide), Finset.prod_insert (by decide), Finset.prod_singleton]

theorem gram_up (v : Nat → K) (c : Vertex) {x y : Nat} (hx : x < 2) (hy : y < 2) : gram exCell (exState v) (c, .up) x y = if x = y then v x * star (v x) else 0 := by
  unfold gram
  simp only [sum_legs, prod_erase_up]
  have : exCell.phys (exCell.vts c) = 2 := rfl
  simp only [this, Finset.sum_range_succ, Finset.sum_range_zero]
  interval_cases x <;> interval_cases y <;> simp [exState, mk]

theorem gram_down (v : Nat → K) (c : Vertex) {x y : Nat} (hx : x < 2) (hy : y < 2) : gram exCell (exState v) (c, .down) x y = if x = y then v x * star (v x) else 0 := by
  unfold gram
  simp only [sum_legs, prod_erase_down]
  have : exCell.phys (exCell.vts c) = 2 := rfl
  simp only [this, Finset.sum_range_succ, Finset.sum_range_zero]
  interval_cases x <;> interval_cases y <;> simp [exState, mk]

theorem gram_left (v : Nat → K) (c : Vertex) : gram exCell (exState v) (c, .left) 0 0 = v 0 * star (v 0) + v 1 * star (v 1) := by
  unfold gram
  simp only [sum_legs, prod_erase_left]
  have : exCell.phys (exCell.vts c) = 2 := rfl
  simp only [this, Finset.sum_range_succ, Finset.sum_range_zero]
  simp [exState, mk]

theorem gram_right (v : Nat → K) (c : Vertex) : gram exCell (exState v) (c, .right) 0 0 = v 0 * star (v 0) + v 1 * star (v 1) := by
  unfold gram
  simp only [sum_legs, prod_erase_right]
  have : exCell.phys (exCell.vts c) = 2 := rfl
  simp only [this, Finset.sum_range_succ, Finset.sum_range_zero]
  simp [exState, mk]

theorem scaled_ex (v : Nat → K) (h : v 0 ≠ 0) : ∃ m : ℝ, m ≠ 0 ∧ ∀ c, siteMax exCell ((exState v).site c) c = m := by
  refine ⟨siteMax exCell ((exState v).site (0, 0)) (0, 0), ?_, fun _ => rfl⟩
  refine siteMax_pos (s := 0) (i := mk 0 0 0 0) (by simp [exCell]) (Fintype.mem_piFinset.mpr (fun d => by cases d <;> simp [mk, exCell])) ?_
  simpa [exState, mk] using h

theorem exScaled (v : Nat → K) (h : v 0 ≠ 0) : ∃ m : ℝ, m ≠ 0 ∧ scaled exCell (exState v) = exState (fun s => v s / ((m : ℝ) : K)) := by
  obtain ⟨m, hm, e⟩ := scaled_ex v h
  refine ⟨m, hm, ?_⟩
  unfold scaled
  simp only [e]
  unfold exState
  congr 1
  funext c s i
  by_cases hc : i .up = s ∧ i .down = s
  · simp only [if_pos hc]
  · simp only [if_neg hc, zero_div]

theorem matMax_pos {n : Nat} {a : Mat K} {x y : Nat} (hx : x < n) (hy : y < n) (h : a x y ≠ 0) : 0 < matMax n a := by
  unfold matMax
  have h1 : ‖a x y‖₊ ≤ (Finset.range n ×ˢ Finset.range n).sup (fun x => ‖a x.1 x.2‖₊) :=
    Finset.le_sup (f := fun x : Nat × Nat => ‖a x.1 x.2‖₊) (b := (x, y)) (by simp [hx, hy])
  have h0 : 0 < ‖a x y‖₊ := by simpa using h
  exact_mod_cast lt_of_lt_of_le h0 h1

theorem exDiag (v : Nat → K) : Spec.Diagonal exCell (exState v).wt := fun _ _ _ _ _ h => by simp [exState, h]

theorem exShared (v : Nat → K) : Spec.Shared exCell (exState v).wt := fun _ _ _ x y => by
  by_cases h : x = y
  · subst h; rfl
  · simp [exState, h, Ne.symm h]

/-! ### An eigenvalue below the cut -/

/-- The second vertical index occurs with a small amplitude. -/
noncomputable def small : Nat → K := fun s => if s = 0 then 1 else 1 / 10 ^ 8

/-- Whatever the backends do, one round removes the second physical value. -/
theorem small_lost {eig : Eigh K} (he : Spec.IsEigh eig) (b : Bonds K) (i : Dir → Nat) :
    newSite exCell eig (scaled exCell (exState small)) b (0, 0) 1 i = 0 := by
  obtain ⟨m, hm, e⟩ := exScaled (K := K) small (by simp [small])
  rw [e]
  set v : Nat → K := fun s => small s / ((m : ℝ) : K) with hv
  have hmK : ((m : ℝ) : K) ≠ 0 := by rw [Ne, RCLike.ofReal_eq_zero]; exact hm
  set k : Key := ((0, 0), .up) with hk
  set N := matMax 2 (gram exCell (exState v) k) with hN
  have g00 : gram exCell (exState v) k 0 0 = (((1 / m ^ 2 : ℝ)) : K) := by
    rw [gram_up v _ (by omega) (by omega)]
    simp only [hv, small, if_true]
    rw [star_div₀, star_one]
    have : star ((m : ℝ) : K) = ((m : ℝ) : K) := RCLike.conj_ofReal _
    rw [this]
    push_cast
    field_simp
  have g11 : gram exCell (exState v) k 1 1 = (((1 / m ^ 2 / 10 ^ 16 : ℝ)) : K) := by
    rw [gram_up v _ (by omega) (by omega)]
    simp only [hv, small, if_true, one_ne_zero, if_false]
    rw [star_div₀, star_div₀, star_one, star_pow]
    have : star ((m : ℝ) : K) = ((m : ℝ) : K) := RCLike.conj_ofReal _
    rw [this]
    have : star (10 : K) = 10 := by simp
    rw [this]
    push_cast
    field_simp
  have g01 : gram exCell (exState v) k 0 1 = 0 := by rw [gram_up v _ (by omega) (by omega)]; simp
  have g10 : gram exCell (exState v) k 1 0 = 0 := by rw [gram_up v _ (by omega) (by omega)]; simp
  have hN0 : 0 < N := matMax_pos (x := 0) (y := 0) (by omega) (by omega) (by
    rw [g00, Ne, RCLike.ofReal_eq_zero]; positivity)
  set α : ℝ := 1 / m ^ 2 / N with hα
  have hα0 : 0 < α := by positivity
  have a00 : eigArg exCell (exState v) k 0 0 = ((-α : ℝ) : K) := by
    change -(gram exCell (exState v) k 0 0 / ((N : ℝ) : K)) = _
    rw [g00, hα]; push_cast; rfl
  have a11 : eigArg exCell (exState v) k 1 1 = ((-(α / 10 ^ 16) : ℝ) : K) := by
    change -(gram exCell (exState v) k 1 1 / ((N : ℝ) : K)) = _
    rw [g11, hα]; push_cast; ring
  have a01 : eigArg exCell (exState v) k 0 1 = 0 := by
    change -(gram exCell (exState v) k 0 1 / ((N : ℝ) : K)) = _
    rw [g01]; simp
  have a10 : eigArg exCell (exState v) k 1 0 = 0 := by
    change -(gram exCell (exState v) k 1 0 / ((N : ℝ) : K)) = _
    rw [g10]; simp
  obtain ⟨hu, hev, hord⟩ := he 2 (eigArg exCell (exState v) k) (fun x _ y _ => herm_arg exTiling (exDiag v) k x y)
  set q := eig 2 (eigArg exCell (exState v) k) with hq
  have hspec : spec exCell eig (exState v) k = (fun i => -q.1 i, q.2) := rfl
  -- eigenvalues
  have row0 : ∀ x < 2, q.2 0 x ≠ 0 → q.1 x = -α := fun x hx hne => by
    have := hev 0 (by omega) x hx
    simp only [Finset.sum_range_succ, Finset.sum_range_zero, zero_add, a00, a01, zero_mul, add_zero] at this
    exact_mod_cast (mul_right_cancel₀ hne this).symm
  have row1 : ∀ x < 2, q.2 1 x ≠ 0 → q.1 x = -(α / 10 ^ 16) := fun x hx hne => by
    have := hev 1 (by omega) x hx
    simp only [Finset.sum_range_succ, Finset.sum_range_zero, zero_add, a11, a10, zero_mul] at this
    exact_mod_cast (mul_right_cancel₀ hne this).symm
  have hex : ∃ x < 2, q.2 0 x ≠ 0 := by
    by_contra hcon
    push Not at hcon
    have := hu 0 (by omega) 0 (by omega)
    simp [Finset.sum_range_succ, hcon 0 (by omega), hcon 1 (by omega)] at this
  have hd0 : α ≤ -q.1 0 := by
    obtain ⟨x, hx, hne⟩ := hex
    have := hord 0 x (by omega) hx
    rw [row0 x hx hne] at this
    linarith
  have hxinv : ∀ z < 2, gXinv exCell eig (exState v) k z 1 = 0 := fun z hz => by
    unfold gXinv
    rw [hspec]
    by_cases hne : q.2 1 z = 0
    · simp [hne]
    · have h1 := row1 z hz hne
      have : invSqrt (fun i => -q.1 i) z = 0 := by
        unfold invSqrt
        rw [if_pos]
        change -q.1 z / -q.1 0 < _
        rw [h1, _root_.neg_neg, div_lt_iff₀ (by linarith)]
        have : α / 10 ^ 16 < 1 / 10 ^ 14 * α := by
          rw [div_eq_mul_inv, mul_comm]
          exact mul_lt_mul_of_pos_right (by norm_num) hα0
        nlinarith
      dsimp only
      rw [this]; simp
  unfold newSite
  rw [sum_legs]
  have hch : ∀ U x, change exCell eig (exState v) U k x 1 = 0 := fun U x => by
    unfold change
    refine Finset.sum_eq_zero (fun z hz => ?_)
    rw [hxinv z (by simpa [exCell, hk] using hz), mul_zero]
  have h4 : ∏ d, change exCell eig (exState v) (usOf b ((0, 0), d)) ((0, 0), d) (i d) (mk 1 0 1 0 d) = 0 :=
    Finset.prod_eq_zero (i := Dir.up) (Finset.mem_univ _) (hch _ _)
  rw [h4]
  simp [exState, mk]

theorem amp_unit (st : Weighted K) (s : Unit → Nat) : Spec.amp exPatch st s =
    ∑ i ∈ exCell.legs (0, 0), st.site (0, 0) (s ()) i * (((st.wt ((0, 0), .right) (i .right) (i .left) : ℝ) : K) * ((st.wt ((0, 0), .down) (i .down) (i .up) : ℝ) : K)) := by
  unfold Spec.amp
  refine Finset.sum_nbij' (fun i => i ()) (fun j _ => j) ?_ ?_ ?_ ?_ ?_
  · intro i hi
    exact Fintype.mem_piFinset.mp hi ()
  · intro j hj
    exact Fintype.mem_piFinset.mpr (fun _ => hj)
  · intro i _
    rfl
  · intro j _
    rfl
  · intro i _
    simp [exPatch]

/-- **C140** fails in general: with two values of the vertical bonds of relative weight `1e-8`, already one round removes the second from the state,
whatever eigen- and singular value decompositions are returned: an amplitude that was not zero is zero afterwards. All other hypotheses of
`C140_gauge_partial` hold. -/
theorem C140_gauge_violated : ∃ (g : Cell) (st : Weighted K), Spec.Tiling g ∧ Spec.Diagonal g st.wt ∧ Spec.Shared g st.wt ∧
    (∀ c ∈ g.keys, ∃ s < g.phys c, ∃ i ∈ g.legs c, st.site c s i ≠ 0) ∧
    ∃ (P : Spec.Patch g Unit) (s : Unit → Nat), (∀ v, s v < g.phys (P.at' v)) ∧ Spec.amp P st s ≠ 0 ∧
      ∀ (eig : Eigh K) (svd : Svd K) (tol : ℝ), Spec.IsEigh eig → Spec.IsSvd svd → ∃ res, gauge g eig svd tol 2 st = some res ∧ Spec.amp P res s = 0 := by
  refine ⟨exCell, exState small, exTiling, exDiag _, exShared _, ?_, exPatch, fun _ => 1, fun _ => by simp [exCell], ?_, ?_⟩
  · intro c _
    exact ⟨0, by simp [exCell], mk 0 0 0 0, Fintype.mem_piFinset.mpr (fun d => by cases d <;> simp [mk, exCell]), by simp [exState, mk, small]⟩
  · rw [amp_unit, sum_legs]
    simp [exState, mk, small]
  · intro eig svd tol he hs
    obtain ⟨st', ok, -⟩ := round_ok (eig := eig) (st := scaled exCell (exState (small : Nat → K))) exTiling hs
    refine ⟨st', ?_, ?_⟩
    · unfold gauge
      simp only [loop, ok, Option.bind_eq_bind, Option.bind_some]
      split <;> rfl
    · unfold round at ok
      split at ok
      · cases ok
        rw [amp_unit]
        refine Finset.sum_eq_zero (fun i _ => ?_)
        dsimp only
        rw [small_lost he, zero_mul]
      · cases ok

/-! ### No eigenvalue is cut -/

/-- A multiple of the identity has one eigenvalue only. -/
theorem eig_const {eig : Eigh K} (he : Spec.IsEigh eig) {n : Nat} {M : Mat K} {α : ℝ} (hM : ∀ x < n, ∀ y < n, M x y = if x = y then ((α : ℝ) : K) else 0) {k : Nat} (hk : k < n) :
    (eig n M).1 k = α := by
  obtain ⟨hu, hev, -⟩ := he n M (fun x hx y hy => by
    rw [hM x hx y hy, hM y hy x hx]
    by_cases h : x = y
    · rw [if_pos h, if_pos h.symm]; exact (RCLike.conj_ofReal _).symm
    · rw [if_neg h, if_neg (Ne.symm h), star_zero])
  let U : Matrix (Fin n) (Fin n) K := toM n (eig n M).2
  have h1 : U * U.conjTranspose = 1 := by
    ext x y
    rw [Matrix.mul_apply, Matrix.one_apply]
    have := hu x x.2 y y.2
    rw [Finset.sum_range] at this
    simp only [Fin.ext_iff]
    exact this
  have h1' : U.conjTranspose * U = 1 := mul_eq_one_comm.mp h1
  have h2 := congrFun (congrFun h1' ⟨k, hk⟩) ⟨k, hk⟩
  rw [Matrix.mul_apply, Matrix.one_apply_eq] at h2
  have : ∃ x : Fin n, U x ⟨k, hk⟩ ≠ 0 := by
    by_contra hcon
    push Not at hcon
    simp [hcon] at h2
  obtain ⟨x, hx⟩ := this
  have h3 := hev x x.2 k hk
  rw [Finset.sum_congr rfl (fun y hy => by rw [hM x x.2 y (Finset.mem_range.mp hy)])] at h3
  simp only [ite_mul, zero_mul, Finset.sum_ite_eq, Finset.mem_range, x.2, if_true] at h3
  exact_mod_cast (mul_right_cancel₀ hx h3).symm

theorem regular_of_const {eig : Eigh K} (he : Spec.IsEigh eig) {g : Cell} (ht : Spec.Tiling g) {st : Weighted K}
    (h : ∀ c ∈ g.keys, ∀ d, ∃ γ : ℝ, 0 < γ ∧ 0 < g.dim c d ∧ ∀ x < g.dim c d, ∀ y < g.dim c d, gram g st (c, d) x y = if x = y then ((γ : ℝ) : K) else 0) : Spec.Regular g eig st := by
  intro c hc d i hi
  obtain ⟨γ, hγ, hn, hg⟩ := h c hc d
  have hv : g.vts c = c := ht.fix c hc
  have hN : 0 < matMax (g.dim c d) (gram g st (c, d)) := matMax_pos hn hn (by rw [hg 0 hn 0 hn]; simpa using hγ.ne')
  have hM : ∀ x < g.dim c d, ∀ y < g.dim c d, eigArg g st (c, d) x y = if x = y then (((-(γ / matMax (g.dim c d) (gram g st (c, d)))) : ℝ) : K) else 0 := fun x hx y hy => by
    unfold eigArg
    simp only [hv]
    rw [hg x hx y hy]
    split
    · push_cast; rfl
    · simp
  have e : ∀ j < g.dim c d, (spec g eig st (c, d)).1 j = γ / matMax (g.dim c d) (gram g st (c, d)) := fun j hj => by
    simp only [spec, hv]
    rw [eig_const he hM hj, _root_.neg_neg]
  rw [e i hi, e 0 hn, div_self (div_pos hγ hN).ne']
  exact ⟨div_pos hγ hN, by norm_num⟩

/-- With equal amplitudes no eigenvalue is cut. -/
theorem regular_one {eig : Eigh K} (he : Spec.IsEigh eig) : Spec.Regular exCell eig (scaled exCell (exState (fun _ => (1 : K)))) := by
  obtain ⟨m, hm, e⟩ := exScaled (K := K) (fun _ => 1) one_ne_zero
  rw [e]
  have hs : (1 : K) / ((m : ℝ) : K) * star ((1 : K) / ((m : ℝ) : K)) = (((1 / m ^ 2) : ℝ) : K) := by
    have : star ((m : ℝ) : K) = ((m : ℝ) : K) := RCLike.conj_ofReal _
    rw [star_div₀, star_one, this]
    push_cast
    ring
  refine regular_of_const he exTiling (fun c _ d => ?_)
  cases d with
  | up =>
    refine ⟨1 / m ^ 2, by positivity, by simp [exCell], fun x hx y hy => ?_⟩
    rw [gram_up _ _ hx hy, hs]
  | down =>
    refine ⟨1 / m ^ 2, by positivity, by simp [exCell], fun x hx y hy => ?_⟩
    rw [gram_down _ _ hx hy, hs]
  | left =>
    refine ⟨1 / m ^ 2 + 1 / m ^ 2, by positivity, by simp [exCell], fun x hx y hy => ?_⟩
    have h1 : x = 0 := by simpa [exCell] using hx
    have h2 : y = 0 := by simpa [exCell] using hy
    subst h1 h2
    rw [gram_left, hs]
    push_cast
    rfl
  | right =>
    refine ⟨1 / m ^ 2 + 1 / m ^ 2, by positivity, by simp [exCell], fun x hx y hy => ?_⟩
    have h1 : x = 0 := by simpa [exCell] using hx
    have h2 : y = 0 := by simpa [exCell] using hy
    subst h1 h2
    rw [gram_right, hs]
    push_cast
    rfl

/-- All hypotheses of `C140_gauge_partial` are met by a state with entangled vertical bonds; its amplitudes are kept. -/
example : ∃ (eig : Eigh ℂ) (svd : Svd ℂ) (res : Weighted ℂ) (f : Vertex → ℝ), gauge exCell eig svd 0 2 (exState (fun _ => 1)) = some res ∧
    Spec.amp exPatch res (fun _ => 1) * ((f (0, 0) : ℝ) : ℂ) = 1 := by
  obtain ⟨eig, he⟩ := exists_eigh (K := ℂ)
  obtain ⟨svd, hs⟩ := exists_svd (K := ℂ)
  obtain ⟨res, n, ok, hn, -, -, -, -, -, h⟩ := C140_gauge_partial (tol := 0) (maxIter := 2) (st := exState (fun _ => (1 : ℂ))) exTiling he hs (exDiag _) (exShared _)
    (fun c _ => ⟨0, by simp [exCell], mk 0 0 0 0, Fintype.mem_piFinset.mpr (fun d => by cases d <;> simp [mk, exCell]), by simp [exState, mk]⟩)
  obtain ⟨f, -, hf⟩ := h (fun m hm st1 hv => by
    have : m = 0 := by omega
    subst this
    cases hv
    exact regular_one he)
  refine ⟨eig, svd, res, f, ok, ?_⟩
  have := hf Unit exPatch (fun _ => 1)
  rw [amp_unit (exState (fun _ => (1 : ℂ))), sum_legs] at this
  simpa [exState, mk, exPatch] using this

end Verif.Gauge
