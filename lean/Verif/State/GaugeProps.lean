import Verif.State.GaugeLemmas
/-
C140: `gauge` changes the bases of the bonds of a weighted state, not its wavefunction.
-/
namespace Verif.Gauge
open Verif.Lattice (Vertex)
open Verif.State (Mat)
variable {K : Type} [RCLike K] {g : Cell}

theorem toM_svd {svd : Svd K} (hs : Spec.IsSvd svd) (n : Nat) (M : Mat K) :
    toM n M = toM n (svd n M).1 * Matrix.diagonal (fun i : Fin n => (((svd n M).2.1 i : ℝ) : K)) * toM n (svd n M).2.2 := by
  ext x y
  rw [Matrix.mul_apply]
  simp only [Matrix.mul_diagonal, toM, Matrix.of_apply]
  rw [(hs n M).1 x x.2 y y.2, Finset.sum_range]

theorem toM_bond {eig : Eigh K} {st : Weighted K} {k : Key} :
    toM (g.dim k.1 k.2) (bondMat g eig st k) =
      (toM (g.dim k.1 k.2) (gX g eig st k)).transpose * toM (g.dim k.1 k.2) (fun x y => ((st.wt k x y : ℝ) : K)) * toM (g.dim k.1 k.2) (gX g eig st (g.rev k)) := by
  ext x y
  rw [Matrix.mul_apply]
  simp only [Matrix.mul_apply, toM, Matrix.of_apply, Matrix.transpose_apply, bondMat, Finset.sum_mul, Finset.sum_range]
  exact Finset.sum_comm

theorem toM_change {eig : Eigh K} {st : Weighted K} {k : Key} (U : Mat K) :
    toM (g.dim k.1 k.2) (change g eig st U k) = toM (g.dim k.1 k.2) U * toM (g.dim k.1 k.2) (gXinv g eig st k) := by
  ext x y
  rw [Matrix.mul_apply]
  simp only [toM, Matrix.of_apply, change]
  rw [Finset.sum_range]

theorem toM_diag (n : Nat) (S : Nat → ℝ) : toM n (fun x y => (((if x = y then S x else 0 : ℝ)) : K)) = Matrix.diagonal (fun i : Fin n => ((S i : ℝ) : K)) := by
  ext x y
  by_cases h : x = y
  · subst h; simp [toM]
  · have : (x : Nat) ≠ y := fun e => h (Fin.ext e)
    simp [toM, h, this]

theorem dim_rev (ht : Spec.Tiling g) {k : Key} (hk : k.1 ∈ g.keys) : g.dim (g.rev k).1 (g.rev k).2 = g.dim k.1 k.2 := (ht.dims k.1 hk k.2).symm

/-- A bond in the new bases is the bond in the old ones. -/
theorem bond_same {eig : Eigh K} {svd : Svd K} {st : Weighted K} (ht : Spec.Tiling g) (he : Spec.IsEigh eig) (hs : Spec.IsSvd svd) (hd : Spec.Diagonal g st.wt)
    (hsh : Spec.Shared g st.wt) (hr : Spec.Regular g eig st) {k : Key} (hk : k.1 ∈ g.keys) {a b : Nat} (ha : a < g.dim k.1 k.2) (hb : b < g.dim k.1 k.2) :
    ∑ x ∈ Finset.range (g.dim k.1 k.2), ∑ y ∈ Finset.range (g.dim k.1 k.2),
      change g eig st (usOf (allBonds g eig svd st) k) k x a * ((wtOf (allBonds g eig svd st) k x y : ℝ) : K) *
        change g eig st (usOf (allBonds g eig svd st) (g.rev k)) (g.rev k) y b = ((st.wt k a b : ℝ) : K) := by
  have key : (toM (g.dim k.1 k.2) (change g eig st (usOf (allBonds g eig svd st) k) k)).transpose *
      toM (g.dim k.1 k.2) (fun x y => ((wtOf (allBonds g eig svd st) k x y : ℝ) : K)) *
      toM (g.dim k.1 k.2) (change g eig st (usOf (allBonds g eig svd st) (g.rev k)) (g.rev k)) = toM (g.dim k.1 k.2) (fun x y => ((st.wt k x y : ℝ) : K)) := by
    have hk' := rev_mem ht k
    have x1 := x_xinv ht he hd hr hk
    have x2 := x_xinv ht he hd hr hk'
    have c1 := toM_change (g := g) (eig := eig) (st := st) (k := k)
    have c2 := toM_change (g := g) (eig := eig) (st := st) (k := g.rev k)
    rw [dim_rev ht hk] at x2 c2
    rw [c1, c2]
    rcases allBonds_linked ht eig svd st hk with h | h
    · simp only [usOf, wtOf, h.1, h.2, Option.map_some, Option.getD_some]
      rw [toM_diag]
      exact link_mat x1 x2 (toM_bond.symm.trans (toM_svd hs _ _))
    · have h2 := h.2
      rw [rev_rev ht hk] at h2
      have h1 := h.1
      rw [dim_rev ht hk] at h1 h2
      simp only [usOf, wtOf, h1, h2, Option.map_some, Option.getD_some]
      rw [toM_diag]
      have b2 := toM_bond (g := g) (eig := eig) (st := st) (k := g.rev k)
      rw [dim_rev ht hk, rev_rev ht hk, toM_svd hs] at b2
      have := link_mat x2 x1 b2.symm
      have t := congrArg Matrix.transpose this
      have e : (toM (g.dim k.1 k.2) (fun x y => ((st.wt (g.rev k) x y : ℝ) : K))).transpose = toM (g.dim k.1 k.2) (fun x y => ((st.wt k x y : ℝ) : K)) := by
        ext x y
        simp only [toM, Matrix.transpose_apply, Matrix.of_apply]
        rw [hsh k.1 hk k.2 x y]
      rw [e] at t
      rw [← t]
      simp only [Matrix.transpose_mul, Matrix.transpose_transpose, Matrix.diagonal_transpose, Matrix.mul_assoc]
      rfl
  have h := congrFun (congrFun key ⟨a, ha⟩) ⟨b, hb⟩
  simp only [Matrix.mul_apply, toM, Matrix.of_apply, Matrix.transpose_apply, Finset.sum_mul] at h
  rw [← h, Finset.sum_comm, Finset.sum_range]
  refine Finset.sum_congr rfl (fun y _ => ?_)
  rw [Finset.sum_range]

/-- One round succeeds and keeps the amplitudes. -/
theorem round_ok {eig : Eigh K} {svd : Svd K} {st : Weighted K} (ht : Spec.Tiling g) (hs : Spec.IsSvd svd) :
    ∃ st', round g eig svd st = some st' ∧ Spec.Diagonal g st'.wt ∧ Spec.Shared g st'.wt ∧ (∀ c ∈ g.keys, ∀ d x y, 0 ≤ st'.wt (c, d) x y) ∧
      (Spec.IsEigh eig → Spec.Diagonal g st.wt → Spec.Shared g st.wt → Spec.Regular g eig st →
        ∀ (V : Type) [Fintype V] [DecidableEq V] (P : Spec.Patch g V) (s : V → Nat), Spec.amp P st' s = Spec.amp P st s) := by
  have hsome : ∀ c ∈ g.keys, ∀ d, (allBonds g eig svd st (c, d)).isSome := fun c hc d => by
    rcases allBonds_linked ht eig svd st (k := (c, d)) hc with h | h
    · rw [h.1]; rfl
    · have := h.2
      rw [rev_rev ht (k := (c, d)) hc] at this
      rw [this]; rfl
  have hdims : ∀ c ∈ g.keys, ∀ d, g.dim c d = g.dim (g.rev (c, d)).1 d.neg := fun c hc d => ht.dims c hc d
  have hw : ∀ c ∈ g.keys, ∀ d, ∃ S : Nat → ℝ, (∀ x, 0 ≤ S x) ∧ wtOf (allBonds g eig svd st) (c, d) = (fun x y => if x = y then S x else 0) ∧
      wtOf (allBonds g eig svd st) (g.rev (c, d)) = (fun x y => if x = y then S x else 0) := fun c hc d => by
    rcases allBonds_linked ht eig svd st (k := (c, d)) hc with h | h
    · exact ⟨(svd (g.dim c d) (bondMat g eig st (c, d))).2.1, (hs _ _).2, by simp only [wtOf, h.1, Option.map_some, Option.getD_some], by simp only [wtOf, h.2, Option.map_some, Option.getD_some]⟩
    · have h2 := h.2
      rw [rev_rev ht (k := (c, d)) hc] at h2
      exact ⟨(svd (g.dim (g.rev (c, d)).1 (g.rev (c, d)).2) (bondMat g eig st (g.rev (c, d)))).2.1, (hs _ _).2, by simp only [wtOf, h2, Option.map_some, Option.getD_some], by simp only [wtOf, h.1, Option.map_some, Option.getD_some]⟩
  refine ⟨_, by unfold round; rw [if_pos ⟨hdims, hsome⟩], ?_, ?_, ?_, ?_⟩
  · intro c hc d x y hxy
    obtain ⟨S, -, e, -⟩ := hw c hc d
    simp only [e, if_neg hxy]
  · intro c hc d x y
    obtain ⟨S, -, e, e'⟩ := hw c hc d
    simp only [e, e']
    by_cases h : x = y
    · subst h; rfl
    · rw [if_neg h, if_neg (Ne.symm h)]
  · intro c hc d x y
    obtain ⟨S, h0, e, -⟩ := hw c hc d
    simp only [e]
    split
    · exact h0 _
    · exact le_rfl
  · intro he hd hsh hr V _ _ P s
    refine amp_change P st _ (fun k => change g eig st (usOf (allBonds g eig svd st) k) k) s ?_ ?_ ?_
    · intro c hc t i
      simp only [newSite, ht.fix c hc]
    · intro c hc a ha b hb
      have e := dim_rev ht (k := (c, .right)) hc
      change g.dim (g.rev (c, .right)).1 .left = g.dim c .right at e
      rw [e] at hb ⊢
      exact bond_same ht he hs hd hsh hr (k := (c, .right)) hc ha hb
    · intro c hc a ha b hb
      have e := dim_rev ht (k := (c, .down)) hc
      change g.dim (g.rev (c, .down)).1 .up = g.dim c .down at e
      rw [e] at hb ⊢
      exact bond_same ht he hs hd hsh hr (k := (c, .down)) hc ha hb

theorem visited_trans {eig : Eigh K} {svd : Svd K} {a b c : Weighted K} {n m : Nat} (h1 : Spec.Visited g eig svd a n b) (h2 : Spec.Visited g eig svd b m c) :
    Spec.Visited g eig svd a (n + m) c := by
  induction h2 with
  | start => exact h1
  | next _ hr ih => exact .next ih hr

theorem loop_ok {eig : Eigh K} {svd : Svd K} {tol : ℝ} (ht : Spec.Tiling g) (hs : Spec.IsSvd svd) : ∀ (n : Nat) (st : Weighted K),
    ∃ res m, loop g eig svd tol n st = some res ∧ m ≤ n ∧ Spec.Visited g eig svd st m res ∧ (0 < n → 0 < m) ∧
      (m < n → ∃ j prev, m = j + 1 ∧ Spec.Visited g eig svd st j prev ∧ round g eig svd prev = some res ∧ distW g res.wt prev.wt ≤ tol)
  | 0, st => ⟨st, 0, rfl, le_rfl, .start, by omega, by omega⟩
  | n + 1, st => by
    obtain ⟨st', ok, -⟩ := round_ok (eig := eig) (st := st) ht hs
    by_cases h : tol < distW g st'.wt st.wt
    · obtain ⟨res, m, hl, hm, hv, -, hstop⟩ := loop_ok (eig := eig) (tol := tol) ht hs n st'
      refine ⟨res, 1 + m, by simp only [loop, ok, Option.bind_eq_bind, Option.bind_some, if_pos h, hl], by omega, visited_trans (.next .start ok) hv, by omega, fun hlt => ?_⟩
      obtain ⟨j, prev, e, hp, hr, hdist⟩ := hstop (by omega)
      exact ⟨1 + j, prev, by omega, visited_trans (.next .start ok) hp, hr, hdist⟩
    · exact ⟨st', 1, by simp only [loop, ok, Option.bind_eq_bind, Option.bind_some, if_neg h], by omega, .next .start ok, by omega,
        fun _ => ⟨0, st, rfl, .start, ok, not_lt.mp h⟩⟩

theorem visited_same {eig : Eigh K} {svd : Svd K} {st res : Weighted K} {n : Nat} (ht : Spec.Tiling g) (he : Spec.IsEigh eig) (hs : Spec.IsSvd svd) (hd : Spec.Diagonal g st.wt)
    (hsh : Spec.Shared g st.wt) (h : Spec.Visited g eig svd st n res) :
    Spec.Diagonal g res.wt ∧ Spec.Shared g res.wt ∧ (0 < n → ∀ c ∈ g.keys, ∀ d x y, 0 ≤ res.wt (c, d) x y) ∧
      ((∀ m < n, ∀ st1, Spec.Visited g eig svd st m st1 → Spec.Regular g eig st1) →
        ∀ (V : Type) [Fintype V] [DecidableEq V] (P : Spec.Patch g V) (s : V → Nat), Spec.amp P res s = Spec.amp P st s) := by
  induction h with
  | start => exact ⟨hd, hsh, by omega, fun _ _ _ _ _ _ => rfl⟩
  | @next n st1 st2 hv hr ih =>
    obtain ⟨i1, i2, -, i4⟩ := ih
    obtain ⟨st', ok, h1, h2, h3, h4⟩ := round_ok (eig := eig) (st := st1) ht hs
    rw [hr] at ok
    cases ok
    refine ⟨h1, h2, fun _ => h3, fun hreg V _ _ P s => ?_⟩
    rw [h4 he i1 i2 (hreg n (by omega) _ hv) V P s]
    exact i4 (fun m hm => hreg m (by omega)) V P s

theorem amp_scaled {V : Type} [Fintype V] [DecidableEq V] (P : Spec.Patch g V) (st : Weighted K) (hm : ∀ c ∈ g.keys, siteMax g (st.site c) c ≠ 0) (s : V → Nat) :
    Spec.amp P (scaled g st) s * ∏ v, ((siteMax g (st.site (P.at' v)) (P.at' v) : ℝ) : K) = Spec.amp P st s := by
  unfold Spec.amp
  rw [Finset.sum_mul]
  refine Finset.sum_congr rfl (fun i _ => ?_)
  have : (∏ v, (scaled g st).site (P.at' v) (s v) (i v)) * ∏ v, ((siteMax g (st.site (P.at' v)) (P.at' v) : ℝ) : K) = ∏ v, st.site (P.at' v) (s v) (i v) := by
    rw [← Finset.prod_mul_distrib]
    refine Finset.prod_congr rfl (fun v _ => ?_)
    exact div_mul_cancel₀ _ (by rw [Ne, RCLike.ofReal_eq_zero]; exact hm _ (P.mem v))
  rw [← this]
  simp only [scaled]
  ring

theorem siteMax_pos {A : Nat → (Dir → Nat) → K} {c : Vertex} {s : Nat} {i : Dir → Nat} (hs : s < g.phys c) (hi : i ∈ g.legs c) (h : A s i ≠ 0) : siteMax g A c ≠ 0 := by
  unfold siteMax
  have : ‖A s i‖₊ ≤ (Finset.range (g.phys c) ×ˢ g.legs c).sup (fun x => ‖A x.1 x.2‖₊) :=
    Finset.le_sup (f := fun x : Nat × (Dir → Nat) => ‖A x.1 x.2‖₊) (b := (s, i)) (by simp [hs, hi])
  have h0 : 0 < ‖A s i‖₊ := by simpa using h
  have := lt_of_lt_of_le h0 this
  exact_mod_cast this.ne'

/-- **C140**, the part that holds: for every tiling, all sizes, every non-zero state with diagonal weights shared by both ends, every backend and every limit,
`gauge` returns. The weights are diagonal, shared and, after at least one round, non-negative. The number of rounds respects the limit, and if it is not reached the weights
changed by no more than the tolerance. If no eigenvalue was cut, all amplitudes on every periodic piece of the lattice are those of the given state,
up to one factor per site. -/
theorem C140_gauge_partial {eig : Eigh K} {svd : Svd K} {tol : ℝ} {maxIter : Nat} {st : Weighted K} (ht : Spec.Tiling g) (he : Spec.IsEigh eig) (hs : Spec.IsSvd svd)
    (hd : Spec.Diagonal g st.wt) (hsh : Spec.Shared g st.wt) (h0 : ∀ c ∈ g.keys, ∃ s < g.phys c, ∃ i ∈ g.legs c, st.site c s i ≠ 0) :
    ∃ res n, gauge g eig svd tol maxIter st = some res ∧ n ≤ maxIter - 1 ∧ Spec.Visited g eig svd (scaled g st) n res ∧
      (n < maxIter - 1 → ∃ j prev, n = j + 1 ∧ Spec.Visited g eig svd (scaled g st) j prev ∧ distW g res.wt prev.wt ≤ tol) ∧
      Spec.Diagonal g res.wt ∧ Spec.Shared g res.wt ∧ (2 ≤ maxIter → ∀ c ∈ g.keys, ∀ d x y, 0 ≤ res.wt (c, d) x y) ∧
      ((∀ m < n, ∀ st1, Spec.Visited g eig svd (scaled g st) m st1 → Spec.Regular g eig st1) →
        ∃ f : Vertex → ℝ, (∀ c ∈ g.keys, f c ≠ 0) ∧ ∀ (V : Type) [Fintype V] [DecidableEq V] (P : Spec.Patch g V) (s : V → Nat),
          Spec.amp P res s * ∏ v, ((f (P.at' v) : ℝ) : K) = Spec.amp P st s) := by
  obtain ⟨res, n, hl, hn, hv, hpos, hstop⟩ := loop_ok (eig := eig) (tol := tol) ht hs (maxIter - 1) (scaled g st)
  obtain ⟨h1, h2, h3, h4⟩ := visited_same ht he hs (st := scaled g st) hd hsh hv
  refine ⟨res, n, hl, hn, hv, fun h => ?_, h1, h2, fun h => h3 (hpos (Nat.sub_pos_of_lt h)), fun hreg => ?_⟩
  · obtain ⟨j, prev, a, b, -, c⟩ := hstop h
    exact ⟨j, prev, a, b, c⟩
  · have hm : ∀ c ∈ g.keys, siteMax g (st.site c) c ≠ 0 := fun c hc => by
      obtain ⟨s, hs', i, hi, hne⟩ := h0 c hc
      exact siteMax_pos hs' hi hne
    refine ⟨fun c => siteMax g (st.site c) c, hm, fun V _ _ P s => ?_⟩
    rw [h4 hreg V P s]
    exact amp_scaled P st hm s

end Verif.Gauge
