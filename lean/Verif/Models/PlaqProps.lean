import Verif.Models.PlaqModel
import Verif.Models.Product
import Verif.Energy.Product
/-
C106. `energy_2x2_4site` of `HB` returns four times, that of `COUPLEDCHAINS` half of the energy per site.
-/
namespace Verif.Models
open Tensor Ctm Ctm.Spec Spec Su2 Su2.Spec
open Energy (at8)
open scoped Matrix

namespace Spec

/-- The entries of an operator on two spins by numbers. -/
noncomputable def entry {p : Nat} (H : Op2 p) (a b a' b' : Nat) : ℂ :=
  if h : (a < p ∧ b < p) ∧ (a' < p ∧ b' < p) then H (⟨a, h.1.1⟩, ⟨b, h.1.2⟩) (⟨a', h.2.1⟩, ⟨b', h.2.2⟩) else 0

/-- The expectation value of an operator on the sites `m` and `n` of the plaquette with the density matrix `r`; ket indices first. -/
noncomputable def plaq {p : Nat} (r : Tensor ℂ) (m n : Nat) (H : Op2 p) : ℂ :=
  sumIdx [p, p, p, p] (fun s => sumIdx [p, p, p, p] (fun t => r.val (s ++ t) * Energy.Spec.onBond m n (entry H) t s))

/-- The density matrices of neighbouring plaquettes agree on the bonds they share. -/
structure Agree (p : Nat) (st : State ℂ) (r : Coord → Tensor ℂ) : Prop where
  down : ∀ c ∈ st.keys, ∀ H : Op2 p, plaq (r c) 2 3 H = plaq (r (st.vts (c.1, c.2 + 1))) 0 1 H
  right : ∀ c ∈ st.keys, ∀ H : Op2 p, plaq (r c) 1 3 H = plaq (r (st.vts (c.1 + 1, c.2))) 0 2 H

/-- The energy per site: every site owns the bonds to the right and down, `r c` is the density matrix of the plaquette below and right of `c`. -/
noncomputable def plaqEnergy {p : Nat} (keys : List Coord) (r : Coord → Tensor ℂ) (Hx Hy : Op2 p) : ℂ :=
  (keys.map fun c => plaq (r c) 0 1 Hx + plaq (r c) 0 2 Hy).sum / (keys.length : ℂ)

/-- The cell of two by two sites with periodic tiling. -/
structure TwoByTwo (st : State ℂ) : Prop where
  keys : st.keys.Perm [(0, 0), (1, 0), (0, 1), (1, 1)]
  vts : ∀ c, st.vts c = (c.1 % 2, c.2 % 2)

end Spec

/-! ### Operators on a plaquette, any spin -/

structure Is8 (p : Nat) (T : Tensor ℂ) (f : Nat → Nat → Nat → Nat → Nat → Nat → Nat → Nat → ℂ) : Prop where
  shape : T.shape = [p, p, p, p, p, p, p, p]
  val : ∀ i j k l a b c d, i < p → j < p → k < p → l < p → a < p → b < p → c < p → d < p → T.val [i, j, k, l, a, b, c, d] = f i j k l a b c d

theorem idP_val (p : Nat) : ∃ T, idP p = some T ∧ T.shape = [p, p, p, p] ∧ ∀ a b c d, a < p → b < p → c < p → d < p → T.val [a, b, c, d] = if a = c ∧ b = d then 1 else 0 := by
  refine ⟨_, by rw [idP, view, if_pos (by simp; ring)], rfl, fun a b c d ha hb hc hd => ?_⟩
  have e : ravel [p, p, p, p] [a, b, c, d] = ravel [p * p, p * p] [a * p + b, c * p + d] := by simp [ravel]; ring
  have h1 : a * p + b < p * p := pair_lt ⟨a, ha⟩ ⟨b, hb⟩
  have h2 : c * p + d < p * p := pair_lt ⟨c, hc⟩ ⟨d, hd⟩
  simp only [e]
  rw [unravel_ravel (.cons h1 (.cons h2 .nil))]
  simp only [List.getD_cons_zero, List.getD_cons_succ]
  refine if_congr ⟨fun h => ?_, fun h => by rw [h.1, h.2]⟩ rfl rfl
  have q1 := pair_div ⟨a, ha⟩ ⟨b, hb⟩
  have q2 := pair_div ⟨c, hc⟩ ⟨d, hd⟩
  have q3 := pair_mod ⟨a, ha⟩ ⟨b, hb⟩
  have q4 := pair_mod ⟨c, hc⟩ ⟨d, hd⟩
  simp only at q1 q2 q3 q4
  rw [h] at q1 q3
  exact ⟨q1.symm.trans q2, q3.symm.trans q4⟩

/-- The operator on two sites as a function of the eight indices. -/
noncomputable def on {p : Nat} (m n : Nat) (H : Op2 p) (i j k l a b c d : Nat) : ℂ := Energy.Spec.onBond m n (entry H) [a, b, c, d] [i, j, k, l]

theorem entry_T {p : Nat} {H : Op2 p} (hT : Hᵀ = H) (a b a' b' : Nat) : entry H a b a' b' = entry H a' b' a b := by
  unfold entry
  by_cases h : (a < p ∧ b < p) ∧ (a' < p ∧ b' < p)
  · rw [dif_pos h, dif_pos ⟨h.2, h.1⟩]
    exact (congrFun (congrFun hT _) _).symm
  · rw [dif_neg h, dif_neg (fun q => h ⟨q.2, q.1⟩)]

theorem pairOpP_val {p : Nat} {h : Tensor ℂ} {H : Op2 p} (hh : Is4 p h H) (hT : Hᵀ = H) : ∃ T, pairOpP p h = some T ∧ Is8 p T (on 0 1 H) := by
  obtain ⟨I, eI, sI, vI⟩ := idP_val p
  obtain ⟨T, e, s, v⟩ := einsum_ok (fun _ => p) [(h, [0, 1, 4, 5]), (I, [2, 3, 6, 7])] [0, 1, 2, 3, 4, 5, 6, 7] (by simp [hh.shape, sI]) (by decide) (by simp)
  refine ⟨T, by simp only [pairOpP, eI, Option.bind_eq_bind, Option.bind_some, e], s, fun i j k l a b c d hi hj hk hl ha hb hc hd => ?_⟩
  have hv := v (at8 i j k l a b c d) (by
    intro n hn
    simp only [List.mem_cons, List.not_mem_nil, or_false] at hn
    rcases hn with rfl | rfl | rfl | rfl | rfl | rfl | rfl | rfl <;> assumption)
  rw [show ((([(h, [0, 1, 4, 5]), (I, [2, 3, 6, 7])] : List (Tensor ℂ × List Nat)).flatMap Prod.snd).dedup.filter (fun l => l ∉ [0, 1, 2, 3, 4, 5, 6, 7])) = [] from rfl] at hv
  refine (show T.val [i, j, k, l, a, b, c, d] = _ from hv).trans ?_
  have hH := hh.val ⟨i, hi⟩ ⟨j, hj⟩ ⟨a, ha⟩ ⟨b, hb⟩
  simp only at hH
  simp only [sumOver, termOf, List.map_cons, List.map_nil, at8, List.getD_cons_zero, List.getD_cons_succ, List.prod_cons, List.prod_nil, mul_one, vI k l c d hk hl hc hd, hH, mul_ite, mul_zero]
  have hE : H (⟨i, hi⟩, ⟨j, hj⟩) (⟨a, ha⟩, ⟨b, hb⟩) = entry H a b i j := by rw [entry_T hT, entry, dif_pos ⟨⟨hi, hj⟩, ⟨ha, hb⟩⟩]
  rw [hE]
  simp [on, Energy.Spec.onBond, eq_comm]

def permFn (q : List Nat) (f : Nat → Nat → Nat → Nat → Nat → Nat → Nat → Nat → ℂ) (i j k l a b c d : Nat) : ℂ :=
  let x := at8 i j k l a b c d
  f (x (q.idxOf 0)) (x (q.idxOf 1)) (x (q.idxOf 2)) (x (q.idxOf 3)) (x (q.idxOf 4)) (x (q.idxOf 5)) (x (q.idxOf 6)) (x (q.idxOf 7))

theorem perm8 {p : Nat} {T : Tensor ℂ} {f} (h : Is8 p T f) (q : List Nat) (hp : q.Perm [0, 1, 2, 3, 4, 5, 6, 7]) : ∃ T', permute q T = some T' ∧ Is8 p T' (permFn q f) := by
  have hl : q.length = 8 := hp.length_eq
  have hm : ∀ x ∈ q, x < 8 := fun x hx => by
    have := hp.mem_iff.1 hx
    simp at this
    omega
  have h8 : T.shape.length = 8 := by rw [h.shape]; rfl
  refine ⟨_, by rw [permute, if_pos ⟨by rw [hl, h8], hp.nodup_iff.2 (by decide), by rw [h8]; exact hm⟩], ?_, ?_⟩
  · simp only [h.shape]
    refine Eq.trans (List.map_congr_left (g := fun _ => p) (fun x hx => ?_)) (by rw [List.map_const', hl]; rfl)
    have := hm x hx
    have : x = 0 ∨ x = 1 ∨ x = 2 ∨ x = 3 ∨ x = 4 ∨ x = 5 ∨ x = 6 ∨ x = 7 := by omega
    rcases this with rfl | rfl | rfl | rfl | rfl | rfl | rfl | rfl <;> rfl
  · intro i j k l a b c d hi hj hk hl' ha hb hc hd
    have hx : ∀ q < 8, at8 i j k l a b c d q < p := by
      intro q hq
      have : q = 0 ∨ q = 1 ∨ q = 2 ∨ q = 3 ∨ q = 4 ∨ q = 5 ∨ q = 6 ∨ q = 7 := by omega
      rcases this with rfl | rfl | rfl | rfl | rfl | rfl | rfl | rfl <;> assumption
    have hq : ∀ n < 8, q.idxOf n < 8 := by
      intro n hn
      rw [← hl]
      apply List.idxOf_lt_length_of_mem
      rw [hp.mem_iff]
      have : n = 0 ∨ n = 1 ∨ n = 2 ∨ n = 3 ∨ n = 4 ∨ n = 5 ∨ n = 6 ∨ n = 7 := by omega
      rcases this with rfl | rfl | rfl | rfl | rfl | rfl | rfl | rfl <;> decide
    simp only [h8]
    exact h.val _ _ _ _ _ _ _ _ (hx _ (hq 0 (by decide))) (hx _ (hq 1 (by decide))) (hx _ (hq 2 (by decide))) (hx _ (hq 3 (by decide)))
      (hx _ (hq 4 (by decide))) (hx _ (hq 5 (by decide))) (hx _ (hq 6 (by decide))) (hx _ (hq 7 (by decide)))

theorem Is8.congr {p : Nat} {T : Tensor ℂ} {f g} (h : Is8 p T f) (hfg : f = g) : Is8 p T g := hfg ▸ h

theorem sum8 {p : Nat} {X Y : Tensor ℂ} {f g} (hX : Is8 p X f) (hY : Is8 p Y g) : Is8 p (lin (List.replicate 8 p) [(1, X), (1, Y)]) (fun i j k l a b c d => f i j k l a b c d + g i j k l a b c d) := by
  refine ⟨rfl, fun i j k l a b c d hi hj hk hl ha hb hc hd => ?_⟩
  simp [lin, hX.val i j k l a b c d hi hj hk hl ha hb hc hd, hY.val i j k l a b c d hi hj hk hl ha hb hc hd]

theorem on_23 {p : Nat} (H : Op2 p) : permFn [2, 3, 0, 1, 6, 7, 4, 5] (on 0 1 H) = on 2 3 H := by
  funext i j k l a b c d
  simp [permFn, at8, on, Energy.Spec.onBond]

theorem on_02 {p : Nat} (H : Op2 p) : permFn [0, 2, 1, 3, 4, 6, 5, 7] (on 0 1 H) = on 0 2 H := by
  funext i j k l a b c d
  simp [permFn, at8, on, Energy.Spec.onBond]

theorem on_13 {p : Nat} (H : Op2 p) : permFn [2, 0, 3, 1, 6, 4, 7, 5] (on 0 1 H) = on 1 3 H := by
  funext i j k l a b c d
  simp [permFn, at8, on, Energy.Spec.onBond]

theorem hpH_ok {p : Nat} {h : Tensor ℂ} {H : Op2 p} (hh : Is4 p h H) (hT : Hᵀ = H) : ∃ T, hpH p h = some T ∧ Is8 p T (fun i j k l a b c d => on 0 1 H i j k l a b c d + on 2 3 H i j k l a b c d) := by
  obtain ⟨X, e1, q1⟩ := pairOpP_val hh hT
  obtain ⟨Y, e2, q2⟩ := perm8 q1 [2, 3, 0, 1, 6, 7, 4, 5] (by decide)
  rw [on_23] at q2
  exact ⟨_, by simp only [hpH, e1, e2, Option.bind_eq_bind, Option.bind_some]; rfl, sum8 q1 q2⟩

theorem hpV_ok {p : Nat} {h : Tensor ℂ} {H : Op2 p} (hh : Is4 p h H) (hT : Hᵀ = H) : ∃ T, hpV p h = some T ∧ Is8 p T (fun i j k l a b c d => on 0 2 H i j k l a b c d + on 1 3 H i j k l a b c d) := by
  obtain ⟨X, e1, q1⟩ := pairOpP_val hh hT
  obtain ⟨Y, e2, q2⟩ := perm8 q1 [0, 2, 1, 3, 4, 6, 5, 7] (by decide)
  obtain ⟨Z, e3, q3⟩ := perm8 q1 [2, 0, 3, 1, 6, 4, 7, 5] (by decide)
  rw [on_02] at q2
  rw [on_13] at q3
  exact ⟨_, by simp only [hpV, e1, e2, e3, Option.bind_eq_bind, Option.bind_some]; rfl, sum8 q2 q3⟩

theorem full_on {p : Nat} {r h : Tensor ℂ} {m n m' n' : Nat} {H G : Op2 p} (hr : r.shape = [p, p, p, p, p, p, p, p]) (hh : Is8 p h (fun i j k l a b c d => on m n H i j k l a b c d + on m' n' G i j k l a b c d)) :
    Energy.full r h = some (plaq r m n H + plaq r m' n' G) := by
  obtain ⟨R, e, -, v⟩ := einsum_ok (fun _ => p) [(r, [0, 1, 2, 3, 4, 5, 6, 7]), (h, [0, 1, 2, 3, 4, 5, 6, 7])] [] (by simp [hr, hh.shape]) (by decide) (by simp)
  have hv := v (fun _ => 0) (by simp)
  rw [List.map_nil] at hv
  simp only [Energy.full, e, Option.bind_eq_bind, Option.bind_some, Option.pure_def, hv]
  have hd : ([0, 1, 2, 3, 4, 5, 6, 7] ++ ([0, 1, 2, 3, 4, 5, 6, 7] ++ ([] : List Nat))).dedup.filter (fun l => decide (l ∉ ([] : List Nat))) = [0, 1, 2, 3, 4, 5, 6, 7] := by decide
  rw [List.flatMap_cons, List.flatMap_cons, List.flatMap_nil, hd]
  refine congrArg some ?_
  refine Eq.trans (b := sumIdx [p, p, p, p, p, p, p, p] (fun idx => r.val idx * h.val idx)) ?_ ?_
  · have := Rdm.sumIdx_map (fun _ => p) [0, 1, 2, 3, 4, 5, 6, 7] (by decide) (fun idx => r.val idx * h.val idx) (fun _ => 0)
    rw [show [p, p, p, p, p, p, p, p] = [0, 1, 2, 3, 4, 5, 6, 7].map (fun _ => p) from rfl, this]
    refine congrArg (fun f => sumOver (fun _ => p) [0, 1, 2, 3, 4, 5, 6, 7] f (fun _ => 0)) (funext fun σ => ?_)
    simp only [termOf, List.map_cons, List.map_nil, List.prod_cons, List.prod_nil, mul_one]
  · have hs : plaq r m n H + plaq r m' n' G = sumIdx [p, p, p, p] (fun s => sumIdx [p, p, p, p] (fun t => r.val (s ++ t) * (Energy.Spec.onBond m n (entry H) t s + Energy.Spec.onBond m' n' (entry G) t s))) := by
      simp only [plaq, mul_add, Energy.sumIdx_add']
    rw [hs]
    simp only [sumIdx, List.cons_append, List.nil_append]
    refine Finset.sum_congr rfl fun i hi => Finset.sum_congr rfl fun j hj => Finset.sum_congr rfl fun k hk => Finset.sum_congr rfl fun l hl =>
      Finset.sum_congr rfl fun a ha => Finset.sum_congr rfl fun b hb => Finset.sum_congr rfl fun c hc => Finset.sum_congr rfl fun d hd => ?_
    rw [Finset.mem_range] at hi hj hk hl ha hb hc hd
    rw [hh.val i j k l a b c d hi hj hk hl ha hb hc hd]
    rfl

theorem rdm_shape (eigh : Tensor ℂ → List ℝ × Tensor ℂ) {D : Dims} {st : State ℂ} {env : Env ℂ} {p : Nat} (hp0 : 0 < p) (hs : FitsState D st) (he : FitsEnv D st env) (hp : ∀ c, D.p c = p)
    {c : Coord} {R : Tensor ℂ} (h : Rdm.rdm2x2 eigh false st env c [0, 1, 2, 3] = .ok R) : R.shape = [p, p, p, p, p, p, p, p] := by
  obtain ⟨e, s, h1, h0, h2⟩ := Rdm.plaq_ok hs he c
  obtain ⟨R4, e4, q4⟩ := Rdm.oe2x2_denotes _ e s h2 [0, 1, 2, 3] (by decide)
  rw [Rdm.rdm2x2_eq eigh false h1 (by decide) e4] at h
  have h4 : R4.shape = [p, p, p, p] ++ [p, p, p, p] := by
    rw [q4.shape, singles_gdim]
    simp [Rdm.outLabels, Rdm.siteSet, List.range_succ, Rdm.Spec.dimsP, Rdm.Spec.physP, hp]
  obtain ⟨Y, -, -, -, -, -, h6, h7⟩ := Rdm.symRdm_eq eigh false (s := [p, p, p, p]) (by simp [hp0]) h4 (by simp)
  by_cases h8 : RCLike.re (Matrix.trace Y) = 0
  · rw [h6 h8] at h; cases h
  · obtain ⟨R', e', s', -⟩ := h7 h8
    rw [h] at e'
    cases e'
    exact s'

section
variable {p : Nat} {D : Dims} {st : State ℂ} {env : Env ℂ} {r : Coord → Tensor ℂ}

theorem keys4 (h2 : TwoByTwo st) : (0, 0) ∈ st.keys ∧ (1, 0) ∈ st.keys ∧ (0, 1) ∈ st.keys ∧ (1, 1) ∈ st.keys := by
  refine ⟨?_, ?_, ?_, ?_⟩ <;> rw [h2.keys.mem_iff] <;> simp

theorem cell4_ok (eigh : Tensor ℂ → List ℝ × Tensor ℂ) (h2 : TwoByTwo st) (hr : ∀ c ∈ st.keys, Rdm.rdm2x2 eigh false st env c [0, 1, 2, 3] = .ok (r c) ∧ (r c).shape = [p, p, p, p, p, p, p, p])
    (ha : Agree p st r) {hx hy hH hV : Tensor ℂ} {Hx Hy : Op2 p} (tx : Hxᵀ = Hx) (ty : Hyᵀ = Hy) (ix : Is4 p hx Hx) (iy : Is4 p hy Hy) (eH : hpH p hx = some hH) (eV : hpV p hy = some hV) :
    cell4 eigh hH hV st env = .ok (4 * plaqEnergy st.keys r Hx Hy) := by
  obtain ⟨_, e1, q1⟩ := hpH_ok ix tx
  obtain ⟨_, e2, q2⟩ := hpV_ok iy ty
  rw [eH] at e1
  rw [eV] at e2
  injection e1 with e1
  injection e2 with e2
  rw [← e1] at q1
  rw [← e2] at q2
  obtain ⟨k00, k10, k01, k11⟩ := keys4 h2
  have d00 := ha.down _ k00 Hx
  have d11 := ha.down _ k11 Hx
  have d10 := ha.right _ k10 Hy
  have d01 := ha.right _ k01 Hy
  rw [h2.vts] at d00 d11 d10 d01
  norm_num at d00 d11 d10 d01
  have hlen : st.keys.length = 4 := h2.keys.length_eq
  have hsum : (st.keys.map fun c => plaq (r c) 0 1 Hx + plaq (r c) 0 2 Hy).sum = (([(0, 0), (1, 0), (0, 1), (1, 1)] : List Coord).map fun c => plaq (r c) 0 1 Hx + plaq (r c) 0 2 Hy).sum :=
    (h2.keys.map _).sum_eq
  rw [cell4, (hr _ k00).1, Energy.bindOk, (hr _ k10).1, Energy.bindOk, (hr _ k01).1, Energy.bindOk, (hr _ k11).1, Energy.bindOk, full_on (hr _ k00).2 q1, C4v.lift_some, full_on (hr _ k10).2 q2, C4v.lift_some,
    full_on (hr _ k01).2 q2, C4v.lift_some, full_on (hr _ k11).2 q1, C4v.lift_some, plaqEnergy, hlen, hsum]
  simp only [pure, Except.pure, List.map_cons, List.map_nil, List.sum_cons, List.sum_nil, d00, d11, d10, d01]
  congr 1
  push_cast
  ring

section
variable (hp0 : 0 < p) (hs : FitsState D st) (he : FitsEnv D st env) (hp : ∀ c, D.p c = p)
include hp0 hs he hp

/-- C106. What `HB.energy_2x2_4site` returns: four times the energy per site. -/
theorem C106_heisenberg (eigh : Tensor ℂ → List ℝ × Tensor ℂ) (j k : ℝ) (h2 : TwoByTwo st) (hr : ∀ c ∈ st.keys, Rdm.rdm2x2 eigh false st env c [0, 1, 2, 3] = .ok (r c))
    (ha : Agree p st r) : hb4 eigh p j k st env = .ok (4 * plaqEnergy (p := p) st.keys r ((j : ℂ) • exchange p 1 1 1 + (k : ℂ) • exchange p 1 1 1 ^ 2) ((j : ℂ) • exchange p 1 1 1 + (k : ℂ) • exchange p 1 1 1 ^ 2)) := by
  obtain ⟨h, e, i⟩ := h2_ok p j k
  obtain ⟨hH, e1, -⟩ := hpH_ok i (h2_T p j k)
  obtain ⟨hV, e2, -⟩ := hpV_ok i (h2_T p j k)
  rw [hb4, e, C4v.lift_some, e1, C4v.lift_some, e2, C4v.lift_some]
  exact cell4_ok eigh h2 (fun c hc => ⟨hr c hc, rdm_shape eigh hp0 hs he hp (hr c hc)⟩) ha (h2_T p j k) (h2_T p j k) i i e1 e2

/-- C106. What `COUPLEDCHAINS.energy_2x2_4site` returns: half of the energy per site. -/
theorem C106_chains (eigh : Tensor ℂ → List ℝ × Tensor ℂ) (jx jy kx ky : ℝ) (h2 : TwoByTwo st)
    (hr : ∀ c ∈ st.keys, Rdm.rdm2x2 eigh false st env c [0, 1, 2, 3] = .ok (r c)) (ha : Agree p st r) :
    chains4 eigh p jx jy kx ky st env = .ok (1 / 2 * plaqEnergy (p := p) st.keys r ((jx : ℂ) • exchange p 1 1 1 + (kx : ℂ) • exchange p 1 1 1 ^ 2) ((jy : ℂ) • exchange p 1 1 1 + (ky : ℂ) • exchange p 1 1 1 ^ 2)) := by
  obtain ⟨h, e, i⟩ := h2_ok p jx kx
  obtain ⟨h', e', i'⟩ := h2_ok p jy ky
  obtain ⟨hH, e1, -⟩ := hpH_ok i (h2_T p jx kx)
  obtain ⟨hV, e2, -⟩ := hpV_ok i' (h2_T p jy ky)
  rw [chains4, e, C4v.lift_some, e', C4v.lift_some, e1, C4v.lift_some, e2, C4v.lift_some, cell4_ok eigh h2 (fun c hc => ⟨hr c hc, rdm_shape eigh hp0 hs he hp (hr c hc)⟩) ha (h2_T p jx kx) (h2_T p jy ky) i i' e1 e2, Energy.bindOk]
  simp only [pure, Except.pure]
  congr 1
  ring
end
end

end Verif.Models
