import Verif.Energy.Product
/-
C72: the energy of a single-site state with a rotated sublattice.
-/
namespace Verif.Energy
open Tensor Ctm Ctm.Spec

/-! ### Specification -/

namespace Spec

/-- `R A`: the rotation su2.py `BP_rot` applied to the physical index. -/
noncomputable def rotated (a : Tensor ℂ) : Tensor ℂ := ⟨a.shape, fun idx => match idx with
  | [] => 0
  | p :: rest => ∑ q : Fin 2, Su2.rotOp 2 (Fin.ofNat 2 p) q * a.val (q.val :: rest)⟩

/-- One tensor on every site. -/
def single (a : Tensor ℂ) : State ℂ := { keys := [(0, 0)], sites := fun _ => some a, vts := fun _ => (0, 0), lX := 1, lY := 1 }

/-- The checkerboard of `A` and `R A`, a cell with two sites. -/
noncomputable def checker (a : Tensor ℂ) : State ℂ :=
  { keys := [(0, 0), (1, 0)], sites := fun c => if c = (0, 0) then some a else some (rotated a), vts := fun c => ((c.1 + c.2) % 2, 0), lX := 2, lY := 1 }

/-- The environment of the single site on both sites. -/
def both (env : Env ℂ) : Env ℂ := { chi := env.chi, C := fun k => env.C ((0, 0), k.2), T := fun k => env.T ((0, 0), k.2) }

end Spec

/-! ### Rotations of some sites of a plaquette -/

def fb (b : Bool) (n : Nat) : Nat := if b then 1 - n else n
noncomputable def se (b : Bool) (n : Nat) : ℂ := if b then (-1) ^ n else 1

theorem fb_lt {b : Bool} {n : Nat} (h : n < 2) : fb b n < 2 := by unfold fb; split <;> omega
theorem se_sq (b : Bool) (n : Nat) : se b n * se b n = 1 := by
  cases b <;> simp [se, ← pow_add]
theorem se_star (b : Bool) (n : Nat) : star (se b n) = se b n := by
  cases b <;> simp [se]
theorem se_starRing (b : Bool) (n : Nat) : (starRingEnd ℂ) (se b n) = se b n := se_star b n

/-- The operator in the rotated frame of the sites with `fl x`. -/
noncomputable def rotO (fl : Nat → Bool) (O : List Nat → List Nat → ℂ) (t s : List Nat) : ℂ :=
  (se (fl 0) (t.getD 0 0) * se (fl 0) (s.getD 0 0)) * (se (fl 1) (t.getD 1 0) * se (fl 1) (s.getD 1 0)) * (se (fl 2) (t.getD 2 0) * se (fl 2) (s.getD 2 0)) *
    (se (fl 3) (t.getD 3 0) * se (fl 3) (s.getD 3 0)) *
    O [fb (fl 0) (t.getD 0 0), fb (fl 1) (t.getD 1 0), fb (fl 2) (t.getD 2 0), fb (fl 3) (t.getD 3 0)] [fb (fl 0) (s.getD 0 0), fb (fl 1) (s.getD 1 0), fb (fl 2) (s.getD 2 0), fb (fl 3) (s.getD 3 0)]

/-- `r'` is `r` with the sites `fl` rotated. -/
def RotOf (fl : Nat → Bool) (r r' : Tensor ℂ) : Prop := ∀ i j k l a b c d, i < 2 → j < 2 → k < 2 → l < 2 → a < 2 → b < 2 → c < 2 → d < 2 →
  r'.val [i, j, k, l, a, b, c, d] = (se (fl 0) i * se (fl 0) a) * (se (fl 1) j * se (fl 1) b) * (se (fl 2) k * se (fl 2) c) * (se (fl 3) l * se (fl 3) d) *
    r.val [fb (fl 0) i, fb (fl 1) j, fb (fl 2) k, fb (fl 3) l, fb (fl 0) a, fb (fl 1) b, fb (fl 2) c, fb (fl 3) d]

theorem sum_flip (b : Bool) (f : Nat → ℂ) : ∑ i ∈ Finset.range 2, f (fb b i) = ∑ i ∈ Finset.range 2, f i := by
  cases b <;> simp [fb, Finset.sum_range_succ, add_comm]

theorem sumIdx_flip (fl : Nat → Bool) (F : List Nat → ℂ) :
    sumIdx [2, 2, 2, 2] (fun s => F [fb (fl 0) (s.getD 0 0), fb (fl 1) (s.getD 1 0), fb (fl 2) (s.getD 2 0), fb (fl 3) (s.getD 3 0)]) = sumIdx [2, 2, 2, 2] F := by
  simp only [sumIdx, List.getD_cons_zero, List.getD_cons_succ]
  refine (sum_flip (fl 0) (fun i => ∑ j ∈ Finset.range 2, ∑ k ∈ Finset.range 2, ∑ l ∈ Finset.range 2, F [i, fb (fl 1) j, fb (fl 2) k, fb (fl 3) l])).trans ?_
  refine Finset.sum_congr rfl fun i _ => ?_
  refine (sum_flip (fl 1) (fun j => ∑ k ∈ Finset.range 2, ∑ l ∈ Finset.range 2, F [i, j, fb (fl 2) k, fb (fl 3) l])).trans ?_
  refine Finset.sum_congr rfl fun j _ => ?_
  refine (sum_flip (fl 2) (fun k => ∑ l ∈ Finset.range 2, F [i, j, k, fb (fl 3) l])).trans ?_
  refine Finset.sum_congr rfl fun k _ => ?_
  exact sum_flip (fl 3) (fun l => F [i, j, k, l])

theorem fb_fb {b : Bool} {n : Nat} (h : n < 2) : fb b (fb b n) = n := by unfold fb; split <;> omega
theorem se_fb {b : Bool} {n m : Nat} (h : n < 2) (h' : m < 2) : se b (fb b n) * se b (fb b m) = se b n * se b m := by
  rcases lt2 h with rfl | rfl <;> rcases lt2 h' with rfl | rfl <;> cases b <;> simp [se, fb]

theorem expect_rot {fl : Nat → Bool} {r r' : Tensor ℂ} (h : RotOf fl r r') (O : List Nat → List Nat → ℂ) : Spec.expect r' O = Spec.expect r (rotO fl O) := by
  unfold Spec.expect
  rw [← sumIdx_flip fl (fun s => sumIdx [2, 2, 2, 2] (fun t => r'.val (s ++ t) * O t s))]
  refine sumIdx4 _ _ fun i j k l hi hj hk hl => ?_
  simp only [List.getD_cons_zero, List.getD_cons_succ]
  rw [← sumIdx_flip fl]
  refine sumIdx4 _ _ fun a b c d ha hb hc hd => ?_
  simp only [List.getD_cons_zero, List.getD_cons_succ, List.cons_append, List.nil_append, rotO]
  rw [h _ _ _ _ _ _ _ _ (fb_lt hi) (fb_lt hj) (fb_lt hk) (fb_lt hl) (fb_lt ha) (fb_lt hb) (fb_lt hc) (fb_lt hd)]
  rw [fb_fb hi, fb_fb hj, fb_fb hk, fb_fb hl, fb_fb ha, fb_fb hb, fb_fb hc, fb_fb hd, se_fb hi ha, se_fb hj hb, se_fb hk hc, se_fb hl hd]
  ring

/-! ### The network -/

def flipAt (fl : Nat → Bool) (τ : Nat → Nat) (l : Nat) : Nat := if 100 ≤ l then fb (fl ((l - 100) / 2)) (τ l) else τ l

theorem sumOver_flip (dim : Nat → Nat) (fl : Nat → Bool) (ls : List Nat) (hl : ∀ l ∈ ls, l < 100) (F : (Nat → Nat) → ℂ) (σ : Nat → Nat) :
    sumOver dim ls (fun τ => F (flipAt fl τ)) σ = sumOver dim ls F (flipAt fl σ) := by
  induction ls generalizing σ with
  | nil => rfl
  | cons a ls ih =>
    simp only [sumOver]
    refine Finset.sum_congr rfl fun i _ => ?_
    rw [ih (fun l h => hl l (by simp [h]))]
    congr 1
    funext l
    have := hl a (by simp)
    by_cases h : l = a
    · subst h
      simp [flipAt, Nat.not_le.2 this]
    · simp [flipAt, Function.update, h]

/-- The labels of the plaquette network. -/
def labelsP : List Nat := [0, 1, 2, 3, 5, 6, 7, 8, 9, 10, 12, 13, 15, 16, 17, 18, 19, 20, 21, 23, 24, 26, 27, 28, 29, 31, 32, 33, 34, 35, 36, 37, 38, 39, 40, 41, 100, 101, 102, 103, 104, 105, 106, 107]

theorem raw_rot {dim : Nat → Nat} {e : Rdm.PlaqEnv ℂ} {s s' : Rdm.PlaqSites ℂ} {R R' : Tensor ℂ} (fl : Nat → Bool) (hd : ∀ x < 4, dim (100 + 2 * x) = 2 ∧ dim (101 + 2 * x) = 2)
    (q : Denotes dim R (singles (Rdm.outLabels [0, 1, 2, 3])) ((Rdm.Spec.closedSites [0, 1, 2, 3]).map (fun x => 100 + 2 * x) ++ Rdm.Spec.innerP) labelsP (Rdm.Spec.rhoP dim e s (Rdm.Spec.bra [0, 1, 2, 3])))
    (q' : Denotes dim R' (singles (Rdm.outLabels [0, 1, 2, 3])) ((Rdm.Spec.closedSites [0, 1, 2, 3]).map (fun x => 100 + 2 * x) ++ Rdm.Spec.innerP) labelsP (Rdm.Spec.rhoP dim e s' (Rdm.Spec.bra [0, 1, 2, 3])))
    (h0 : ∀ p < 2, ∀ rest, s'.a.val (p :: rest) = se (fl 0) p * s.a.val (fb (fl 0) p :: rest)) (h1 : ∀ p < 2, ∀ rest, s'.ax.val (p :: rest) = se (fl 1) p * s.ax.val (fb (fl 1) p :: rest))
    (h2 : ∀ p < 2, ∀ rest, s'.ay.val (p :: rest) = se (fl 2) p * s.ay.val (fb (fl 2) p :: rest)) (h3 : ∀ p < 2, ∀ rest, s'.axy.val (p :: rest) = se (fl 3) p * s.axy.val (fb (fl 3) p :: rest)) :
    RotOf fl R R' := by
  intro i j k l a b c d hi hj hk hl ha hb hc hdd
  have hlt : ∀ (i j k l a b c d : Nat), i < 2 → j < 2 → k < 2 → l < 2 → a < 2 → b < 2 → c < 2 → d < 2 →
      ∀ x ∈ (singles (Rdm.outLabels [0, 1, 2, 3])).flatten, (fun x => [i, a, j, b, k, c, l, d].getD (x - 100) 0) x < dim x := by
    intro i j k l a b c d hi hj hk hl ha hb hc hdd x hx
    rw [singles_flatten] at hx
    have e0 := hd 0 (by decide)
    have e1 := hd 1 (by decide)
    have e2 := hd 2 (by decide)
    have e3 := hd 3 (by decide)
    simp only [Nat.mul_zero, Nat.add_zero, Nat.mul_one, Nat.reduceMul, Nat.reduceAdd] at e0 e1 e2 e3
    fin_cases hx <;> simp [*]
  have v' := q'.val _ (hlt i j k l a b c d hi hj hk hl ha hb hc hdd)
  have v := q.val _ (hlt (fb (fl 0) i) (fb (fl 1) j) (fb (fl 2) k) (fb (fl 3) l) (fb (fl 0) a) (fb (fl 1) b) (fb (fl 2) c) (fb (fl 3) d)
    (fb_lt hi) (fb_lt hj) (fb_lt hk) (fb_lt hl) (fb_lt ha) (fb_lt hb) (fb_lt hc) (fb_lt hdd))
  rw [singles_gidx] at v v'
  refine v'.trans ?_
  refine Eq.trans ?_ (congrArg _ v.symm)
  have hinner : ∀ l ∈ (Rdm.Spec.closedSites [0, 1, 2, 3]).map (fun x => 100 + 2 * x) ++ Rdm.Spec.innerP, l < 100 := by decide
  rw [sumOver_local dim _ labelsP _ q.loc _ (flipAt fl (fun x => [i, a, j, b, k, c, l, d].getD (x - 100) 0))]
  · rw [← sumOver_flip dim fl _ hinner, mul_comm, sumOver_mul]
    refine sumOver_congr _ _ _ _ _ fun τ _ hτ => ?_
    have g : ∀ x, 100 ≤ x → τ x = [i, a, j, b, k, c, l, d].getD (x - 100) 0 := fun x hx => hτ x (fun h => absurd (hinner x h) (by omega))
    have g0 : τ 100 = i := g 100 (by decide)
    have g1 : τ 101 = a := g 101 (by decide)
    have g2 : τ 102 = j := g 102 (by decide)
    have g3 : τ 103 = b := g 103 (by decide)
    have g4 : τ 104 = k := g 104 (by decide)
    have g5 : τ 105 = c := g 105 (by decide)
    have g6 : τ 106 = l := g 106 (by decide)
    have g7 : τ 107 = d := g 107 (by decide)
    have b0 : Rdm.Spec.bra [0, 1, 2, 3] 0 = 101 := rfl
    have b1 : Rdm.Spec.bra [0, 1, 2, 3] 1 = 103 := rfl
    have b2 : Rdm.Spec.bra [0, 1, 2, 3] 2 = 105 := rfl
    have b3 : Rdm.Spec.bra [0, 1, 2, 3] 3 = 107 := rfl
    have fl0 : ∀ x, x < 100 → flipAt fl τ x = τ x := fun x hx => by simp [flipAt, Nat.not_le.2 hx]
    have f0 : flipAt fl τ 100 = fb (fl 0) i := by simp [flipAt, g0]
    have f1 : flipAt fl τ 101 = fb (fl 0) a := by simp [flipAt, g1]
    have f2 : flipAt fl τ 102 = fb (fl 1) j := by simp [flipAt, g2]
    have f3 : flipAt fl τ 103 = fb (fl 1) b := by simp [flipAt, g3]
    have f4 : flipAt fl τ 104 = fb (fl 2) k := by simp [flipAt, g4]
    have f5 : flipAt fl τ 105 = fb (fl 2) c := by simp [flipAt, g5]
    have f6 : flipAt fl τ 106 = fb (fl 3) l := by simp [flipAt, g6]
    have f7 : flipAt fl τ 107 = fb (fl 3) d := by simp [flipAt, g7]
    simp only [Rdm.Spec.rhoP, Corner.Spec.fused, b0, b1, b2, b3, g0, g1, g2, g3, g4, g5, g6, g7, f0, f1, f2, f3, f4, f5, f6, f7]
    rw [h0 i hi, h0 a ha, h1 j hj, h1 b hb, h2 k hk, h2 c hc, h3 l hl, h3 d hdd]
    simp only [fl0, Nat.reduceLT, star_mul', se_star]
    ring
  · intro x hx hx'
    have h100 : x ∈ [100, 101, 102, 103, 104, 105, 106, 107] := by
      revert x
      decide
    fin_cases h100 <;> rfl

theorem rdm_rot (eigh : Tensor ℂ → List ℝ × Tensor ℂ) {dim : Nat → Nat} {st st' : State ℂ} {env env' : Env ℂ} {c c' : Coord} {e : Rdm.PlaqEnv ℂ} {s s' : Rdm.PlaqSites ℂ} {r : Tensor ℂ} (fl : Nat → Bool)
    (hd : ∀ x < 4, dim (100 + 2 * x) = 2 ∧ dim (101 + 2 * x) = 2) (hp : Rdm.plaq st env c = some (e, s)) (hp' : Rdm.plaq st' env' c' = some (e, s'))
    (hf : Rdm.Spec.FitsP dim e s) (hf' : Rdm.Spec.FitsP dim e s')
    (h0 : ∀ p < 2, ∀ rest, s'.a.val (p :: rest) = se (fl 0) p * s.a.val (fb (fl 0) p :: rest)) (h1 : ∀ p < 2, ∀ rest, s'.ax.val (p :: rest) = se (fl 1) p * s.ax.val (fb (fl 1) p :: rest))
    (h2 : ∀ p < 2, ∀ rest, s'.ay.val (p :: rest) = se (fl 2) p * s.ay.val (fb (fl 2) p :: rest)) (h3 : ∀ p < 2, ∀ rest, s'.axy.val (p :: rest) = se (fl 3) p * s.axy.val (fb (fl 3) p :: rest))
    (hr : Rdm.rdm2x2 eigh false st env c [0, 1, 2, 3] = .ok r) :
    ∃ r', Rdm.rdm2x2 eigh false st' env' c' [0, 1, 2, 3] = .ok r' ∧ r'.shape = eight ∧ RotOf fl r r' := by
  obtain ⟨R, eR, qR⟩ := Rdm.oe2x2_denotes _ e s hf [0, 1, 2, 3] (by decide)
  obtain ⟨R', eR', qR'⟩ := Rdm.oe2x2_denotes _ e s' hf' [0, 1, 2, 3] (by decide)
  have hrot : RotOf fl R R' := raw_rot fl hd qR qR' h0 h1 h2 h3
  rw [Rdm.rdm2x2_eq eigh false hp (by decide) eR] at hr
  rw [Rdm.rdm2x2_eq eigh false hp' (by decide) eR']
  have sh : ∀ {X : Tensor ℂ}, X.shape = (singles (Rdm.outLabels [0, 1, 2, 3])).map (gdim dim) → X.shape = [2, 2, 2, 2] ++ [2, 2, 2, 2] := by
    intro X h
    have e0 := hd 0 (by decide)
    have e1 := hd 1 (by decide)
    have e2 := hd 2 (by decide)
    have e3 := hd 3 (by decide)
    simp only [Nat.mul_zero, Nat.add_zero, Nat.mul_one, Nat.reduceMul, Nat.reduceAdd] at e0 e1 e2 e3
    rw [h, singles_gdim]
    simp [Rdm.outLabels, Rdm.siteSet, List.range_succ, e0, e1, e2, e3]
  have htr : Matrix.trace (Rdm.Spec.op [2, 2, 2, 2] R') = Matrix.trace (Rdm.Spec.op [2, 2, 2, 2] R) := by
    rw [Rdm.trace_op, Rdm.trace_op, ← sumIdx_flip fl (fun k => R.val (k ++ k))]
    refine sumIdx4 _ _ fun i j k l hi hj hk hl => ?_
    refine (hrot i j k l i j k l hi hj hk hl hi hj hk hl).trans ?_
    simp only [se_sq, one_mul, List.getD_cons_zero, List.getD_cons_succ, List.cons_append, List.nil_append]
  obtain ⟨-, hne⟩ := Rdm.symRdm_ok eigh (sh qR.shape) hr
  obtain ⟨r0, e0, s0, v0⟩ := Rdm.symRdm_entries eigh (sh qR.shape) (by decide) hne
  rw [hr] at e0
  cases e0
  obtain ⟨r', e', s', v'⟩ := Rdm.symRdm_entries eigh (sh qR'.shape) (by decide) (by rw [htr]; exact hne)
  refine ⟨r', e', s', fun i j k l a b c d hi hj hk hl ha hb hc hdd => ?_⟩
  have inb : ∀ {i j k l : Nat}, i < 2 → j < 2 → k < 2 → l < 2 → InB [2, 2, 2, 2] [i, j, k, l] := fun hi hj hk hl => .cons hi (.cons hj (.cons hk (.cons hl .nil)))
  refine (v' [i, j, k, l] [a, b, c, d] (inb hi hj hk hl) (inb ha hb hc hdd)).trans ?_
  refine Eq.trans ?_ (congrArg _ (v0 _ _ (inb (fb_lt hi) (fb_lt hj) (fb_lt hk) (fb_lt hl)) (inb (fb_lt ha) (fb_lt hb) (fb_lt hc) (fb_lt hdd))).symm)
  simp only [List.cons_append, List.nil_append]
  rw [htr, hrot i j k l a b c d hi hj hk hl ha hb hc hdd, hrot a b c d i j k l ha hb hc hdd hi hj hk hl]
  simp only [star_mul', se_star]
  ring

/-! ### The two plaquettes of the checkerboard -/

theorem rotated_val (a : Tensor ℂ) (p : Nat) (h : p < 2) (rest : List Nat) : (Spec.rotated a).val (p :: rest) = se true p * a.val (fb true p :: rest) := by
  rcases lt2 h with rfl | rfl <;> simp [Spec.rotated, Fin.sum_univ_two, Su2.rotOp, se, fb]

theorem same_val (a : Tensor ℂ) (p : Nat) (rest : List Nat) : a.val (p :: rest) = se false p * a.val (fb false p :: rest) := by simp [se, fb]

/-- Sites 1 and 2, sites 0 and 3. -/
def fl12 (x : Nat) : Bool := x == 1 || x == 2
def fl03 (x : Nat) : Bool := x == 0 || x == 3

/-! #### One operator per site -/

noncomputable def conjO (b : Bool) (o : Corrf.Spec.Op ℂ) : Corrf.Spec.Op ℂ := fun i j => se b i * se b j * o (fb b i) (fb b j)

theorem rot_four (fl : Nat → Bool) (o : Nat → Corrf.Spec.Op ℂ) (t s : List Nat) : rotO fl (four o) t s = four (fun x => conjO (fl x) (o x)) t s := by
  simp only [rotO, four, conjO, List.getD_cons_zero, List.getD_cons_succ]
  ring

theorem expect_four_congr (r : Tensor ℂ) {o o' : Nat → Corrf.Spec.Op ℂ} {k : ℂ} (h : ∀ i j, i < 2 → j < 2 → ∀ x < 4, o x i j = o' x i j) : Spec.expect r (fun t s => k * four o t s) = k * Spec.expect r (four o') := by
  rw [expect_mul]
  refine congrArg _ (expect_congr (fun _ _ _ _ _ _ _ _ _ _ _ _ _ _ _ _ => rfl) fun i j k l a b c d hi hj hk hl ha hb hc hd => ?_)
  simp only [four, List.getD_cons_zero, List.getD_cons_succ]
  rw [h _ _ ha hi 0 (by decide), h _ _ hb hj 1 (by decide), h _ _ hc hk 2 (by decide), h _ _ hd hl 3 (by decide)]

/-- The sign an operator gets from the rotation. -/
noncomputable def kap (b : Bool) : ℂ := if b then -1 else 1

theorem conj_one (b : Bool) {i j : Nat} (hi : i < 2) (hj : j < 2) : conjO b Corrf.Spec.one i j = Corrf.Spec.one i j := by
  rcases lt2 hi with rfl | rfl <;> rcases lt2 hj with rfl | rfl <;> cases b <;> simp [conjO, se, fb, Corrf.Spec.one]
theorem conj_sz (b : Bool) {i j : Nat} (hi : i < 2) (hj : j < 2) : conjO b Spec.sz i j = kap b * Spec.sz i j := by
  rcases lt2 hi with rfl | rfl <;> rcases lt2 hj with rfl | rfl <;> cases b <;> simp [conjO, se, fb, Spec.sz, kap] <;> norm_num
theorem conj_sx (b : Bool) {i j : Nat} (hi : i < 2) (hj : j < 2) : conjO b Spec.sx i j = kap b * Spec.sx i j := by
  rcases lt2 hi with rfl | rfl <;> rcases lt2 hj with rfl | rfl <;> cases b <;> simp [conjO, se, fb, Spec.sx, kap]
theorem conj_sy (b : Bool) {i j : Nat} (hi : i < 2) (hj : j < 2) : conjO b Spec.sy i j = Spec.sy i j := by
  rcases lt2 hi with rfl | rfl <;> rcases lt2 hj with rfl | rfl <;> cases b <;> simp [conjO, se, fb, Spec.sy] <;> ring

/-- `O` at `m` and `P` at `n`. -/
noncomputable def two (m n : Nat) (O P : Corrf.Spec.Op ℂ) (x : Nat) : Corrf.Spec.Op ℂ := if x = m then O else if x = n then P else Corrf.Spec.one

theorem bond_four (m n : Nat) (hm : m < n) (hn : n < 4) (O P : Corrf.Spec.Op ℂ) (i j k l a b c d : Nat) :
    Spec.onBond m n (fun a b a' b' => O a a' * P b b') [a, b, c, d] [i, j, k, l] = four (two m n O P) [a, b, c, d] [i, j, k, l] := by
  have hmn : (m = 0 ∧ n = 1) ∨ (m = 0 ∧ n = 2) ∨ (m = 0 ∧ n = 3) ∨ (m = 1 ∧ n = 2) ∨ (m = 1 ∧ n = 3) ∨ (m = 2 ∧ n = 3) := by omega
  rcases hmn with ⟨rfl, rfl⟩ | ⟨rfl, rfl⟩ | ⟨rfl, rfl⟩ | ⟨rfl, rfl⟩ | ⟨rfl, rfl⟩ | ⟨rfl, rfl⟩ <;> simp [Spec.onBond, four, two, Corrf.Spec.one] <;> split_ifs <;> simp_all

theorem site_four (m : Nat) (hm : m < 4) (O : Corrf.Spec.Op ℂ) (i j k l a b c d : Nat) :
    Spec.onSite m O [a, b, c, d] [i, j, k, l] = four (two m 4 O Corrf.Spec.one) [a, b, c, d] [i, j, k, l] := by
  have : m = 0 ∨ m = 1 ∨ m = 2 ∨ m = 3 := by omega
  rcases this with rfl | rfl | rfl | rfl <;> simp [Spec.onSite, four, two, Corrf.Spec.one] <;> split_ifs <;> simp_all

theorem heis_expect (r : Tensor ℂ) (m n : Nat) (hm : m < n) (hn : n < 4) (δ : ℝ) : Spec.expect r (Spec.onBond m n (Spec.heis δ)) =
    δ * Spec.expect r (four (two m n Spec.sz Spec.sz)) + Spec.expect r (four (two m n Spec.sx Spec.sx)) + Spec.expect r (four (two m n Spec.sy Spec.sy)) := by
  rw [← expect_mul, ← expect_add, ← expect_add]
  refine expect_congr (fun _ _ _ _ _ _ _ _ _ _ _ _ _ _ _ _ => rfl) fun i j k l a b c d hi hj hk hl ha hb hc hd => ?_
  rw [← bond_four m n hm hn, ← bond_four m n hm hn, ← bond_four m n hm hn]
  simp only [Spec.onBond, Spec.heis]
  split_ifs <;> simp

variable {fl : Nat → Bool} {r r' : Tensor ℂ}

theorem rot_two (h : RotOf fl r r') (m n : Nat) (hn : n < 4) (hmn : m < n) {O : Corrf.Spec.Op ℂ} (k : Bool → ℂ) (hO : ∀ b i j, i < 2 → j < 2 → conjO b O i j = k b * O i j) :
    Spec.expect r' (four (two m n O O)) = k (fl m) * k (fl n) * Spec.expect r (four (two m n O O)) := by
  rw [expect_rot h, ← expect_mul]
  refine expect_congr (fun _ _ _ _ _ _ _ _ _ _ _ _ _ _ _ _ => rfl) fun i j l p a b c d hi hj hl hp ha hb hc hd => ?_
  rw [rot_four]
  have hmn : (m = 0 ∧ n = 1) ∨ (m = 0 ∧ n = 2) ∨ (m = 0 ∧ n = 3) ∨ (m = 1 ∧ n = 2) ∨ (m = 1 ∧ n = 3) ∨ (m = 2 ∧ n = 3) := by omega
  rcases hmn with ⟨rfl, rfl⟩ | ⟨rfl, rfl⟩ | ⟨rfl, rfl⟩ | ⟨rfl, rfl⟩ | ⟨rfl, rfl⟩ | ⟨rfl, rfl⟩ <;>
    simp only [four, two, List.getD_cons_zero, List.getD_cons_succ, reduceIte, Nat.reduceEqDiff, Nat.zero_ne_one, one_ne_zero, OfNat.ofNat_ne_zero, OfNat.zero_ne_ofNat, OfNat.one_ne_ofNat, OfNat.ofNat_ne_one,
      conj_one _ ha hi, conj_one _ hb hj, conj_one _ hc hl, conj_one _ hd hp, hO _ _ _ ha hi, hO _ _ _ hb hj, hO _ _ _ hc hl, hO _ _ _ hd hp] <;> ring

theorem rot_site (h : RotOf fl r r') (m : Nat) (hm : m < 4) {O : Corrf.Spec.Op ℂ} (k : Bool → ℂ) (hO : ∀ b i j, i < 2 → j < 2 → conjO b O i j = k b * O i j) :
    Spec.expect r' (Spec.onSite m O) = k (fl m) * Spec.expect r (Spec.onSite m O) := by
  rw [expect_rot h, ← expect_mul]
  refine expect_congr (fun _ _ _ _ _ _ _ _ _ _ _ _ _ _ _ _ => rfl) fun i j l p a b c d hi hj hl hp ha hb hc hd => ?_
  rw [site_four m hm]
  simp only [rotO, List.getD_cons_zero, List.getD_cons_succ]
  rw [site_four m hm]
  have : rotO fl (four (two m 4 O Corrf.Spec.one)) [a, b, c, d] [i, j, l, p] = k (fl m) * four (two m 4 O Corrf.Spec.one) [a, b, c, d] [i, j, l, p] := by
    rw [rot_four]
    have : m = 0 ∨ m = 1 ∨ m = 2 ∨ m = 3 := by omega
    rcases this with rfl | rfl | rfl | rfl <;>
      simp only [four, two, List.getD_cons_zero, List.getD_cons_succ, reduceIte, Nat.reduceEqDiff, Nat.zero_ne_one, one_ne_zero, OfNat.ofNat_ne_zero, OfNat.zero_ne_ofNat, OfNat.one_ne_ofNat, OfNat.ofNat_ne_one,
        conj_one _ ha hi, conj_one _ hb hj, conj_one _ hc hl, conj_one _ hd hp, hO _ _ _ ha hi, hO _ _ _ hb hj, hO _ _ _ hc hl, hO _ _ _ hd hp] <;> ring
  exact this

theorem clock_rot (i j k l a b c d : Nat) (hi : i < 2) (hj : j < 2) (hk : k < 2) (hl : l < 2) (ha : a < 2) (hb : b < 2) (hc : c < 2) (hd : d < 2) :
    rotO fl12 Spec.clockwise [a, b, c, d] [i, j, k, l] = rotO fl03 Spec.clockwise [a, b, c, d] [i, j, k, l] := by
  have h1 : (1 - b = i ∧ d = 1 - j ∧ 1 - c = l ∧ a = 1 - k) ↔ (b = 1 - i ∧ 1 - d = j ∧ c = 1 - l ∧ 1 - a = k) := by omega
  simp only [rotO, Spec.clockwise, fl12, fl03, se, fb, List.getD_cons_zero, List.getD_cons_succ]
  simp only [Nat.reduceBEq, Bool.or_false, Bool.or_true, Bool.or_self, reduceIte, Bool.false_eq_true, Bool.false_or, Bool.true_or, one_mul, mul_one, h1]
  split_ifs with h
  · obtain ⟨rfl, h2, rfl, h4⟩ := h
    have hd' : d = 1 - j := by omega
    have ha' : a = 1 - k := by omega
    subst hd' ha'
    rcases lt2 hi with rfl | rfl <;> rcases lt2 hj with rfl | rfl <;> rcases lt2 hk with rfl | rfl <;> rcases lt2 hl with rfl | rfl <;> simp
  · simp

theorem rot_transpose (fl : Nat → Bool) (O : List Nat → List Nat → ℂ) (t s : List Nat) : rotO fl (fun t s => O s t) t s = rotO fl O s t := by
  simp only [rotO]
  ring

theorem chir_rot (i j k l a b c d : Nat) (hi : i < 2) (hj : j < 2) (hk : k < 2) (hl : l < 2) (ha : a < 2) (hb : b < 2) (hc : c < 2) (hd : d < 2) :
    rotO fl12 Spec.chirality [a, b, c, d] [i, j, k, l] = rotO fl03 Spec.chirality [a, b, c, d] [i, j, k, l] := by
  have h : ∀ fl t s, rotO fl Spec.chirality t s = Complex.I * (rotO fl Spec.clockwise t s - rotO fl Spec.clockwise s t) := by
    intro fl t s
    rw [← rot_transpose fl Spec.clockwise t s]
    simp only [rotO, Spec.chirality]
    ring
  rw [h, h, clock_rot i j k l a b c d hi hj hk hl ha hb hc hd, clock_rot a b c d i j k l ha hb hc hd hi hj hk hl]

/-! ### The rotated operators of the code -/

theorem rot_val {x j : Nat} (hx : x < 2) (hj : j < 2) : (opT (Su2.rotOp 2)).val [x, j] = if j = 1 - x then (-1) ^ x else 0 := by
  rcases lt2 hx with rfl | rfl <;> rcases lt2 hj with rfl | rfl <;> simp [opT, Su2.rotOp]

theorem rotBC_val {T : Tensor ℂ} {O : List Nat → List Nat → ℂ} (h : Is8 T (ofOp O)) : ∃ T', rotBC T = some T' ∧ Is8 T' (ofOp (rotO fl12 O)) := by
  obtain ⟨X, e, q⟩ := einsum8 [(opT (Su2.rotOp 2), [10, 1]), (opT (Su2.rotOp 2), [11, 2]), (T, [0, 10, 11, 3, 4, 12, 13, 7]), (opT (Su2.rotOp 2), [12, 5]), (opT (Su2.rotOp 2), [13, 6])]
    (by simp [h.shape, eight, opT]) (by simp)
  refine ⟨X, e, q.congr fun i j k l a b c d hi hj hk hl ha hb hc hd => ?_⟩
  have hd' : (([(opT (Su2.rotOp 2), [10, 1]), (opT (Su2.rotOp 2), [11, 2]), (T, [0, 10, 11, 3, 4, 12, 13, 7]), (opT (Su2.rotOp 2), [12, 5]), (opT (Su2.rotOp 2), [13, 6])] :
      List (Tensor ℂ × List Nat)).flatMap Prod.snd).dedup.filter (fun l => l ∉ [0, 1, 2, 3, 4, 5, 6, 7]) = [10, 11, 12, 13] := by
    simp only [List.flatMap_cons, List.flatMap_nil]
    decide
  rw [hd']
  have hv : ∀ j k b c, j < 2 → k < 2 → b < 2 → c < 2 → T.val [i, j, k, l, a, b, c, d] = O [a, b, c, d] [i, j, k, l] := fun j k b c hj hk hb hc => h.val i j k l a b c d hi hj hk hl ha hb hc hd
  simp only [sumOver, sum_range2, termOf, List.map_cons, List.map_nil, List.prod_cons, List.prod_nil, mul_one, Function.update, at8, ofOp, rotO, fl12]
  simp
  rw [rot_val (by decide) hj, rot_val (by decide) hj, rot_val (by decide) hk, rot_val (by decide) hk, rot_val (by decide) hb, rot_val (by decide) hb, rot_val (by decide) hc, rot_val (by decide) hc]
  rcases lt2 hj with rfl | rfl <;> rcases lt2 hk with rfl | rfl <;> rcases lt2 hb with rfl | rfl <;> rcases lt2 hc with rfl | rfl <;> simp [se, fb, hv]

end Verif.Energy
