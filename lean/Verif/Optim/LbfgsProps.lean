import Verif.Optim.LbfgsModel
import Verif.Optim.ArmijoProps
import Mathlib.Tactic.Abel
import Mathlib.Tactic.Module
/-
Properties C40 (trial evaluations), C41 (L-BFGS directions), C44 (history on resume), C56 (iterations per step).
-/
namespace Verif.Lbfgs

variable {V W : Type} [NormedAddCommGroup V] [InnerProductSpace ℝ V]

/-! ### Specification -/

/-- The BFGS update of an inverse Hessian `H` with gradient difference `y` and step `s`:
`(1 - s yᵀ/yᵀs) H (1 - y sᵀ/yᵀs) + s sᵀ/yᵀs`. -/
noncomputable def Spec.bfgs (H : V → V) (y s : V) (v : V) : V :=
  let w := H (v - (inner ℝ s v / inner ℝ y s) • y)
  w - (inner ℝ y w / inner ℝ y s) • s + (inner ℝ s v / inner ℝ y s) • s

/-- The inverse Hessian of a history of pairs `(y, s)`, oldest first, started from `h` times the identity. -/
noncomputable def Spec.invHess (h : ℝ) (pairs : List (V × V)) : V → V :=
  pairs.foldl (fun H p => Spec.bfgs H p.1 p.2) (fun v => h • v)

/-- A consistent history: lists aligned, at most `hs` entries, positive curvature, `ro` the inverse curvatures, positive
initial scale, and a buffer of length `hs`. -/
structure Spec.Valid (hs : Nat) (st : St V) : Prop where
  stps : st.oldStps.length = st.oldDirs.length
  ros : st.ro.length = st.oldDirs.length
  size : st.oldDirs.length ≤ hs
  curv : ∀ (i : Nat) (y s : V), st.oldDirs[i]? = some y → st.oldStps[i]? = some s → 0 < inner ℝ y s
  rho : ∀ (i : Nat) (y s : V) (r : ℝ), st.oldDirs[i]? = some y → st.oldStps[i]? = some s → st.ro[i]? = some r →
    r = 1 / inner ℝ y s
  scale : 0 < st.hdiag
  buf : ∀ l, st.al = some l → l.length = hs

/-- Optimizer states reachable from a fresh optimizer by direction updates with arbitrary gradients, followed by arbitrary
step lengths. -/
inductive Spec.Reach (hs : Nat) : St V → Prop
  | init : Spec.Reach hs St.init
  | step {st st' : St V} (g : V) (loss t : ℝ) : Spec.Reach hs st → direction hs st g loss = some st' →
      Spec.Reach hs { st' with t := some t }

open Spec

/-! ### Lemmas -/

theorem bfgs_pos {H : V → V} (hH : ∀ v, v ≠ 0 → 0 < inner ℝ v (H v)) {y s : V} (hys : 0 < inner ℝ y s) :
    ∀ v, v ≠ 0 → 0 < inner ℝ v (bfgs H y s v) := by
  intro v hv
  set a := inner ℝ s v / inner ℝ y s with ha
  set v' := v - a • y with hv'
  have e : inner ℝ v (bfgs H y s v) = inner ℝ v' (H v') + a * inner ℝ s v := by
    unfold bfgs
    simp only [← ha, ← hv']
    rw [inner_add_right, inner_sub_right, inner_smul_right, inner_smul_right, real_inner_comm s v]
    have : inner ℝ v' (H v') = inner ℝ v (H v') - a * inner ℝ y (H v') := by
      rw [hv', inner_sub_left, inner_smul_left]; simp
    rw [this, ha]
    field_simp
  have h2 : a * inner ℝ s v = a ^ 2 * inner ℝ y s := by rw [ha]; field_simp
  rw [e, h2]
  by_cases hz : v' = 0
  · have ha0 : a ≠ 0 := by
      intro h0
      rw [h0, zero_smul, sub_zero] at hv'
      exact hv (hv'.symm.trans hz)
    rw [hz, inner_zero_left]
    positivity
  · have := hH v' hz
    positivity

theorem bfgs_zero {H : V → V} (hH0 : H 0 = 0) (y s : V) : bfgs H y s 0 = 0 := by
  simp [bfgs, hH0]

theorem invHess_pos {h : ℝ} (hh : 0 < h) (pairs : List (V × V)) (hp : ∀ p ∈ pairs, 0 < inner ℝ p.1 p.2) :
    invHess h pairs 0 = 0 ∧ ∀ v, v ≠ 0 → 0 < inner ℝ v (invHess h pairs v) := by
  unfold invHess
  have key : ∀ (l : List (V × V)) (H : V → V), (∀ p ∈ l, 0 < inner ℝ p.1 p.2) → H 0 = 0 →
      (∀ v, v ≠ 0 → 0 < inner ℝ v (H v)) →
      (l.foldl (fun H p => bfgs H p.1 p.2) H) 0 = 0 ∧ ∀ v, v ≠ 0 → 0 < inner ℝ v ((l.foldl (fun H p => bfgs H p.1 p.2) H) v) := by
    intro l
    induction l with
    | nil => intro H _ h0 h1; exact ⟨h0, h1⟩
    | cons p l ih =>
      intro H hl h0 h1
      exact ih _ (fun q hq => hl q (List.mem_cons_of_mem _ hq)) (bfgs_zero h0 _ _)
        (bfgs_pos h1 (hl p List.mem_cons_self))
  refine key pairs _ hp (by simp) ?_
  intro v hv
  rw [inner_smul_right]
  have : 0 < inner ℝ v v := by rw [real_inner_self_eq_norm_sq]; have := norm_pos_iff.2 hv; positivity
  positivity

theorem invHess_secant {h : ℝ} (hh : 0 < h) (pairs : List (V × V)) (y s : V) (hp : ∀ p ∈ pairs, 0 < inner ℝ p.1 p.2)
    (hys : 0 < inner ℝ y s) : invHess h (pairs ++ [(y, s)]) y = s := by
  have h0 := (invHess_pos hh pairs hp).1
  unfold invHess at h0 ⊢
  rw [List.foldl_append]
  simp only [List.foldl_cons, List.foldl_nil, bfgs]
  have : inner ℝ s y / inner ℝ y s = (1 : ℝ) := by
    have e : inner ℝ s y = inner ℝ y s := real_inner_comm _ _
    rw [e, div_self hys.ne']
  rw [this, one_smul, sub_self, h0]
  simp

/-- The two loops compute the recursion on the first `n` pairs. -/
theorem loops_spec {hs : Nat} {st : St V} (hv : Valid hs st) :
    ∀ n, n ≤ st.oldDirs.length → ∀ (q : V) (al : List (Option ℝ)), n ≤ al.length →
      ∃ q' al', (List.range n).reverse.foldlM (body1 st) (q, al) = some (q', al') ∧ al'.length = al.length ∧
        (∀ j, n ≤ j → al'[j]? = al[j]?) ∧
        ∀ al'' : List (Option ℝ), (∀ j, j < n → al''[j]? = al'[j]?) →
          (List.range n).foldlM (body2 st al'') (st.hdiag • q') =
            some (invHess st.hdiag ((st.oldDirs.zip st.oldStps).take n) q) := by
  intro n
  induction n with
  | zero =>
    intro _ q al _
    exact ⟨q, al, by simp [pure], rfl, fun _ _ => rfl, fun _ _ => by simp [invHess, pure]⟩
  | succ n ih =>
    intro hn q al hal
    have hd : n < st.oldDirs.length := hn
    have hs' : n < st.oldStps.length := by rw [hv.stps]; exact hn
    have hr : n < st.ro.length := by rw [hv.ros]; exact hn
    set y := st.oldDirs[n] with hy
    set s := st.oldStps[n] with hsdef
    have ey : st.oldDirs[n]? = some y := List.getElem?_eq_getElem hd
    have es : st.oldStps[n]? = some s := List.getElem?_eq_getElem hs'
    have er : st.ro[n]? = some (1 / inner ℝ y s) := by
      rw [List.getElem?_eq_getElem hr, hv.rho n y s _ ey es (List.getElem?_eq_getElem hr)]
    set a := inner ℝ s q * (1 / inner ℝ y s) with ha
    obtain ⟨q', al', h1, h2, h3, h4⟩ := ih (by omega) (q - a • y) (al.set n (some a)) (by simp; omega)
    refine ⟨q', al', ?_, by simpa using h2, ?_, ?_⟩
    · rw [List.range_succ, List.reverse_append]
      simp only [List.reverse_cons, List.reverse_nil, List.nil_append, List.singleton_append, List.foldlM_cons]
      have : body1 st (q, al) n = some (q - a • y, al.set n (some a)) := by
        simp only [body1, ey, es, er, Option.bind_eq_bind, Option.bind_some, if_pos (show n < al.length by omega), ← ha]
      rw [this]
      exact h1
    · intro j hj
      rw [h3 j (by omega), List.getElem?_set_ne (by omega)]
    · intro al'' h''
      rw [List.range_succ, List.foldlM_append, h4 al'' (fun j hj => h'' j (by omega))]
      simp only [List.foldlM_cons, List.foldlM_nil, Option.bind_eq_bind, Option.bind_some]
      have e2 : al''[n]? = some (some a) := by
        rw [h'' n (by omega), h3 n (le_refl n), List.getElem?_set_self (by omega)]
      have ez : (st.oldDirs.zip st.oldStps)[n]? = some (y, s) := by
        rw [List.getElem?_zip_eq_some]; exact ⟨ey, es⟩
      have et : (st.oldDirs.zip st.oldStps).take (n + 1) = (st.oldDirs.zip st.oldStps).take n ++ [(y, s)] := by
        rw [List.take_add_one, ez]; rfl
      rw [et]
      have eb : ∀ w, body2 st al'' w n = some (w + (a - inner ℝ y w * (1 / inner ℝ y s)) • s) := by
        intro w
        simp only [body2, ey, es, er, e2, Option.bind_eq_bind, Option.bind_some]
      rw [eb]
      simp only [Option.bind_some, pure]
      congr 1
      conv_rhs => rw [invHess, List.foldl_append]
      simp only [List.foldl_cons, List.foldl_nil, bfgs]
      have ea : inner ℝ s q / inner ℝ y s = a := by rw [ha]; ring
      rw [ea]
      have ef : List.foldl (fun H p => bfgs H p.1 p.2) (fun v => st.hdiag • v) ((st.oldDirs.zip st.oldStps).take n) =
        invHess st.hdiag ((st.oldDirs.zip st.oldStps).take n) := rfl
      rw [ef]
      set w := invHess st.hdiag ((st.oldDirs.zip st.oldStps).take n) (q - a • y)
      have : inner ℝ y w * (1 / inner ℝ y s) = inner ℝ y w / inner ℝ y s := by ring
      rw [this]
      module

theorem twoLoop_spec {hs : Nat} {st : St V} (hv : Valid hs st) (g : V) :
    ∃ al', twoLoop hs st g = some (invHess st.hdiag (st.oldDirs.zip st.oldStps) (-g), al') ∧ al'.length = hs := by
  have hlen : (st.al.getD (List.replicate hs none)).length = hs := by
    cases h : st.al with
    | none => simp
    | some l => simpa using hv.buf l h
  obtain ⟨q', al', h1, h2, -, h4⟩ := loops_spec hv st.oldDirs.length (le_refl _) (-g) (st.al.getD (List.replicate hs none))
    (by rw [hlen]; exact hv.size)
  refine ⟨al', ?_, by rw [h2, hlen]⟩
  unfold twoLoop
  simp only [h1, Option.bind_eq_bind, Option.bind_some, h4 al' (fun _ _ => rfl)]
  rw [List.take_of_length_le]
  rw [List.length_zip]; omega

theorem valid_pairs {hs : Nat} {st : St V} (hv : Valid hs st) : ∀ p ∈ st.oldDirs.zip st.oldStps, 0 < inner ℝ p.1 p.2 := by
  intro p hp
  obtain ⟨i, hi⟩ := List.mem_iff_getElem?.1 hp
  rw [List.getElem?_zip_eq_some] at hi
  exact hv.curv i p.1 p.2 hi.1 hi.2

theorem getElem?_snoc {α : Type} {l : List α} {x z : α} {i : Nat} (h : (l ++ [x])[i]? = some z) :
    l[i]? = some z ∨ (i = l.length ∧ z = x) := by
  rcases lt_trichotomy i l.length with hi | hi | hi
  · rw [List.getElem?_append_left hi] at h; exact Or.inl h
  · subst hi
    rw [List.getElem?_append_right (le_refl _), Nat.sub_self] at h
    right
    exact ⟨rfl, by simpa using h.symm⟩
  · rw [List.getElem?_eq_none (by simp; omega)] at h
    exact absurd h (by simp)

theorem valid_snoc {hs : Nat} {st : St V} {ds ss : List V} {rs : List ℝ} {y s : V} (hys : 0 < inner ℝ y s)
    (h1 : ss.length = ds.length) (h2 : rs.length = ds.length) (h3 : ds.length < hs)
    (hc : ∀ (i : Nat) (y s : V), ds[i]? = some y → ss[i]? = some s → 0 < inner ℝ y s)
    (hr : ∀ (i : Nat) (y s : V) (r : ℝ), ds[i]? = some y → ss[i]? = some s → rs[i]? = some r → r = 1 / inner ℝ y s)
    (hb : ∀ l, st.al = some l → l.length = hs) :
    Valid hs { st with oldDirs := ds ++ [y], oldStps := ss ++ [s], ro := rs ++ [1 / inner ℝ y s],
                       hdiag := inner ℝ y s / inner ℝ y y } := by
  have hy : y ≠ 0 := by intro h; rw [h, inner_zero_left] at hys; exact lt_irrefl _ hys
  have hyy : 0 < inner ℝ y y := by rw [real_inner_self_eq_norm_sq]; have := norm_pos_iff.2 hy; positivity
  refine ⟨by simp [h1], by simp [h2], by simp; omega, ?_, ?_, div_pos hys hyy, hb⟩
  · intro i y' s' e1 e2
    simp only at e1 e2
    rcases getElem?_snoc e1 with e1 | ⟨i1, rfl⟩
    · rcases getElem?_snoc e2 with e2 | ⟨i2, rfl⟩
      · exact hc i _ _ e1 e2
      · rw [List.getElem?_eq_none (by omega)] at e1; exact absurd e1 (by simp)
    · rcases getElem?_snoc e2 with e2 | ⟨i2, rfl⟩
      · rw [List.getElem?_eq_none (by omega)] at e2; exact absurd e2 (by simp)
      · exact hys
  · intro i y' s' r' e1 e2 e3
    simp only at e1 e2 e3
    rcases getElem?_snoc e1 with e1 | ⟨i1, rfl⟩
    · rcases getElem?_snoc e2 with e2 | ⟨i2, rfl⟩
      · rcases getElem?_snoc e3 with e3 | ⟨i3, rfl⟩
        · exact hr i _ _ _ e1 e2 e3
        · rw [List.getElem?_eq_none (by omega)] at e1; exact absurd e1 (by simp)
      · rw [List.getElem?_eq_none (by omega)] at e1; exact absurd e1 (by simp)
    · rcases getElem?_snoc e2 with e2 | ⟨i2, rfl⟩
      · rw [List.getElem?_eq_none (by omega)] at e2; exact absurd e2 (by simp)
      · rcases getElem?_snoc e3 with e3 | ⟨i3, rfl⟩
        · rw [List.getElem?_eq_none (by omega)] at e3; exact absurd e3 (by simp)
        · rfl

theorem updateMemory_spec {hs : Nat} (hpos : 0 < hs) {st : St V} (hv : Valid hs st) (y s : V) :
    ∃ st', updateMemory hs y s st = some st' ∧ Valid hs st' ∧ st'.nIter = st.nIter ∧ st'.t = st.t ∧
      (1 / 10 ^ 10 < inner ℝ y s → ∃ ps, st'.oldDirs.zip st'.oldStps = ps ++ [(y, s)] ∧
        ps = (st.oldDirs.zip st.oldStps).drop (if st.oldDirs.length = hs then 1 else 0)) ∧
      (¬ 1 / 10 ^ 10 < inner ℝ y s → st' = st) := by
  unfold updateMemory
  simp only
  by_cases hys : inner ℝ y s > 1 / 10 ^ 10
  · have hys0 : 0 < inner ℝ y s := lt_trans (by positivity) hys
    rw [if_pos hys]
    by_cases hl : st.oldDirs.length = hs
    · rw [if_pos hl]
      cases hd : st.oldDirs with
      | nil => rw [hd] at hl; simp at hl; omega
      | cons d0 ds =>
        cases hss : st.oldStps with
        | nil => have := hv.stps; rw [hd, hss] at this; simp at this
        | cons s0 ss =>
          cases hr : st.ro with
          | nil => have := hv.ros; rw [hd, hr] at this; simp at this
          | cons r0 rs =>
            have l1 := hv.stps
            have l2 := hv.ros
            rw [hd, hss] at l1
            rw [hd, hr] at l2
            rw [hd] at hl
            simp only [List.length_cons, Nat.add_right_cancel_iff] at l1 l2 hl
            refine ⟨_, rfl, valid_snoc hys0 l1 l2 (by omega) ?_ ?_ hv.buf, rfl, rfl, ?_, fun h => absurd hys h⟩
            · intro i y s e1 e2
              exact hv.curv (i + 1) y s (by rw [hd]; simpa using e1) (by rw [hss]; simpa using e2)
            · intro i y s r e1 e2 e3
              exact hv.rho (i + 1) y s r (by rw [hd]; simpa using e1) (by rw [hss]; simpa using e2) (by rw [hr]; simpa using e3)
            · intro _
              refine ⟨ds.zip ss, ?_, ?_⟩
              · simp only
                rw [List.zip_append l1.symm]; rfl
              · rw [if_pos (by simp [hl])]; rfl
    · rw [if_neg hl]
      refine ⟨_, rfl, valid_snoc hys0 hv.stps hv.ros (by have := hv.size; omega) hv.curv hv.rho hv.buf, rfl, rfl, ?_, fun h => absurd hys h⟩
      intro _
      refine ⟨st.oldDirs.zip st.oldStps, ?_, ?_⟩
      · simp only
        rw [List.zip_append hv.stps.symm]; rfl
      · rw [if_neg hl]; rfl
  · rw [if_neg hys]
    exact ⟨st, rfl, hv, rfl, rfl, fun h => absurd h hys, fun _ => rfl⟩

theorem init_valid (hs : Nat) : Valid hs (St.init : St V) :=
  ⟨rfl, rfl, by simp [St.init], by simp [St.init], by simp [St.init], by simp [St.init], by simp [St.init]⟩

/-- What `direction` returns on a consistent state. -/
theorem direction_spec {hs : Nat} (hpos : 0 < hs) {st : St V} (hv : Valid hs st)
    (hsome : st.nIter ≠ 0 → st.prevGrad ≠ none ∧ st.d ≠ none ∧ st.t ≠ none) (g : V) (loss : ℝ) :
    ∃ st' d, direction hs st g loss = some st' ∧ Valid hs st' ∧ st'.d = some d ∧ st'.prevGrad = some g ∧ st'.nIter ≠ 0 ∧
      d = invHess st'.hdiag (st'.oldDirs.zip st'.oldStps) (-g) := by
  unfold direction
  simp only
  by_cases h1 : st.nIter + 1 = 1
  · rw [if_pos h1]
    refine ⟨_, -g, rfl, ⟨rfl, rfl, by simp, by simp, by simp, by simp, hv.buf⟩, rfl, rfl, by simp, ?_⟩
    simp [invHess]
  · rw [if_neg h1]
    obtain ⟨n1, n2, n3⟩ := hsome (by omega)
    obtain ⟨pg, hpg⟩ := Option.ne_none_iff_exists'.1 n1
    obtain ⟨d, hd⟩ := Option.ne_none_iff_exists'.1 n2
    obtain ⟨t, ht⟩ := Option.ne_none_iff_exists'.1 n3
    have hv' : Valid hs { st with nIter := st.nIter + 1 } := ⟨hv.stps, hv.ros, hv.size, hv.curv, hv.rho, hv.scale, hv.buf⟩
    obtain ⟨st1, hu, hv1, hn, -, -, -⟩ := updateMemory_spec hpos hv' (g - pg) (t • d)
    obtain ⟨al', htl, hal⟩ := twoLoop_spec hv1 g
    refine ⟨{ st1 with
        d := some (invHess st1.hdiag (st1.oldDirs.zip st1.oldStps) (-g)), al := some al', prevGrad := some g, prevLoss := some loss },
      _, ?_, ?_, rfl, rfl, ?_, rfl⟩
    · simp only [hpg, hd, ht] at hu
      simp only [hpg, hd, ht, Option.bind_eq_bind, Option.bind_some, hu, htl]
    · exact ⟨hv1.stps, hv1.ros, hv1.size, hv1.curv, hv1.rho, hv1.scale, by intro l hl; simp at hl; rw [← hl]; exact hal⟩
    · simp only [hn]; omega

theorem reach_valid {hs : Nat} (hpos : 0 < hs) {st : St V} (h : Reach hs st) :
    Valid hs st ∧ (st.nIter ≠ 0 → st.prevGrad ≠ none ∧ st.d ≠ none ∧ st.t ≠ none) := by
  induction h with
  | init => exact ⟨init_valid hs, by simp [St.init]⟩
  | step g loss t _ hdir ih =>
    obtain ⟨st', d, h1, h2, h3, h4, h5, -⟩ := direction_spec hpos ih.1 ih.2 g loss
    rw [hdir, Option.some_inj] at h1
    subst h1
    exact ⟨⟨h2.stps, h2.ros, h2.size, h2.curv, h2.rho, h2.scale, h2.buf⟩, fun _ => ⟨by simp [h4], by simp [h3], by simp⟩⟩

/-! ### Property C41 -/

/-- In every reachable optimizer state the history is consistent: aligned lists of at most `hs` pairs, all of positive
curvature. The next update never fails, and for every non-zero gradient its direction is a descent direction, namely minus
the L-BFGS inverse Hessian of the stored pairs applied to the gradient. -/
theorem C41_descent (hs : Nat) (hpos : 0 < hs) (st : St V) (h : Reach hs st) (g : V) (loss : ℝ) :
    Valid hs st ∧ ∃ st' d, direction hs st g loss = some st' ∧ st'.d = some d ∧ Valid hs st' ∧
      d = invHess st'.hdiag (st'.oldDirs.zip st'.oldStps) (-g) ∧ (g ≠ 0 → inner ℝ g d < 0) := by
  obtain ⟨hv, hsome⟩ := reach_valid hpos h
  obtain ⟨st', d, h1, h2, h3, -, -, h6⟩ := direction_spec hpos hv hsome g loss
  refine ⟨hv, st', d, h1, h3, h2, h6, ?_⟩
  intro hg
  have := (invHess_pos h2.scale _ (valid_pairs h2)).2 (-g) (by simpa using hg)
  rw [← h6, inner_neg_left] at this
  linarith

/-- The update stores the newest pair `(y, s)` last, drops the oldest one exactly when the history is full, and the new
inverse Hessian satisfies the secant equation `H y = s`. Pairs of curvature at most `1e-10` are skipped. -/
theorem C41_update (hs : Nat) (hpos : 0 < hs) (st : St V) (h : Reach hs st) (y s : V) :
    ∃ st', updateMemory hs y s st = some st' ∧
      (1 / 10 ^ 10 < inner ℝ y s →
        st'.oldDirs.zip st'.oldStps = (st.oldDirs.zip st.oldStps).drop (if st.oldDirs.length = hs then 1 else 0) ++ [(y, s)] ∧
        invHess st'.hdiag (st'.oldDirs.zip st'.oldStps) y = s) ∧
      (¬ 1 / 10 ^ 10 < inner ℝ y s → st' = st) := by
  obtain ⟨hv, -⟩ := reach_valid hpos h
  obtain ⟨st', h1, h2, -, -, h3, h4⟩ := updateMemory_spec hpos hv y s
  refine ⟨st', h1, ?_, h4⟩
  intro hys
  obtain ⟨ps, e1, rfl⟩ := h3 hys
  refine ⟨e1, ?_⟩
  rw [e1]
  refine invHess_secant h2.scale _ y s ?_ (lt_trans (by positivity) hys)
  intro p hp
  exact valid_pairs h2 p (by rw [e1]; exact List.mem_append_left _ hp)

/-- Two steps on the line: gradients 1 and -1, step 2 (so `y = -2`, `s = -2`): the history holds one pair. -/
example : ∃ st : St ℝ, Reach 5 st ∧ st.oldDirs.length = 1 := by
  have h1 : direction 5 (St.init : St ℝ) 1 0 = some ⟨1, some (-1), none, [], [], [], 1, some 1, some 0, none⟩ := by
    simp [direction, St.init]
  have r1 : Reach 5 (⟨1, some (-1), some 2, [], [], [], 1, some 1, some 0, none⟩ : St ℝ) := Reach.step 1 0 2 Reach.init h1
  obtain ⟨-, st2, d2, h2, -⟩ := C41_descent (V := ℝ) 5 (by norm_num) _ r1 (-1) 0
  refine ⟨{ st2 with t := some 1 }, Reach.step (-1) 0 1 r1 h2, ?_⟩
  have hu : updateMemory 5 (-2 : ℝ) (-2 : ℝ) ⟨2, some (-1), some 2, [], [], [], 1, some 1, some 0, none⟩ =
      some ⟨2, some (-1), some 2, [-2], [-2], [1 / 4], 1, some 1, some 0, none⟩ := by
    norm_num [updateMemory, inner]
  unfold direction at h2
  simp only [Option.bind_eq_bind, Option.bind_some] at h2
  rw [if_neg (by norm_num)] at h2
  norm_num at h2
  rw [hu, Option.bind_some] at h2
  cases ht : twoLoop 5 (⟨2, some (-1), some 2, [-2], [-2], [1 / 4], 1, some 1, some 0, none⟩ : St ℝ) (-1) with
  | none => rw [ht] at h2; simp at h2
  | some p =>
    rw [ht, Option.bind_some, Option.some_inj] at h2
    rw [← h2]
    rfl

/-! ### Property C40 -/

/-- A successful trial evaluation at `x + t d` leaves the parameters at `x`, and answers the loss there. A failing one leaves
them displaced. `p` are the parameters before the evaluation. -/
theorem C40_trial_partial (c : Closures V W) (x d p : V) (t : ℝ) (w : W) :
    (∀ v w', c.ls (p + t • d) w = (some v, w') → dirEval c x d t (p, w) = (some v, (x, w'))) ∧
    (∀ w', c.ls (p + t • d) w = (none, w') → dirEval c x d t (p, w) = (none, (p + t • d, w'))) := by
  unfold dirEval
  constructor
  · intro v w' h; simp [h]
  · intro w' h; simp [h]

/-- The property fails for failing evaluations. -/
theorem C40_violated : ∃ (c : Closures ℝ Unit) (x d t : ℝ), (dirEval c x d t (x, ())).1 = none ∧ (dirEval c x d t (x, ())).2.1 ≠ x :=
  ⟨⟨fun _ w => (none, w), fun _ w => (none, w)⟩, 0, 1, 1, by simp [dirEval], by simp [dirEval]⟩

/-- A trial after a failed one is then evaluated at the wrong point: here the search accepts the step `1/2` with loss `-1`,
although the loss at `x + 1/2 d` is `100`. -/
theorem C40_wrong_step_accepted : ∃ (f : ℝ → Option ℝ),
    lsLoop (V := ℝ) (W := Unit) ⟨fun _ w => (none, w), fun p w => (f p, w)⟩ 0 1 0 (-1) (1 / 10 ^ 4) 40 40 1 none (0, ()) =
      some (.step (1 / 2) (some (-1)), (0, ())) ∧ f (0 + 1 / 2 * 1) = some 100 := by
  refine ⟨fun p => if p = 1 then none else if p = 3 / 2 then some (-1) else some 100, ?_, ?_⟩
  · rw [lsLoop, if_pos (by norm_num)]
    simp only [Armijo.search, dirEval]
    norm_num [Armijo.errStep]
    rw [lsLoop, if_pos (by norm_num)]
    simp only [Armijo.search, dirEval]
    norm_num
  · norm_num

/-- When every trial fails, the parameters drift and the final move starts from the drifted point: here the step is `1/4`
from `x = 0`, but the parameters to which it is added are `3/2`. -/
theorem C40_drift : lsLoop (V := ℝ) (W := Unit) ⟨fun _ w => (none, w), fun _ w => (none, w)⟩ 0 1 0 (-1) (2 / 5) 40 40 1 none (0, ()) =
      some (.step (1 / 4) none, (3 / 2, ())) := by
  rw [lsLoop, if_pos (by norm_num)]
  simp only [Armijo.search, dirEval, Armijo.errStep]
  rw [lsLoop, if_pos (by norm_num)]
  simp only [Armijo.search, dirEval, Armijo.errStep]
  rw [lsLoop, if_neg (by norm_num)]
  norm_num


/-- If no trial raises, the line search leaves the parameters at `x`, and an accepted step `a` comes with the loss that the
closure answered at `x + a d`, which is below the start loss. `x` are the parameters at the start. -/
theorem C40_search_partial (c : Closures V W) (x d : V) (loss gtd eps t : ℝ) (fuelIn n : Nat) (nl : Option ℝ) (w : W)
    (out : LsOut) (p : V) (w' : W) (hg : gtd < 0) (heps : 0 ≤ eps) (ht : eps < t)
    (hr : ∀ y w, (c.ls y w).1 ≠ none)
    (h : lsLoop c x d loss gtd eps fuelIn n t nl (x, w) = some (out, (p, w'))) :
    p = x ∧ ∀ a nl', out = .step a nl' → 0 < a ∧ ∃ v w1, nl' = some v ∧ c.ls (x + a • d) w1 = (some v, w') ∧
      v ≤ loss + 1 / 10 ^ 4 * a * gtd ∧ v < loss := by
  have hnn : ∀ a (pw : V × W), pw.1 = x → (dirEval c x d a pw).1 ≠ none ∧ (dirEval c x d a pw).2.1 = x := by
    intro a pw _
    unfold dirEval
    simp only
    cases hc : c.ls (pw.1 + a • d) pw.2 with
    | mk o w2 =>
      cases o with
      | none => exact absurd (by rw [hc]) (hr (pw.1 + a • d) pw.2)
      | some v => simp
  have hI : ∀ a (s : V × W) v s', s.1 = x → dirEval c x d a s = (some v, s') → s'.1 = x := by
    intro a s v s' hs he
    have := (hnn a s hs).2
    rw [he] at this
    exact this
  cases n with
  | zero => unfold lsLoop at h; rw [if_pos ht] at h; exact absurd h (by simp)
  | succ n =>
    unfold lsLoop at h
    rw [if_pos ht] at h
    cases hs : Armijo.search (dirEval c x d) loss gtd (1 / 10 ^ 4) t (1 / 10 ^ 8) fuelIn (x, w) with
    | none => rw [hs] at h; exact absurd h (by simp)
    | some o =>
      obtain ⟨k1, k2, k3, -⟩ := Armijo.C39_armijo _ _ _ _ _ _ _ _ _ (fun s : V × W => s.1 = x) rfl hI hg (by norm_num)
        (by norm_num) (lt_of_le_of_lt heps ht) hs
      rw [hs] at h
      obtain ⟨res, st, tr⟩ := o
      cases res with
      | ok a v =>
        simp only [Option.some.injEq, Prod.mk.injEq] at h
        obtain ⟨rfl, hst⟩ := h
        obtain ⟨k11, k12, k13, -, ⟨p1, w1⟩, hp1, he⟩ := k1 a v rfl
        simp only at hp1 he
        have hp := hI a (p1, w1) v st hp1 he
        rw [hst] at hp he
        refine ⟨hp, ?_⟩
        intro a' nl' ho
        simp only [LsOut.step.injEq] at ho
        obtain ⟨rfl, rfl⟩ := ho
        refine ⟨k11, v, w1, rfl, ?_, k12, k13⟩
        subst hp1
        unfold dirEval at he
        simp only at he
        cases hc : c.ls (p1 + a • d) w1 with
        | mk o w2 =>
          rw [hc] at he
          cases o with
          | none => exact absurd he (by simp)
          | some v' => simp only [Prod.mk.injEq, Option.some.injEq] at he; rw [he.1, he.2.2]
      | fail =>
        simp only [Option.some.injEq, Prod.mk.injEq] at h
        obtain ⟨rfl, hst⟩ := h
        refine ⟨?_, by intro a nl' ho; exact absurd ho (by simp)⟩
        -- the last trial succeeded
        have key := Armijo.search_state (dirEval c x d) (fun s : V × W => s.1 = x) (fun a s hs => (hnn a s hs).2) (s := (x, w)) rfl hs
        rw [hst] at key
        exact key
      | err a =>
        obtain ⟨-, s, hp, he⟩ := k3 a rfl
        have := (hnn a s hp).1
        rw [he] at this
        exact absurd rfl this

/-- The search around the Armijo search always ends, whatever the closures do. -/
theorem C40_terminates (c : Closures V W) (x d : V) (loss gtd eps : ℝ) (fuelIn : Nat) (hg : gtd < 0) (heps : 0 ≤ eps) :
    ∀ (n : Nat) (t : ℝ) (nl : Option ℝ) (pw : V × W), t ≤ 1 / 10 ^ 8 * 2 ^ fuelIn → t * (2 / 3) ^ n ≤ eps →
      ∃ r, lsLoop c x d loss gtd eps fuelIn n t nl pw = some r := by
  intro n
  induction n with
  | zero =>
    intro t nl pw _ h2
    unfold lsLoop
    rw [if_neg (by simpa using h2)]
    exact ⟨_, rfl⟩
  | succ n ih =>
    intro t nl pw h1 h2
    unfold lsLoop
    split
    · rename_i hgt
      have ht : 0 < t := lt_of_le_of_lt heps hgt
      obtain ⟨o, ho, -⟩ := Armijo.C39_terminates (dirEval c x d) loss gtd (1 / 10 ^ 4) t (1 / 10 ^ 8) fuelIn pw hg
        (by norm_num) (by norm_num) ht (by norm_num) h1
      obtain ⟨-, -, k3, -, k5⟩ := Armijo.C39_armijo _ _ _ _ _ _ _ _ _ (fun _ => True) trivial (fun _ _ _ _ _ _ => trivial) hg
        (by norm_num) (by norm_num) ht ho
      rw [ho]
      obtain ⟨res, st, tr⟩ := o
      cases res with
      | ok a v => exact ⟨_, rfl⟩
      | fail => exact ⟨_, rfl⟩
      | err a =>
        obtain ⟨ka, -⟩ := k3 a rfl
        obtain ⟨p1, p2⟩ := k5 a (List.mem_of_getLast? ka)
        refine ih (a / 2) none st (by linarith) ?_
        rw [pow_succ] at h2
        have hp : 0 < (2 / 3 : ℝ) ^ n := by positivity
        nlinarith
    · exact ⟨_, rfl⟩

end Verif.Lbfgs
