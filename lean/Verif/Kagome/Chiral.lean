import Verif.Kagome.ChiralModel
import Verif.Kagome.Su3Witness
/-
Lemmas on the operators of SU3_CHIRAL and SU3_AKLT and on `rdm1x1` with an operator.
-/
namespace Verif.KagomeRdm
open Tensor Ctm Rdm Spec
open Su3 (δ)

/-! ### Assignments -/

theorem assign_shape (T : Tensor ℂ) (l : List (List Nat × ℂ)) : (assign T l).shape = T.shape := by
  induction l generalizing T with
  | nil => rfl
  | cons q l ih => exact (ih _)

theorem assign_ones (l : List (List Nat × ℂ)) (h : ∀ q ∈ l, q.2 = 1) (T : Tensor ℂ) (idx : List Nat) : (assign T l).val idx = if idx ∈ l.map Prod.fst then 1 else T.val idx := by
  induction l generalizing T with
  | nil => simp [assign]
  | cons q l ih =>
    have := ih (fun x hx => h x (List.mem_cons_of_mem _ hx)) ⟨T.shape, Function.update T.val q.1 q.2⟩
    refine Eq.trans this ?_
    by_cases h1 : idx ∈ l.map Prod.fst
    · rw [if_pos h1, if_pos (by rw [List.map_cons]; exact List.mem_cons_of_mem _ h1)]
    · rw [if_neg h1]
      by_cases h2 : idx = q.1
      · subst h2
        rw [if_pos (by simp)]
        show Function.update T.val q.1 q.2 q.1 = 1
        rw [Function.update_self, h q (by simp)]
      · rw [if_neg (by rw [List.map_cons, List.mem_cons]; exact fun h => h.elim h2 h1)]
        exact Function.update_of_ne h2 _ _

theorem assign_fun (ks : List (List Nat)) (f : List Nat → ℂ) (T : Tensor ℂ) (idx : List Nat) : (assign T (ks.map fun k => (k, f k))).val idx = if idx ∈ ks then f idx else T.val idx := by
  induction ks generalizing T with
  | nil => simp [assign]
  | cons q l ih =>
    refine Eq.trans (ih ⟨T.shape, Function.update T.val q (f q)⟩) ?_
    by_cases h1 : idx ∈ l
    · rw [if_pos h1, if_pos (List.mem_cons_of_mem _ h1)]
    · rw [if_neg h1]
      by_cases h2 : idx = q
      · subst h2
        rw [if_pos (by simp)]
        exact Function.update_self _ _ _
      · rw [if_neg (by rw [List.mem_cons]; exact fun h => h.elim h2 h1)]
        exact Function.update_of_ne h2 _ _

theorem mem_triples (i j k : Nat) : (i, j, k) ∈ triples ↔ i < 3 ∧ j < 3 ∧ k < 3 := by
  simp only [triples, List.mem_flatMap, List.mem_map, List.mem_range, Prod.mk.injEq]
  constructor
  · rintro ⟨a, ha, b, hb, c, hc, rfl, rfl, rfl⟩; exact ⟨ha, hb, hc⟩
  · rintro ⟨a, b, c⟩; exact ⟨i, a, j, b, k, c, rfl, rfl, rfl⟩

/-- All three spins in the same state. -/
def Spec.aligned (p : Nat) : Op3 ℂ p := Matrix.of fun t s => if t = s ∧ t 0 = t 1 ∧ t 1 = t 2 then 1 else 0

theorem swap01_apply (t s : Spins 3) : swap 3 0 1 t s = if t 0 = s 1 ∧ t 1 = s 0 ∧ t 2 = s 2 then 1 else 0 := by
  simp only [swap, Matrix.of_apply, spins_ext, Function.comp]
  rw [show Equiv.swap (0 : Fin 3) 1 0 = 1 by decide, show Equiv.swap (0 : Fin 3) 1 1 = 0 by decide, show Equiv.swap (0 : Fin 3) 1 2 = 2 by decide]

theorem swap12_apply (t s : Spins 3) : swap 3 1 2 t s = if t 0 = s 0 ∧ t 1 = s 2 ∧ t 2 = s 1 then 1 else 0 := by
  simp only [swap, Matrix.of_apply, spins_ext, Function.comp]
  rw [show Equiv.swap (1 : Fin 3) 2 0 = 0 by decide, show Equiv.swap (1 : Fin 3) 2 1 = 2 by decide, show Equiv.swap (1 : Fin 3) 2 2 = 1 by decide]

theorem swap20_apply (t s : Spins 3) : swap 3 2 0 t s = if t 0 = s 2 ∧ t 1 = s 1 ∧ t 2 = s 0 then 1 else 0 := by
  simp only [swap, Matrix.of_apply, spins_ext, Function.comp]
  rw [show Equiv.swap (2 : Fin 3) 0 0 = 2 by decide, show Equiv.swap (2 : Fin 3) 0 1 = 1 by decide, show Equiv.swap (2 : Fin 3) 0 2 = 0 by decide]

theorem swap02_apply (t s : Spins 3) : swap 3 0 2 t s = if t 0 = s 2 ∧ t 1 = s 1 ∧ t 2 = s 0 then 1 else 0 := by
  simp only [swap, Matrix.of_apply, spins_ext, Function.comp]
  rw [show Equiv.swap (0 : Fin 3) 2 0 = 2 by decide, show Equiv.swap (0 : Fin 3) 2 1 = 1 by decide, show Equiv.swap (0 : Fin 3) 2 2 = 0 by decide]

theorem permTri_holds : Holds permTri (cyclic 3) := by
  refine ⟨assign_shape _ _, fun t s => ?_⟩
  unfold permTri
  rw [assign_ones _ (by intro q hq; simp only [List.mem_map] at hq; obtain ⟨_, _, rfl⟩ := hq; rfl)]
  simp only [cyclic, Matrix.of_apply, zerosT]
  congr 1
  simp only [List.mem_map, Prod.exists, List.map_map, Function.comp, mem_triples, List.cons.injEq, and_true, eq_iff_iff, Fin.ext_iff]
  constructor
  · rintro ⟨i, j, k, -, h0, h1, h2, h3, h4, h5⟩; omega
  · rintro ⟨h0, h1, h2⟩; exact ⟨t 0, t 1, t 2, ⟨(t 0).2, (t 1).2, (t 2).2⟩, rfl, rfl, rfl, by omega, by omega, by omega⟩

theorem permTriInv_holds : Holds permTriInv (cyclic 3).conjTranspose := by
  refine ⟨assign_shape _ _, fun t s => ?_⟩
  unfold permTriInv
  rw [assign_ones _ (by intro q hq; simp only [List.mem_map] at hq; obtain ⟨_, _, rfl⟩ := hq; rfl)]
  simp only [cyclic, Matrix.conjTranspose_apply, Matrix.of_apply, zerosT, apply_ite (star : ℂ → ℂ), star_one, star_zero]
  congr 1
  simp only [List.mem_map, Prod.exists, List.map_map, Function.comp, mem_triples, List.cons.injEq, and_true, eq_iff_iff, Fin.ext_iff]
  constructor
  · rintro ⟨i, j, k, -, h0, h1, h2, h3, h4, h5⟩; omega
  · rintro ⟨h0, h1, h2⟩; exact ⟨t 0, t 1, t 2, ⟨(t 0).2, (t 1).2, (t 2).2⟩, rfl, rfl, rfl, by omega, by omega, by omega⟩

theorem exchTri_holds : Holds exchTri (swaps 3 - (2 : ℂ) • aligned 3) := by
  refine ⟨assign_shape _ _, fun t s => ?_⟩
  unfold exchTri
  rw [assign_ones _ (by
    intro q hq
    simp only [List.mem_flatMap, List.mem_cons, List.not_mem_nil, or_false] at hq
    obtain ⟨_, _, rfl | rfl | rfl⟩ := hq <;> rfl)]
  have hm : ([(t 0 : Nat), t 1, t 2, s 0, s 1, s 2] ∈ (triples.flatMap fun (i, j, k) => [([i, j, k, j, i, k], (1 : ℂ)), ([i, j, k, i, k, j], 1), ([i, j, k, k, j, i], 1)]).map Prod.fst) ↔
      (t 0 = s 1 ∧ t 1 = s 0 ∧ t 2 = s 2) ∨ (t 0 = s 0 ∧ t 1 = s 2 ∧ t 2 = s 1) ∨ (t 0 = s 2 ∧ t 1 = s 1 ∧ t 2 = s 0) := by
    simp only [List.mem_map, List.mem_flatMap, Prod.exists, mem_triples, List.mem_cons, List.not_mem_nil, or_false, Prod.mk.injEq, Fin.ext_iff]
    constructor
    · rintro ⟨x, y, ⟨i, j, k, -, h⟩, hx⟩
      rcases h with ⟨rfl, rfl⟩ | ⟨rfl, rfl⟩ | ⟨rfl, rfl⟩ <;> simp only [List.cons.injEq, and_true] at hx <;> omega
    · intro h
      rcases h with ⟨h0, h1, h2⟩ | ⟨h0, h1, h2⟩ | ⟨h0, h1, h2⟩
      · exact ⟨[t 0, t 1, t 2, t 1, t 0, t 2], 1, ⟨t 0, t 1, t 2, ⟨(t 0).2, (t 1).2, (t 2).2⟩, Or.inl ⟨rfl, rfl⟩⟩, by simp [h0, h1, h2]⟩
      · exact ⟨[t 0, t 1, t 2, t 0, t 2, t 1], 1, ⟨t 0, t 1, t 2, ⟨(t 0).2, (t 1).2, (t 2).2⟩, Or.inr (Or.inl ⟨rfl, rfl⟩)⟩, by simp [h0, h1, h2]⟩
      · exact ⟨[t 0, t 1, t 2, t 2, t 1, t 0], 1, ⟨t 0, t 1, t 2, ⟨(t 0).2, (t 1).2, (t 2).2⟩, Or.inr (Or.inr ⟨rfl, rfl⟩)⟩, by simp [h0, h1, h2]⟩
  rw [if_congr hm rfl rfl]
  simp only [swaps, aligned, Matrix.sub_apply, Matrix.add_apply, Matrix.smul_apply, Matrix.of_apply, swap01_apply, swap12_apply, swap20_apply, zerosT, smul_eq_mul, spins_ext]
  generalize t 0 = a; generalize t 1 = b; generalize t 2 = c; generalize s 0 = d; generalize s 1 = e; generalize s 2 = f
  have key : ∀ a b c d e f : Fin 3, (if (a = e ∧ b = d ∧ c = f) ∨ (a = d ∧ b = f ∧ c = e) ∨ (a = f ∧ b = e ∧ c = d) then (1 : ℤ) else 0) =
      (if a = e ∧ b = d ∧ c = f then 1 else 0) + (if a = d ∧ b = f ∧ c = e then 1 else 0) + (if a = f ∧ b = e ∧ c = d then 1 else 0) -
        2 * (if (a = d ∧ b = e ∧ c = f) ∧ a = b ∧ b = c then 1 else 0) := by decide +kernel
  have := congrArg (Int.cast : ℤ → ℂ) (key a b c d e f)
  push_cast at this
  exact this

theorem chiralH_holds (m : ChiralCouplings) : Holds (chiralH m) (su3Triangle ⟨m.j1, m.Kr, m.Ki⟩ - (2 * m.j1 : ℂ) • aligned 3) := by
  have h := lin_holds_cons (z := m.Kr + m.Ki * Complex.I) permTri_holds (lin_holds_cons (z := m.Kr - m.Ki * Complex.I) permTriInv_holds (lin_holds_cons (z := (m.j1 : ℂ)) exchTri_holds lin_holds_nil))
  refine ⟨h.1, fun t s => (h.2 t s).trans ?_⟩
  simp only [su3Triangle, Matrix.add_apply, Matrix.sub_apply, Matrix.smul_apply, smul_eq_mul, Matrix.zero_apply]
  ring

/-! ### Matrices of size 27 -/

/-- `o` is the operator `O` as a matrix of size 27. -/
def Spec.IsMat (o : Tensor ℂ) (O : Op3 ℂ 3) : Prop := o.shape = [3 ^ 3, 3 ^ 3] ∧ ∀ t s : Spins 3, o.val [index t, index s] = O t s

theorem index3 (t : Spins 3) : index t = fmap (t 0) (t 1) (t 2) := by unfold index fmap; ring

theorem fmap_inj {a b c d e f : Nat} (hb : b < 3) (hc : c < 3) (he : e < 3) (hf : f < 3) (h : fmap a b c = fmap d e f) : a = d ∧ b = e ∧ c = f := by
  unfold fmap at h; omega

theorem fmapInv_index (t : Spins 3) : fmapInv (index t) = ((t 0 : Nat), (t 1 : Nat), (t 2 : Nat)) := by
  have h0 := (t 0).2; have h1 := (t 1).2; have h2 := (t 2).2
  rw [index3]
  unfold fmapInv fmap
  simp only [Prod.mk.injEq]
  omega

theorem eye27_isMat : IsMat (eyeT 27) 1 := by
  refine ⟨rfl, fun t s => ?_⟩
  simp only [eyeT, List.getD_cons_zero, List.getD_cons_succ, Matrix.one_apply]
  congr 1
  refine propext ⟨fun h => ?_, fun h => by rw [h]⟩
  rw [index3, index3] at h
  obtain ⟨a, b, c⟩ := fmap_inj (t 1).2 (t 2).2 (s 1).2 (s 2).2 h
  exact (spins_ext t s).2 ⟨Fin.ext a, Fin.ext b, Fin.ext c⟩

/-- A permutation of the states as a matrix of assignments. -/
theorem bondOp_isMat (f : Nat → Nat → Nat → Nat) (O : Op3 ℂ 3) (h : ∀ t s : Spins 3, O t s = if index s = f (t 0) (t 1) (t 2) then 1 else 0) : IsMat (bondOp f) O := by
  refine ⟨assign_shape _ _, fun t s => ?_⟩
  unfold bondOp
  rw [assign_ones _ (by intro q hq; simp only [List.mem_map] at hq; obtain ⟨_, _, rfl⟩ := hq; rfl), h]
  simp only [zerosT]
  congr 1
  simp only [List.mem_map, Prod.exists, List.map_map, Function.comp, mem_triples, List.cons.injEq, and_true, eq_iff_iff]
  constructor
  · rintro ⟨i, j, k, ⟨hi, hj, hk⟩, h0, h1⟩
    rw [index3] at h0
    obtain ⟨rfl, rfl, rfl⟩ := fmap_inj hj hk (t 1).2 (t 2).2 h0
    exact h1.symm
  · intro h1; exact ⟨t 0, t 1, t 2, ⟨(t 0).2, (t 1).2, (t 2).2⟩, (index3 t).symm, h1.symm⟩

theorem matP_isMat (f : Nat → Nat → Nat → Nat) (O : Op3 ℂ 3) (h : ∀ t s : Spins 3, O t s = if index s = f (t 0) (t 1) (t 2) then 1 else 0) : IsMat (matP f) O := by
  refine ⟨assign_shape _ _, fun t s => ?_⟩
  unfold matP
  rw [assign_ones _ (by intro q hq; simp only [List.mem_map] at hq; obtain ⟨_, _, rfl⟩ := hq; rfl), h]
  simp only [zerosT]
  congr 1
  simp only [List.mem_map, List.map_map, Function.comp, List.mem_range, List.cons.injEq, and_true, eq_iff_iff]
  constructor
  · rintro ⟨i, hi, rfl, h1⟩
    rw [fmapInv_index] at h1
    exact h1.symm
  · intro h1
    refine ⟨index t, index_lt t, rfl, ?_⟩
    rw [fmapInv_index]
    exact h1.symm

theorem perm_index (s : Spins 3) {a b c : Fin 3} : index s = fmap a b c ↔ s 0 = a ∧ s 1 = b ∧ s 2 = c := by
  rw [index3]
  constructor
  · intro h
    obtain ⟨x, y, z⟩ := fmap_inj (s 1).2 (s 2).2 b.2 c.2 h
    exact ⟨Fin.ext x, Fin.ext y, Fin.ext z⟩
  · rintro ⟨rfl, rfl, rfl⟩; rfl

theorem bond12_isMat : IsMat (bondOp fun i j k => fmap j i k) (swap 3 0 1) :=
  bondOp_isMat _ _ fun t s => by rw [swap01_apply, if_congr (perm_index s) rfl rfl]; congr 1; exact propext ⟨fun ⟨a, b, c⟩ => ⟨b.symm, a.symm, c.symm⟩, fun ⟨a, b, c⟩ => ⟨b.symm, a.symm, c.symm⟩⟩
theorem bond23_isMat : IsMat (bondOp fun i j k => fmap i k j) (swap 3 1 2) :=
  bondOp_isMat _ _ fun t s => by rw [swap12_apply, if_congr (perm_index s) rfl rfl]; congr 1; exact propext ⟨fun ⟨a, b, c⟩ => ⟨a.symm, c.symm, b.symm⟩, fun ⟨a, b, c⟩ => ⟨a.symm, c.symm, b.symm⟩⟩
theorem bond13_isMat : IsMat (bondOp fun i j k => fmap k j i) (swap 3 0 2) :=
  bondOp_isMat _ _ fun t s => by rw [swap02_apply, if_congr (perm_index s) rfl rfl]; congr 1; exact propext ⟨fun ⟨a, b, c⟩ => ⟨c.symm, b.symm, a.symm⟩, fun ⟨a, b, c⟩ => ⟨c.symm, b.symm, a.symm⟩⟩

theorem aklt3_isMat : IsMat aklt3 (cyclic 3 + (cyclic 3).conjTranspose) := by
  have h1 : IsMat (matP fun a b c => fmap b c a) (cyclic 3) := matP_isMat _ _ fun t s => by
    simp only [cyclic, Matrix.of_apply]; rw [if_congr (perm_index s) rfl rfl]; congr 1
    exact propext ⟨fun ⟨a, b, c⟩ => ⟨a.symm, b.symm, c.symm⟩, fun ⟨a, b, c⟩ => ⟨a.symm, b.symm, c.symm⟩⟩
  have h2 : IsMat (matP fun a b c => fmap c a b) (cyclic 3).conjTranspose := matP_isMat _ _ fun t s => by
    simp only [cyclic, Matrix.conjTranspose_apply, Matrix.of_apply, apply_ite (star : ℂ → ℂ), star_one, star_zero]; rw [if_congr (perm_index s) rfl rfl]; congr 1
    exact propext ⟨fun ⟨a, b, c⟩ => ⟨c, a, b⟩, fun ⟨a, b, c⟩ => ⟨b, c, a⟩⟩
  refine ⟨rfl, fun t s => ?_⟩
  simp only [aklt3, Models.lin, List.map_cons, List.map_nil, List.sum_cons, List.sum_nil, one_mul, add_zero, h1.2, h2.2, Matrix.add_apply]

theorem lamSite_isMat (l : Su3.Op) (hl : ∀ i j, i ≠ j → l i j = 0) (x : Fin 3) : IsMat (lamSite l x) (at' x l) := by
  refine ⟨assign_shape _ _, fun t s => ?_⟩
  have e : lamSite l x = assign (eyeT 27) (((List.range 27).map fun s => [s, s]).map fun k => (k, (fun k : List Nat => (Models.opP 3 l).val
        [match x with | 0 => (fmapInv (k.getD 0 0)).1 | 1 => (fmapInv (k.getD 0 0)).2.1 | 2 => (fmapInv (k.getD 0 0)).2.2,
         match x with | 0 => (fmapInv (k.getD 0 0)).1 | 1 => (fmapInv (k.getD 0 0)).2.1 | 2 => (fmapInv (k.getD 0 0)).2.2]) k)) := by
    unfold lamSite
    rw [List.map_map]; rfl
  rw [e, assign_fun]
  by_cases h : index t = index s
  · have hts : t = s := by
      rw [index3 t] at h
      obtain ⟨a, b, c⟩ := (perm_index (s := s) (a := t 0) (b := t 1) (c := t 2)).1 h.symm
      exact (spins_ext t s).2 ⟨a.symm, b.symm, c.symm⟩
    subst hts
    rw [if_pos (show [index t, index t] ∈ List.map (fun s => [s, s]) (List.range 27) from List.mem_map.2 ⟨index t, List.mem_range.2 (index_lt t), rfl⟩)]
    simp only [List.getD_cons_zero, fmapInv_index, at_eval]
    fin_cases x <;> simp [Models.opP, Fin.prod_univ_three, δ]
  · rw [if_neg (fun hm => by obtain ⟨a, -, h2⟩ := List.mem_map.1 hm; simp only [List.cons.injEq, and_true] at h2; exact h (h2.1.symm.trans h2.2))]
    simp only [eyeT, List.getD_cons_zero, List.getD_cons_succ, if_neg h, at_eval]
    symm
    obtain ⟨i, hi⟩ : ∃ i, t i ≠ s i := by by_contra hc; push Not at hc; exact h (by rw [funext hc])
    refine Finset.prod_eq_zero (Finset.mem_univ i) ?_
    by_cases hx : i = x
    · subst hx; rw [if_pos rfl, hl _ _ hi]
    · rw [if_neg hx]; simp [δ, hi]

theorem gens_eq : gens = Su3.Spec.lambda := by
  funext k; ext i j
  fin_cases k <;> fin_cases i <;> fin_cases j <;> simp [gens, lambda3, lambda8, Su3.Spec.lambda]

theorem lambda3_eq : lambda3 = Su3.Spec.lambda 2 := by rw [← gens_eq]; rfl
theorem lambda8_eq : lambda8 = Su3.Spec.lambda 7 := by rw [← gens_eq]; rfl

theorem lambda3_isMat (x : Fin 3) : IsMat (lamSite lambda3 x) (at' x (Su3.Spec.lambda 2)) := by
  rw [← lambda3_eq]
  exact lamSite_isMat _ (by intro i j h; fin_cases i <;> fin_cases j <;> first | exact absurd rfl h | simp [lambda3]) x
theorem lambda8_isMat (x : Fin 3) : IsMat (lamSite lambda8 x) (at' x (Su3.Spec.lambda 7)) := by
  rw [← lambda8_eq]
  exact lamSite_isMat _ (by intro i j h; fin_cases i <;> fin_cases j <;> first | exact absurd rfl h | simp [lambda8]) x

/-! ### rdm1x1 with an operator -/

theorem around_unique {st : State ℂ} {env : Env ℂ} {c : Coord} {e e' : SiteEnv ℂ} {a a' : Tensor ℂ} (h : Rdm.Spec.AroundSite st env c e a) (h' : Rdm.Spec.AroundSite st env c e' a') : e = e' ∧ a = a' := by
  cases e; cases e'
  have := h.C1.symm.trans h'.C1; have := h.C2.symm.trans h'.C2; have := h.C3.symm.trans h'.C3; have := h.C4.symm.trans h'.C4
  have := h.T1.symm.trans h'.T1; have := h.T2.symm.trans h'.T2; have := h.T3.symm.trans h'.T3; have := h.T4.symm.trans h'.T4
  have := h.ket.symm.trans h'.ket
  simp_all

theorem op_herm (eigh : Tensor ℂ → List ℝ × Tensor ℂ) {D : Dims} {st : State ℂ} {env : Env ℂ} (ht : Tiling st) (hs : FitsState D st) (he : FitsEnv D st env)
    (hp : ∀ c, D.p c = 3 ^ 3) {R : Tensor ℂ} (hR : rdm1x1 eigh true false st env (0, 0) none = .ok R) (hh : HermitianSite 3 D st env (0, 0)) :
    ∃ n : ℂ, op1x1 eigh st env (eyeT 27) = .ok n ∧ ∀ (o : Tensor ℂ) (O : Op3 ℂ 3), IsMat o O →
      ∃ v, op1x1 eigh st env o = .ok v ∧ ratio v n = .ok (Matrix.trace (reduced 3 1 R 0 1 2 * O)) := by
  have main : ∀ (o : Tensor ℂ) (O : Op3 ℂ 3), IsMat o O → ∃ e a rho, Rdm.Spec.AroundSite st env (0, 0) e a ∧
      Corner.Spec.IsNetwork (Rdm.Spec.dims1 D (0, 0)) rho [[4], [7]] Rdm.Spec.inner1 (Rdm.Spec.rho1 (Rdm.Spec.dims1 D (0, 0)) e a) ∧ symRdm eigh false rho = .ok R ∧
      op1x1 eigh st env o = .ok (Matrix.trace (reduced 3 1 rho 0 1 2 * O)) := by
    intro o O ho
    obtain ⟨e, a, rho, r, h0, h1, h2, h3, -, h5⟩ := C31_expectation eigh true false ht hs he (0, 0) (.inl rfl) o (by rw [ho.1, hp])
    refine ⟨e, a, rho, h0, h1, by rw [← h2, hR], ?_⟩
    unfold op1x1
    rw [h3]
    refine congrArg Except.ok ?_
    rw [h5, hp, sum_pairs]
    simp only [Matrix.trace, Matrix.diag, Matrix.mul_apply, reduced_one, ho.2]
  obtain ⟨e, a, rho, h0, h1, h2, h3⟩ := main _ _ eye27_isMat
  rw [mul_one] at h3
  refine ⟨_, h3, fun o O ho => ?_⟩
  obtain ⟨e', a', rho', h0', h1', h2', h3'⟩ := main o O ho
  obtain ⟨rfl, rfl⟩ := around_unique h0 h0'
  have d4 : Rdm.Spec.dims1 D (0, 0) 4 = 3 ^ 3 := hp _
  have d7 : Rdm.Spec.dims1 D (0, 0) 7 = 3 ^ 3 := hp _
  have same : reduced 3 1 rho' 0 1 2 = reduced 3 1 rho 0 1 2 := by
    ext t s
    rw [reduced_one, reduced_one]
    have b : ∀ g ∈ ([[4], [7]] : List (List Nat)), ∀ l ∈ g, (Function.update (fun _ => index s) 4 (index t) : Nat → Nat) l < Rdm.Spec.dims1 D (0, 0) l := by
      intro g hg l hl
      rcases List.mem_cons.1 hg with rfl | hg
      · rw [List.mem_singleton.1 hl, d4, Function.update_self]; exact index_lt t
      · rw [List.mem_singleton.1 hg] at hl
        rw [List.mem_singleton.1 hl, d7, Function.update_of_ne (by decide)]; exact index_lt s
    have x := h1.2 _ b
    have y := h1'.2 _ b
    have z : (List.map (fun g : List Nat => ravel (g.map (Rdm.Spec.dims1 D (0, 0))) (g.map (Function.update (fun _ => index s) 4 (index t)))) [[4], [7]]) = [index t, index s] := by
      simp [ravel]
    rw [z] at x y
    rw [x, y]
  have sT : rho.shape = List.replicate 1 (3 ^ 3) ++ List.replicate 1 (3 ^ 3) := by
    refine h1.1.trans ?_
    simp [d4, d7]
  have key := reduced_ratio eigh sT h2 (hh e a rho h0 h1) O
  refine ⟨_, h3', ?_⟩
  rw [same]
  unfold ratio
  rw [if_neg key.1, key.2]

end Verif.KagomeRdm
