import Verif.Kagome.ChiralProps
import Verif.Corrf.Props
/-
C122: SU3_AKLT.
-/
namespace Verif.KagomeRdm
open Tensor Ctm Rdm Ctm.Spec Spec
open Su3 (δ)

theorem rdm1_shape (eigh : Tensor ℂ → List ℝ × Tensor ℂ) {D : Dims} {st : State ℂ} {env : Env ℂ} (ht : Tiling st) (hs : FitsState D st) (he : FitsEnv D st env)
    (hp : ∀ c, D.p c = 3 ^ 3) {R : Tensor ℂ} (hR : rdm1x1 eigh true false st env (0, 0) none = .ok R) : R.shape = [27, 27] := by
  obtain ⟨e, a, rho, r, h0, h1, h2, -⟩ := C31_expectation eigh true false ht hs he (0, 0) (.inl rfl) (eyeT 27) (by rw [hp]; rfl)
  rw [h2] at hR
  have d4 : Rdm.Spec.dims1 D (0, 0) 4 = 3 ^ 3 := hp _
  have d7 : Rdm.Spec.dims1 D (0, 0) 7 = 3 ^ 3 := hp _
  have sT : rho.shape = List.replicate 1 (3 ^ 3) ++ List.replicate 1 (3 ^ 3) := h1.1.trans (by simp [d4, d7])
  obtain ⟨hpos, hn⟩ := symRdm_ok eigh sT hR
  obtain ⟨R1, e1, s1, -⟩ := symRdm_entries eigh sT hpos hn
  obtain rfl : R = R1 := by rw [hR] at e1; exact Except.ok.inj e1
  rw [s1]; rfl

theorem mm_trace {A B : Tensor ℂ} (hA : A.shape = [27, 27]) (hB : B.shape = [27, 27]) : ∃ x y, Models.mm A B = some x ∧ einsum [(x, [0, 0])] [] = some y ∧
    y.val [] = ∑ i ∈ Finset.range (3 ^ 3), ∑ j ∈ Finset.range (3 ^ 3), A.val [i, j] * B.val [j, i] := by
  obtain ⟨x, e, s, v⟩ := einsum_ok (fun _ => 3 ^ 3) [(A, [0, 1]), (B, [1, 2])] [0, 2] (by simp [hA, hB]) (by simp) (by simp)
  obtain ⟨y, e', s', v'⟩ := einsum_ok (fun _ => 3 ^ 3) [(x, [0, 0])] [] (by simp [s]) (by simp) (by simp)
  refine ⟨x, y, e, e', ?_⟩
  have h := v' (fun _ => 0) (by simp)
  have hl : (([(x, [0, 0])] : List (Tensor ℂ × List Nat)).flatMap Prod.snd).dedup.filter (fun l => l ∉ ([] : List Nat)) = [0] := by
    simp only [List.flatMap_cons, List.flatMap_nil]; decide
  rw [hl] at h
  simp only [List.map_nil] at h
  rw [h]
  simp only [sumOver, termOf, List.map_cons, List.map_nil, List.prod_cons, List.prod_nil, mul_one, Function.update_self]
  refine Finset.sum_congr rfl fun i hi => ?_
  have k := v (fun _ => i) (by simp only [List.mem_cons, List.not_mem_nil, or_false]; intro l _; exact Finset.mem_range.1 hi)
  have hl2 : (([(A, [0, 1]), (B, [1, 2])] : List (Tensor ℂ × List Nat)).flatMap Prod.snd).dedup.filter (fun l => l ∉ [0, 2]) = [1] := by
    simp only [List.flatMap_cons, List.flatMap_nil]; decide
  rw [hl2] at k
  simp only [List.map_cons, List.map_nil] at k
  rw [k]
  simp only [sumOver, termOf, List.map_cons, List.map_nil, List.prod_cons, List.prod_nil, mul_one]
  refine Finset.sum_congr rfl fun j hj => ?_
  simp [Function.update]

/-- `energy_triangle` is two thirds of the expectation value of `P + P^-1` in the down triangle. -/
theorem C122_energy_down (eigh : Tensor ℂ → List ℝ × Tensor ℂ) {D : Dims} {st : State ℂ} {env : Env ℂ} (ht : Tiling st) (hs : FitsState D st) (he : FitsEnv D st env)
    (hp : ∀ c, D.p c = 3 ^ 3) {R : Tensor ℂ} (hR : rdm1x1 eigh true false st env (0, 0) none = .ok R) :
    akltDn eigh st env = .ok (2 / 3 * Matrix.trace (reduced 3 1 R 0 1 2 * (cyclic 3 + (cyclic 3).conjTranspose))) := by
  obtain ⟨x, y, e1, e2, v⟩ := mm_trace (rdm1_shape eigh ht hs he hp hR) (B := aklt3) rfl
  unfold akltDn
  rw [hR]
  show (lift (Models.mm R aklt3) >>= _) = _
  rw [e1]
  show (lift (einsum [(x, [0, 0])] []) >>= _) = _
  rw [e2]
  refine congrArg Except.ok ?_
  rw [v, sum_pairs]
  simp only [aklt3_isMat.2]
  refine congrArg (2 / 3 * ·) ?_
  simp only [Matrix.trace, Matrix.diag, Matrix.mul_apply, reduced_one]

theorem diag2_val {A B : Tensor ℂ} {O : Op3 ℂ 3} (hA : A.shape = [27, 27]) (hB : IsMat B O) (hd : ∀ t s, t ≠ s → O t s = 0) :
    diag2 A B = some (Matrix.trace (reduced 3 1 A 0 1 2 * O)) := by
  obtain ⟨y, e', s', v'⟩ := einsum_ok (fun _ => 3 ^ 3) [(A, [0, 0]), (B, [0, 0])] [] (by simp [hA, hB.1]) (by simp) (by simp)
  have h := v' (fun _ => 0) (by simp)
  have hl : (([(A, [0, 0]), (B, [0, 0])] : List (Tensor ℂ × List Nat)).flatMap Prod.snd).dedup.filter (fun l => l ∉ ([] : List Nat)) = [0] := by
    simp only [List.flatMap_cons, List.flatMap_nil]; decide
  rw [hl] at h
  simp only [List.map_nil] at h
  simp only [sumOver, termOf, List.map_cons, List.map_nil, List.prod_cons, List.prod_nil, mul_one, Function.update_self] at h
  unfold diag2
  rw [e']
  refine congrArg some (h.trans ?_)
  rw [sum_spins]
  simp only [Matrix.trace, Matrix.diag, Matrix.mul_apply, reduced_one, hB.2]
  refine Finset.sum_congr rfl fun s _ => ?_
  rw [Finset.sum_eq_single s (fun t _ h => by rw [hd _ _ h, mul_zero]) (fun h => absurd (Finset.mem_univ _) h)]

theorem at_diag (x : Fin 3) (l : Su3.Op) (hl : ∀ i j, i ≠ j → l i j = 0) (t s : Spins 3) (h : t ≠ s) : at' x l t s = 0 := by
  rw [at_eval]
  obtain ⟨i, hi⟩ : ∃ i, t i ≠ s i := by by_contra hc; push Not at hc; exact h (funext hc)
  refine Finset.prod_eq_zero (Finset.mem_univ i) ?_
  by_cases hx : i = x
  · subst hx; rw [if_pos rfl, hl _ _ hi]
  · rw [if_neg hx]; simp [δ, hi]

theorem lambda3_diag (i j : Fin 3) (h : i ≠ j) : Su3.Spec.lambda 2 i j = 0 := by
  rw [← lambda3_eq]; fin_cases i <;> fin_cases j <;> first | exact absurd rfl h | simp [lambda3]
theorem lambda8_diag (i j : Fin 3) (h : i ≠ j) : Su3.Spec.lambda 7 i j = 0 := by
  rw [← lambda8_eq]; fin_cases i <;> fin_cases j <;> first | exact absurd rfl h | simp [lambda8]

/-- `eval_lambdas`: the expectation values of the two diagonal generators on the three spins. -/
theorem C122_lambdas (eigh : Tensor ℂ → List ℝ × Tensor ℂ) {D : Dims} {st : State ℂ} {env : Env ℂ} (ht : Tiling st) (hs : FitsState D st) (he : FitsEnv D st env)
    (hp : ∀ c, D.p c = 3 ^ 3) {R : Tensor ℂ} (hR : rdm1x1 eigh true false st env (0, 0) none = .ok R) :
    ∃ v : Fin 3 → Fin 8 → ℂ, akltLambdas eigh st env = .ok ((v 0 2, v 1 2, v 2 2), (v 0 7, v 1 7, v 2 7)) ∧
      ∀ x k, v x k = Matrix.trace (reduced 3 1 R 0 1 2 * at' x (Su3.Spec.lambda k)) := by
  refine ⟨_, ?_, fun x k => rfl⟩
  have sR := rdm1_shape eigh ht hs he hp hR
  have h3 := fun x => diag2_val sR (lambda3_isMat x) (at_diag x _ lambda3_diag)
  have h8 := fun x => diag2_val sR (lambda8_isMat x) (at_diag x _ lambda8_diag)
  unfold akltLambdas
  rw [hR]
  show (lift (diag2 R _) >>= fun x0 => lift (diag2 R _) >>= fun x1 => lift (diag2 R _) >>= fun x2 => lift (diag2 R _) >>= fun y0 => lift (diag2 R _) >>= fun y1 => lift (diag2 R _) >>= _) = _
  rw [h3, h3, h3, h8, h8, h8]
  rfl

/-- `energy_triangle_up` never returns. -/
theorem C122_up_violated (st : State ℂ) (env : Env ℂ) (v : ℂ) : akltUp st env ≠ .ok v := by intro h; cases h

/-! ### Correlation functions -/

theorem lamSite_sym (l : Su3.Op) (x : Fin 3) (i j : Nat) : (lamSite l x).val [i, j] = (lamSite l x).val [j, i] := by
  by_cases h : i = j
  · rw [h]
  · have key : ∀ i j : Nat, i ≠ j → (lamSite l x).val [i, j] = 0 := by
      intro i j h
      have e : lamSite l x = assign (eyeT 27) (((List.range 27).map fun s => [s, s]).map fun k => (k, (fun k : List Nat => (Models.opP 3 l).val
        [match x with | 0 => (fmapInv (k.getD 0 0)).1 | 1 => (fmapInv (k.getD 0 0)).2.1 | 2 => (fmapInv (k.getD 0 0)).2.2,
         match x with | 0 => (fmapInv (k.getD 0 0)).1 | 1 => (fmapInv (k.getD 0 0)).2.1 | 2 => (fmapInv (k.getD 0 0)).2.2]) k)) := by
        unfold lamSite
        rw [List.map_map]; rfl
      rw [e, assign_fun, if_neg (fun hm => by obtain ⟨a, -, h2⟩ := List.mem_map.1 hm; simp only [List.cons.injEq, and_true] at h2; exact h (h2.1.symm.trans h2.2))]
      simp only [eyeT, List.getD_cons_zero, List.getD_cons_succ, if_neg h]
    rw [key _ _ h, key _ _ (Ne.symm h)]

theorem matP_mem (f : Nat → Nat → Nat → Nat) (i j : Nat) : (matP f).val [i, j] = if i < 27 ∧ j = f (fmapInv i).1 (fmapInv i).2.1 (fmapInv i).2.2 then 1 else 0 := by
  unfold matP
  rw [assign_ones _ (by intro q hq; simp only [List.mem_map] at hq; obtain ⟨_, _, rfl⟩ := hq; rfl)]
  simp only [zerosT]
  congr 1
  simp only [List.mem_map, List.map_map, Function.comp, List.mem_range, List.cons.injEq, and_true, eq_iff_iff]
  constructor
  · rintro ⟨k, hk, rfl, rfl⟩; exact ⟨hk, rfl⟩
  · rintro ⟨h, rfl⟩; exact ⟨i, h, rfl, rfl⟩

theorem aklt3_sym (i j : Nat) : aklt3.val [i, j] = aklt3.val [j, i] := by
  have key : ∀ i j : Nat, (i < 27 ∧ j = fmap (fmapInv i).2.1 (fmapInv i).2.2 (fmapInv i).1) ↔ (j < 27 ∧ i = fmap (fmapInv j).2.2 (fmapInv j).1 (fmapInv j).2.1) := by
    intro i j
    constructor
    · rintro ⟨h, rfl⟩
      unfold fmap fmapInv; simp only; omega
    · rintro ⟨h, rfl⟩
      unfold fmap fmapInv; simp only; omega
  simp only [aklt3, Models.lin, List.map_cons, List.map_nil, List.sum_cons, List.sum_nil, one_mul, add_zero, matP_mem]
  rw [if_congr (key i j) rfl rfl, if_congr (key j i).symm rfl rfl, add_comm]

/-- `eval_corrf_LL`: at each distance the two-point function of the first spin of the cells, divided by the norm. -/
theorem C122_corrf_LL {D : Dims} {st : State ℂ} {env : Env ℂ} {N : Corrf.Spec.Tensors ℂ} (ht : Tiling st) (hs : FitsState D st) (he : FitsEnv D st env) (hp : ∀ c, D.p c = 3 ^ 3)
    (hN : Corrf.Spec.Reads st env N) (d : Dir) (dist : Nat) (hn : ∀ r ≤ dist, Corrf.Spec.norm N D d (0, 0) (r + 2) ≠ 0) :
    ∃ (o3 o8 : Corrf.Spec.Op ℂ) (l3 l8 : List ℂ), (∀ t s : Spins 3, o3 (index t) (index s) = at' 0 (Su3.Spec.lambda 2) t s ∧ o8 (index t) (index s) = at' 0 (Su3.Spec.lambda 7) t s) ∧
      akltLL d st env dist = .ok (l3, l8) ∧ l3.length = dist + 1 ∧ l8.length = dist + 1 ∧
      ∀ r ≤ dist, l3[r]? = some (Corrf.Spec.twoPoint N D d (0, 0) o3 o3 r / Corrf.Spec.norm N D d (0, 0) (r + 2)) ∧
        l8[r]? = some (Corrf.Spec.twoPoint N D d (0, 0) o8 o8 r / Corrf.Spec.norm N D d (0, 0) (r + 2)) := by
  obtain ⟨l3, e3, n3, v3⟩ := Corrf.C38_values_partial ht hs he hN d (0, 0) (lamSite lambda3 0) (fun _ => lamSite lambda3 0) dist (by rw [hp]; exact (lambda3_isMat 0).1)
    (fun r _ => by rw [hp]; exact (lambda3_isMat 0).1) hn
  obtain ⟨l8, e8, n8, v8⟩ := Corrf.C38_values_partial ht hs he hN d (0, 0) (lamSite lambda8 0) (fun _ => lamSite lambda8 0) dist (by rw [hp]; exact (lambda8_isMat 0).1)
    (fun r _ => by rw [hp]; exact (lambda8_isMat 0).1) hn
  refine ⟨Corrf.Spec.transposed (lamSite lambda3 0), Corrf.Spec.transposed (lamSite lambda8 0), l3, l8, fun t s => ⟨?_, ?_⟩, ?_, n3, n8, fun r hr => ⟨v3 r hr, v8 r hr⟩⟩
  · exact (lamSite_sym _ _ _ _).trans ((lambda3_isMat 0).2 t s)
  · exact (lamSite_sym _ _ _ _).trans ((lambda8_isMat 0).2 t s)
  · unfold akltLL
    rw [e3]
    show (Corrf.corrf11 st env d (0, 0) (lamSite lambda8 0) _ dist >>= _) = _
    rw [e8]
    rfl

/-- `eval_corrf_PP`: the connected two-point function of `P + P^-1` of the down triangles. -/
theorem C122_corrf_PP (eigh : Tensor ℂ → List ℝ × Tensor ℂ) {D : Dims} {st : State ℂ} {env : Env ℂ} {N : Corrf.Spec.Tensors ℂ} (ht : Tiling st) (hs : FitsState D st) (he : FitsEnv D st env)
    (hp : ∀ c, D.p c = 3 ^ 3) (hN : Corrf.Spec.Reads st env N) {R : Tensor ℂ} (hR : rdm1x1 eigh true false st env (0, 0) none = .ok R) (d : Dir) (dist : Nat)
    (hn : ∀ r ≤ dist, Corrf.Spec.norm N D d (0, 0) (r + 2) ≠ 0) :
    ∃ (o : Corrf.Spec.Op ℂ) (l : List ℂ), (∀ t s : Spins 3, o (index t) (index s) = (cyclic 3 + (cyclic 3).conjTranspose) t s) ∧ akltPP eigh d st env dist = .ok l ∧ l.length = dist + 1 ∧
      ∀ r ≤ dist, l[r]? = some (Corrf.Spec.twoPoint N D d (0, 0) o o r / Corrf.Spec.norm N D d (0, 0) (r + 2) -
        Matrix.trace (reduced 3 1 R 0 1 2 * (cyclic 3 + (cyclic 3).conjTranspose)) ^ 2) := by
  obtain ⟨l, e, n, v⟩ := Corrf.C38_values_partial ht hs he hN d (0, 0) aklt3 (fun _ => aklt3) dist (by rw [hp]; exact aklt3_isMat.1) (fun r _ => by rw [hp]; exact aklt3_isMat.1) hn
  refine ⟨Corrf.Spec.transposed aklt3, l.map fun x => x - Matrix.trace (reduced 3 1 R 0 1 2 * (cyclic 3 + (cyclic 3).conjTranspose)) ^ 2, fun t s => (aklt3_sym _ _).trans (aklt3_isMat.2 t s), ?_, ?_, fun r hr => ?_⟩
  · unfold akltPP
    rw [e]
    show (akltDn eigh st env >>= _) = _
    rw [C122_energy_down eigh ht hs he hp hR]
    refine congrArg Except.ok (List.map_congr_left fun x _ => ?_)
    ring
  · rw [List.length_map, n]
  · rw [List.getElem?_map, v r hr]; rfl

end Verif.KagomeRdm
