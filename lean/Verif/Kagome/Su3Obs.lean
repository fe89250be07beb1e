import Verif.Kagome.Su3Energy
/-
C120. Observables of KAGOME_SU3.
-/
namespace Verif.KagomeRdm
open Tensor Ctm Rdm Ctm.Spec Spec
open Su3 (δ)

namespace Spec

/-- The density matrix of the spins `x` and `y` of a block of `n` site tensors with the density matrix `R`: rows are kets, columns are bras. -/
def reduced2 (p n : Nat) (R : Tensor ℂ) (x y : Nat) : Matrix (Fin p × Fin p) (Fin p × Fin p) ℂ :=
  Matrix.of fun s t => marginal p n R [x, y] (fun i => if i = x then s.1 else s.2) (fun i => if i = x then t.1 else t.2)

/-- `sum_k F_k F_k` of two spins. -/
noncomputable def exchange1 : Su3.Spec.Op2 := ∑ k, Su3.Spec.prod2 (Su3.Spec.F k) (Su3.Spec.F k)

/-- The network of the site `c` is Hermitian. -/
def HermitianSite (p : Nat) (D : Dims) (st : State ℂ) (env : Env ℂ) (c : Coord) : Prop :=
  ∀ e a rho, Rdm.Spec.AroundSite st env c e a → Corner.Spec.IsNetwork (Rdm.Spec.dims1 D c) rho [[4], [7]] Rdm.Spec.inner1 (Rdm.Spec.rho1 (Rdm.Spec.dims1 D c) e a) →
    ∀ s < p ^ 3, ∀ t < p ^ 3, rho.val [s, t] = star (rho.val [t, s])

end Spec

/-! ### Contractions -/

theorem full6T_val {p : Nat} {r o : Tensor ℂ} {A B : Op3 ℂ p} (hr : Holds r A) (ho : Holds o B) : full6T r o = some (Matrix.trace (A * B.transpose)) := by
  obtain ⟨R, e, s, v⟩ := einsum_ok (fun _ => p) [(r, [0, 1, 2, 3, 4, 5]), (o, [0, 1, 2, 3, 4, 5])] [] (by simp [hr.1, ho.1]) (by simp) (by simp)
  have h := v (fun _ => 0) (by simp)
  have hl : (([(r, [0, 1, 2, 3, 4, 5]), (o, [0, 1, 2, 3, 4, 5])] : List (Tensor ℂ × List Nat)).flatMap Prod.snd).dedup.filter (fun l => l ∉ ([] : List Nat)) = [0, 1, 2, 3, 4, 5] := by
    simp only [List.flatMap_cons, List.flatMap_nil]; decide
  rw [hl] at h
  have h2 := sum6 p (fun x y z a b c => r.val [x, y, z, a, b, c] * o.val [x, y, z, a, b, c]) (fun _ => 0)
  have h3 : (termOf [(r, [0, 1, 2, 3, 4, 5]), (o, [0, 1, 2, 3, 4, 5])] : (Nat → Nat) → ℂ) =
      fun τ => r.val [τ 0, τ 1, τ 2, τ 3, τ 4, τ 5] * o.val [τ 0, τ 1, τ 2, τ 3, τ 4, τ 5] := by
    funext τ
    simp [termOf]
  rw [h3, h2] at h
  unfold full6T
  rw [e]
  simp only [Option.bind_eq_bind, Option.bind_some, Option.pure_def, Option.some.injEq]
  refine Eq.trans h ?_
  rw [trace_mul3]
  exact Finset.sum_congr rfl fun s _ => Finset.sum_congr rfl fun t _ => by rw [hr.2, ho.2, Matrix.transpose_apply]

/-- L120: the contraction with the cyclically shifted and transposed operator. -/
theorem shifted_val {p : Nat} {r o : Tensor ℂ} {A B : Op3 ℂ p} (hr : Holds r A) (ho : Holds o B) :
    ∃ x, einsum [(r, [0, 1, 2, 3, 4, 5]), (o, [2, 0, 1, 5, 3, 4])] [] = some x ∧ x.val [] = Matrix.trace (A * (B.submatrix (fun t => t ∘ e201) (fun t => t ∘ e201)).transpose) := by
  obtain ⟨R, e, s, v⟩ := einsum_ok (fun _ => p) [(r, [0, 1, 2, 3, 4, 5]), (o, [2, 0, 1, 5, 3, 4])] [] (by simp [hr.1, ho.1]) (by simp) (by simp)
  have h := v (fun _ => 0) (by simp)
  have hl : (([(r, [0, 1, 2, 3, 4, 5]), (o, [2, 0, 1, 5, 3, 4])] : List (Tensor ℂ × List Nat)).flatMap Prod.snd).dedup.filter (fun l => l ∉ ([] : List Nat)) = [2, 0, 1, 5, 3, 4] := by
    simp only [List.flatMap_cons, List.flatMap_nil]; decide
  rw [hl, sumOver_perm _ (show [2, 0, 1, 5, 3, 4].Perm [0, 1, 2, 3, 4, 5] by decide)] at h
  have h2 := sum6 p (fun x y z a b c => r.val [x, y, z, a, b, c] * o.val [z, x, y, c, a, b]) (fun _ => 0)
  have h3 : (termOf [(r, [0, 1, 2, 3, 4, 5]), (o, [2, 0, 1, 5, 3, 4])] : (Nat → Nat) → ℂ) =
      fun τ => r.val [τ 0, τ 1, τ 2, τ 3, τ 4, τ 5] * o.val [τ 2, τ 0, τ 1, τ 5, τ 3, τ 4] := by
    funext τ
    simp [termOf]
  rw [h3, h2] at h
  refine ⟨R, e, Eq.trans h ?_⟩
  rw [trace_mul3]
  refine Finset.sum_congr rfl fun s _ => Finset.sum_congr rfl fun t _ => ?_
  rw [hr.2, Matrix.transpose_apply, Matrix.submatrix_apply, ← ho.2 (s ∘ e201) (t ∘ e201)]
  rfl

theorem cyclic_tr (p : Nat) : (cyclic p).transpose = (cyclic p).conjTranspose := by
  ext t s
  rw [Matrix.conjTranspose_apply, Matrix.transpose_apply]
  unfold cyclic
  rw [Matrix.of_apply, apply_ite star, star_one, star_zero]

theorem cyclicH_tr (p : Nat) : ((cyclic p).conjTranspose).transpose = cyclic p := by rw [← cyclic_tr, Matrix.transpose_transpose]

theorem swap_tr (p : Nat) (x y : Fin 3) : (swap p x y).transpose = swap p x y := by
  ext t s
  have h : s = t ∘ Equiv.swap x y ↔ t = s ∘ Equiv.swap x y := by
    constructor <;> rintro rfl <;> funext i <;> simp
  exact if_congr h rfl rfl

theorem su3Chi_tr : su3Chi.transpose = -su3Chi := by
  unfold su3Chi
  rw [Matrix.transpose_smul, Matrix.transpose_sub, cyclicH_tr, cyclic_tr]
  module

theorem swaps_tr (p : Nat) : (swaps p).transpose = swaps p := by
  unfold swaps
  simp only [Matrix.transpose_add, swap_tr]

theorem su3Triangle_tr (m : Su3Couplings) : (su3Triangle m).transpose = su3Triangle { m with h := -m.h } := by
  rw [su3Triangle_eq, su3Triangle_eq]
  simp only [Matrix.transpose_add, Matrix.transpose_smul, su3Chi_tr, swaps_tr, cyclicH_tr, cyclic_tr]
  push_cast
  module

theorem su3Triangle_shift (m : Su3Couplings) : (su3Triangle m).submatrix (fun t => t ∘ e201) (fun t => t ∘ e201) = su3Triangle m := by
  ext t s
  have h1 : ∀ t s : Spins 3, cyclic 3 (t ∘ e201) (s ∘ e201) = cyclic 3 t s := by
    intro t s
    simp only [cyclic_δ, Function.comp]
    show δ (t 2) (s 1) * δ (t 0) (s 2) * δ (t 1) (s 0) = _
    ring
  have h2 : swaps 3 (t ∘ e201) (s ∘ e201) = swaps 3 t s := by
    unfold swaps
    rw [swap_comm 3 2 0, swap_pairOn.1, swap_pairOn.2.1, swap_pairOn.2.2]
    simp only [Matrix.add_apply, pairOn, Matrix.of_apply, Function.comp]
    show δ (t 2) (s 0) * δ (t 0) (s 2) * δ (t 1) (s 1) + δ (t 0) (s 1) * δ (t 1) (s 0) * δ (t 2) (s 2) + δ (t 2) (s 1) * δ (t 1) (s 2) * δ (t 0) (s 0) = _
    ring
  unfold su3Triangle
  simp only [Matrix.submatrix_apply, Matrix.add_apply, Matrix.smul_apply, Matrix.sub_apply, Matrix.conjTranspose_apply, h1, h2]

/-! ### Two spins -/

theorem full4T_val {n : Nat} {R r o : Tensor ℂ} {x y : Nat} (hxy : x ≠ y) (hm : IsMarginal 3 n R r [x, y]) {G : Fin 3 → Fin 3 → Fin 3 → Fin 3 → ℂ} (ho : Is4 o G) {B : Su3.Spec.Op2}
    (hB : ∀ i j a b, G i j a b = B (a, b) (i, j)) : full4T r o = some (Matrix.trace (reduced2 3 n R x y * B)) := by
  have sr : r.shape = [3, 3, 3, 3] := hm.shape
  obtain ⟨X, e, s, v⟩ := einsum_ok (fun _ => 3) [(r, [0, 1, 2, 3]), (o, [0, 1, 2, 3])] [] (by simp [sr, ho.1]) (by simp) (by simp)
  have h := v (fun _ => 0) (by simp)
  have hl : (([(r, [0, 1, 2, 3]), (o, [0, 1, 2, 3])] : List (Tensor ℂ × List Nat)).flatMap Prod.snd).dedup.filter (fun l => l ∉ ([] : List Nat)) = [0, 1, 2, 3] := by
    simp only [List.flatMap_cons, List.flatMap_nil]; decide
  rw [hl] at h
  unfold full4T
  rw [e]
  simp only [Option.bind_eq_bind, Option.bind_some, Option.pure_def, Option.some.injEq]
  refine Eq.trans h ?_
  simp only [sumOver, termOf, List.map_cons, List.map_nil, List.prod_cons, List.prod_nil, mul_one, range3]
  simp only [Matrix.trace, Matrix.diag_apply, Matrix.mul_apply, Fintype.sum_prod_type]
  refine Finset.sum_congr rfl fun i _ => Finset.sum_congr rfl fun j _ => Finset.sum_congr rfl fun a _ => Finset.sum_congr rfl fun b _ => ?_
  have h1 := hm.val (fun z => if z = x then i else j) (fun z => if z = x then a else b) (fun z => by split <;> omega) (fun z => by split <;> omega)
  simp only [List.map_cons, List.map_nil, List.cons_append, List.nil_append, if_true, if_neg hxy.symm] at h1
  simp only [Function.update, Nat.reduceEqDiff, dite_true, dite_false, eq_rec_constant]
  refine congrArg₂ (· * ·) ?_ ((ho.2 i j a b).trans (hB i j a b))
  exact h1

theorem exchange1_entry (i j a b : Fin 3) : Su3.C1 i j a b = exchange1 (a, b) (i, j) := by
  unfold exchange1
  rw [Matrix.sum_apply]
  simp only [Su3.Spec.prod2, Matrix.of_apply]
  rw [← Su3.C1_F, Su3.C1_F, Su3.C1_F, Su3.complete, Su3.complete, Su3.δ_comm i b, Su3.δ_comm j a, Su3.δ_comm i a, Su3.δ_comm j b]
  ring

/-! ### The network of one site -/

/-- As `one_site`, for any operator, if the network is Hermitian. -/
theorem one_site_herm {p : Nat} (eigh : Tensor ℂ → List ℝ × Tensor ℂ) {D : Dims} {st : State ℂ} {env : Env ℂ} (ht : Tiling st) (hs : FitsState D st) (he : FitsEnv D st env)
    (hp : ∀ c, D.p c = p ^ 3) (c : Coord) (hc : c ∈ st.keys) {R : Tensor ℂ} {sl : Bool} (hR : rdm1x1 eigh sl false st env c none = .ok R) (hh : HermitianSite p D st env c) :
    ∃ n : ℂ, n ≠ 0 ∧ (∀ o, Represents o (1 : Op3 ℂ p) → trace1x1 st env c o = some n) ∧ ∀ (o : Tensor ℂ) (O : Op3 ℂ p), Represents o O →
      ∃ v, trace1x1 st env c o = some v ∧ ratio v n = .ok (Matrix.trace (reduced p 1 R 0 1 2 * O)) := by
  obtain ⟨e, a, rho, h0, h1, h2, h4⟩ := C114_trace_partial ht hs he hp c hc
  have hT := hh e a rho h0 h1
  rw [h2] at hR
  have sT : rho.shape = List.replicate 1 (p ^ 3) ++ List.replicate 1 (p ^ 3) := by
    refine h1.1.trans ?_
    have h4 : Rdm.Spec.dims1 D c 4 = p ^ 3 := hp _
    have h7 : Rdm.Spec.dims1 D c 7 = p ^ 3 := hp _
    simp [h4, h7]
  have key := reduced_ratio eigh sT hR hT
  refine ⟨_, (key 1).1, fun o ho => by rw [h4 o _ ho, mul_one], fun o O ho => ⟨_, h4 o O ho, ?_⟩⟩
  unfold ratio
  rw [if_neg (key 1).1, (key O).2]

theorem mapM_finRange {α : Type} (n : Nat) (f : Fin n → Except Err α) (v : Fin n → α) (h : ∀ k, f k = .ok (v k)) : (List.finRange n).mapM f = .ok ((List.finRange n).map v) := by
  rw [show f = fun k => .ok (v k) from funext h]
  generalize List.finRange n = l
  induction l with
  | nil => rfl
  | cons a l ih => rw [List.mapM_cons, ih]; rfl

theorem at_herm (x : Fin 3) (k : Fin 8) : (at' x (Su3.Spec.lambda k)).IsHermitian := by
  unfold Matrix.IsHermitian
  rw [at_conj, (Su3.C118_basis.1 k).eq]

/-- `eval_generators` returns, for the spins 0, 1, 2 (labelled A, B, C), the expectation values of the Gell-Mann matrices in the density matrix of the site, and the sums of
their squares. -/
theorem C120_generators (eigh : Tensor ℂ → List ℝ × Tensor ℂ) {D : Dims} {st : State ℂ} {env : Env ℂ} (ht : Tiling st) (hs : FitsState D st) (he : FitsEnv D st env)
    (hp : ∀ c, D.p c = 3 ^ 3) (hc : (0, 0) ∈ st.keys) {R : Tensor ℂ} {sl : Bool} (hR : rdm1x1 eigh sl false st env (0, 0) none = .ok R) :
    ∃ v : Fin 3 → Fin 8 → ℝ, (∀ x k, (v x k : ℂ) = Matrix.trace (reduced 3 1 R 0 1 2 * at' x (Su3.Spec.lambda k))) ∧
      evalGenerators st env = .ok ([0, 1, 2].map fun x => (List.finRange 8).map (v x), [∑ k, v 0 k ^ 2, ∑ k, v 1 k ^ 2, ∑ k, v 2 k ^ 2]) := by
  obtain ⟨n, e1, hn, h⟩ := one_site eigh ht hs he hp (0, 0) hc hR
  have hg : ∀ x k, ∃ T w, genOp (Su3.gellMann k) x = some T ∧ trace1x1 st env (0, 0) T = some w ∧ ((w.re / n.re : ℝ) : ℂ) = Matrix.trace (reduced 3 1 R 0 1 2 * at' x (Su3.Spec.lambda k)) := by
    intro x k
    obtain ⟨T, eT, hT⟩ := genOp_holds (Su3.gellMann k) x
    rw [Su3.C118_gellMann] at hT
    obtain ⟨w, h2, h3⟩ := h T _ (.inl hT) (at_herm x k)
    exact ⟨T, w, eT, h2, h3⟩
  choose T w h1 h2 h3 using hg
  refine ⟨fun x k => (w x k).re / n.re, h3, ?_⟩
  have hv : ∀ x, genValues st env n.re x = .ok ((List.finRange 8).map fun k => (w x k).re / n.re) := by
    intro x
    refine mapM_finRange 8 _ _ fun k => ?_
    simp only [h1, h2, lift, bind, Except.bind, Option.bind, reRatio]
    rw [if_neg hn]
  have hsq : ∀ f : Fin 8 → ℝ, ((List.map f (List.finRange 8)).map fun x => x * x).sum = ∑ k, f k ^ 2 := by
    intro f
    rw [List.map_map, ← List.sum_ofFn, List.ofFn_eq_map]
    refine congrArg List.sum (List.map_congr_left fun k _ => ?_)
    simp [sq]
  simp only [evalGenerators, e1, lift, bind, Except.bind, List.mapM_cons, List.mapM_nil, hv, pure, Except.pure, List.map_cons, List.map_nil, hsq]

end Verif.KagomeRdm
