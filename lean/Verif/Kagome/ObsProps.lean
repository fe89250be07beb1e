import Verif.Kagome.Obs
import Verif.Kagome.HamWitness
/-
C117. Observables of S_HALF_KAGOME.
-/
namespace Verif.KagomeRdm
open Tensor Ctm Rdm Ctm.Spec Spec

variable {p : Nat}

namespace Spec

/-- A label with the number of a spin. -/
def obsLabel (s : String) : Fin 3 → String
  | 0 => s ++ "_0"
  | 1 => s ++ "_1"
  | 2 => s ++ "_2"

/-- The values listed for site `c` are `E S^z`, `E S^+` and `E S^-` for each of the three spins. -/
def LadderValues (out : List ((String × Coord) × ℂ)) (c : Coord) (E : Op3 ℂ p → ℂ) : Prop :=
  ∀ x : Fin 3, ((obsLabel "sz" x, c), E (at' x (Su2.SZ p))) ∈ out ∧ ((obsLabel "sp" x, c), E (at' x (Su2.SP p))) ∈ out ∧ ((obsLabel "sm" x, c), E (at' x (Su2.SM p))) ∈ out

/-- The value listed for `m2` of each spin of site `c` is the square of the length of the vector `E S`. -/
noncomputable def LengthValues (out : List ((String × Coord) × ℂ)) (c : Coord) (E : Op3 ℂ p → ℂ) : Prop :=
  ∀ x : Fin 3, ((obsLabel "m2" x, c), ∑ a, E (at' x (spins p a)) ^ 2) ∈ out

/-- The operator of the bond of the spins `x` and `y` with the couplings of the model. -/
noncomputable def bond (m : Couplings) (x y : Fin 3) : Op3 ℂ m.p := (m.j1 : ℂ) • dot m.p x y + (m.JD : ℂ) • cross m.p x y 2

/-- The labels of the dictionary for one site. -/
def siteLabels (c : Coord) : List (String × Coord) :=
  ["sz_0", "sp_0", "sm_0", "sz_1", "sp_1", "sm_1", "sz_2", "sp_2", "sm_2", "m2_0", "m2_1", "m2_2"].map (·, c)

def bondLabels (c : Coord) : List (String × Coord) := ["SS_dn_01", "SS_dn_12", "SS_dn_02", "SS_up_01", "SS_up_12", "SS_up_02"].map (·, c)

end Spec

theorem obsVal_eq {st : State ℂ} {env : Env ℂ} {c : Coord} {X : Op3 ℂ p} (h : ∀ (o : Tensor ℂ) (O : Op3 ℂ p), Represents o O → trace1x1 st env c o = some (Matrix.trace (X * O)))
    {norm : ℂ} (hn : norm ≠ 0) (o : Su2.Op p) (x : Fin 3) : obsVal p st env c norm o x = .ok (Matrix.trace (X * at' x o) / norm) := by
  obtain ⟨T, T', e1, e2, e3⟩ := obsView o x
  simp only [obsVal, e1, e2, h _ _ e3, Option.bind_eq_bind, Option.bind_some]
  show ratio _ norm = _
  unfold ratio
  rw [if_neg hn]

/-- A linear functional of operators: `sp` and `sm` give the components x and y. -/
theorem ladder_length (X : Op3 ℂ p) (n : ℂ) (x : Fin 3) : (Matrix.trace (X * at' x (Su2.SZ p)) / n) * (Matrix.trace (X * at' x (Su2.SZ p)) / n) +
    (Matrix.trace (X * at' x (Su2.SP p)) / n) * (Matrix.trace (X * at' x (Su2.SM p)) / n) = ∑ a, (Matrix.trace (X * at' x (spins p a)) / n) ^ 2 := by
  have hp' : Matrix.trace (X * at' x (Su2.SP p)) = Matrix.trace (X * at' x (spins p 0)) + Complex.I * Matrix.trace (X * at' x (spins p 1)) := by
    rw [sp_spins, at_add, at_smul, mul_add, Matrix.mul_smul, Matrix.trace_add, Matrix.trace_smul, smul_eq_mul]
  have hm' : Matrix.trace (X * at' x (Su2.SM p)) = Matrix.trace (X * at' x (spins p 0)) - Complex.I * Matrix.trace (X * at' x (spins p 1)) := by
    rw [sm_spins, sub_eq_add_neg, ← neg_smul, at_add, at_smul, mul_add, Matrix.mul_smul, Matrix.trace_add, Matrix.trace_smul, smul_eq_mul]; ring
  rw [Fin.sum_univ_three, hp', hm', show spins p 2 = Su2.SZ p from rfl]
  linear_combination (-(Matrix.trace (X * at' x (spins p 1)) / n) ^ 2) * Complex.I_mul_I

/-- The on-site values are the traces of the operators with the network `rho` of one site, divided by the trace of the network; `rho` is the network whose symmetrised form
`rdm1x1` returns. -/
theorem C117_onsite {D : Dims} {st : State ℂ} {env : Env ℂ} (ht : Tiling st) (hs : FitsState D st) (he : FitsEnv D st env) (hp : ∀ c, D.p c = p ^ 3) (c : Coord) (hc : c ∈ st.keys) :
    ∃ e a rho, Rdm.Spec.AroundSite st env c e a ∧ Corner.Spec.IsNetwork (Rdm.Spec.dims1 D c) rho [[4], [7]] Rdm.Spec.inner1 (Rdm.Spec.rho1 (Rdm.Spec.dims1 D c) e a) ∧
      (∀ eigh sl spd, rdm1x1 eigh sl spd st env c none = symRdm eigh spd rho) ∧ (Matrix.trace (reduced p 1 rho 0 1 2) ≠ 0 → ∃ out, onsite p st env c = .ok out ∧
        out.map Prod.fst = siteLabels c ∧
        LadderValues out c (fun O => Matrix.trace (reduced p 1 rho 0 1 2 * O) / Matrix.trace (reduced p 1 rho 0 1 2)) ∧
        LengthValues out c (fun O => Matrix.trace (reduced p 1 rho 0 1 2 * O) / Matrix.trace (reduced p 1 rho 0 1 2))) := by
  obtain ⟨e, a, rho, h0, h1, h2, h4⟩ := C114_trace_partial ht hs he hp c hc
  have h3 := h4 _ _ (id3_one (p := p))
  refine ⟨e, a, rho, h0, h1, h2, fun hn => ?_⟩
  rw [mul_one] at h3
  have hv := fun o x => obsVal_eq h4 hn o x
  refine ⟨_, by simp only [onsite, h3]; show (obsVal _ _ _ _ _ _ _ >>= _) = _; simp only [hv]; rfl, rfl, fun x => ?_, fun x => ?_⟩
  · fin_cases x <;> refine ⟨?_, ?_, ?_⟩ <;> simp [obsLabel]
  · rw [← ladder_length]
    fin_cases x <;> simp [obsLabel]

/-- If the network of the site is Hermitian, the values are the expectation values in the density matrix of the site, and `m2` is the square of the length of the magnetisation. -/
theorem C117_onsite_hermitian (eigh : Tensor ℂ → List ℝ × Tensor ℂ) {D : Dims} {st : State ℂ} {env : Env ℂ} (ht : Tiling st) (hs : FitsState D st) (he : FitsEnv D st env)
    (hp : ∀ c, D.p c = p ^ 3) (c : Coord) (hc : c ∈ st.keys) {R : Tensor ℂ} (hR : rdm1x1 eigh true false st env c none = .ok R)
    (hh : ∀ e a rho, Rdm.Spec.AroundSite st env c e a → Corner.Spec.IsNetwork (Rdm.Spec.dims1 D c) rho [[4], [7]] Rdm.Spec.inner1 (Rdm.Spec.rho1 (Rdm.Spec.dims1 D c) e a) →
      ∀ s < p ^ 3, ∀ t < p ^ 3, rho.val [s, t] = star (rho.val [t, s])) :
    ∃ out, onsite p st env c = .ok out ∧ out.map Prod.fst = siteLabels c ∧ LadderValues out c (fun O => Matrix.trace (reduced p 1 R 0 1 2 * O)) ∧
      LengthValues out c (fun O => Matrix.trace (reduced p 1 R 0 1 2 * O)) := by
  obtain ⟨e, a, rho, h0, h1, h2, h3⟩ := C117_onsite ht hs he hp c hc
  have hT := hh e a rho h0 h1
  rw [h2] at hR
  have sT : rho.shape = List.replicate 1 (p ^ 3) ++ List.replicate 1 (p ^ 3) := by
    refine h1.1.trans ?_
    have h4 : Rdm.Spec.dims1 D c 4 = p ^ 3 := hp _
    have h7 : Rdm.Spec.dims1 D c 7 = p ^ 3 := hp _
    simp [h4, h7]
  have key := reduced_ratio eigh sT hR hT
  obtain ⟨out, k1, k2, k3, k4⟩ := h3 (key 1).1
  have hE : (fun O => Matrix.trace (reduced p 1 rho 0 1 2 * O) / Matrix.trace (reduced p 1 rho 0 1 2)) = fun O => Matrix.trace (reduced p 1 R 0 1 2 * O) := funext fun O => (key O).2
  rw [hE] at k3 k4
  exact ⟨out, k1, k2, k3, k4⟩

theorem bond_holds (m : Couplings) : ∃ S S12 S02, ssnnId m = some S ∧ permute [2, 1, 0, 5, 4, 3] S = some S12 ∧ permute [0, 2, 1, 3, 5, 4] S = some S02 ∧
    Holds S (bond m 0 1) ∧ Holds S12 (bond m 2 1) ∧ Holds S02 (bond m 0 2) := by
  obtain ⟨S, eS, hS⟩ := ssnn_holds m
  obtain ⟨X, eX, hX⟩ := permute_holds hS e210
  obtain ⟨Y, eY, hY⟩ := permute_holds hS e021
  simp only [Matrix.submatrix_add, Matrix.submatrix_smul, Pi.add_apply, Pi.smul_apply, dot_rot, cross_rot] at hX hY
  exact ⟨S, X, Y, eS, eX, eY, hS, hX, hY⟩

theorem bond_herm (m : Couplings) {x y : Fin 3} (h : x ≠ y) : (bond m x y).IsHermitian := by
  unfold Matrix.IsHermitian bond
  have hr : ∀ r : ℝ, star (r : ℂ) = r := fun r => Complex.conj_ofReal r
  simp only [Matrix.conjTranspose_add, Matrix.conjTranspose_smul, hr, dot_conj h, cross_conj h]

/-- What is returned for the bonds: the operators contain the couplings `j1` and `JD`; the spins of the up triangle are in the order 1, 2, 0. -/
theorem C117_bonds (eigh : Tensor ℂ → List ℝ × Tensor ℂ) (m : Couplings) {D : Dims} {st : State ℂ} {env : Env ℂ} (ht : Tiling st) (hs : FitsState D st) (he : FitsEnv D st env)
    (hp : ∀ c, D.p c = m.p ^ 3) (c : Coord) {R : Tensor ℂ} (hR : rdm2x2 eigh false st env c [0, 1, 2, 3] = .ok R) :
    ∃ d01 d12 d02, bonds eigh m st env c = .ok [(("SS_dn_01", c), d01), (("SS_dn_12", c), d12), (("SS_dn_02", c), d02),
      (("SS_up_01", c), Matrix.trace (reduced m.p 4 R 4 8 9 * bond m 0 1)), (("SS_up_12", c), Matrix.trace (reduced m.p 4 R 4 8 9 * bond m 2 1)),
      (("SS_up_02", c), Matrix.trace (reduced m.p 4 R 4 8 9 * bond m 0 2))] ∧
      ((d01.re : ℝ) : ℂ) = Matrix.trace (reduced m.p 4 R 0 1 2 * bond m 0 1) ∧ ((d12.re : ℝ) : ℂ) = Matrix.trace (reduced m.p 4 R 0 1 2 * bond m 2 1) ∧
      ((d02.re : ℝ) : ℂ) = Matrix.trace (reduced m.p 4 R 0 1 2 * bond m 0 2) := by
  obtain ⟨S, X, Y, eS, eX, eY, hS, hX, hY⟩ := bond_holds m
  obtain ⟨d1, n1, e1, v1⟩ := C115_down_hermitian eigh ht hs he hp c (.inl hS) (bond_herm m (by decide)) hR
  obtain ⟨d2, n2, e2, v2⟩ := C115_down_hermitian eigh ht hs he hp c (.inl hX) (bond_herm m (by decide)) hR
  obtain ⟨d3, n3, e3, v3⟩ := C115_down_hermitian eigh ht hs he hp c (.inl hY) (bond_herm m (by decide)) hR
  obtain ⟨R', f1, g1, -⟩ := C115_up eigh ht hs he hp c hS hR
  obtain ⟨R2, f2, g2, -⟩ := C115_up eigh ht hs he hp c hX hR
  obtain ⟨R3, f3, g3, -⟩ := C115_up eigh ht hs he hp c hY hR
  obtain rfl : R' = R2 := by rw [f1] at f2; exact Except.ok.inj f2
  obtain rfl : R' = R3 := by rw [f1] at f3; exact Except.ok.inj f3
  refine ⟨d1, d2, d3, ?_, v1, v2, v3⟩
  simp only [bonds, eS, eX, eY, f1, g1, g2, g3, lift, e1, e2, e3, bind, Except.bind]
  rfl

theorem dot_comm {x y : Fin 3} (h : x ≠ y) : dot p x y = dot p y x := by
  unfold dot
  exact Finset.sum_congr rfl fun a _ => at_comm h _ _

/-- With `j1 = 1` and `JD = 0` the values of the down triangle are the correlations of its spins. Missing: other couplings and the up triangle, where the values or their labels
are refuted (`C117_violated`, `C117_labels_violated`). -/
theorem C117_down_partial (eigh : Tensor ℂ → List ℝ × Tensor ℂ) (m : Couplings) (h1 : m.j1 = 1) (h2 : m.JD = 0) {D : Dims} {st : State ℂ} {env : Env ℂ} (ht : Tiling st)
    (hs : FitsState D st) (he : FitsEnv D st env) (hp : ∀ c, D.p c = m.p ^ 3) (c : Coord) {R : Tensor ℂ} (hR : rdm2x2 eigh false st env c [0, 1, 2, 3] = .ok R) :
    ∃ out d01 d12 d02, bonds eigh m st env c = .ok out ∧ (("SS_dn_01", c), d01) ∈ out ∧ (("SS_dn_12", c), d12) ∈ out ∧ (("SS_dn_02", c), d02) ∈ out ∧
      ((d01.re : ℝ) : ℂ) = Matrix.trace (reduced m.p 4 R 0 1 2 * dot m.p 0 1) ∧ ((d12.re : ℝ) : ℂ) = Matrix.trace (reduced m.p 4 R 0 1 2 * dot m.p 1 2) ∧
      ((d02.re : ℝ) : ℂ) = Matrix.trace (reduced m.p 4 R 0 1 2 * dot m.p 0 2) := by
  obtain ⟨d1, d2, d3, e, v1, v2, v3⟩ := C117_bonds eigh m ht hs he hp c hR
  have hb : ∀ x y, bond m x y = dot m.p x y := by
    intro x y
    unfold bond
    rw [h1, h2]; simp
  rw [hb] at v1 v2 v3
  refine ⟨_, d1, d2, d3, e, by simp, by simp, by simp, v1, ?_, v3⟩
  rw [dot_comm (by decide : (1 : Fin 3) ≠ 2)]; exact v2

/-- `P_up` returns the expectation values of the cyclic permutation on the up triangles, and norms one. -/
theorem C117_P_up (eigh : Tensor ℂ → List ℝ × Tensor ℂ) {D : Dims} {st : State ℂ} {env : Env ℂ} (ht : Tiling st) (hs : FitsState D st) (he : FitsEnv D st env)
    (hp : ∀ c, D.p c = p ^ 3) {R : Coord → Tensor ℂ} (hR : ∀ c ∈ st.keys, rdm2x2 eigh false st env c [0, 1, 2, 3] = .ok (R c)) :
    ∃ out, pUp eigh p st env = .ok out ∧ out.map Prod.fst = st.keys ∧ ∀ q ∈ out, q.2.1 = Matrix.trace (reduced p 4 (R q.1) 4 8 9 * cyclic p) ∧ q.2.2 = 1 := by
  refine mapM_keys _ (fun c (x : ℂ × ℂ) => x.1 = Matrix.trace (reduced p 4 (R c) 4 8 9 * cyclic p) ∧ x.2 = 1) st.keys (fun c hc => ?_)
  obtain ⟨R', e, hv, hn⟩ := C115_up eigh ht hs he hp c (perm_holds p) (hR c hc)
  refine ⟨(Matrix.trace (reduced p 4 (R c) 4 8 9 * cyclic p), 1), ?_, rfl, rfl⟩
  rw [e]
  show (lift (norm6 R') >>= _) = _
  rw [hn]
  show (lift (full6 R' _) >>= _) = _
  rw [hv]
  rfl

/-- `P_dn` raises for every state. -/
theorem C117_P_dn_violated {st : State ℂ} (h : st.keys ≠ []) (env : Env ℂ) : pDn st env = .error .raise := by
  unfold pDn
  obtain ⟨c, l, hl⟩ := List.exists_cons_of_ne_nil h
  rw [hl, List.mapM_cons]; rfl

/-! ### The dictionary -/

theorem mapM_all {α β : Type} (f : α → Except Err β) (P : α → β → Prop) (l : List α) (h : ∀ c ∈ l, ∃ x, f c = .ok x ∧ P c x) :
    ∃ out, l.mapM f = .ok out ∧ List.Forall₂ P l out := by
  induction l with
  | nil => exact ⟨[], rfl, .nil⟩
  | cons c l ih =>
    obtain ⟨x, hx, px⟩ := h c (by simp)
    obtain ⟨out, h1, h2⟩ := ih (fun c hc => h c (by simp [hc]))
    exact ⟨x :: out, by rw [List.mapM_cons, hx, h1]; rfl, .cons px h2⟩

theorem forall2_mem {α β : Type} {P : α → β → Prop} {l : List α} {out : List β} (h : List.Forall₂ P l out) {c : α} (hc : c ∈ l) : ∃ x ∈ out, P c x := by
  induction h with
  | nil => cases hc
  | cons h _ ih =>
    rcases List.mem_cons.1 hc with rfl | hc
    · exact ⟨_, by simp, h⟩
    · obtain ⟨x, h1, h2⟩ := ih hc
      exact ⟨x, by simp [h1], h2⟩

theorem forall2_map {α β γ : Type} {f : β → γ} {g : α → γ} {l : List α} {out : List β} (h : List.Forall₂ (fun a b => f b = g a) l out) : out.map f = l.map g := by
  induction h with
  | nil => rfl
  | cons h _ ih => rw [List.map_cons, List.map_cons, h, ih]

theorem group_nodup {L : List String} (hL : L.Nodup) {keys : List Coord} (hk : keys.Nodup) : (keys.flatMap fun c => L.map (·, c)).Nodup := by
  rw [List.nodup_flatMap]
  refine ⟨fun c _ => hL.map (fun a b h => (Prod.mk.inj h).1), hk.imp fun {c d} h => ?_⟩
  intro q h1 h2
  obtain ⟨a, -, rfl⟩ := List.mem_map.1 h1
  obtain ⟨b, -, hb⟩ := List.mem_map.1 h2
  exact h (Prod.mk.inj hb).2.symm

theorem group_disjoint {L M : List String} (h : ∀ a ∈ L, a ∉ M) (k l : List Coord) : List.Disjoint (k.flatMap fun c => L.map (·, c)) (l.flatMap fun c => M.map (·, c)) := by
  intro q h1 h2
  obtain ⟨c, -, h1⟩ := List.mem_flatMap.1 h1
  obtain ⟨d, -, h2⟩ := List.mem_flatMap.1 h2
  obtain ⟨a, ha, rfl⟩ := List.mem_map.1 h1
  obtain ⟨b, hb, e⟩ := List.mem_map.1 h2
  rw [← (Prod.mk.inj e).1] at ha
  exact h b ha hb

theorem group_one (a : String) (k : List Coord) : k.map ((a, ·)) = k.flatMap fun c => [a].map (·, c) := by
  induction k with
  | nil => rfl
  | cons c k ih => simp [ih]

/-- `eval_obs` lists, for every site of the cell, the energies of its two triangles, and contains the values of `onsite` and `bonds` (C117_onsite, C117_bonds); no label
occurs twice. -/
theorem C117_eval (eigh : Tensor ℂ → List ℝ × Tensor ℂ) (cast : Bool) (m : Couplings) {D : Dims} {st : State ℂ} {env : Env ℂ} (ht : Tiling st) (hs : FitsState D st) (he : FitsEnv D st env)
    (hp : ∀ c, D.p c = m.p ^ 3) {R : Coord → Tensor ℂ} (hR : ∀ c ∈ st.keys, rdm2x2 eigh false st env c [0, 1, 2, 3] = .ok (R c))
    {on : Coord → List ((String × Coord) × ℂ)} (hon : ∀ c ∈ st.keys, onsite m.p st env c = .ok (on c)) :
    ∃ out, evalObs eigh cast false m st env = .ok out ∧
      (out.map Prod.fst = st.keys.map (("e_t_dn", ·)) ++ st.keys.map (("e_t_up", ·)) ++ st.keys.flatMap siteLabels ++ st.keys.flatMap bondLabels) ∧
      (out.map Prod.fst).Nodup ∧
      ∀ c ∈ st.keys, (∃ e, (("e_t_dn", c), e) ∈ out ∧ ((e.re : ℝ) : ℂ) = Matrix.trace (reduced m.p 4 (R c) 0 1 2 * triangle m m.jtrip) ∧ (cast = true → e.im = 0)) ∧
        (("e_t_up", c), Matrix.trace (reduced m.p 4 (R c) 4 8 9 * triangle m m.jtrip)) ∈ out ∧
        (∀ q ∈ on c, q ∈ out) ∧ ∃ bs, bonds eigh m st env c = .ok bs ∧ ∀ q ∈ bs, q ∈ out := by
  obtain ⟨T, eT, hT⟩ := hTriangle_holds m
  obtain ⟨o1, e1, f1⟩ := mapM_all (oneDn cast T st env) (fun c x => x.1 = ("e_t_dn", c) ∧ ((x.2.re : ℝ) : ℂ) = Matrix.trace (reduced m.p 4 (R c) 0 1 2 * triangle m m.jtrip) ∧
      (cast = true → x.2.im = 0)) st.keys (fun c hc => by
    obtain ⟨v, n, e, hv⟩ := C115_down_hermitian eigh ht hs he hp c (.inl hT) (triangle_herm m _) (hR c hc)
    refine ⟨(("e_t_dn", c), if cast then (v.re : ℂ) else v), by unfold oneDn; rw [e]; rfl, rfl, ?_, ?_⟩
    · rw [← hv]; cases cast <;> simp
    · intro h; simp [h])
  obtain ⟨o2, e2, f2⟩ := mapM_all (oneUp eigh cast T st env) (fun c x => x = (("e_t_up", c), Matrix.trace (reduced m.p 4 (R c) 4 8 9 * triangle m m.jtrip))) st.keys (fun c hc => by
    obtain ⟨R', e, hv, -⟩ := C115_up eigh ht hs he hp c hT (hR c hc)
    refine ⟨_, ?_, rfl⟩
    unfold oneUp
    rw [e]
    show (lift (full6 R' T) >>= _) = _
    rw [hv]
    have := trace_real (reduced_isHerm eigh hs he hp c (hR c hc) 4 8 9) (triangle_herm m m.jtrip)
    show Except.ok _ = _
    cases cast
    · rfl
    · exact congrArg (fun z => Except.ok (("e_t_up", c), z)) this)
  obtain ⟨o3, e3, f3⟩ := mapM_all (onsite m.p st env) (fun c x => x = on c ∧ x.map Prod.fst = siteLabels c) st.keys (fun c hc => by
    refine ⟨on c, hon c hc, rfl, ?_⟩
    have h := hon c hc
    unfold onsite at h
    simp only [bind, Except.bind, pure, Except.pure] at h
    repeat' split at h
    all_goals first | cases h | (injection h with h; rw [← h]; rfl))
  obtain ⟨o4, e4, f4⟩ := mapM_all (bonds eigh m st env) (fun c x => bonds eigh m st env c = .ok x ∧ x.map Prod.fst = bondLabels c) st.keys (fun c hc => by
    obtain ⟨d1, d2, d3, e, -⟩ := C117_bonds eigh m ht hs he hp c (hR c hc)
    exact ⟨_, e, e, rfl⟩)
  refine ⟨o1 ++ o2 ++ o3.flatten ++ o4.flatten, ?_, ?_⟩
  · simp only [evalObs, eT, e1, e2, e3, e4, lift, bind, Except.bind]
    rfl
  have hl : (o1 ++ o2 ++ o3.flatten ++ o4.flatten).map Prod.fst = st.keys.map (("e_t_dn", ·)) ++ st.keys.map (("e_t_up", ·)) ++ st.keys.flatMap siteLabels ++ st.keys.flatMap bondLabels := by
    rw [List.map_append, List.map_append, List.map_append, List.map_flatten, List.map_flatten, List.flatMap, List.flatMap,
      forall2_map (f := Prod.fst) (g := (("e_t_dn", ·))) (f1.imp fun _ _ h => h.1), forall2_map (f := Prod.fst) (g := (("e_t_up", ·))) (f2.imp fun _ _ h => by rw [h]),
      forall2_map (f := List.map Prod.fst) (g := siteLabels) (f3.imp fun _ _ h => h.2), forall2_map (f := List.map Prod.fst) (g := bondLabels) (f4.imp fun _ _ h => h.2)]
  refine ⟨hl, ?_, fun c hc => ⟨?_, ?_, ?_, ?_⟩⟩
  · rw [hl, group_one, group_one]
    unfold siteLabels bondLabels
    have hk := ht.nodup
    refine List.Nodup.append (List.Nodup.append (List.Nodup.append (group_nodup (by decide) hk) (group_nodup (by decide) hk) (group_disjoint (by decide) _ _))
      (group_nodup (by decide) hk) ?_) (group_nodup (by decide) hk) ?_
    · rw [List.disjoint_append_left]
      exact ⟨group_disjoint (by decide) _ _, group_disjoint (by decide) _ _⟩
    · rw [List.disjoint_append_left, List.disjoint_append_left]
      exact ⟨⟨group_disjoint (by decide) _ _, group_disjoint (by decide) _ _⟩, group_disjoint (by decide) _ _⟩
  · obtain ⟨x, h1, h2, h3, h4⟩ := forall2_mem f1 hc
    refine ⟨x.2, ?_, h3, h4⟩
    have : x ∈ o1 ++ o2 ++ o3.flatten ++ o4.flatten := by simp [h1]
    rw [← h2]; exact this
  · obtain ⟨x, h1, rfl⟩ := forall2_mem f2 hc
    simp [h1]
  · obtain ⟨x, h1, rfl, -⟩ := forall2_mem f3 hc
    intro q hq
    have : q ∈ o3.flatten := List.mem_flatten.2 ⟨_, h1, hq⟩
    simp [this]
  · obtain ⟨x, h1, h2, -⟩ := forall2_mem f4 hc
    refine ⟨x, h2, fun q hq => ?_⟩
    have : q ∈ o4.flatten := List.mem_flatten.2 ⟨_, h1, hq⟩
    simp [this]

end Verif.KagomeRdm
