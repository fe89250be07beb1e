import Verif.Energy.Props
/-
Product states with a vector for every site of the cell: used for counterexamples and to show that hypotheses are met.
-/
namespace Verif.Energy
open Tensor Ctm Ctm.Spec
open Corrf (pDims pSite pEnv pExpect pLayer pDot)

/-- The product state with the vector `v c` on site `c` of the cell. -/
def prodState (keys : List Coord) (vts : Coord → Coord) (v : Coord → Nat → ℂ) : State ℂ := { keys := keys, sites := fun c => some (pSite (v c)), vts := vts, lX := 1, lY := 1 }

noncomputable def prodTensors (vts : Coord → Coord) (v : Coord → Nat → ℂ) : Corrf.Spec.Tensors ℂ := { Corrf.pTensors (v (0, 0)) with a := fun c => pSite (v (vts c)) }

section
variable (keys : List Coord) (vts : Coord → Coord) (v : Coord → Nat → ℂ)

theorem prodSizes {n : Nat} (h : 0 < n) : Sizes (prodState keys vts v) (fun _ => n) := ⟨fun _ => h, fun _ => rfl⟩
theorem prodFitsState : FitsState pDims (prodState keys vts v) :=
  ⟨fun _ => ⟨_, rfl, rfl⟩, prodSizes _ _ _ (by decide), prodSizes _ _ _ (by decide), prodSizes _ _ _ (by decide)⟩
theorem prodFitsEnv : FitsEnv pDims (prodState keys vts v) pEnv := by
  refine ⟨?_, ?_, ?_, ?_, ?_, ?_, ?_, ?_, prodSizes _ _ _ (by decide), prodSizes _ _ _ (by decide), prodSizes _ _ _ (by decide), prodSizes _ _ _ (by decide)⟩ <;> exact fun _ => ⟨_, rfl, rfl⟩
theorem prodReads : Corrf.Spec.Reads (prodState keys vts v) pEnv (prodTensors vts v) :=
  ⟨fun _ => rfl, fun _ => rfl, fun _ => rfl, fun _ => rfl, fun _ => rfl, fun _ => rfl, fun _ => rfl, fun _ => rfl, fun _ => rfl⟩

/-! ### Strips -/

theorem prodStep (d : Dir) (c : Coord) (o : Corrf.Spec.Op ℂ) (f : Corrf.Spec.Vec ℂ) (x y z : Nat) :
    Corrf.Spec.step (prodTensors vts v) pDims d c o f x y z = f 0 0 0 * pExpect (v (vts c)) o := by
  cases d <;> simp [Corrf.Spec.step, Corrf.Spec.cut, Corrf.Spec.sides, pDims, Corrf.Spec.first, Corrf.Spec.second, Corrf.Spec.middle, prodTensors, Corrf.pTensors, pLayer]

theorem prodEdge (d : Dir) (c : Coord) (x y z : Nat) : Corrf.Spec.edge (prodTensors vts v) pDims d c x y z = 1 := by
  cases d <;> simp [Corrf.Spec.edge, pDims, prodTensors, Corrf.pTensors]

/-- The product of the expectation values along the strip. -/
noncomputable def along (d : Dir) : Coord → List (Corrf.Spec.Op ℂ) → ℂ
  | _, [] => 1
  | c, o :: os => pExpect (v (vts c)) o * along d (Corrf.Spec.ahead d c 1) os

theorem prodGrow (d : Dir) (c : Coord) (os : List (Corrf.Spec.Op ℂ)) (f : Corrf.Spec.Vec ℂ) (g : ℂ) (hf : ∀ x y z, f x y z = g) (x y z : Nat) :
    Corrf.Spec.grow (prodTensors vts v) pDims d c os f x y z = g * along vts v d c os := by
  induction os generalizing c f g with
  | nil => simp [Corrf.Spec.grow, hf, along]
  | cons o os ih =>
    simp only [Corrf.Spec.grow, along]
    rw [ih _ _ (g * pExpect (v (vts c)) o) (fun x y z => by rw [prodStep, hf]), mul_assoc]

theorem prodNetwork (d : Dir) (c : Coord) (os : List (Corrf.Spec.Op ℂ)) : Corrf.Spec.network (prodTensors vts v) pDims d c os = along vts v d c os := by
  rw [Corrf.Spec.network, pDot, prodEdge, mul_one, prodGrow vts v d c os _ 1 (prodEdge vts v _ _), one_mul]

theorem prodNorm (hv : ∀ c, pExpect (v c) Corrf.Spec.one = 1) (d : Dir) (c : Coord) (n : Nat) : Corrf.Spec.norm (prodTensors vts v) pDims d c n = 1 := by
  rw [Corrf.Spec.norm, prodNetwork]
  induction n generalizing c with
  | zero => rfl
  | succ n ih => rw [List.replicate_succ, along, hv, ih, one_mul]

theorem prodExchange (hv : ∀ c, pExpect (v c) Corrf.Spec.one = 1) (d : Dir) (c : Coord) :
    Spec.exchange (prodTensors vts v) pDims d c =
      pExpect (v (vts c)) Spec.sz * pExpect (v (vts (Corrf.Spec.ahead d c 2))) Spec.sz +
      1 / 2 * (pExpect (v (vts c)) Spec.sp * pExpect (v (vts (Corrf.Spec.ahead d c 2))) Spec.sm + pExpect (v (vts c)) Spec.sm * pExpect (v (vts (Corrf.Spec.ahead d c 2))) Spec.sp) := by
  have h2 : Corrf.Spec.ahead d (Corrf.Spec.ahead d c 1) 1 = Corrf.Spec.ahead d c 2 := by
    simp only [Corrf.Spec.ahead]
    ext <;> push_cast <;> ring
  have : ∀ o o', Corrf.Spec.twoPoint (prodTensors vts v) pDims d c o o' 1 = pExpect (v (vts c)) o * pExpect (v (vts (Corrf.Spec.ahead d c 2))) o' := by
    intro o o'
    rw [Corrf.Spec.twoPoint, prodNetwork]
    simp [along, hv, h2]
  rw [Spec.exchange, prodNorm _ _ hv, div_one, this, this, this]

/-! ### Plaquettes -/

/-- The vertices of a plaquette. -/
def vertex (c : Coord) (x : Nat) : Coord := [c, rt c, dn c, rt (dn c)].getD x c

/-- The density matrix of four sites with vectors `w 0 .. w 3`. -/
def prodRdm (w : Nat → Nat → ℂ) : Tensor ℂ := ⟨eight, fun idx => (w 0 (idx.getD 0 0) * star (w 0 (idx.getD 4 0))) * (w 1 (idx.getD 1 0) * star (w 1 (idx.getD 5 0))) *
  (w 2 (idx.getD 2 0) * star (w 2 (idx.getD 6 0))) * (w 3 (idx.getD 3 0) * star (w 3 (idx.getD 7 0)))⟩

theorem sum4 (f : Nat → Nat → ℂ) : sumIdx [2, 2, 2, 2] (fun s => f 0 (s.getD 0 0) * f 1 (s.getD 1 0) * f 2 (s.getD 2 0) * f 3 (s.getD 3 0)) =
    (f 0 0 + f 0 1) * (f 1 0 + f 1 1) * (f 2 0 + f 2 1) * (f 3 0 + f 3 1) := by
  simp only [sumIdx, Finset.sum_range_succ, Finset.sum_range_zero, zero_add, List.getD_cons_zero, List.getD_cons_succ]
  ring

theorem sumIdx4 (F G : List Nat → ℂ) (h : ∀ i j k l, i < 2 → j < 2 → k < 2 → l < 2 → F [i, j, k, l] = G [i, j, k, l]) : sumIdx [2, 2, 2, 2] F = sumIdx [2, 2, 2, 2] G := by
  simp only [sumIdx]
  exact Finset.sum_congr rfl fun i hi => Finset.sum_congr rfl fun j hj => Finset.sum_congr rfl fun k hk => Finset.sum_congr rfl fun l hl =>
    h i j k l (Finset.mem_range.1 hi) (Finset.mem_range.1 hj) (Finset.mem_range.1 hk) (Finset.mem_range.1 hl)

theorem expect_congr {r r' : Tensor ℂ} {O O' : List Nat → List Nat → ℂ}
    (hr : ∀ i j k l a b c d, i < 2 → j < 2 → k < 2 → l < 2 → a < 2 → b < 2 → c < 2 → d < 2 → r.val [i, j, k, l, a, b, c, d] = r'.val [i, j, k, l, a, b, c, d])
    (hO : ∀ i j k l a b c d, i < 2 → j < 2 → k < 2 → l < 2 → a < 2 → b < 2 → c < 2 → d < 2 → O [a, b, c, d] [i, j, k, l] = O' [a, b, c, d] [i, j, k, l]) :
    Spec.expect r O = Spec.expect r' O' := by
  refine sumIdx4 _ _ fun i j k l hi hj hk hl => sumIdx4 _ _ fun a b c d ha hb hc hd => ?_
  simp only [List.cons_append, List.nil_append]
  rw [hr i j k l a b c d hi hj hk hl ha hb hc hd, hO i j k l a b c d hi hj hk hl ha hb hc hd]

/-- One operator on each site. -/
def four (o : Nat → Corrf.Spec.Op ℂ) (t s : List Nat) : ℂ := o 0 (t.getD 0 0) (s.getD 0 0) * o 1 (t.getD 1 0) (s.getD 1 0) * o 2 (t.getD 2 0) (s.getD 2 0) * o 3 (t.getD 3 0) (s.getD 3 0)

theorem expect_four (w : Nat → Nat → ℂ) (o : Nat → Corrf.Spec.Op ℂ) :
    Spec.expect (prodRdm w) (four o) = pExpect (w 0) (o 0) * pExpect (w 1) (o 1) * pExpect (w 2) (o 2) * pExpect (w 3) (o 3) := by
  obtain ⟨g, hg⟩ : ∃ g : Nat → Nat → ℂ, ∀ x y, g x y = w x y * star (w x 0) * o x 0 y + w x y * star (w x 1) * o x 1 y := ⟨_, fun _ _ => rfl⟩
  have h2 : Spec.expect (prodRdm w) (four o) = sumIdx [2, 2, 2, 2] (fun s => g 0 (s.getD 0 0) * g 1 (s.getD 1 0) * g 2 (s.getD 2 0) * g 3 (s.getD 3 0)) := by
    refine sumIdx4 _ _ fun i j k l _ _ _ _ => ?_
    obtain ⟨f, hf⟩ : ∃ f : Nat → Nat → ℂ, ∀ x y, f x y = w x ([i, j, k, l].getD x 0) * star (w x y) * o x y ([i, j, k, l].getD x 0) := ⟨_, fun _ _ => rfl⟩
    rw [sumIdx4 _ (fun t => f 0 (t.getD 0 0) * f 1 (t.getD 1 0) * f 2 (t.getD 2 0) * f 3 (t.getD 3 0)), sum4 f]
    · simp only [hf, hg, List.getD_cons_zero, List.getD_cons_succ]
    · intro a b c d _ _ _ _
      simp only [prodRdm, four, List.cons_append, List.nil_append, List.getD_cons_zero, List.getD_cons_succ, hf]
      ring
  have : ∀ x, g x 0 + g x 1 = pExpect (w x) (o x) := by
    intro x
    simp only [hg, pExpect, Finset.sum_range_succ, Finset.sum_range_zero, zero_add]
    ring
  rw [h2, sum4 g, this, this, this, this]

theorem four_site {w : Nat → Nat → ℂ} (hw : ∀ x, pExpect (w x) Corrf.Spec.one = 1) (m : Nat) (hm : m < 4) (O : Corrf.Spec.Op ℂ) :
    Spec.expect (prodRdm w) (Spec.onSite m O) = pExpect (w m) O := by
  rw [expect_congr (O' := four (fun x => if x = m then O else Corrf.Spec.one)) (fun _ _ _ _ _ _ _ _ _ _ _ _ _ _ _ _ => rfl), expect_four]
  · have : m = 0 ∨ m = 1 ∨ m = 2 ∨ m = 3 := by omega
    rcases this with rfl | rfl | rfl | rfl <;> simp [hw]
  · intro i j k l a b c d _ _ _ _ _ _ _ _
    have : m = 0 ∨ m = 1 ∨ m = 2 ∨ m = 3 := by omega
    rcases this with rfl | rfl | rfl | rfl <;> simp [Spec.onSite, four, Corrf.Spec.one] <;> split_ifs <;> simp_all

theorem four_bond {w : Nat → Nat → ℂ} (hw : ∀ x, pExpect (w x) Corrf.Spec.one = 1) (m n : Nat) (hm : m < n) (hn : n < 4) (O P : Corrf.Spec.Op ℂ) :
    Spec.expect (prodRdm w) (Spec.onBond m n (fun a b a' b' => O a a' * P b b')) = pExpect (w m) O * pExpect (w n) P := by
  have hmn : (m = 0 ∧ n = 1) ∨ (m = 0 ∧ n = 2) ∨ (m = 0 ∧ n = 3) ∨ (m = 1 ∧ n = 2) ∨ (m = 1 ∧ n = 3) ∨ (m = 2 ∧ n = 3) := by omega
  rw [expect_congr (O' := four (fun x => if x = m then O else if x = n then P else Corrf.Spec.one)) (fun _ _ _ _ _ _ _ _ _ _ _ _ _ _ _ _ => rfl), expect_four]
  · rcases hmn with ⟨rfl, rfl⟩ | ⟨rfl, rfl⟩ | ⟨rfl, rfl⟩ | ⟨rfl, rfl⟩ | ⟨rfl, rfl⟩ | ⟨rfl, rfl⟩ <;> simp [hw]
  · intro i j k l a b c d _ _ _ _ _ _ _ _
    rcases hmn with ⟨rfl, rfl⟩ | ⟨rfl, rfl⟩ | ⟨rfl, rfl⟩ | ⟨rfl, rfl⟩ | ⟨rfl, rfl⟩ | ⟨rfl, rfl⟩ <;> simp [Spec.onBond, four, Corrf.Spec.one] <;> split_ifs <;> simp_all

theorem sum_range2 (f : Nat → ℂ) : ∑ i ∈ Finset.range 2, f i = f 0 + f 1 := by simp [Finset.sum_range_succ]

theorem units {O : Nat → Nat → Nat → Nat → ℂ} {a b a' b' : Nat} (ha : a < 2) (hb : b < 2) (ha' : a' < 2) (hb' : b' < 2) :
    O a b a' b' = sumIdx [2, 2, 2, 2] (fun x => O (x.getD 0 0) (x.getD 1 0) (x.getD 2 0) (x.getD 3 0) *
      (Corrf.Spec.unit (x.getD 0 0) (x.getD 2 0) a a' * Corrf.Spec.unit (x.getD 1 0) (x.getD 3 0) b b')) := by
  rcases lt2 ha with rfl | rfl <;> rcases lt2 hb with rfl | rfl <;> rcases lt2 ha' with rfl | rfl <;> rcases lt2 hb' with rfl | rfl <;>
    simp [sumIdx, sum_range2, Corrf.Spec.unit]

/-- The expectation value of any operator on a bond. -/
theorem four_any {w : Nat → Nat → ℂ} (hw : ∀ x, pExpect (w x) Corrf.Spec.one = 1) (m n : Nat) (hm : m < n) (hn : n < 4) (O : Nat → Nat → Nat → Nat → ℂ) :
    Spec.expect (prodRdm w) (Spec.onBond m n O) =
      sumIdx [2, 2, 2, 2] (fun x => O (x.getD 0 0) (x.getD 1 0) (x.getD 2 0) (x.getD 3 0) *
        (pExpect (w m) (Corrf.Spec.unit (x.getD 0 0) (x.getD 2 0)) * pExpect (w n) (Corrf.Spec.unit (x.getD 1 0) (x.getD 3 0)))) := by
  have h0 : ∀ (r : Tensor ℂ) (F : List Nat → List Nat → List Nat → ℂ), Spec.expect r (fun t s => sumIdx [2, 2, 2, 2] (fun x => F x t s)) = sumIdx [2, 2, 2, 2] (fun x => Spec.expect r (F x)) := by
    intro r F
    simp only [sumIdx, sum_range2, expect_add]
  rw [expect_congr (r' := prodRdm w) (O' := fun t s => sumIdx [2, 2, 2, 2] (fun x => O (x.getD 0 0) (x.getD 1 0) (x.getD 2 0) (x.getD 3 0) *
      Spec.onBond m n (fun a b a' b' => Corrf.Spec.unit (x.getD 0 0) (x.getD 2 0) a a' * Corrf.Spec.unit (x.getD 1 0) (x.getD 3 0) b b') t s)) (fun _ _ _ _ _ _ _ _ _ _ _ _ _ _ _ _ => rfl), h0]
  · refine sumIdx4 _ _ fun i j k l _ _ _ _ => ?_
    rw [expect_mul, four_bond hw m n hm hn]
  · intro i j k l a b c d hi hj hk hl ha hb hc hd
    have hx : ∀ x, ([i, j, k, l] : List Nat).getD x 0 < 2 := fun x => by
      match x with
      | 0 => exact hi
      | 1 => exact hj
      | 2 => exact hk
      | 3 => exact hl
      | x + 4 => simp
    have hy : ∀ x, ([a, b, c, d] : List Nat).getD x 0 < 2 := fun x => by
      match x with
      | 0 => exact ha
      | 1 => exact hb
      | 2 => exact hc
      | 3 => exact hd
      | x + 4 => simp
    simp only [Spec.onBond]
    split_ifs
    · exact units (hy m) (hy n) (hx m) (hx n)
    · simp [sumIdx]

/-! ### The density matrices computed by the code -/

theorem sumOver_trivial (dim : Nat → Nat) (ls S : List Nat) (F : (Nat → Nat) → ℂ) (h1 : ∀ l ∈ ls, dim l = 1) (hF : ∀ σ τ, (∀ l ∈ S, σ l = τ l) → F σ = F τ) (hS : ∀ l ∈ ls, l ∉ S) (σ : Nat → Nat) :
    sumOver dim ls F σ = F σ := by
  induction ls generalizing σ with
  | nil => rfl
  | cons a ls ih =>
    simp only [sumOver, h1 a (by simp), Finset.sum_range_one]
    rw [ih (fun l hl => h1 l (by simp [hl])) (fun l hl => hS l (by simp [hl]))]
    refine hF _ _ fun l hl => ?_
    have : l ≠ a := fun h => hS a (by simp) (h ▸ hl)
    simp [Function.update, this]

/-- The network of a plaquette of a product state. -/
theorem prodRaw (c : Coord) :
    ∃ e s R4, Rdm.plaq (prodState keys vts v) pEnv c = some (e, s) ∧ Rdm.oe2x2 e s [0, 1, 2, 3] = some R4 ∧ R4.shape = [2, 2, 2, 2] ++ [2, 2, 2, 2] ∧
      ∀ i j k l a b c' d, i < 2 → j < 2 → k < 2 → l < 2 → a < 2 → b < 2 → c' < 2 → d < 2 →
        R4.val [i, j, k, l, a, b, c', d] = (prodRdm (fun x => v (vts (vertex c x)))).val [i, j, k, l, a, b, c', d] := by
  obtain ⟨e, s, h1, h0, h2⟩ := Rdm.plaq_ok (prodFitsState keys vts v) (prodFitsEnv keys vts v) c
  obtain ⟨R4, e4, q4⟩ := Rdm.oe2x2_denotes _ e s h2 [0, 1, 2, 3] (by decide)
  have h4 : R4.shape = [2, 2, 2, 2] ++ [2, 2, 2, 2] := by
    rw [q4.shape, singles_gdim]
    simp [Rdm.outLabels, Rdm.siteSet, List.range_succ, Rdm.Spec.dimsP, Rdm.Spec.physP, pDims]
  have hC : ∀ k T, (pEnv (K := ℂ)).C k = some T → T.val = fun _ => 1 := by
    intro k T h; simp only [pEnv] at h; injection h with h; rw [← h]
  have hT : ∀ k T, (pEnv (K := ℂ)).T k = some T → T.val = fun _ => 1 := by
    intro k T h; simp only [pEnv] at h; injection h with h; rw [← h]
  have hS : ∀ k T, (prodState keys vts v).sites k = some T → T.val = fun idx => v k (idx.getD 0 0) := by
    intro k T h; simp only [prodState] at h; injection h with h; rw [← h]; rfl
  refine ⟨e, s, R4, h1, e4, h4, ?_⟩
  intro i j k l a b c' d hi hj hk hl ha hb hc hd
  have := q4.val (fun x => [i, a, j, b, k, c', l, d].getD (x - 100) 0) (by
    rw [singles_flatten]
    intro x hx
    fin_cases hx <;> assumption)
  rw [singles_gidx] at this
  refine this.trans ?_
  rw [sumOver_trivial _ _ [100, 101, 102, 103, 104, 105, 106, 107]]
  · simp [Rdm.Spec.rhoP, hC _ _ h0.C1, hC _ _ h0.C2, hC _ _ h0.C3, hC _ _ h0.C4, hT _ _ h0.T1, hT _ _ h0.T4, hT _ _ h0.T1x, hT _ _ h0.T2x, hT _ _ h0.T2xy,
      hT _ _ h0.T3xy, hT _ _ h0.T3y, hT _ _ h0.T4y, hS _ _ h0.a, hS _ _ h0.ax, hS _ _ h0.ay, hS _ _ h0.axy, Rdm.Spec.bra, prodRdm, vertex, prodState]
  · intro x hx
    fin_cases hx <;> rfl
  · intro σ τ h
    simp only [List.forall_mem_cons] at h
    simp [Rdm.Spec.rhoP, hC _ _ h0.C1, hC _ _ h0.C2, hC _ _ h0.C3, hC _ _ h0.C4, hT _ _ h0.T1, hT _ _ h0.T4, hT _ _ h0.T1x, hT _ _ h0.T2x, hT _ _ h0.T2xy,
      hT _ _ h0.T3xy, hT _ _ h0.T3y, hT _ _ h0.T4y, hS _ _ h0.a, hS _ _ h0.ax, hS _ _ h0.ay, hS _ _ h0.axy, Rdm.Spec.bra, h]
  · decide

theorem prodRdm_ok (eigh : Tensor ℂ → List ℝ × Tensor ℂ) (hv : ∀ c, pExpect (v c) Corrf.Spec.one = 1) (c : Coord) :
    ∃ R, Rdm.rdm2x2 eigh false (prodState keys vts v) pEnv c [0, 1, 2, 3] = .ok R ∧ ∀ O, Spec.expect R O = Spec.expect (prodRdm (fun x => v (vts (vertex c x)))) O := by
  obtain ⟨e, s, R4, h1, e4, h4, hval⟩ := prodRaw keys vts v c
  rw [Rdm.rdm2x2_eq eigh false h1 (by decide) e4]
  have hfour : ∀ n : Fin ([2, 2, 2, 2] : List Nat).prod, ∃ a b c d, a < 2 ∧ b < 2 ∧ c < 2 ∧ d < 2 ∧ unravel [2, 2, 2, 2] n = [a, b, c, d] := by
    intro n
    have := (inB_unravel [2, 2, 2, 2] n n.2).1
    match unravel [2, 2, 2, 2] n, this with
    | [a, b, c, d], .cons h1 (.cons h2 (.cons h3 (.cons h4 .nil))) => exact ⟨a, b, c, d, h1, h2, h3, h4, rfl⟩
  have hherm : (Rdm.Spec.op [2, 2, 2, 2] R4).IsHermitian := by
    ext i j
    obtain ⟨a, b, c, d, h1, h2, h3, h4, h5⟩ := hfour i
    obtain ⟨a', b', c', d', h1', h2', h3', h4', h5'⟩ := hfour j
    simp only [Matrix.conjTranspose_apply, Rdm.Spec.op, h5, h5', List.cons_append, List.nil_append]
    rw [hval a b c d a' b' c' d' h1 h2 h3 h4 h1' h2' h3' h4', hval a' b' c' d' a b c d h1' h2' h3' h4' h1 h2 h3 h4]
    simp only [prodRdm, List.getD_cons_zero, List.getD_cons_succ, star_mul', star_star]
    ring
  have htr : Matrix.trace (Rdm.Spec.op [2, 2, 2, 2] R4) = 1 := by
    obtain ⟨g, hg⟩ : ∃ g : Nat → Nat → ℂ, ∀ x y, g x y = v (vts (vertex c x)) y * star (v (vts (vertex c x)) y) := ⟨_, fun _ _ => rfl⟩
    have h1 : ∀ x, g x 0 + g x 1 = 1 := by
      intro x
      rw [← hv (vts (vertex c x)), hg, hg]
      simp [pExpect, Finset.sum_range_succ, Corrf.Spec.one]
      ring
    rw [Rdm.trace_op, sumIdx4 _ (fun s => g 0 (s.getD 0 0) * g 1 (s.getD 1 0) * g 2 (s.getD 2 0) * g 3 (s.getD 3 0)), sum4 g, h1, h1, h1, h1]
    · norm_num
    · intro i j k l hi hj hk hl
      refine (hval i j k l i j k l hi hj hk hl hi hj hk hl).trans ?_
      simp only [prodRdm, List.getD_cons_zero, List.getD_cons_succ, hg]
  obtain ⟨R, eR, sR⟩ := Rdm.C30_unchanged false (by decide) h4 hherm htr (by simp)
  refine ⟨R, eR, fun O => expect_congr (fun i j k l a b c' d hi hj hk hl ha hb hc hd => ?_) (fun _ _ _ _ _ _ _ _ _ _ _ _ _ _ _ _ => rfl)⟩
  rw [sR.2 _ (by rw [sR.1, h4]; exact .cons hi (.cons hj (.cons hk (.cons hl (.cons ha (.cons hb (.cons hc (.cons hd .nil)))))))),
    hval i j k l a b c' d hi hj hk hl ha hb hc hd]

theorem prodConsistent (ht : Tiling (prodState keys vts v)) (hv : ∀ c, pExpect (v c) Corrf.Spec.one = 1) {r : Coord → Tensor ℂ}
    (hr : ∀ c ∈ keys, ∀ O, Spec.expect (r c) O = Spec.expect (prodRdm (fun x => v (vts (vertex c x)))) O) : Spec.Consistent (prodState keys vts v) r := by
  have hshift : ∀ c d : Coord, vts ((vts c).1 + d.1, (vts c).2 + d.2) = vts (c.1 + d.1, c.2 + d.2) := ht.shift
  have hmem : ∀ c, vts c ∈ keys := ht.mem
  have hidem : ∀ c, vts (vts c) = vts c := fun c => ht.fix _ (hmem c)
  refine ⟨fun c hc O => ?_, fun c hc O => ?_⟩
  · change Spec.expect (r c) _ = Spec.expect (r (vts _)) _
    rw [hr c hc, hr _ (hmem _), four_any (fun x => hv _) 2 3 (by decide) (by decide), four_any (fun x => hv _) 0 1 (by decide) (by decide)]
    have h1 : vts (vertex c 2) = vts (vertex (vts (c.1, c.2 + 1)) 0) := (hidem _).symm
    have h2 : vts (vertex c 3) = vts (vertex (vts (c.1, c.2 + 1)) 1) := by
      have := hshift (c.1, c.2 + 1) (1, 0)
      simp only [add_zero] at this
      simp only [vertex, List.getD_cons_zero, List.getD_cons_succ, rt, dn]
      exact this.symm
    simp only [h1, h2]
  · change Spec.expect (r c) _ = Spec.expect (r (vts _)) _
    rw [hr c hc, hr _ (hmem _), four_any (fun x => hv _) 1 3 (by decide) (by decide), four_any (fun x => hv _) 0 2 (by decide) (by decide)]
    have h1 : vts (vertex c 1) = vts (vertex (vts (c.1 + 1, c.2)) 0) := (hidem _).symm
    have h2 : vts (vertex c 3) = vts (vertex (vts (c.1 + 1, c.2)) 2) := by
      have := hshift (c.1 + 1, c.2) (0, 1)
      simp only [add_zero] at this
      simp only [vertex, List.getD_cons_zero, List.getD_cons_succ, rt, dn]
      exact this.symm
    simp only [h1, h2]

end
end Verif.Energy
