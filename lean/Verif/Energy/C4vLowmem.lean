import Verif.Energy.C4vProps
/-
C99: `energy_1x1_lowmem` against `energy_1x1`.
-/
namespace Verif.Energy
open Tensor Ctm Ctm.Spec

/-! ### Operators on two sites -/

theorem expect_bond02 (r : Tensor ℂ) (O : Nat → Nat → Nat → Nat → ℂ) : Spec.expect r (Spec.onBond 0 2 O) = Spec.expect2 (Rdm.Spec.ptrace (fun _ => 2) [0, 2] r) O := by
  have hv : ∀ i k a c, (Rdm.Spec.ptrace (fun _ => 2) [0, 2] r).val [i, k, a, c] = ∑ j ∈ Finset.range 2, ∑ l ∈ Finset.range 2, r.val [i, j, k, l, a, j, c, l] := by
    intro i k a c
    have := Rdm.ptrace_val (fun _ => 2) [0, 2] r [i, k] [a, c] rfl
    simpa [Rdm.Spec.closedSites, List.range, List.range.loop, sumOver, Rdm.fill, Function.update] using this
  have key : ∀ i j k l, i < 2 → j < 2 → k < 2 → l < 2 → sumIdx [2, 2, 2, 2] (fun t => r.val ([i, j, k, l] ++ t) * Spec.onBond 0 2 O t [i, j, k, l]) =
      ∑ a ∈ Finset.range 2, ∑ c ∈ Finset.range 2, r.val [i, j, k, l, a, j, c, l] * O a c i k := by
    intro i j k l _ hj hk hl
    have hb : ∀ a b c d, Spec.onBond 0 2 O [a, b, c, d] [i, j, k, l] = if b = j ∧ d = l then O a c i k else 0 := by
      intro a b c d
      simp [Spec.onBond]
    simp only [sumIdx, hb, sum_range2, List.cons_append, List.nil_append]
    rcases lt2 hj with rfl | rfl <;> rcases lt2 hl with rfl | rfl <;> simp
  unfold Spec.expect
  rw [sumIdx4 _ (fun s => ∑ a ∈ Finset.range 2, ∑ c ∈ Finset.range 2, r.val (s ++ [a, s.getD 1 0, c, s.getD 3 0]) * O a c (s.getD 0 0) (s.getD 2 0)) key]
  simp only [sumIdx, Spec.expect2, hv, sum_range2, List.cons_append, List.nil_append, List.getD_cons_zero, List.getD_cons_succ]
  ring

theorem expect_bond03 (r : Tensor ℂ) (O : Nat → Nat → Nat → Nat → ℂ) : Spec.expect r (Spec.onBond 0 3 O) = Spec.expect2 (Rdm.Spec.ptrace (fun _ => 2) [0, 3] r) O := by
  have hv : ∀ i k a c, (Rdm.Spec.ptrace (fun _ => 2) [0, 3] r).val [i, k, a, c] = ∑ j ∈ Finset.range 2, ∑ l ∈ Finset.range 2, r.val [i, j, l, k, a, j, l, c] := by
    intro i k a c
    have := Rdm.ptrace_val (fun _ => 2) [0, 3] r [i, k] [a, c] rfl
    simpa [Rdm.Spec.closedSites, List.range, List.range.loop, sumOver, Rdm.fill, Function.update] using this
  have key : ∀ i j k l, i < 2 → j < 2 → k < 2 → l < 2 → sumIdx [2, 2, 2, 2] (fun t => r.val ([i, j, k, l] ++ t) * Spec.onBond 0 3 O t [i, j, k, l]) =
      ∑ a ∈ Finset.range 2, ∑ c ∈ Finset.range 2, r.val [i, j, k, l, a, j, k, c] * O a c i l := by
    intro i j k l _ hj hk hl
    have hb : ∀ a b c d, Spec.onBond 0 3 O [a, b, c, d] [i, j, k, l] = if b = j ∧ c = k then O a d i l else 0 := by
      intro a b c d
      simp [Spec.onBond]
    simp only [sumIdx, hb, sum_range2, List.cons_append, List.nil_append]
    rcases lt2 hj with rfl | rfl <;> rcases lt2 hk with rfl | rfl <;> simp
  unfold Spec.expect
  rw [sumIdx4 _ (fun s => ∑ a ∈ Finset.range 2, ∑ c ∈ Finset.range 2, r.val (s ++ [a, s.getD 1 0, s.getD 2 0, c]) * O a c (s.getD 0 0) (s.getD 3 0)) key]
  simp only [sumIdx, Spec.expect2, hv, sum_range2, List.cons_append, List.nil_append, List.getD_cons_zero, List.getD_cons_succ]
  ring

/-- The rotated operator on the first site. -/
noncomputable def rotF (O : Nat → Nat → Nat → Nat → ℂ) (a b i j : Nat) : ℂ := se true a * se true i * O (fb true a) b (fb true i) j

theorem rotFirst_val {h : Tensor ℂ} {O : Nat → Nat → Nat → Nat → ℂ} (hs : h.shape = [2, 2, 2, 2]) (hO : ∀ i j a b, i < 2 → j < 2 → a < 2 → b < 2 → h.val [i, j, a, b] = O a b i j) :
    ∃ h', rotFirst h = some h' ∧ h'.shape = [2, 2, 2, 2] ∧ ∀ i j a b, i < 2 → j < 2 → a < 2 → b < 2 → h'.val [i, j, a, b] = rotF O a b i j := by
  obtain ⟨R, e, s, v⟩ := einsum_ok (fun _ => 2) [(opT (Su2.rotOp 2), [10, 0]), (h, [10, 1, 11, 3]), (opT (Su2.rotOp 2), [11, 2])] [0, 1, 2, 3] (by simp [hs, opT]) (by decide) (by simp)
  refine ⟨R, e, s, fun i j a b hi hj ha hb => ?_⟩
  have hv := v (fun n => [i, j, a, b].getD n 0) (by
    intro n hn
    simp only [List.mem_cons, List.not_mem_nil, or_false] at hn
    rcases hn with rfl | rfl | rfl | rfl <;> simp <;> omega)
  have hL : ((List.flatMap Prod.snd [(opT (Su2.rotOp 2), [10, 0]), (h, [10, 1, 11, 3]), (opT (Su2.rotOp 2), [11, 2])]).dedup.filter (fun l => l ∉ ([0, 1, 2, 3] : List Nat))) = [10, 11] := by
    simp only [List.flatMap_cons, List.flatMap_nil]
    decide
  rw [hL] at hv
  refine (show R.val [i, j, a, b] = _ from hv).trans ?_
  simp only [sumOver, sum_range2, termOf, List.map_cons, List.map_nil, List.prod_cons, List.prod_nil, mul_one, Function.update]
  simp
  rw [rot_val (by decide) hi, rot_val (by decide) hi, rot_val (by decide) ha, rot_val (by decide) ha, rotF]
  rcases lt2 hi with rfl | rfl <;> rcases lt2 ha with rfl | rfl <;> simp [se, fb, hO, hj, hb]

theorem kron_val {A B : Tensor ℂ} {f g : Nat → Nat → ℂ} (hA : A.shape = [2, 2]) (hB : B.shape = [2, 2]) (hf : ∀ i a, i < 2 → a < 2 → A.val [i, a] = f a i) (hg : ∀ i a, i < 2 → a < 2 → B.val [i, a] = g a i) :
    ∃ R, kron A B = some R ∧ ∀ i j a b, i < 2 → j < 2 → a < 2 → b < 2 → R.val [i, j, a, b] = f a i * g b j := by
  obtain ⟨R, e, s, v⟩ := einsum_ok (fun _ => 2) [(A, [0, 2]), (B, [1, 3])] [0, 1, 2, 3] (by simp [hA, hB]) (by decide) (by simp)
  refine ⟨R, e, fun i j a b hi hj ha hb => ?_⟩
  have hv := v (fun n => [i, j, a, b].getD n 0) (by
    intro n hn
    simp only [List.mem_cons, List.not_mem_nil, or_false] at hn
    rcases hn with rfl | rfl | rfl | rfl <;> simp <;> omega)
  have hL : ((List.flatMap Prod.snd [(A, [0, 2]), (B, [1, 3])]).dedup.filter (fun l => l ∉ ([0, 1, 2, 3] : List Nat))) = [] := by
    simp only [List.flatMap_cons, List.flatMap_nil]
    decide
  rw [hL] at hv
  refine (show R.val [i, j, a, b] = _ from hv).trans ?_
  simp [sumOver, termOf, hf i a hi ha, hg j b hj hb]

/-- `f` on the first site plus `g` on the second. -/
def sumO (f g : Nat → Nat → ℂ) (a b i j : Nat) : ℂ := f a i * (if b = j then 1 else 0) + (if a = i then 1 else 0) * g b j

theorem one_val {i a : Nat} (hi : i < 2) (ha : a < 2) : (opT 1).val [i, a] = if a = i then 1 else 0 := by
  rcases lt2 hi with rfl | rfl <;> rcases lt2 ha with rfl | rfl <;> simp [opT] <;> rfl

theorem hz_val : ∃ h, hz2x1 = some h ∧ h.shape = [2, 2, 2, 2] ∧ ∀ i j a b, i < 2 → j < 2 → a < 2 → b < 2 → h.val [i, j, a, b] = sumO Spec.sz (fun b j => -Spec.sz b j) a b i j := by
  obtain ⟨x, e1, v1⟩ := kron_val (A := opT (Su2.SZ 2)) (B := opT 1) (f := Spec.sz) (g := fun b j => if b = j then 1 else 0) rfl rfl
    (fun i a hi ha => by rw [sz_symm]; exact sz_val hi ha) (fun i a hi ha => one_val hi ha)
  obtain ⟨y, e2, v2⟩ := kron_val (A := opT 1) (B := opT (-Su2.SZ 2)) (f := fun b j => if b = j then 1 else 0) (g := fun b j => -Spec.sz b j) rfl rfl
    (fun i a hi ha => one_val hi ha) (fun i a hi ha => by rw [sz_symm, ← sz_val hi ha]; rfl)
  refine ⟨_, by rw [hz2x1, e1, e2]; rfl, rfl, fun i j a b hi hj ha hb => ?_⟩
  simp [comb4, v1 i j a b hi hj ha hb, v2 i j a b hi hj ha hb, sumO]

theorem huni2_val (m : J1J2) : ∃ h, huni2x1 m = some h ∧ h.shape = [2, 2, 2, 2] ∧
    ∀ i j a b, i < 2 → j < 2 → a < 2 → b < 2 → h.val [i, j, a, b] = sumO (Spec.field (Spec.flipY m.hUni)) (Spec.field (Spec.flipY m.hUni)) a b i j := by
  obtain ⟨x, e1, v1⟩ := kron_val (A := huni1x1 m) (B := opT 1) (f := Spec.field (Spec.flipY m.hUni)) (g := fun b j => if b = j then 1 else 0) rfl rfl
    (fun i a hi ha => huni_val m hi ha) (fun i a hi ha => one_val hi ha)
  obtain ⟨y, e2, v2⟩ := kron_val (A := opT 1) (B := huni1x1 m) (f := fun b j => if b = j then 1 else 0) (g := Spec.field (Spec.flipY m.hUni)) rfl rfl
    (fun i a hi ha => one_val hi ha) (fun i a hi ha => huni_val m hi ha)
  refine ⟨_, by rw [huni2x1, e1, e2]; rfl, rfl, fun i j a b hi hj ha hb => ?_⟩
  simp [comb4, v1 i j a b hi hj ha hb, v2 i j a b hi hj ha hb, sumO]

/-- The bond between the rotated site 0 and the site 2. -/
theorem rot_bond02 {r r1 : Tensor ℂ} (q1 : RotOf fl03 r r1) (O : Nat → Nat → Nat → Nat → ℂ) : Spec.expect r (Spec.onBond 0 2 (rotF O)) = Spec.expect r1 (Spec.onBond 0 2 O) := by
  rw [expect_rot q1]
  refine expect_congr (fun _ _ _ _ _ _ _ _ _ _ _ _ _ _ _ _ => rfl) fun i j k l a b c d hi hj hk hl ha hb hc hd => ?_
  have hd' : (1 - d = 1 - l) ↔ d = l := by omega
  simp only [Spec.onBond, rotO, fl03, rotF]
  simp [fb, hd']
  by_cases h : b = j ∧ d = l
  · obtain ⟨rfl, rfl⟩ := h
    simp [se, ← pow_add]
  · simp [h]

theorem rot_bond03 {r r0 : Tensor ℂ} (q0 : RotOf fl12 r r0) (O : Nat → Nat → Nat → Nat → ℂ) : Spec.expect r (Spec.onBond 0 3 O) = Spec.expect r0 (Spec.onBond 0 3 O) := by
  rw [expect_rot q0]
  refine expect_congr (fun _ _ _ _ _ _ _ _ _ _ _ _ _ _ _ _ => rfl) fun i j k l a b c d hi hj hk hl ha hb hc hd => ?_
  have hb' : (1 - b = 1 - j) ↔ b = j := by omega
  have hc' : (1 - c = 1 - k) ↔ c = k := by omega
  simp only [Spec.onBond, rotO, fl12]
  simp [fb, hb', hc']
  by_cases h : b = j ∧ c = k
  · obtain ⟨rfl, rfl⟩ := h
    simp [se, ← pow_add]
  · simp [h]

theorem bond_sum (r : Tensor ℂ) (f g : Nat → Nat → ℂ) : Spec.expect r (Spec.onBond 0 2 (sumO f g)) = Spec.expect r (Spec.onSite 0 f) + Spec.expect r (Spec.onSite 2 g) := by
  rw [← expect_add]
  refine expect_congr (fun _ _ _ _ _ _ _ _ _ _ _ _ _ _ _ _ => rfl) fun i j k l a b c d _ _ _ _ _ _ _ _ => ?_
  simp only [Spec.onBond, Spec.onSite, sumO]
  by_cases h1 : b = j <;> by_cases h2 : d = l <;> by_cases h3 : a = i <;> by_cases h4 : c = k <;> simp [h1, h2, h3, h4]

/-- Exchange on a bond is the same on both plaquettes of the checkerboard. -/
theorem heis_frames {r r0 r1 : Tensor ℂ} (q0 : RotOf fl12 r r0) (q1 : RotOf fl03 r r1) (i j : Nat) (hij : i < j) (hj4 : j < 4) (δ : ℝ) :
    Spec.expect r1 (Spec.onBond i j (Spec.heis δ)) = Spec.expect r0 (Spec.onBond i j (Spec.heis δ)) := by
  have hk : kap (fl03 i) * kap (fl03 j) = kap (fl12 i) * kap (fl12 j) := by
    have hmn : (i = 0 ∧ j = 1) ∨ (i = 0 ∧ j = 2) ∨ (i = 0 ∧ j = 3) ∨ (i = 1 ∧ j = 2) ∨ (i = 1 ∧ j = 3) ∨ (i = 2 ∧ j = 3) := by omega
    rcases hmn with ⟨rfl, rfl⟩ | ⟨rfl, rfl⟩ | ⟨rfl, rfl⟩ | ⟨rfl, rfl⟩ | ⟨rfl, rfl⟩ | ⟨rfl, rfl⟩ <;> simp [kap, fl12, fl03]
  have hy : ∀ b i j, i < 2 → j < 2 → conjO b Spec.sy i j = (fun _ => (1 : ℂ)) b * Spec.sy i j := fun b i j hi hj => by rw [one_mul]; exact conj_sy b hi hj
  rw [heis_expect _ i j hij hj4, heis_expect _ i j hij hj4, rot_two q1 i j hj4 hij kap (fun b i j => conj_sz b), rot_two q1 i j hj4 hij kap (fun b i j => conj_sx b), rot_two q1 i j hj4 hij _ hy,
    rot_two q0 i j hj4 hij kap (fun b i j => conj_sz b), rot_two q0 i j hj4 hij kap (fun b i j => conj_sx b), rot_two q0 i j hj4 hij _ hy, hk]

/-- The first plaquette of the checkerboard is the second one turned. -/
theorem checker_turn' {r r0 r1 : Tensor ℂ} (ht : C4v.Turns 2 r) (q0 : RotOf fl12 r r0) (q1 : RotOf fl03 r r1) (O : List Nat → List Nat → ℂ) : Spec.expect r0 O = Spec.expect r1 (turnO O) := by
  refine expect_turn (fun i j k l a b c d hi hj hk hl ha hb hc hd => ?_) O
  have ff : ∀ n, fb false n = n := fun _ => rfl
  have sf : ∀ n, se false n = 1 := fun _ => rfl
  rw [q1 i j k l a b c d hi hj hk hl ha hb hc hd, q0 j l i k b d a c hj hl hi hk hb hd ha hc]
  simp only [fl12, fl03, Nat.reduceBEq, Bool.or_self, Bool.or_true, ff, sf, Bool.or_false, beq_self_eq_true]
  rw [ht _ j k _ _ b c _ (fb_lt hi) hj hk (fb_lt hl) (fb_lt ha) hb hc (fb_lt hd)]
  ring

/-- The four sites: the sublattices of the diagonal. -/
theorem sites_eq {r r0 r1 : Tensor ℂ} (ht : C4v.Turns 2 r) (q0 : RotOf fl12 r r0) (q1 : RotOf fl03 r r1) (O : Nat → Nat → ℂ) :
    Spec.expect r1 (Spec.onSite 0 O) = Spec.expect r0 (Spec.onSite 1 O) ∧ Spec.expect r1 (Spec.onSite 2 O) = Spec.expect r0 (Spec.onSite 0 O) ∧
      Spec.expect r0 (Spec.onSite 3 O) = Spec.expect r0 (Spec.onSite 0 O) ∧ Spec.expect r0 (Spec.onSite 2 O) = Spec.expect r0 (Spec.onSite 1 O) := by
  have h := fun O => checker_turn ht q0 q1 O
  have h' := fun O => checker_turn' ht q0 q1 O
  have t0 := fun r => turn_site (m := 0) (m' := 1) (by decide) O r
  have t1 := fun r => turn_site (m := 1) (m' := 3) (by decide) O r
  have t2 := fun r => turn_site (m := 2) (m' := 0) (by decide) O r
  have t3 := fun r => turn_site (m := 3) (m' := 2) (by decide) O r
  refine ⟨by rw [h, t0], by rw [h, t2], by rw [h', t3, h, t2], by rw [h', t2, h, t0]⟩

/-- The bonds. -/
theorem bonds_eq {r r0 r1 : Tensor ℂ} (ht : C4v.Turns 2 r) (q0 : RotOf fl12 r r0) (q1 : RotOf fl03 r r1) (δ : ℝ) :
    Spec.expect r0 (Spec.onBond 0 1 (Spec.heis δ)) = Spec.expect r1 (Spec.onBond 0 2 (Spec.heis δ)) ∧ Spec.expect r0 (Spec.onBond 0 2 (Spec.heis δ)) = Spec.expect r1 (Spec.onBond 0 2 (Spec.heis δ)) ∧
      Spec.expect r0 (Spec.onBond 1 3 (Spec.heis δ)) = Spec.expect r1 (Spec.onBond 0 2 (Spec.heis δ)) ∧ Spec.expect r0 (Spec.onBond 2 3 (Spec.heis δ)) = Spec.expect r1 (Spec.onBond 0 2 (Spec.heis δ)) ∧
      Spec.expect r0 (Spec.onBond 1 2 (Spec.heis δ)) = Spec.expect r0 (Spec.onBond 0 3 (Spec.heis δ)) := by
  have h := fun O => checker_turn ht q0 q1 O
  have f := heis_frames q0 q1
  have b01 := h (Spec.onBond 0 1 (Spec.heis δ))
  have b02 := h (Spec.onBond 0 2 (Spec.heis δ))
  have b13 := h (Spec.onBond 1 3 (Spec.heis δ))
  have b23 := h (Spec.onBond 2 3 (Spec.heis δ))
  have b03 := h (Spec.onBond 0 3 (Spec.heis δ))
  rw [turn_bond (m' := 1) (n' := 3) (by decide), f 0 1 (by decide) (by decide)] at b01
  rw [turn_bond (m' := 1) (n' := 0) (by decide), bond_swap 1 0] at b02
  rw [turn_bond (m' := 3) (n' := 2) (by decide), bond_swap 3 2, f 1 3 (by decide) (by decide)] at b13
  rw [turn_bond (m' := 1) (n' := 2) (by decide), f 0 3 (by decide) (by decide)] at b03
  exact ⟨b02.symm, (f 0 2 (by decide) (by decide) δ).symm, by rw [← b01, ← b02], by rw [← b13, ← b01, ← b02], b03.symm⟩

section
variable {chi D : Nat} {a : Tensor ℂ} {env : C4v.Env ℂ}

theorem ptrace_two (chi D : Nat) (c : Coord) (os : List Nat) (r : Tensor ℂ) (h : os = [0, 2] ∨ os = [0, 3]) :
    Rdm.Spec.ptrace (Rdm.Spec.physP (C4v.Spec.dims chi D 2) c) os r = Rdm.Spec.ptrace (fun _ => 2) os r := by
  rcases h with rfl | rfl <;> rfl

/-- What the two routines need: density matrices without negative eigenvalues. -/
structure Spec.Positive (eigh : Tensor ℂ → List ℝ × Tensor ℂ) (m : J1J2) (chi : Nat) (a : Tensor ℂ) (env : C4v.Env ℂ) : Prop where
  plaquette : Spec.Unclamped fun spd => C4v.rdm2x2 eigh spd a env
  neighbours : Spec.Unclamped fun spd => C4v.rdmNN eigh true spd a env
  diagonal : m.j2 = 0 ∨ Spec.Unclamped fun spd => C4v.rdmNNN eigh true spd a env
  third : m.j3 = 0 ∨ C4v.Spec.CSymm chi env ∧ Spec.Unclamped fun spd => C4v.rdm3x1 eigh false spd a env

theorem third_same (eigh : Tensor ℂ → List ℝ × Tensor ℂ) (m : J1J2) (hchi : 0 < chi) (hD : 0 < D) (hf : C4v.Spec.Fits chi D 2 a env) (hr : C4v.Spec.Rotated D 2 a)
    (h : m.j3 = 0 ∨ C4v.Spec.CSymm chi env ∧ Spec.Unclamped fun spd => C4v.rdm3x1 eigh false spd a env) :
    ∃ n, ∀ sl hz, c4vThird eigh sl { m with hzStag := hz } a env = .ok n := by
  by_cases h0 : m.j3 = 0
  · exact ⟨0, fun sl hz => by simp [c4vThird, h0]⟩
  · obtain ⟨hS, r, r', h1, h2, h3⟩ := h.resolve_left h0
    obtain ⟨e, rho, g1, g2, g3⟩ := C4v.C74_ends eigh true hchi hD (by decide) hf hr hS (0, 0)
    obtain ⟨e', rho', g1', g2', g3'⟩ := C4v.C74_ends eigh false hchi hD (by decide) hf hr hS (0, 0)
    have hs : rho'.shape = [2, 2] ++ [2, 2] := g2'.1
    have h1' : Rdm.symRdm eigh false rho' = .ok r := by rw [← g3' false]; exact h1
    obtain ⟨p0, p1⟩ := Rdm.symRdm_ok eigh hs h1'
    obtain ⟨R, e1, e2, e3⟩ := Rdm.symRdm_entries eigh hs p0 p1
    obtain rfl : r = R := by rw [h1'] at e1; injection e1
    refine ⟨2 * m.j3 * Spec.expect2 r' (Spec.heis 1), fun sl hz => ?_⟩
    have h2' : C4v.rdm3x1 eigh sl true a env = .ok r' := by rw [g3 sl, ← g3 false]; exact h2
    have hx : full4 r' (ssT (1, 1, 1)) = some (Spec.expect2 r' (Spec.heis 1)) := full4_val (h3.1.trans e2) rfl (fun i j a b hi hj ha hb => ss_val 1 hi hj ha hb)
    rw [c4vThird, if_neg h0, h2', bindOk, hx, C4v.lift_some]
    rfl

/-- `energy_1x1_lowmem` is `energy_1x1` with the staggered field reversed. -/
theorem C99_sign (eigh : Tensor ℂ → List ℝ × Tensor ℂ) (m : J1J2) (hchi : 0 < chi) (hD : 0 < D) (hf : C4v.Spec.Fits chi D 2 a env) (hr : C4v.Spec.Rotated D 2 a) (hl : m.lmbd = 0)
    (hp : Spec.Positive eigh m chi a env) :
    ∃ x, energy1x1Lowmem eigh m a env = .ok x ∧ energy1x1 eigh { m with hzStag := -m.hzStag } a env = .ok x := by
  obtain ⟨⟨r, r', h1, h2, h3⟩, ⟨q, q', k1, k2, k3⟩, hd, ht3⟩ := hp
  obtain ⟨n, hn⟩ := third_same eigh m hchi hD hf hr ht3
  obtain ⟨hrs, ht⟩ := C4v.rdm2x2_turns eigh hf h1
  have hs : FitsState (C4v.Spec.dims chi D 2) (Spec.single a) := C4v.fitsState hD (by decide) hf
  have he : FitsEnv (C4v.Spec.dims chi D 2) (Spec.single a) (C4v.Spec.unfold env) := C4v.fitsEnv hchi hf
  have hr' : Rdm.rdm2x2 eigh false (Spec.single a) (C4v.Spec.unfold env) (0, 0) [0, 1, 2, 3] = .ok r := (C4v.C73_plaquette eigh false hchi hD (by decide) hf hr (0, 0)).symm.trans h1
  obtain ⟨⟨r0, e0, s0, q0⟩, ⟨r1, e1, s1, q1⟩⟩ := checker_rdm eigh hs he (fun _ => rfl) hr'
  have hq : Same q (Rdm.Spec.ptrace (fun _ => 2) [0, 2] r) := by
    obtain ⟨Q, g1, g2⟩ := Rdm.C33_normalised eigh hs he (0, 0) [0, 2] (by decide) (by decide) (by decide) hr'
    rw [ptrace_two _ _ _ _ _ (by simp)] at g2
    have : (Except.ok q : Except Err (Tensor ℂ)) = .ok Q := k1.symm.trans ((C4v.C73_neighbours eigh true false hchi hD (by decide) hf hr (0, 0)).trans g1)
    injection this with this
    rw [this]; exact g2
  have hqs : q.shape = [2, 2, 2, 2] := hq.1
  have hE : ∀ O, Spec.expect2 q' (rotF O) = Spec.expect r1 (Spec.onBond 0 2 O) := fun O => by
    rw [expect2_same k3 hqs, expect2_same hq rfl, ← expect_bond02, rot_bond02 q1]
  obtain ⟨ss, es, ss', vs⟩ := rotFirst_val (h := ssT (m.deltaZz, 1, 1)) rfl (fun i j a b hi hj ha hb => ss_val m.deltaZz hi hj ha hb)
  obtain ⟨z0, ez0, sz0, vz0⟩ := hz_val
  obtain ⟨z, ez, sz', vz⟩ := rotFirst_val sz0 vz0
  obtain ⟨hz0, hz1, hz2, hz3⟩ := sites_eq ht q0 q1 Spec.sz
  obtain ⟨hf0, hf1, hf2, hf3⟩ := sites_eq ht q0 q1 (Spec.field (Spec.flipY m.hUni))
  obtain ⟨b0, b1, b2, b3, -⟩ := bonds_eq ht q0 q1 m.deltaZz
  obtain ⟨-, -, -, -, b4⟩ := bonds_eq ht q0 q1 1
  have hu : lowUniform m q' = .ok (1 / 2 * (Spec.expect r0 (Spec.onSite 1 (Spec.field (Spec.flipY m.hUni))) + Spec.expect r0 (Spec.onSite 0 (Spec.field (Spec.flipY m.hUni))))) := by
    unfold lowUniform
    split_ifs with h0
    · have : Spec.field (Spec.flipY m.hUni) = fun _ _ => 0 := by
        funext x y
        simp [Spec.field, Spec.flipY, h0]
      have hz : ∀ n, Spec.expect r0 (Spec.onSite n (fun _ _ => 0)) = 0 := fun n => by
        have : Spec.onSite n (fun _ _ => (0 : ℂ)) = fun _ _ => 0 := by funext x y; simp [Spec.onSite]
        rw [this, expect_zero]
      rw [this, hz, hz]; simp
    · obtain ⟨y0, ey0, sy0, vy0⟩ := huni2_val m
      obtain ⟨y, ey, sy', vy⟩ := rotFirst_val sy0 vy0
      rw [ey0, C4v.lift_some, ey, C4v.lift_some, full4_val (k3.1.trans hqs) sy' vy, C4v.lift_some, hE, bond_sum, hf0, hf1]
      rfl
  have hdg : lowDiagonal eigh m a env = .ok (2 * m.j2 * Spec.expect r0 (Spec.onBond 0 3 (Spec.heis 1))) := by
    unfold lowDiagonal
    split_ifs with h0
    · simp [h0]
    · obtain ⟨t, t', j1, j2, j3⟩ := hd.resolve_left h0
      have ht : Same t (Rdm.Spec.ptrace (fun _ => 2) [0, 3] r) := by
        obtain ⟨Q, g1, g2⟩ := Rdm.C33_normalised eigh hs he (0, 0) [0, 3] (by decide) (by decide) (by decide) hr'
        rw [ptrace_two _ _ _ _ _ (by simp)] at g2
        have : (Except.ok t : Except Err (Tensor ℂ)) = .ok Q := j1.symm.trans ((C4v.C73_diagonal eigh true false hchi hD (by decide) hf hr (0, 0)).trans g1)
        injection this with this
        rw [this]; exact g2
      have hts : t.shape = [2, 2, 2, 2] := ht.1
      have j2' : C4v.rdmNNN eigh true true a env = .ok t' := j2
      have hx : full4 t' (ssT (1, 1, 1)) = some (Spec.expect2 t' (Spec.heis 1)) := full4_val (j3.1.trans hts) rfl (fun i j a b hi hj ha hb => ss_val 1 hi hj ha hb)
      rw [j2', bindOk, hx, C4v.lift_some, expect2_same j3 hts, expect2_same ht rfl, ← expect_bond03, rot_bond03 q0]
      rfl
  have k2' : C4v.rdmNN eigh true true a env = .ok q' := k2
  refine ⟨_, ?_, energy1x1_value eigh { m with hzStag := -m.hzStag } h2 h3 hrs q0 (hn false _)⟩
  rw [energy1x1Lowmem, if_pos hl, k2', bindOk, es, C4v.lift_some, ez0, C4v.lift_some, ez, C4v.lift_some, full4_val (k3.1.trans hqs) ss' vs, C4v.lift_some, full4_val (k3.1.trans hqs) sz' vz, C4v.lift_some,
    hu, bindOk, hdg, bindOk, hn true m.hzStag, bindOk, hE, hE, bond_sum, hz0]
  have hneg : Spec.expect r1 (Spec.onSite 2 fun b j => -Spec.sz b j) = - Spec.expect r0 (Spec.onSite 0 Spec.sz) := by
    rw [← hz1, ← neg_one_mul, ← expect_mul]
    congr 1
    funext x y
    simp [Spec.onSite]
  refine congrArg (fun z : ℂ => (Except.ok z.re : Except Err ℝ)) ?_
  rw [hp_expect, hneg, hz2, hz3, hf2, hf3, b0, b1, b2, b3, b4, hl]
  simp [sgn]
  ring

end

end Verif.Energy
