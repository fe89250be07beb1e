import Verif.Energy.Lemmas
/-
The sum over the cell.
-/
namespace Verif.Energy
open Tensor Ctm Ctm.Spec

/-! ### Translations of the cell -/

theorem shift_perm {st : State ℂ} (ht : Tiling st) (v : Coord) : (st.keys.map (fun c => st.vts (c.1 + v.1, c.2 + v.2))).Perm st.keys := by
  have hinj : ∀ x ∈ st.keys, ∀ y ∈ st.keys, st.vts (x.1 + v.1, x.2 + v.2) = st.vts (y.1 + v.1, y.2 + v.2) → x = y := by
    intro x hx y hy h
    have h1 := ht.shift (x.1 + v.1, x.2 + v.2) (-v.1, -v.2)
    have h2 := ht.shift (y.1 + v.1, y.2 + v.2) (-v.1, -v.2)
    rw [h, h2] at h1
    simp only [add_neg_cancel_right] at h1
    rw [ht.fix x hx, ht.fix y hy] at h1
    exact h1.symm
  have hn : (st.keys.map (fun c => st.vts (c.1 + v.1, c.2 + v.2))).Nodup := ht.nodup.map_on hinj
  refine (List.subperm_of_subset hn (fun x hx => ?_)).perm_of_length_le (by simp)
  obtain ⟨c, -, rfl⟩ := List.mem_map.1 hx
  exact ht.mem _

theorem sum_shift {st : State ℂ} (ht : Tiling st) (v : Coord) (f : Coord → ℂ) : (st.keys.map (fun c => f (st.vts (c.1 + v.1, c.2 + v.2)))).sum = (st.keys.map f).sum := by
  have := (shift_perm ht v).map f
  rw [List.map_map] at this
  exact this.sum_eq

/-! ### Consistent density matrices -/

theorem site1_bond (O : Nat → Nat → ℂ) : Spec.onSite 1 O = Spec.onBond 1 3 (fun a b a' b' => if b = b' then O a a' else 0) := by
  funext t s
  simp only [Spec.onSite, Spec.onBond, List.forall_mem_cons]
  simp
  split_ifs <;> simp_all

theorem site0_bond2 (O : Nat → Nat → ℂ) : Spec.onSite 0 O = Spec.onBond 0 2 (fun a b a' b' => if b = b' then O a a' else 0) := by
  funext t s
  simp only [Spec.onSite, Spec.onBond, List.forall_mem_cons]
  simp
  split_ifs <;> simp_all

theorem site2_bond (O : Nat → Nat → ℂ) : Spec.onSite 2 O = Spec.onBond 2 3 (fun a b a' b' => if b = b' then O a a' else 0) := by
  funext t s
  simp only [Spec.onSite, Spec.onBond, List.forall_mem_cons]
  simp
  split_ifs <;> simp_all

theorem site0_bond1 (O : Nat → Nat → ℂ) : Spec.onSite 0 O = Spec.onBond 0 1 (fun a b a' b' => if b = b' then O a a' else 0) := by
  funext t s
  simp only [Spec.onSite, Spec.onBond, List.forall_mem_cons]
  simp
  split_ifs <;> simp_all

theorem site3_bond (O : Nat → Nat → ℂ) : Spec.onSite 3 O = Spec.onBond 2 3 (fun a b a' b' => if a = a' then O b b' else 0) := by
  funext t s
  simp only [Spec.onSite, Spec.onBond, List.forall_mem_cons]
  simp
  split_ifs <;> simp_all

theorem site1_bond0 (O : Nat → Nat → ℂ) : Spec.onSite 1 O = Spec.onBond 0 1 (fun a b a' b' => if a = a' then O b b' else 0) := by
  funext t s
  simp only [Spec.onSite, Spec.onBond, List.forall_mem_cons]
  simp
  split_ifs <;> simp_all

variable {st : State ℂ} {r : Coord → Tensor ℂ}

theorem site1_eq (hc : Spec.Consistent st r) (O : Nat → Nat → ℂ) {c : Coord} (h : c ∈ st.keys) :
    Spec.expect (r c) (Spec.onSite 1 O) = Spec.expect (r (st.vts (c.1 + 1, c.2))) (Spec.onSite 0 O) := by
  rw [site1_bond, hc.right c h, ← site0_bond2]

theorem site2_eq (hc : Spec.Consistent st r) (O : Nat → Nat → ℂ) {c : Coord} (h : c ∈ st.keys) :
    Spec.expect (r c) (Spec.onSite 2 O) = Spec.expect (r (st.vts (c.1, c.2 + 1))) (Spec.onSite 0 O) := by
  rw [site2_bond, hc.down c h, ← site0_bond1]

theorem site3_eq (ht : Tiling st) (hc : Spec.Consistent st r) (O : Nat → Nat → ℂ) {c : Coord} (h : c ∈ st.keys) :
    Spec.expect (r c) (Spec.onSite 3 O) = Spec.expect (r (st.vts (c.1 + 1, c.2 + 1))) (Spec.onSite 0 O) := by
  rw [site3_bond, hc.down c h, ← site1_bond0, site1_eq hc O (ht.mem _)]
  have := ht.shift (c.1, c.2 + 1) (1, 0)
  simp only [add_zero] at this
  rw [this]

/-- The contributions of all plaquettes of a cell add up to the Hamiltonian. -/
theorem cell_sum (m : J1J2) (ht : Tiling st) (hc : Spec.Consistent st r) (hz : m.hzStag = 0 ∨ Spec.Bipartite st) :
    (st.keys.map (fun c => Spec.expect (r c) (hpOp m c) + m.lmbd * Spec.expect (r c) Spec.chirality)).sum =
      (st.keys.map (fun c => Spec.siteEnergy { m with hUni := Spec.flipY m.hUni } c (r c))).sum := by
  obtain ⟨b1, hb1⟩ : ∃ f : Coord → ℂ, ∀ c, f c = Spec.expect (r c) (Spec.onBond 0 1 (Spec.heis m.deltaZz)) := ⟨_, fun _ => rfl⟩
  obtain ⟨b2, hb2⟩ : ∃ f : Coord → ℂ, ∀ c, f c = Spec.expect (r c) (Spec.onBond 0 2 (Spec.heis m.deltaZz)) := ⟨_, fun _ => rfl⟩
  obtain ⟨z, hzz⟩ : ∃ f : Coord → ℂ, ∀ c, f c = Spec.expect (r c) (Spec.onSite 0 Spec.sz) := ⟨_, fun _ => rfl⟩
  obtain ⟨u, hu⟩ : ∃ f : Coord → ℂ, ∀ c, f c = Spec.expect (r c) (Spec.onSite 0 (Spec.field (Spec.flipY m.hUni))) := ⟨_, fun _ => rfl⟩
  obtain ⟨k, hk⟩ : ∃ f : Coord → ℂ, ∀ c, f c = m.j2 * (Spec.expect (r c) (Spec.onBond 0 3 (Spec.heis 1)) + Spec.expect (r c) (Spec.onBond 1 2 (Spec.heis 1)))
    + m.lmbd * Spec.expect (r c) Spec.chirality := ⟨_, fun _ => rfl⟩
  have hsgn : ∀ c : Coord, (m.hzStag : ℂ) * sgn (st.vts (c.1 + 1, c.2)) = - (m.hzStag * sgn c) ∧ (m.hzStag : ℂ) * sgn (st.vts (c.1, c.2 + 1)) = - (m.hzStag * sgn c) ∧
      (m.hzStag : ℂ) * sgn (st.vts (c.1 + 1, c.2 + 1)) = m.hzStag * sgn c := by
    intro c
    rcases hz with h | h
    · simp [h]
    · have h1 := h (c.1 + 1, c.2)
      have h2 := h (c.1, c.2 + 1)
      have h3 := h (c.1 + 1, c.2 + 1)
      simp only at h1 h2 h3
      simp only [sgn]
      refine ⟨?_, ?_, ?_⟩ <;> (split_ifs <;> first | omega | simp)
  have hL : ∀ c ∈ st.keys, Spec.expect (r c) (hpOp m c) + m.lmbd * Spec.expect (r c) Spec.chirality =
      (1 / 2 * m.j1) * b1 c + ((1 / 2 * m.j1) * b2 c + ((1 / 2 * m.j1) * b1 (st.vts (c.1 + 0, c.2 + 1)) + ((1 / 2 * m.j1) * b2 (st.vts (c.1 + 1, c.2 + 0)) + (k c +
      ((-1 / 4 * (m.hzStag * sgn c * z c)) + ((-1 / 4 * (m.hzStag * sgn (st.vts (c.1 + 1, c.2 + 0)) * z (st.vts (c.1 + 1, c.2 + 0)))) +
        ((-1 / 4 * (m.hzStag * sgn (st.vts (c.1 + 0, c.2 + 1)) * z (st.vts (c.1 + 0, c.2 + 1)))) + ((-1 / 4 * (m.hzStag * sgn (st.vts (c.1 + 1, c.2 + 1)) * z (st.vts (c.1 + 1, c.2 + 1)))) +
      (1 / 4 * u c + (1 / 4 * u (st.vts (c.1 + 1, c.2 + 0)) + (1 / 4 * u (st.vts (c.1 + 0, c.2 + 1)) + 1 / 4 * u (st.vts (c.1 + 1, c.2 + 1))))))))))))) := by
    intro c h
    rw [hp_expect, hc.down c h, hc.right c h, site1_eq hc _ h, site1_eq hc _ h, site2_eq hc _ h, site2_eq hc _ h, site3_eq ht hc _ h, site3_eq ht hc _ h]
    simp only [add_zero]
    rw [(hsgn c).1, (hsgn c).2.1, (hsgn c).2.2, hk]
    simp only [hb1, hb2, hzz, hu]
    ring
  have hR : ∀ c ∈ st.keys, Spec.siteEnergy { m with hUni := Spec.flipY m.hUni } c (r c) =
      m.j1 * b1 c + (m.j1 * b2 c + (k c + ((-1) * (m.hzStag * sgn c * z c) + u c))) := by
    intro c _
    simp only [Spec.siteEnergy, hb1, hb2, hzz, hu, hk, sgn]
    ring
  rw [List.map_congr_left hL, List.map_congr_left hR]
  simp only [List.sum_map_add, List.sum_map_mul_left]
  have e1 := fun f => sum_shift ht (0, 1) f
  have e2 := fun f => sum_shift ht (1, 0) f
  have e3 := fun f => sum_shift ht (1, 1) f
  simp only at e1 e2 e3
  rw [e1 b1, e2 b2, e2 u, e1 u, e3 u, e2 (fun c => m.hzStag * sgn c * z c), e1 (fun c => m.hzStag * sgn c * z c), e3 (fun c => m.hzStag * sgn c * z c)]
  ring

/-! ### The loop -/

theorem bindOk {α β : Type} (a : α) (f : α → Except Err β) : ((Except.ok a : Except Err α) >>= f) = f a := rfl

theorem loop_ok {α : Type} (f : ℂ × ℂ → α → Except Err (ℂ × ℂ)) (g h : α → ℂ) (l : List α) (hf : ∀ c ∈ l, ∀ acc, f acc c = .ok (acc.1 + g c, acc.2 + h c)) (acc : ℂ × ℂ) :
    l.foldlM f acc = .ok (acc.1 + (l.map g).sum, acc.2 + (l.map h).sum) := by
  induction l generalizing acc with
  | nil => simp [pure, Except.pure]
  | cons c l ih =>
    rw [List.foldlM_cons, hf c (by simp), bindOk, ih (fun c' hc' => hf c' (by simp [hc']))]
    simp [add_assoc]

theorem energy_eq (eigh : Tensor ℂ → List ℝ × Tensor ℂ) (m : J1J2) {env : Env ℂ} (hk : st.keys ≠ []) (hr : ∀ c ∈ st.keys, Rdm.rdm2x2 eigh false st env c [0, 1, 2, 3] = .ok (r c))
    (hs : ∀ c ∈ st.keys, (r c).shape = eight) (n : ℂ) (hn : m.j3 = 0 ∨ nnnn st env (0, 0) = .ok n) :
    energyPerSite eigh m st env = .ok ((st.keys.map (fun c => Spec.expect (r c) (hpOp m c) + m.lmbd * Spec.expect (r c) Spec.chirality)).sum / (st.keys.length : ℂ) + m.j3 * n).re := by
  obtain ⟨C, eC, qC⟩ := chiral_val
  have hstep : ∀ c ∈ st.keys, ∀ acc, cellStep eigh m st env acc c = .ok (acc.1 + (Spec.expect (r c) (hpOp m c) + m.lmbd * Spec.expect (r c) Spec.chirality), acc.2 + m.j3 * n) := by
    intro c hc acc
    obtain ⟨H, eH, qH⟩ := getHp_val m c
    have h1 : chiralTerm m (r c) = .ok (m.lmbd * Spec.expect (r c) Spec.chirality) := by
      unfold chiralTerm
      split_ifs with h0
      · simp [h0]
      · rw [eC, C4v.lift_some, full_val (hs c hc) qC, C4v.lift_some]; rfl
    have h2 : thirdTerm m st env = .ok (m.j3 * n) := by
      unfold thirdTerm
      split_ifs with h0
      · simp [h0]
      · rw [hn.resolve_left h0, bindOk]; rfl
    rw [cellStep, hr c hc, bindOk, eH, C4v.lift_some, full_val (hs c hc) qH, C4v.lift_some, h1, bindOk, h2, bindOk]
    simp [pure, Except.pure, add_assoc]
  have hlen : (st.keys.length : ℂ) ≠ 0 := by
    rw [Nat.cast_ne_zero]
    exact fun h => hk (List.length_eq_zero_iff.1 h)
  rw [energyPerSite, loop_ok _ _ (fun _ => m.j3 * n) _ hstep, bindOk, if_neg hk]
  congr 2
  simp only [zero_add, List.map_const', List.sum_replicate, nsmul_eq_mul]
  field_simp

end Verif.Energy
