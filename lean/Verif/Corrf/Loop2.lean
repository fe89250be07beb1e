import Verif.Corrf.Props2
/-
The loops of `corrf_2sOH2sOH_E1` and `corrf_2sOV2sOV_E2`.
-/
namespace Verif.Corrf
open Tensor Ctm Ctm.Spec
set_option linter.unusedSimpArgs false
set_option linter.unusedSectionVars false
variable {K : Type} [RCLike K]
section
variable {D : Dims} {st : State K} {env : Env K} {N : Spec.Tensors K}

theorem step2_scaled (d : Dir) (c : Coord) (o : Spec.Op2 K) (M : ℝ) (f : Spec.Vec K) :
    Spec.step2 N D d c o (scaled M f) = scaled M (Spec.step2 N D d c o f) := by
  funext x y z
  simp only [Spec.step2, step_scaled]
  simp only [scaled, Spec.step2, Finset.sum_div]
  refine Finset.sum_congr rfl (fun _ _ => Finset.sum_congr rfl (fun _ _ => Finset.sum_congr rfl (fun _ _ => Finset.sum_congr rfl (fun _ _ => by ring))))

/-- If the largest entry vanishes, every strip continued from the edge vanishes. -/
theorem step_zero_of_norm {d : Dir} {c : Coord} {E : Tensor K} {f : Spec.Vec K} (h : Rep (Spec.cut D d c) E f) (hz : vecNorm true E = 0) (o : Spec.Op K) (x' y' z' : Nat) :
    Spec.step N D d c o f x' y' z' = 0 := by
  simp only [Spec.step]
  refine Finset.sum_eq_zero (fun x h1 => Finset.sum_eq_zero (fun y h2 => Finset.sum_eq_zero (fun z h3 => Finset.sum_eq_zero (fun m _ => Finset.sum_eq_zero (fun n _ => ?_)))))
  simp only [Finset.mem_range] at h1 h2 h3
  have hf : f x y z = 0 := by
    rw [← h.2 x y z h1 h2 h3]
    have hm : ‖E.val [x, y, z]‖ ≤ vecNorm true E := by
      unfold vecNorm
      simp only [if_true]
      refine le_foldr_max (List.mem_map.2 ⟨_, mem_indices.2 ?_, rfl⟩)
      rw [h.1]
      exact .cons h1 (.cons h2 (.cons h3 .nil))
    rw [hz] at hm
    exact norm_le_zero_iff.1 hm
  rw [hf]; ring

/-- The loop of `corrf_2sOH2sOH_E1` from iteration `r` on. -/
theorem loopH_spec (ht : Tiling st) (hs : FitsState D st) (he : FitsEnv D st env) (hN : Spec.Reads st env N) (svd : Tensor K → Nat → Svd K) (d : Dir) (c : Coord)
    (o1 : Spec.Op2 K) (p : Nat) (hp : ∀ c, D.p c = p) (op2 : Nat → Tensor K) (n : Nat) : ∀ (r : Nat) (E0 E1 : Tensor K) (M : ℝ), M ≠ 0 →
    (∀ k < n, (op2 (r + k)).shape = [p, p, p, p] ∧ Spec.Factorises svd p (op2 (r + k))) →
    Rep (Spec.cut D d (Spec.ahead d c (r + 2))) E0 (scaled M (Spec.grow N D d c (List.replicate (r + 2) Spec.one) (Spec.edge N D (rev d) c))) →
    Rep (Spec.cut D d (Spec.ahead d c (r + 2))) E1 (scaled M (Spec.grow N D d (Spec.ahead d c 2) (List.replicate r Spec.one) (Spec.step2 N D d c o1 (Spec.edge N D (rev d) c)))) →
    ((∀ k < n, Spec.norm N D d c (r + k + 4) ≠ 0) → ∃ l, loopH svd st env d op2 n r (Spec.ahead d c (r + 2)) E0 E1 = .ok l ∧ l.length = n ∧
      ∀ k < n, l[k]? = some (Spec.pairTwoPoint N D d c o1 (Spec.transposed2 (op2 (r + k))) (r + k) / Spec.norm N D d c (r + k + 4))) ∧
    ((∃ k < n, Spec.norm N D d c (r + k + 4) = 0) → loopH svd st env d op2 n r (Spec.ahead d c (r + 2)) E0 E1 = .error .nan) := by
  induction n with
  | zero =>
    intro r E0 E1 M hM h2 h0 h1
    exact ⟨fun _ => ⟨[], rfl, rfl, fun k hk => absurd hk (Nat.not_lt_zero k)⟩, fun ⟨k, hk, _⟩ => absurd hk (Nat.not_lt_zero k)⟩
  | succ n ih =>
    intro r E0 E1 M hM h2 h0 h1
    have hc : shift (Spec.ahead d c (r + 2)) d.vec = Spec.ahead d c (r + 3) := by rw [shift_vec, ahead_ahead]
    obtain ⟨ho, hfac⟩ := h2 0 (Nat.succ_pos n)
    obtain ⟨F12, e12, q12⟩ := applyTM1ch_rep ht hs he hN d (Spec.ahead d c (r + 2)) (op2 r) p ho (hp _) (hp _) hfac h1
    obtain ⟨F0, e0, q0⟩ := applyTM_rep ht hs he hN d (Spec.ahead d c (r + 2)) none (fun o ho => by cases ho) h0
    obtain ⟨F1, e1, q1⟩ := applyTM_rep ht hs he hN d (Spec.ahead d c (r + 2)) none (fun o ho => by cases ho) h1
    have l0 : ∀ m, List.replicate (m + 1) (Spec.one : Spec.Op K) = List.replicate m Spec.one ++ [Spec.one] := fun m => List.replicate_succ'
    have g0 : ∀ m, Spec.step N D d (Spec.ahead d c m) Spec.one (Spec.grow N D d c (List.replicate m Spec.one) (Spec.edge N D (rev d) c)) =
        Spec.grow N D d c (List.replicate (m + 1) Spec.one) (Spec.edge N D (rev d) c) := by
      intro m; rw [l0, grow_append, List.length_replicate]
    have g1 : ∀ E : Spec.Vec K, Spec.step N D d (Spec.ahead d c (r + 2)) Spec.one (Spec.grow N D d (Spec.ahead d c 2) (List.replicate r Spec.one) E) =
        Spec.grow N D d (Spec.ahead d c 2) (List.replicate (r + 1) Spec.one) E := by
      intro E; rw [l0, grow_append, List.length_replicate, ahead_ahead, Nat.add_comm 2 r]
    simp only [inserted] at q0 q1
    rw [step_scaled, g0, ahead_ahead] at q0
    rw [step_scaled, g1, ahead_ahead] at q1
    rw [step2_scaled, ahead_ahead] at q12
    obtain ⟨F00, e00, q00⟩ := applyTM_rep ht hs he hN d (Spec.ahead d c (r + 3)) none (fun o ho => by cases ho) q0
    simp only [inserted] at q00
    have hstep0 : ∀ x y z, Spec.step N D d (Spec.ahead d c (r + 3)) Spec.one (scaled M (Spec.grow N D d c (List.replicate (r + 2 + 1) Spec.one) (Spec.edge N D (rev d) c))) x y z =
        scaled M (Spec.grow N D d c (List.replicate (r + 4) Spec.one) (Spec.edge N D (rev d) c)) x y z := by
      intro x y z; rw [step_scaled, g0]
    have hq0 := q0
    rw [step_scaled, g0, ahead_ahead] at q00
    obtain ⟨S12, f12, v12⟩ := applyEdge_rep he hN d (Spec.ahead d c (r + 3)) (by rw [ahead_ahead]; exact q12)
    obtain ⟨S00, f00, v00⟩ := applyEdge_rep he hN d (Spec.ahead d c (r + 3)) (by rw [ahead_ahead]; exact q00)
    rw [dot_scaled, ahead_ahead] at v12 v00
    have hn : S00.val [] = Spec.norm N D d c (r + 4) / (M : K) := by
      rw [v00]; simp only [Spec.norm, Spec.network, List.length_replicate]; rfl
    have ht2 : S12.val [] = Spec.pairTwoPoint N D d c o1 (Spec.transposed2 (op2 r)) r / (M : K) := by
      rw [v12]; rfl
    have hMK : (M : K) ≠ 0 := by exact_mod_cast hM
    have hstep : loopH svd st env d op2 (n + 1) r (Spec.ahead d c (r + 2)) E0 E1 =
        (entry S12 S00 F0 F1 >>= fun p => loopH svd st env d op2 n (r + 1) (Spec.ahead d c (r + 3)) p.2.1 p.2.2 >>= fun vs => .ok (p.1 :: vs)) := by
      simp only [loopH, hc, e12, e0, e1, e00, lift_bind, f12, f00]
      rfl
    rw [hstep]
    by_cases hz : Spec.norm N D d c (r + 4) = 0
    · refine ⟨fun h => absurd hz (h 0 (Nat.succ_pos n)), fun _ => ?_⟩
      simp only [entry, hn, hz, zero_div, true_or, if_true]
      rfl
    · have hv : vecNorm true F0 ≠ 0 := by
        intro hv
        apply hz
        have hzero : ∀ x y z, Spec.grow N D d c (List.replicate (r + 4) Spec.one) (Spec.edge N D (rev d) c) x y z = 0 := by
          intro x y z
          have := step_zero_of_norm (N := N) q0 hv Spec.one x y z
          have h' := (hstep0 x y z).symm.trans this
          rcases div_eq_zero_iff.1 h' with h | h
          · exact h
          · exact absurd h hMK
        simp only [Spec.norm, Spec.network, Spec.dot, hzero, zero_mul, Finset.sum_const_zero]
      have hent : entry S12 S00 F0 F1 = .ok (Spec.pairTwoPoint N D d c o1 (Spec.transposed2 (op2 r)) r / Spec.norm N D d c (r + 4), divBy (vecNorm true F0) F0, divBy (vecNorm true F0) F1) := by
        simp only [entry, hn, ht2, div_eq_zero_iff, hz, hMK, hv, or_self, if_false, Except.ok.injEq, Prod.mk.injEq, and_true]
        field_simp
      rw [hent]
      obtain ⟨i1, i2⟩ := ih (r + 1) (divBy (vecNorm true F0) F0) (divBy (vecNorm true F0) F1) (M * vecNorm true F0) (mul_ne_zero hM hv)
        (fun k hk => by have := h2 (k + 1) (by omega); rwa [show r + (k + 1) = r + 1 + k by omega] at this)
        (rep_divBy _ q0) (rep_divBy _ q1)
      refine ⟨fun h => ?_, fun ⟨k, hk, hk0⟩ => ?_⟩
      · obtain ⟨l, el, hlen, hval⟩ := i1 (fun k hk => by have := h (k + 1) (by omega); rwa [show r + (k + 1) = r + 1 + k by omega] at this)
        refine ⟨_ :: l, by show (loopH svd st env d op2 n (r + 1) (Spec.ahead d c (r + 1 + 2)) _ _ >>= _) = _; rw [el]; rfl, by simp [hlen], fun k hk => ?_⟩
        cases k with
        | zero => rfl
        | succ k => rw [List.getElem?_cons_succ, hval k (by omega), show r + 1 + k = r + (k + 1) by omega]
      · have : loopH svd st env d op2 n (r + 1) (Spec.ahead d c (r + 1 + 2)) (divBy (vecNorm true F0) F0) (divBy (vecNorm true F0) F1) = .error .nan := by
          cases k with
          | zero => exact absurd hk0 hz
          | succ k => exact i2 ⟨k, by omega, by rwa [show r + 1 + k = r + (k + 1) by omega]⟩
        show (loopH svd st env d op2 n (r + 1) (Spec.ahead d c (r + 1 + 2)) _ _ >>= _) = _
        rw [this]; rfl

/-! ### Two rows -/

noncomputable def scaledW (M : ℝ) (f : Spec.Vec4 K) : Spec.Vec4 K := fun x y w z => f x y w z / (M : K)

theorem wide_scaled (d : Dir) (c : Coord) (o o' : Spec.Op K) (M : ℝ) (f : Spec.Vec4 K) :
    Spec.wide N D d c o o' (scaledW M f) = scaledW M (Spec.wide N D d c o o' f) := by
  funext x y w z
  simp only [wide_flat, scaledW, Finset.sum_div]
  exact Finset.sum_congr rfl (fun _ _ => by ring)

theorem wide2_scaled (d : Dir) (c : Coord) (o : Spec.Op2 K) (M : ℝ) (f : Spec.Vec4 K) :
    Spec.wide2 N D d c o (scaledW M f) = scaledW M (Spec.wide2 N D d c o f) := by
  funext x y w z
  simp only [Spec.wide2, wide_scaled]
  simp only [scaledW, Spec.wide2, Finset.sum_div]
  refine Finset.sum_congr rfl (fun _ _ => Finset.sum_congr rfl (fun _ _ => Finset.sum_congr rfl (fun _ _ => Finset.sum_congr rfl (fun _ _ => by ring))))

theorem dot2_scaled (s : Nat × Nat × Nat × Nat) (M : ℝ) (f g : Spec.Vec4 K) : Spec.dot2 s (scaledW M f) g = Spec.dot2 s f g / (M : K) := by
  simp only [Spec.dot2, scaledW, Finset.sum_div]
  refine Finset.sum_congr rfl (fun _ _ => Finset.sum_congr rfl (fun _ _ => Finset.sum_congr rfl (fun _ _ => Finset.sum_congr rfl (fun _ _ => by ring))))

theorem wideGrow_succ (d : Dir) (c : Coord) (n : Nat) (E : Spec.Vec4 K) :
    Spec.wideGrow N D d c (n + 1) E = Spec.wide N D d (Spec.ahead d c n) Spec.one Spec.one (Spec.wideGrow N D d c n E) := by
  induction n generalizing c E with
  | zero => simp [Spec.wideGrow, ahead_zero]
  | succ n ih => rw [Spec.wideGrow, ih, Spec.wideGrow, ahead_ahead, Nat.add_comm 1]

theorem repW_divBy {s : Nat × Nat × Nat × Nat} {E : Tensor K} {f : Spec.Vec4 K} {M : ℝ} (m : ℝ) (h : RepW s E (scaledW M f)) : RepW s (divBy m E) (scaledW (M * m) f) := by
  refine ⟨h.1, fun x y w z hx hy hw hz => ?_⟩
  simp only [divBy, h.2 x y w z hx hy hw hz, scaledW, div_div, RCLike.ofReal_mul]

theorem dot2_zero_of_norm {s : Nat × Nat × Nat × Nat} {E : Tensor K} {f : Spec.Vec4 K} (h : RepW s E f) (hz : vecNorm true E = 0) (g : Spec.Vec4 K) : Spec.dot2 s f g = 0 := by
  simp only [Spec.dot2]
  refine Finset.sum_eq_zero (fun x h1 => Finset.sum_eq_zero (fun y h2 => Finset.sum_eq_zero (fun w h3 => Finset.sum_eq_zero (fun z h4 => ?_))))
  simp only [Finset.mem_range] at h1 h2 h3 h4
  rw [← h.2 x y w z h1 h2 h3 h4]
  have hm : ‖E.val [x, y, w, z]‖ ≤ vecNorm true E := by
    unfold vecNorm
    simp only [if_true]
    refine le_foldr_max (List.mem_map.2 ⟨_, mem_indices.2 ?_, rfl⟩)
    rw [h.1]
    exact .cons h1 (.cons h2 (.cons h3 (.cons h4 .nil)))
  rw [hz] at hm
  rw [norm_le_zero_iff.1 hm, zero_mul]

/-- The two-row channel inserts the flattened operator. -/
theorem applyTM2ch_rep (ht : Tiling st) (hs : FitsState D st) (he : FitsEnv D st env) (hN : Spec.Reads st env N) {svd : Tensor K → Nat → Svd K} (d : Dir)
    (hd : d = .right ∨ d = .down) (c : Coord) (op : Tensor K) (o : Spec.Op2 K) (p : Nat) (hop : op.shape = [p, p, p, p]) (hp : D.p c = p) (hp' : D.p (Spec.beside d c) = p)
    (hf : Spec.Shaped svd p op) (hfl : Spec.Flattened svd p op o) {E : Tensor K} {f : Spec.Vec4 K} (hE : RepW (Spec.cut2 D d c) E f) :
    ∃ R, applyTM2ch svd st env d c E (some op) = some R ∧ RepW (Spec.cut2 D d (Spec.ahead d c 1)) R (Spec.wide2 N D d c o f) := by
  obtain ⟨M, o1, o2, sM, vM, eo, s1, s2, v1, v2⟩ := splitOp_ok svd false op p hop hf
  obtain ⟨R, e1, q1⟩ := applyTM2ch_split ht hs he hN d hd c eo (by rw [hp]; exact s1) (by rw [hp']; exact s2) hE
  refine ⟨R, e1, q1.1, fun x y w z hx hy hw hz => ?_⟩
  rw [q1.2 x y w z hx hy hw hz]
  refine wide2_factors hs hN d c (p ^ 2) (factor o1) (factor o2) _ ?_ _ x y w z
  rw [hp, hp']
  intro s1' a1 s1 a2 s2' a3 s2 a4
  rw [factors_sum v1 v2 s1' a1 s1 a2 s2' a3 s2 a4, hfl M sM vM s1' a1 s1 a2 s2' a3 s2 a4]
  exact Finset.sum_congr rfl (fun k _ => by simp)

/-- The loop of `corrf_2sOV2sOV_E2` from iteration `r` on. -/
theorem loopV_spec (ht : Tiling st) (hs : FitsState D st) (he : FitsEnv D st env) (hN : Spec.Reads st env N) (svd : Tensor K → Nat → Svd K) (d : Dir)
    (hd : d = .right ∨ d = .down) (c : Coord)
    (o1 : Spec.Op2 K) (p : Nat) (hp : ∀ c, D.p c = p) (op2 : Nat → Tensor K) (o2 : Nat → Spec.Op2 K) (n : Nat) : ∀ (r : Nat) (E0 E1 : Tensor K) (M : ℝ), M ≠ 0 →
    (∀ k < n, (op2 (r + k)).shape = [p, p, p, p] ∧ Spec.Shaped svd p (op2 (r + k)) ∧ Spec.Flattened svd p (op2 (r + k)) (o2 (r + k))) →
    RepW (Spec.cut2 D d (Spec.ahead d c (r + 1))) E0 (scaledW M (Spec.wideGrow N D d c (r + 1) (Spec.edge2 N D (rev d) c))) →
    RepW (Spec.cut2 D d (Spec.ahead d c (r + 1))) E1 (scaledW M (Spec.wideGrow N D d (Spec.ahead d c 1) r (Spec.wide2 N D d c o1 (Spec.edge2 N D (rev d) c)))) →
    ((∀ k < n, Spec.wideNorms N D d c (r + k + 2) ≠ 0) → ∃ l, loopV svd st env d op2 n r (Spec.ahead d c r) E0 E1 = .ok l ∧ l.length = n ∧
      ∀ k < n, l[k]? = some (Spec.wideTwoPoint N D d c o1 (o2 (r + k)) (r + k) / Spec.wideNorms N D d c (r + k + 2))) ∧
    ((∃ k < n, Spec.wideNorms N D d c (r + k + 2) = 0) → loopV svd st env d op2 n r (Spec.ahead d c r) E0 E1 = .error .nan) := by
  induction n with
  | zero =>
    intro r E0 E1 M hM h2 h0 h1
    exact ⟨fun _ => ⟨[], rfl, rfl, fun k hk => absurd hk (Nat.not_lt_zero k)⟩, fun ⟨k, hk, _⟩ => absurd hk (Nat.not_lt_zero k)⟩
  | succ n ih =>
    intro r E0 E1 M hM h2 h0 h1
    have hc : shift (Spec.ahead d c r) d.vec = Spec.ahead d c (r + 1) := by rw [shift_vec, ahead_ahead]
    obtain ⟨ho, hfac, hfl⟩ := h2 0 (Nat.succ_pos n)
    obtain ⟨F12, e12, q12⟩ := applyTM2ch_rep ht hs he hN d hd (Spec.ahead d c (r + 1)) (op2 r) (o2 r) p ho (hp _) (hp _) hfac hfl h1
    obtain ⟨F0, e0, q0⟩ := applyTM2ch_none (svd := svd) ht hs he hN d hd (Spec.ahead d c (r + 1)) h0
    obtain ⟨F1, e1, q1⟩ := applyTM2ch_none (svd := svd) ht hs he hN d hd (Spec.ahead d c (r + 1)) h1
    have g1 : ∀ E : Spec.Vec4 K, Spec.wide N D d (Spec.ahead d c (r + 1)) Spec.one Spec.one (Spec.wideGrow N D d (Spec.ahead d c 1) r E) =
        Spec.wideGrow N D d (Spec.ahead d c 1) (r + 1) E := by
      intro E; rw [wideGrow_succ, ahead_ahead, Nat.add_comm 1 r]
    rw [wide_scaled, ← wideGrow_succ, ahead_ahead] at q0
    rw [wide_scaled, g1, ahead_ahead] at q1
    rw [wide2_scaled, ahead_ahead] at q12
    obtain ⟨S12, f12, v12⟩ := applyEdge2_rep he hN d (Spec.ahead d c (r + 1)) (by rw [ahead_ahead]; exact q12)
    obtain ⟨S00, f00, v00⟩ := applyEdge2_rep he hN d (Spec.ahead d c (r + 1)) (by rw [ahead_ahead]; exact q0)
    rw [dot2_scaled, ahead_ahead] at v12 v00
    have hn : S00.val [] = Spec.wideNorms N D d c (r + 2) / (M : K) := by rw [v00]; rfl
    have ht2 : S12.val [] = Spec.wideTwoPoint N D d c o1 (o2 r) r / (M : K) := by rw [v12]; rfl
    have hMK : (M : K) ≠ 0 := by exact_mod_cast hM
    have hstep : loopV svd st env d op2 (n + 1) r (Spec.ahead d c r) E0 E1 =
        (entry S12 S00 F0 F1 >>= fun p => loopV svd st env d op2 n (r + 1) (Spec.ahead d c (r + 1)) p.2.1 p.2.2 >>= fun vs => .ok (p.1 :: vs)) := by
      simp only [loopV, hc, e12, e0, e1, lift_bind, f12, f00]
      rfl
    rw [hstep]
    by_cases hz : Spec.wideNorms N D d c (r + 2) = 0
    · refine ⟨fun h => absurd hz (h 0 (Nat.succ_pos n)), fun _ => ?_⟩
      simp only [entry, hn, hz, zero_div, true_or, if_true]
      rfl
    · have hv : vecNorm true F0 ≠ 0 := by
        intro hv
        have := dot2_zero_of_norm q0 hv (Spec.edge2 N D d (Spec.ahead d c (r + 1)))
        rw [dot2_scaled, div_eq_zero_iff] at this
        rcases this with h | h
        · exact hz h
        · exact hMK h
      have hent : entry S12 S00 F0 F1 = .ok (Spec.wideTwoPoint N D d c o1 (o2 r) r / Spec.wideNorms N D d c (r + 2), divBy (vecNorm true F0) F0, divBy (vecNorm true F0) F1) := by
        simp only [entry, hn, ht2, div_eq_zero_iff, hz, hMK, hv, or_self, if_false, Except.ok.injEq, Prod.mk.injEq, and_true]
        field_simp
      rw [hent]
      obtain ⟨i1, i2⟩ := ih (r + 1) (divBy (vecNorm true F0) F0) (divBy (vecNorm true F0) F1) (M * vecNorm true F0) (mul_ne_zero hM hv)
        (fun k hk => by have := h2 (k + 1) (by omega); rwa [show r + (k + 1) = r + 1 + k by omega] at this)
        (repW_divBy _ q0) (repW_divBy _ q1)
      refine ⟨fun h => ?_, fun ⟨k, hk, hk0⟩ => ?_⟩
      · obtain ⟨l, el, hlen, hval⟩ := i1 (fun k hk => by have := h (k + 1) (by omega); rwa [show r + (k + 1) = r + 1 + k by omega] at this)
        refine ⟨_ :: l, by show (loopV svd st env d op2 n (r + 1) (Spec.ahead d c (r + 1)) _ _ >>= _) = _; rw [el]; rfl, by simp [hlen], fun k hk => ?_⟩
        cases k with
        | zero => rfl
        | succ k => rw [List.getElem?_cons_succ, hval k (by omega), show r + 1 + k = r + (k + 1) by omega]
      · have : loopV svd st env d op2 n (r + 1) (Spec.ahead d c (r + 1)) (divBy (vecNorm true F0) F0) (divBy (vecNorm true F0) F1) = .error .nan := by
          cases k with
          | zero => exact absurd hk0 hz
          | succ k => exact i2 ⟨k, by omega, by rwa [show r + 1 + k = r + (k + 1) by omega]⟩
        show (loopV svd st env d op2 n (r + 1) (Spec.ahead d c (r + 1)) _ _ >>= _) = _
        rw [this]; rfl
end

/-! ### C69 -/

/-- Correlations of two-site operators along a row: for every direction, distance and operators, number `r` of the result of `corrf_2sOH2sOH_E1` is the strip with
the first operator on sites 0 and 1 and the second on sites `r + 2` and `r + 3`, divided by the strip without operators; `dist + 1` numbers are returned.
Missing: the operators enter transposed (C36), so this is the documented value for symmetric ones only. -/
theorem C69_row_partial {D : Dims} {st : State K} {env : Env K} {N : Spec.Tensors K} (ht : Tiling st) (hs : FitsState D st) (he : FitsEnv D st env)
    (hN : Spec.Reads st env N) (svd : Tensor K → Nat → Svd K) (d : Dir) (c : Coord) (p : Nat) (hp : ∀ c, D.p c = p) (op1 : Tensor K) (op2 : Nat → Tensor K) (dist : Nat)
    (h1 : op1.shape = [p, p, p, p] ∧ Spec.Factorises svd p op1) (h2 : ∀ r ≤ dist, (op2 r).shape = [p, p, p, p] ∧ Spec.Factorises svd p (op2 r))
    (hn : ∀ r ≤ dist, Spec.norm N D d c (r + 4) ≠ 0) :
    ∃ l, corrfH svd st env d c op1 op2 dist = .ok l ∧ l.length = dist + 1 ∧
      ∀ r ≤ dist, l[r]? = some (Spec.pairTwoPoint N D d c (Spec.transposed2 op1) (Spec.transposed2 (op2 r)) r / Spec.norm N D d c (r + 4)) := by
  obtain ⟨E, e, q⟩ := getEdge_start he hN d c
  obtain ⟨E1, e1, q1⟩ := applyTM1ch_rep ht hs he hN d c op1 p h1.1 (hp _) (hp _) h1.2 q
  obtain ⟨E0, e0, q0⟩ := applyTM1ch_none (svd := svd) ht hs he hN d c q
  have hone : ∀ f : Spec.Vec K, scaled 1 f = f := fun f => by funext x y z; simp [scaled]
  obtain ⟨l, el, hl, hv⟩ := (loopH_spec ht hs he hN svd d c (Spec.transposed2 op1) p hp op2 (dist + 1) 0 E0 E1 1 one_ne_zero
    (fun k hk => by rw [Nat.zero_add]; exact h2 k (by omega)) (by rw [hone]; exact q0) (by rw [hone]; exact q1)).1
    (fun k hk => by rw [Nat.zero_add]; exact hn k (by omega))
  refine ⟨l, ?_, hl, fun r hr => by have := hv r (by omega); rwa [Nat.zero_add] at this⟩
  simp only [corrfH, e, e1, e0, lift_bind, shift_vec, ahead_ahead]
  exact el

/-- If a normalisation vanishes, the result is not finite. -/
theorem C69_row_not_finite {D : Dims} {st : State K} {env : Env K} {N : Spec.Tensors K} (ht : Tiling st) (hs : FitsState D st) (he : FitsEnv D st env)
    (hN : Spec.Reads st env N) (svd : Tensor K → Nat → Svd K) (d : Dir) (c : Coord) (p : Nat) (hp : ∀ c, D.p c = p) (op1 : Tensor K) (op2 : Nat → Tensor K) (dist : Nat)
    (h1 : op1.shape = [p, p, p, p] ∧ Spec.Factorises svd p op1) (h2 : ∀ r ≤ dist, (op2 r).shape = [p, p, p, p] ∧ Spec.Factorises svd p (op2 r))
    (hn : ∃ r ≤ dist, Spec.norm N D d c (r + 4) = 0) : corrfH svd st env d c op1 op2 dist = .error .nan := by
  obtain ⟨E, e, q⟩ := getEdge_start he hN d c
  obtain ⟨E1, e1, q1⟩ := applyTM1ch_rep ht hs he hN d c op1 p h1.1 (hp _) (hp _) h1.2 q
  obtain ⟨E0, e0, q0⟩ := applyTM1ch_none (svd := svd) ht hs he hN d c q
  have hone : ∀ f : Spec.Vec K, scaled 1 f = f := fun f => by funext x y z; simp [scaled]
  obtain ⟨r, hr, hr0⟩ := hn
  have el := (loopH_spec ht hs he hN svd d c (Spec.transposed2 op1) p hp op2 (dist + 1) 0 E0 E1 1 one_ne_zero
    (fun k hk => by rw [Nat.zero_add]; exact h2 k (by omega)) (by rw [hone]; exact q0) (by rw [hone]; exact q1)).2
    ⟨r, by omega, by rw [Nat.zero_add]; exact hr0⟩
  simp only [corrfH, e, e1, e0, lift_bind, shift_vec, ahead_ahead]
  exact el

/-- Correlations of two-site operators across two rows, to the right or down: number `r` of the result of `corrf_2sOV2sOV_E2` is the strip of two rows with the
operators at distance `r + 1`, divided by the strip without them. Missing: the operators inserted are not the given ones but `o1`, `o2 r`, the (transposed) operators
without their singular values (C37). -/
theorem C69_rows_partial {D : Dims} {st : State K} {env : Env K} {N : Spec.Tensors K} (ht : Tiling st) (hs : FitsState D st) (he : FitsEnv D st env)
    (hN : Spec.Reads st env N) (svd : Tensor K → Nat → Svd K) (d : Dir) (hd : d = .right ∨ d = .down) (c : Coord) (p : Nat) (hp : ∀ c, D.p c = p) (op1 : Tensor K) (op2 : Nat → Tensor K)
    (o1 : Spec.Op2 K) (o2 : Nat → Spec.Op2 K) (dist : Nat)
    (h1 : op1.shape = [p, p, p, p] ∧ Spec.Shaped svd p op1 ∧ Spec.Flattened svd p op1 o1)
    (h2 : ∀ r ≤ dist, (op2 r).shape = [p, p, p, p] ∧ Spec.Shaped svd p (op2 r) ∧ Spec.Flattened svd p (op2 r) (o2 r))
    (hn : ∀ r ≤ dist, Spec.wideNorms N D d c (r + 2) ≠ 0) :
    ∃ l, corrfV svd st env d c op1 op2 dist = .ok l ∧ l.length = dist + 1 ∧
      ∀ r ≤ dist, l[r]? = some (Spec.wideTwoPoint N D d c o1 (o2 r) r / Spec.wideNorms N D d c (r + 2)) := by
  obtain ⟨E, e, q⟩ := getEdge2_start he hN d c
  obtain ⟨E1, e1, q1⟩ := applyTM2ch_rep ht hs he hN d hd c op1 o1 p h1.1 (hp _) (hp _) h1.2.1 h1.2.2 q
  obtain ⟨E0, e0, q0⟩ := applyTM2ch_none (svd := svd) ht hs he hN d hd c q
  have hone : ∀ f : Spec.Vec4 K, scaledW 1 f = f := fun f => by funext x y w z; simp [scaledW]
  obtain ⟨l, el, hl, hv⟩ := (loopV_spec ht hs he hN svd d hd c o1 p hp op2 o2 (dist + 1) 0 E0 E1 1 one_ne_zero
    (fun k hk => by rw [Nat.zero_add]; exact h2 k (by omega)) (by rw [hone]; exact q0) (by rw [hone]; exact q1)).1
    (fun k hk => by rw [Nat.zero_add]; exact hn k (by omega))
  refine ⟨l, ?_, hl, fun r hr => by have := hv r (by omega); rwa [Nat.zero_add] at this⟩
  simp only [corrfV, e, e1, e0, lift_bind]
  rw [ahead_zero] at el
  exact el

/-- For `t` times an isometry the operator without singular values is the transposed operator divided by `t`. -/
theorem flattened_isometry {svd : Tensor K → Nat → Svd K} {p : Nat} {op : Tensor K} (hf : Spec.Decomposes svd p op) {t : ℝ} (h0 : 0 < t) (hiso : Spec.Isometric p op t) :
    Spec.Flattened svd p op (fun s1' s2' s1 s2 => Spec.transposed2 op s1' s2' s1 s2 / (t : K)) := by
  intro M sM vM s1' a1 s1 a2 s2' a3 s2 a4
  have hsv := svd_isometry (hf M sM vM) t h0.le (fun j hj j' hj' => by
    rw [← hiso j hj j' hj']
    refine Finset.sum_congr rfl (fun i hi => ?_)
    rw [vM i (Finset.mem_range.1 hi) j hj, vM i (Finset.mem_range.1 hi) j' hj'])
  have htK : (t : K) ≠ 0 := by exact_mod_cast h0.ne'
  rw [div_eq_iff htK, Spec.transposed2, ← across_val vM s1' a1 s1 a2 s2' a3 s2 a4, (hf M sM vM).prod _ (pair_lt a2 a1) _ (pair_lt a4 a3), Finset.sum_mul]
  refine Finset.sum_congr rfl (fun k hk => ?_)
  rw [hsv k (Finset.mem_range.1 hk)]
  ring

/-! ### Hypotheses are met -/

example (d : Dir) (dist : Nat) := C69_row_partial (pTiling (fun s => if s = 0 then (1 : ℝ) else 2)) (pFitsState _) (pFitsEnv _) (pReads _) (flatSvd 3) d (3, -5) 2 (fun _ => rfl)
  (swapT 5) (fun r => swapT r) dist ⟨rfl, fun M _ _ => flat_factors (by norm_num) M _⟩ (fun _ _ => ⟨rfl, fun M _ _ => flat_factors (by norm_num) M _⟩)
  (fun r _ => by rw [pNorm]; exact pow_ne_zero _ (by simp [pExpect, Spec.one, Finset.sum_range_succ]; norm_num))
example (d : Dir) (dist : Nat) := C69_row_not_finite (pTiling (fun s => if s = 0 then (0 : ℝ) else 0)) (pFitsState _) (pFitsEnv _) (pReads _) (flatSvd 3) d (3, -5) 2 (fun _ => rfl)
  (swapT 5) (fun r => swapT r) dist ⟨rfl, fun M _ _ => flat_factors (by norm_num) M _⟩ (fun _ _ => ⟨rfl, fun M _ _ => flat_factors (by norm_num) M _⟩)
  ⟨0, Nat.zero_le _, by rw [pNorm]; simp [pExpect]⟩

theorem pWideGrow (v : Nat → K) (d : Dir) (c : Coord) (n : Nat) (f : Spec.Vec4 K) (g : K) (hf : ∀ x y w z, f x y w z = g) (x y w z : Nat) :
    Spec.wideGrow (pTensors v) pDims d c n f x y w z = g * (pExpect v Spec.one * pExpect v Spec.one) ^ n := by
  induction n generalizing c f g with
  | zero => simp [Spec.wideGrow, hf]
  | succ n ih => rw [Spec.wideGrow, ih _ _ (g * (pExpect v Spec.one * pExpect v Spec.one)) (fun x y w z => by rw [pWide, hf, mul_assoc]), pow_succ]; ring

theorem pWideNorms (v : Nat → K) (d : Dir) (c : Coord) (n : Nat) : Spec.wideNorms (pTensors v) pDims d c n = (pExpect v Spec.one * pExpect v Spec.one) ^ n := by
  rw [Spec.wideNorms, pDot2, pEdge2, mul_one, pWideGrow v d c n _ 1 (pEdge2 v _ _), one_mul]

example (d : Dir) (hd : d = .right ∨ d = .down) (dist : Nat) := C69_rows_partial (pTiling (fun s => if s = 0 then (1 : ℝ) else 2)) (pFitsState _) (pFitsEnv _) (pReads _) (flatSvd 2) d hd
  (3, -5) 2 (fun _ => rfl) (swapT 2) (fun _ => swapT 2) _ (fun _ => _) dist
  ⟨rfl, Spec.Factorises.shaped (fun M _ _ => flat_factors (by norm_num) M _), flattened_isometry (flat_svd two_pos 2 _ (swap_iso 2)) two_pos (swap_iso 2)⟩
  (fun _ _ => ⟨rfl, Spec.Factorises.shaped (fun M _ _ => flat_factors (by norm_num) M _), flattened_isometry (flat_svd two_pos 2 _ (swap_iso 2)) two_pos (swap_iso 2)⟩)
  (fun r _ => by rw [pWideNorms]; exact pow_ne_zero _ (by simp [pExpect, Spec.one, Finset.sum_range_succ]; norm_num))

end Verif.Corrf
