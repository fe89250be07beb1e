import Verif.Rdm.ManualCore
/-
Property C129: the routines for the density matrices of rhombi which loop over one bond return the density matrix of the four sites of the rhombus, in the documented order.
-/
namespace Verif.Rdm
open Tensor Ctm Ctm.Spec
set_option linter.unusedSimpArgs false
set_option linter.unusedVariables false
variable {K : Type} [RCLike K]
open Spec

/-! ### Helpers -/

/-- A reordering of an index of four sites. -/
def pull (q k : List Nat) : List Nat := q.map (fun i => k.getD i 0)

theorem inB4 {p : Nat} {k : List Nat} (h : InB (List.replicate 4 p) k) : ∃ x0 x1 x2 x3, k = [x0, x1, x2, x3] ∧ x0 < p ∧ x1 < p ∧ x2 < p ∧ x3 < p := by
  change List.Forall₂ _ k [p, p, p, p] at h
  rcases h with _ | ⟨h0, _ | ⟨h1, _ | ⟨h2, _ | ⟨h3, _ | _⟩⟩⟩⟩
  exact ⟨_, _, _, _, rfl, h0, h1, h2, h3⟩

theorem sum_pull {p : Nat} {q : List Nat} (hq : q.Perm [0, 1, 2, 3]) (G : List Nat → K) :
    sumIdx (List.replicate 4 p) (fun k => G (pull q k)) = sumIdx (List.replicate 4 p) G := by
  have e1 : List.replicate 4 p = [0, 1, 2, 3].map (fun _ => p) := rfl
  have e2 : q.map (fun _ => p) = List.replicate 4 p := by
    rw [List.map_const', hq.length_eq]; rfl
  calc sumIdx (List.replicate 4 p) (fun k => G (pull q k))
      = sumOver (fun _ => p) [0, 1, 2, 3] (fun τ => G (pull q ([0, 1, 2, 3].map τ))) (fun _ => 0) := by rw [e1]; exact sumIdx_map _ _ (by decide) _ _
    _ = sumOver (fun _ => p) [0, 1, 2, 3] (fun τ => G (q.map τ)) (fun _ => 0) := by
        apply sumOver_congr
        intro τ _ _
        refine congrArg G (List.map_congr_left fun i hi => ?_)
        have : i ∈ [0, 1, 2, 3] := hq.mem_iff.1 hi
        simp only [List.mem_cons, List.not_mem_nil, or_false] at this
        rcases this with rfl | rfl | rfl | rfl <;> rfl
    _ = sumOver (fun _ => p) q (fun τ => G (q.map τ)) (fun _ => 0) := by rw [sumOver_perm _ hq]
    _ = sumIdx (q.map (fun _ => p)) G := (sumIdx_map _ _ (hq.nodup_iff.2 (by decide)) _ _).symm
    _ = _ := by rw [e2]

theorem sumIdx_congr4 {sh : List Nat} {f g : List Nat → K} (h : ∀ s, InB sh s → f s = g s) : sumIdx sh f = sumIdx sh g := by
  induction sh generalizing f g with
  | nil => exact h [] List.Forall₂.nil
  | cons d sh ih =>
    unfold sumIdx
    exact Finset.sum_congr rfl fun i hi => ih fun s hs => h _ (.cons (Finset.mem_range.1 hi) hs)

/-- Symmetrisation commutes with a reordering of the sites. -/
theorem symRdm_pull (eigh : Tensor K → List ℝ × Tensor K) {p : Nat} {q : List Nat} (hq : q.Perm [0, 1, 2, 3]) {T T' R' : Tensor K}
    (hT : T.shape = List.replicate 4 p ++ List.replicate 4 p) (hT' : T'.shape = List.replicate 4 p ++ List.replicate 4 p)
    (hv : ∀ k b, InB (List.replicate 4 p) k → InB (List.replicate 4 p) b → T.val (k ++ b) = T'.val (pull q k ++ pull q b)) (h : symRdm eigh false T' = .ok R') :
    ∃ R, symRdm eigh false T = .ok R ∧ R.shape = List.replicate 4 p ++ List.replicate 4 p ∧
      ∀ k b, InB (List.replicate 4 p) k → InB (List.replicate 4 p) b → R.val (k ++ b) = R'.val (pull q k ++ pull q b) := by
  obtain ⟨h0, ht⟩ := symRdm_ok eigh hT' h
  have hpull : ∀ k, InB (List.replicate 4 p) k → InB (List.replicate 4 p) (pull q k) := by
    intro k hk
    obtain ⟨x0, x1, x2, x3, rfl, y0, y1, y2, y3⟩ := inB4 hk
    have : List.replicate 4 p = q.map (fun _ => p) := by rw [List.map_const', hq.length_eq]; rfl
    rw [this]
    unfold pull InB
    rw [List.forall₂_map_left_iff, List.forall₂_map_right_iff, List.forall₂_same]
    intro i hi
    have : i ∈ [0, 1, 2, 3] := hq.mem_iff.1 hi
    simp only [List.mem_cons, List.not_mem_nil, or_false] at this
    rcases this with rfl | rfl | rfl | rfl <;> assumption
  have htr : Matrix.trace (op (List.replicate 4 p) T) = Matrix.trace (op (List.replicate 4 p) T') := by
    rw [trace_op, trace_op, ← sum_pull hq (fun k => T'.val (k ++ k))]
    exact sumIdx_congr4 fun k hk => hv k k hk hk
  obtain ⟨R, h1, h2, h3⟩ := symRdm_entries eigh hT h0 (htr ▸ ht)
  obtain ⟨R2, g1, g2, g3⟩ := symRdm_entries eigh hT' h0 ht
  obtain rfl : R2 = R' := by rw [g1] at h; injection h
  refine ⟨R, h1, h2, fun k b hk hb => ?_⟩
  rw [h3 k b hk hb, g3 _ _ (hpull k hk) (hpull b hb), htr, hv k b hk hb, hv b k hb hk]

theorem forall8 {p : Nat} {P : List Nat → List Nat → Prop} (h : ∀ x0 x1 x2 x3 y0 y1 y2 y3, x0 < p → x1 < p → x2 < p → x3 < p → y0 < p → y1 < p → y2 < p → y3 < p →
    P [x0, x1, x2, x3] [y0, y1, y2, y3]) : ∀ k b, InB (List.replicate 4 p) k → InB (List.replicate 4 p) b → P k b := by
  intro k b hk hb
  obtain ⟨x0, x1, x2, x3, rfl, a0, a1, a2, a3⟩ := inB4 hk
  obtain ⟨y0, y1, y2, y3, rfl, b0, b1, b2, b3⟩ := inB4 hb
  exact h _ _ _ _ _ _ _ _ a0 a1 a2 a3 b0 b1 b2 b3

/-! ### C129 -/

/-- `rdm2x3_loop_trglringex_manual(coord)`: the sites `s0 = coord`, `s1 = coord + (1,0)`, `s2 = coord + (2,-1)` and `s3 = coord + (1,-1)` of the patch with upper left vertex `coord + (0,-1)`
are the sites 3, 4, 2 and 1 of this patch. The routine symmetrises their un-normalised density matrix, with the kets of `s0, s1, s2, s3` first and the bras after them. -/
theorem C129_horizontal (eigh : Tensor K → List ℝ × Tensor K) (spd : Bool) {D : Dims} {st : State K} {env : Env K} (ht : Tiling st) (hs : FitsState D st) (he : FitsEnv D st env) (c : Coord)
    (hp1 : D.p (c.1 + 1, c.2) = D.p c) (hp2 : D.p (c.1 + 2, c.2 - 1) = D.p c) (hp3 : D.p (c.1 + 1, c.2 - 1) = D.p c) :
    ∃ rho Y, IsPatch23 D st env (c.1, c.2 - 1) [1, 2, 3, 4] rho ∧ rdm2x3 eigh spd st env (c.1, c.2 - 1) [1, 2, 3, 4] = symRdm eigh spd rho ∧
      rho.shape = List.replicate 8 (D.p c) ∧
      rdm23Manual eigh spd st env c = symRdm eigh spd Y ∧ Y.shape = List.replicate 8 (D.p c) ∧
      ∀ x0 x1 x2 x3 y0 y1 y2 y3, x0 < D.p c → x1 < D.p c → x2 < D.p c → x3 < D.p c → y0 < D.p c → y1 < D.p c → y2 < D.p c → y3 < D.p c →
        Y.val [x0, x1, x2, x3, y0, y1, y2, y3] = rho.val [x3, x2, x0, x1, y3, y2, y0, y1] := by
  obtain ⟨e, s, Y, hf, h0, h2, eY, qY⟩ := manual23_denotes ht hs he c hp1 hp2 hp3
  obtain ⟨b, hb⟩ : ∃ b : Coord, b = (c.1, c.2 - 1) := ⟨_, rfl⟩
  rw [← hb] at hf h0 h2 qY ⊢
  obtain ⟨e', s', R, g1, g2, g3, -⟩ := raw23 hs he b [1, 2, 3, 4]
  obtain ⟨rfl, rfl⟩ : e' = e ∧ s' = s := by rw [g1] at hf; injection hf with h; injection h with g g'; exact ⟨g, g'⟩
  obtain ⟨e1, s1, a1, n1, n2⟩ := g3
  obtain ⟨R', w1, w2⟩ := oe23_denotes (dims23 D b) e' s' h2 [1, 2, 3, 4] (by decide)
  obtain rfl : R' = R := by rw [w1] at g2; injection g2
  have p1 : dims23 D b 102 = D.p c := by rw [← hp3, show (c.1 + 1, c.2 - 1) = rt b by rw [hb]; rfl]; rfl
  have p2 : dims23 D b 104 = D.p c := by rw [← hp2, show (c.1 + 2, c.2 - 1) = rt (rt b) by rw [hb]; apply Prod.ext <;> simp [rt] <;> omega]; rfl
  have p3 : dims23 D b 106 = D.p c := congrArg D.p (show dn b = c by rw [hb]; simp [dn])
  have p4 : dims23 D b 108 = D.p c := by rw [← hp1, show (c.1 + 1, c.2) = rt (dn b) by rw [hb]; simp [dn, rt]]; rfl
  have p1' : dims23 D b 103 = D.p c := p1
  have p2' : dims23 D b 105 = D.p c := p2
  have p3' : dims23 D b 107 = D.p c := p3
  have p4' : dims23 D b 109 = D.p c := p4
  refine ⟨R', Y, ⟨e', s', h0, Corner.isNetwork w2⟩, ?_, ?_, ?_, ?_, ?_⟩
  · unfold rdm2x3
    rw [if_pos (by decide), g1]
    show (lift (oe23 e' s' [1, 2, 3, 4]) >>= _) = _
    rw [w1]; rfl
  · rw [w2.shape]
    show [gdim _ [102], gdim _ [104], gdim _ [106], gdim _ [108], gdim _ [103], gdim _ [105], gdim _ [107], gdim _ [109]] = _
    simp only [gdim_single, p1, p2, p3, p4, p1', p2', p3', p4']; rfl
  · unfold rdm23Manual; rw [eY]; rfl
  · rw [qY.shape]
    simp only [List.map_cons, List.map_nil, gdim_single, p1, p2, p3, p4, p1', p2', p3', p4']; rfl
  · intro x0 x1 x2 x3 y0 y1 y2 y3 h0 h1 h2 h3 k0 k1 k2 k3
    obtain ⟨σ, hσ⟩ : ∃ σ : Nat → Nat, σ = fun l => [x3, y3, x2, y2, x0, y0, x1, y1].getD (l - 102) 0 := ⟨_, rfl⟩
    have v1 := qY.val σ (by
      rw [hσ]; simp only [List.flatten_cons, List.flatten_nil, List.singleton_append, List.forall_mem_cons, List.not_mem_nil, false_imp_iff, implies_true, and_true, p1, p2, p3, p4, p1', p2', p3', p4']
      exact ⟨h0, h1, h2, h3, k0, k1, k2, k3⟩)
    have v2 := w2.val σ (by
      show ∀ l ∈ [102, 104, 106, 108, 103, 105, 107, 109], _
      rw [hσ]; simp only [List.forall_mem_cons, List.not_mem_nil, false_imp_iff, implies_true, and_true, p1, p2, p3, p4, p1', p2', p3', p4']
      exact ⟨h3, h2, h0, h1, k3, k2, k0, k1⟩)
    have u1 : Y.val [x0, x1, x2, x3, y0, y1, y2, y3] = sumOver (dims23 D b) ([100, 110] ++ inner23) (rho23 (dims23 D b) e' s' (bra [1, 2, 3, 4])) σ := by
      rw [← v1, hσ]
      simp only [List.map_cons, List.map_nil, gidx_single]
      rfl
    have u2 : R'.val [x3, x2, x0, x1, y3, y2, y0, y1] = sumOver (dims23 D b) ([100, 110] ++ inner23) (rho23 (dims23 D b) e' s' (bra [1, 2, 3, 4])) σ := by
      refine Eq.trans ?_ v2
      show _ = R'.val ([[102], [104], [106], [108], [103], [105], [107], [109]].map _)
      rw [hσ]
      simp only [List.map_cons, List.map_nil, gidx_single]
      rfl
    rw [u1, u2]

/-- `rdm3x2_loop_trglringex_manual(coord)`: the sites `s0 = coord`, `s1 = coord + (1,-1)`, `s2 = coord + (1,-2)` and `s3 = coord + (0,-1)` of the patch with upper left vertex `coord + (0,-2)`
are the sites 2, 4, 3 and 1 of this patch. The routine symmetrises their un-normalised density matrix, with the kets of `s0, s1, s2, s3` first and the bras after them. -/
theorem C129_vertical (eigh : Tensor K → List ℝ × Tensor K) (spd : Bool) {D : Dims} {st : State K} {env : Env K} (ht : Tiling st) (hs : FitsState D st) (he : FitsEnv D st env) (c : Coord)
    (hp1 : D.p (c.1 + 1, c.2 - 1) = D.p c) (hp2 : D.p (c.1 + 1, c.2 - 2) = D.p c) (hp3 : D.p (c.1, c.2 - 1) = D.p c) :
    ∃ rho Y, IsPatch32 D st env (c.1, c.2 - 2) [1, 2, 3, 4] rho ∧ rdm3x2 eigh spd st env (c.1, c.2 - 2) [1, 2, 3, 4] = symRdm eigh spd rho ∧
      rho.shape = List.replicate 8 (D.p c) ∧
      rdm32Manual eigh spd st env c = symRdm eigh spd Y ∧ Y.shape = List.replicate 8 (D.p c) ∧
      ∀ x0 x1 x2 x3 y0 y1 y2 y3, x0 < D.p c → x1 < D.p c → x2 < D.p c → x3 < D.p c → y0 < D.p c → y1 < D.p c → y2 < D.p c → y3 < D.p c →
        Y.val [x0, x1, x2, x3, y0, y1, y2, y3] = rho.val [x3, x0, x2, x1, y3, y0, y2, y1] := by
  obtain ⟨e, s, Y, hf, h0, h2, eY, qY⟩ := manual32_denotes ht hs he c hp1 hp2 hp3
  obtain ⟨b, hb⟩ : ∃ b : Coord, b = (c.1, c.2 - 2) := ⟨_, rfl⟩
  rw [← hb] at hf h0 h2 qY ⊢
  obtain ⟨e', s', R, g1, g2, g3, -⟩ := raw32 hs he b [1, 2, 3, 4]
  obtain ⟨rfl, rfl⟩ : e' = e ∧ s' = s := by rw [g1] at hf; injection hf with h; injection h with g g'; exact ⟨g, g'⟩
  obtain ⟨e1, s1, a1, n1, n2⟩ := g3
  obtain ⟨R', w1, w2⟩ := oe32_denotes (dims32 D b) e' s' h2 [1, 2, 3, 4] (by decide)
  obtain rfl : R' = R := by rw [w1] at g2; injection g2
  have p1 : dims32 D b 102 = D.p c := by rw [← hp3, show (c.1, c.2 - 1) = dn b by rw [hb]; apply Prod.ext <;> simp [dn] <;> omega]; rfl
  have p2 : dims32 D b 104 = D.p c := congrArg D.p (show dn (dn b) = c by rw [hb]; apply Prod.ext <;> simp [dn] <;> omega)
  have p3 : dims32 D b 106 = D.p c := by rw [← hp2, show (c.1 + 1, c.2 - 2) = rt b by rw [hb]; rfl]; rfl
  have p4 : dims32 D b 108 = D.p c := by rw [← hp1, show (c.1 + 1, c.2 - 1) = rt (dn b) by rw [hb]; apply Prod.ext <;> simp [dn, rt] <;> omega]; rfl
  have p1' : dims32 D b 103 = D.p c := p1
  have p2' : dims32 D b 105 = D.p c := p2
  have p3' : dims32 D b 107 = D.p c := p3
  have p4' : dims32 D b 109 = D.p c := p4
  refine ⟨R', Y, ⟨e', s', h0, Corner.isNetwork w2⟩, ?_, ?_, ?_, ?_, ?_⟩
  · unfold rdm3x2
    rw [if_pos (by decide), g1]
    show (lift (oe32 e' s' [1, 2, 3, 4]) >>= _) = _
    rw [w1]; rfl
  · rw [w2.shape]
    show [gdim _ [102], gdim _ [104], gdim _ [106], gdim _ [108], gdim _ [103], gdim _ [105], gdim _ [107], gdim _ [109]] = _
    simp only [gdim_single, p1, p2, p3, p4, p1', p2', p3', p4']; rfl
  · unfold rdm32Manual; rw [eY]; rfl
  · rw [qY.shape]
    simp only [List.map_cons, List.map_nil, gdim_single, p1, p2, p3, p4, p1', p2', p3', p4']; rfl
  · intro x0 x1 x2 x3 y0 y1 y2 y3 h0 h1 h2 h3 k0 k1 k2 k3
    obtain ⟨σ, hσ⟩ : ∃ σ : Nat → Nat, σ = fun l => [x3, y3, x0, y0, x2, y2, x1, y1].getD (l - 102) 0 := ⟨_, rfl⟩
    have v1 := qY.val σ (by
      rw [hσ]; simp only [List.flatten_cons, List.flatten_nil, List.singleton_append, List.forall_mem_cons, List.not_mem_nil, false_imp_iff, implies_true, and_true, p1, p2, p3, p4, p1', p2', p3', p4']
      exact ⟨h0, h1, h2, h3, k0, k1, k2, k3⟩)
    have v2 := w2.val σ (by
      show ∀ l ∈ [102, 104, 106, 108, 103, 105, 107, 109], _
      rw [hσ]; simp only [List.forall_mem_cons, List.not_mem_nil, false_imp_iff, implies_true, and_true, p1, p2, p3, p4, p1', p2', p3', p4']
      exact ⟨h3, h0, h2, h1, k3, k0, k2, k1⟩)
    have u1 : Y.val [x0, x1, x2, x3, y0, y1, y2, y3] = sumOver (dims32 D b) ([100, 110] ++ inner32) (rho32 (dims32 D b) e' s' (bra [1, 2, 3, 4])) σ := by
      rw [← v1, hσ]
      simp only [List.map_cons, List.map_nil, gidx_single]
      rfl
    have u2 : R'.val [x3, x0, x2, x1, y3, y0, y2, y1] = sumOver (dims32 D b) ([100, 110] ++ inner32) (rho32 (dims32 D b) e' s' (bra [1, 2, 3, 4])) σ := by
      refine Eq.trans ?_ v2
      show _ = R'.val ([[102], [104], [106], [108], [103], [105], [107], [109]].map _)
      rw [hσ]
      simp only [List.map_cons, List.map_nil, gidx_single]
      rfl
    rw [u1, u2]

/-- Without `sym_pos_def`, `rdm2x3_loop_trglringex_manual` returns the same density matrix as `rdm2x3_loop_oe` with the sites of the rhombus open, up to the order of the sites. -/
theorem C129_horizontal_agrees (eigh : Tensor K → List ℝ × Tensor K) {D : Dims} {st : State K} {env : Env K} (ht : Tiling st) (hs : FitsState D st) (he : FitsEnv D st env) (c : Coord)
    (hp1 : D.p (c.1 + 1, c.2) = D.p c) (hp2 : D.p (c.1 + 2, c.2 - 1) = D.p c) (hp3 : D.p (c.1 + 1, c.2 - 1) = D.p c) {B : Tensor K}
    (hB : rdm2x3 eigh false st env (c.1, c.2 - 1) [1, 2, 3, 4] = .ok B) :
    ∃ A, rdm23Manual eigh false st env c = .ok A ∧ A.shape = List.replicate 8 (D.p c) ∧
      ∀ x0 x1 x2 x3 y0 y1 y2 y3, x0 < D.p c → x1 < D.p c → x2 < D.p c → x3 < D.p c → y0 < D.p c → y1 < D.p c → y2 < D.p c → y3 < D.p c →
        A.val [x0, x1, x2, x3, y0, y1, y2, y3] = B.val [x3, x2, x0, x1, y3, y2, y0, y1] := by
  obtain ⟨rho, Y, -, h1, h2, h3, h4, h5⟩ := C129_horizontal eigh false ht hs he c hp1 hp2 hp3
  rw [h1] at hB
  obtain ⟨R, r1, r2, r3⟩ := symRdm_pull eigh (p := D.p c) (q := [3, 2, 0, 1]) (by decide) (T := Y) (T' := rho) h4 h2 (forall8 (P := fun k b => Y.val (k ++ b) = rho.val (pull [3, 2, 0, 1] k ++ pull [3, 2, 0, 1] b)) h5) hB
  refine ⟨R, h3.trans r1, r2, fun x0 x1 x2 x3 y0 y1 y2 y3 a0 a1 a2 a3 b0 b1 b2 b3 => ?_⟩
  exact r3 [x0, x1, x2, x3] [y0, y1, y2, y3] (.cons a0 (.cons a1 (.cons a2 (.cons a3 .nil)))) (.cons b0 (.cons b1 (.cons b2 (.cons b3 .nil))))

/-- Without `sym_pos_def`, `rdm3x2_loop_trglringex_manual` returns the same density matrix as `rdm3x2_loop_oe` with the sites of the rhombus open, up to the order of the sites. -/
theorem C129_vertical_agrees (eigh : Tensor K → List ℝ × Tensor K) {D : Dims} {st : State K} {env : Env K} (ht : Tiling st) (hs : FitsState D st) (he : FitsEnv D st env) (c : Coord)
    (hp1 : D.p (c.1 + 1, c.2 - 1) = D.p c) (hp2 : D.p (c.1 + 1, c.2 - 2) = D.p c) (hp3 : D.p (c.1, c.2 - 1) = D.p c) {B : Tensor K}
    (hB : rdm3x2 eigh false st env (c.1, c.2 - 2) [1, 2, 3, 4] = .ok B) :
    ∃ A, rdm32Manual eigh false st env c = .ok A ∧ A.shape = List.replicate 8 (D.p c) ∧
      ∀ x0 x1 x2 x3 y0 y1 y2 y3, x0 < D.p c → x1 < D.p c → x2 < D.p c → x3 < D.p c → y0 < D.p c → y1 < D.p c → y2 < D.p c → y3 < D.p c →
        A.val [x0, x1, x2, x3, y0, y1, y2, y3] = B.val [x3, x0, x2, x1, y3, y0, y2, y1] := by
  obtain ⟨rho, Y, -, h1, h2, h3, h4, h5⟩ := C129_vertical eigh false ht hs he c hp1 hp2 hp3
  rw [h1] at hB
  obtain ⟨R, r1, r2, r3⟩ := symRdm_pull eigh (p := D.p c) (q := [3, 0, 2, 1]) (by decide) (T := Y) (T' := rho) h4 h2 (forall8 (P := fun k b => Y.val (k ++ b) = rho.val (pull [3, 0, 2, 1] k ++ pull [3, 0, 2, 1] b)) h5) hB
  refine ⟨R, h3.trans r1, r2, fun x0 x1 x2 x3 y0 y1 y2 y3 a0 a1 a2 a3 b0 b1 b2 b3 => ?_⟩
  exact r3 [x0, x1, x2, x3] [y0, y1, y2, y3] (.cons a0 (.cons a1 (.cons a2 (.cons a3 .nil)))) (.cons b0 (.cons b1 (.cons b2 (.cons b3 .nil))))

end Verif.Rdm
