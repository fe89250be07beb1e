import Verif.Ctm.MoveProps
import Verif.Ctm.RunProps
/-
Properties C61, C62 and C63: any sequence of moves.
-/
namespace Verif.Ctm
open Tensor Spec
set_option linter.unusedSectionVars false
variable {K : Type} [RCLike K]
attribute [local irreducible] ctmMove

/-- A sequence of moves of one state: ctmrg.py L65-L71 unrolled, see `ctmrgIter_eq`. -/
noncomputable def moves (args : Args) (svd : Tensor K → Nat → Svd K) (st : State K) (ds : List Dir) (env : Env K) : Except Err (Env K) :=
  ds.foldlM (fun e d => ctmMove args svd d st e) env

theorem moves_cons (args : Args) (svd : Tensor K → Nat → Svd K) (st : State K) (d : Dir) (ds : List Dir) (env : Env K) :
    moves args svd st (d :: ds) env = (ctmMove args svd d st env >>= moves args svd st ds) := by
  unfold moves; rw [List.foldlM_cons]

theorem FitsState.congr {D D' : Dims} {st : State K} (hs : FitsState D st) (h1 : D'.p = D.p) (h2 : D'.U = D.U) (h3 : D'.L = D.L) : FitsState D' st :=
  ⟨by rw [h1, h2, h3]; exact hs.site, by rw [h1]; exact hs.p, by rw [h2]; exact hs.U, by rw [h3]; exact hs.L⟩

theorem error_bind {α β : Type} (e : Err) (f : α → Except Err β) : ((Except.error e : Except Err α) >>= f) = .error e := rfl

theorem ok_bind {α β : Type} (a : α) (f : α → Except Err β) : ((Except.ok a : Except Err α) >>= f) = f a := rfl

theorem moves_single (args : Args) (svd : Tensor K → Nat → Svd K) (st : State K) (d : Dir) (env : Env K) :
    moves args svd st [d] env = ctmMove args svd d st env := by
  rw [moves_cons]
  cases ctmMove args svd d st env with
  | error e => rfl
  | ok e => rfl

/-- **C61** (double layer, 4X4 projectors). From a fitting environment, any sequence of moves either divides by a vanishing norm or ends
in a fitting environment, with the same site bonds and the same `chi`; it never raises. The environment bonds along an edge change only if
a move in that direction occurred, and then they are at most `chi`. -/
theorem C61_moves {args : Args} (hdl : args.dl = true) (hm : args.m4x4 = true) {svd : Tensor K → Nat → Svd K} (hb : Backend svd) {D : Dims} {st : State K}
    {env : Env K} (ht : Tiling st) (hs : FitsState D st) (he : FitsEnv D st env) (ds : List Dir) :
    moves args svd st.dl ds env = .error .nan ∨
    ∃ env' D', moves args svd st.dl ds env = .ok env' ∧ env'.chi = env.chi ∧ FitsState D' st ∧ FitsEnv D' st env' ∧
      (∀ d, d ∉ ds → D'.edge d = D.edge d) ∧ (Truncating svd → ∀ d ∈ ds, ∀ x, D'.edge d x ≤ env.chi) := by
  obtain ⟨dl, m4, r, f, i⟩ := args
  simp only at hdl hm
  subst hdl hm
  induction ds generalizing env D with
  | nil => exact .inr ⟨env, D, rfl, rfl, hs, he, fun _ _ => rfl, fun _ _ h => by simp at h⟩
  | cons d ds ih =>
    rw [moves_cons]
    have hf := move_fits (args := ⟨true, true, r, f, i⟩) hb ht hs he d
    simp only [forall_const] at hf
    cases hmv : ctmMove ⟨true, true, r, f, i⟩ svd d st.dl env with
    | error e =>
      cases e with
      | raise => exact absurd hmv hf.1
      | nan => exact .inl (error_bind _ _)
    | ok env1 =>
      rw [ok_bind]
      obtain ⟨D1, p1, p2, p3, p4, p5, he1⟩ := hf.2 env1 hmv
      have hchi := (C24_move ht.toDl hmv).1
      rcases ih (FitsState.congr hs p1 p2 p3) he1 with h | ⟨env2, D2, h, hc, hs2, he2, h4, h5⟩
      · exact .inl h
      · refine .inr ⟨env2, D2, h, hc.trans hchi, hs2, he2, fun d' hd' => ?_, fun htr d' hd' x => ?_⟩
        · simp only [List.mem_cons, not_or] at hd'
          rw [h4 d' hd'.2, p4 d' hd'.1]
        · by_cases hin : d' ∈ ds
          · rw [← hchi]; exact h5 htr d' hin x
          · obtain rfl : d' = d := by simpa [hin] using hd'
            rw [h4 d' hin]; exact p5 htr x

/-- **C62**. Any sequence of moves gives the same result (environment or failure) in the double-layer and in the single-layer mode, for
both projector methods, provided no RIGHT move meets a site whose left and right bonds differ (see `C62_violated`). -/
theorem C62_moves_partial {args : Args} {svd : Tensor K → Nat → Svd K} (hb : Backend svd) {D : Dims} {st : State K}
    {env : Env K} (ht : Tiling st) (hs : FitsState D st) (he : FitsEnv D st env) (ds : List Dir) (hd : Dir.right ∈ ds → ∀ c, D.L c = D.L (rt c)) :
    moves { args with dl := true } svd st.dl ds env = moves { args with dl := false } svd st ds env := by
  induction ds generalizing env D with
  | nil => unfold moves; rw [List.foldlM_nil, List.foldlM_nil]
  | cons d ds ih =>
    rw [moves_cons, moves_cons, move_eq hb ht hs he d (fun h => hd (by simp [h]))]
    cases hmv : ctmMove { args with dl := false } svd d st env with
    | error e => rw [error_bind, error_bind]
    | ok env1 =>
      rw [ok_bind, ok_bind]
      rw [← move_eq hb ht hs he d (fun h => hd (by simp [h]))] at hmv
      obtain ⟨D1, p1, p2, p3, -, -, he1⟩ := (move_fits hb ht hs he d).2 env1 hmv
      exact ih (FitsState.congr hs p1 p2 p3) he1 (fun h => p3 ▸ hd (by simp [h]))

/-- **C61** (single layer, 4X4 projectors): as `C61_moves`, when no RIGHT move meets a site whose left and right bonds differ. -/
theorem C61_moves_sl_partial {args : Args} (hdl : args.dl = false) (hm : args.m4x4 = true) {svd : Tensor K → Nat → Svd K} (hb : Backend svd) {D : Dims} {st : State K}
    {env : Env K} (ht : Tiling st) (hs : FitsState D st) (he : FitsEnv D st env) (ds : List Dir) (hd : Dir.right ∈ ds → ∀ c, D.L c = D.L (rt c)) :
    moves args svd st ds env = .error .nan ∨
    ∃ env' D', moves args svd st ds env = .ok env' ∧ env'.chi = env.chi ∧ FitsState D' st ∧ FitsEnv D' st env' ∧
      (∀ d, d ∉ ds → D'.edge d = D.edge d) ∧ (Truncating svd → ∀ d ∈ ds, ∀ x, D'.edge d x ≤ env.chi) := by
  obtain ⟨dl, m4, r, f, i⟩ := args
  simp only at hdl hm
  subst hdl hm
  have := C62_moves_partial (args := ⟨false, true, r, f, i⟩) hb ht hs he ds hd
  simp only at this
  rw [← this]
  exact C61_moves rfl rfl hb ht hs he ds

theorem bind_none_of {α β : Type} {o : Option α} {f : α → Option β} (h : ∀ a, o = some a → f a = none) : (o >>= f) = none := by
  cases o with
  | none => rfl
  | some a => exact h a rfl

theorem right_none {D : Dims} {st : State K} {env : Env K} (ht : Tiling st) (hs : FitsState D st) (he : FitsEnv D st env) (c : Coord) (hc : c ∈ st.keys)
    (hne : D.L c ≠ D.L (rt c)) (P : Proj K) : absorbRight st env false P c = none := by
  obtain ⟨T', hT', sT⟩ := he.tr c
  obtain ⟨A', hA', sA⟩ := hs.site c
  rw [ht.fix c hc] at hT'
  have hv : Tensor.view [T'.size 0, A'.size 2, A'.size 2, T'.size 2] T' = none := by
    simp only [Tensor.view, size, sT, sA, List.getD_cons_zero, List.getD_cons_succ, List.prod_cons, List.prod_nil, mul_one]
    rw [if_neg]
    intro h
    have h := Nat.eq_of_mul_eq_mul_left (he.er.1 c) h
    rw [← mul_assoc] at h
    exact hne (Nat.mul_self_inj.1 (Nat.eq_of_mul_eq_mul_right (he.er.1 (dn c)) h))
  have hT : ∀ Q R, Absorb.rightTsl T' A' Q R = none := by
    intro Q R
    unfold Absorb.rightTsl
    rw [hv]; rfl
  unfold absorbRight
  refine bind_none_of fun _ _ => bind_none_of fun _ _ => bind_none_of fun T eT => bind_none_of fun _ _ => bind_none_of fun _ _ => bind_none_of fun A eA => ?_
  obtain rfl := Option.some.inj (hT'.symm.trans eT)
  obtain rfl := Option.some.inj (hA'.symm.trans eA)
  iterate 14 refine bind_none_of fun _ _ => ?_
  simp only [Bool.false_eq_true, if_false, hT]
  rfl

/-- **C62** refuted in general, and with it C61 in the single-layer mode: when the left and right bonds of the first site differ, a RIGHT
move raises in the single-layer mode and does not in the double-layer mode. -/
theorem C62_violated {args : Args} (hm : args.m4x4 = true) {svd : Tensor K → Nat → Svd K} (hb : Backend svd) {D : Dims} {st : State K}
    {env : Env K} (ht : Tiling st) (hs : FitsState D st) (he : FitsEnv D st env) {c : Coord} {cs : List Coord} (hc : st.keys = c :: cs) (hne : D.L c ≠ D.L (rt c)) :
    moves { args with dl := false } svd st [.right] env = .error .raise ∧
    moves { args with dl := true } svd st.dl [.right] env ≠ .error .raise := by
  rw [moves_single, moves_single]
  refine ⟨?_, (move_fits hb ht hs he .right).1 hm⟩
  unfold ctmMove newTensors
  rw [hc]
  cases hp : (c :: cs).mapM (projStep { args with dl := false } svd .right st env) with
  | error e =>
    obtain ⟨x, hx, h'⟩ := mapM_error hp
    cases e with
    | raise => rfl
    | nan => exact absurd h' (projStep_ne_nan _ _ _ _ _ _)
  | ok Ps =>
    rw [ok_bind, List.mapM_cons]
    have : siteStep { args with dl := false } .right st env (ofList Ps) c = .error .raise := by
      unfold siteStep
      exact lift_error (right_none ht hs he c (by simp [hc]) hne _)
    rw [this]; rfl

/-- **C61** refuted for the 4X2 projectors: a LEFT move raises as soon as some two bonds that the method never contracts (the right-hand
legs of the upper and the lower corner) have different sizes. -/
theorem C61_4x2_violated {args : Args} (hdl : args.dl = true) (hm : args.m4x4 = false) {svd : Tensor K → Nat → Svd K} {D : Dims} {st : State K}
    {env : Env K} (hs : FitsState D st) (he : FitsEnv D st env) {c : Coord} (hc : c ∈ st.keys)
    (hne : D.eu (rt c) * (D.L (rt c) * D.L (rt c)) ≠ D.ed (rt (dn c)) * (D.L (rt (dn c)) * D.L (rt (dn c)))) :
    moves args svd st.dl [.left] env = .error .raise := by
  obtain ⟨dl, m4, r, f, i⟩ := args
  simp only at hdl hm
  subst hdl hm
  rw [moves_single]
  unfold ctmMove newTensors
  have h0 : projStep ⟨true, false, r, f, i⟩ svd .left st.dl env c = .error .raise := by
    obtain ⟨A, A', e1, e1', s1, h1⟩ := c2x2LU_ok hs he c
    obtain ⟨B, B', e2, e2', s2, h2⟩ := c2x2LD_ok hs he (dn c)
    have e2' : c2x2LD st.dl env false (c.1, c.2 + 1) = some B := e2
    unfold projStep
    refine lift_error ?_
    have hmats : mats ⟨true, false, r, f, i⟩ st.dl env .left c = some (A, B) := by
      simp [mats, halves2, e1, e2']
    have hnone : projectorsFrom ⟨true, false, r, f, i⟩ svd A B env.chi = none := by
      unfold projectorsFrom
      rw [if_neg]
      rw [h1, h2]
      intro h
      exact hne (by simpa using (List.cons.inj (List.cons.inj h.1).2).1)
    unfold projectors
    rw [hmats]
    simp [hnone]
  rw [show st.dl.keys = st.keys from rfl, mapM_raise ⟨c, hc, h0⟩ (fun _ _ => projStep_ne_nan _ _ _ _ _ _)]
  rfl

/-! ### The hypotheses are met: a 2x1 cell with different bonds -/

def exOnes (sh : List Nat) : Tensor ℝ := ⟨sh, fun _ => 1⟩

/-- Two sites in a row, all-ones tensors. -/
def exState (D : Dims) : State ℝ :=
  { keys := [(0, 0), (1, 0)], sites := fun c => some (exOnes [D.p c, D.U c, D.L c, D.U (dn c), D.L (rt c)]),
    vts := fun c => (c.1 % 2, 0), lX := 2, lY := 1 }

def exEnv (D : Dims) : Env ℝ :=
  { chi := 4
    C := fun k => some (exOnes (if k.2 = (-1, -1) then [D.el k.1, D.eu k.1] else if k.2 = (1, -1) then [D.eu (rt k.1), D.er k.1]
      else if k.2 = (1, 1) then [D.er (dn k.1), D.ed (rt k.1)] else [D.el (dn k.1), D.ed k.1]))
    T := fun k => some (exOnes (if k.2 = (0, -1) then [D.eu k.1, D.U k.1 * D.U k.1, D.eu (rt k.1)]
      else if k.2 = (-1, 0) then [D.el k.1, D.el (dn k.1), D.L k.1 * D.L k.1]
      else if k.2 = (0, 1) then [D.U (dn k.1) * D.U (dn k.1), D.ed k.1, D.ed (rt k.1)]
      else [D.er k.1, D.L (rt k.1) * D.L (rt k.1), D.er (dn k.1)])) }

/-- One singular value. -/
noncomputable def exSvd : Tensor ℝ → Nat → Svd ℝ := fun M _ => ⟨exOnes [M.shape.getD 0 0, 1], [1], exOnes [M.shape.getD 1 0, 1]⟩

/-- A size which depends on the column. -/
def ab (a b : Nat) (c : Coord) : Nat := if c.1 % 2 = 0 then a else b

theorem exTiling (D : Dims) : Tiling (exState D) := by
  refine ⟨fun c v => ?_, fun c => ?_, fun c hc => ?_, by simp [exState]⟩
  · simp [exState]
  · simp only [exState, List.mem_cons, Prod.mk.injEq, and_true, List.not_mem_nil, or_false]; omega
  · simp only [exState, List.mem_cons, List.not_mem_nil, or_false] at hc ⊢
    rcases hc with rfl | rfl <;> decide

theorem ab_sizes (D : Dims) {a b : Nat} (ha : 0 < a) (hb : 0 < b) : Sizes (exState D) (ab a b) :=
  ⟨fun c => by unfold ab; split <;> assumption, fun c => by simp [ab, exState]⟩

theorem ab_vts (D : Dims) (a b : Nat) (c : Coord) : ab a b ((exState D).vts c) = ab a b c ∧ ab a b (dn ((exState D).vts c)) = ab a b (dn c) ∧
    ab a b (rt ((exState D).vts c)) = ab a b (rt c) := by
  simp only [ab, exState, dn, rt, Int.emod_add_emod, Int.emod_emod]
  exact ⟨trivial, rfl, rfl⟩

/-- Left bonds `l`, `l'` in even and odd columns, all others fixed. -/
def exDims (l l' : Nat) : Dims := ⟨ab 2 2, ab 2 3, ab l l', ab 2 4, ab 3 3, ab 1 2, ab 2 2⟩

theorem exFitsState {l l' : Nat} (h : 0 < l) (h' : 0 < l') : FitsState (exDims l l') (exState (exDims l l')) := by
  refine ⟨fun c => ⟨_, rfl, ?_⟩, ab_sizes _ (by decide) (by decide), ab_sizes _ (by decide) (by decide), ab_sizes _ h h'⟩
  show [ab _ _ _, ab _ _ _, ab _ _ _, ab _ _ _, ab _ _ _] = _
  simp only [exState, exDims]
  simp only [ab, dn, rt, Int.emod_add_emod, Int.emod_emod]
  rfl

theorem exFitsEnv {l l' : Nat} : FitsEnv (exDims l l') (exState (exDims l l')) (exEnv (exDims l l')) := by
  refine ⟨?_, ?_, ?_, ?_, ?_, ?_, ?_, ?_, ab_sizes _ (by decide) (by decide), ab_sizes _ (by decide) (by decide), ab_sizes _ (by decide) (by decide), ab_sizes _ (by decide) (by decide)⟩ <;>
  · intro c
    refine ⟨_, rfl, ?_⟩
    simp [exOnes, exState, exDims, ab, dn, rt, Int.emod_add_emod]

theorem exBackend : Backend exSvd := by
  intro M chi m n hM hm hn
  exact ⟨1, by decide, by simp [exSvd, exOnes, hM], rfl, by simp [exSvd, exOnes, hM]⟩

example : Truncating (fun M chi => if chi = 0 then ⟨(exSvd M chi).U, [], (exSvd M chi).V⟩ else exSvd M chi) := by
  intro M chi
  by_cases h : chi = 0
  · simp [h]
  · simp [h, exSvd]; omega

example (ds : List Dir) := C61_moves (args := ⟨true, true, 0, true, true⟩) rfl rfl exBackend (exTiling (exDims 2 3)) (exFitsState (by decide) (by decide))
  exFitsEnv ds
example (ds : List Dir) := C61_moves_sl_partial (args := ⟨false, true, 0, true, true⟩) rfl rfl exBackend (exTiling (exDims 3 3)) (exFitsState (by decide) (by decide))
  exFitsEnv ds (fun _ c => by simp [exDims, ab])
example (ds : List Dir) := C62_moves_partial (args := ⟨false, false, 0, false, false⟩) exBackend (exTiling (exDims 3 3)) (exFitsState (by decide) (by decide))
  exFitsEnv ds (fun _ c => by simp [exDims, ab])
example := C62_violated (args := ⟨false, true, 0, true, true⟩) rfl exBackend (exTiling (exDims 2 3)) (exFitsState (by decide) (by decide))
  exFitsEnv rfl (by decide)
example := C61_4x2_violated (args := ⟨true, false, 0, true, true⟩) rfl rfl (svd := exSvd) (exFitsState (l := 2) (l' := 3) (by decide) (by decide))
  exFitsEnv (c := (0, 0)) (by decide) (by decide)

end Verif.Ctm
