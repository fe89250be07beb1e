import Verif.Energy.CorrLemmas
import Verif.Energy.Examples
/-
Properties C100 (spin correlations), C101 (correlations of raising and lowering operators).
-/
namespace Verif.Energy
open Tensor Ctm Ctm.Spec

namespace Spec

/-- The lists hold the correlations at the distances `1, ..., dist + 1` in the state `N`. -/
structure SpinCorrOf (N : Corrf.Spec.Tensors ℂ) (D : Dims) (d : Dir) (c : Coord) (dist : Nat) (R : SpinCorr) : Prop where
  length : R.ss.length = dist + 1 ∧ R.szsz.length = dist + 1 ∧ R.sxsx.length = dist + 1 ∧ R.sysy.length = dist + 1
  zz : ∀ r ≤ dist, R.szsz[r]? = some (corr N D d c sz sz r)
  xx : ∀ r ≤ dist, R.sxsx[r]? = some (corr N D d c sx sx r)
  yy : ∀ r ≤ dist, R.sysy[r]? = some (corr N D d c sy sy r)
  ss : ∀ r ≤ dist, R.ss[r]? = some (corr N D d c sz sz r + corr N D d c sx sx r + corr N D d c sy sy r)

/-- The state the correlations refer to: with `conjugate`, the sublattice without the reference site is rotated. -/
noncomputable def seen (conjugate : Bool) (c : Coord) (N : Corrf.Spec.Tensors ℂ) : Corrf.Spec.Tensors ℂ := if conjugate then stagger c N else N

end Spec

theorem conjOp_val (o : Tensor ℂ) (ho : o.shape = [2, 2]) : ∃ x, conjOp o = some x ∧ x.shape = [2, 2] ∧ ∀ i < 2, ∀ j < 2, x.val [i, j] = conjO true (Corrf.Spec.ofTensor o) i j := by
  obtain ⟨R, e, s, v⟩ := einsum_ok (fun _ => 2) [(opT (Su2.rotOp 2), [2, 0]), (o, [2, 3]), (opT (Su2.rotOp 2), [3, 1])] [0, 1] (by simp [ho, opT]) (by decide) (by simp)
  refine ⟨R, e, s, fun i hi j hj => ?_⟩
  have hv := v (fun n => [i, j].getD n 0) (by
    intro n hn
    simp only [List.mem_cons, List.not_mem_nil, or_false] at hn
    rcases hn with rfl | rfl <;> simp <;> omega)
  have hL : ((List.flatMap Prod.snd [(opT (Su2.rotOp 2), [2, 0]), (o, [2, 3]), (opT (Su2.rotOp 2), [3, 1])]).dedup.filter (fun l => l ∉ ([0, 1] : List Nat))) = [2, 3] := by
    simp only [List.flatMap_cons, List.flatMap_nil]
    decide
  rw [hL] at hv
  refine (show R.val [i, j] = _ from hv).trans ?_
  simp only [sumOver, sum_range2, termOf, List.map_cons, List.map_nil, List.prod_cons, List.prod_nil, mul_one, Function.update]
  simp
  rw [rot_val (by decide) hi, rot_val (by decide) hi, rot_val (by decide) hj, rot_val (by decide) hj, conjO]
  rcases lt2 hi with rfl | rfl <;> rcases lt2 hj with rfl | rfl <;> simp [se, fb, Corrf.Spec.ofTensor]

/-- The two-point functions of a list of operators. -/
theorem alternate_corr {N : Corrf.Spec.Tensors ℂ} {D : Dims} (hN : ∀ c, (N.a c).size 0 = 2) {o : Tensor ℂ} (ho : o.shape = [2, 2]) :
    ∃ f, alternate o = some f ∧ (∀ r, (f r).shape = [2, 2]) ∧
      ∀ d c o1 r, Corrf.Spec.twoPoint N D d c o1 (Corrf.Spec.transposed (f r)) r / Corrf.Spec.norm N D d c (r + 2) = Spec.corr (Spec.stagger c N) D d c o1 (Corrf.Spec.transposed o) r := by
  obtain ⟨x, e, s, v⟩ := conjOp_val o ho
  refine ⟨fun r => if r % 2 = 0 then x else o, by simp [alternate, e], fun r => by dsimp only; split_ifs <;> assumption, fun d c o1 r => ?_⟩
  rw [Spec.corr, norm_stagger hN, twoPoint_stagger hN]
  congr 1
  refine twoPoint_agree D hN d c (fun _ _ _ _ => rfl) ?_ r
  intro i hi j hj
  rcases Nat.mod_two_eq_zero_or_one r with h | h
  · simp only [h, if_pos, Corrf.Spec.transposed, v j hj i hi, conjO, beq_self_eq_true, Corrf.Spec.ofTensor]
    ring
  · simp [h, Corrf.Spec.transposed, conjO, se, fb]

section
variable {D : Dims} {st : State ℂ} {env : Env ℂ} {N : Corrf.Spec.Tensors ℂ}

/-- One call. -/
theorem spinCall_ok (ht : Tiling st) (hs : FitsState D st) (he : FitsEnv D st env) (hp : ∀ c, D.p c = 2) (hN : Corrf.Spec.Reads st env N) (d : Dir) (c : Coord) (dist : Nat)
    (hn : ∀ r ≤ dist, Corrf.Spec.norm N D d c (r + 2) ≠ 0) (conjugate : Bool) {o1 o2 : Tensor ℂ} (h1 : o1.shape = [2, 2]) (h2 : o2.shape = [2, 2]) :
    ∃ l, spinCall st env d c o1 o2 dist conjugate = .ok l ∧ l.length = dist + 1 ∧
      ∀ r ≤ dist, l[r]? = some (Spec.corr (Spec.seen conjugate c N) D d c (Corrf.Spec.transposed o1) (Corrf.Spec.transposed o2) r) := by
  have hsz := size_two hs hp hN
  cases conjugate with
  | false =>
    obtain ⟨l, e, hl, v⟩ := Corrf.C38_values_partial ht hs he hN d c o1 (fun _ => o2) dist (by rw [hp]; exact h1) (fun r _ => by rw [hp]; exact h2) hn
    exact ⟨l, by simp [spinCall, opAt, C4v.lift_some, e], hl, v⟩
  | true =>
    obtain ⟨f, ef, sf, vf⟩ := alternate_corr (D := D) hsz h2
    obtain ⟨l, e, hl, v⟩ := Corrf.C38_values_partial ht hs he hN d c o1 f dist (by rw [hp]; exact h1) (fun r _ => by rw [hp]; exact sf r) hn
    refine ⟨l, by simp [spinCall, opAt, ef, C4v.lift_some, e], hl, fun r hr => ?_⟩
    rw [v r hr, vf]
    rfl

theorem corr_agree (hN : ∀ c, (N.a c).size 0 = 2) (d : Dir) (c : Coord) {o1 o1' o2 o2' : Corrf.Spec.Op ℂ} (h1 : Agree o1 o1') (h2 : Agree o2 o2') (r : Nat) :
    Spec.corr N D d c o1 o2 r = Spec.corr N D d c o1' o2' r := by
  rw [Spec.corr, Spec.corr, twoPoint_agree D hN d c h1 h2]

theorem sxT : Agree (Corrf.Spec.transposed opSx) Spec.sx := by
  intro i hi j hj
  show (1 / 2 : ℂ) * (Su2.SP 2 (Fin.ofNat 2 j) (Fin.ofNat 2 i) + Su2.SM 2 (Fin.ofNat 2 j) (Fin.ofNat 2 i)) = _
  rw [sp_val hj hi, sm_val hj hi]
  rcases lt2 hi with rfl | rfl <;> rcases lt2 hj with rfl | rfl <;> simp [Spec.sp, Spec.sm, Spec.sx]

theorem isyT : Agree (Corrf.Spec.transposed opIsy) (fun i j => Complex.I * Spec.sy i j) := by
  intro i hi j hj
  show (-(1 / 2) : ℂ) * (Su2.SP 2 (Fin.ofNat 2 j) (Fin.ofNat 2 i) - Su2.SM 2 (Fin.ofNat 2 j) (Fin.ofNat 2 i)) = _
  rw [sp_val hj hi, sm_val hj hi]
  rcases lt2 hi with rfl | rfl <;> rcases lt2 hj with rfl | rfl <;> simp [Spec.sp, Spec.sm, Spec.sy, mul_div_assoc', neg_div]

theorem seen_two (hN : ∀ c, (N.a c).size 0 = 2) (conjugate : Bool) (c0 c : Coord) : ((Spec.seen conjugate c0 N).a c).size 0 = 2 := by
  unfold Spec.seen Spec.stagger
  cases conjugate
  · exact hN c
  · simp only [if_true]
    cases Spec.other c0 c
    · exact hN c
    · exact hN c

/-- The lists of the dictionary. -/
theorem spinCorr_of (hN : ∀ c, (N.a c).size 0 = 2) {d : Dir} {c : Coord} {dist : Nat} {z x y : List ℂ} (lz : z.length = dist + 1) (lx : x.length = dist + 1) (ly : y.length = dist + 1)
    (vz : ∀ r ≤ dist, z[r]? = some (Spec.corr N D d c (Corrf.Spec.transposed (opT (Su2.SZ 2))) (Corrf.Spec.transposed (opT (Su2.SZ 2))) r))
    (vx : ∀ r ≤ dist, x[r]? = some (Spec.corr N D d c (Corrf.Spec.transposed opSx) (Corrf.Spec.transposed opSx) r))
    (vy : ∀ r ≤ dist, y[r]? = some (Spec.corr N D d c (Corrf.Spec.transposed opIsy) (Corrf.Spec.transposed opIsy) r)) : Spec.SpinCorrOf N D d c dist (spinCorr z x y) := by
  have hy : ∀ r, Spec.corr N D d c (Corrf.Spec.transposed opIsy) (Corrf.Spec.transposed opIsy) r = -Spec.corr N D d c Spec.sy Spec.sy r := by
    intro r
    rw [corr_agree hN d c isyT isyT, Spec.corr, twoPoint_smul, Spec.corr, Complex.I_mul_I]
    ring
  have vz' := fun r hr => (vz r hr).trans (congrArg _ (corr_agree hN d c szT szT r))
  have vx' := fun r hr => (vx r hr).trans (congrArg _ (corr_agree hN d c sxT sxT r))
  refine ⟨⟨?_, lz, lx, ?_⟩, vz', vx', ?_, ?_⟩
  · simp [spinCorr, subL, addL, lz, lx, ly]
  · simp [spinCorr, negL, ly]
  · intro r hr
    simp [spinCorr, negL, vy r hr, hy]
  · intro r hr
    simp [spinCorr, subL, addL, List.getElem?_zipWith, vz' r hr, vx' r hr, vy r hr, hy]

/-- For every state, environment, site, direction and distance `eval_corrf_SS` returns the spin correlations of the state, with `conjugate` those of the state whose other
sublattice is rotated. -/
theorem C100_values (ht : Tiling st) (hs : FitsState D st) (he : FitsEnv D st env) (hp : ∀ c, D.p c = 2) (hN : Corrf.Spec.Reads st env N) (d : Dir) (c : Coord) (dist : Nat)
    (hn : ∀ r ≤ dist, Corrf.Spec.norm N D d c (r + 2) ≠ 0) (conjugate : Bool) :
    ∃ R, evalCorrfSS st env d c dist conjugate = .ok R ∧ Spec.SpinCorrOf (Spec.seen conjugate c N) D d c dist R := by
  obtain ⟨z, ez, lz, vz⟩ := spinCall_ok ht hs he hp hN d c dist hn conjugate (o1 := opT (Su2.SZ 2)) (o2 := opT (Su2.SZ 2)) rfl rfl
  obtain ⟨x, ex, lx, vx⟩ := spinCall_ok ht hs he hp hN d c dist hn conjugate (o1 := opSx) (o2 := opSx) rfl rfl
  obtain ⟨y, ey, ly, vy⟩ := spinCall_ok ht hs he hp hN d c dist hn conjugate (o1 := opIsy) (o2 := opIsy) rfl rfl
  refine ⟨spinCorr z x y, ?_, spinCorr_of (seen_two (size_two hs hp hN) conjugate c) lz lx ly vz vx vy⟩
  rw [evalCorrfSS, ez, bindOk, ex, bindOk, ey, bindOk]
  rfl

/-- The entries `spsm` and `smsp` of `eval_corrf_SpSm` are exchanged: `spsm` is `<S-(0) S+(r)>`. -/
theorem C101_swapped (ht : Tiling st) (hs : FitsState D st) (he : FitsEnv D st env) (hp : ∀ c, D.p c = 2) (hN : Corrf.Spec.Reads st env N) (d : Dir) (c : Coord) (dist : Nat)
    (hn : ∀ r ≤ dist, Corrf.Spec.norm N D d c (r + 2) ≠ 0) (conjugate : Bool) :
    ∃ x y, evalCorrfSpSm st env d c dist conjugate = .ok (x, y) ∧ x.length = dist + 1 ∧ y.length = dist + 1 ∧
      ∀ r ≤ dist, x[r]? = some (Spec.corr (Spec.seen conjugate c N) D d c Spec.sm Spec.sp r) ∧ y[r]? = some (Spec.corr (Spec.seen conjugate c N) D d c Spec.sp Spec.sm r) := by
  obtain ⟨x, ex, lx, vx⟩ := spinCall_ok ht hs he hp hN d c dist hn conjugate (o1 := opT (Su2.SP 2)) (o2 := opT (Su2.SM 2)) rfl rfl
  obtain ⟨y, ey, ly, vy⟩ := spinCall_ok ht hs he hp hN d c dist hn conjugate (o1 := opT (Su2.SM 2)) (o2 := opT (Su2.SP 2)) rfl rfl
  refine ⟨x, y, ?_, lx, ly, fun r hr => ⟨(vx r hr).trans (congrArg _ (corr_agree (seen_two (size_two hs hp hN) conjugate c) d c spT smT r)),
    (vy r hr).trans (congrArg _ (corr_agree (seen_two (size_two hs hp hN) conjugate c) d c smT spT r))⟩⟩
  rw [evalCorrfSpSm, ex, bindOk, ey, bindOk]
  rfl

/-- The entries have the right values when the correlations do not change under the exchange of `S+` and `S-`, and their sum always has. -/
theorem C101_values_partial (ht : Tiling st) (hs : FitsState D st) (he : FitsEnv D st env) (hp : ∀ c, D.p c = 2) (hN : Corrf.Spec.Reads st env N) (d : Dir) (c : Coord) (dist : Nat)
    (hn : ∀ r ≤ dist, Corrf.Spec.norm N D d c (r + 2) ≠ 0) (conjugate : Bool) :
    ∃ x y, evalCorrfSpSm st env d c dist conjugate = .ok (x, y) ∧ x.length = dist + 1 ∧ y.length = dist + 1 ∧ ∀ r ≤ dist,
      (∃ u w, x[r]? = some u ∧ y[r]? = some w ∧ u + w = Spec.corr (Spec.seen conjugate c N) D d c Spec.sp Spec.sm r + Spec.corr (Spec.seen conjugate c N) D d c Spec.sm Spec.sp r) ∧
      (Spec.corr (Spec.seen conjugate c N) D d c Spec.sp Spec.sm r = Spec.corr (Spec.seen conjugate c N) D d c Spec.sm Spec.sp r →
        x[r]? = some (Spec.corr (Spec.seen conjugate c N) D d c Spec.sp Spec.sm r) ∧ y[r]? = some (Spec.corr (Spec.seen conjugate c N) D d c Spec.sm Spec.sp r)) := by
  obtain ⟨x, y, e, lx, ly, v⟩ := C101_swapped ht hs he hp hN d c dist hn conjugate
  refine ⟨x, y, e, lx, ly, fun r hr => ⟨⟨_, _, (v r hr).1, (v r hr).2, add_comm _ _⟩, fun h => ?_⟩⟩
  rw [(v r hr).1, (v r hr).2, h]
  exact ⟨rfl, rfl⟩

end
end Verif.Energy
