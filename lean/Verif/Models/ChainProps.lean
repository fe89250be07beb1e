import Verif.Models.ChainModel
import Verif.Models.Witness
/-
C108: `eval_obs` of the coupled chains raises for every state. C109: the dimer order parameter.
-/
namespace Verif.Models
open Tensor Ctm Ctm.Spec Spec Su2 Su2.Spec
open Corrf (pEnv)
open scoped Matrix

/-! ### C108 -/

theorem foldKeys {α : Type} {f : Dict α → Coord → Except Err (Dict α)} {P : Dict α → Prop} (hf : ∀ d c d', P d → f d c = .ok d' → P d') :
    ∀ (l : List Coord) (d d' : Dict α), P d → l.foldlM f d = .ok d' → P d' := by
  intro l
  induction l with
  | nil =>
    intro d d' h e
    cases e
    exact h
  | cons c l ih =>
    intro d d' h e
    rw [List.foldlM_cons] at e
    cases hfc : f d c with
    | error x => rw [hfc] at e; cases e
    | ok d1 =>
      rw [hfc] at e
      exact ih d1 d' (hf d c d1 h hfc) e

theorem mapM_missing {α : Type} (d : Dict α) (k : ChainKey) (hk : d.get k = .error .raise) (l : List ChainKey) (hl : k ∈ l) (v : List α) : l.mapM d.get ≠ .ok v := by
  induction l generalizing v with
  | nil => cases hl
  | cons x l ih =>
    intro h
    rw [List.mapM_cons] at h
    cases hx : d.get x with
    | error e => rw [hx] at h; cases h
    | ok y =>
      rw [hx] at h
      rcases List.mem_cons.1 hl with rfl | hl
      · rw [hk] at hx; cases hx
      · cases hy : l.mapM d.get with
        | error e => rw [hy] at h; cases h
        | ok z => exact ih hl z hy

/-- C108. Whatever is measured, `eval_obs` does not return: the label `anti_fm` is looked up and never stored. -/
theorem C108_violated {α : Type} (site : Coord → Except Err (α × α × α × α × α × α × α)) (avg : Except Err (α × α × α)) (bond : Coord → Except Err (α × α × α × α)) (dim : Except Err α) (keys : List Coord) :
    ∃ e, chainsObs site avg bond dim keys = .error e := by
  have key : ∀ v, chainsObs site avg bond dim keys ≠ .ok v := by
    intro v h
    unfold chainsObs at h
    simp only [bind, Except.bind] at h
    split at h
    · cases h
    · rename_i d hd
      have p1 : ∀ x ∈ d, x.1 ≠ ChainKey.antiFm := by
        refine foldKeys (P := fun d => ∀ x ∈ d, x.1 ≠ ChainKey.antiFm) (fun d c d' hp e => ?_) keys [] d (by simp) hd
        cases hs : site c with
        | error x => rw [hs] at e; cases e
        | ok s =>
          rw [hs] at e
          cases e
          intro x hx
          simp only [List.mem_cons] at hx
          rcases hx with rfl | rfl | rfl | rfl | rfl | rfl | rfl | hx <;> first | exact hp x hx | simp
      split at h
      · cases h
      · rename_i av hav
        split at h
        · cases h
        · rename_i d2 hd2
          have p2 : ∀ x ∈ d2, x.1 ≠ ChainKey.antiFm := by
            refine foldKeys (P := fun d => ∀ x ∈ d, x.1 ≠ ChainKey.antiFm) (fun d c d' hp e => ?_) keys _ d2 ?_ hd2
            · cases hs : bond c with
              | error x => rw [hs] at e; cases e
              | ok s =>
                rw [hs] at e
                cases e
                intro x hx
                simp only [List.mem_cons] at hx
                rcases hx with rfl | rfl | rfl | rfl | hx <;> first | exact hp x hx | simp
            · intro x hx
              simp only [List.mem_cons] at hx
              rcases hx with rfl | rfl | rfl | hx <;> first | exact p1 x hx | simp
          split at h
          · cases h
          · rename_i x
            have hget : Dict.get ((ChainKey.dimer, x) :: d2) .antiFm = .error .raise := by
              unfold Dict.get
              rw [List.find?_eq_none.2]
              intro y hy
              simp only [List.mem_cons] at hy
              rcases hy with rfl | hy
              · simp
              · simpa using p2 y hy
            split at h
            · cases h
            · rename_i vs hvs
              exact mapM_missing _ .antiFm hget _ (by simp) vs hvs
  cases h : chainsObs site avg bond dim keys with
  | error e => exact ⟨e, rfl⟩
  | ok v => exact absurd h (key v)

/-- C108. If nothing else raises, the missing key does. -/
theorem C108_key {α : Type} (x : α) (keys : List Coord) : chainsObs (fun _ => .ok (x, x, x, x, x, x, x)) (.ok (x, x, x)) (fun _ => .ok (x, x, x, x)) (.ok x) keys = .error .raise := by
  obtain ⟨e, h⟩ := C108_violated (fun _ => .ok (x, x, x, x, x, x, x)) (.ok (x, x, x)) (fun _ => .ok (x, x, x, x)) (.ok x) keys
  rw [h]
  have f1 : ∀ (f : Dict α → Coord → Dict α) (d : Dict α), ∃ d', keys.foldlM (fun d c => (Except.ok (f d c) : Except Err (Dict α))) d = .ok d' := by
    intro f
    clear h
    induction keys with
    | nil => exact fun d => ⟨d, rfl⟩
    | cons c l ih => exact fun d => ih (f d c)
  cases e with
  | raise => rfl
  | nan =>
    exfalso
    unfold chainsObs at h
    simp only [bind, Except.bind, pure, Except.pure] at h
    obtain ⟨d, hd⟩ := f1 (fun d c => (.iiiQ c, x) :: (.iiQ c, x) :: (.q c, x) :: (.m c, x) :: (.sm c, x) :: (.sp c, x) :: (.sz c, x) :: d) []
    rw [hd] at h
    obtain ⟨d2, hd2⟩ := f1 (fun d c => (.sq1x2 c, x) :: (.sq2x1 c, x) :: (.ss1x2 c, x) :: (.ss2x1 c, x) :: d) ((ChainKey.avgIIIQ, x) :: (.avgIIQ, x) :: (.avgM, x) :: d)
    simp only [hd2] at h
    have hm : ∀ (l : List ChainKey) (d : Dict α), l.mapM d.get ≠ .error .nan := by
      intro l d
      induction l with
      | nil => intro h; cases h
      | cons k l ih =>
        intro h
        rw [List.mapM_cons] at h
        simp only [bind, Except.bind, pure, Except.pure] at h
        split at h
        · rename_i e he
          cases h
          unfold Dict.get at he
          split at he <;> cases he
        · split at h
          · rename_i e he
            cases h
            exact ih he
          · cases h
    split at h
    · rename_i e he
      cases h
      exact hm _ _ he
    · cases h

/-! ### C109 -/

theorem trace4_is {p : Nat} {r h : Tensor ℂ} {H : Op2 p} (hr : r.shape = [p, p, p, p]) (hh : Is4 p h H) : trace4 r h = some (expectP r H) := by
  obtain ⟨R, e, -, v⟩ := einsum_ok (fun _ => p) [(r, [0, 1, 2, 3]), (h, [2, 3, 0, 1])] [] (by simp [hr, hh.shape]) (by decide) (by simp)
  have hv := v (fun _ => 0) (by simp)
  rw [List.map_nil] at hv
  have hL : ((List.flatMap Prod.snd [(r, [0, 1, 2, 3]), (h, [2, 3, 0, 1])]).dedup.filter (fun l => l ∉ ([] : List Nat))) = [2, 3, 0, 1] := by
    simp only [List.flatMap_cons, List.flatMap_nil]
    decide
  rw [hL] at hv
  unfold trace4
  rw [e]
  refine congrArg some (hv.trans ?_)
  simp only [sumOver, expectP]
  rw [sumFin2 (fun a b i j => _), Finset.sum_comm]
  refine Finset.sum_congr rfl fun r _ => Finset.sum_congr rfl fun s _ => ?_
  rw [show H s r = H (s.1, s.2) (r.1, r.2) from rfl, ← hh.val]
  simp [termOf, Function.update]

/-- The direction of the bonds. -/
def dimerDir (horizontal : Bool) : Dir := if horizontal then .right else .down

namespace Spec
/-- The dimer order parameter at `c`: the difference of `S.S` on two consecutive bonds along the direction. -/
noncomputable def dimer (N : Corrf.Spec.Tensors ℂ) (D : Dims) (d : Dir) (c : Coord) (p : Nat) : ℝ :=
  |bond N D d c (exchange p 1 1 1) - bond N D d (Corrf.Spec.ahead d c 1) (exchange p 1 1 1)|
end Spec

section
variable {D : Dims} {st : State ℂ} {env : Env ℂ} {N : Corrf.Spec.Tensors ℂ}

theorem dimerTerm_ok (eigh : Tensor ℂ → List ℝ × Tensor ℂ) {p : Nat} (hp0 : 0 < p) (b : Bool) (hs : FitsState D st) (he : FitsEnv D st env) (hp : ∀ c, D.p c = p) (hN : Corrf.Spec.Reads st env N) (c : Coord)
    (h0 : (Corrf.Spec.norm N D (dimerDir b) c 2).re ≠ 0) : dimerTerm eigh p b st env c = .ok (bond N D (dimerDir b) c (exchange p 1 1 1) : ℂ) := by
  have hss := ssP_is p
  rw [C11_is_dot_product] at hss
  obtain ⟨q1, q2⟩ := pairP eigh hp0 hs he hp hN c
  cases b with
  | true =>
    obtain ⟨R, e1, e2, e3⟩ := q1 h0
    unfold dimerTerm
    rw [if_pos rfl, e1, Energy.bindOk]
    simp only [trace4_is e2 hss, e3 _ (X_herm p)]
    rfl
  | false =>
    obtain ⟨R, e1, e2, e3⟩ := q2 h0
    unfold dimerTerm
    rw [if_neg (by decide), e1, Energy.bindOk]
    simp only [trace4_is e2 hss, e3 _ (X_herm p)]
    rfl

/-- C109. What `eval_dimer_operator` returns: the difference between the bonds of the first two sites of the dictionary of sites. -/
theorem C109_value (eigh : Tensor ℂ → List ℝ × Tensor ℂ) {p : Nat} (hp0 : 0 < p) (b : Bool) (hs : FitsState D st) (he : FitsEnv D st env) (hp : ∀ c, D.p c = p) (hN : Corrf.Spec.Reads st env N)
    (h0 : ∀ c ∈ st.keys, (Corrf.Spec.norm N D (dimerDir b) c 2).re ≠ 0) {k0 k1 : Coord} {l : List Coord} (hk : st.keys = k0 :: k1 :: l) :
    dimerOp eigh p b st env = .ok |bond N D (dimerDir b) k0 (exchange p 1 1 1) - bond N D (dimerDir b) k1 (exchange p 1 1 1)| := by
  have hm : ∀ l : List Coord, (∀ c ∈ l, (Corrf.Spec.norm N D (dimerDir b) c 2).re ≠ 0) →
      l.mapM (dimerTerm eigh p b st env) = .ok (l.map fun c => (bond N D (dimerDir b) c (exchange p 1 1 1) : ℂ)) := by
    intro l hl
    induction l with
    | nil => rfl
    | cons c l ih =>
      rw [List.mapM_cons, dimerTerm_ok eigh hp0 b hs he hp hN c (hl c (.head _)), Energy.bindOk, ih (fun c hc => hl c (.tail _ hc)), Energy.bindOk]
      rfl
  rw [dimerOp, hm _ h0, Energy.bindOk, hk]
  simp only [List.map_cons]
  rw [← Complex.ofReal_sub, Complex.norm_real, Real.norm_eq_abs]

/-- C109. The order parameter, if the second site is the neighbour of the first in the direction. Missing: all other cells and orders of sites (`C109_violated`, `C109_one_site`). -/
theorem C109_partial (eigh : Tensor ℂ → List ℝ × Tensor ℂ) {p : Nat} (hp0 : 0 < p) (b : Bool) (hs : FitsState D st) (he : FitsEnv D st env) (hp : ∀ c, D.p c = p) (hN : Corrf.Spec.Reads st env N)
    (h0 : ∀ c ∈ st.keys, (Corrf.Spec.norm N D (dimerDir b) c 2).re ≠ 0) {k0 : Coord} {l : List Coord} (hk : st.keys = k0 :: Corrf.Spec.ahead (dimerDir b) k0 1 :: l) :
    dimerOp eigh p b st env = .ok (Spec.dimer N D (dimerDir b) k0 p) := C109_value eigh hp0 b hs he hp hN h0 hk

/-- C109. States with a single site, for which the order parameter is zero, raise. -/
theorem C109_one_site (eigh : Tensor ℂ → List ℝ × Tensor ℂ) {p : Nat} (hp0 : 0 < p) (b : Bool) (hs : FitsState D st) (he : FitsEnv D st env) (hp : ∀ c, D.p c = p) (hN : Corrf.Spec.Reads st env N)
    (h0 : ∀ c ∈ st.keys, (Corrf.Spec.norm N D (dimerDir b) c 2).re ≠ 0) {k0 : Coord} (hk : st.keys = [k0]) : dimerOp eigh p b st env = .error .raise := by
  have h1 := dimerTerm_ok eigh hp0 b hs he hp hN k0 (h0 k0 (by rw [hk]; exact .head _))
  rw [dimerOp, hk, List.mapM_cons, h1, Energy.bindOk]
  rfl
end

/-! ### Examples -/

example (eigh : Tensor ℂ → List ℝ × Tensor ℂ) : dimerOp eigh 3 true (neelState 3 (by decide)) pEnv = .ok (Spec.dimer (gTensors 3 neelVts fun c => ket (neel 3 (by decide) c)) (gDims 3) .right (0, 0) 3) :=
  C109_partial (st := neelState 3 (by decide)) (b := true) (N := gTensors 3 neelVts fun c => ket (neel 3 (by decide) c)) eigh (by decide : 0 < 3) (gFitsState _ _ _ (by decide)) (gFitsEnv _ _ _) (fun _ => rfl) (gReads _ _ _)
    (fun c _ => by rw [gNorm _ _ (fun c => ket_norm (Fin.isLt _))]; simp) rfl

/-- Three spins up, the one at `(1,1)` down. -/
def oneDown (c : Coord) : Fin 2 := if c = (1, 1) then 1 else 0
noncomputable def oneDownState : State ℂ := gState 2 cellKeys cellVts fun c => ket (oneDown c)

theorem oneDown_term (eigh : Tensor ℂ → List ℝ × Tensor ℂ) (b : Bool) : dimerOp eigh 2 b oneDownState pEnv =
    .ok |bond (gTensors 2 cellVts fun c => ket (oneDown c)) (gDims 2) (dimerDir b) (0, 0) (exchange 2 1 1 1) - bond (gTensors 2 cellVts fun c => ket (oneDown c)) (gDims 2) (dimerDir b) (1, 0) (exchange 2 1 1 1)| :=
  C109_value (st := oneDownState) (N := gTensors 2 cellVts fun c => ket (oneDown c)) eigh (by decide : 0 < 2) b (gFitsState _ _ _ (by decide)) (gFitsEnv _ _ _) (fun _ => rfl) (gReads _ _ _)
    (fun c _ => by rw [gNorm _ _ (fun c => ket_norm (Fin.isLt _))]; simp) rfl

/-- C109. On a cell of two by two sites with one spin down the vertical order parameter of the first column is zero; `eval_dimer_operator` returns `1/2`, the difference between the columns. -/
theorem C109_violated (eigh : Tensor ℂ → List ℝ × Tensor ℂ) : ∃ (st : State ℂ) (env : Env ℂ) (N : Corrf.Spec.Tensors ℂ), FitsState (gDims 2) st ∧ FitsEnv (gDims 2) st env ∧ Corrf.Spec.Reads st env N ∧ TwoByTwo st ∧
    st.keys = [(0, 0), (1, 0), (0, 1), (1, 1)] ∧ Spec.dimer N (gDims 2) .down (0, 0) 2 = 0 ∧ Spec.dimer N (gDims 2) .down (1, 0) 2 = 0 ∧ dimerOp eigh 2 false st env = .ok (1 / 2) := by
  have hb : ∀ c, bond (gTensors 2 cellVts fun c => ket (oneDown c)) (gDims 2) .down c (exchange 2 1 1 1) = szEntry 2 (oneDown (cellVts c)) * szEntry 2 (oneDown (cellVts (Corrf.Spec.ahead .down c 1))) := by
    intro c
    rw [ketBond, X_diag]
    norm_cast
  refine ⟨oneDownState, pEnv, _, gFitsState _ _ _ (by decide), gFitsEnv _ _ _, gReads _ _ _, ⟨List.Perm.refl _, fun _ => rfl⟩, rfl, ?_, ?_, ?_⟩
  · rw [Spec.dimer, hb, hb]
    simp [oneDown, cellVts, Corrf.Spec.ahead, Dir.vec]
  · rw [Spec.dimer, hb, hb]
    simp [oneDown, cellVts, Corrf.Spec.ahead, Dir.vec, mul_comm]
  · rw [oneDown_term, dimerDir, if_neg (by decide), hb, hb]
    simp [oneDown, cellVts, Corrf.Spec.ahead, Dir.vec, szEntry]
    norm_num [abs_of_pos]

end Verif.Models
