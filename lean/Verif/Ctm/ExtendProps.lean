import Verif.Ctm.EnvModel
/-
Property C27.
-/
namespace Verif.Ctm
open Tensor
variable {K : Type} [RCLike K]

namespace Spec
/-- The environment axes of the tensor stored under `(coord, v)`: both axes of a corner; for a half-row/column tensor all but the one
towards the site (index order of env.py L57-L71). -/
def envAxes (v : Coord) : List Bool :=
  if v.1 ≠ 0 ∧ v.2 ≠ 0 then [true, true] else if v = (-1, 0) then [true, true, false] else if v = (0, 1) then [false, true, true] else [true, false, true]

/-- Keys of `C` and `T`. -/
def IsC (v : Coord) : Prop := v = (-1, -1) ∨ v = (1, -1) ∨ v = (1, 1) ∨ v = (-1, 1)
def IsT (v : Coord) : Prop := v = (0, -1) ∨ v = (-1, 0) ∨ v = (0, 1) ∨ v = (1, 0)

/-- Every environment axis has size `chi`. -/
def HasChi (mask : List Bool) (chi : Nat) (A : Tensor K) : Prop := List.Forall₂ (fun b s => b = true → s = chi) mask A.shape

/-- The shape with the environment axes of size `chi`. -/
def resized (mask : List Bool) (chi : Nat) (sh : List Nat) : List Nat := List.zipWith (fun b s => if b then chi else s) mask sh

/-- `B` agrees with `A` on the common index range and is zero elsewhere. -/
def Embeds (A B : Tensor K) : Prop := ∀ idx, InB B.shape idx → B.val idx = if InB A.shape idx then A.val idx else 0

/-- All tensors of the environment have environment dimension exactly `chi`. -/
structure Uniform (env : EnvItems K) : Prop where
  C : ∀ kt ∈ env.C, IsC kt.1.2 ∧ HasChi (envAxes kt.1.2) env.chi kt.2
  T : ∀ kt ∈ env.T, IsT kt.1.2 ∧ HasChi (envAxes kt.1.2) env.chi kt.2

/-- Same keys in the same order, every tensor resized to `chi` and embedded. -/
def Extends (chi : Nat) : List ((Coord × Coord) × Tensor K) → List ((Coord × Coord) × Tensor K) → Prop :=
  List.Forall₂ (fun a b => b.1 = a.1 ∧ b.2.shape = resized (envAxes a.1.2) chi a.2.shape ∧ Embeds a.2 b.2)
end Spec
open Spec

theorem inB_nil_iff (idx : List Nat) : InB [] idx ↔ idx = [] := by
  constructor
  · intro h; cases h; rfl
  · rintro rfl; exact .nil

theorem extendTensor_ok {mask : List Bool} {chi new : Nat} {A : Tensor K} (h : HasChi mask chi A) :
    ∃ B, extendTensor mask (min chi new) new A = some B ∧ B.shape = resized mask new A.shape ∧ Embeds A B := by
  obtain ⟨sh, val⟩ := A
  simp only [HasChi] at h
  have hlen := h.length_eq
  obtain ⟨n, hn⟩ : ∃ n, n = List.zipWith (fun b s => if b = true then min chi new else s) mask sh := ⟨_, rfl⟩
  have hsrc : List.zipWith min n sh = List.zipWith min n (resized mask new sh) := by
    subst hn
    clear hlen
    induction h with
    | nil => rfl
    | @cons b s mask sh hb _ ih =>
      simp only [List.zipWith_cons_cons, resized] at ih ⊢
      rw [ih]
      cases b with
      | true => simp [hb rfl]
      | false => simp
  have hl1 : n.length = sh.length := by simp [hn, hlen]
  have hl2 : n.length = (resized mask new sh).length := by simp [hn, resized]
  have hz : ∀ (r idx : List Nat), InB r idx → List.zipWith (fun i s => if s = 1 then 0 else i) idx r = idx := by
    intro r idx hi
    induction hi with
    | nil => rfl
    | @cons i s _ _ h1 _ ih =>
      rw [List.zipWith_cons_cons, ih]
      congr 1
      split <;> omega
  have hin : ∀ idx, InB (resized mask new sh) idx → (InB (List.zipWith min n (resized mask new sh)) idx ↔ InB sh idx) := by
    subst hn
    clear hlen hsrc hl1 hl2
    induction h with
    | nil => intro idx hi; simp [resized]
    | @cons b s mask sh hb _ ih =>
      intro idx hi
      simp only [resized, List.zipWith_cons_cons] at hi ⊢
      cases hi with
      | cons h1 h2 =>
        have := ih _ h2
        simp only [InB, List.forall₂_cons] at this ⊢
        rw [resized] at this
        rw [this]
        refine and_congr_left (fun _ => ?_)
        cases b with
        | true => simp only [if_true] at h1 ⊢; have := hb rfl; omega
        | false => simp
  have hex : extendTensor mask (min chi new) new ⟨sh, val⟩ = assignBlock n ⟨List.zipWith min n sh, val⟩ (zeros (resized mask new sh)) := by
    unfold extendTensor slice
    simp only [hlen, if_true, ← hn, hl1]
    rfl
  have has : assignBlock n ⟨List.zipWith min n sh, val⟩ (zeros (resized mask new sh)) = some ⟨resized mask new sh, fun idx =>
      if InB (List.zipWith min n (resized mask new sh)) idx then
        val (List.zipWith (fun i s => if s = 1 then 0 else i) idx (List.zipWith min n sh)) else 0⟩ := by
    unfold assignBlock
    rw [if_pos]
    · rfl
    refine ⟨hl2, ?_⟩
    show broadcasts (List.zipWith min n sh) (List.zipWith min n (resized mask new sh))
    rw [hsrc]
    exact List.forall₂_same.2 (fun _ _ => .inl rfl)
  refine ⟨_, hex.trans has, rfl, ?_⟩
  intro idx hi
  simp only at hi ⊢
  rw [hsrc]
  by_cases hc : InB sh idx
  · rw [if_pos ((hin idx hi).2 hc), if_pos hc, hz _ _ ((hin idx hi).2 hc)]
  · rw [if_neg (fun h => hc ((hin idx hi).1 h)), if_neg hc]

theorem mapM_forall₂ {α β : Type} {f : α → Option β} {R : α → β → Prop} (l : List α) (h : ∀ a ∈ l, ∃ b, f a = some b ∧ R a b) :
    ∃ l', l.mapM f = some l' ∧ List.Forall₂ R l l' := by
  induction l with
  | nil => exact ⟨[], rfl, .nil⟩
  | cons a l ih =>
    obtain ⟨b, e, hr⟩ := h a (by simp)
    obtain ⟨l', e', h'⟩ := ih (fun a ha => h a (by simp [ha]))
    exact ⟨b :: l', by simp [List.mapM_cons, e, e'], .cons hr h'⟩

theorem maskT_eq {v : Coord} (h : IsT v) : maskT v = some (envAxes v) := by
  rcases h with rfl | rfl | rfl | rfl <;> decide

theorem envAxes_C {v : Coord} (h : IsC v) : envAxes v = [true, true] := by
  rcases h with rfl | rfl | rfl | rfl <;> decide

/-- **C27** for environments of uniform dimension: `extend` succeeds; same keys, every tensor agrees with the old one on the common range
and is zero elsewhere. Both enlarging and truncating. -/
theorem C27_extend_partial (env : EnvItems K) (hu : Uniform env) (new : Nat) :
    ∃ env', extend env new = some env' ∧ env'.chi = new ∧ Extends new env.C env'.C ∧ Extends new env.T env'.T ∧ Uniform env' := by
  obtain ⟨C, eC, hC⟩ := mapM_forall₂ (f := fun kt : (Coord × Coord) × Tensor K => (do return (kt.1, ← extendTensor [true, true] (min env.chi new) new kt.2)))
    (R := fun a b => b.1 = a.1 ∧ b.2.shape = resized (envAxes a.1.2) new a.2.shape ∧ Embeds a.2 b.2) env.C (by
      intro kt hk
      obtain ⟨h1, h2⟩ := hu.C kt hk
      obtain ⟨B, e, hs, hv⟩ := extendTensor_ok (new := new) h2
      rw [envAxes_C h1] at e
      exact ⟨(kt.1, B), by simp [e], rfl, hs, hv⟩)
  obtain ⟨T, eT, hT⟩ := mapM_forall₂ (f := fun kt : (Coord × Coord) × Tensor K => (do return (kt.1, ← extendTensor (← maskT kt.1.2) (min env.chi new) new kt.2)))
    (R := fun a b => b.1 = a.1 ∧ b.2.shape = resized (envAxes a.1.2) new a.2.shape ∧ Embeds a.2 b.2) env.T (by
      intro kt hk
      obtain ⟨h1, h2⟩ := hu.T kt hk
      obtain ⟨B, e, hs, hv⟩ := extendTensor_ok (new := new) h2
      exact ⟨(kt.1, B), by simp [maskT_eq h1, e], rfl, hs, hv⟩)
  have key : ∀ {mask : List Bool} {A : Tensor K}, HasChi mask env.chi A → ∀ B : Tensor K, B.shape = resized mask new A.shape → HasChi mask new B := by
    intro mask A h B hB
    unfold HasChi at h ⊢
    rw [hB]
    generalize A.shape = sh at h
    clear hB
    induction h with
    | nil => exact .nil
    | @cons b s _ _ _ _ ih => exact .cons (by rintro rfl; simp) ih
  have mem : ∀ {l l' : List ((Coord × Coord) × Tensor K)}, Extends new l l' → ∀ b ∈ l', ∃ a ∈ l, b.1 = a.1 ∧ b.2.shape = resized (envAxes a.1.2) new a.2.shape := by
    intro l l' h
    induction h with
    | nil => intro b hb; simp at hb
    | cons h1 _ ih =>
      intro b hb
      rcases List.mem_cons.1 hb with rfl | hb
      · exact ⟨_, by simp, h1.1, h1.2.1⟩
      · obtain ⟨a, ha, h⟩ := ih b hb; exact ⟨a, by simp [ha], h⟩
  refine ⟨⟨new, C, T⟩, ?_, rfl, hC, hT, ?_, ?_⟩
  · unfold extend
    dsimp only
    rw [eC, eT]
    rfl
  · intro b hb
    obtain ⟨a, ha, h1, h2⟩ := mem hC b hb
    obtain ⟨h3, h4⟩ := hu.C a ha
    rw [h1]
    exact ⟨h3, key h4 b.2 h2⟩
  · intro b hb
    obtain ⟨a, ha, h1, h2⟩ := mem hT b hb
    obtain ⟨h3, h4⟩ := hu.T a ha
    rw [h1]
    exact ⟨h3, key h4 b.2 h2⟩

/-- **C27**: enlarging and truncating back gives the same environment. -/
theorem C27_extend_back_partial (env : EnvItems K) (hu : Uniform env) (new : Nat) (hn : env.chi ≤ new) :
    ∃ env' env'', extend env new = some env' ∧ extend env' env.chi = some env'' ∧ env''.chi = env.chi ∧
      List.Forall₂ (fun a b => b.1 = a.1 ∧ Same a.2 b.2) env.C env''.C ∧ List.Forall₂ (fun a b => b.1 = a.1 ∧ Same a.2 b.2) env.T env''.T := by
  obtain ⟨env', e, hc, hC, hT, hu'⟩ := C27_extend_partial env hu new
  obtain ⟨env'', e', hc', hC', hT', -⟩ := C27_extend_partial env' hu' env.chi
  have key : ∀ {l l' l'' : List ((Coord × Coord) × Tensor K)}, (∀ kt ∈ l, HasChi (envAxes kt.1.2) env.chi kt.2) → Extends new l l' → Extends env.chi l' l'' →
      List.Forall₂ (fun a b => b.1 = a.1 ∧ Same a.2 b.2) l l'' := by
    intro l l' l'' hl h h'
    induction h generalizing l'' with
    | nil => cases h'; exact .nil
    | @cons a b _ _ h1 _ ih =>
      cases h' with
      | @cons _ c _ _ h2 h3 =>
        refine .cons ⟨h2.1.trans h1.1, ?_⟩ (ih (fun kt hk => hl kt (by simp [hk])) h3)
        have ha := hl a (by simp)
        have hs : resized (envAxes a.1.2) env.chi (resized (envAxes a.1.2) new a.2.shape) = a.2.shape := by
          unfold HasChi at ha
          generalize a.2.shape = sh at ha
          clear h1 h2
          generalize envAxes a.1.2 = mask at ha
          induction ha with
          | nil => rfl
          | @cons b s _ _ hb _ ih =>
            simp only [resized, List.zipWith_cons_cons] at ih ⊢
            rw [ih]
            cases b with
            | true => simp [hb rfl]
            | false => simp
        have hin : ∀ idx, InB a.2.shape idx → InB b.2.shape idx := by
          intro idx hi
          rw [h1.2.1]
          unfold HasChi at ha
          generalize a.2.shape = sh at ha hi
          clear h1 h2 hs
          generalize envAxes a.1.2 = mask at ha
          induction ha generalizing idx with
          | nil => exact hi
          | @cons b s _ _ hb _ ih =>
            cases hi with
            | cons h4 h5 =>
              refine .cons ?_ (ih _ h5)
              cases b with
              | true => have := hb rfl; simp only [if_true]; omega
              | false => simpa using h4
        have hs2 : a.2.shape = c.2.shape := by rw [h2.2.1, h1.1, h1.2.1, hs]
        refine ⟨hs2, fun idx hi => ?_⟩
        rw [h2.2.2 idx (hs2 ▸ hi), if_pos (hin idx hi), h1.2.2 idx (hin idx hi), if_pos hi]
  exact ⟨env', env'', e, e', hc', key (fun kt hk => (hu.C kt hk).2) hC hC', key (fun kt hk => (hu.T kt hk).2) hT hT'⟩

/-- **C27** refuted for environments with smaller tensors (the dimension is dynamic): a corner whose first axis is shorter than both
dimensions, and not of size 1, makes `extend` raise. -/
theorem C27_violated_raises (chi new d : Nat) (h1 : 1 < d) (h2 : d < chi) (h3 : d < new) (k : Coord × Coord) (val : List Nat → K) (T : List ((Coord × Coord) × Tensor K)) :
    extend ⟨chi, [(k, ⟨[d, chi], val⟩)], T⟩ new = none := by
  have : extendTensor [true, true] (min chi new) new (⟨[d, chi], val⟩ : Tensor K) = none := by
    unfold extendTensor
    simp only [slice, List.length_cons, List.length_nil, if_true, List.zipWith_cons_cons, List.zipWith_nil_left, Option.bind_eq_bind, Option.bind_some, assignBlock, zeros]
    rw [if_neg]
    rintro ⟨-, h⟩
    cases h with
    | cons h _ =>
      rcases h with h | h
      · change min (min chi new) d = min (min chi new) new at h; omega
      · change min (min chi new) d = 1 at h; omega
  simp [extend, this]

/-- **C27** refuted: a corner of size 1 x 1 in an environment of dimension 2 is copied to all entries instead of being padded with zeros. -/
theorem C27_violated_broadcast : ∃ (env env' : EnvItems ℝ) (C C' : Tensor ℝ), env.C = [(((0, 0), (-1, -1)), C)] ∧ extend env 3 = some env' ∧
    env'.C = [(((0, 0), (-1, -1)), C')] ∧ InB C'.shape [1, 1] ∧ ¬ InB C.shape [1, 1] ∧ C'.val [1, 1] ≠ 0 := by
  refine ⟨⟨2, [(((0, 0), (-1, -1)), ⟨[1, 1], fun _ => 5⟩)], []⟩, _, ⟨[1, 1], fun _ => 5⟩, _, rfl, rfl, rfl, ?_, ?_, ?_⟩
  · decide
  · decide
  · have : InB (List.zipWith min [2, 2] [3, 3]) [1, 1] := by decide
    show (if InB (List.zipWith min [2, 2] [3, 3]) [1, 1] then (5 : ℝ) else 0) ≠ 0
    rw [if_pos this]; norm_num

/-- One site, dimension 2, with a half-row tensor. -/
def exItems : EnvItems ℝ := ⟨2, [(((0, 0), (1, -1)), ⟨[2, 2], fun i => i.sum⟩)], [(((0, 0), (-1, 0)), ⟨[2, 2, 9], fun i => i.sum⟩)]⟩

theorem exItems_uniform : Uniform exItems := by
  constructor
  · intro kt hk
    simp only [exItems, List.mem_singleton] at hk
    subst hk
    exact ⟨.inr (.inl rfl), .cons (fun _ => rfl) (.cons (fun _ => rfl) .nil)⟩
  · intro kt hk
    simp only [exItems, List.mem_singleton] at hk
    subst hk
    exact ⟨.inr (.inl rfl), .cons (fun _ => rfl) (.cons (fun _ => rfl) (.cons (fun h => by cases h) .nil))⟩

example := C27_extend_partial exItems exItems_uniform 5
example := C27_extend_partial exItems exItems_uniform 1
example := C27_extend_back_partial exItems exItems_uniform 5 (by decide)

end Verif.Ctm
