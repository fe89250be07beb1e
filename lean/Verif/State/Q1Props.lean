import Verif.State.Q1Model
import Verif.State.IOProps
/-
C144: one-site states with a wave vector.
-/
namespace Verif.Q1
open Verif.State Verif.State.Spec
open Verif.Lattice (Vertex)
variable {R : Type}

/-- Histories of one-site states whose tensor is stored at the origin. -/
inductive Spec.Reachable [AddMonoid R] (F : NumFmt R) : QState R → Prop
  | new {A q gc st} : mk [((0, 0), A)] q gc = some st → Spec.Reachable F st
  | load {st st0} : Spec.Reachable F st → Spec.Reachable F st0 → Spec.Reachable F (load (getCheckpoint st) st0)
  | extend {d st st'} : Spec.Reachable F st → extend d st = some st' → Spec.Reachable F st'
  | again {j q aux gc st fm st0 aux'} : Spec.Reachable F st0 → write F fm st0 aux' = some j → read F j q none aux gc = some st → Spec.Reachable F st

/-- What all reachable states have in common. -/
def Spec.OneSite (st : QState R) : Prop :=
  st.base.lX = 1 ∧ st.base.lY = 1 ∧ st.base.vts = Lattice.defaultVertexToSite 1 1 ∧ ∃ A, st.base.sites = [((0, 0), A)] ∧ (A.cplx = true → st.dt = true)

theorem vts_one (v : Vertex) : Lattice.defaultVertexToSite 1 1 v = some (0, 0) := by
  have ht := (Lattice.C01_default_tiling 1 1 (by decide) (by decide)).1 v
  rw [ht]
  have e1 : v.1 % 1 = 0 := by omega
  have e2 : v.2 % 1 = 0 := by omega
  show some (v.1 % 1, v.2 % 1) = _
  rw [e1, e2]

theorem mk_one (A : CTensor R) (q : CTensor R) (gc : Bool) : mk [((0, 0), A)] q gc = some ⟨⟨1, 1, [((0, 0), A)], Lattice.defaultVertexToSite 1 1⟩, A.cplx, q⟩ := rfl

theorem readOne_keys [Add R] [Zero R] {F : NumFmt R} {j : JState} {asq gc} {s : Str} {out : List (Vertex × CTensor R)} (h : Verif.State.readOne F j asq gc [] (s, (0, 0)) = some out) :
    ∃ A, out = [((0, 0), A)] := by
  unfold Verif.State.readOne at h
  simp only [Option.bind_eq_bind] at h
  rw [Option.bind_eq_some_iff] at h
  obtain ⟨t, -, h⟩ := h
  rw [Option.bind_eq_some_iff] at h
  obtain ⟨X, -, h⟩ := h
  rw [Option.bind_eq_some_iff] at h
  obtain ⟨Y, -, h⟩ := h
  simp only [dictSet, Option.some.injEq] at h
  exact ⟨_, h.symm⟩

theorem geom_sites {g : Except Lattice.CtorErr Lattice.Geometry} {l : List (Vertex × CTensor R)} {s : State R}
    (h : (match g with | .error _ => none | .ok g => some (⟨g.lX, g.lY, l, g.vertexToSite⟩ : State R)) = some s) : s.sites = l := by
  cases g with
  | error e => cases h
  | ok g => cases h; rfl

theorem oneSite [AddMonoid R] {F : NumFmt R} {st : QState R} (h : Spec.Reachable F st) : Spec.OneSite st := by
  induction h with
  | new h =>
    rw [mk_one] at h
    cases h
    exact ⟨rfl, rfl, rfl, _, rfl, id⟩
  | load _ _ ih ih0 =>
    obtain ⟨-, -, -, A, hA, -⟩ := ih
    obtain ⟨h1, h2, h3, -⟩ := ih0
    refine ⟨h1, h2, h3, A, hA, fun hc => ?_⟩
    simp [load, getCheckpoint, hA, hc]
  | extend _ h ih =>
    obtain ⟨h1, h2, h3, A, hA, -⟩ := ih
    unfold extend at h
    rw [hA, Option.bind_eq_bind, Option.bind_eq_some_iff] at h
    obtain ⟨l, hl, h⟩ := h
    simp only [Option.some.injEq] at h
    subst h
    refine ⟨h1, h2, h3, ?_⟩
    rw [List.mapM_cons, Option.bind_eq_bind, Option.bind_eq_some_iff] at hl
    obtain ⟨e, he, hl⟩ := hl
    simp only [List.mapM_nil, Option.pure_def, Option.bind_eq_bind, Option.bind_some, Option.some.injEq] at hl
    unfold extendEntry at he
    rw [Option.bind_eq_bind, Option.bind_eq_some_iff] at he
    obtain ⟨t, -, he⟩ := he
    simp only [Option.some.injEq] at he
    subst hl he
    exact ⟨_, rfl, id⟩
  | again _ hw h ih =>
    obtain ⟨h1, h2, h3, A, hA, -⟩ := ih
    unfold write at hw
    rw [Option.bind_eq_bind, Option.bind_eq_some_iff] at hw
    obtain ⟨js, hj, hw⟩ := hw
    simp only [Option.some.injEq] at hw
    subst hw
    unfold read at h
    rw [Option.bind_eq_bind, Option.bind_eq_some_iff] at h
    obtain ⟨s, hs, h⟩ := h
    obtain ⟨-, -, -, hm, -⟩ := writeState_some hj
    have hB : ∃ B, s.sites = [((0, 0), B)] := by
      unfold readState at hs
      rw [Option.bind_eq_bind, Option.bind_eq_some_iff] at hs
      obtain ⟨l, hl, hs⟩ := hs
      unfold readSites at hl
      rw [hm, hA] at hl
      simp only [List.zipIdx_cons, List.zipIdx_nil, List.map_cons, List.map_nil, List.foldlM_cons, List.foldlM_nil, Option.pure_def, Option.bind_eq_bind] at hl
      rw [Option.bind_eq_some_iff] at hl
      obtain ⟨o, ho, hl⟩ := hl
      cases hl
      obtain ⟨B, rfl⟩ := readOne_keys ho
      exact ⟨B, geom_sites hs⟩
    obtain ⟨B, hB⟩ := hB
    rw [hB, mk_one] at h
    cases h
    exact ⟨rfl, rfl, rfl, _, rfl, id⟩

/-- **C144**: in every history the state has one tensor, which sits at every vertex, and the `dtype` attribute can represent it. -/
theorem C144_uniform [AddMonoid R] {F : NumFmt R} {st : QState R} (h : Spec.Reachable F st) : ∃ A, (∀ v, siteAt st v = some A) ∧ (A.cplx = true → st.dt = true) := by
  obtain ⟨-, -, h3, A, hA, hc⟩ := oneSite h
  refine ⟨A, fun v => ?_, hc⟩
  unfold siteAt
  rw [h3, vts_one, hA]
  rfl

/-- **C144**: a checkpoint restores tensor, tiling and wave vector in any other state of the class. -/
theorem C144_checkpoint [AddMonoid R] {F : NumFmt R} {st st0 : QState R} (h : Spec.Reachable F st) (h0 : Spec.Reachable F st0) :
    (load (getCheckpoint st) st0).base = st.base ∧ (load (getCheckpoint st) st0).q = st.q := by
  obtain ⟨a1, a2, a3, -⟩ := oneSite h
  obtain ⟨b1, b2, b3, -⟩ := oneSite h0
  refine ⟨?_, rfl⟩
  show (⟨st0.base.lX, st0.base.lY, st.base.sites, st0.base.vts⟩ : State R) = st.base
  rw [b1, b2, b3]
  cases hb : st.base with
  | mk x y s v =>
    rw [hb] at a1 a2 a3
    simp only at a1 a2 a3 ⊢
    rw [a1, a2, a3]

/-- **C144**, growth: it succeeds exactly if no bond is larger than the new size; old entries and the wave vector are kept, new entries are zero. -/
theorem C144_extend [AddMonoid R] {F : NumFmt R} {st : QState R} (h : Spec.Reachable F st) (d : Nat) {A : CTensor R} (hA : siteAt st (0, 0) = some A) (h5 : A.t.shape.length = 5) :
    ((∃ st', extend d st = some st') ↔ ∀ a ∈ A.t.shape.tail, a ≤ d) ∧
    ∀ st', extend d st = some st' → st'.q = st.q ∧ ∃ B, siteAt st' (0, 0) = some B ∧ (∃ p, A.t.shape.head? = some p ∧ B.t.shape = [p, d, d, d, d]) ∧
      (∀ idx, Tensor.InB A.t.shape idx → B.t.val idx = A.t.val idx) ∧ (∀ idx, ¬ Tensor.InB A.t.shape idx → B.t.val idx = 0) ∧ (A.cplx = true → B.cplx = true) := by
  obtain ⟨-, -, h3, A', hA', hc⟩ := oneSite h
  have hAA : A' = A := by
    obtain ⟨A1, hu, -⟩ := C144_uniform h
    have : siteAt st (0, 0) = some A' := by
      unfold siteAt
      rw [h3, hA']
      rfl
    rw [hA] at this
    exact (Option.some.inj this).symm
  subst hAA
  obtain ⟨p, a, b, c, e, hs⟩ : ∃ p a b c e, A'.t.shape = [p, a, b, c, e] := by
    match hs : A'.t.shape, h5 with
    | [p, a, b, c, e], _ => exact ⟨p, a, b, c, e, rfl⟩
  have hex : extend d st = if a ≤ d ∧ b ≤ d ∧ c ≤ d ∧ e ≤ d then
      some { st with base := { st.base with sites := [((0, 0), ⟨st.dt, ⟨[p, d, d, d, d], fun idx => if Tensor.InB A'.t.shape idx then A'.t.val idx else 0⟩⟩)] } } else none := by
    unfold extend
    rw [hA']
    simp only [List.mapM_cons, List.mapM_nil, extendEntry, extendSite, hs]
    split
    · rfl
    · rfl
  rw [hex]
  refine ⟨⟨?_, ?_⟩, ?_⟩
  · rintro ⟨st', h⟩
    split at h
    · rename_i hle
      rw [hs]
      simpa using hle
    · cases h
  · intro hle
    rw [hs] at hle
    rw [if_pos (by simpa using hle)]
    exact ⟨_, rfl⟩
  · intro st' h
    split at h
    · cases h
      refine ⟨rfl, ⟨st.dt, ⟨[p, d, d, d, d], fun idx => if Tensor.InB A'.t.shape idx then A'.t.val idx else 0⟩⟩, ?_, ⟨p, by rw [hs]; rfl, rfl⟩, fun idx hi => if_pos hi, fun idx hi => if_neg hi, hc⟩
      unfold siteAt
      simp only [h3, vts_one, Option.bind_some]
      rfl
    · cases h

/-- Float64 tensors are real. -/
def Spec.RealOk [Zero R] (A : CTensor R) : Prop := A.cplx = false → ∀ idx, Tensor.InB A.t.shape idx → (A.t.val idx).2 = 0

theorem tiling_one : CellTiling 1 1 [((0 : Int), (0 : Int))] (Lattice.defaultVertexToSite 1 1) := by
  have h := Lattice.C01_default_tiling 1 1 (by decide) (by decide)
  have hv : ∀ c : Vertex, Lattice.defaultVertexToSite 1 1 c = some (c.1 % 1, c.2 % 1) := fun c => h.1 c
  refine ⟨by decide, by decide, ?_, ?_, ?_, ?_⟩
  · intro c
    refine ⟨(c.1 % 1, c.2 % 1), ?_, hv c⟩
    have e1 : c.1 % 1 = 0 := by omega
    have e2 : c.2 % 1 = 0 := by omega
    simp [e1, e2]
  · intro s hs
    simp only [List.mem_cons, List.not_mem_nil, or_false] at hs
    subst hs
    decide
  · intro c k l
    exact h.2.2.2.1 c k l
  · intro c c' hc d hd
    rw [hv, hv] at *
    simp only [Option.some.injEq, Prod.mk.injEq] at *
    constructor <;> omega

/-- **C144**, files: whatever `q` is passed, the tensor and the wave vector of the file are read. -/
theorem C144_roundtrip_partial [AddMonoid R] {F : NumFmt R} (hF : F.Lawful) (fm : Format) {st : QState R} (h : Spec.Reachable F st) {A : CTensor R} (hA : siteAt st (0, 0) = some A)
    (h5 : A.t.shape.length = 5) (hr : Spec.RealOk A) (hq : Spec.RealOk st.q) (aux : List Nat) (q : CTensor R) (gc : Bool) :
    ∃ j st' B, write F fm st aux = some j ∧ read F j q none [0, 1, 2, 3] gc = some st' ∧ (∀ v, siteAt st' v = some B) ∧ B.cplx = (A.cplx || gc) ∧ A.t.Same B.t ∧
      st'.q.cplx = st.q.cplx ∧ st.q.t.Same st'.q.t := by
  obtain ⟨h1, h2, h3, A', hA', -⟩ := oneSite h
  have hAA : A' = A := by
    have : siteAt st (0, 0) = some A' := by
      unfold siteAt
      rw [h3, hA']
      rfl
    rw [hA] at this
    exact (Option.some.inj this).symm
  subst hAA
  have hwf : WellFormed st.base := by
    refine ⟨by rw [hA']; simp, ?_, ?_⟩
    · rw [hA']
      intro e he
      simp only [List.mem_cons, List.not_mem_nil, or_false] at he
      subst he
      exact h5
    · rw [hA']
      intro e he
      simp only [List.mem_cons, List.not_mem_nil, or_false] at he
      subst he
      exact hr
  have hT : CellTiling st.base.lX st.base.lY (st.base.sites.map (·.1)) st.base.vts := by
    rw [h1, h2, h3, hA']
    exact tiling_one
  obtain ⟨j, s', hw, hrd, -, -, -, hall⟩ := C06_tiling_roundtrip_partial F hF fm st.base hwf hT aux gc
  rw [hA'] at hall
  obtain ⟨B, hs', hB⟩ : ∃ B, s'.sites = [((0, 0), B)] ∧ SameSite gc ((0, 0), A') ((0, 0), B) := by
    match hss : s'.sites with
    | [(a, X)] =>
      rw [hss] at hall
      simp only [List.forall₂_cons, List.Forall₂.nil, and_true] at hall
      have e1 : a = (0, 0) := hall.1.symm
      subst e1
      exact ⟨X, rfl, hall⟩
    | [] => rw [hss] at hall; simp at hall
    | _ :: _ :: _ => rw [hss] at hall; simp at hall
  obtain ⟨Y, hY, hYc, hYs⟩ := read_serialized F hF .legacy [] st.q (fun hc => hq hc) _ rfl
  have hY' : readLegacy F (serializeLegacy F [] st.q) = some Y := hY
  refine ⟨⟨j, some (serializeLegacy F [] st.q)⟩, ⟨⟨1, 1, [((0, 0), B)], Lattice.defaultVertexToSite 1 1⟩, B.cplx, Y⟩, B, ?_, ?_, ?_, hB.2.1, hB.2.2, hYc, hYs⟩
  · unfold write
    rw [hw]
    rfl
  · unfold read readQ
    simp only [hrd, Option.bind_eq_bind, Option.bind_some, hs', hY', Option.getD_some]
    rfl
  · intro v
    unfold siteAt
    simp only [vts_one, Option.bind_some]
    rfl

/-- **C144**: files without a wave vector take the one passed. -/
theorem C144_default [AddMonoid R] {F : NumFmt R} {j : JState} {q : CTensor R} {vts} {aux : List Nat} {gc : Bool} {st : QState R} (h : read F ⟨j, none⟩ q vts aux gc = some st) : st.q = q := by
  unfold read at h
  rw [Option.bind_eq_bind, Option.bind_eq_some_iff] at h
  obtain ⟨s, -, h⟩ := h
  unfold mk at h
  split at h
  · split at h
    · cases h
    · cases h
      rfl
  · cases h

/-- A site and a wave vector. -/
def sampleA : CTensor Int := ⟨false, ⟨[1, 1, 2, 1, 1], fun i => (i.getD 2 0, 0)⟩⟩
def sampleQ : CTensor Int := ⟨false, ⟨[2], fun i => (i.getD 0 0 + 1, 0)⟩⟩
def sampleSt : QState Int := ⟨⟨1, 1, [((0, 0), sampleA)], Lattice.defaultVertexToSite 1 1⟩, false, sampleQ⟩

/-- **C144** fails for another order of the indices, which is ignored on writing. -/
theorem C144_order_violated : ∃ (aux : List Nat) (j : JQ) (st' : QState Int) (B : CTensor Int), aux.Perm [0, 1, 2, 3] ∧ Spec.Reachable unaryFmt sampleSt ∧
    write unaryFmt .flat sampleSt aux = some j ∧ read unaryFmt j sampleQ none aux false = some st' ∧ siteAt st' (0, 0) = some B ∧ B.t.shape ≠ sampleA.t.shape := by
  have e : ((write unaryFmt .flat sampleSt [1, 0, 3, 2]).bind (fun j => (read unaryFmt j sampleQ none [1, 0, 3, 2] false).bind (fun s => (siteAt s (0, 0)).map (fun B => B.t.shape)))) =
      some [1, 2, 1, 1, 1] := by decide +kernel
  rw [Option.bind_eq_some_iff] at e
  obtain ⟨j, hw, e⟩ := e
  rw [Option.bind_eq_some_iff] at e
  obtain ⟨st', hr, e⟩ := e
  rw [Option.map_eq_some_iff] at e
  obtain ⟨B, hB, e⟩ := e
  exact ⟨[1, 0, 3, 2], j, st', B, by decide, .new (mk_one sampleA sampleQ false), hw, hr, hB, by rw [e]; decide⟩

/-- **C144** fails for damaged files: a wave vector that cannot be read is replaced by the argument without an error. -/
theorem C144_damaged_violated : ∃ (j : JQ) (st' : QState Int), j.q.isSome = true ∧ ((j.q).bind (readLegacy unaryFmt)).isNone = true ∧
    (∃ j0, write unaryFmt .flat sampleSt [0, 1, 2, 3] = some j0 ∧ j.js = j0.js) ∧ read unaryFmt j ⟨false, ⟨[2], fun _ => (0, 0)⟩⟩ none [0, 1, 2, 3] false = some st' ∧ st'.q.t.val [1] ≠ sampleQ.t.val [1] := by
  have e : ((write unaryFmt .flat sampleSt [0, 1, 2, 3]).bind (fun j => (read unaryFmt ⟨j.js, some ⟨[], false, [2], .legacy, [['x']]⟩⟩ ⟨false, ⟨[2], fun _ => (0, 0)⟩⟩ none [0, 1, 2, 3] false).map
      (fun s => s.q.t.val [1]))) = some (0, 0) := by decide +kernel
  rw [Option.bind_eq_some_iff] at e
  obtain ⟨j, hw, e⟩ := e
  rw [Option.map_eq_some_iff] at e
  obtain ⟨st', hr, e⟩ := e
  exact ⟨⟨j.js, some ⟨[], false, [2], .legacy, [['x']]⟩⟩, st', rfl, by show (readLegacy unaryFmt ⟨[], false, [2], .legacy, [['x']]⟩).isNone = true; decide, ⟨j, hw, rfl⟩, hr, by rw [e]; decide⟩

/-! ### The hypotheses are met -/

example : Spec.Reachable unaryFmt sampleSt ∧ siteAt sampleSt (0, 0) = some sampleA ∧ sampleA.t.shape.length = 5 ∧ Spec.RealOk sampleA ∧ Spec.RealOk sampleSt.q :=
  ⟨.new (mk_one sampleA sampleQ false), rfl, rfl, fun _ _ _ => rfl, fun _ _ _ => rfl⟩

end Verif.Q1
