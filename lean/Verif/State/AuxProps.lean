import Verif.State.IOProps
import Verif.State.BondProps
/-
Property C07 for the whole reader: which axis order is used, and what it does to every site.
-/
namespace Verif.State
open Verif.Lattice (Vertex)
open Spec
variable {R : Type}

theorem readOne_some [Add R] [Zero R] (F : NumFmt R) (j : JState) (asq : List Nat)
    (gc : Bool) (acc out : List (Vertex × CTensor R)) (ts : Str × Vertex)
    (h : readOne F j asq gc acc ts = some out) :
    ∃ t X Y, findSite j.sites ts.1 = some t ∧ readTensor F t = some X ∧
      X.t.permute (0 :: asq) = some Y ∧ out = dictSet ts.2 ⟨X.cplx || gc, Y⟩ acc := by
  unfold readOne at h
  simp only [Option.bind_eq_bind] at h
  rw [Option.bind_eq_some_iff] at h
  obtain ⟨t, ht, h⟩ := h
  rw [Option.bind_eq_some_iff] at h
  obtain ⟨X, hX, h⟩ := h
  rw [Option.bind_eq_some_iff] at h
  obtain ⟨Y, hY, h⟩ := h
  simp only [Option.some.injEq] at h
  exact ⟨t, X, Y, ht, hX, hY, h.symm⟩

theorem readLoop [Add R] [Zero R] (F : NumFmt R) (j : JState) (asq : List Nat) (gc : Bool) :
    ∀ (l : List (Str × Vertex)) (acc out : List (Vertex × CTensor R)), (l.map (·.2)).Nodup →
      l.foldlM (readOne F j asq gc) acc = some out →
      (∀ ts ∈ l, ∃ t X Y, findSite j.sites ts.1 = some t ∧ readTensor F t = some X ∧
        X.t.permute (0 :: asq) = some Y ∧ dictFind out ts.2 = some ⟨X.cplx || gc, Y⟩) ∧
      ∀ c, c ∉ l.map (·.2) → dictFind out c = dictFind acc c := by
  intro l
  induction l with
  | nil => intro acc out _ h; simp at h; subst h; simp
  | cons ts l ih =>
    intro acc out hn h
    rw [List.foldlM_cons] at h
    simp only [Option.bind_eq_bind, Option.bind_eq_some_iff] at h
    obtain ⟨acc', h1, h2⟩ := h
    simp only [List.map_cons, List.nodup_cons] at hn
    obtain ⟨i1, i2⟩ := ih acc' out hn.2 h2
    obtain ⟨t, X, Y, a, b, c, rfl⟩ := readOne_some F j asq gc acc acc' ts h1
    constructor
    · intro us hus
      rcases List.mem_cons.1 hus with rfl | hus
      · exact ⟨t, X, Y, a, b, c, by rw [i2 _ hn.1, dictFind_set, if_pos rfl]⟩
      · exact i1 us hus
    · intro c hc
      simp only [List.map_cons, List.mem_cons, not_or] at hc
      rw [i2 c hc.2, dictFind_set, if_neg hc.1]

/-- C07, reading. Whenever a file is read successfully, every listed site of rank 5 ends up with its
axes relabelled by the order stored in the file if there is one, and by the caller's order
otherwise: the physical axis stays first, axis `k` of the result is axis `order[k]` of the file. -/
theorem C07_read_state [Add R] [Zero R] (F : NumFmt R) (j : JState)
    (vts : Option (Vertex → Option Vertex)) (aux : List Nat) (gc : Bool) (st : State R)
    (hn : (j.map.map (·.2)).Nodup) (h : readState F j vts aux gc = some st)
    (order : List Nat) (ho : j.auxIndSeq = some order ∨ (j.auxIndSeq = none ∧ aux = order))
    (hp : order.Perm [0, 1, 2, 3]) :
    ∀ id c, (id, c) ∈ j.map → ∃ t X Y, findSite j.sites id = some t ∧ readTensor F t = some X ∧
      dictFind st.sites c = some Y ∧
      (X.t.shape.length = 5 → ∀ (s : Nat) (a : Nat → Nat),
        Y.t.val (s :: order.map a) = X.t.val [s, a 0, a 1, a 2, a 3]) := by
  intro id c hc
  have horder : j.auxIndSeq.getD aux = order := by
    rcases ho with h | ⟨h, rfl⟩ <;> simp [h]
  unfold readState at h
  simp only [Option.bind_eq_bind, Option.bind_eq_some_iff] at h
  obtain ⟨sites, hs, h⟩ := h
  have hst : st.sites = sites := by
    split at h
    · cases h
    · simp only [Option.some.injEq] at h; rw [← h]
  unfold readSites at hs
  rw [horder] at hs
  obtain ⟨l1, _⟩ := readLoop F j _ gc j.map [] sites hn hs
  obtain ⟨t, X, Y, a, b, p, f⟩ := l1 (id, c) hc
  refine ⟨t, X, _, a, b, by rw [hst]; exact f, ?_⟩
  intro h5 s v
  obtain ⟨Y', hY', _, _, hv⟩ := C07_read_relabels order hp X.t h5
  rw [p, Option.some.injEq] at hY'
  rw [hY']
  exact hv s v

end Verif.State
