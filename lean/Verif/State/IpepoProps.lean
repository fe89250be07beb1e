import Verif.State.IpepoSpec
import Verif.State.IOProps
/-
C143: operators; trace over the physical index, files.
-/
namespace Verif.Ipepo
open Verif.State Verif.State.Spec
open Verif.Lattice (Vertex)
variable {R K V : Type}

theorem nophysSite_some [AddCommMonoid K] {t t' : Tensor K} (h : nophysSite t = some t') : ∃ a u l d r, t.shape = [a, a, u, l, d, r] ∧
    t' = ⟨[u, l, d, r], fun idx => ∑ i ∈ Finset.range a, t.val (i :: i :: idx)⟩ := by
  unfold nophysSite at h
  split at h
  · rename_i a s u l d r hs
    split at h
    · rename_i e
      subst e
      simp only [Option.some.injEq] at h
      exact ⟨a, u, l, d, r, hs, h.symm⟩
    · cases h
  · cases h

theorem mapM_find [AddCommMonoid K] {l l' : List (Vertex × Tensor K)} (h : l.mapM nophysEntry = some l') (w : Vertex) :
    (l'.find? (fun e => decide (e.1 = w))).map (·.2) = ((l.find? (fun e => decide (e.1 = w))).map (·.2)).bind nophysSite := by
  induction l generalizing l' with
  | nil => simp only [List.mapM_nil, Option.pure_def, Option.some.injEq] at h; subst h; rfl
  | cons e l ih =>
    rw [List.mapM_cons, Option.bind_eq_bind, Option.bind_eq_some_iff] at h
    obtain ⟨e', he, h⟩ := h
    rw [Option.bind_eq_bind, Option.bind_eq_some_iff] at h
    obtain ⟨l1, hl, h⟩ := h
    simp only [Option.pure_def, Option.some.injEq] at h
    subst h
    unfold nophysEntry at he
    rw [Option.map_eq_some_iff] at he
    obtain ⟨t, ht, rfl⟩ := he
    by_cases hw : e.1 = w
    · rw [List.find?_cons_of_pos (by simpa using hw), List.find?_cons_of_pos (by simpa using hw)]
      simp [ht]
    · rw [List.find?_cons_of_neg (by simpa using hw), List.find?_cons_of_neg (by simpa using hw)]
      exact ih hl

/-- **C143**: the operator can be reduced exactly if every tensor has rank six and equal ancilla and physical dimensions; tiling and cell are kept. -/
theorem C143_nophys_defined [AddCommMonoid K] (st : OState K) : (∃ st', toNophys st = some st') ↔ ∀ e ∈ st.sites, ∃ a u l d r, e.2.shape = [a, a, u, l, d, r] := by
  constructor
  · rintro ⟨st', h⟩
    unfold toNophys at h
    rw [Option.bind_eq_bind, Option.bind_eq_some_iff] at h
    obtain ⟨l', hl, -⟩ := h
    generalize st.sites = l at hl
    induction l generalizing l' with
    | nil => intro e he; simp at he
    | cons x l ih =>
      rw [List.mapM_cons, Option.bind_eq_bind, Option.bind_eq_some_iff] at hl
      obtain ⟨x', hx, hl⟩ := hl
      rw [Option.bind_eq_bind, Option.bind_eq_some_iff] at hl
      obtain ⟨l1, hl1, -⟩ := hl
      intro e he
      rcases List.mem_cons.mp he with rfl | he
      · unfold nophysEntry at hx
        rw [Option.map_eq_some_iff] at hx
        obtain ⟨t, ht, -⟩ := hx
        obtain ⟨a, u, l, d, r, hs, -⟩ := nophysSite_some ht
        exact ⟨a, u, l, d, r, hs⟩
      · exact ih l1 hl1 e he
  · intro h
    have : ∃ l', st.sites.mapM nophysEntry = some l' := by
      generalize st.sites = l at h
      induction l with
      | nil => exact ⟨[], rfl⟩
      | cons x l ih =>
        obtain ⟨l1, h1⟩ := ih (fun e he => h e (List.mem_cons_of_mem _ he))
        obtain ⟨a, u, ll, d, r, hs⟩ := h x (List.mem_cons_self ..)
        have hx : ∃ x', nophysEntry x = some x' := by
          unfold nophysEntry nophysSite
          rw [hs]
          simp
        obtain ⟨x', hx⟩ := hx
        exact ⟨x' :: l1, by rw [List.mapM_cons, hx, h1]; rfl⟩
    obtain ⟨l', h'⟩ := this
    exact ⟨⟨st.lX, st.lY, l', st.vts⟩, by unfold toNophys; rw [h']; rfl⟩

/-- **C143**: on every periodic piece of the lattice the reduced network is the trace of the operator. -/
theorem C143_nophys_trace [CommSemiring K] [Fintype V] [DecidableEq V] {st st' : OState K} (h : toNophys st = some st') (right down : Equiv.Perm V) (p : V → Vertex)
    (A : V → Tensor K) (hA : ∀ v, st.siteAt (p v) = some (A v)) :
    st'.lX = st.lX ∧ st'.lY = st.lY ∧ st'.vts = st.vts ∧
    ∃ B : V → Tensor K, (∀ v, st'.siteAt (p v) = some (B v)) ∧ Spec.network right down B = Spec.trace right down A := by
  unfold toNophys at h
  rw [Option.bind_eq_bind, Option.bind_eq_some_iff] at h
  obtain ⟨l', hl, h⟩ := h
  simp only [Option.some.injEq] at h
  subst h
  have hB : ∀ v, ∃ B, OState.siteAt ⟨st.lX, st.lY, l', st.vts⟩ (p v) = some B ∧ nophysSite (A v) = some B := by
    intro v
    have e := hA v
    unfold OState.siteAt at e ⊢
    rw [Option.bind_eq_some_iff] at e
    obtain ⟨w, hw, e⟩ := e
    have hm : w ∈ st.vts (p v) := hw
    have hh := mapM_find hl w
    rw [e, Option.bind_some] at hh
    obtain ⟨x, hx, ht⟩ := Option.map_eq_some_iff.mp e
    have hd := (C143_nophys_defined st).mp ⟨⟨st.lX, st.lY, l', st.vts⟩, by unfold toNophys; rw [hl]; rfl⟩ x (List.mem_of_find?_eq_some hx)
    obtain ⟨a, u, l, d, r, hs⟩ := hd
    have hn : ∃ B, nophysSite (A v) = some B := by
      unfold nophysSite
      rw [← ht, hs]
      simp
    obtain ⟨B, hn⟩ := hn
    refine ⟨B, ?_, hn⟩
    simp only [hw, Option.bind_some]
    rw [hh, hn]
  choose B hB1 hB2 using hB
  refine ⟨rfl, rfl, rfl, B, hB1, ?_⟩
  have hs : ∀ v, ∃ a u l d r, (A v).shape = [a, a, u, l, d, r] ∧ B v = ⟨[u, l, d, r], fun idx => ∑ i ∈ Finset.range a, (A v).val (i :: i :: idx)⟩ := fun v => nophysSite_some (hB2 v)
  choose a u l d r hs1 hs2 using hs
  unfold Spec.network Spec.trace Spec.element
  have e3 : (fun v => (B v).shape.getD 3 0) = fun v => (A v).shape.getD 5 0 := by funext v; rw [hs2, hs1]; rfl
  have e2 : (fun v => (B v).shape.getD 2 0) = fun v => (A v).shape.getD 4 0 := by funext v; rw [hs2, hs1]; rfl
  have e0 : (fun v => (A v).shape.getD 0 0) = a := by funext v; rw [hs1]; rfl
  rw [e3, e2, e0]
  symm
  rw [Finset.sum_comm]
  refine Finset.sum_congr rfl fun h _ => ?_
  rw [Finset.sum_comm]
  refine Finset.sum_congr rfl fun w _ => ?_
  unfold Spec.Bonds
  rw [← Finset.prod_univ_sum (fun v => Finset.range (a v)) (fun v i => (A v).val [i, i, w (down.symm v), h (right.symm v), w v, h v])]
  refine Finset.prod_congr rfl fun v _ => ?_
  rw [hs2]

/-- Sites of a file. -/
theorem sites_roundtrip [AddMonoid R] {F : NumFmt R} (hF : F.Lawful) (fm : Format) {st : State R} (hst : Spec.WellFormed st) (gc : Bool) {j : JState}
    (hj : write F fm st = some j) : ∃ out, readSites F j [0, 1, 2, 3] gc = some out ∧ List.Forall₂ (SameSite gc) st.sites out := by
  obtain ⟨_, _, haux, hmap, hsites, _⟩ := writeState_some hj
  have key : ∀ (L : List ((Vertex × CTensor R) × Nat)) (acc : List (Vertex × CTensor R)),
      (∀ e ∈ L, e ∈ st.sites.zipIdx) → (acc.map (·.1) ++ L.map (fun e => e.1.1)).Nodup →
      ∃ out, (L.map (fun e => (siteName F e.2, e.1.1))).foldlM (readOne F j [2, 3, 4, 5] gc) acc = some (acc ++ out) ∧
        List.Forall₂ (SameSite gc) (L.map (·.1)) out := by
    intro L
    induction L with
    | nil => intro acc _ _; exact ⟨[], by simp, by simp⟩
    | cons e L ih =>
      intro acc hL hn
      obtain ⟨⟨c, X⟩, n⟩ := e
      have he := hL ((c, X), n) (by simp)
      have hes : (c, X) ∈ st.sites := by
        have := List.mem_zipIdx he
        rw [this.2.2]
        exact List.getElem_mem _
      have hfind : findSite j.sites (siteName F n) = some (serialize F fm (siteName F n) X) := by
        unfold findSite
        apply findSite_foldl
        · rw [hsites]
          exact List.mem_map.2 ⟨((c, X), n), he, rfl⟩
        · cases fm <;> rfl
        · intro s hs hid
          rw [hsites] at hs
          obtain ⟨⟨⟨c', X'⟩, n'⟩, he', rfl⟩ := List.mem_map.1 hs
          have hn' : siteName F n' = siteName F n := by cases fm <;> exact hid
          have := siteName_inj F hF hn'
          subst this
          have h1 := (List.mem_zipIdx he).2.2
          have h2 := (List.mem_zipIdx he').2.2
          rw [← h1, Prod.mk.injEq] at h2
          rw [h2.2]
      obtain ⟨Y, hY, hYc, hYs⟩ := read_serialized F hF fm (siteName F n) X (fun hc => hst.real _ hes hc) _ rfl
      have hr6 : Y.t.shape.length = 6 := by rw [← hYs.1]; exact hst.rank6 _ hes
      obtain ⟨Z, hZ, hZs⟩ := Tensor.permute_id Y.t
      rw [hr6] at hZ
      have hperm : Y.t.permute (0 :: 1 :: [2, 3, 4, 5]) = some Z := hZ
      have hstep : readOne F j [2, 3, 4, 5] gc acc (siteName F n, c) = some (dictSet c ⟨Y.cplx || gc, Z⟩ acc) := by
        unfold readOne
        rw [hfind]
        simp only [Option.bind_eq_bind, Option.bind_some]
        rw [hY]
        simp only [Option.bind_some, hperm]
      have hnew : c ∉ acc.map (·.1) := by
        intro hc
        rw [List.nodup_append] at hn
        exact hn.2.2 c hc c (by simp) rfl
      rw [dictSet_new _ _ _ hnew] at hstep
      obtain ⟨out, ho, hf⟩ := ih (acc ++ [(c, ⟨Y.cplx || gc, Z⟩)]) (fun e he => hL e (by simp [he])) (by
          simpa [List.append_assoc] using hn)
      refine ⟨(c, ⟨Y.cplx || gc, Z⟩) :: out, ?_, ?_⟩
      · rw [List.map_cons, List.foldlM_cons, hstep]
        simpa using ho
      · rw [List.map_cons]
        exact List.Forall₂.cons ⟨rfl, by simp [hYc], hYs.trans hZs⟩ hf
  obtain ⟨out, ho, hf⟩ := key st.sites.zipIdx [] (fun _ h => h) (by
    have := hst.nodup
    have e : st.sites.zipIdx.map (fun e => e.1.1) = st.sites.map (·.1) := by
      conv_rhs => rw [← List.zipIdx_map_fst 0 st.sites]
      rw [List.map_map]; rfl
    simpa [e] using this)
  refine ⟨out, ?_, ?_⟩
  · unfold readSites
    rw [haux, hmap]
    simpa using ho
  · simpa [List.zipIdx_map_fst] using hf

theorem write_some [AddMonoid R] {F : NumFmt R} (hF : F.Lawful) (fm : Format) {st : State R} (hst : Spec.WellFormed st)
    (ht : ∀ c, ∃ s ∈ st.sites.map (·.1), st.vts c = some s) : ∃ j, write F fm st = some j := by
  have hlab : ∀ c, ∃ id, (st.vts c).bind (coordId (st.sites.zipIdx.map (fun e => (siteName F e.2, e.1.1)))) = some id := by
    intro c
    obtain ⟨s, hs, hc⟩ := ht c
    obtain ⟨id, hid, _⟩ := coordId_spec F hF st.sites hst.nodup s hs
    exact ⟨id, by rw [hc]; exact hid⟩
  choose lab hlab using hlab
  have hpat : (List.range st.lY.toNat).mapM (fun (y : Nat) => (List.range st.lX.toNat).mapM (fun (x : Nat) =>
        (st.vts ((x : Int), (y : Int))).bind (coordId (st.sites.zipIdx.map (fun e => (siteName F e.2, e.1.1)))))) =
      some ((List.range st.lY.toNat).map (fun (y : Nat) => (List.range st.lX.toNat).map (fun (x : Nat) => lab ((x : Int), (y : Int))))) := by
    apply mapM_some_of
    intro y _
    apply mapM_some_of
    intro x _
    exact hlab _
  unfold write writeState
  simp only [List.map_map, Option.bind_eq_bind, Function.comp_def]
  exact ⟨_, by rw [hpat]; rfl⟩

/-- **C143**: every operator is written and, if the tiling is given again, read back unchanged; so it is without a tiling if it has the default one. The dtype may be promoted by the
global setting. -/
theorem C143_roundtrip_partial [AddMonoid R] {F : NumFmt R} (hF : F.Lawful) (fm : Format) {st : State R} (hst : Spec.WellFormed st)
    (ht : ∀ c, ∃ s ∈ st.sites.map (·.1), st.vts c = some s) (gc : Bool) (given : Option (Vertex → Option Vertex))
    (hg : given = some st.vts ∨ given = none ∧ st.vts = Lattice.defaultVertexToSite st.lX st.lY) :
    ∃ j st', write F fm st = some j ∧ read F j given [0, 1, 2, 3] gc = some st' ∧
      st'.lX = st.lX ∧ st'.lY = st.lY ∧ st'.vts = st.vts ∧ List.Forall₂ (SameSite gc) st.sites st'.sites := by
  obtain ⟨j, hj⟩ := write_some hF fm hst ht
  obtain ⟨out, ho, hf⟩ := sites_roundtrip hF fm hst gc hj
  obtain ⟨e1, e2, _⟩ := writeState_some hj
  have hv : given.getD (Lattice.defaultVertexToSite j.lX j.lY) = st.vts := by
    rcases hg with rfl | ⟨rfl, h⟩
    · rfl
    · rw [h, e1, e2]; rfl
  have hne : out.map (·.1) ≠ [] := by
    obtain ⟨s, hs, -⟩ := ht (0, 0)
    intro h0
    have h1 : out = [] := by simpa using h0
    rw [h1] at hf
    have h2 : st.sites = [] := by cases h : st.sites with
      | nil => rfl
      | cons a b => rw [h] at hf; cases hf
    rw [h2] at hs
    simp at hs
  refine ⟨j, ⟨st.lX, st.lY, out, st.vts⟩, hj, ?_, rfl, rfl, rfl, hf⟩
  unfold read
  rw [ho, hv]
  simp only [Option.bind_eq_bind, Option.bind_some]
  cases hk : out.map (·.1) with
  | nil => exact absurd hk hne
  | cons a l => simp [Lattice.mkGeometry, Lattice.cellSize, e1, e2, hst.cellX, hst.cellY]

/-- The checkerboard of two tensors on a cell of two by two sites. -/
def boardTiling (c : Vertex) : Option Vertex := some ((c.1 + c.2) % 2, 0)

/-- An operator with that tiling. -/
def board : State Int := ⟨2, 2, [((0, 0), ⟨false, ⟨[2, 2, 1, 1, 1, 1], fun i => (i.getD 0 0, 0)⟩⟩), ((1, 0), ⟨false, ⟨[2, 2, 1, 1, 1, 1], fun i => (i.getD 1 0, 0)⟩⟩)], boardTiling⟩

theorem board_wf : Spec.WellFormed board := by
  refine ⟨by decide, by decide, by decide, ?_, ?_⟩
  · intro e he
    simp only [board, List.mem_cons, List.not_mem_nil, or_false] at he
    rcases he with rfl | rfl <;> rfl
  · intro e he hc idx _
    simp only [board, List.mem_cons, List.not_mem_nil, or_false] at he
    rcases he with rfl | rfl <;> rfl

theorem board_tiling : CellTiling board.lX board.lY (board.sites.map (·.1)) board.vts := by
  refine ⟨by decide, by decide, ?_, ?_, ?_, ?_⟩
  · intro c
    refine ⟨((c.1 + c.2) % 2, 0), ?_, rfl⟩
    have e : (c.1 + c.2) % 2 = 0 ∨ (c.1 + c.2) % 2 = 1 := by omega
    rcases e with e | e <;> simp [board, e]
  · intro s hs
    simp only [board, List.map_cons, List.map_nil, List.mem_cons, List.not_mem_nil, or_false] at hs
    rcases hs with rfl | rfl <;> decide
  · intro c k l
    simp only [board, boardTiling, Option.some.injEq, Prod.mk.injEq, and_true]
    omega
  · intro c c' hc d _
    simp only [board, boardTiling, Option.some.injEq, Prod.mk.injEq, and_true] at *
    omega

/-- **C143** fails without giving the tiling again: the pattern in the file, which `read_ipeps` uses to restore such tilings (C06), is not looked at, and sites of the lattice are missing. -/
theorem C143_pattern_violated : ∃ (st : State Int) (j : JState) (st' : State Int), Spec.WellFormed st ∧ CellTiling st.lX st.lY (st.sites.map (·.1)) st.vts ∧
    write unaryFmt .flat st = some j ∧ read unaryFmt j none [0, 1, 2, 3] false = some st' ∧
    (∃ s ∈ st.sites.map (·.1), st.vts (0, 1) = some s) ∧ ¬ ∃ s ∈ st'.sites.map (·.1), st'.vts (0, 1) = some s := by
  have h : ((write unaryFmt .flat board).bind (fun j => (read unaryFmt j none [0, 1, 2, 3] false).map (fun s => (s.sites.map (·.1), s.vts (0, 1))))) =
      some ([(0, 0), (1, 0)], some (0, 1)) := by decide +kernel
  rw [Option.bind_eq_some_iff] at h
  obtain ⟨j, hj, h⟩ := h
  rw [Option.map_eq_some_iff] at h
  obtain ⟨st', hr, h⟩ := h
  rw [Prod.mk.injEq] at h
  refine ⟨board, j, st', board_wf, board_tiling, hj, hr, ⟨(1, 0), by decide, by decide⟩, ?_⟩
  rw [h.1, h.2]
  decide

/-! ### The hypotheses are met -/

example : ∀ c, ∃ s ∈ board.sites.map (·.1), board.vts c = some s := board_tiling.total

/-- The identity on spins one half with a bond index, on one site. -/
def identityOp : OState Int := ⟨1, 1, [((0, 0), ⟨[2, 2, 2, 1, 2, 1], fun i => if i.getD 0 0 = i.getD 1 0 ∧ i.getD 2 0 = i.getD 4 0 then 1 else 0⟩)], fun _ => some (0, 0)⟩

example : ∃ (st' : OState Int) (A : Fin 2 → Tensor Int), toNophys identityOp = some st' ∧ (∀ v : Fin 2, identityOp.siteAt ((v.val : Int), 0) = some (A v)) ∧
    auxDims identityOp = [2, 1, 2, 1] := by
  obtain ⟨st', h⟩ := (C143_nophys_defined identityOp).mpr (by
    intro e he
    simp only [identityOp, List.mem_singleton] at he
    subst he
    exact ⟨2, 2, 1, 2, 1, rfl⟩)
  exact ⟨st', fun _ => _, h, fun v => rfl, rfl⟩

/-- Its trace over two sites next to each other is two to the number of sites times the number of values of the bonds below them. -/
example : Spec.trace (Equiv.swap (0 : Fin 2) 1) (Equiv.refl _) (fun _ => (⟨[2, 2, 2, 1, 2, 1], fun i => if i.getD 0 0 = i.getD 1 0 ∧ i.getD 2 0 = i.getD 4 0 then 1 else 0⟩ : Tensor Int)) = 16 := by
  decide +kernel

end Verif.Ipepo
