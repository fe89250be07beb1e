import Verif.State.IOLemmas
import Verif.Lattice.Props
/-
Properties C05, C06, C07: saving and loading states.
-/
namespace Verif.State
open Verif.Lattice (Vertex)
variable {R : Type}

/-- Every site tensor of the state has one physical and four auxiliary axes, is stored under its
own coordinate once, and float64 tensors are real. This holds of every state the library builds. -/
structure Spec.WellFormed [Zero R] (st : State R) : Prop where
  nodup : (st.sites.map (·.1)).Nodup
  rank5 : ∀ e ∈ st.sites, e.2.t.shape.length = 5
  real  : ∀ e ∈ st.sites, e.2.cplx = false → ∀ idx, Tensor.InB e.2.t.shape idx → (e.2.t.val idx).2 = 0

/-- What is expected of one site after a round trip: same coordinate, same shape and entries;
the dtype may only be promoted to complex by the global setting. -/
def Spec.SameSite (globalCplx : Bool) (a b : Vertex × CTensor R) : Prop :=
  a.1 = b.1 ∧ b.2.cplx = (a.2.cplx || globalCplx) ∧ a.2.t.Same b.2.t

open Spec

theorem writeState_some {F : NumFmt R} {fm : Format} {st : State R} {aux : List Nat} {j : JState}
    (hj : writeState F fm st aux = some j) :
    j.lX = st.lX ∧ j.lY = st.lY ∧ j.auxIndSeq = none ∧
    j.map = st.sites.zipIdx.map (fun e => (siteName F e.2, e.1.1)) ∧
    j.sites = st.sites.zipIdx.map (fun e => serialize F fm (siteName F e.2) e.1.2) ∧
    ∃ pat, j.pattern = some pat ∧
      (List.range st.lY.toNat).mapM (fun (y : Nat) =>
        (List.range st.lX.toNat).mapM (fun (x : Nat) =>
          (st.vts ((x : Int), (y : Int))).bind (coordId j.map))) = some pat := by
  unfold writeState at hj
  simp only [List.map_map, Option.bind_eq_bind, Function.comp_def] at hj
  rw [Option.bind_eq_some_iff] at hj
  obtain ⟨pat, hp, he⟩ := hj
  simp only [Option.some.injEq] at he
  subst he
  exact ⟨rfl, rfl, rfl, rfl, rfl, pat, rfl, hp⟩

/-- C05. Whatever is written, in either format and with any `aux_seq` argument, is read back
without error: same coordinates in the same order, same dimensions, same entries. -/
theorem C05_roundtrip [AddMonoid R] (F : NumFmt R) (hF : F.Lawful) (fm : Format) (st : State R)
    (hst : WellFormed st) (aux : List Nat) (globalCplx : Bool) (j : JState)
    (hj : writeState F fm st aux = some j) :
    ∃ out, readSites F j [0, 1, 2, 3] globalCplx = some out ∧
      List.Forall₂ (SameSite globalCplx) st.sites out := by
  obtain ⟨_, _, haux, hmap, hsites, _⟩ := writeState_some hj
  have key : ∀ (L : List ((Vertex × CTensor R) × Nat)) (acc : List (Vertex × CTensor R)),
      (∀ e ∈ L, e ∈ st.sites.zipIdx) → (acc.map (·.1) ++ L.map (fun e => e.1.1)).Nodup →
      ∃ out, (L.map (fun e => (siteName F e.2, e.1.1))).foldlM
          (readOne F j [1, 2, 3, 4] globalCplx) acc = some (acc ++ out) ∧
        List.Forall₂ (SameSite globalCplx) (L.map (·.1)) out := by
    intro L
    induction L with
    | nil => intro acc _ _; exact ⟨[], by simp, by simp⟩
    | cons e L ih =>
      intro acc hL hn
      obtain ⟨⟨c, X⟩, n⟩ := e
      have he := hL ((c, X), n) (by simp)
      have hes : (c, X) ∈ st.sites := by
        have := List.mem_zipIdx he
        rw [this.2.2]
        exact List.getElem_mem _
      have hfind : findSite j.sites (siteName F n) = some (serialize F fm (siteName F n) X) := by
        unfold findSite
        apply findSite_foldl
        · rw [hsites]
          exact List.mem_map.2 ⟨((c, X), n), he, rfl⟩
        · cases fm <;> rfl
        · intro s hs hid
          rw [hsites] at hs
          obtain ⟨⟨⟨c', X'⟩, n'⟩, he', rfl⟩ := List.mem_map.1 hs
          have hn' : siteName F n' = siteName F n := by cases fm <;> exact hid
          have := siteName_inj F hF hn'
          subst this
          have h1 := (List.mem_zipIdx he).2.2
          have h2 := (List.mem_zipIdx he').2.2
          rw [← h1, Prod.mk.injEq] at h2
          rw [h2.2]
      obtain ⟨Y, hY, hYc, hYs⟩ := read_serialized F hF fm (siteName F n) X
        (fun hc => hst.real _ hes hc) _ rfl
      have hr5 : Y.t.shape.length = 5 := by rw [← hYs.1]; exact hst.rank5 _ hes
      obtain ⟨Z, hZ, hZs⟩ := Tensor.permute_id Y.t
      rw [hr5] at hZ
      have hperm : Y.t.permute (0 :: [1, 2, 3, 4]) = some Z := hZ
      have hstep : readOne F j [1, 2, 3, 4] globalCplx acc (siteName F n, c) =
          some (dictSet c ⟨Y.cplx || globalCplx, Z⟩ acc) := by
        unfold readOne
        rw [hfind]
        simp only [Option.bind_eq_bind, Option.bind_some]
        rw [hY]
        simp only [Option.bind_some, hperm]
      have hnew : c ∉ acc.map (·.1) := by
        intro hc
        rw [List.nodup_append] at hn
        exact hn.2.2 c hc c (by simp) rfl
      rw [dictSet_new _ _ _ hnew] at hstep
      obtain ⟨out, ho, hf⟩ := ih (acc ++ [(c, ⟨Y.cplx || globalCplx, Z⟩)])
        (fun e he => hL e (by simp [he])) (by
          simpa [List.append_assoc] using hn)
      refine ⟨(c, ⟨Y.cplx || globalCplx, Z⟩) :: out, ?_, ?_⟩
      · rw [List.map_cons, List.foldlM_cons, hstep]
        simpa using ho
      · rw [List.map_cons]
        exact List.Forall₂.cons ⟨rfl, by simp [hYc], hYs.trans hZs⟩ hf
  obtain ⟨out, ho, hf⟩ := key st.sites.zipIdx [] (fun _ h => h) (by
    have := hst.nodup
    have e : st.sites.zipIdx.map (fun e => e.1.1) = st.sites.map (·.1) := by
      conv_rhs => rw [← List.zipIdx_map_fst 0 st.sites]
      rw [List.map_map]; rfl
    simpa [e] using this)
  refine ⟨out, ?_, ?_⟩
  · unfold readSites
    rw [haux, hmap]
    simpa using ho
  · simpa [List.zipIdx_map_fst] using hf

/-! ### A concrete number format, used for the non-vacuity checks -/

/-- Unary text representation of integers: sign and strokes. -/
def unaryFmt : NumFmt Int where
  encN n := 'n' :: List.replicate n '1'
  decN s := match s with | 'n' :: t => some t.length | _ => none
  encR x := (if 0 ≤ x then '+' else '-') :: List.replicate x.natAbs '1'
  decR s := match s with
    | '+' :: t => some t.length
    | '-' :: t => some (-(t.length : Int))
    | _ => none
  encC z := (if 0 ≤ z.1 then '+' else '-') :: (if 0 ≤ z.2 then '+' else '-') ::
    (List.replicate z.1.natAbs '1' ++ List.replicate z.2.natAbs 'j')
  decC s := match s with
    | a :: b :: t => some
      ((if a = '+' then 1 else -1) * ((t.filter (· == '1')).length : Int),
       (if b = '+' then 1 else -1) * ((t.filter (· == 'j')).length : Int))
    | _ => none

theorem unaryFmt_lawful : unaryFmt.Lawful := by
  constructor
  · intro n; simp [unaryFmt]
  · intro x
    simp only [unaryFmt]
    by_cases h : 0 ≤ x
    · simp only [if_pos h]
      rw [List.length_replicate, Int.natAbs_of_nonneg h]
    · simp only [if_neg h]
      rw [List.length_replicate]; congr 1; omega
  · rintro ⟨x, y⟩
    simp only [unaryFmt, List.filter_append]
    have e1 : (List.replicate x.natAbs '1').filter (· == '1') = List.replicate x.natAbs '1' := by simp
    have e2 : (List.replicate y.natAbs 'j').filter (· == '1') = [] := by simp
    have e3 : (List.replicate x.natAbs '1').filter (· == 'j') = [] := by simp
    have e4 : (List.replicate y.natAbs 'j').filter (· == 'j') = List.replicate y.natAbs 'j' := by simp
    rw [e1, e2, e3, e4]
    simp only [List.append_nil, List.nil_append, List.length_replicate]
    congr 2
    · by_cases hx : 0 ≤ x
      · simp only [if_pos hx]; simp only [if_true]; omega
      · simp only [if_neg hx]; rw [if_neg (by decide)]; omega
    · by_cases hx : 0 ≤ y
      · simp only [if_pos hx]; simp only [if_true]; omega
      · simp only [if_neg hx]; rw [if_neg (by decide)]; omega
  · intro n
    refine ⟨by simp [unaryFmt], ?_⟩
    intro c hc
    simp only [unaryFmt, List.mem_cons, List.mem_replicate] at hc
    rcases hc with rfl | ⟨_, rfl⟩ <;> decide
  · intro x
    refine ⟨by simp [unaryFmt], ?_⟩
    intro c hc
    simp only [unaryFmt, List.mem_cons, List.mem_replicate] at hc
    rcases hc with rfl | ⟨_, rfl⟩
    · split <;> decide
    · decide

/-- A two-site state with tensors of different dimensions, one real and one complex. -/
def sampleState : State Int where
  lX := 2
  lY := 1
  sites := [((0, 0), ⟨false, ⟨[2, 1, 2, 1, 1], fun i => (i.getD 0 0 - 3 * (i.getD 2 0 : Int), 0)⟩⟩),
            ((1, 0), ⟨true, ⟨[2, 1, 1, 1, 2], fun i => (5, i.getD 4 0)⟩⟩)]
  vts := Lattice.defaultVertexToSite 2 1

theorem sampleState_wf : WellFormed sampleState := by
  refine ⟨by decide, ?_, ?_⟩
  · intro e he
    simp only [sampleState, List.mem_cons, List.not_mem_nil, or_false] at he
    rcases he with rfl | rfl <;> rfl
  · intro e he hc idx _
    simp only [sampleState, List.mem_cons, List.not_mem_nil, or_false] at he
    rcases he with rfl | rfl
    · rfl
    · cases hc

/-- Non-vacuity of C05: the sample state is written in both formats. -/
example : (writeState unaryFmt .legacy sampleState [0, 1, 2, 3]).isSome = true ∧
    (writeState unaryFmt .flat sampleState [0, 1, 2, 3]).isSome = true := by decide

/-! ## C07: `aux_seq` -/

/-- C07, reading. For a permutation `aux` of the four auxiliary axes, auxiliary axis `k` of every
tensor handed out is auxiliary axis `aux[k]` of the stored one; the physical axis stays first. -/
theorem C07_read_relabels (aux : List Nat) (haux : aux.Perm [0, 1, 2, 3]) (X : Tensor R)
    (hX : X.shape.length = 5) :
    ∃ Y, X.permute (0 :: aux.map (· + 1)) = some Y ∧
      (∀ k, k < 4 → Y.shape[k + 1]? = X.shape[aux.getD k 0 + 1]?) ∧
      Y.shape[0]? = X.shape[0]? ∧
      ∀ (s : Nat) (a : Nat → Nat),
        Y.val (s :: aux.map a) = X.val [s, a 0, a 1, a 2, a 3] := by
  have hl : aux.length = 4 := by simpa using haux.length_eq
  have hmem : ∀ p ∈ aux, p < 4 := by
    intro p hp; have := haux.mem_iff.1 hp; simp at this; omega
  have hnd : aux.Nodup := haux.nodup_iff.2 (by decide)
  have hcond : (0 :: aux.map (· + 1)).length = X.shape.length ∧ (0 :: aux.map (· + 1)).Nodup ∧
      ∀ p ∈ 0 :: aux.map (· + 1), p < X.shape.length := by
    refine ⟨by simp [hl, hX], ?_, ?_⟩
    · rw [List.nodup_cons]
      exact ⟨by simp, hnd.map (fun a b h => by simpa using h)⟩
    · intro p hp
      rcases List.mem_cons.1 hp with rfl | hp
      · omega
      · obtain ⟨q, hq, rfl⟩ := List.mem_map.1 hp
        have := hmem q hq; omega
  refine ⟨_, if_pos hcond, ?_, ?_, ?_⟩
  · intro k hk
    have hk' : k < aux.length := by omega
    have := hmem aux[k] (List.getElem_mem _)
    simp [List.getElem?_eq_getElem hk', List.getD_eq_getElem?_getD,
      List.getElem?_eq_getElem (by omega : aux[k] + 1 < X.shape.length)]
  · simp [List.getElem?_eq_getElem (by omega : 0 < X.shape.length), List.getD_eq_getElem?_getD]
  · intro s a
    simp only [hX]
    have hpos : ∀ p, p < 4 → (s :: aux.map a).getD ((0 :: aux.map (· + 1)).idxOf (p + 1)) 0 = a p := by
      intro p hp
      have hp' : p ∈ aux := haux.mem_iff.2 (by simp; omega)
      have hi : (0 :: aux.map (· + 1)).idxOf (p + 1) = aux.idxOf p + 1 := by
        rw [List.idxOf_cons_ne _ (by omega)]
        congr 1
        clear hcond hnd hmem hl haux
        induction aux with
        | nil => simp at hp'
        | cons q qs ih =>
          by_cases hq : q = p
          · subst hq; simp
          · rw [List.map_cons, List.idxOf_cons_ne _ (by omega), List.idxOf_cons_ne _ hq,
              ih (by simpa [Ne.symm hq] using hp')]
      have hlt : aux.idxOf p < aux.length := List.idxOf_lt_length_of_mem hp'
      rw [hi]
      simp [List.getD_eq_getElem?_getD, List.getElem?_map, List.getElem?_eq_getElem hlt]
    have h0 : (s :: aux.map a).getD ((0 :: aux.map (· + 1)).idxOf 0) 0 = s := by simp
    have e : List.range 5 = [0, 0 + 1, 1 + 1, 2 + 1, 3 + 1] := by decide
    rw [e]
    simp only [List.map_cons, List.map_nil] at *
    rw [h0, hpos 0 (by omega), hpos 1 (by omega), hpos 2 (by omega), hpos 3 (by omega)]

/-- Non-vacuity: reading with [1,0,3,2] swaps up/left and down/right. -/
example : ([1, 0, 3, 2] : List Nat).Perm [0, 1, 2, 3] := by decide

/-- C07, writing (violated). The order requested by the caller never reaches the file: any two
`aux_seq` arguments give the same output. -/
theorem C07_write_ignores_aux_seq (F : NumFmt R) (fm : Format) (st : State R)
    (aux aux' : List Nat) : writeState F fm st aux = writeState F fm st aux' := rfl

/-- C07, round trip (violated). Writing and reading with the same non-default order does not give
the tensor back. -/
theorem C07_roundtrip_fails : ∃ (st : State Int) (aux : List Nat), WellFormed st ∧
    aux.Perm [0, 1, 2, 3] ∧ ∃ j out, writeState unaryFmt .flat st aux = some j ∧
      readSites unaryFmt j aux false = some out ∧
      ¬ List.Forall₂ (SameSite false) st.sites out := by
  refine ⟨sampleState, [1, 0, 2, 3], sampleState_wf, by decide, ?_⟩
  have hj : ∃ j, writeState unaryFmt .flat sampleState [1, 0, 2, 3] = some j := by
    rw [← Option.isSome_iff_exists]; decide
  obtain ⟨j, hj⟩ := hj
  have hx : ∃ out, (writeState unaryFmt .flat sampleState [1, 0, 2, 3]).bind
      (fun j => readSites unaryFmt j [1, 0, 2, 3] false) = some out ∧
      out.map (fun e => e.2.t.shape) = [[2, 2, 1, 1, 1], [2, 1, 1, 1, 2]] := by
    have h1 : ((writeState unaryFmt .flat sampleState [1, 0, 2, 3]).bind
      (fun j => readSites unaryFmt j [1, 0, 2, 3] false)).map (fun out => out.map (fun e => e.2.t.shape))
        = some [[2, 2, 1, 1, 1], [2, 1, 1, 1, 2]] := by decide
    rw [Option.map_eq_some_iff] at h1
    exact h1
  rw [hj] at hx
  obtain ⟨out, ho, hs⟩ := hx
  refine ⟨j, out, hj, ho, ?_⟩
  intro hf
  cases out with
  | nil => simp at hs
  | cons a as =>
    simp only [sampleState] at hf
    rw [List.forall₂_cons] at hf
    have h1 := hf.1.2.2.1
    simp only [List.map_cons, List.cons.injEq] at hs
    rw [hs.1] at h1
    revert h1; decide

/-! ## C06: the tiling -/

/-- The tiling repeats with the cell, assigns its own site to each listed site and gives vertices
that share a tensor pairwise shared neighbours. -/
structure Spec.CellTiling (lX lY : Int) (keys : List Vertex) (vts : Vertex → Option Vertex) : Prop where
  posX : 0 < lX
  posY : 0 < lY
  total : ∀ c, ∃ s ∈ keys, vts c = some s
  own : ∀ s ∈ keys, 0 ≤ s.1 ∧ s.1 < lX ∧ 0 ≤ s.2 ∧ s.2 < lY ∧ vts s = some s
  periodic : ∀ (c : Vertex) (k l : Int), vts (c.1 + k * lX, c.2 + l * lY) = vts c
  neighbours : ∀ c c', vts c = vts c' → ∀ d : Int × Int,
      d ∈ [((-1 : Int), (0 : Int)), (0, -1), (1, 0), (0, 1)] →
      vts (c.1 + d.1, c.2 + d.2) = vts (c'.1 + d.1, c'.2 + d.2)

theorem coordId_spec (F : NumFmt R) (hF : F.Lawful) (sites : List (Vertex × CTensor R))
    (hn : (sites.map (·.1)).Nodup) (s : Vertex) (hs : s ∈ sites.map (·.1)) :
    ∃ id, coordId (sites.zipIdx.map (fun e => (siteName F e.2, e.1.1))) s = some id ∧
      ∀ s' ∈ sites.map (·.1),
        coordId (sites.zipIdx.map (fun e => (siteName F e.2, e.1.1))) s' = some id → s' = s := by
  have hex : ∀ s ∈ sites.map (·.1), ∃ n, ∃ X, ((s, X), n) ∈ sites.zipIdx ∧
      coordId (sites.zipIdx.map (fun e => (siteName F e.2, e.1.1))) s = some (siteName F n) := by
    intro s hs
    unfold coordId
    cases hf : (sites.zipIdx.map (fun e => (siteName F e.2, e.1.1))).find?
        (fun e => decide (e.2 = s)) with
    | none =>
      rw [List.find?_eq_none] at hf
      obtain ⟨e, he, rfl⟩ := List.mem_map.1 hs
      obtain ⟨i, hi, rfl⟩ := List.getElem_of_mem he
      have : (sites[i], i) ∈ sites.zipIdx := by
        rw [List.mk_mem_zipIdx_iff_getElem?]; simp [hi]
      exact absurd (by simp) (hf _ (List.mem_map.2 ⟨_, this, rfl⟩))
    | some e =>
      have h1 := List.find?_some hf
      have h2 := List.mem_of_find?_eq_some hf
      obtain ⟨⟨⟨c, X⟩, n⟩, hm, rfl⟩ := List.mem_map.1 h2
      simp only [decide_eq_true_eq] at h1
      subst h1
      exact ⟨n, X, hm, rfl⟩
  obtain ⟨n, X, hm, hc⟩ := hex s hs
  refine ⟨_, hc, ?_⟩
  intro s' hs' hc'
  obtain ⟨n', X', hm', hc''⟩ := hex s' hs'
  rw [hc', Option.some.injEq] at hc''
  have := siteName_inj F hF hc''
  subst this
  rw [List.mk_mem_zipIdx_iff_getElem?] at hm hm'
  rw [hm] at hm'
  simp only [Option.some.injEq, Prod.mk.injEq] at hm'
  exact hm'.1.symm

open Lattice in
theorem label2index_some {L : Type} [DecidableEq L] (rows : List (List L)) (w h : Nat)
    (hR : Lattice.Spec.Rectangular rows w h) (cs : List Vertex)
    (hcs : ∀ c ∈ cs, 0 ≤ c.1 ∧ c.1 < w ∧ 0 ≤ c.2 ∧ c.2 < h) (acc : List (L × Vertex)) :
    ∃ out, label2index rows cs acc = some out := by
  induction cs generalizing acc with
  | nil => exact ⟨acc, rfl⟩
  | cons c cs ih =>
    obtain ⟨h1, h2, h3, h4⟩ := hcs c (by simp)
    have hw : 0 < w := by omega
    obtain ⟨l, hl⟩ := labelAt_some hR hw c
    have e : c = ((c.1.toNat : Int), (c.2.toNat : Int)) := by ext <;> simp <;> omega
    have hx : c.1.toNat < w := by omega
    have hy : c.2.toNat < h := by omega
    have hl' : site2index rows c.1.toNat c.2.toNat = some l := by
      rw [← labelAt_cell rows hx hy, ← e, hl]
    unfold label2index
    rw [if_neg (by omega), hl']
    exact ih (fun c hc => hcs c (by simp [hc])) _

open Lattice in
/-- C06 (partial: tilings that repeat with their own cell). For such tilings a state is always
written, always read back without passing a tiling, and the state read back has the same cell
size and sends every vertex of the infinite lattice to the same site.
Missing from the full property: tilings that do not repeat with `(lX,lY)`; for these it is false,
see `C06_bipartite_lost`. -/
theorem C06_tiling_roundtrip_partial [AddMonoid R] (F : NumFmt R) (hF : F.Lawful) (fm : Format)
    (st : State R) (hst : WellFormed st)
    (hT : CellTiling st.lX st.lY (st.sites.map (·.1)) st.vts) (aux : List Nat) (gc : Bool) :
    ∃ j st', writeState F fm st aux = some j ∧ readState F j none [0, 1, 2, 3] gc = some st' ∧
      st'.lX = st.lX ∧ st'.lY = st.lY ∧ (∀ c, st'.vts c = st.vts c) ∧
      List.Forall₂ (SameSite gc) st.sites st'.sites := by
  obtain ⟨lX, hlX⟩ : ∃ w : Nat, st.lX = w := ⟨st.lX.toNat, by have := hT.posX; omega⟩
  obtain ⟨lY, hlY⟩ : ∃ h : Nat, st.lY = h := ⟨st.lY.toNat, by have := hT.posY; omega⟩
  have hw : 0 < lX := by have := hT.posX; omega
  have hh : 0 < lY := by have := hT.posY; omega
  set m := st.sites.zipIdx.map (fun e => (siteName F e.2, e.1.1)) with hm
  -- label of a vertex
  have hlab : ∀ c, ∃ id, (st.vts c).bind (coordId m) = some id := by
    intro c
    obtain ⟨s, hs, hc⟩ := hT.total c
    obtain ⟨id, hid, _⟩ := coordId_spec F hF st.sites hst.nodup s hs
    exact ⟨id, by rw [hc]; exact hid⟩
  choose lab hlab using hlab
  -- the pattern is written
  have hpat : (List.range st.lY.toNat).mapM (fun (y : Nat) =>
      (List.range st.lX.toNat).mapM (fun (x : Nat) =>
        (st.vts ((x : Int), (y : Int))).bind (coordId m))) =
      some ((List.range lY).map (fun (y : Nat) => (List.range lX).map (fun (x : Nat) =>
        lab ((x : Int), (y : Int))))) := by
    rw [hlX, hlY]
    simp only [Int.toNat_natCast]
    apply mapM_some_of
    intro y _
    apply mapM_some_of
    intro x _
    exact hlab _
  set rows := (List.range lY).map (fun (y : Nat) => (List.range lX).map (fun (x : Nat) =>
        lab ((x : Int), (y : Int)))) with hrows
  obtain ⟨j, hj⟩ : ∃ j, writeState F fm st aux = some j := by
    unfold writeState
    simp only [List.map_map, Option.bind_eq_bind, Function.comp_def]
    have := hpat
    rw [hm] at this
    exact ⟨_, by rw [this]; rfl⟩
  obtain ⟨e1, e2, _, e4, _, pat, e6, e7⟩ := writeState_some hj
  rw [e4, ← hm, hpat, Option.some.injEq] at e7
  subst e7
  -- the pattern table
  have hR : Lattice.Spec.Rectangular rows lX lY := by
    refine ⟨by simp [hrows], hh, ?_⟩
    intro row hrow
    rw [hrows] at hrow
    obtain ⟨y, _, rfl⟩ := List.mem_map.1 hrow
    simp
  have hlabAt : ∀ c : Vertex, Lattice.Spec.labelAt rows lX lY c = some (lab c) := by
    intro c
    have h1 : 0 ≤ c.1 % (lX : Int) := Int.emod_nonneg _ (by omega)
    have h2 : c.1 % (lX : Int) < lX := Int.emod_lt_of_pos _ (by omega)
    have h3 : 0 ≤ c.2 % (lY : Int) := Int.emod_nonneg _ (by omega)
    have h4 : c.2 % (lY : Int) < lY := Int.emod_lt_of_pos _ (by omega)
    have hred : lab (c.1 % (lX : Int), c.2 % (lY : Int)) = lab c := by
      have hp := hT.periodic (c.1 % (lX : Int), c.2 % (lY : Int)) (c.1 / lX) (c.2 / lY)
      have e : ((c.1 % (lX : Int)) + (c.1 / lX) * st.lX, (c.2 % (lY : Int)) + (c.2 / lY) * st.lY) = c := by
        rw [hlX, hlY]
        have e1 := Int.emod_add_mul_ediv c.1 (lX : Int)
        have e2 := Int.emod_add_mul_ediv c.2 (lY : Int)
        ext <;> simp only [] <;> linarith [mul_comm (lX : Int) (c.1 / lX), mul_comm (lY : Int) (c.2 / lY)]
      simp only [e] at hp
      have a1 := hlab (c.1 % (lX : Int), c.2 % (lY : Int))
      have a2 := hlab c
      rw [← hp, a2, Option.some.injEq] at a1
      exact a1.symm
    unfold Lattice.Spec.labelAt
    rw [hrows]
    have h5 : (c.2 % (lY : Int)).toNat < lY := by omega
    have h6 : (c.1 % (lX : Int)).toNat < lX := by omega
    simp only [List.getElem?_map, List.getElem?_range h5, Option.map_some, Option.bind_some,
      List.getElem?_range h6, Int.toNat_of_nonneg h1, Int.toNat_of_nonneg h3, hred]
  have hlabeq : ∀ c c', lab c = lab c' ↔ st.vts c = st.vts c' := by
    intro c c'
    obtain ⟨s, hs, hc⟩ := hT.total c
    obtain ⟨s', hs', hc'⟩ := hT.total c'
    obtain ⟨id, hid, hun⟩ := coordId_spec F hF st.sites hst.nodup s hs
    have a := hlab c
    have a' := hlab c'
    rw [hc] at a; rw [hc'] at a'
    simp only [Option.bind_some] at a a'
    rw [hid, Option.some.injEq] at a
    constructor
    · intro h
      rw [hc, hc', hun s' hs' (by rw [a', ← h, a])]
    · intro h
      rw [hc, hc', Option.some.injEq] at h
      subst h
      rw [a', Option.some.injEq] at hid
      rw [hid, a]
  have hS : Lattice.Spec.SameNeighbours rows lX lY := by
    intro c c' hcc
    simp only [hlabAt, Option.some.injEq, hlabeq] at hcc ⊢
    have n := hT.neighbours c c' hcc
    refine ⟨?_, ?_, ?_, ?_⟩
    · simpa [← sub_eq_add_neg] using n (-1, 0) (by simp)
    · simpa [← sub_eq_add_neg] using n (0, -1) (by simp)
    · simpa using n (1, 0) (by simp)
    · simpa using n (0, 1) (by simp)
  obtain ⟨r, hr⟩ := (C02_accepts_iff rows).2 ⟨lX, lY, hR, hS⟩
  -- the sites
  obtain ⟨out, ho, hf⟩ := C05_roundtrip F hF fm st hst aux gc j hj
  have hkeys : out.map (·.1) = st.sites.map (·.1) := by
    have : ∀ (a b : List (Vertex × CTensor R)), List.Forall₂ (SameSite gc) a b →
        b.map (·.1) = a.map (·.1) := by
      intro a b h
      induction h with
      | nil => rfl
      | cons h _ ih => simp only [List.map_cons]; rw [ih, h.1]
    exact this _ _ hf
  have hcell : ∀ c ∈ out.map (·.1), 0 ≤ c.1 ∧ c.1 < (lX : Int) ∧ 0 ≤ c.2 ∧ c.2 < (lY : Int) := by
    intro c hc
    rw [hkeys] at hc
    obtain ⟨a, b, c1, d, _⟩ := hT.own c hc
    rw [hlX] at b; rw [hlY] at d
    exact ⟨a, b, c1, d⟩
  obtain ⟨l2i, hl2i⟩ := label2index_some rows lX lY hR (out.map (·.1)) hcell []
  have hC : Lattice.Spec.Covers rows lX lY (out.map (·.1)) := by
    intro c
    obtain ⟨s, hs, hc⟩ := hT.total c
    refine ⟨s, by rw [hkeys]; exact hs, ?_⟩
    rw [hlabAt, hlabAt, Option.some.injEq, hlabeq, hc]
    exact (hT.own s hs).2.2.2.2
  obtain ⟨g, hg⟩ : ∃ g, mkGeometry (out.map (·.1)) none rows (some j.lX) (some j.lY) = .ok g := by
    obtain ⟨s0, hs0, _⟩ := hC (0, 0)
    cases hs : out.map (·.1) with
    | nil => rw [hs] at hs0; simp at hs0
    | cons a as =>
      rw [hs] at hl2i
      cases hro : rows with
      | nil => rw [hro] at hR; have := hR.1; simp at this; omega
      | cons r0 rest =>
        rw [hro] at hr hl2i
        exact ⟨⟨r0.length, (r0 :: rest).length, patternVertexToSite (r0 :: rest) r0.length
          (r0 :: rest).length l2i⟩, by simp only [mkGeometry, cellSize, hr, hl2i]⟩
  obtain ⟨⟨g1, g2⟩, g3, _⟩ := C03_pattern_tiling (out.map (·.1)) rows lX lY _ _ hR hw hC g hg
  refine ⟨j, ⟨g.lX, g.lY, out, g.vertexToSite⟩, hj, ?_, ?_, ?_, ?_, hf⟩
  · unfold readState
    rw [ho, e6]
    simp only [Option.bind_eq_bind, Option.bind_some, Option.isNone_none, if_true, Option.getD_some]
    rw [hg]
  · rw [hlX]; exact g1
  · rw [hlY]; exact g2
  · intro c
    obtain ⟨s, hs, hv, hl⟩ := g3 c
    simp only []
    rw [hv]
    rw [hlabAt, hlabAt, Option.some.injEq, hlabeq] at hl
    rw [hkeys] at hs
    rw [← hl, (hT.own s hs).2.2.2.2]

/-- Reading with an explicit tiling uses that tiling unchanged. -/
theorem C06_explicit_tiling [Add R] [Zero R] (F : NumFmt R) (j : JState) (f : Vertex → Option Vertex)
    (aux : List Nat) (gc : Bool) (st' : State R) (h : readState F j (some f) aux gc = some st') :
    st'.vts = f := by
  unfold readState at h
  simp only [Option.bind_eq_bind] at h
  rw [Option.bind_eq_some_iff] at h
  obtain ⟨sites, _, h⟩ := h
  split at h
  · cases h
  · rename_i g hg
    simp only [Option.some.injEq] at h
    subst h
    exact (Lattice.C04_constructor (L := Str)).2.1 _ _ _ _ _ _ hg

/-- Non-vacuity of C06: the default tiling of the sample state. -/
example : CellTiling sampleState.lX sampleState.lY (sampleState.sites.map (·.1)) sampleState.vts := by
  have h := Lattice.C01_default_tiling 2 1 (by decide) (by decide)
  have hv : ∀ c, sampleState.vts c = some (c.1 % 2, c.2 % 1) := fun c => h.1 c
  refine ⟨by decide, by decide, ?_, ?_, ?_, ?_⟩
  · intro c
    have h1 : 0 ≤ c.1 % 2 := by omega
    have h2 : c.1 % 2 < 2 := by omega
    refine ⟨(c.1 % 2, c.2 % 1), ?_, hv c⟩
    have e : c.1 % 2 = 0 ∨ c.1 % 2 = 1 := by omega
    have e2 : c.2 % 1 = 0 := by omega
    simp only [sampleState, List.map_cons, List.map_nil]
    rcases e with e | e <;> simp [e, e2]
  · intro s hs
    simp only [sampleState, List.map_cons, List.map_nil, List.mem_cons, List.not_mem_nil, or_false] at hs
    rcases hs with rfl | rfl <;> decide
  · intro c k l
    exact h.2.2.2.1 c k l
  · intro c c' hc d hd
    rw [hv, hv] at *
    simp only [Option.some.injEq, Prod.mk.injEq] at *
    constructor <;> omega

/-- The checkerboard tiling of the documentation (ipeps.py L149-L157): two tensors. -/
def bipartite (c : Vertex) : Option Vertex := some (((c.1 % 2) + c.2.natAbs) % 2, 0)

/-- The sample state with the checkerboard tiling. -/
def bipartiteState : State Int := { sampleState with vts := bipartite }

/-- C06 (violated in general). A checkerboard state of two tensors, with the cell size the
constructor derives from its sites, is read back as columns: the tensor at (0,1) has changed. -/
theorem C06_bipartite_lost : WellFormed bipartiteState ∧
    ∃ j st', writeState unaryFmt .legacy bipartiteState [0, 1, 2, 3] = some j ∧
      readState unaryFmt j none [0, 1, 2, 3] false = some st' ∧
      st'.vts (0, 1) = some (0, 0) ∧ bipartiteState.vts (0, 1) = some (1, 0) := by
  refine ⟨⟨sampleState_wf.nodup, sampleState_wf.rank5, sampleState_wf.real⟩, ?_⟩
  have h1 : ((writeState unaryFmt .legacy bipartiteState [0, 1, 2, 3]).bind (fun j =>
      readState unaryFmt j none [0, 1, 2, 3] false)).map (fun s => s.vts (0, 1)) =
      some (some (0, 0)) := by decide
  rw [Option.map_eq_some_iff] at h1
  obtain ⟨st', h2, h3⟩ := h1
  rw [Option.bind_eq_some_iff] at h2
  obtain ⟨j, h4, h5⟩ := h2
  exact ⟨j, st', h4, h5, h3, by decide⟩

end Verif.State
