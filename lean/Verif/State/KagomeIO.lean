import Verif.State.KagomeLc
import Verif.State.IOProps
/-
Property C91: files of Kagome states.
-/
namespace Verif.Kagome
open Verif.State
open Verif.Tensor
open Verif.Lattice (Vertex)
open Spec

/-! ## Specification -/

/-- The entries of `X` are floating-point numbers (in particular rational), real ones if its dtype is. -/
def Floats (X : Ten) : Prop := ∀ i, InB X.t.shape i → (∃ q : ℚ, (q : ℝ) = (X.t.val i).re) ∧ (∃ q : ℚ, (q : ℝ) = (X.t.val i).im) ∧
  (X.cplx = false → (X.t.val i).im = 0)

/-- `X` can be represented with the dtype `gc` (true: complex). -/
def Representable (gc : Bool) (X : Ten) : Prop := gc = true ∨ ∀ i, InB X.t.shape i → (X.t.val i).im = 0

/-! ## One tensor -/

theorem ratOf_cast {x : ℝ} (h : ∃ q : ℚ, (q : ℝ) = x) : (ratOf x : ℝ) = x := by
  unfold ratOf
  rw [dif_pos h]
  exact h.choose_spec

theorem toPairs_real {X : Ten} (h : Floats X) : RealOk (toPairs X) := by
  intro hc i hi
  obtain ⟨_, h2, h3⟩ := h i hi
  have e := ratOf_cast h2
  rw [h3 hc] at e
  show ratOf (X.t.val i).im = 0
  rw [h3 hc]
  exact_mod_cast e

theorem readTen_ok {F : NumFmt ℚ} (hF : F.Lawful) {X : Ten} (h : Floats X) (gc : Bool) :
    ∃ Y, readTen F gc (serializeLegacy F [] (toPairs X)) = .ok Y ∧ Y.cplx = gc ∧ Y.t.shape = X.t.shape ∧
      (∀ i, InB X.t.shape i → Y.t.val i = if gc then X.t.val i else ((X.t.val i).re : ℂ)) ∧ (Representable gc X → X.t.Same Y.t) := by
  obtain ⟨Z, hZ, hc, hs⟩ := read_serialized F hF .legacy [] (toPairs X) (toPairs_real h) _ rfl
  have hZ : readLegacy F (serializeLegacy F [] (toPairs X)) = some Z := hZ
  have hv : ∀ i, InB X.t.shape i → (ofPairs Z).t.val i = X.t.val i := by
    intro i hi
    have e := hs.2 i hi
    show Complex.mk ((Z.t.val i).1 : ℝ) ((Z.t.val i).2 : ℝ) = _
    rw [← e]
    obtain ⟨h1, h2, _⟩ := h i hi
    exact Complex.ext (ratOf_cast h1) (ratOf_cast h2)
  have hsh : Z.t.shape = X.t.shape := hs.1.symm
  refine ⟨toDtype gc (ofPairs Z), bind_ok.2 ⟨Z, lift_ok.2 hZ, rfl⟩, ?_, ?_, ?_, ?_⟩
  · unfold toDtype; cases gc <;> rfl
  · unfold toDtype; cases gc <;> exact hsh
  · intro i hi
    unfold toDtype
    cases gc
    · show (((ofPairs Z).t.val i).re : ℂ) = _
      rw [hv i hi]; rfl
    · exact hv i hi
  · intro hr
    refine ⟨by unfold toDtype; cases gc <;> exact hsh.symm, fun i hi => ?_⟩
    unfold toDtype
    cases gc
    · show _ = (((ofPairs Z).t.val i).re : ℂ)
      rw [hv i hi]
      have := hr.resolve_left (by simp) i hi
      exact Complex.ext rfl this
    · exact (hv i hi).symm

/-- A dictionary read back: same keys, same tensors, the requested dtype. -/
def ReadAs (gc : Bool) {κ : Type} (e f : κ × Ten) : Prop := f.1 = e.1 ∧ f.2.cplx = gc ∧ e.2.t.Same f.2.t

theorem dictFind_readAs {κ : Type} [DecidableEq κ] {gc : Bool} {d d' : List (κ × Ten)} (h : List.Forall₂ (ReadAs gc) d d') {k : κ} {X : Ten}
    (hX : dictFind d k = some X) : ∃ Y, dictFind d' k = some Y ∧ Y.cplx = gc ∧ X.t.Same Y.t := by
  induction h with
  | nil => simp [dictFind] at hX
  | @cons e f l l' h _ ih =>
    obtain ⟨h1, h2, h3⟩ := h
    unfold dictFind at *
    by_cases hk : e.1 = k
    · rw [List.find?_cons_of_pos (by simpa using hk)] at hX
      rw [List.find?_cons_of_pos (by simpa [h1] using hk)]
      simp only [Option.map_some, Option.some.injEq] at hX ⊢
      subst hX
      exact ⟨_, rfl, h2, h3⟩
    · rw [List.find?_cons_of_neg (by simpa using hk)] at hX
      rw [List.find?_cons_of_neg (by simpa [h1] using hk)]
      exact ih hX

theorem readDict {F : NumFmt ℚ} (hF : F.Lawful) (gc : Bool) (d : List (Name × Ten)) (h : ∀ e ∈ d, Floats e.2 ∧ Representable gc e.2) :
    ∃ d', (d.map (fun f => (f.1, serializeLegacy F [] (toPairs f.2)))).mapM (readNamed F gc) = .ok d' ∧ List.Forall₂ (ReadAs gc) d d' := by
  induction d with
  | nil => exact ⟨[], rfl, .nil⟩
  | cons e d ih =>
    obtain ⟨d', hd, hf⟩ := ih (fun e he => h e (by simp [he]))
    obtain ⟨Y, hY, h1, _, _, h2⟩ := readTen_ok hF (h e (by simp)).1 gc
    refine ⟨(e.1, Y) :: d', ?_, .cons ⟨rfl, h1, h2 (h e (by simp)).2⟩ hf⟩
    rw [List.map_cons, List.mapM_cons]
    refine bind_ok.2 ⟨(e.1, Y), bind_ok.2 ⟨Y, hY, rfl⟩, bind_ok.2 ⟨d', hd, rfl⟩⟩

theorem buildSite_readAs {gc : Bool} {d d' : List (Name × Ten)} (h : List.Forall₂ (ReadAs gc) d d') {A : Ten} (hA : buildSite d = .ok A) :
    ∃ A', buildSite d' = .ok A' ∧ A'.cplx = gc ∧ A.t.Same A'.t := by
  obtain ⟨Tu, Bc, Td, Bb, Ba, _, _, _, _, _, _, _, _, _, _, _, _, h5, _⟩ := buildSite_inv hA
  obtain ⟨⟨g1, Tu'⟩, k1, c1, s1⟩ := dictFind_readAs h h5.tu
  obtain ⟨⟨g2, Bc'⟩, k2, c2, s2⟩ := dictFind_readAs h h5.bc
  obtain ⟨⟨g3, Td'⟩, k3, c3, s3⟩ := dictFind_readAs h h5.td
  obtain ⟨⟨g4, Bb'⟩, k4, c4, s4⟩ := dictFind_readAs h h5.bb
  obtain ⟨⟨g5, Ba'⟩, k5, c5, s5⟩ := dictFind_readAs h h5.ba
  simp only [] at c1 c2 c3 c4 c5
  subst c1 c2 c3 c4 c5
  exact buildSite_congr hA h5 ⟨k1, k2, k3, k4, k5⟩ s1 s2 s3 s4 s5

/-! ## States with point-group symmetry -/

/-- C91. A state with point-group symmetry that is written and read with a sufficient dtype has the same flags, irreps, elementary
tensors and site tensor. -/
theorem C91_pg_roundtrip {F : NumFmt ℚ} (hF : F.Lawful) {s : PState} (hs : PReach s) (gc : Bool)
    (h : ∀ e ∈ s.elem, Floats e.2 ∧ Representable gc e.2) :
    ∃ j s', writeP F s false = .ok j ∧ readP F gc j = .ok s' ∧ s'.symUD = s.symUD ∧ s'.symB = s.symB ∧ s'.pgs = s.pgs ∧
      (∀ n X, kept s.symUD s.symB n → dictFind s.elem n = some X → ∃ Y, dictFind s'.elem n = some Y ∧ Y.cplx = gc ∧ X.t.Same Y.t) ∧
      ∃ A A', s.g.sites = [((0, 0), A)] ∧ s'.g.sites = [((0, 0), A')] ∧ A'.cplx = gc ∧ A.t.Same A'.t := by
  obtain ⟨⟨Tu, Bc, Td, Bb, Ba, A, ⟨f1, f2, f3, f4, f5⟩, _, hA, hsites⟩, _⟩ := hs.inv
  obtain ⟨es', he, hf⟩ := readDict hF gc s.elem h
  obtain ⟨Tu', k1, c1, s1⟩ := dictFind_readAs hf f1
  obtain ⟨Bc', k2, c2, s2⟩ := dictFind_readAs hf f2
  obtain ⟨Td', c3, s3, k3⟩ : ∃ Td' : Ten, Td'.cplx = gc ∧ Td.t.Same Td'.t ∧ (if s.symUD then Td' = Tu' else dictFind es' .Td = some Td') := by
    cases hu : s.symUD <;> rw [hu] at f3
    · obtain ⟨Y, k, c, e⟩ := dictFind_readAs hf f3
      exact ⟨Y, c, e, k⟩
    · exact ⟨Tu', c1, by rw [show Td = Tu from f3]; exact s1, rfl⟩
  obtain ⟨Bb', c4, s4, k4⟩ : ∃ Bb' : Ten, Bb'.cplx = gc ∧ Bb.t.Same Bb'.t ∧ (if s.symB then Bb' = Bc' else dictFind es' .Bb = some Bb') := by
    cases hu : s.symB <;> rw [hu] at f4
    · obtain ⟨Y, k, c, e⟩ := dictFind_readAs hf f4
      exact ⟨Y, c, e, k⟩
    · exact ⟨Bc', c2, by rw [show Bb = Bc from f4]; exact s2, rfl⟩
  obtain ⟨Ba', c5, s5, k5⟩ : ∃ Ba' : Ten, Ba'.cplx = gc ∧ Ba.t.Same Ba'.t ∧ (if s.symB then Ba' = Bc' else dictFind es' .Ba = some Ba') := by
    cases hu : s.symB <;> rw [hu] at f5
    · obtain ⟨Y, k, c, e⟩ := dictFind_readAs hf f5
      exact ⟨Y, c, e, k⟩
    · exact ⟨Bc', c2, by rw [show Ba = Bc from f5]; exact s2, rfl⟩
  obtain ⟨A', hA', hc', hsA⟩ := buildSite_readAs (gc := gc)
    (d := [(.Tu, Tu), (.Td, Td), (.Bc, Bc), (.Ba, Ba), (.Bb, Bb)]) (d' := [(.Tu, Tu'), (.Td, Td'), (.Bc, Bc'), (.Ba, Ba'), (.Bb, Bb')])
    (.cons ⟨rfl, c1, s1⟩ (.cons ⟨rfl, c3, s3⟩ (.cons ⟨rfl, c2, s2⟩ (.cons ⟨rfl, c5, s5⟩ (.cons ⟨rfl, c4, s4⟩ .nil))))) hA
  obtain ⟨s', hs', hsites'⟩ := mkP_ok (es := es') (ud := s.symUD) (b := s.symB) (pgs := s.pgs) ⟨k1, k2, k3, k4, k5⟩ hA'
  obtain ⟨_, h1, h2, h3, _, _, _, es2, h5, h6⟩ := mkP_inv hs'
  rw [if_neg (by simp)] at h6
  refine ⟨⟨s.symUD, s.symB, s.pgs, s.elem.map (fun e => (e.1, serializeLegacy F [] (toPairs e.2)))⟩, s', rfl, bind_ok.2 ⟨es', he, hs'⟩, h1, h2, h3, ?_,
    A, A', hsites, hsites', hc', hsA⟩
  intro n X hn hX
  obtain ⟨Y, k, c, e⟩ := dictFind_readAs hf hX
  exact ⟨Y, by rw [h6, (selectP_inv h5).2.1 n, if_pos hn, k], c, e⟩

/-! ## Generic states -/

open Verif.Lattice in
/-- The pattern of a tiling that repeats with its cell, with labels that tell the sites apart, gives back the tiling. -/
theorem pattern_of_tiling {L : Type} [DecidableEq L] {tX tY : Int} {keys : List Vertex} {vts : Vertex → Option Vertex}
    (hT : State.Spec.CellTiling tX tY keys vts) (name : Vertex → L) (hinj : ∀ c c', name c = name c' → c = c') (lab : Vertex → L)
    (hlab : ∀ c s, vts c = some s → lab c = name s) :
    ∃ g, mkGeometry keys none ((List.range tY.toNat).map (fun (y : Nat) => (List.range tX.toNat).map (fun (x : Nat) => lab ((x : Int), (y : Int)))))
      (some tX) (some tY) = .ok g ∧ g.lX = tX ∧ g.lY = tY ∧ ∀ c, g.vertexToSite c = vts c := by
  obtain ⟨lX, hlX⟩ : ∃ w : Nat, tX = w := ⟨tX.toNat, by have := hT.posX; omega⟩
  obtain ⟨lY, hlY⟩ : ∃ h : Nat, tY = h := ⟨tY.toNat, by have := hT.posY; omega⟩
  have hw : 0 < lX := by have := hT.posX; omega
  have hh : 0 < lY := by have := hT.posY; omega
  have hlabeq : ∀ c c', lab c = lab c' ↔ vts c = vts c' := by
    intro c c'
    obtain ⟨s, hs, hc⟩ := hT.total c
    obtain ⟨s', hs', hc'⟩ := hT.total c'
    rw [hlab c s hc, hlab c' s' hc', hc, hc', Option.some.injEq]
    exact ⟨hinj _ _, fun h => by rw [h]⟩
  subst hlX hlY
  simp only [Int.toNat_natCast]
  set rows := (List.range lY).map (fun (y : Nat) => (List.range lX).map (fun (x : Nat) => lab ((x : Int), (y : Int)))) with hrows
  have hR : Lattice.Spec.Rectangular rows lX lY := by
    refine ⟨by simp [hrows], hh, ?_⟩
    intro row hrow
    rw [hrows] at hrow
    obtain ⟨y, _, rfl⟩ := List.mem_map.1 hrow
    simp
  have hlabAt : ∀ c : Vertex, Lattice.Spec.labelAt rows lX lY c = some (lab c) := by
    intro c
    have h1 : 0 ≤ c.1 % (lX : Int) := Int.emod_nonneg _ (by omega)
    have h2 : c.1 % (lX : Int) < lX := Int.emod_lt_of_pos _ (by omega)
    have h3 : 0 ≤ c.2 % (lY : Int) := Int.emod_nonneg _ (by omega)
    have h4 : c.2 % (lY : Int) < lY := Int.emod_lt_of_pos _ (by omega)
    have hred : lab (c.1 % (lX : Int), c.2 % (lY : Int)) = lab c := by
      have hp := hT.periodic (c.1 % (lX : Int), c.2 % (lY : Int)) (c.1 / lX) (c.2 / lY)
      have e : ((c.1 % (lX : Int)) + (c.1 / lX) * lX, (c.2 % (lY : Int)) + (c.2 / lY) * lY) = c := by
        have e1 := Int.emod_add_mul_ediv c.1 (lX : Int)
        have e2 := Int.emod_add_mul_ediv c.2 (lY : Int)
        ext <;> simp only [] <;> linarith [mul_comm (lX : Int) (c.1 / lX), mul_comm (lY : Int) (c.2 / lY)]
      simp only [e] at hp
      exact ((hlabeq _ _).2 hp).symm
    unfold Lattice.Spec.labelAt
    rw [hrows]
    have h5 : (c.2 % (lY : Int)).toNat < lY := by omega
    have h6 : (c.1 % (lX : Int)).toNat < lX := by omega
    simp only [List.getElem?_map, List.getElem?_range h5, Option.map_some, Option.bind_some,
      List.getElem?_range h6, Int.toNat_of_nonneg h1, Int.toNat_of_nonneg h3, hred]
  have hS : Lattice.Spec.SameNeighbours rows lX lY := by
    intro c c' hcc
    simp only [hlabAt, Option.some.injEq, hlabeq] at hcc ⊢
    have n := hT.neighbours c c' hcc
    refine ⟨?_, ?_, ?_, ?_⟩
    · simpa [← sub_eq_add_neg] using n (-1, 0) (by simp)
    · simpa [← sub_eq_add_neg] using n (0, -1) (by simp)
    · simpa using n (1, 0) (by simp)
    · simpa using n (0, 1) (by simp)
  obtain ⟨r, hr⟩ := (C02_accepts_iff rows).2 ⟨lX, lY, hR, hS⟩
  have hcell : ∀ c ∈ keys, 0 ≤ c.1 ∧ c.1 < (lX : Int) ∧ 0 ≤ c.2 ∧ c.2 < (lY : Int) := by
    intro c hc
    obtain ⟨a, b, c1, d, _⟩ := hT.own c hc
    exact ⟨a, b, c1, d⟩
  obtain ⟨l2i, hl2i⟩ := label2index_some rows lX lY hR keys hcell []
  have hC : Lattice.Spec.Covers rows lX lY keys := by
    intro c
    obtain ⟨s, hs, hc⟩ := hT.total c
    refine ⟨s, hs, ?_⟩
    rw [hlabAt, hlabAt, Option.some.injEq, hlabeq, hc]
    exact (hT.own s hs).2.2.2.2
  obtain ⟨g, hg⟩ : ∃ g, mkGeometry keys none rows (some (lX : Int)) (some (lY : Int)) = .ok g := by
    obtain ⟨s0, hs0, _⟩ := hC (0, 0)
    cases hs : keys with
    | nil => rw [hs] at hs0; simp at hs0
    | cons a as =>
      rw [hs] at hl2i
      cases hro : rows with
      | nil => rw [hro] at hR; have := hR.1; simp at this; omega
      | cons r0 rest =>
        rw [hro] at hr hl2i
        exact ⟨⟨r0.length, (r0 :: rest).length, patternVertexToSite (r0 :: rest) r0.length
          (r0 :: rest).length l2i⟩, by simp only [mkGeometry, cellSize, hr, hl2i]⟩
  obtain ⟨⟨g1, g2⟩, g3, _⟩ := C03_pattern_tiling keys rows lX lY _ _ hR hw hC g hg
  refine ⟨g, hg, g1, g2, ?_⟩
  intro c
  obtain ⟨s, hs, hv, hl⟩ := g3 c
  rw [hv]
  rw [hlabAt, hlabAt, Option.some.injEq, hlabeq] at hl
  rw [← hl, (hT.own s hs).2.2.2.2]

/-- The tensors of one cell read back. -/
def ReadCell (gc : Bool) (e f : Key × Item) : Prop :=
  ∃ c d d', e = (.cell c, .sub d) ∧ f = (.cell c, .sub d') ∧ List.Forall₂ (ReadAs gc) d d'

theorem mapM_ok_of {α β : Type} (f : α → Except Err β) (l : List α) (g : α → β) (h : ∀ a ∈ l, f a = .ok (g a)) : l.mapM f = .ok (l.map g) := by
  induction l with
  | nil => rfl
  | cons a l ih =>
    rw [List.mapM_cons, h a (by simp), ih (fun b hb => h b (by simp [hb]))]
    rfl

/-- The cells of the tensors. -/
def cells (s : GState) : List Vertex := s.sites.map (·.1)

theorem built_cells {ip : List (Key × Item)} {out : List (Vertex × Ten)} (h : buildAll ip = .ok out) :
    ∀ e ∈ ip, ∃ c d, e = (.cell c, .sub d) ∧ c ∈ out.map (·.1) := by
  intro e he
  have hf := mapM_ok_forall₂ h
  obtain ⟨k, rfl⟩ := List.get_of_mem he
  obtain ⟨hl, hall⟩ := List.forall₂_iff_get.1 hf
  have hk : k.1 < out.length := by rw [← hl]; exact k.2
  have hb := hall k.1 k.2 hk
  generalize hg : ip.get k = e at *
  obtain ⟨ke, it⟩ := e
  cases ke with
  | name n => cases hb
  | cell c =>
    cases it with
    | ten t => cases hb
    | sub d =>
      obtain ⟨A, _, hb⟩ := bind_ok.1 hb
      have hb := Except.ok.inj hb
      exact ⟨c, d, rfl, List.mem_map.2 ⟨out.get ⟨k.1, hk⟩, List.get_mem _ _, by rw [← hb]⟩⟩

theorem built_keys {ip : List (Key × Item)} {out : List (Vertex × Ten)} (h : buildAll ip = .ok out) : ip.map (·.1) = out.map (fun f => Key.cell f.1) := by
  have hf := mapM_ok_forall₂ h
  clear h
  induction hf with
  | nil => rfl
  | @cons e f l l' hb _ ih =>
    obtain ⟨ke, it⟩ := e
    cases ke with
    | name n => cases hb
    | cell c =>
      cases it with
      | ten t => cases hb
      | sub d =>
        obtain ⟨A, _, hb⟩ := bind_ok.1 hb
        cases Except.ok.inj hb
        simp [ih]

theorem wrap_cells {ip : List (Key × Item)} {out : List (Vertex × Ten)} (h : ip.map (·.1) = out.map (fun f => Key.cell f.1)) : wrapSingle ip = ip := by
  unfold wrapSingle
  rw [if_neg]
  intro hf
  unfold fiveNames at hf
  rw [Bool.and_eq_true] at hf
  have h1 := hf.1
  have h2 := List.all_eq_true.1 hf.2 .Tu (by simp)
  rw [decide_eq_true_eq, h] at h2
  obtain ⟨f, _, hf'⟩ := List.mem_map.1 h2
  cases hf'

/-- Writing and reading the tensors of a generic state. -/
theorem body_roundtrip {F : NumFmt ℚ} (hF : F.Lawful) {C : CoordFmt} (hC : C.Lawful) {s : GState} (hs : GReach s) (gc : Bool)
    (h : ∀ c d, (Key.cell c, Item.sub d) ∈ s.ipess → ∀ e ∈ d, Floats e.2 ∧ Representable gc e.2) :
    ∃ body ip' out, s.ipess.mapM (writeCell F C) = .ok body ∧ body.mapM (readCell F C gc) = .ok ip' ∧ List.Forall₂ (ReadCell gc) s.ipess ip' ∧
      buildAll ip' = .ok out ∧ List.Forall₂ (ReadAs gc) s.sites out ∧ out.map (·.1) = cells s ∧ uniform out = true := by
  have hb := hs.built
  have hcells := built_cells hb
  -- writing
  have hbody : ∃ body, s.ipess.mapM (writeCell F C) = .ok body ∧
      ∃ ip', body.mapM (readCell F C gc) = .ok ip' ∧ List.Forall₂ (ReadCell gc) s.ipess ip' := by
    generalize s.ipess = l at hcells h
    clear hb
    induction l with
    | nil => exact ⟨[], rfl, [], rfl, .nil⟩
    | cons e l ih =>
      obtain ⟨body, hb, ip', hi, hf⟩ := ih (fun e he => hcells e (by simp [he])) (fun c d hm => h c d (by simp [hm]))
      obtain ⟨c, d, rfl, _⟩ := hcells e (by simp)
      obtain ⟨d', hd, hfd⟩ := readDict hF gc d (h c d (by simp))
      refine ⟨(C.enc c, d.map (fun f => (f.1, serializeLegacy F [] (toPairs f.2)))) :: body, ?_, (Key.cell c, Item.sub d') :: ip', ?_, .cons ⟨c, d, d', rfl, rfl, hfd⟩ hf⟩
      · rw [List.mapM_cons]
        exact bind_ok.2 ⟨_, rfl, bind_ok.2 ⟨body, hb, rfl⟩⟩
      · rw [List.mapM_cons]
        exact bind_ok.2 ⟨(Key.cell c, Item.sub d'), bind_ok.2 ⟨c, lift_ok.2 (hC c), bind_ok.2 ⟨d', hd, rfl⟩⟩, bind_ok.2 ⟨ip', hi, rfl⟩⟩
  obtain ⟨body, hbd, ip', hip, hfip⟩ := hbody
  -- reading
  have hsites : ∃ out, buildAll ip' = .ok out ∧ List.Forall₂ (ReadAs gc) s.sites out := by
    have hf := mapM_ok_forall₂ hb
    generalize s.ipess = l at hf hfip
    generalize s.sites = o at hf
    clear hip
    induction hf generalizing ip' with
    | nil => cases hfip; exact ⟨[], rfl, .nil⟩
    | @cons e f l o hb _ ih =>
      cases hfip with
      | @cons _ e' _ l' he ht =>
        obtain ⟨out, ho, hfo⟩ := ih l' ht
        obtain ⟨c, d, d', rfl, rfl, hd⟩ := he
        obtain ⟨A, hA, hb⟩ := bind_ok.1 hb
        cases Except.ok.inj hb
        obtain ⟨A', hA', hc, hS⟩ := buildSite_readAs hd hA
        refine ⟨(c, A') :: out, ?_, .cons ⟨rfl, hc, hS⟩ hfo⟩
        unfold buildAll at ho ⊢
        rw [List.mapM_cons]
        exact bind_ok.2 ⟨(c, A'), bind_ok.2 ⟨A', hA', rfl⟩, bind_ok.2 ⟨out, ho, rfl⟩⟩
  obtain ⟨out, hout, hfo⟩ := hsites
  have hok : out.map (·.1) = cells s := by
    unfold cells
    have : ∀ (a b : List (Vertex × Ten)), List.Forall₂ (ReadAs gc) a b → b.map (·.1) = a.map (·.1) := by
      intro a b h
      induction h with
      | nil => rfl
      | cons h _ ih => simp only [List.map_cons]; rw [ih, h.1]
    exact this _ _ hfo
  have huni : uniform out = true := by
    have : ∀ f ∈ out, f.2.cplx = gc := by
      have : ∀ (a b : List (Vertex × Ten)), List.Forall₂ (ReadAs gc) a b → ∀ f ∈ b, f.2.cplx = gc := by
        intro a b h
        induction h with
        | nil => simp
        | cons h _ ih =>
          intro f hf
          rcases List.mem_cons.1 hf with rfl | hf
          · exact h.2.1
          · exact ih f hf
      exact this _ _ hfo
    unfold uniform
    cases out with
    | nil => rfl
    | cons e es =>
      simp only [List.all_eq_true, beq_iff_eq]
      intro f hf
      rw [this f (by simp [hf]), this e (by simp)]
  exact ⟨body, ip', out, hbd, hip, hfip, hout, hfo, hok, huni⟩

/-- C91 (partial: tilings that repeat with their own cell, see `C91_tiling_violated`). A generic state that is written and read with a
sufficient dtype has the same cell, tiling, elementary tensors and site tensors. -/
theorem C91_generic_roundtrip_partial {F : NumFmt ℚ} (hF : F.Lawful) {C : CoordFmt} (hC : C.Lawful) {s : GState} (hs : GReach s) (gc : Bool)
    (hT : State.Spec.CellTiling s.lX s.lY (cells s) s.vts)
    (h : ∀ c d, (Key.cell c, Item.sub d) ∈ s.ipess → ∀ e ∈ d, Floats e.2 ∧ Representable gc e.2) :
    ∃ j s', writeG F C s = .ok j ∧ readG F C gc j none = .ok s' ∧ s'.lX = s.lX ∧ s'.lY = s.lY ∧ (∀ c, s'.vts c = s.vts c) ∧
      List.Forall₂ (ReadCell gc) s.ipess s'.ipess ∧ List.Forall₂ (ReadAs gc) s.sites s'.sites := by
  have hb := hs.built
  have hkeys := built_keys hb
  -- the site of a vertex
  have hv : ∀ c, ∃ v, s.vts c = some v ∧ v ∈ cells s := fun c => by
    obtain ⟨v, h1, h2⟩ := hT.total c
    exact ⟨v, h2, h1⟩
  choose site hsite hmem using hv
  have hinj : ∀ c c', C.enc c = C.enc c' → c = c' := fun c c' h => by
    have := hC c
    rw [h, hC c'] at this
    exact (Option.some.inj this).symm
  obtain ⟨body, ip', out, hbd, hip, hfip, hout, hfo, hok, huni⟩ := body_roundtrip hF hC hs gc h
  have hpat : (List.range s.lY.toNat).mapM (fun (y : Nat) => (List.range s.lX.toNat).mapM (fun (x : Nat) => labelOf C s ((x : Int), (y : Int)))) =
      .ok ((List.range s.lY.toNat).map (fun (y : Nat) => (List.range s.lX.toNat).map (fun (x : Nat) => C.enc (site ((x : Int), (y : Int)))))) := by
    refine mapM_ok_of _ _ _ (fun y _ => mapM_ok_of _ _ _ (fun x _ => ?_))
    refine bind_ok.2 ⟨_, lift_ok.2 (hsite _), if_pos ?_⟩
    rw [hkeys]
    obtain ⟨f, hf, e⟩ := List.mem_map.1 (hmem ((x : Int), (y : Int)))
    exact List.mem_map.2 ⟨f, hf, by rw [e]⟩
  obtain ⟨g, hg, g1, g2, g3⟩ := pattern_of_tiling hT C.enc hinj (fun c => C.enc (site c)) (fun c v hv => by
    rw [hsite c, Option.some.injEq] at hv
    rw [hv])
  rw [← hok] at hg
  refine ⟨⟨s.lX, s.lY, .multi body, some _⟩, ⟨ip', out, g.lX, g.lY, g.vertexToSite⟩, bind_ok.2 ⟨body, hbd, bind_ok.2 ⟨_, hpat, rfl⟩⟩, ?_, g1, g2, g3, hfip, hfo⟩
  refine bind_ok.2 ⟨ip', hip, ?_⟩
  simp only [Option.isNone_none, if_true, Option.getD_some]
  unfold mkG
  rw [wrap_cells (built_keys hout)]
  refine bind_ok.2 ⟨out, hout, ?_⟩
  rw [if_pos huni, hg]

/-- C91 (violated). The tiling passed to the reader is ignored: the state read is tiled with the default tiling of its cell. -/
theorem C91_tiling_ignored {F : NumFmt ℚ} {C : CoordFmt} {gc : Bool} {j : GFile} {f : Vertex → Option Vertex} {s : GState}
    (h : readG F C gc j (some f) = .ok s) : s.vts = Lattice.defaultVertexToSite s.lX s.lY := by
  obtain ⟨ip, _, h⟩ := bind_ok.1 h
  unfold mkG at h
  obtain ⟨sites, _, h⟩ := bind_ok.1 h
  split at h
  · split at h
    · cases h
    · rename_i g hg
      cases Except.ok.inj h
      simp only [Option.isNone_some, Bool.false_eq_true, if_false] at hg
      unfold Lattice.mkGeometry at hg
      split at hg
      · cases hg
      · simp only [] at hg
        cases Except.ok.inj hg
        rfl
  · cases h

/-- Two cells with the example tensors. -/
def exCells : List (Key × Item) := [(.cell (0, 0), .sub exFive), (.cell (1, 0), .sub exFive)]

theorem ex_two {vts : Vertex → Option Vertex} : ∃ s, mkG exCells (some vts) ([] : List (List Nat)) none none = .ok s ∧ s.ipess = exCells ∧ s.lX = 2 ∧ s.lY = 1 ∧
    s.vts = vts ∧ cells s = [(0, 0), (1, 0)] := by
  obtain ⟨A, hA⟩ := ex_built
  have hb : buildAll exCells = .ok [((0, 0), ⟨false, A⟩), ((1, 0), ⟨false, A⟩)] := by
    unfold buildAll exCells
    rw [List.mapM_cons, List.mapM_cons, List.mapM_nil]
    exact bind_ok.2 ⟨((0, 0), ⟨false, A⟩), bind_ok.2 ⟨_, hA, rfl⟩, bind_ok.2 ⟨[((1, 0), ⟨false, A⟩)],
      bind_ok.2 ⟨((1, 0), ⟨false, A⟩), bind_ok.2 ⟨_, hA, rfl⟩, rfl⟩, rfl⟩⟩
  refine ⟨⟨exCells, [((0, 0), ⟨false, A⟩), ((1, 0), ⟨false, A⟩)], 2, 1, vts⟩, ?_, rfl, rfl, rfl, rfl, rfl⟩
  unfold mkG
  rw [wrap_cells (built_keys hb)]
  exact bind_ok.2 ⟨_, hb, rfl⟩

theorem floats_of_nat {X : Ten} (h : ∀ i, InB X.t.shape i → ∃ n : ℕ, X.t.val i = n) : Floats X := by
  intro i hi
  obtain ⟨n, e⟩ := h i hi
  rw [e]
  exact ⟨⟨n, by simp⟩, ⟨0, by simp⟩, fun _ => by simp⟩

theorem exFive_floats : ∀ e ∈ exFive, Floats e.2 ∧ Representable false e.2 := by
  have hT : Floats ⟨false, exT⟩ := floats_of_nat (fun i _ => ⟨1, by simp [exT]⟩)
  have hB : Floats ⟨false, exB⟩ := floats_of_nat (fun i hi => by
    obtain ⟨a, b, c, rfl, _⟩ := inB_iff3.1 hi
    rcases a with _ | a
    · exact ⟨1, by simp [exB]⟩
    · exact ⟨_, rfl⟩)
  intro e he
  simp only [exFive, List.mem_cons, List.not_mem_nil, or_false] at he
  rcases he with rfl | rfl | rfl | rfl | rfl
  · exact ⟨hT, Or.inr fun i hi => (hT i hi).2.2 rfl⟩
  · exact ⟨hT, Or.inr fun i hi => (hT i hi).2.2 rfl⟩
  · exact ⟨hB, Or.inr fun i hi => (hB i hi).2.2 rfl⟩
  · exact ⟨hB, Or.inr fun i hi => (hB i hi).2.2 rfl⟩
  · exact ⟨hB, Or.inr fun i hi => (hB i hi).2.2 rfl⟩

/-- C91 (violated). A checkerboard state of two cells that is written, and read passing its own tiling, comes back with another
tiling: the tensor at (0,1) has changed. -/
theorem C91_tiling_violated {F : NumFmt ℚ} (hF : F.Lawful) {C : CoordFmt} (hC : C.Lawful) :
    ∃ s j s', GReach s ∧ writeG F C s = .ok j ∧ readG F C false j (some s.vts) = .ok s' ∧ s.vts (0, 1) = some (1, 0) ∧ s'.vts (0, 1) = some (0, 0) := by
  obtain ⟨s, hs, h1, h2, h3, h4, h5⟩ := ex_two (vts := fun c => some ((c.1 + c.2) % 2, 0))
  obtain ⟨body, ip', out, hbd, hip, hfip, hout, hfo, hok, huni⟩ := body_roundtrip hF hC (.mk hs) false (by
    rw [h1]
    intro c d hm
    simp only [exCells, List.mem_cons, Prod.mk.injEq, Key.cell.injEq, Item.sub.injEq, List.not_mem_nil, or_false] at hm
    rcases hm with ⟨_, rfl⟩ | ⟨_, rfl⟩ <;> exact exFive_floats)
  have hpat : (List.range s.lY.toNat).mapM (fun (y : Nat) => (List.range s.lX.toNat).mapM (fun (x : Nat) => labelOf C s ((x : Int), (y : Int)))) =
      .ok [[C.enc (0, 0), C.enc (1, 0)]] := by
    rw [h2, h3]
    have e0 : labelOf C s ((0 : Nat), (0 : Nat)) = .ok (C.enc (0, 0)) := by
      unfold labelOf
      rw [h4, h1]
      exact bind_ok.2 ⟨(0, 0), rfl, if_pos (by simp [exCells])⟩
    have e1 : labelOf C s ((1 : Nat), (0 : Nat)) = .ok (C.enc (1, 0)) := by
      unfold labelOf
      rw [h4, h1]
      exact bind_ok.2 ⟨(1, 0), rfl, if_pos (by simp [exCells])⟩
    show List.mapM _ [0] = _
    rw [List.mapM_cons]
    refine bind_ok.2 ⟨[C.enc (0, 0), C.enc (1, 0)], ?_, rfl⟩
    show List.mapM _ [0, 1] = _
    rw [List.mapM_cons, List.mapM_cons]
    exact bind_ok.2 ⟨_, e0, bind_ok.2 ⟨_, bind_ok.2 ⟨_, e1, rfl⟩, rfl⟩⟩
  have hr : readG F C false ⟨s.lX, s.lY, .multi body, some [[C.enc (0, 0), C.enc (1, 0)]]⟩ (some s.vts) =
      .ok ⟨ip', out, 2, 1, Lattice.defaultVertexToSite 2 1⟩ := by
    refine bind_ok.2 ⟨ip', hip, ?_⟩
    unfold mkG
    rw [wrap_cells (built_keys hout)]
    refine bind_ok.2 ⟨out, hout, ?_⟩
    rw [if_pos huni, hok, h5, h2, h3]
    rfl
  refine ⟨s, _, _, .mk hs, bind_ok.2 ⟨body, hbd, bind_ok.2 ⟨_, hpat, rfl⟩⟩, hr, by rw [h4]; rfl, rfl⟩

/-- C91 (violated). Files of the old format (`elem_tensors`) are never read into a state with tensors. -/
theorem C91_old_format_violated {F : NumFmt ℚ} {C : CoordFmt} {gc : Bool} {j : GFile} {ts : List JTensor} (hj : j.body = .elem ts)
    {vts : Option (Vertex → Option Vertex)} {s : GState} (h : readG F C gc j vts = .ok s) : s.ipess = [] ∧ s.sites = [] := by
  obtain ⟨ip, h1, h⟩ := bind_ok.1 h
  rw [hj] at h1
  obtain ⟨xs, _, h1⟩ := bind_ok.1 h1
  split at h1
  · cases Except.ok.inj h1
    unfold mkG at h
    obtain ⟨sites, hb, h⟩ := bind_ok.1 h
    split at h
    · split at h
      · cases h
      · cases Except.ok.inj h
        cases Except.ok.inj hb
        exact ⟨rfl, rfl⟩
    · cases h
  · cases h1

/-- C91 (violated). A complex state read while the global dtype is real is read without complaint, but its tensors have lost their
imaginary parts. -/
theorem C91_dtype_violated {F : NumFmt ℚ} (hF : F.Lawful) :
    ∃ s j s' X Y, PReach s ∧ writeP F s false = .ok j ∧ readP F false j = .ok s' ∧ dictFind s.elem .Tu = some X ∧ dictFind s'.elem .Tu = some Y ∧
      X.t.val [0, 0, 0] ≠ Y.t.val [0, 0, 0] := by
  obtain ⟨A0, hA0⟩ := ex_built
  let T' : Tensor ℂ := ⟨exT.shape, fun i => (1 + Complex.I) * exT.val i⟩
  have hne : (1 + Complex.I) ≠ 0 := by
    intro h
    have := congrArg Complex.im h
    simp at this
  obtain ⟨A1, hA1, _⟩ := C85_scale hA0 exFive_five
    (d' := [(.Tu, ⟨true, T'⟩), (.Td, ⟨true, T'⟩), (.Bc, ⟨true, exB⟩), (.Ba, ⟨true, exB⟩), (.Bb, ⟨true, exB⟩)]) (c' := true) ⟨rfl, rfl, rfl, rfl, rfl⟩
    (z1 := 1 + Complex.I) (z2 := 1) (z3 := 1 + Complex.I) (z4 := 1) (z5 := 1)
    ⟨rfl, fun i _ => rfl⟩ (Multiple.of_same ⟨rfl, fun _ _ => rfl⟩) ⟨rfl, fun i _ => rfl⟩ (Multiple.of_same ⟨rfl, fun _ _ => rfl⟩)
    (Multiple.of_same ⟨rfl, fun _ _ => rfl⟩) (by simpa using hne)
  have hTf : Floats ⟨true, T'⟩ := by
    intro i _
    refine ⟨⟨1, by simp [T', exT]⟩, ⟨1, by simp [T', exT]⟩, fun h => by cases h⟩
  have hBf : Floats ⟨true, exB⟩ := by
    intro i hi
    obtain ⟨h1, h2, _⟩ := (exFive_floats (.Bc, ⟨false, exB⟩) (by simp [exFive])).1 i hi
    exact ⟨h1, h2, fun h => by cases h⟩
  have hBr : Representable false ⟨true, exB⟩ := Or.inr fun i hi =>
    ((exFive_floats (.Bc, ⟨false, exB⟩) (by simp [exFive])).1 i hi).2.2 rfl
  obtain ⟨s, hs, _⟩ := mkP_ok (es := [(.Tu, ⟨true, T'⟩), (.Bc, ⟨true, exB⟩)]) (ud := true) (b := true) (pgs := []) ⟨rfl, rfl, rfl, rfl, rfl⟩ hA1
  obtain ⟨_, h1, h2, h3, _, _, _, es2, h5, h6⟩ := mkP_inv hs
  rw [if_neg (by simp)] at h6
  have hsel : selectP true true [(.Tu, ⟨true, T'⟩), (.Bc, ⟨true, exB⟩)] = .ok [(.Tu, ⟨true, T'⟩), (.Bc, ⟨true, exB⟩)] := rfl
  have he : s.elem = [(.Tu, ⟨true, T'⟩), (.Bc, ⟨true, exB⟩)] := by
    rw [h6]
    exact Except.ok.inj (h5.symm.trans hsel)
  obtain ⟨⟨cT, YT⟩, r1, r2, r3, r4, _⟩ := readTen_ok hF hTf false
  obtain ⟨⟨cB, YB⟩, q1, q2, _, _, q5⟩ := readTen_ok hF hBf false
  simp only [] at r2 q2
  subst r2 q2
  have hsT : exT.Same YT := ⟨r3.symm, fun i hi => by
    rw [r4 i hi]
    simp [T', exT]⟩
  obtain ⟨A2, hA2, _⟩ := buildSite_congr hA0 exFive_five
    (d' := [(.Tu, ⟨false, YT⟩), (.Td, ⟨false, YT⟩), (.Bc, ⟨false, YB⟩), (.Ba, ⟨false, YB⟩), (.Bb, ⟨false, YB⟩)]) (c' := false) ⟨rfl, rfl, rfl, rfl, rfl⟩
    hsT (q5 hBr) hsT (q5 hBr) (q5 hBr)
  obtain ⟨s', hs', _⟩ := mkP_ok (es := [(.Tu, ⟨false, YT⟩), (.Bc, ⟨false, YB⟩)]) (ud := true) (b := true) (pgs := []) ⟨rfl, rfl, rfl, rfl, rfl⟩ hA2
  obtain ⟨_, _, _, _, _, _, _, es3, k5, k6⟩ := mkP_inv hs'
  rw [if_neg (by simp)] at k6
  have hsel' : selectP true true [(.Tu, ⟨false, YT⟩), (.Bc, ⟨false, YB⟩)] = .ok [(.Tu, ⟨false, YT⟩), (.Bc, ⟨false, YB⟩)] := rfl
  refine ⟨s, _, s', ⟨true, T'⟩, ⟨false, YT⟩, .mk hs, rfl, ?_, by rw [he]; rfl, by rw [k6, ← Except.ok.inj (hsel'.symm.trans k5)]; rfl, ?_⟩
  · unfold readP
    simp only [he, h1, h2, h3]
    refine bind_ok.2 ⟨[(.Tu, ⟨false, YT⟩), (.Bc, ⟨false, YB⟩)], ?_, hs'⟩
    rw [List.map_cons, List.map_cons, List.map_nil, List.mapM_cons, List.mapM_cons, List.mapM_nil]
    exact bind_ok.2 ⟨_, bind_ok.2 ⟨_, r1, rfl⟩, bind_ok.2 ⟨_, bind_ok.2 ⟨_, bind_ok.2 ⟨_, q1, rfl⟩, rfl⟩, rfl⟩⟩
  · have e : YT.val [0, 0, 0] = 1 := by
      rw [← hsT.2 [0, 0, 0] (inB_iff3.2 ⟨0, 0, 0, rfl, by decide, by decide, by decide⟩)]
      rfl
    show T'.val [0, 0, 0] ≠ YT.val [0, 0, 0]
    rw [e]
    simp [T', exT]

/-! ## Number formats exist -/

/-- A text format of rational numbers. -/
def ratFmt : NumFmt ℚ where
  encN n := 'n' :: List.replicate n '1'
  decN s := match s with | 'n' :: t => some t.length | _ => none
  encR x := 'r' :: List.replicate (Encodable.encode x) '1'
  decR s := match s with | 'r' :: t => Encodable.decode t.length | _ => none
  encC z := 'c' :: List.replicate (Encodable.encode z) '1'
  decC s := match s with | 'c' :: t => Encodable.decode t.length | _ => none

theorem ratFmt_lawful : ratFmt.Lawful := by
  constructor
  · intro n; simp [ratFmt]
  · intro x; simp [ratFmt]
  · intro z
    show Encodable.decode (List.replicate (Encodable.encode z) '1').length = some z
    rw [List.length_replicate, Encodable.encodek]
  · intro n
    refine ⟨by simp [ratFmt], ?_⟩
    intro c hc
    simp only [ratFmt, List.mem_cons, List.mem_replicate] at hc
    rcases hc with rfl | ⟨_, rfl⟩ <;> decide
  · intro n
    refine ⟨by simp [ratFmt], ?_⟩
    intro c hc
    simp only [ratFmt, List.mem_cons, List.mem_replicate] at hc
    rcases hc with rfl | ⟨_, rfl⟩ <;> decide

/-- A text format of coordinates. -/
def coordFmt : CoordFmt where
  enc c := List.replicate (Encodable.encode c) '1'
  dec s := Encodable.decode s.length

theorem coordFmt_lawful : coordFmt.Lawful := by
  intro c
  show Encodable.decode (List.replicate (Encodable.encode c) '1').length = some c
  rw [List.length_replicate, Encodable.encodek]

/-- Non-vacuity of `C91_generic_roundtrip_partial`: two cells side by side. -/
example : ∃ s, GReach s ∧ State.Spec.CellTiling s.lX s.lY (cells s) s.vts ∧
    ∀ c d, (Key.cell c, Item.sub d) ∈ s.ipess → ∀ e ∈ d, Floats e.2 ∧ Representable false e.2 := by
  obtain ⟨s, hs, h1, h2, h3, h4, h5⟩ := ex_two (vts := fun c => some (c.1 % 2, 0))
  refine ⟨s, .mk hs, ?_, ?_⟩
  · rw [h2, h3, h4, h5]
    refine ⟨by decide, by decide, ?_, ?_, ?_, ?_⟩
    · intro c
      refine ⟨_, ?_, rfl⟩
      have : c.1 % 2 = 0 ∨ c.1 % 2 = 1 := by omega
      rcases this with e | e <;> simp [e]
    · intro c hc
      simp only [List.mem_cons, List.not_mem_nil, or_false] at hc
      rcases hc with rfl | rfl <;> decide
    · intro c k l
      simp
    · rintro c c' hcc d -
      simp only [Option.some.injEq, Prod.mk.injEq, and_true] at hcc ⊢
      omega
  · rw [h1]
    intro c d hm
    simp only [exCells, List.mem_cons, Prod.mk.injEq, Key.cell.injEq, Item.sub.injEq, List.not_mem_nil, or_false] at hm
    rcases hm with ⟨_, rfl⟩ | ⟨_, rfl⟩ <;> exact exFive_floats

end Verif.Kagome
