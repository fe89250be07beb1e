import Verif.State.TrglPgHistory
/-
Property C133: files of symmetric states on the triangular lattice.
-/
namespace Verif.TrglPg
open Verif.State
open Verif.Tensor
open Verif.Kagome (Err Ten Irrep lift lift_ok bind_ok normMax maxAbs toPairs ofPairs Floats ratOf_cast toPairs_real floats_of_nat ratFmt ratFmt_lawful)
open Spec

/-- One tensor written in either format and read. -/
theorem readOne_ok {F : NumFmt ℚ} (hF : F.Lawful) (fm : Format) {X : Ten} (h : Floats X) (gc : Bool) :
    ∃ Y, readOne F gc (serialize F fm [] (toPairs X)) = .ok Y ∧ Y.cplx = (X.cplx || gc) ∧ X.t.Same Y.t := by
  obtain ⟨Z, hZ, hc, hs⟩ := read_serialized F hF fm [] (toPairs X) (toPairs_real h) _ rfl
  refine ⟨⟨(ofPairs Z).cplx || gc, (ofPairs Z).t⟩, bind_ok.2 ⟨Z, lift_ok.2 hZ, rfl⟩, ?_, hs.1, ?_⟩
  · show (Z.cplx || gc) = _
    rw [hc]; rfl
  · intro i hi
    have e := hs.2 i hi
    show _ = Complex.mk ((Z.t.val i).1 : ℝ) ((Z.t.val i).2 : ℝ)
    rw [← e]
    obtain ⟨h1, h2, _⟩ := h i hi
    exact (Complex.ext (ratOf_cast h1) (ratOf_cast h2)).symm

/-- Equal elementary tensors give equal site tensors. -/
theorem build_same {k : Kind} {el el' : Elem} {A : Ten} (hA : build k el = .ok A) (ha : el.aux.t.Same el'.aux.t) (hp : el.phys.t.Same el'.phys.t)
    (hc : el'.phys.cplx = el'.aux.cplx) : ∃ A', build k el' = .ok A' ∧ A'.cplx = el'.aux.cplx ∧ A.t.Same A'.t := by
  have hs := build_site hA
  cases k
  · obtain ⟨_, _, nl, nd, nx, nu, nr, np, e1, e2, e3, hv⟩ := hs
    have f1 : el'.aux.t.shape = [nl, nd, nx] := by rw [← ha.1, e1]
    have f2 : el'.phys.t.shape = [nx, nu, nr, np] := by rw [← hp.1, e2]
    obtain ⟨A', hA'⟩ := build_tt hc f1 f2
    obtain ⟨q1, _, nl', nd', nx', nu', nr', np', e1', e2', e3', hv'⟩ := build_site hA'
    rw [f1] at e1'
    rw [f2] at e2'
    simp only [List.cons.injEq, and_true] at e1' e2'
    obtain ⟨rfl, rfl, rfl⟩ := e1'
    obtain ⟨_, rfl, rfl, rfl⟩ := e2'
    refine ⟨A', hA', q1, by rw [e3, e3'], fun i hi => ?_⟩
    rw [e3] at hi
    match i, hi with
    | [p, u, l, d, r], .cons h1 (.cons h2 (.cons h3 (.cons h4 (.cons h5 _)))) =>
      rw [hv p u l d r h1 h2 h3 h4 h5, hv' p u l d r h1 h2 h3 h4 h5]
      unfold siteTT
      refine Finset.sum_congr rfl fun x hx => ?_
      rw [Finset.mem_range] at hx
      rw [ha.2 [l, d, x] (by rw [e1]; exact .cons h3 (.cons h4 (.cons hx .nil))), hp.2 [x, u, r, p] (by rw [e2]; exact .cons hx (.cons h2 (.cons h5 (.cons h1 .nil))))]
  · obtain ⟨_, _, nl, nd, nx, np, e1, e2, e3, hv⟩ := hs
    have f1 : el'.aux.t.shape = [nl, nd, nx] := by rw [← ha.1, e1]
    have f2 : el'.phys.t.shape = [nx, nl, np] := by rw [← hp.1, e2]
    obtain ⟨A', hA'⟩ := build_tbt hc f1 f2
    obtain ⟨q1, _, nl', nd', nx', np', e1', e2', e3', hv'⟩ := build_site hA'
    rw [f1] at e1'
    rw [f2] at e2'
    simp only [List.cons.injEq, and_true] at e1' e2'
    obtain ⟨rfl, rfl, rfl⟩ := e1'
    obtain ⟨_, _, rfl⟩ := e2'
    refine ⟨A', hA', q1, by rw [e3, e3'], fun i hi => ?_⟩
    rw [e3] at hi
    match i, hi with
    | [p, u, l, d, r], .cons h1 (.cons h2 (.cons h3 (.cons h4 (.cons h5 _)))) =>
      rw [hv p u l d r h1 h2 h3 h4 h5, hv' p u l d r h1 h2 h3 h4 h5]
      unfold siteTBT
      refine Finset.sum_congr rfl fun x hx => Finset.sum_congr rfl fun y hy => ?_
      rw [Finset.mem_range] at hx hy
      rw [ha.2 [l, d, x] (by rw [e1]; exact .cons h3 (.cons h4 (.cons hx .nil))), hp.2 [x, y, p] (by rw [e2]; exact .cons hx (.cons hy (.cons h1 .nil))),
        ha.2 [y, u, r] (by rw [e1]; exact .cons hy (.cons h2 (.cons h5 .nil)))]

theorem mk_plain {k : Kind} {el : Elem} {pgs : Pgs} {A : Ten} (hk : keysOk pgs = true) (hA : build k el = .ok A) :
    mk k el pgs false = .ok ⟨k, pgs, el, A⟩ := by
  unfold mk
  rw [if_pos hk]
  exact bind_ok.2 ⟨_, rfl, bind_ok.2 ⟨A, hA, rfl⟩⟩

theorem read_ok {F : NumFmt ℚ} {gc : Bool} {k : Kind} {j : TFile} {pgs : Pgs} {a p A : Ten} (h0 : readPgs k j.pgs = .ok pgs)
    (h1 : readOne F gc j.aux = .ok a) (h2 : readOne F gc j.phys = .ok p) (hk : keysOk pgs = true) (hA : build k ⟨a, p⟩ = .ok A) :
    readFile F gc k j = .ok ⟨k, pgs, ⟨a, p⟩, A⟩ := by
  unfold readFile
  refine bind_ok.2 ⟨pgs, h0, ?_⟩
  exact bind_ok.2 ⟨a, h1, bind_ok.2 ⟨p, h2, mk_plain hk hA⟩⟩

/-- C133. A state written to a file in either format and read has the same class, irreps, elementary tensors and site tensor; real tensors
are complex afterwards if the default dtype is. -/
theorem C133_roundtrip {F : NumFmt ℚ} (hF : F.Lawful) (fm : Format) {s : TState} (hs : Hist s true) (ha : Floats s.el.aux) (hp : Floats s.el.phys)
    (gc : Bool) : ∃ j s', writeFile F fm s.kind s false false = .ok j ∧ readFile F gc s.kind j = .ok s' ∧ s'.kind = s.kind ∧ s'.pgs = s.pgs ∧
      s.el.aux.t.Same s'.el.aux.t ∧ s.el.phys.t.Same s'.el.phys.t ∧ s.site.t.Same s'.site.t ∧ s'.site.cplx = (s.site.cplx || gc) := by
  obtain ⟨_, hk, hb⟩ := hs.inv
  have hb := hb rfl
  have hsite := build_site hb
  obtain ⟨Y, hY, cY, sY⟩ := readOne_ok hF fm ha gc
  obtain ⟨P, hP, cP, sP⟩ := readOne_ok hF fm hp gc
  have hc : P.cplx = Y.cplx := by rw [cY, cP, ← hsite.1, ← hsite.2.1]
  obtain ⟨A', hA', cA, sA⟩ := build_same (el' := ⟨Y, P⟩) hb sY sP hc
  refine ⟨⟨some s.pgs, serialize F fm [] (toPairs s.el.aux), serialize F fm [] (toPairs s.el.phys)⟩, ⟨s.kind, s.pgs, ⟨Y, P⟩, A'⟩, ?_, ?_, rfl, rfl, sY, sP, sA, ?_⟩
  · cases s.kind <;> rfl
  · have h0 : readPgs s.kind (some s.pgs) = .ok s.pgs := by cases s.kind <;> rfl
    exact read_ok (j := ⟨some s.pgs, serialize F fm [] (toPairs s.el.aux), serialize F fm [] (toPairs s.el.phys)⟩) h0 hY hP hk hA'
  · show A'.cplx = _
    rw [cA, hsite.1]; exact cY

/-- C133. With `pg_symmetrize` the writer of the first class writes the symmetrized state. -/
theorem C133_write_symmetrized (F : NumFmt ℚ) (fm : Format) (s : TState) (norm : Bool) :
    writeFile F fm .ttphys s norm true = (symmetrize s none).bind (fun t => writeFile F fm .ttphys t norm false) := by
  show (symmetrize s none).bind _ = _
  cases h : symmetrize s none with
  | error e => rfl
  | ok t =>
    obtain ⟨_, _, g, _⟩ := symmetrize_inv h
    have g : t.pgs = s.pgs := g
    show (ifNorm norm t.el.aux).bind _ = (ifNorm norm t.el.aux).bind _
    rw [g]

/-- C133. With `normalize` the normalized state is written. -/
theorem C133_write_normalized (F : NumFmt ℚ) (fm : Format) {s : TState} (hs : Hist s true) :
    writeFile F fm s.kind s true false = (normalize s).bind (fun t => writeFile F fm t.kind t false false) := by
  have hb := hs.inv.2.2 rfl
  have hw : writeFile F fm s.kind s true false = (normMax s.el.aux.t).bind fun a => (normMax s.el.phys.t).bind fun p =>
      .ok ⟨some s.pgs, serialize F fm [] (toPairs ⟨s.el.aux.cplx, a⟩), serialize F fm [] (toPairs ⟨s.el.phys.cplx, p⟩)⟩ := by
    unfold writeFile
    show (Except.ok s).bind _ = _
    cases s.kind <;>
    · show ((normMax s.el.aux.t).bind _).bind _ = _
      cases h1 : normMax s.el.aux.t with
      | error e => rfl
      | ok a =>
        show ((normMax s.el.phys.t).bind _).bind _ = (normMax s.el.phys.t).bind _
        cases h2 : normMax s.el.phys.t with
        | error e => rfl
        | ok p => rfl
  rw [hw]
  unfold normalize
  show _ = ((normMax s.el.aux.t).bind _).bind _
  cases h1 : normMax s.el.aux.t with
  | error e => rfl
  | ok a =>
    show (normMax s.el.phys.t).bind _ = ((normMax s.el.phys.t).bind _).bind _
    cases h2 : normMax s.el.phys.t with
    | error e => rfl
    | ok p =>
      obtain ⟨_, ea⟩ := normMax_inv h1
      obtain ⟨_, ep⟩ := normMax_inv h2
      have hsite := build_site hb
      have hA : ∃ A, build s.kind ⟨⟨s.el.aux.cplx, a⟩, ⟨s.el.phys.cplx, p⟩⟩ = .ok A := by
        have hc : s.el.phys.cplx = s.el.aux.cplx := by rw [← hsite.1, ← hsite.2.1]
        cases hk : s.kind <;> rw [hk] at hsite
        · obtain ⟨_, _, nl, nd, nx, nu, nr, np, e1, e2, _⟩ := hsite
          exact build_tt hc (by show a.shape = _; rw [ea]; exact e1) (by show p.shape = _; rw [ep]; exact e2)
        · obtain ⟨_, _, nl, nd, nx, np, e1, e2, _⟩ := hsite
          exact build_tbt hc (by show a.shape = _; rw [ea]; exact e1) (by show p.shape = _; rw [ep]; exact e2)
      obtain ⟨A, hA⟩ := hA
      show Except.ok _ = ((build s.kind ⟨⟨s.el.aux.cplx, a⟩, ⟨s.el.phys.cplx, p⟩⟩).bind _).bind _
      rw [hA]
      show _ = writeFile F fm s.kind _ false false
      cases s.kind <;> rfl

/-- C133. A file read by the second class has irreps. -/
theorem C133_read_tbt {F : NumFmt ℚ} {gc : Bool} {j : TFile} (h : j.pgs = none) : readFile F gc .tbt j = .error .raise := by
  unfold readFile
  rw [h]
  rfl

/-- C133 (violated). `write_to_file` of the second class writes nothing: it always raises. -/
theorem C133_write_method_violated (F : NumFmt ℚ) (fm : Format) {s : TState} (hk : s.kind = .tbt) (norm sy : Bool) :
    writeMethod F fm s norm sy = .error .raise := by
  unfold writeMethod
  rw [hk]

/-- C133. `write_to_file` of the first class is its writer. -/
theorem C133_write_method (F : NumFmt ℚ) (fm : Format) {s : TState} (hk : s.kind = .ttphys) (norm sy : Bool) :
    writeMethod F fm s norm sy = writeFile F fm s.kind s norm sy := by
  unfold writeMethod
  rw [hk]

theorem write_tbt {s t : TState} (h : symmetrize s none = .ok t) (F : NumFmt ℚ) (fm : Format) (norm : Bool) :
    writeFile F fm .tbt s norm true = writeFile F fm .tbt s norm false := by
  show (symmetrize s none).bind _ = _
  rw [h]
  rfl

theorem symmetrize_ok {s : TState} {out : Elem} {B : Ten} (h : symmAll s.kind s.pgs s.el = .ok out) (hk : keysOk s.pgs = true)
    (hB : build s.kind out = .ok B) : symmetrize s none = .ok ⟨s.kind, s.pgs, out, B⟩ := bind_ok.2 ⟨out, h, mk_plain hk hB⟩

/-- A bond tensor in no irrep. -/
noncomputable def exSkew : Tensor ℂ := ⟨[2, 2, 1], fun i => match i with | [a, b, _] => ((2 * a + b : ℕ) : ℂ) | _ => 0⟩

/-- C133 (violated). With `pg_symmetrize` the writer of the second class writes the state as it is: what is read does not belong to the
irreps it declares. -/
theorem C133_write_symmetrized_violated {F : NumFmt ℚ} (hF : F.Lawful) (fm : Format) : ∃ s j s', Hist s true ∧ s.kind = .tbt ∧
    writeFile F fm .tbt s false true = .ok j ∧ readFile F false .tbt j = .ok s' ∧ s'.pgs = s.pgs ∧ ¬ Symmetric s'.kind s'.pgs s'.el := by
  obtain ⟨A, hA⟩ := build_tbt (el := ⟨⟨false, exAux⟩, ⟨false, exSkew⟩⟩) rfl (nl := 2) (nd := 2) (nx := 2) (np := 1) rfl rfl
  have hm := mk_plain (pgs := [(.phys, some .A)]) (by decide) hA
  have hs : Hist ⟨.tbt, [(.phys, some .A)], ⟨⟨false, exAux⟩, ⟨false, exSkew⟩⟩, A⟩ true := .new (by decide) hm
  have fa : Floats ⟨false, exAux⟩ := floats_of_nat (fun i hi => by
    match i, hi with
    | [a, b, c], _ => exact ⟨_, rfl⟩)
  have fp : Floats ⟨false, exSkew⟩ := floats_of_nat (fun i hi => by
    match i, hi with
    | [a, b, c], _ => exact ⟨_, rfl⟩)
  obtain ⟨j, s', hj, hr, k, pg, sa, sp, _⟩ := C133_roundtrip hF fm hs fa fp false
  have hj : writeFile F fm .tbt ⟨.tbt, [(.phys, some .A)], ⟨⟨false, exAux⟩, ⟨false, exSkew⟩⟩, A⟩ false false = .ok j := hj
  have hsym : ∃ t, symmetrize ⟨.tbt, [(.phys, some .A)], ⟨⟨false, exAux⟩, ⟨false, exSkew⟩⟩, A⟩ none = .ok t := by
    obtain ⟨out, ho⟩ := (C131_defined (k := .tbt) (pgs := [(.phys, some .A)]) (by decide) ⟨⟨false, exAux⟩, ⟨false, exSkew⟩⟩).2
      ⟨fun p hp => by simp [dictFind] at hp, fun p hp => by simp [dictFind] at hp; subst hp; exact ⟨Or.inl rfl, 2, 1, rfl⟩⟩
    obtain ⟨_, c1, c2, s1, s2, _⟩ := C131_projection (by decide) ho
    have c1 : out.aux.cplx = false := c1
    have c2 : out.phys.cplx = false := c2
    obtain ⟨B, hB⟩ := build_tbt (el := out) (by rw [c1, c2]) (nl := 2) (nd := 2) (nx := 2) (np := 1) s1 s2
    exact ⟨_, symmetrize_ok ho (by rfl) hB⟩
  obtain ⟨t, ht⟩ := hsym
  refine ⟨_, j, s', hs, rfl, ?_, hr, pg, ?_⟩
  · rw [← hj]
    exact write_tbt ht F fm false
  · intro hS
    have hS := hS.2 .A (by rw [pg]; rfl)
    rw [k] at hS
    obtain ⟨_, D, q, f1, f2⟩ := hS
    have e : [2, 2, 1] = [D, D, q] := by rw [← f1, ← sp.1]; rfl
    simp only [List.cons.injEq, and_true] at e
    obtain ⟨rfl, _, rfl⟩ := e
    have := f2 0 1 0 (by simp) (by simp) (by simp)
    rw [← sp.2 [1, 0, 0] (show InB [2, 2, 1] _ by decide), ← sp.2 [0, 1, 0] (show InB [2, 2, 1] _ by decide)] at this
    simp [exSkew, irrepSign] at this

/-- Non-vacuity of C133_roundtrip. -/
example : ∃ s, Hist s true ∧ s.kind = .ttphys ∧ Floats s.el.aux ∧ Floats s.el.phys ∧ ratFmt.Lawful := by
  obtain ⟨s, h, hk, he, hp⟩ := ex_state
  refine ⟨s, .new (by decide) h, hk, ?_, ?_, ratFmt_lawful⟩
  · rw [he]
    exact floats_of_nat (fun i hi => by match i, hi with | [a, b, c], _ => exact ⟨_, rfl⟩)
  · rw [he]
    exact floats_of_nat (fun i hi => by match i, hi with | [a, b, c, d], _ => exact ⟨_, rfl⟩)

end Verif.TrglPg
