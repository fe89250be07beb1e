import Verif.State.KagomeIO
/-
Property C92: files of Kagome states whose tensors are linear combinations.
-/
namespace Verif.Kagome
open Verif.State
open Verif.Tensor
open Verif.Lattice (Vertex)
open Spec

/-- Equal tensors of equal number type. -/
def SameT (X Y : Ten) : Prop := Y.cplx = X.cplx ∧ X.t.Same Y.t

/-! ### One tensor in the sparse format -/

theorem readBasisEntry_text (F : NumFmt ℚ) (hF : F.Lawful) (X : CTensor ℚ) (hX : RealOk X) (val : List Nat → ℚ × ℚ) (ei : List Nat)
    (hei : InB X.t.shape ei) : readBasisEntry F X.cplx X.t.shape val (entryText F X ei) = some (setAt val ei (X.t.val ei)) := by
  have hlen : ei.length = X.t.shape.length := hei.length
  have htok : ∀ w ∈ ei.map F.encN, IsToken w := by
    intro w hw
    obtain ⟨n, _, rfl⟩ := List.mem_map.1 hw
    exact hF.tokN n
  cases hc : X.cplx with
  | true =>
    have hs : split (entryText F X ei) = ei.map F.encN ++ [F.encR (X.t.val ei).1, F.encR (X.t.val ei).2] := by
      simp only [entryText, hc, if_true]
      rw [List.append_assoc, List.cons_append, split_join_sp _ _ htok, split_token_sp _ _ (hF.tokR _), split_token _ (hF.tokR _)]
    simp only [readBasisEntry, hs]
    have e1 : List.take X.t.shape.length (ei.map F.encN ++ [F.encR (X.t.val ei).1, F.encR (X.t.val ei).2]) = ei.map F.encN := by
      rw [← hlen]; simp [List.take_append]
    have e2 : (ei.map F.encN ++ [F.encR (X.t.val ei).1, F.encR (X.t.val ei).2])[X.t.shape.length]? = some (F.encR (X.t.val ei).1) := by
      rw [← hlen]; simp [List.getElem?_append]
    have e3 : (ei.map F.encN ++ [F.encR (X.t.val ei).1, F.encR (X.t.val ei).2])[X.t.shape.length + 1]? = some (F.encR (X.t.val ei).2) := by
      rw [← hlen]; simp [List.getElem?_append]
    rw [e1, e2, e3, mapM_dec_enc F hF]
    simp [hei, hF.decR_encR]
  | false =>
    have hs : split (entryText F X ei) = ei.map F.encN ++ [F.encR (X.t.val ei).1] := by
      simp only [entryText, hc, Bool.false_eq_true, if_false]
      rw [split_join_sp _ _ htok, split_token _ (hF.tokR _)]
    simp only [readBasisEntry, hs]
    have e1 : List.take X.t.shape.length (ei.map F.encN ++ [F.encR (X.t.val ei).1]) = ei.map F.encN := by
      rw [← hlen]; simp [List.take_append]
    have e2 : (ei.map F.encN ++ [F.encR (X.t.val ei).1])[X.t.shape.length]? = some (F.encR (X.t.val ei).1) := by
      rw [← hlen]; simp [List.getElem?_append]
    rw [e1, e2, mapM_dec_enc F hF]
    have him := hX hc ei hei
    simp only [Option.bind_eq_bind, Option.bind_some, hei, if_true, hF.decR_encR, Bool.false_eq_true, if_false]
    congr 2
    rw [← him]

theorem foldl_basis (F : NumFmt ℚ) (hF : F.Lawful) (X : CTensor ℚ) (hX : RealOk X) : ∀ (L : List (List Nat)) (val : List Nat → ℚ × ℚ),
    (∀ ei ∈ L, InB X.t.shape ei) → ∃ out, (L.map (entryText F X)).foldlM (readBasisEntry F X.cplx X.t.shape) val = some out ∧
      ∀ idx, out idx = if idx ∈ L then X.t.val idx else val idx := by
  intro L
  induction L with
  | nil => intro val _; exact ⟨val, rfl, by simp⟩
  | cons ei L ih =>
    intro val h
    obtain ⟨out, ho, hv⟩ := ih (setAt val ei (X.t.val ei)) (fun e he => h e (by simp [he]))
    refine ⟨out, ?_, ?_⟩
    · rw [List.map_cons, List.foldlM_cons, readBasisEntry_text F hF X hX val ei (h ei (by simp))]
      exact ho
    · intro idx
      rw [hv idx]
      by_cases he : idx = ei
      · subst he; simp [setAt]
      · simp [setAt, he]

theorem readBasis_ok {F : NumFmt ℚ} (hF : F.Lawful) {μ : Type} (m : μ) {X : Ten} (h : Floats X) :
    ∃ Z, readBasis F (serializeBasis F m (toPairs X)) = some (m, Z) ∧ SameT X (ofPairs Z) := by
  obtain ⟨out, ho, hv⟩ := foldl_basis F hF (toPairs X) (toPairs_real h)
    ((indices (toPairs X).t.shape).filter (fun ei => decide ((toPairs X).t.val ei ≠ (0, 0)))) (fun _ => (0, 0))
    (fun ei hei => mem_indices.1 (List.mem_filter.1 hei).1)
  refine ⟨⟨X.cplx, ⟨X.t.shape, out⟩⟩, ?_, rfl, rfl, ?_⟩
  · unfold readBasis
    have e : (serializeBasis F m (toPairs X)).entries.foldlM (readBasisEntry F (serializeBasis F m (toPairs X)).cplx (serializeBasis F m (toPairs X)).dims)
        (fun _ => (0, 0)) = some out := ho
    rw [e]
    rfl
  · intro i hi
    show _ = Complex.mk ((out i).1 : ℝ) ((out i).2 : ℝ)
    have e : out i = (toPairs X).t.val i := by
      rw [hv i]
      split
      · rfl
      · rename_i hn
        rw [List.mem_filter, not_and] at hn
        have := hn (mem_indices.2 hi)
        simp only [decide_eq_true_eq, not_not] at this
        exact this.symm
    rw [e]
    obtain ⟨h1, h2, _⟩ := h i hi
    exact (Complex.ext (ratOf_cast h1) (ratOf_cast h2)).symm

/-! ### Dictionaries -/

theorem dictFind_rel {κ α β : Type} [DecidableEq κ] {R : α → β → Prop} {d : List (κ × α)} {d' : List (κ × β)}
    (h : List.Forall₂ (fun e f => f.1 = e.1 ∧ R e.2 f.2) d d') {k : κ} {X : α} (hX : dictFind d k = some X) : ∃ Y, dictFind d' k = some Y ∧ R X Y := by
  induction h with
  | nil => simp [dictFind] at hX
  | @cons e f l l' h _ ih =>
    obtain ⟨h1, h2⟩ := h
    unfold dictFind at *
    by_cases hk : e.1 = k
    · rw [List.find?_cons_of_pos (by simpa using hk)] at hX
      rw [List.find?_cons_of_pos (by simpa [h1] using hk)]
      simp only [Option.map_some, Option.some.injEq] at hX ⊢
      subst hX
      exact ⟨_, rfl, h2⟩
    · rw [List.find?_cons_of_neg (by simpa using hk)] at hX
      rw [List.find?_cons_of_neg (by simpa [h1] using hk)]
      exact ih hX

theorem mem_of_dictFind {κ α : Type} [DecidableEq κ] {d : List (κ × α)} {k : κ} {X : α} (h : dictFind d k = some X) : (k, X) ∈ d := by
  unfold dictFind at h
  obtain ⟨e, he, rfl⟩ := Option.map_eq_some_iff.1 h
  have h1 := List.mem_of_find?_eq_some he
  have h2 := List.find?_some he
  have h2 : e.1 = k := by simpa using h2
  rw [← h2]
  exact h1

theorem mapM_rel {α β : Type} {f : α → Except Err β} {R : α → β → Prop} {l : List α} (h : ∀ a ∈ l, ∃ b, f a = .ok b ∧ R a b) :
    ∃ l', l.mapM f = .ok l' ∧ List.Forall₂ R l l' := by
  induction l with
  | nil => exact ⟨[], rfl, .nil⟩
  | cons a l ih =>
    obtain ⟨l', hl, hf⟩ := ih (fun a ha => h a (by simp [ha]))
    obtain ⟨b, hb, hr⟩ := h a (by simp)
    refine ⟨b :: l', ?_, .cons hr hf⟩
    rw [List.mapM_cons]
    exact bind_ok.2 ⟨b, hb, bind_ok.2 ⟨l', hl, rfl⟩⟩

theorem dictFind_names {α : Type} (g : Name → α) : ∀ {l : List Name} {n : Name}, n ∈ l → dictFind (l.map (fun n => (n, g n))) n = some (g n)
  | [], _, h => by simp at h
  | a :: l, n, h => by
    unfold dictFind
    by_cases e : a = n
    · subst e
      rw [List.map_cons, List.find?_cons_of_pos (by simp)]
      rfl
    · rw [List.map_cons, List.find?_cons_of_neg (by simpa using e)]
      exact dictFind_names g (by rcases List.mem_cons.1 h with h | h; · exact absurd h.symm e
                                 · exact h)

theorem mapM_names {α : Type} {f : Name → Except Err (Name × α)} {P : Name → α → Prop} {l : List Name} (h : ∀ n ∈ l, ∃ X, f n = .ok (n, X) ∧ P n X) :
    ∃ g : Name → Option α, ∃ l' : List (Name × α), l.mapM f = .ok l' ∧ (∀ n ∈ l, ∃ X, dictFind l' n = some X ∧ P n X) ∧ ∀ e ∈ l', e.1 ∈ l ∧ f e.1 = .ok e ∧ g e.1 = some e.2 := by
  classical
  let g : Name → Option α := fun n => if hn : n ∈ l then some (h n hn).choose else none
  have hg : ∀ n (hn : n ∈ l), g n = some (h n hn).choose := fun n hn => dif_pos hn
  by_cases hl : l = []
  · subst hl
    exact ⟨g, [], rfl, by simp, by simp⟩
  obtain ⟨a, l0, rfl⟩ := List.exists_cons_of_ne_nil hl
  have hd : ∀ n ∈ a :: l0, f n = .ok (n, (g n).getD (h a (by simp)).choose) := by
    intro n hn
    rw [hg n hn]
    exact (h n hn).choose_spec.1
  refine ⟨g, _, mapM_ok_of f (a :: l0) (fun n => (n, (g n).getD (h a (by simp)).choose)) hd, ?_, ?_⟩
  · intro n hn
    refine ⟨_, dictFind_names (fun n => (g n).getD (h a (by simp)).choose) hn, ?_⟩
    rw [hg n hn]
    exact (h n hn).choose_spec.2
  · intro e he
    obtain ⟨n, hn, rfl⟩ := List.mem_map.1 he
    refine ⟨hn, hd n hn, ?_⟩
    show g n = _
    rw [hg n hn]
    rfl

/-! ### Equal coefficients and basis tensors give equal combinations -/

theorem ofIrrep_rel {b b' : List (Irrep × Ten)} (h : List.Forall₂ (fun e f => f.1 = e.1 ∧ SameT e.2 f.2) b b') (p : Irrep) :
    List.Forall₂ SameT (ofIrrep p b) (ofIrrep p b') := by
  induction h with
  | nil => exact .nil
  | @cons e f l l' h _ ih =>
    unfold ofIrrep at *
    by_cases hp : e.1 = p
    · rw [List.filter_cons_of_pos (by simpa using hp), List.filter_cons_of_pos (by simpa [h.1] using hp)]
      exact .cons h.2 ih
    · rw [List.filter_cons_of_neg (by simpa using hp), List.filter_cons_of_neg (by simpa [h.1] using hp)]
      exact ih

theorem timesI_rel {l l' : List Ten} (h : List.Forall₂ SameT l l') : List.Forall₂ SameT (l.map timesI) (l'.map timesI) := by
  induction h with
  | nil => exact .nil
  | @cons X Y l l' h _ ih =>
    refine .cons ⟨rfl, h.2.1, fun i hi => ?_⟩ ih
    show Complex.I * X.t.val i = Complex.I * Y.t.val i
    rw [h.2.2 i hi]

theorem append_rel {l1 l1' l2 l2' : List Ten} (h : List.Forall₂ SameT l1 l1') (h2 : List.Forall₂ SameT l2 l2') :
    List.Forall₂ SameT (l1 ++ l2) (l1' ++ l2') := by
  induction h with
  | nil => exact h2
  | cons h _ ih => exact .cons h ih

theorem all_rel {b b' : List (Irrep × Ten)} (h : List.Forall₂ (fun e f => f.1 = e.1 ∧ SameT e.2 f.2) b b') :
    List.Forall₂ SameT (b.map (·.2)) (b'.map (·.2)) := by
  induction h with
  | nil => exact .nil
  | cons h _ ih => exact .cons h.2 ih

theorem selected_rel {b b' : List (Irrep × Ten)} (h : List.Forall₂ (fun e f => f.1 = e.1 ∧ SameT e.2 f.2) b b') (n : Name) (p : Option Irrep) :
    List.Forall₂ SameT (selected n p b) (selected n p b') := by
  unfold selected
  split <;> first | exact append_rel (ofIrrep_rel h _) (timesI_rel (ofIrrep_rel h _)) | exact all_rel h

theorem any_rel {l l' : List Ten} (h : List.Forall₂ SameT l l') : l'.any (·.cplx) = l.any (·.cplx) := by
  induction h with
  | nil => rfl
  | cons h _ ih => rw [List.any_cons, List.any_cons, ih, h.1]

theorem elemOne_congr {pgs : List (Name × Option Irrep)} {bs bs' : List (Name × List (Irrep × Ten))} {n : Name} {c c' X : Ten} {b' : List (Irrep × Ten)}
    (hX : elemOne pgs bs (n, c) = .ok (n, X)) (hc : SameT c c') (hb' : dictFind bs' n = some b')
    (hb : ∀ b, dictFind bs n = some b → List.Forall₂ (fun e f => f.1 = e.1 ∧ SameT e.2 f.2) b b') :
    ∃ X', elemOne pgs bs' (n, c') = .ok (n, X') ∧ SameT X X' := by
  obtain ⟨b, h1, hX⟩ := bind_ok.1 hX
  obtain ⟨ts, h2, hX⟩ := bind_ok.1 hX
  obtain ⟨t, h3, hX⟩ := bind_ok.1 hX
  cases Except.ok.inj hX
  have hrel := selected_rel (hb b (look_ok h1)) n ((dictFind pgs n).join)
  have h2 := lift_ok.1 h2
  simp only [] at h2 h3
  generalize hL : selected n (dictFind pgs n).join b = L at *
  generalize hL' : selected n (dictFind pgs n).join b' = L' at *
  obtain ⟨W, Ws, hl, hsh, hs, hcx, hv⟩ := stackT_inv h2
  obtain ⟨N, x, y, z, g1, g2, g3, g4, g5⟩ := combineT_inv h3
  have hd : ¬ (c.cplx = true ∧ ts.cplx = false) := by
    rintro ⟨k1, k2⟩
    unfold combineT at h3
    rw [if_pos (by simp [k1, k2])] at h3
    cases h3
  rw [hs] at g2
  simp only [List.cons.injEq] at g2
  obtain ⟨rfl, g2⟩ := g2
  have hlen : L.length = L'.length := hrel.length_eq
  have hget : ∀ k (hk : k < L.length), SameT (L[k]) (L'[k]'(hlen ▸ hk)) := by
    intro k hk
    exact List.Forall₂.get hrel hk (hlen ▸ hk)
  have hany : L'.any (·.cplx) = L.any (·.cplx) := any_rel hrel
  have hsh' : ∀ Y ∈ L', Y.t.shape = [x, y, z] := by
    intro Y hY
    obtain ⟨k, hk, rfl⟩ := List.getElem_of_mem hY
    rw [← (hget k (hlen ▸ hk)).2.1, hsh _ (List.getElem_mem _), g2]
  have hne : L' ≠ [] := by
    intro e
    rw [e, hl] at hlen
    simp at hlen
  obtain ⟨X', hX', hXc⟩ := C89_defined pgs bs' n c' b' x y z hb' (by rw [hL']; exact hne) (by rw [hL', ← hlen, ← hc.2.1, g1]) (by rw [hL']; exact hsh') (by
    rw [hL', hc.1]
    intro hcc
    have : ts.cplx = true := by
      by_contra hn
      exact hd ⟨hcc, by simpa using hn⟩
    rw [hcx, ← hany] at this
    simpa using this)
  refine ⟨X', hX', by rw [hXc, hL', hany, g4, hcx], ?_⟩
  obtain ⟨b2, k1, hX'⟩ := bind_ok.1 hX'
  cases Option.some.inj (hb'.symm.trans (look_ok k1))
  obtain ⟨ts', k2, hX'⟩ := bind_ok.1 hX'
  obtain ⟨t', k3, hX'⟩ := bind_ok.1 hX'
  cases Except.ok.inj hX'
  have k2 := lift_ok.1 k2
  simp only [] at k2 k3
  rw [hL'] at k2
  obtain ⟨W', Ws', ml, msh, ms, mcx, mv⟩ := stackT_inv k2
  obtain ⟨N', x', y', z', q1, q2, q3, q4, q5⟩ := combineT_inv k3
  rw [ms] at q2
  simp only [List.cons.injEq] at q2
  obtain ⟨rfl, q2⟩ := q2
  rw [hsh' W' (by rw [ml]; simp)] at q2
  simp only [List.cons.injEq, and_true] at q2
  obtain ⟨rfl, rfl, rfl⟩ := q2
  refine ⟨by rw [g3, q3], ?_⟩
  intro idx hi
  rw [g3] at hi
  obtain ⟨i, j, k, rfl, hi, hj, hk⟩ := inB_iff3.1 hi
  rw [g5 i j k hi hj hk, q5 i j k hi hj hk, ← hlen]
  refine Finset.sum_congr rfl fun m hm => ?_
  rw [Finset.mem_range] at hm
  rw [hv m _ hm, mv m _ (hlen ▸ hm), hc.2.2 [m] (by rw [g1]; exact .cons hm .nil),
    (hget m hm).2.2 [i, j, k] (by rw [hsh _ (List.getElem_mem _), g2]; exact inB_iff3.2 ⟨i, j, k, rfl, hi, hj, hk⟩)]

theorem buildElem_find {pgs : List (Name × Option Irrep)} {bs : List (Name × List (Irrep × Ten))} {cs es : List (Name × Ten)}
    (h : buildElem pgs cs bs = .ok es) {n : Name} {X : Ten} (hX : dictFind es n = some X) :
    ∃ c, dictFind cs n = some c ∧ elemOne pgs bs (n, c) = .ok (n, X) := by
  have hf := mapM_ok_forall₂ h
  clear h
  induction hf with
  | nil => simp [dictFind] at hX
  | @cons e f l l' h _ ih =>
    have h1 : f.1 = e.1 := by
      obtain ⟨b, _, h⟩ := bind_ok.1 h
      obtain ⟨ts, _, h⟩ := bind_ok.1 h
      obtain ⟨t, _, h⟩ := bind_ok.1 h
      cases Except.ok.inj h
      rfl
    unfold dictFind at hX ⊢
    by_cases hk : e.1 = n
    · rw [List.find?_cons_of_pos (by simpa [h1] using hk)] at hX
      rw [List.find?_cons_of_pos (by simpa using hk)]
      simp only [Option.map_some, Option.some.injEq] at hX ⊢
      refine ⟨e.2, rfl, ?_⟩
      subst hX
      obtain ⟨e1, e2⟩ := e
      obtain ⟨f1, f2⟩ := f
      simp only [] at h1 hk
      subst h1 hk
      exact h
    · rw [List.find?_cons_of_neg (by simpa [h1] using hk)] at hX
      rw [List.find?_cons_of_neg (by simpa using hk)]
      exact ih hX

/-! ### The round trip -/

theorem kept_names (ud b : Bool) (n : Name) :
    n ∈ [Name.Tu, Name.Bc] ++ (if ud then [] else [Name.Td]) ++ (if b then [] else [Name.Ba, Name.Bb]) ↔ kept ud b n = true := by
  cases ud <;> cases b <;> cases n <;> decide

theorem readMember_all {F : NumFmt ℚ} (hF : F.Lawful) (ms : List (Irrep × Ten)) (hb : ∀ m ∈ ms, Floats m.2) :
    ∃ ms', (ms.map (fun m => serializeBasis F m.1 (toPairs m.2))).mapM (readMember F) = .ok ms' ∧ List.Forall₂ (fun e f => f.1 = e.1 ∧ SameT e.2 f.2) ms ms' := by
  induction ms with
  | nil => exact ⟨[], rfl, .nil⟩
  | cons m ms ih =>
    obtain ⟨ms', h1, h2⟩ := ih (fun a ha => hb a (by simp [ha]))
    obtain ⟨Z, hZ, hsz⟩ := readBasis_ok hF m.1 (hb m (by simp))
    refine ⟨(m.1, ofPairs Z) :: ms', ?_, .cons ⟨rfl, hsz⟩ h2⟩
    rw [List.map_cons, List.mapM_cons]
    exact bind_ok.2 ⟨_, bind_ok.2 ⟨_, lift_ok.2 hZ, rfl⟩, bind_ok.2 ⟨_, h1, rfl⟩⟩

theorem readMembers_all {F : NumFmt ℚ} (hF : F.Lawful) (l : List (Name × List (Irrep × Ten))) (hb : ∀ e ∈ l, ∀ m ∈ e.2, Floats m.2) :
    ∃ basis, (l.map (fun e => (e.1, e.2.map (fun m => serializeBasis F m.1 (toPairs m.2))))).mapM (readMembers F) = .ok basis ∧
      List.Forall₂ (fun e f => f.1 = e.1 ∧ List.Forall₂ (fun e f => f.1 = e.1 ∧ SameT e.2 f.2) e.2 f.2) l basis := by
  induction l with
  | nil => exact ⟨[], rfl, .nil⟩
  | cons e l ih =>
    obtain ⟨l', hl, hf⟩ := ih (fun a ha => hb a (by simp [ha]))
    obtain ⟨ms, hm, hmf⟩ := readMember_all hF e.2 (hb e (by simp))
    refine ⟨(e.1, ms) :: l', ?_, .cons ⟨rfl, hmf⟩ hf⟩
    rw [List.map_cons, List.mapM_cons]
    exact bind_ok.2 ⟨_, bind_ok.2 ⟨_, hm, rfl⟩, bind_ok.2 ⟨_, hl, rfl⟩⟩

theorem readCoeffs_all {F : NumFmt ℚ} (hF : F.Lawful) (l : List (Name × Ten)) (hc : ∀ e ∈ l, Floats e.2) :
    ∃ coeffs, (l.map (fun e => (e.1, serializeBasis F () (toPairs e.2)))).mapM (readCoeffs F) = .ok coeffs ∧
      List.Forall₂ (fun e f => f.1 = e.1 ∧ SameT e.2 f.2) l coeffs := by
  induction l with
  | nil => exact ⟨[], rfl, .nil⟩
  | cons e l ih =>
    obtain ⟨l', hl, hf⟩ := ih (fun a ha => hc a (by simp [ha]))
    obtain ⟨Z, hZ, hsz⟩ := readBasis_ok hF () (hc e (by simp))
    refine ⟨(e.1, ofPairs Z) :: l', ?_, .cons ⟨rfl, hsz⟩ hf⟩
    rw [List.map_cons, List.mapM_cons]
    exact bind_ok.2 ⟨_, bind_ok.2 ⟨_, lift_ok.2 hZ, rfl⟩, bind_ok.2 ⟨_, hl, rfl⟩⟩

theorem forall₂_mem_right {α β : Type} {R : α → β → Prop} {l : List α} {l' : List β} (h : List.Forall₂ R l l') {b : β} (hb : b ∈ l') : ∃ a ∈ l, R a b := by
  induction h with
  | nil => simp at hb
  | @cons a b' l l' h _ ih =>
    rcases List.mem_cons.1 hb with rfl | hb
    · exact ⟨a, by simp, h⟩
    · obtain ⟨c, h1, h2⟩ := ih hb
      exact ⟨c, by simp [h1], h2⟩

theorem forall₂_mem_left {α β : Type} {R : α → β → Prop} {l : List α} {l' : List β} (h : List.Forall₂ R l l') {a : α} (ha : a ∈ l) : ∃ b ∈ l', R a b := by
  induction h with
  | nil => simp at ha
  | @cons a' b l l' h _ ih =>
    rcases List.mem_cons.1 ha with rfl | ha
    · exact ⟨b, by simp, h⟩
    · obtain ⟨c, h1, h2⟩ := ih ha
      exact ⟨c, by simp [h1], h2⟩

/-- C92. A state of linear combinations that is written and read has the same flags, irreps, coefficients, basis tensors, elementary
tensors and site tensor, each with its number type. -/
theorem C92_lc_roundtrip {F : NumFmt ℚ} (hF : F.Lawful) {s : LState} (hs : LReach s)
    (hc : ∀ e ∈ s.coeffs, Floats e.2) (hb : ∀ e ∈ s.basis, ∀ m ∈ e.2, Floats m.2) :
    ∃ s', readL F (writeL F s) = .ok s' ∧ s'.symUD = s.symUD ∧ s'.symB = s.symB ∧ s'.pgs = s.pgs ∧
      (∀ n, kept s.symUD s.symB n →
        (∃ c c', dictFind s.coeffs n = some c ∧ dictFind s'.coeffs n = some c' ∧ SameT c c') ∧
        (∃ b b', dictFind s.basis n = some b ∧ dictFind s'.basis n = some b' ∧ List.Forall₂ (fun e f => f.1 = e.1 ∧ SameT e.2 f.2) b b') ∧
        ∃ X X', dictFind s.elem n = some X ∧ dictFind s'.elem n = some X' ∧ SameT X X') ∧
      ∃ A A', s.g.sites = [((0, 0), A)] ∧ s'.g.sites = [((0, 0), A')] ∧ SameT A A' := by
  obtain ⟨es, five, Tu, Bc, Td, Bb, Ba, A, h0, he, ⟨f1, f2, f3, f4, f5⟩, g1, g2, g3, g4, g5, hA, _, hsites⟩ := hs.good.ex
  -- the parsed dictionaries
  obtain ⟨basis, hbas, hbf⟩ := readMembers_all hF s.basis hb
  obtain ⟨coeffs, hcoe, hcf⟩ := readCoeffs_all hF s.coeffs hc
  have hlook : ∃ l, coeffs.mapM (fun e => look basis e.1) = .ok l := by
    refine (mapM_rel (R := fun _ _ => True) ?_).imp fun _ h => h.1
    intro e he
    obtain ⟨c, hcm, hce, _⟩ := forall₂_mem_right hcf he
    obtain ⟨_, _, h⟩ := forall₂_mem_left (mapM_ok_forall₂ h0) hcm
    obtain ⟨b, hb', _⟩ := bind_ok.1 h
    replace hb' := look_ok hb'
    obtain ⟨b', hb2, _⟩ := dictFind_rel hbf hb'
    exact ⟨b', by unfold look; rw [hce, hb2], trivial⟩
  obtain ⟨l, hlook⟩ := hlook
  -- the old elementary tensors
  have hel : ∀ n, kept s.symUD s.symB n = true → ∃ X, dictFind s.elem n = some X := by
    intro n hn
    cases n
    · exact ⟨_, f1⟩
    · cases hu : s.symUD
      · rw [hu] at f3; exact ⟨_, f3⟩
      · rw [hu] at hn; simp [kept] at hn
    · cases hu : s.symB
      · rw [hu] at f5; exact ⟨_, f5⟩
      · rw [hu] at hn; simp [kept] at hn
    · cases hu : s.symB
      · rw [hu] at f4; exact ⟨_, f4⟩
      · rw [hu] at hn; simp [kept] at hn
    · exact ⟨_, f2⟩
  have hold : ∀ n, kept s.symUD s.symB n = true → ∃ X c b c' b', dictFind s.elem n = some X ∧ dictFind s.coeffs n = some c ∧ dictFind s.basis n = some b ∧
      elemOne s.pgs s.basis (n, c) = .ok (n, X) ∧ dictFind coeffs n = some c' ∧ SameT c c' ∧ dictFind basis n = some b' ∧
      List.Forall₂ (fun e f => f.1 = e.1 ∧ SameT e.2 f.2) b b' := by
    intro n hn
    obtain ⟨X, hX⟩ := hel n hn
    obtain ⟨c, k1, k2⟩ := buildElem_find h0 ((he n hn).symm.trans hX)
    obtain ⟨b, k3, _⟩ := bind_ok.1 k2
    obtain ⟨c', k4, k5⟩ := dictFind_rel hcf k1
    obtain ⟨b', k6, k7⟩ := dictFind_rel hbf (look_ok k3)
    exact ⟨X, c, b, c', b', hX, k1, look_ok k3, k2, k4, k5, k6, k7⟩
  -- the constructor
  generalize hN : [Name.Tu, Name.Bc] ++ (if s.symUD then [] else [Name.Td]) ++ (if s.symB then [] else [Name.Ba, Name.Bb]) = names
  have hmem : ∀ n, n ∈ names ↔ kept s.symUD s.symB n = true := fun n => by rw [← hN]; exact kept_names _ _ n
  obtain ⟨_, cs, hcs, hcs1, hcs2⟩ := mapM_names (l := names) (f := fun n => do
      let c ← look coeffs n
      Except.ok (n, c)) (P := fun n c => dictFind coeffs n = some c) (by
    intro n hn
    obtain ⟨X, c, b, c', b', _, _, _, _, k, _⟩ := hold n ((hmem n).1 hn)
    exact ⟨c', bind_ok.2 ⟨c', by unfold look; rw [k], rfl⟩, k⟩)
  obtain ⟨_, bs, hbs, hbs1, hbs2⟩ := mapM_names (l := names) (f := fun n => do
      let c ← look basis n
      Except.ok (n, c)) (P := fun n c => dictFind basis n = some c) (by
    intro n hn
    obtain ⟨X, c, b, c', b', _, _, _, _, _, _, k, _⟩ := hold n ((hmem n).1 hn)
    exact ⟨b', bind_ok.2 ⟨b', by unfold look; rw [k], rfl⟩, k⟩)
  have hone : ∀ n ∈ names, ∃ c' X X', dictFind cs n = some c' ∧ dictFind s.elem n = some X ∧ elemOne s.pgs bs (n, c') = .ok (n, X') ∧ SameT X X' := by
    intro n hn
    obtain ⟨X, c, b, c', b', m1, m2, m3, m4, m5, m6, m7, m8⟩ := hold n ((hmem n).1 hn)
    obtain ⟨c2, hc2, hc3⟩ := hcs1 n hn
    cases Option.some.inj (hc3.symm.trans m5)
    obtain ⟨b2, hb2, hb3⟩ := hbs1 n hn
    cases Option.some.inj (hb3.symm.trans m7)
    obtain ⟨X', q1, q2⟩ := elemOne_congr m4 m6 hb2 (fun b0 hb0 => by cases Option.some.inj (hb0.symm.trans m3); exact m8)
    exact ⟨_, X, X', hc2, m1, q1, q2⟩
  obtain ⟨es', hes', hesf⟩ : ∃ es', buildElem s.pgs cs bs = .ok es' ∧ List.Forall₂ (fun e f => f.1 = e.1 ∧ ∀ X, dictFind s.elem e.1 = some X → SameT X f.2) cs es' := by
    refine mapM_rel ?_
    intro e hem
    obtain ⟨k1, k2, _⟩ := hcs2 e hem
    obtain ⟨c', X, X', q1, q2, q3, q4⟩ := hone e.1 k1
    obtain ⟨c2, hc2, hc3⟩ := hcs1 e.1 k1
    cases Option.some.inj (hc2.symm.trans q1)
    obtain ⟨c3, hl, k2⟩ := bind_ok.1 k2
    have k2 : (e.1, c3) = e := Except.ok.inj k2
    cases Option.some.inj (hc3.symm.trans (look_ok hl))
    rw [k2] at q3
    exact ⟨_, q3, rfl, fun Y hY => by cases Option.some.inj (q2.symm.trans hY); exact q4⟩
  have hnew : ∀ n X, kept s.symUD s.symB n = true → dictFind s.elem n = some X → ∃ X', dictFind es' n = some X' ∧ SameT X X' := by
    intro n X hn hX
    obtain ⟨c', _, _, q1, _, _, _⟩ := hone n ((hmem n).2 hn)
    have : List.Forall₂ (fun e f => f.1 = e.1 ∧ (fun (e1 : Name × Ten) (f2 : Ten) => ∀ X, dictFind s.elem e1.1 = some X → SameT X f2) e.2 f.2)
        (cs.map (fun e => (e.1, e))) es' := by
      rw [List.forall₂_map_left_iff]
      exact hesf
    obtain ⟨⟨n2, c2⟩, hm⟩ : ∃ e, dictFind (cs.map (fun e => (e.1, e))) n = some e := by
      have hrel : List.Forall₂ (fun (e : Name × Ten) (f : Name × (Name × Ten)) => f.1 = e.1 ∧ True) cs (cs.map (fun e => (e.1, e))) := by
        rw [List.forall₂_map_right_iff]
        exact List.forall₂_same.2 fun _ _ => ⟨rfl, trivial⟩
      obtain ⟨Y, hY, _⟩ := dictFind_rel (R := fun _ _ => True) hrel q1
      exact ⟨Y, hY⟩
    have hn2 : n2 = n := by
      have : (n, (n2, c2)) ∈ cs.map (fun e => (e.1, e)) := mem_of_dictFind hm
      obtain ⟨e, he, hee⟩ := List.mem_map.1 this
      simp only [Prod.mk.injEq] at hee
      rw [← hee.1, hee.2]
    obtain ⟨X', hX', hS⟩ := dictFind_rel (R := fun (e1 : Name × Ten) (f2 : Ten) => ∀ X, dictFind s.elem e1.1 = some X → SameT X f2) this hm
    subst hn2
    exact ⟨X', hX', hS X hX⟩
  obtain ⟨Tu', k1, s1⟩ := hnew .Tu _ rfl f1
  obtain ⟨Bc', k2, s2⟩ := hnew .Bc _ rfl f2
  obtain ⟨Td', s3, k3⟩ : ∃ Td' : Ten, SameT Td Td' ∧ (if s.symUD then Td' = Tu' else dictFind es' .Td = some Td') := by
    cases hu : s.symUD <;> rw [hu] at f3
    · obtain ⟨Y, k, e⟩ := hnew .Td _ (by rw [hu]; rfl) f3
      exact ⟨Y, e, k⟩
    · exact ⟨Tu', by rw [show Td = Tu from f3]; exact s1, rfl⟩
  obtain ⟨Bb', s4, k4⟩ : ∃ Bb' : Ten, SameT Bb Bb' ∧ (if s.symB then Bb' = Bc' else dictFind es' .Bb = some Bb') := by
    cases hu : s.symB <;> rw [hu] at f4
    · obtain ⟨Y, k, e⟩ := hnew .Bb _ (by rw [hu]; rfl) f4
      exact ⟨Y, e, k⟩
    · exact ⟨Bc', by rw [show Bb = Bc from f4]; exact s2, rfl⟩
  obtain ⟨Ba', s5, k5⟩ : ∃ Ba' : Ten, SameT Ba Ba' ∧ (if s.symB then Ba' = Bc' else dictFind es' .Ba = some Ba') := by
    cases hu : s.symB <;> rw [hu] at f5
    · obtain ⟨Y, k, e⟩ := hnew .Ba _ (by rw [hu]; rfl) f5
      exact ⟨Y, e, k⟩
    · exact ⟨Bc', by rw [show Ba = Bc from f5]; exact s2, rfl⟩
  obtain ⟨A', hA', hcA, hsA⟩ : ∃ A', buildSite [(.Tu, Tu'), (.Td, Td'), (.Bc, Bc'), (.Ba, Ba'), (.Bb, Bb')] = .ok A' ∧ A'.cplx = A.cplx ∧ A.t.Same A'.t := by
    obtain ⟨Tu2, Bc2, Td2, Bb2, Ba2, _, _, _, _, _, _, _, _, _, _, _, _, h5, _⟩ := buildSite_inv hA
    cases Option.some.inj (g1.symm.trans h5.tu)
    cases Option.some.inj (g2.symm.trans h5.bc)
    cases Option.some.inj (g3.symm.trans h5.td)
    cases Option.some.inj (g4.symm.trans h5.bb)
    cases Option.some.inj (g5.symm.trans h5.ba)
    obtain ⟨x1, T1⟩ := Tu'
    obtain ⟨x2, T2⟩ := Bc'
    obtain ⟨x3, T3⟩ := Td'
    obtain ⟨x4, T4⟩ := Bb'
    obtain ⟨x5, T5⟩ := Ba'
    obtain ⟨rfl, s1⟩ := s1
    obtain ⟨rfl, s2⟩ := s2
    obtain ⟨rfl, s3⟩ := s3
    obtain ⟨rfl, s4⟩ := s4
    obtain ⟨rfl, s5⟩ := s5
    exact buildSite_congr hA h5 ⟨rfl, rfl, rfl, rfl, rfl⟩ s1 s2 s3 s4 s5
  obtain ⟨p, hp, hsites'⟩ := mkP_ok (es := es') (ud := s.symUD) (b := s.symB) (pgs := s.pgs) ⟨k1, k2, k3, k4, k5⟩ hA'
  obtain ⟨_, h1, h2, h3, _, _, _, es2, h5, h6⟩ := mkP_inv hp
  rw [if_neg (by simp)] at h6
  have hmk : mkL coeffs basis s.symUD s.symB s.pgs = .ok ⟨s.symUD, s.symB, s.pgs, cs, bs, p.elem, p.g⟩ := by
    unfold mkL
    simp only [hN]
    exact bind_ok.2 ⟨cs, hcs, bind_ok.2 ⟨bs, hbs, bind_ok.2 ⟨es', hes', bind_ok.2 ⟨p, hp, rfl⟩⟩⟩⟩
  refine ⟨⟨s.symUD, s.symB, s.pgs, cs, bs, p.elem, p.g⟩, bind_ok.2 ⟨basis, hbas, bind_ok.2 ⟨coeffs, hcoe, bind_ok.2 ⟨l, hlook, hmk⟩⟩⟩, rfl, rfl, rfl, ?_,
    A, A', hsites, hsites', hcA, hsA⟩
  intro n hn
  obtain ⟨X, c, b, c', b', m1, m2, m3, m4, m5, m6, m7, m8⟩ := hold n hn
  obtain ⟨c2, hc2, hc3⟩ := hcs1 n ((hmem n).2 hn)
  cases Option.some.inj (hc3.symm.trans m5)
  obtain ⟨b2, hb2, hb3⟩ := hbs1 n ((hmem n).2 hn)
  cases Option.some.inj (hb3.symm.trans m7)
  obtain ⟨X', hX', hS⟩ := hnew n X hn m1
  refine ⟨⟨c, _, m2, hc2, m6⟩, ⟨b, _, m3, hb2, m8⟩, X, X', m1, ?_, hS⟩
  show dictFind p.elem n = _
  rw [h6, (selectP_inv h5).2.1 n, if_pos hn, hX']

/-- Non-vacuity of `C92_lc_roundtrip`. -/
example : ∃ s, LReach s ∧ (∀ e ∈ s.coeffs, Floats e.2) ∧ (∀ e ∈ s.basis, ∀ m ∈ e.2, Floats m.2) := by
  obtain ⟨s, h, _, _, _, h4, h5⟩ := ex_mkL
  have hT : Floats ⟨false, exT⟩ := floats_of_nat (fun i _ => ⟨1, by simp [exT]⟩)
  have hB : Floats ⟨false, exB⟩ := (exFive_floats (.Bc, ⟨false, exB⟩) (by simp [exFive])).1
  refine ⟨s, .mk h, ?_, ?_⟩
  · rw [h4]
    intro e he
    simp only [List.mem_cons, List.not_mem_nil, or_false] at he
    rcases he with rfl | rfl <;> exact floats_of_nat (fun i _ => ⟨1, by simp [exC]⟩)
  · rw [h5]
    intro e he m hm
    simp only [exBasis, List.mem_cons, List.not_mem_nil, or_false] at he
    rcases he with rfl | rfl <;> simp only [List.mem_cons, List.not_mem_nil, or_false] at hm <;> subst hm
    · exact hT
    · exact hB

end Verif.Kagome
