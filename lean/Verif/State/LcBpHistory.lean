import Verif.State.LcBpProps
/- Histories and files of bipartite states with matrices on the bonds (C135, C136). -/
namespace Verif.LcBp
open Verif.State Verif.Lc
open Verif.Lattice (Vertex)
variable {R : Type}

/-! ## C135: histories -/

theorem load_none (st : BState R) (ck : Ckpt R) : loadCheckpoint st ck = none := rfl

theorem move_none (dev : CTensor R → CTensor R) (st : BState R) (h : st.site ≠ []) : moveTo dev st = none := by
  unfold moveTo
  cases hs : st.site ++ st.bond with
  | nil => simp at hs; exact absurd hs.1 h
  | cons x xs => rfl

theorem consistent_ne [CommRing R] {st : BState R} (h : Spec.Consistent st) : st.site ≠ [] := by
  intro hn
  obtain ⟨ts, _, _, _, _, g1, _⟩ := build_inv h.sites
  have hi := h.irreps
  rw [hn] at hi g1
  simp [pgIrreps] at hi
  rw [hi] at g1
  simp [stackElems] at g1

/-- C135. Whatever a program does — construct, read, restore, move, add noise, copy — the site tensors are those of the current coefficients and elementary
tensors, the recorded irreps those of the elementary tensors and the tiling the bipartite one. -/
theorem C135_consistent [CommRing R] (F : NumFmt R) (st : BState R) (h : Spec.Reachable F st) : Spec.Consistent st := by
  induction h with
  | construct h => exact (mk_inv h).2.2.2.2
  | @read j aux st h =>
    unfold readBp at h
    simp only [Option.bind_eq_bind, Option.bind_eq_some_iff] at h
    obtain ⟨_, _, _, _, _, _, _, _, h⟩ := h
    exact (mk_inv h).2.2.2.2
  | restore _ h _ => rw [load_none] at h; simp at h
  | move _ h ih => rw [move_none _ _ (consistent_ne ih)] at h; simp at h
  | noise _ h ih =>
    unfold addNoise at h
    simp only [Option.bind_eq_bind, Option.bind_eq_some_iff, Option.some.injEq] at h
    obtain ⟨sites, hs, rfl⟩ := h
    exact ⟨ih.irreps, hs, ih.tiling, ih.cell⟩
  | copy _ h _ => exact (mk_inv h).2.2.2.2

/-- C135. A copy is the same state. -/
theorem C135_clone [CommRing R] (st : BState R) (h : Spec.Consistent st) : clone st = some st := by
  unfold clone
  have e : ∀ l : List (Elem R), l.map (fun e => (⟨e.pg, e.info, e.t⟩ : Elem R)) = l := by
    intro l
    exact List.map_id' l
  rw [e, e]
  exact mk_intro h

/-- C135. Adding noise replaces both coefficient vectors, keeps elementary tensors, irreps and tiling, and rebuilds both sites. -/
theorem C135_noise [CommRing R] (ps pb ss : CTensor R → CTensor R) (sb : CTensor R → CTensor R → CTensor R) (st st' : BState R) (hst : Spec.Consistent st)
    (h : addNoise ps pb ss sb st = some st') : mk st.site st.bond (ss (ps st.cSite)) (sb (ss (ps st.cSite)) (pb st.cBond)) = some st' := by
  unfold addNoise at h
  simp only [Option.bind_eq_bind, Option.bind_eq_some_iff, Option.some.injEq] at h
  obtain ⟨sites, hs, rfl⟩ := h
  exact mk_intro (st := { st with cSite := ss (ps st.cSite), cBond := sb (ss (ps st.cSite)) (pb st.cBond), sites := sites }) ⟨hst.irreps, hs, hst.tiling, hst.cell⟩

/-- C135 violated: a checkpoint just taken from a state cannot be loaded, into any state. -/
theorem C135_checkpoint_violated (st st' : BState R) : loadCheckpoint st' (getCheckpoint st) = none := rfl

/-- C135 violated: no state can be moved to a device, not even to the one it is on. -/
theorem C135_move_violated [CommRing R] (dev : CTensor R → CTensor R) (st : BState R) (h : Spec.Consistent st) : moveTo dev st = none :=
  move_none dev st (consistent_ne h)

/-- C135 violated: the function of this file that loads a checkpoint raises whatever the checkpoint holds. -/
theorem C135_load_function_violated (asserts : Bool) (build : Option (BState R)) : loadFunction asserts build = none := by
  unfold loadFunction
  split
  · rw [if_neg (by decide)]
  · rfl

/-- Non-vacuity: the sample is reachable, and noise and copies of it are defined. -/
example : ∃ st : BState Int, Spec.Reachable unaryFmt st ∧ Spec.Consistent st ∧ (clone st).isSome ∧ (addNoise (fun c => c) (fun c => c) (fun c => c) (fun _ c => c) st).isSome := by
  obtain ⟨st, h⟩ := sampleBp_built
  have hc := (mk_inv h).2.2.2.2
  refine ⟨st, .construct h, hc, ?_, ?_⟩
  · rw [C135_clone st hc]; rfl
  · unfold addNoise
    simp only [hc.sites, Option.bind_eq_bind, Option.bind_some, Option.isSome_some]

/-! ## C136: files -/

theorem inB2 {D : Nat} {idx : List Nat} (h : Tensor.InB [D, D] idx) : ∃ i j, idx = [i, j] ∧ i < D ∧ j < D := by
  unfold Tensor.InB at h
  rcases h with _ | ⟨h1, h⟩
  rcases h with _ | ⟨h2, h⟩
  cases h
  exact ⟨_, _, rfl, h1, h2⟩

theorem read_bond_entry [Zero R] (F : NumFmt R) (hF : F.Lawful) (D i j : Nat) (hi : i < D) (hj : j < D) (x : R) (val : List Nat → R × R) :
    readBondEntry F false [D, D] val (join ([i, j].map F.encN) ++ ' ' :: F.encR x) = some (setAt val [i, j] (x, 0)) := by
  have htok : ∀ w ∈ [i, j].map F.encN, IsToken w := by
    intro w hw
    obtain ⟨n, _, rfl⟩ := List.mem_map.1 hw
    exact hF.tokN n
  unfold readBondEntry
  rw [splitSp_join_sp _ (by simp) _ htok, splitSp_token _ (hF.tokR _)]
  have e1 : ([i, j].map F.encN ++ [F.encR x]).take 2 = [i, j].map F.encN := rfl
  have e2 : ([i, j].map F.encN ++ [F.encR x])[2]? = some (F.encR x) := rfl
  have hin : Tensor.InB [D, D] [i, j] := by unfold Tensor.InB; simp [hi, hj]
  simp only [e1, e2, mapM_dec_enc F hF, Option.bind_eq_bind, Option.bind_some, hF.decR_encR, Bool.false_eq_true, if_false, hin, if_true]

/-- One bond tensor, written and read. -/
theorem bond_roundtrip [CommRing R] [DecidableEq R] (F : NumFmt R) (hF : F.Lawful) (D : Nat) (e : Elem R) (hs : e.t.t.shape = [D, D]) (hc : e.t.cplx = false)
    (hr : ∀ idx, (e.t.t.val idx).2 = 0) : ∃ j, writeBond F e = some j ∧ ∃ e', readBond F j = some e' ∧ Spec.SameElem e e' := by
  obtain ⟨L, hL⟩ : ∃ L, L = (Tensor.indices [D, D]).filter (fun ei => decide (e.t.t.val ei ≠ (0, 0))) := ⟨_, rfl⟩
  have hLin : ∀ ei ∈ L, Tensor.InB [D, D] ei ∧ e.t.t.val ei ≠ (0, 0) := by
    intro ei h
    rw [hL, List.mem_filter] at h
    exact ⟨Tensor.mem_indices.1 h.1, by simpa using h.2⟩
  have htxt : L.mapM (bondEntry F e.t) = some (L.map (fun ei => join (ei.map F.encN) ++ ' ' :: F.encR (e.t.t.val ei).1)) := by
    apply mapM_some_of
    intro ei h
    obtain ⟨i, j, rfl, _, _⟩ := inB2 (hLin ei h).1
    unfold bondEntry
    simp only [List.getElem?_cons_zero, List.getElem?_cons_succ, Option.bind_eq_bind, Option.bind_some, encNum, hc, Bool.false_eq_true, if_false]
  obtain ⟨out, ho, hv, hz⟩ := fold_set (readBondEntry F false [D, D]) (fun ei => join (ei.map F.encN) ++ ' ' :: F.encR (e.t.t.val ei).1) (fun ei => ei)
    (fun ei => e.t.t.val ei) L (fun _ => (0, 0))
    (by
      intro ei h val
      obtain ⟨i, j, rfl, hi, hj⟩ := inB2 (hLin ei h).1
      rw [read_bond_entry F hF D i j hi hj]
      congr 2
      exact Prod.ext rfl (hr _).symm)
    (by rw [List.map_id']; exact hL ▸ (Tensor.nodup_indices _).filter _)
  refine ⟨⟨e.pg, e.info, false, D, L.map (fun ei => join (ei.map F.encN) ++ ' ' :: F.encR (e.t.t.val ei).1)⟩, ?_, ⟨e.pg, e.info, ⟨false, ⟨[D, D], out⟩⟩⟩, ?_, rfl, rfl, hc.symm, hs, ?_⟩
  · unfold writeBond
    simp only [hs]
    rw [← hL, htxt, hc]
    rfl
  · unfold readBond
    simp only []
    rw [ho]
    rfl
  · intro idx hi
    rw [hs] at hi
    show e.t.t.val idx = out idx
    by_cases hm : idx ∈ L
    · exact (hv _ hm).symm
    · have h0 : e.t.t.val idx = (0, 0) := by
        by_contra hne
        apply hm
        rw [hL, List.mem_filter]
        exact ⟨Tensor.mem_indices.2 hi, by simpa using hne⟩
      rw [h0, hz _ (by rw [List.map_id']; exact hm)]

theorem stack_same [CommRing R] {Xs Ys : List (CTensor R)} (h : List.Forall₂ Spec.SameT Xs Ys) {ts : CTensor R} (hs : stack Xs = some ts) :
    ∃ ts', stack Ys = some ts' ∧ Spec.SameT ts ts' := by
  have hlen := h.length_eq
  obtain ⟨⟨sh, h1, h2⟩, h3, h4⟩ := stack_get hs
  have hsh : ∀ Y ∈ Ys, Y.t.shape = sh := by
    intro Y hY
    obtain ⟨i, hi, rfl⟩ := List.getElem_of_mem hY
    have := (List.forall₂_iff_get.1 h).2 i (by omega) hi
    exact this.2.1.symm.trans (h2 _ (List.get_mem Xs ⟨i, by omega⟩))
  have hany : ∀ {Xs Ys : List (CTensor R)}, List.Forall₂ Spec.SameT Xs Ys → Ys.any (·.cplx) = Xs.any (·.cplx) := by
    intro Xs Ys h
    induction h with
    | nil => rfl
    | cons h _ ih => simp only [List.any_cons, ih, h.1]
  have hex : ∃ ts', stack Ys = some ts' := by
    cases Ys with
    | nil => cases h; simp [stack] at hs
    | cons Y Ys =>
      simp only [stack]
      rw [if_pos]
      · exact ⟨_, rfl⟩
      · intro Z hZ
        rw [hsh Z (by simp [hZ]), hsh Y (by simp)]
  obtain ⟨ts', hts'⟩ := hex
  obtain ⟨⟨sh', g1, g2⟩, g3, g4⟩ := stack_get hts'
  have hsheq : sh' = sh := by
    cases Ys with
    | nil => simp [stack] at hts'
    | cons Y Ys => rw [← g2 Y (by simp), hsh Y (by simp)]
  refine ⟨ts', hts', by rw [g3, h3, hany h], by rw [g1, h1, hsheq, hlen], ?_⟩
  intro idx hi
  rw [h1] at hi
  unfold Tensor.InB at hi
  rcases hi with _ | ⟨hk, hi⟩
  rename_i k is
  rw [h4, g4, List.getElem?_eq_getElem hk, List.getElem?_eq_getElem (show k < Ys.length by omega)]
  have := (List.forall₂_iff_get.1 h).2 k hk (by omega)
  refine this.2.2 is ?_
  rw [h2 _ (List.get_mem Xs ⟨k, hk⟩)]
  exact hi

theorem combineBond_same [CommRing R] {c c' ts ts' b : CTensor R} (hc : Spec.SameT c c') (ht : Spec.SameT ts ts') (h : combineBond c ts = some b) :
    ∃ b', combineBond c' ts' = some b' ∧ Spec.SameT b b' := by
  unfold combineBond at h ⊢
  rw [hc.1, ht.1]
  split at h
  · simp at h
  · rename_i hd
    rw [if_neg hd]
    rw [← hc.2.1, ← ht.2.1]
    split at h
    · rename_i n m l r hcn htn
      simp only [Option.bind_eq_bind, Option.bind_eq_some_iff, Option.some.injEq] at h ⊢
      obtain ⟨N, hN, rfl⟩ := h
      refine ⟨_, ⟨N, hN, rfl⟩, rfl, rfl, ?_⟩
      intro idx hi
      show (∑ k ∈ Finset.range N, cmul (c.t.val [if n = 1 then 0 else k]) (ts.t.val ((if m = 1 then 0 else k) :: idx))) =
        ∑ k ∈ Finset.range N, cmul (c'.t.val [if n = 1 then 0 else k]) (ts'.t.val ((if m = 1 then 0 else k) :: idx))
      apply Finset.sum_congr rfl
      intro k hk
      rw [Finset.mem_range] at hk
      have hb : (if n = 1 then 0 else k) < n ∧ (if m = 1 then 0 else k) < m := by
        unfold Pg.bcastDim at hN
        repeat' split at hN
        all_goals simp at hN
        all_goals (constructor <;> split <;> omega)
      rw [hc.2.2 [if n = 1 then 0 else k] (by rw [hcn]; exact .cons hb.1 .nil), ht.2.2 ((if m = 1 then 0 else k) :: idx) (by rw [htn]; exact .cons hb.2 hi)]
    · simp at h

theorem dress_same [CommRing R] {b b' A A' B : CTensor R} (hb : Spec.SameT b b') (hA : Spec.SameT A A') (h : dress b A = some B) :
    ∃ B', dress b' A' = some B' ∧ Spec.SameT B B' := by
  obtain ⟨a, e, p, d1, d2, d3, d4, d5, d6⟩ := dress_inv h
  have hex : ∃ B', dress b' A' = some B' := by
    unfold dress
    rw [if_neg (by rw [hb.1, hA.1, d1]; simp), ← hb.2.1, ← hA.2.1, d3, d4]
    simp only [and_self, if_true]
    exact ⟨_, rfl⟩
  obtain ⟨B', hB'⟩ := hex
  obtain ⟨a', e', p', f1, f2, f3, f4, f5, f6⟩ := dress_inv hB'
  rw [← hb.2.1, d3] at f3
  rw [← hA.2.1, d4] at f4
  simp only [List.cons.injEq, and_true] at f3 f4
  obtain ⟨rfl, rfl⟩ := f3
  obtain ⟨rfl, _⟩ := f4
  refine ⟨B', hB', by rw [f2, d2, hA.1], by rw [d5, f5], ?_⟩
  intro idx hi
  rw [d5] at hi
  obtain ⟨s, g, rfl, hs, hg⟩ := inB5' hi
  rw [d6, f6]
  have hbv : ∀ i j, i < a → j < e → b.t.val [i, j] = b'.t.val [i, j] := by
    intro i j h1 h2
    refine hb.2.2 _ ?_
    rw [d3]
    exact .cons h1 (.cons h2 .nil)
  refine Finset.sum_congr rfl fun i hi => Finset.sum_congr rfl fun j hj => Finset.sum_congr rfl fun k hk => Finset.sum_congr rfl fun o ho => ?_
  rw [Finset.mem_range] at hi hj hk ho
  rw [hbv _ _ (hg 0 (by omega)) hi, hbv _ _ (hg 1 (by omega)) hj, hbv _ _ (hg 2 (by omega)) hk, hbv _ _ (hg 3 (by omega)) ho,
    hA.2.2 [s, i, j, k, o] (by rw [d4]; exact inB5_of hs hi hj hk ho)]

theorem forall₂_mapM {α β γ : Type} {f : α → Option β} {g : β → Option γ} {P : α → γ → Prop} : ∀ {l : List α},
    (∀ a ∈ l, ∃ b, f a = some b ∧ ∃ c, g b = some c ∧ P a c) → ∃ bs cs, l.mapM f = some bs ∧ bs.mapM g = some cs ∧ List.Forall₂ P l cs := by
  intro l
  induction l with
  | nil => intro _; exact ⟨[], [], rfl, rfl, .nil⟩
  | cons a l ih =>
    intro h
    obtain ⟨b, hb, c, hc, hp⟩ := h a (by simp)
    obtain ⟨bs, cs, h1, h2, h3⟩ := ih (fun x hx => h x (by simp [hx]))
    refine ⟨b :: bs, c :: cs, ?_, ?_, .cons hp h3⟩
    · simp [List.mapM_cons, hb, h1]
    · simp [List.mapM_cons, hc, h2]

theorem pg_same {aux : List Nat} {p D : Nat} : ∀ {es es' : List (Elem R)}, List.Forall₂ (Lc.Spec.ElemRel aux p D) es es' → pgIrreps es' = pgIrreps es := by
  intro es es' h
  exact (mapM_transfer _ _ _ (fun a a' hr => hr.1.symm) h).symm

/-- C136, partial: a real state with square tensors, written and read back with the default order of the auxiliary indices, comes back with the same elementary tensors,
meta data, coefficients, site tensors and tiling. Missing: complex tensors and coefficients, other orders (refuted below), `normalize=True`. -/
theorem C136_roundtrip_partial [CommRing R] [DecidableEq R] (F : NumFmt R) (hF : F.Lawful) (p D : Nat) (st : BState R) (hst : Spec.Consistent st)
    (hsq : Spec.Square p D st) (hre : Spec.Real st) : ∃ j st', writeBp F st [0, 1, 2, 3] = some j ∧ readBp F j [0, 1, 2, 3] = some st' ∧
      st'.irreps = st.irreps ∧ st'.lX = st.lX ∧ st'.lY = st.lY ∧ st'.vts = st.vts ∧
      List.Forall₂ Spec.SameElem st.site st'.site ∧ List.Forall₂ Spec.SameElem st.bond st'.bond ∧ Spec.SameT st.cSite st'.cSite ∧ Spec.SameT st.cBond st'.cBond ∧
      List.Forall₂ (fun e e' : Vertex × CTensor R => e'.1 = e.1 ∧ Spec.SameT e.2 e'.2) st.sites st'.sites := by
  obtain ⟨ts, tb, A, b, B, g1, g2, g3, g4, g5, hss⟩ := build_inv hst.sites
  obtain ⟨js, es', w1, r1, f1⟩ := forall₂_mapM (fun e he => elem_roundtrip F hF [0, 1, 2, 3] (List.Perm.refl _) p D e (hsq.site e he) (hre.site e he).1 (hre.site e he).2)
  obtain ⟨jb, eb', w2, r2, f2⟩ := forall₂_mapM (fun e he => bond_roundtrip F hF D e (hsq.bond e he) (hre.bond e he).1 (hre.bond e he).2)
  have hn : ∃ n, st.cSite.t.shape = [n] := by
    unfold combine at g3
    split at g3
    · simp at g3
    · split at g3
      · rename_i n m p u l d r hh _; exact ⟨n, hh⟩
      · simp at g3
  have hm : ∃ n, st.cBond.t.shape = [n] := by
    unfold combineBond at g4
    split at g4
    · simp at g4
    · split at g4
      · rename_i n m l r hh _; exact ⟨n, hh⟩
      · simp at g4
  obtain ⟨n, hn⟩ := hn
  obtain ⟨m, hm⟩ := hm
  obtain ⟨jcs, w3, _, cs', r3, s3, s3'⟩ := coeff_roundtrip F hF 0 st.cSite n hn hre.cSite.1 hre.cSite.2
  obtain ⟨jcb, w4, _, cb', r4, s4, s4'⟩ := coeff_roundtrip F hF 1 st.cBond m hm hre.cBond.1 hre.cBond.2
  obtain ⟨k, ts', t1, t2, t3, t4, t5⟩ := stackElems_rel f1 st.irreps g1
  obtain ⟨A', a1, a2⟩ := combine_rel (List.Perm.refl _) s3 s3' t2 t3 t4 t5 g3
  have hA : Spec.SameT A A' := ⟨a2.1, relabelled_id a2.2⟩
  have fb : List.Forall₂ Spec.SameT (st.bond.map (·.t)) (eb'.map (·.t)) := by
    exact List.forall₂_map_left_iff.2 (List.forall₂_map_right_iff.2 (f2.imp (fun _ _ h => h.2.2)))
  obtain ⟨tb', b1, b2⟩ := stack_same fb g2
  have hpr : Spec.SameT (promote ts.cplx st.cBond) (promote ts'.cplx cb') := ⟨by simp only [promote, s4, t2], s4'⟩
  obtain ⟨b', b3, b4⟩ := combineBond_same hpr b2 g4
  obtain ⟨B', b5, b6⟩ := dress_same b4 hA g5
  have hbuild := build_intro t1 b1 a1 b3 b5
  have hir : pgIrreps es' = some st.irreps := by rw [pg_same f1]; exact hst.irreps
  have hcons : Spec.Consistent (⟨st.irreps, es', eb', cs', cb', [((0, 0), A'), ((1, 0), B')], st.lX, st.lY, st.vts⟩ : BState R) := ⟨hir, hbuild, hst.tiling, hst.cell⟩
  have hmk := mk_intro hcons
  refine ⟨⟨st.lX, st.lY, js, jb, jcs, jcb⟩, ⟨st.irreps, es', eb', cs', cb', [((0, 0), A'), ((1, 0), B')], st.lX, st.lY, st.vts⟩, ?_, ?_, rfl, rfl, rfl, rfl, f1.imp (fun _ _ h => ⟨h.1, h.2.1, h.2.2.1, relabelled_id h.2.2.2⟩), f2, ⟨s3, s3'⟩, ⟨s4, s4'⟩, ?_⟩
  · unfold writeBp
    have w1' : st.site.mapM (writeElem F ([0, 1, 2, 3].map (· + 1))) = some js := w1
    simp only [w1', w2, w3, w4, Option.bind_eq_bind, Option.bind_some]
  · unfold readBp
    simp only [r1, r2, r3, r4, Option.bind_eq_bind, Option.bind_some]
    exact hmk
  · rw [hss]
    exact .cons ⟨rfl, hA⟩ (.cons ⟨rfl, b6⟩ .nil)

/-- C136 violated for complex bond tensors: the file is written and cannot be read. `encC`, the text of a complex number, is one token. -/
theorem C136_complex_violated [CommRing R] [DecidableEq R] (F : NumFmt R) (hF : F.Lawful) (hC : ∀ z, IsToken (F.encC z)) (st : BState R) (e : Elem R) (he : e ∈ st.bond)
    (D : Nat) (hs : e.t.t.shape = [D, D]) (hc : e.t.cplx = true) (i j : Nat) (hi : i < D) (hj : j < D) (hv : e.t.t.val [i, j] ≠ (0, 0)) (aux aux' : List Nat) (jb : JBp)
    (hw : writeBp F st aux = some jb) : readBp F jb aux' = none := by
  unfold writeBp at hw
  simp only [Option.bind_eq_bind, Option.bind_eq_some_iff, Option.some.injEq] at hw
  obtain ⟨js, _, jbs, hjbs, jcs, _, jcb, _, rfl⟩ := hw
  obtain ⟨jx, hjx, hwx⟩ := mapM_mem _ hjbs he
  unfold readBp
  have : jbs.mapM (readBond F) = none := by
    refine mapM_none _ _ jx hjx ?_
    unfold writeBond at hwx
    rw [hs] at hwx
    simp only [Option.bind_eq_bind, Option.bind_eq_some_iff, Option.some.injEq] at hwx
    obtain ⟨entries, hen, rfl⟩ := hwx
    have hmem : [i, j] ∈ (Tensor.indices [D, D]).filter (fun ei => decide (e.t.t.val ei ≠ (0, 0))) :=
      List.mem_filter.2 ⟨Tensor.mem_indices.2 (.cons hi (.cons hj .nil)), by simpa using hv⟩
    obtain ⟨txt, htxt, hent⟩ := mapM_mem _ hen hmem
    simp only [bondEntry, List.getElem?_cons_zero, List.getElem?_cons_succ, Option.bind_eq_bind, Option.bind_some, Option.some.injEq] at hent
    unfold readBond
    simp only []
    rw [foldlM_none _ _ txt htxt]
    · rfl
    · intro val
      unfold readBondEntry
      rw [← hent, encNum, hc, if_pos rfl, splitSp_join_sp _ (by simp) _ (by
        intro w hw
        obtain ⟨n, _, rfl⟩ := List.mem_map.1 hw
        exact hF.tokN n), splitSp_token _ (hC _)]
      have : (List.map F.encN [i, j] ++ [F.encC (e.t.t.val [i, j])])[3]? = none := rfl
      simp only [this, if_true, Option.bind_none, Option.bind_eq_bind]
      cases List.mapM F.decN (List.take 2 (List.map F.encN [i, j] ++ [F.encC (e.t.t.val [i, j])])) <;> simp
  simp only [this, Option.bind_eq_bind, Option.bind_none]
  cases List.mapM (readElem F) js <;> rfl

/-- Non-vacuity of the round trip: the sample. -/
example : ∃ st, mk [sampleA1] [sampleBond] sampleCS sampleCB = some st ∧ Spec.Consistent st ∧ Spec.Square 1 3 st ∧ Spec.Real st ∧ unaryFmt.Lawful := by
  obtain ⟨st, h⟩ := sampleBp_built
  obtain ⟨e1, e2, e3, e4, hc⟩ := mk_inv h
  refine ⟨st, h, hc, ⟨?_, ?_⟩, ⟨?_, ?_, ?_, ?_⟩, unaryFmt_lawful⟩
  · intro e he; rw [e1] at he; simp at he; subst he; rfl
  · intro e he; rw [e2] at he; simp at he; subst he; rfl
  · intro e he; rw [e1] at he; simp at he; subst he; exact ⟨rfl, fun _ => rfl⟩
  · intro e he; rw [e2] at he; simp at he; subst he; exact ⟨rfl, fun _ => rfl⟩
  · rw [e3]; exact ⟨rfl, fun _ => rfl⟩
  · rw [e4]; exact ⟨rfl, fun _ => rfl⟩

/-- A chiral state with complex bond tensors, the only chiral states that can be built. -/
def sampleBondC : Elem Int := ⟨none, ['b'], ⟨true, ⟨[3, 3], fun i => (1, i.getD 1 0)⟩⟩⟩
def sampleCS2 : CTensor Int := ⟨false, ⟨[2], fun i => (2 + i.getD 0 0, 0)⟩⟩

/-- Non-vacuity of `C136_complex_violated`. -/
example : ∃ st, mk [sampleA1, sampleA2] [sampleBondC] sampleCS2 sampleCB = some st ∧ sampleBondC ∈ st.bond ∧ sampleBondC.t.t.val [0, 1] ≠ (0, 0) ∧
    (∀ z, IsToken (unaryFmt.encC z)) := by
  obtain ⟨st, h⟩ : ∃ st, mk [sampleA1, sampleA2] [sampleBondC] sampleCS2 sampleCB = some st := Option.isSome_iff_exists.1 (by decide)
  exact ⟨st, h, by rw [(mk_inv h).2.1]; simp, by decide, unary_tokC⟩

/-- A site tensor that is not symmetric: the value depends on the index "up" only. -/
def sampleUp : Elem Int := ⟨some ['A', '_', '1'], [], ⟨false, ⟨[1, 2, 2, 2, 2], fun i => (i.getD 1 0, 0)⟩⟩⟩
def sampleBond2 : Elem Int := ⟨none, [], ⟨false, ⟨[2, 2], fun i => (if i.getD 0 0 = i.getD 1 0 then 1 else 0, 0)⟩⟩⟩

theorem sampleUp_built : ∃ st, mk [sampleUp] [sampleBond2] sampleCB sampleCB = some st := Option.isSome_iff_exists.1 (by decide)

/-- C136 violated for other orders: written and read with the same order [left, up, right, down], the state comes back with other site tensors. -/
theorem C136_order_violated : ∃ (st : BState Int) (aux : List Nat), aux.Perm [0, 1, 2, 3] ∧ Spec.Consistent st ∧ Spec.Square 1 2 st ∧ Spec.Real st ∧
    ∀ F : NumFmt Int, F.Lawful → ∀ j st', writeBp F st aux = some j → readBp F j aux = some st' →
      ¬ List.Forall₂ Spec.SameElem st.site st'.site := by
  obtain ⟨st, h⟩ := sampleUp_built
  obtain ⟨e1, e2, e3, e4, hc⟩ := mk_inv h
  refine ⟨st, [1, 0, 3, 2], by decide, hc, ⟨?_, ?_⟩, ⟨?_, ?_, ?_, ?_⟩, ?_⟩
  · intro e he; rw [e1] at he; simp at he; subst he; rfl
  · intro e he; rw [e2] at he; simp at he; subst he; rfl
  · intro e he; rw [e1] at he; simp at he; subst he; exact ⟨rfl, fun _ => rfl⟩
  · intro e he; rw [e2] at he; simp at he; subst he; exact ⟨rfl, fun _ => rfl⟩
  · rw [e3]; exact ⟨rfl, fun _ => rfl⟩
  · rw [e4]; exact ⟨rfl, fun _ => rfl⟩
  · intro F hF j st' hw hr hsame
    unfold writeBp at hw
    simp only [Option.bind_eq_bind, Option.bind_eq_some_iff, Option.some.injEq] at hw
    obtain ⟨js, hjs, jbs, _, jcs, _, jcb, _, rfl⟩ := hw
    unfold readBp at hr
    simp only [Option.bind_eq_bind, Option.bind_eq_some_iff] at hr
    obtain ⟨es', hes', eb', _, cs', _, cb', _, hr⟩ := hr
    rw [(mk_inv hr).1, e1] at hsame
    rw [e1] at hjs
    obtain ⟨jx, hw1, x, hr1, hrel⟩ := elem_roundtrip F hF [1, 0, 3, 2] (by decide) 1 2 sampleUp rfl rfl (fun _ => rfl)
    have e5 : js = [jx] := by
      have hw1' : writeElem F [2, 1, 4, 3] sampleUp = some jx := hw1
      simp [List.mapM_cons, hw1'] at hjs
      exact hjs.symm
    subst e5
    have e6 : es' = [x] := by
      simp [List.mapM_cons, hr1] at hes'
      exact hes'.symm
    subst e6
    cases hsame with
    | cons hx _ =>
      have q1 := hx.2.2.2.2 [0, 1, 0, 0, 0] (by decide)
      have q2 := hrel.2.2.2.2.2 0 (fun k => [0, 1, 0, 0].getD k 0) (by omega) (by
        intro k hk
        rcases k with _ | _ | _ | _ | k <;> simp at * <;> omega)
      change x.t.t.val [0, 1, 0, 0, 0] = (0, 0) at q2
      rw [q2] at q1
      exact absurd q1 (by decide)

/-- Non-vacuity: that state is written and read back without an error, with the unary number format. -/
example : ∃ st j st', mk [sampleUp] [sampleBond2] sampleCB sampleCB = some st ∧ writeBp unaryFmt st [1, 0, 3, 2] = some j ∧ readBp unaryFmt j [1, 0, 3, 2] = some st' := by
  obtain ⟨st, h⟩ := sampleUp_built
  have e : ((mk [sampleUp] [sampleBond2] sampleCB sampleCB).bind (fun st => (writeBp unaryFmt st [1, 0, 3, 2]).bind (fun j => (readBp unaryFmt j [1, 0, 3, 2]).map (fun _ => ())))).isSome = true := by decide +kernel
  rw [h] at e
  cases hw : writeBp unaryFmt st [1, 0, 3, 2] with
  | none => simp [hw] at e
  | some j =>
    cases hr : readBp unaryFmt j [1, 0, 3, 2] with
    | none => simp [hw, hr] at e
    | some st' => exact ⟨st, j, st', h, hw, hr⟩

end Verif.LcBp
