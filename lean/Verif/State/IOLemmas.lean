import Verif.State.IOModel
/- Helper lemmas for state input/output. -/
namespace Verif.State
open Verif.Lattice (Vertex)
variable {R : Type}

theorem splitGo_append (w rest cur : Str) (hw : ∀ c ∈ w, ws c = false) :
    splitGo (w ++ rest) cur = splitGo rest (w.reverse ++ cur) := by
  induction w generalizing cur with
  | nil => rfl
  | cons c cs ih =>
    have hc : ws c = false := hw c (by simp)
    simp only [List.cons_append, splitGo, hc, Bool.false_eq_true, if_false]
    rw [ih _ (fun d hd => hw d (by simp [hd]))]
    simp

theorem split_token (w : Str) (hw : IsToken w) : split w = [w] := by
  have := splitGo_append w [] [] hw.2
  simp only [List.append_nil] at this
  rw [split, this, splitGo]
  have : w.reverse.isEmpty = false := by simpa using hw.1
  simp [this]

theorem split_token_sp (w rest : Str) (hw : IsToken w) :
    split (w ++ ' ' :: rest) = w :: split rest := by
  rw [split, splitGo_append w _ [] hw.2, splitGo]
  have : w.reverse.isEmpty = false := by simpa using hw.1
  simp [ws, this, split]

theorem split_sp (rest : Str) : split (' ' :: rest) = split rest := by
  simp [split, splitGo, ws]

theorem split_join_sp (l : List Str) (rest : Str) (hl : ∀ w ∈ l, IsToken w) :
    split (join l ++ ' ' :: rest) = l ++ split rest := by
  induction l with
  | nil => simp [join, split_sp]
  | cons w l ih =>
    cases l with
    | nil => simp [join, split_token_sp w rest (hl w (by simp))]
    | cons w' l' =>
      have e : join (w :: w' :: l') ++ ' ' :: rest = w ++ ' ' :: (join (w' :: l') ++ ' ' :: rest) := by
        simp [join]
      rw [e, split_token_sp w _ (hl w (by simp)), ih (fun v hv => hl v (by simp [hv]))]
      rfl

theorem mapM_some_of {α β : Type} (f : α → Option β) (l : List α) (g : α → β)
    (h : ∀ a ∈ l, f a = some (g a)) : l.mapM f = some (l.map g) := by
  induction l with
  | nil => rfl
  | cons a l ih =>
    rw [List.mapM_cons, h a (by simp), ih (fun b hb => h b (by simp [hb]))]
    rfl

theorem mapM_dec_enc (F : NumFmt R) (hF : F.Lawful) (l : List Nat) :
    (l.map F.encN).mapM F.decN = some l := by
  rw [mapM_some_of F.decN (l.map F.encN) (fun s => (F.decN s).getD 0)]
  · simp [Function.comp_def, hF.decN_encN]
  · intro a ha
    obtain ⟨n, _, rfl⟩ := List.mem_map.1 ha
    simp [hF.decN_encN]

/-- float64 tensors have no imaginary part -/
def RealOk [Zero R] (X : CTensor R) : Prop :=
  X.cplx = false → ∀ idx, Tensor.InB X.t.shape idx → (X.t.val idx).2 = 0

/-- the text written for one entry -/
def entryText (F : NumFmt R) (X : CTensor R) (ei : List Nat) : Str :=
  if X.cplx then
    join (ei.map F.encN) ++ ' ' :: F.encR (X.t.val ei).1 ++ ' ' :: F.encR (X.t.val ei).2
  else join (ei.map F.encN) ++ ' ' :: F.encR (X.t.val ei).1

theorem readEntry_text [AddMonoid R] (F : NumFmt R) (hF : F.Lawful) (X : CTensor R)
    (hX : RealOk X) (val : List Nat → R × R) (ei : List Nat) (hei : Tensor.InB X.t.shape ei)
    (h0 : val ei = (0, 0)) :
    readEntry F X.cplx X.t.shape val (entryText F X ei) = some (setAt val ei (X.t.val ei)) := by
  have hlen : ei.length = X.t.shape.length := hei.length
  have htok : ∀ w ∈ ei.map F.encN, IsToken w := by
    intro w hw
    obtain ⟨n, _, rfl⟩ := List.mem_map.1 hw
    exact hF.tokN n
  cases hc : X.cplx with
  | true =>
    have hs : split (entryText F X ei) =
        ei.map F.encN ++ [F.encR (X.t.val ei).1, F.encR (X.t.val ei).2] := by
      simp only [entryText, hc, if_true]
      rw [List.append_assoc, List.cons_append, split_join_sp _ _ htok,
        split_token_sp _ _ (hF.tokR _), split_token _ (hF.tokR _)]
    simp only [readEntry, hs]
    have hl : (ei.map F.encN ++ [F.encR (X.t.val ei).1, F.encR (X.t.val ei).2]).length =
        ei.length + 2 := by simp
    have e1 : List.take (ei.length + 2 - 2)
        (ei.map F.encN ++ [F.encR (X.t.val ei).1, F.encR (X.t.val ei).2]) = ei.map F.encN := by
      simp [List.take_append]
    have e2 : (ei.map F.encN ++ [F.encR (X.t.val ei).1, F.encR (X.t.val ei).2]).getD
        (ei.length + 2 - 2) [] = F.encR (X.t.val ei).1 := by
      simp [List.getD_eq_getElem?_getD, List.getElem?_append]
    have e3 : (ei.map F.encN ++ [F.encR (X.t.val ei).1, F.encR (X.t.val ei).2]).getD
        (ei.length + 2 - 1) [] = F.encR (X.t.val ei).2 := by
      simp [List.getD_eq_getElem?_getD, List.getElem?_append]
    simp only [hl, if_true, e1, e2, e3]
    rw [if_neg (by omega), mapM_dec_enc F hF]
    simp [hei, hF.decR_encR]
  | false =>
    have hs : split (entryText F X ei) = ei.map F.encN ++ [F.encR (X.t.val ei).1] := by
      simp only [entryText, hc, Bool.false_eq_true, if_false]
      rw [split_join_sp _ _ htok, split_token _ (hF.tokR _)]
    simp only [readEntry, hs]
    have hl : (ei.map F.encN ++ [F.encR (X.t.val ei).1]).length = X.t.shape.length + 1 := by
      simp [hlen]
    have e1 : List.take (X.t.shape.length + 1 - 1)
        (ei.map F.encN ++ [F.encR (X.t.val ei).1]) = ei.map F.encN := by
      rw [← hlen]; simp [List.take_append]
    have e2 : (ei.map F.encN ++ [F.encR (X.t.val ei).1]).getD
        (X.t.shape.length + 1 - 1) [] = F.encR (X.t.val ei).1 := by
      rw [← hlen]; simp [List.getD_eq_getElem?_getD, List.getElem?_append]
    simp only [hl, if_true, Bool.false_eq_true, if_false, e1, e2]
    rw [if_neg (by omega), mapM_dec_enc F hF]
    have him := hX hc ei hei
    simp only [Option.bind_eq_bind, Option.bind_some, hei, if_true, hF.decR_encR, h0, zero_add]
    congr 2
    rw [← him]

theorem foldl_entries [AddMonoid R] (F : NumFmt R) (hF : F.Lawful) (X : CTensor R)
    (hX : RealOk X) : ∀ (L : List (List Nat)) (val : List Nat → R × R), L.Nodup →
      (∀ ei ∈ L, Tensor.InB X.t.shape ei ∧ val ei = (0, 0)) →
      ∃ out, (L.map (entryText F X)).foldlM (readEntry F X.cplx X.t.shape) val = some out ∧
        ∀ idx, out idx = if idx ∈ L then X.t.val idx else val idx := by
  intro L
  induction L with
  | nil => intro val _ _; exact ⟨val, rfl, by simp⟩
  | cons ei L ih =>
    intro val hn h
    rw [List.nodup_cons] at hn
    obtain ⟨h1, h2⟩ := h ei (by simp)
    obtain ⟨out, ho, hv⟩ := ih (setAt val ei (X.t.val ei)) hn.2 (by
      intro e he
      refine ⟨(h e (by simp [he])).1, ?_⟩
      have : e ≠ ei := by rintro rfl; exact hn.1 he
      simp [setAt, this, (h e (by simp [he])).2])
    refine ⟨out, ?_, ?_⟩
    · rw [List.map_cons, List.foldlM_cons, readEntry_text F hF X hX val ei h1 h2]
      exact ho
    · intro idx
      rw [hv idx]
      by_cases he : idx = ei
      · subst he; simp [hn.1, setAt]
      · simp [setAt, he]

/-- Reading back one serialised tensor. -/
theorem read_serialized [AddMonoid R] (F : NumFmt R) (hF : F.Lawful) (fm : Format) (id : Str)
    (X : CTensor R) (hX : RealOk X) (j : JTensor)
    (hj : j = serialize F fm id X) :
    ∃ Y, readTensor F j = some Y ∧
      Y.cplx = X.cplx ∧ X.t.Same Y.t := by
  cases fm with
  | legacy =>
    simp only [serialize] at hj
    subst hj
    obtain ⟨out, ho, hv⟩ := foldl_entries F hF X hX (Tensor.indices X.t.shape) (fun _ => (0, 0))
      (Tensor.nodup_indices _) (fun ei hei => ⟨Tensor.mem_indices.1 hei, rfl⟩)
    refine ⟨⟨X.cplx, ⟨X.t.shape, out⟩⟩, ?_, rfl, rfl, ?_⟩
    · show readLegacy F (serializeLegacy F id X) = _
      simp only [serializeLegacy, readLegacy]
      have e : (fun ei => if X.cplx = true then
          join (List.map F.encN ei) ++ ' ' :: F.encR (X.t.val ei).1 ++ ' ' :: F.encR (X.t.val ei).2
          else join (List.map F.encN ei) ++ ' ' :: F.encR (X.t.val ei).1) = entryText F X := rfl
      rw [e, ho]
      rfl
    · intro idx hi
      simp only []
      rw [hv idx, if_pos (Tensor.mem_indices.2 hi)]
  | flat =>
    simp only [serialize] at hj
    subst hj
    have hm : ((Tensor.indices X.t.shape).map (fun ei =>
        if X.cplx then F.encC (X.t.val ei) else F.encR (X.t.val ei).1)).mapM
        (fun s => if X.cplx then F.decC s else (F.decR s).map (fun x => (x, (0 : R)))) =
        some ((Tensor.indices X.t.shape).map X.t.val) := by
      rw [List.mapM_map]
      apply mapM_some_of
      intro ei hei
      cases hc : X.cplx with
      | true => simp [hF.decC_encC]
      | false =>
        have := hX hc ei (Tensor.mem_indices.1 hei)
        simp [hF.decR_encR]
        exact Prod.ext rfl this.symm
    refine ⟨⟨X.cplx, ⟨X.t.shape, fun idx => ((Tensor.indices X.t.shape).map X.t.val).getD
      (Tensor.ravel X.t.shape idx) (0, 0)⟩⟩, ?_, rfl, rfl, ?_⟩
    · have : readFlat F (serializeFlat F id X) = Option.bind
          (((Tensor.indices X.t.shape).map (fun ei =>
            if X.cplx then F.encC (X.t.val ei) else F.encR (X.t.val ei).1)).mapM
            (fun s => if X.cplx then F.decC s else (F.decR s).map (fun x => (x, (0 : R)))))
          (fun data => if data.length = X.t.shape.prod then
            some ⟨X.cplx, ⟨X.t.shape, fun idx => data.getD (Tensor.ravel X.t.shape idx) (0, 0)⟩⟩
          else none) := rfl
      show readFlat F (serializeFlat F id X) = _
      rw [this, hm, Option.bind_some, if_pos (by simp [Tensor.length_indices])]
    · intro idx hi
      simp [List.getD_eq_getElem?_getD, Tensor.getElem?_indices_ravel hi]

theorem dictSet_new {α : Type} (k : Vertex) (v : α) (l : List (Vertex × α))
    (h : k ∉ l.map (·.1)) : dictSet k v l = l ++ [(k, v)] := by
  induction l with
  | nil => rfl
  | cons e es ih =>
    simp only [List.map_cons, List.mem_cons, not_or] at h
    simp [dictSet, Ne.symm h.1, ih h.2]

theorem siteName_inj (F : NumFmt R) (hF : F.Lawful) {a b : Nat}
    (h : siteName F a = siteName F b) : a = b := by
  simp only [siteName, List.cons.injEq, true_and] at h
  have := hF.decN_encN a
  rw [h, hF.decN_encN b] at this
  simpa using this.symm

theorem findSite_foldl (sites : List JTensor) (id : Str) (acc : Option JTensor) (j : JTensor)
    (hj : j ∈ sites) (hid : j.siteId = id) (hu : ∀ s ∈ sites, s.siteId = id → s = j) :
    sites.foldl (fun acc s => if s.siteId = id then some s else acc) acc = some j := by
  induction sites generalizing acc with
  | nil => simp at hj
  | cons s ss ih =>
    rw [List.foldl_cons]
    by_cases hm : j ∈ ss
    · exact ih _ hm (fun t ht h => hu t (by simp [ht]) h)
    · have hs : s = j := by
        rcases List.mem_cons.1 hj with h | h
        · exact h.symm
        · exact absurd h hm
      subst hs
      rw [if_pos hid]
      have : ∀ (l : List JTensor) (a : Option JTensor), (∀ t ∈ l, t.siteId ≠ id) →
          l.foldl (fun acc s => if s.siteId = id then some s else acc) a = a := by
        intro l
        induction l with
        | nil => intro a _; rfl
        | cons t ts iht =>
          intro a h
          rw [List.foldl_cons, if_neg (h t (by simp))]
          exact iht a (fun u hu => h u (by simp [hu]))
      apply this
      intro t ht h
      have := hu t (by simp [ht]) h
      rw [this] at ht
      exact hm ht

end Verif.State
