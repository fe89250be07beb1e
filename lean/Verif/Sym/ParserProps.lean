import Verif.Sym.ParserSpec
/-
C146: the parser of files of symmetric tensors reads what is written.
-/
namespace Verif.SymTen
open Spec

theorem splitMeta_step {f : Str} (hf : NoSep f) (rest acc : Str) : splitMeta (f ++ [',', ' ', '\''] ++ rest) acc = (acc ++ f) :: splitMeta rest [] := by
  induction f generalizing acc with
  | nil => simp [splitMeta]
  | cons c f ih =>
    have hf' : NoSep f := fun a b h => hf (c :: a) b (by rw [h]; rfl)
    have : splitMeta (c :: (f ++ [',', ' ', '\''] ++ rest)) acc = splitMeta (f ++ [',', ' ', '\''] ++ rest) (acc ++ [c]) := by
      rw [splitMeta]
      rintro cs rfl h
      match f, h with
      | [], h => simp at h
      | [x], h => simp at h
      | x :: y :: g, h =>
        simp only [List.cons_append, List.cons.injEq] at h
        obtain ⟨rfl, rfl, -⟩ := h
        exact hf [] g rfl
    rw [List.cons_append, List.cons_append, this, ih hf']
    simp

theorem splitMeta_end {f : Str} (hf : NoSep f) (acc : Str) : splitMeta f acc = [acc ++ f] := by
  induction f generalizing acc with
  | nil => simp [splitMeta]
  | cons c f ih =>
    have hf' : NoSep f := fun a b h => hf (c :: a) b (by rw [h]; rfl)
    rw [splitMeta, ih hf']
    · simp
    · rintro cs rfl rfl
      exact hf [] cs rfl

theorem splitMeta_sepBy {l : List Str} (hne : l ≠ []) (h : ∀ f ∈ l, NoSep f) : splitMeta (sepBy [',', ' ', '\''] l) [] = l := by
  induction l with
  | nil => exact absurd rfl hne
  | cons f l ih =>
    cases l with
    | nil => exact splitMeta_end (h f (by simp)) []
    | cons g l =>
      rw [sepBy, splitMeta_step (h f (by simp)), List.nil_append, ih (by simp) (fun x hx => h x (List.mem_cons_of_mem _ hx))]

theorem metaEntry_ok {e : Str × Str} (h : Avoids [':'] e.1) : metaEntry (entryText e) = (e.1, strip e.2) := by
  have hi : (entryText e).findIdx? (· == ':') = some (e.1.length + 1) := by
    rw [List.findIdx?_eq_some_iff_getElem]
    refine ⟨by simp [entryText], by simp [entryText], fun j hj => ?_⟩
    simp only [entryText, List.append_assoc]
    by_cases hl : j < e.1.length
    · rw [List.getElem_append_left hl]
      have := h _ (List.getElem_mem hl)
      simpa using this
    · have : j = e.1.length := by omega
      subst this
      simp
  unfold metaEntry
  rw [hi]
  simp only
  congr 1
  · simp [entryText]
  · have : (entryText e).drop (e.1.length + 2) = e.2 := by
      unfold entryText
      exact List.drop_left' (by simp)
    rw [this]

theorem parseMeta_ok {r : Rec} (h : Ok r) : parseMeta (metaText r) = r.entries.map (fun e => (e.1, strip e.2)) := by
  unfold parseMeta metaText
  rw [List.drop_one, List.tail_cons, splitMeta_sepBy]
  · rw [List.map_map]
    exact List.map_congr_left fun e he => metaEntry_ok (h.colon e he)
  · simpa using h.nonempty
  · intro f hf
    obtain ⟨e, he, rfl⟩ := List.mem_map.mp hf
    exact h.sep e he

/-- Text without parentheses is collected. -/
theorem elem_plain {s : Str} (h : Avoids ['(', ')'] s) (n : Int) (bf : Str) (raw : List Str) : s.foldl elemStep ⟨n, bf, raw⟩ = ⟨n, bf ++ s, raw⟩ := by
  induction s generalizing bf with
  | nil => simp
  | cons c s ih =>
    have hc := h c (by simp)
    simp only [List.mem_cons, List.not_mem_nil, or_false, not_or] at hc
    rw [List.foldl_cons]
    have : elemStep ⟨n, bf, raw⟩ c = ⟨n, bf ++ [c], raw⟩ := by unfold elemStep; rw [if_neg hc.1, if_neg hc.2]
    rw [this, ih (fun x hx => h x (List.mem_cons_of_mem _ hx))]
    simp

/-- Balanced text inside an element is collected. -/
theorem elem_balanced {s : Str} (h : Balanced s) {n : Int} (hn : 0 < n) (bf : Str) (raw : List Str) : s.foldl elemStep ⟨n, bf, raw⟩ = ⟨n, bf ++ s, raw⟩ := by
  induction h generalizing n bf with
  | nil => simp
  | @char c s h1 h2 _ ih =>
    rw [List.foldl_cons]
    have : elemStep ⟨n, bf, raw⟩ c = ⟨n, bf ++ [c], raw⟩ := by unfold elemStep; rw [if_neg h1, if_neg h2]
    rw [this, ih hn]
    simp
  | @paren s t _ _ ih1 ih2 =>
    rw [List.cons_append, List.foldl_cons, List.foldl_append, List.foldl_cons]
    have e1 : elemStep ⟨n, bf, raw⟩ '(' = ⟨n + 1, bf ++ ['('], raw⟩ := by
      unfold elemStep
      rw [if_pos rfl]
      simp only
      rw [if_neg (by omega)]
    rw [e1, ih1 (by omega)]
    have e2 : elemStep ⟨n + 1, bf ++ ['('] ++ s, raw⟩ ')' = ⟨n, bf ++ ['('] ++ s ++ [')'], raw⟩ := by
      unfold elemStep
      rw [if_neg (by decide), if_pos rfl]
      simp only
      rw [if_neg (by omega), add_sub_cancel_right]
    rw [e2, ih2 hn]
    simp

theorem avoids_sub {cs ds : List Char} {s : Str} (h : Avoids cs s) (hd : ∀ c ∈ ds, c ∈ cs) : Avoids ds s := fun c hc hm => h c hc (hd c hm)

theorem avoids_append {cs : List Char} {s t : Str} (h : Avoids cs s) (h' : Avoids cs t) : Avoids cs (s ++ t) := by
  intro c hc
  rcases List.mem_append.mp hc with hc | hc
  · exact h c hc
  · exact h' c hc

theorem avoids_sepBy {cs : List Char} {sep : Str} (hs : Avoids cs sep) {l : List Str} (h : ∀ x ∈ l, Avoids cs x) : Avoids cs (sepBy sep l) := by
  induction l with
  | nil => intro c hc; simp [sepBy] at hc
  | cons x l ih =>
    cases l with
    | nil => exact h x (by simp)
    | cons y l => exact avoids_append (avoids_append (h x (by simp)) hs) (ih (fun z hz => h z (List.mem_cons_of_mem _ hz)))

/-- The buffer of one element. -/
def body (e : Str × List Str × Str) : Str := ['('] ++ sepBy [','] e.2.1 ++ [')', ','] ++ e.2.2 ++ [')']

theorem elem_one {e : Str × List Str × Str} (hg : Avoids ['{', ']', '(', ')'] e.1) (hi : ∀ x ∈ e.2.1, Avoids ['{', ']', '(', ')', ','] x) (hv : Balanced e.2.2) (bf : Str) (raw : List Str) :
    (elemText e).foldl elemStep ⟨0, bf, raw⟩ = ⟨0, [], raw ++ [body e]⟩ := by
  have hidx : Avoids ['(', ')'] (sepBy [','] e.2.1) := avoids_sepBy (by intro c hc; simp at hc; subst hc; decide) (fun x hx => avoids_sub (hi x hx) (by decide))
  unfold elemText
  simp only [List.append_assoc, List.foldl_append]
  rw [elem_plain (avoids_sub hg (by decide))]
  have e1 : List.foldl elemStep ⟨0, bf ++ e.1, raw⟩ ['(', '('] = ⟨2, ['('], raw⟩ := by simp [elemStep]
  rw [e1, elem_plain hidx]
  have e2 : List.foldl elemStep ⟨2, ['('] ++ sepBy [','] e.2.1, raw⟩ [')', ','] = ⟨1, ['('] ++ sepBy [','] e.2.1 ++ [')', ','], raw⟩ := by simp [elemStep]
  rw [e2, elem_balanced hv (by decide)]
  simp [elemStep, body]

theorem elems_loop (l : List (Str × List Str × Str)) (hg : ∀ e ∈ l, Avoids ['{', ']', '(', ')'] e.1) (hi : ∀ e ∈ l, ∀ x ∈ e.2.1, Avoids ['{', ']', '(', ')', ','] x)
    (hv : ∀ e ∈ l, Balanced e.2.2) (bf : Str) (raw : List Str) : ∃ bf', (l.flatMap elemText).foldl elemStep ⟨0, bf, raw⟩ = ⟨0, bf', raw ++ l.map body⟩ := by
  induction l generalizing bf raw with
  | nil => exact ⟨bf, by simp⟩
  | cons e l ih =>
    rw [List.flatMap_cons, List.foldl_append, elem_one (hg e (by simp)) (hi e (by simp)) (hv e (by simp))]
    obtain ⟨bf', h⟩ := ih (fun x hx => hg x (List.mem_cons_of_mem _ hx)) (fun x hx => hi x (List.mem_cons_of_mem _ hx)) (fun x hx => hv x (List.mem_cons_of_mem _ hx)) [] (raw ++ [body e])
    exact ⟨bf', by rw [h]; simp⟩

theorem findEnd_ok {s : Str} (h : Avoids [')'] s) (rest : Str) : findEnd (s ++ ')' :: ',' :: rest) = some s.length := by
  induction s with
  | nil => simp [findEnd]
  | cons c s ih =>
    have hc : c ≠ ')' := by simpa using h c (by simp)
    rw [List.cons_append, findEnd, ih (fun x hx => h x (List.mem_cons_of_mem _ hx))]
    · simp
    · intro tail hcc _
      exact hc hcc

theorem splitComma_sepBy {l : List Str} (hne : l ≠ []) (h : ∀ x ∈ l, Avoids [','] x) (acc : Str) :
    splitComma (sepBy [','] l) acc = (acc ++ l.headD []) :: l.tail := by
  have plain : ∀ (x : Str), Avoids [','] x → ∀ acc, splitComma x acc = [acc ++ x] := by
    intro x
    induction x with
    | nil => intro _ acc; simp [splitComma]
    | cons c x ih =>
      intro hx acc
      have hc : c ≠ ',' := by simpa using hx c (by simp)
      rw [splitComma, if_neg hc, ih (fun y hy => hx y (List.mem_cons_of_mem _ hy))]
      simp
  have step : ∀ (x : Str), Avoids [','] x → ∀ rest acc, splitComma (x ++ [','] ++ rest) acc = (acc ++ x) :: splitComma rest [] := by
    intro x
    induction x with
    | nil => intro _ rest acc; simp [splitComma]
    | cons c x ih =>
      intro hx rest acc
      have hc : c ≠ ',' := by simpa using hx c (by simp)
      rw [List.cons_append, List.cons_append, splitComma, if_neg hc, ih (fun y hy => hx y (List.mem_cons_of_mem _ hy))]
      simp
  induction l generalizing acc with
  | nil => exact absurd rfl hne
  | cons x l ih =>
    cases l with
    | nil => simp [sepBy, plain x (h x (by simp))]
    | cons y l =>
      rw [sepBy, step x (h x (by simp)), ih (by simp) (fun z hz => h z (List.mem_cons_of_mem _ hz))]
      simp

theorem parseElem_ok {K : Type} (int : Str → Option Int) (eval : Str → Option K) {e : Str × List Str × Str} (hne : e.2.1 ≠ []) (hi : ∀ x ∈ e.2.1, Avoids ['{', ']', '(', ')', ','] x) :
    parseElem int eval (body e) = (do let i ← e.2.1.mapM int; let v ← eval e.2.2; some (i, v)) := by
  have hs : body e = ('(' :: sepBy [','] e.2.1) ++ ')' :: ',' :: (e.2.2 ++ [')']) := by simp [body]
  have ha : Avoids [')'] ('(' :: sepBy [','] e.2.1) := by
    intro c hc
    rcases List.mem_cons.mp hc with rfl | hc
    · decide
    · exact avoids_sepBy (by intro c hc; simp at hc; subst hc; decide) (fun x hx => avoids_sub (hi x hx) (by decide)) c hc
  unfold parseElem
  rw [hs, findEnd_ok ha]
  have e1 : (List.take ('(' :: sepBy [','] e.2.1).length (('(' :: sepBy [','] e.2.1) ++ ')' :: ',' :: (e.2.2 ++ [')']))).drop 1 = sepBy [','] e.2.1 := by
    rw [List.take_left]; rfl
  have e2 : (List.drop (('(' :: sepBy [','] e.2.1).length + 2) (('(' :: sepBy [','] e.2.1) ++ ')' :: ',' :: (e.2.2 ++ [')']))).dropLast = e.2.2 := by
    have : ('(' :: sepBy [','] e.2.1) ++ ')' :: ',' :: (e.2.2 ++ [')']) = (('(' :: sepBy [','] e.2.1) ++ [')', ',']) ++ (e.2.2 ++ [')']) := by simp
    rw [this, List.drop_left' (by simp)]
    simp
  have e3 : splitComma (sepBy [','] e.2.1) [] = e.2.1 := by
    rw [splitComma_sepBy hne (fun x hx => avoids_sub (hi x hx) (by decide))]
    cases h : e.2.1 with
    | nil => exact absurd h hne
    | cons a b => simp
  simp only [Option.bind_eq_bind, Option.bind_some, e1, e2, e3]

theorem parseElems_ok {K : Type} (int : Str → Option Int) (eval : Str → Option K) {r : Rec} (h : Ok r) :
    parseElems int eval (r.elems.flatMap elemText ++ r.tail) = r.elems.mapM (fun e => do let i ← e.2.1.mapM int; let v ← eval e.2.2; some (i, v)) := by
  unfold parseElems
  rw [List.foldl_append]
  obtain ⟨bf, hb⟩ := elems_loop r.elems h.glue (fun e he => (h.inds e he).2) (fun e he => (h.value e he).2) [] []
  rw [hb, elem_plain (avoids_sub h.tail (by decide))]
  simp only [List.nil_append]
  have : ∀ l : List (Str × List Str × Str), (∀ e ∈ l, e ∈ r.elems) → (l.map body).mapM (parseElem int eval) = l.mapM (fun e => do let i ← e.2.1.mapM int; let v ← eval e.2.2; some (i, v)) := by
    intro l
    induction l with
    | nil => intro _; rfl
    | cons e l ih =>
      intro hl
      rw [List.map_cons, List.mapM_cons, List.mapM_cons, ih (fun x hx => hl x (List.mem_cons_of_mem _ hx)), parseElem_ok int eval (h.inds e (hl e (by simp))).1 (h.inds e (hl e (by simp))).2]
  exact this r.elems (fun _ h => h)

/-- Text before a tensor is skipped. -/
theorem skip0 {s : Str} (h : Avoids ['('] s) (bf : Str) (mt rt : List Str) : s.foldl classStep ⟨false, false, false, bf, mt, rt⟩ = ⟨false, false, false, bf, mt, rt⟩ := by
  induction s with
  | nil => rfl
  | cons c s ih =>
    have hc : c ≠ '(' := by simpa using h c (by simp)
    rw [List.foldl_cons]
    have : classStep ⟨false, false, false, bf, mt, rt⟩ c = ⟨false, false, false, bf, mt, rt⟩ := by simp [classStep, hc]
    rw [this, ih (fun x hx => h x (List.mem_cons_of_mem _ hx))]

/-- Text between the parts of a tensor is skipped. -/
theorem skip1 {s : Str} (h : Avoids ['{', '[', ')'] s) (bf : Str) (mt rt : List Str) : s.foldl classStep ⟨true, false, false, bf, mt, rt⟩ = ⟨true, false, false, bf, mt, rt⟩ := by
  induction s with
  | nil => rfl
  | cons c s ih =>
    have hc := h c (by simp)
    simp only [List.mem_cons, List.not_mem_nil, or_false, not_or] at hc
    rw [List.foldl_cons]
    have : classStep ⟨true, false, false, bf, mt, rt⟩ c = ⟨true, false, false, bf, mt, rt⟩ := by simp [classStep, hc]
    rw [this, ih (fun x hx => h x (List.mem_cons_of_mem _ hx))]

theorem inMeta {s : Str} (h : Avoids ['{', '}'] s) (bf : Str) (mt rt : List Str) : s.foldl classStep ⟨true, true, false, bf, mt, rt⟩ = ⟨true, true, false, bf ++ s, mt, rt⟩ := by
  induction s generalizing bf with
  | nil => simp
  | cons c s ih =>
    have hc := h c (by simp)
    simp only [List.mem_cons, List.not_mem_nil, or_false, not_or] at hc
    rw [List.foldl_cons]
    have : classStep ⟨true, true, false, bf, mt, rt⟩ c = ⟨true, true, false, bf ++ [c], mt, rt⟩ := by simp [classStep, hc]
    rw [this, ih (fun x hx => h x (List.mem_cons_of_mem _ hx))]
    simp

theorem inElem {s : Str} (h : Avoids ['{', ']'] s) (bf : Str) (mt rt : List Str) : s.foldl classStep ⟨true, false, true, bf, mt, rt⟩ = ⟨true, false, true, bf ++ s, mt, rt⟩ := by
  induction s generalizing bf with
  | nil => simp
  | cons c s ih =>
    have hc := h c (by simp)
    simp only [List.mem_cons, List.not_mem_nil, or_false, not_or] at hc
    rw [List.foldl_cons]
    have : classStep ⟨true, false, true, bf, mt, rt⟩ c = ⟨true, false, true, bf ++ [c], mt, rt⟩ := by simp [classStep, hc]
    rw [this, ih (fun x hx => h x (List.mem_cons_of_mem _ hx))]
    simp

theorem avoids_lit {cs s : List Char} (h : ∀ c ∈ s, c ∉ cs) : Avoids cs s := h

theorem metaText_avoids {r : Rec} (h : Ok r) : Avoids ['{', '}'] (metaText r) := by
  unfold metaText
  refine avoids_append (s := ['\'']) (avoids_lit (by decide)) (avoids_sepBy (avoids_lit (by decide)) ?_)
  intro x hx
  obtain ⟨e, he, rfl⟩ := List.mem_map.mp hx
  exact avoids_append (avoids_append (h.braces e he).1 (avoids_lit (by decide))) (h.braces e he).2

theorem elemsText_avoids {r : Rec} (h : Ok r) : Avoids ['{', ']'] (r.elems.flatMap elemText ++ r.tail) := by
  refine avoids_append ?_ (avoids_sub h.tail (by decide))
  intro c hc
  obtain ⟨e, he, hc⟩ := List.mem_flatMap.mp hc
  refine (?_ : Avoids ['{', ']'] (elemText e)) c hc
  unfold elemText
  refine avoids_append (avoids_append (avoids_append (avoids_append (avoids_append (avoids_sub (h.glue e he) (by decide)) (avoids_lit (by decide))) ?_) (avoids_lit (by decide))) (h.value e he).1) (avoids_lit (by decide))
  exact avoids_sepBy (avoids_lit (by decide)) (fun x hx => avoids_sub ((h.inds e he).2 x hx) (by decide))

theorem class_one {r : Rec} (h : Ok r) (bf : Str) (mt rt : List Str) :
    (text r).foldl classStep ⟨false, false, false, bf, mt, rt⟩ = ⟨false, false, false, r.elems.flatMap elemText ++ r.tail, mt ++ [metaText r], rt ++ [r.elems.flatMap elemText ++ r.tail]⟩ := by
  have hE := elemsText_avoids h
  unfold text
  generalize r.elems.flatMap elemText ++ r.tail = E at hE ⊢
  simp only [List.foldl_append]
  rw [skip0 h.g0]
  have e1 : ∀ bf mt rt, List.foldl classStep ⟨false, false, false, bf, mt, rt⟩ ['('] = ⟨true, false, false, bf, mt, rt⟩ := by intros; simp [classStep]
  have e2 : ∀ bf mt rt, List.foldl classStep ⟨true, false, false, bf, mt, rt⟩ ['{'] = ⟨true, true, false, [], mt, rt⟩ := by intros; simp [classStep]
  have e3 : ∀ bf mt rt, List.foldl classStep ⟨true, true, false, bf, mt, rt⟩ ['}'] = ⟨true, false, false, bf, mt ++ [bf], rt⟩ := by intros; simp [classStep]
  have e4 : ∀ bf mt rt, List.foldl classStep ⟨true, false, false, bf, mt, rt⟩ ['['] = ⟨true, false, true, [], mt, rt⟩ := by intros; simp [classStep]
  have e5 : ∀ bf mt rt, List.foldl classStep ⟨true, false, true, bf, mt, rt⟩ [']'] = ⟨true, false, false, bf, mt, rt ++ [bf]⟩ := by intros; simp [classStep]
  have e6 : ∀ bf mt rt, List.foldl classStep ⟨true, false, false, bf, mt, rt⟩ [')'] = ⟨false, false, false, bf, mt, rt⟩ := by intros; simp [classStep]
  rw [e1, skip1 h.g1, e2, inMeta (metaText_avoids h), e3, skip1 h.g2, e4, inElem hE, e5, skip1 h.g3, e6]
  simp only [List.nil_append]

theorem class_all (rs : List Rec) (h : ∀ r ∈ rs, Ok r) (bf : Str) (mt rt : List Str) :
    ∃ bf', (rs.flatMap text).foldl classStep ⟨false, false, false, bf, mt, rt⟩ =
      ⟨false, false, false, bf', mt ++ rs.map metaText, rt ++ rs.map (fun r => r.elems.flatMap elemText ++ r.tail)⟩ := by
  induction rs generalizing bf mt rt with
  | nil => exact ⟨bf, by simp⟩
  | cons r rs ih =>
    rw [List.flatMap_cons, List.foldl_append, class_one (h r (by simp))]
    obtain ⟨bf', hb⟩ := ih (fun x hx => h x (List.mem_cons_of_mem _ hx)) (r.elems.flatMap elemText ++ r.tail) (mt ++ [metaText r]) (rt ++ [r.elems.flatMap elemText ++ r.tail])
    exact ⟨bf', by rw [hb]; simp⟩

/-- **C146.** A file of any number of symmetric tensors is read as it was written: each tensor gives its keys with their values and its elements with their indices, in the order of the file.
The text between the tokens is arbitrary as long as the tokens can be told apart (`Ok`). -/
theorem C146_parse {K : Type} (int : Str → Option Int) (eval : Str → Option K) (rs : List Rec) (h : ∀ r ∈ rs, Ok r) (after : Str) (ha : Avoids ['('] after) :
    parseClassification int eval (rs.flatMap text ++ after) = rs.mapM (meaning int eval) := by
  unfold parseClassification
  rw [List.foldl_append]
  obtain ⟨bf, hb⟩ := class_all rs h [] [] []
  rw [hb, skip0 ha]
  simp only [List.nil_append]
  clear hb ha
  induction rs with
  | nil => rfl
  | cons r rs ih =>
    have ih := ih (fun x hx => h x (List.mem_cons_of_mem _ hx))
    rw [List.map_cons, List.map_cons, List.map_cons, List.mapM_cons, List.mapM_cons, parseElems_ok int eval (h r (by simp)), parseMeta_ok (h r (by simp)), ← ih]
    simp only [meaning, Option.bind_eq_bind, Option.pure_def]
    generalize List.mapM (fun e => (List.mapM int e.2.1).bind fun i => (eval e.2.2).bind fun v => some (i, v)) r.elems = x
    generalize List.mapM (parseElems int eval) _ = y
    cases x <;> cases y <;> simp

theorem foldlM_none {A B : Type} (f : A → B → Option A) (l : List B) (a : A) {b : B} {l' : List B} (h : l = b :: l') (hn : f a b = none) : l.foldlM f a = none := by
  subst h
  rw [List.foldlM_cons, hn]
  rfl

theorem fill_shape {K : Type} {t u : Tensor K} {es : List (List Int × K)} (h : fill t es = some u) : u.shape = t.shape := by
  induction es generalizing t with
  | nil => cases h; rfl
  | cons e es ih =>
    unfold fill at h
    rw [List.foldlM_cons, Option.bind_eq_bind, Option.bind_eq_some_iff] at h
    obtain ⟨t', h1, h2⟩ := h
    unfold assign at h1
    rw [Option.bind_eq_bind, Option.bind_eq_some_iff] at h1
    obtain ⟨k, _, h1⟩ := h1
    rw [Option.some_inj] at h1
    rw [ih h2, ← h1]

/-- **C147.** Filling a tensor with any list of elements: an entry is the value of the last element with its indices, and keeps its value if there is none; the shape does not change. Negative indices count from the end of the axis. -/
theorem C147_fill {K : Type} {t u : Tensor K} {es : List (List Int × K)} (h : fill t es = some u) (idx : List Nat) :
    u.val idx = ((es.reverse.find? (fun e => decide (normIdxs t.shape e.1 = some idx))).map (·.2)).getD (t.val idx) := by
  induction es generalizing t with
  | nil => cases h; rfl
  | cons e es ih =>
    unfold fill at h
    rw [List.foldlM_cons, Option.bind_eq_bind, Option.bind_eq_some_iff] at h
    obtain ⟨t', h1, h2⟩ := h
    unfold assign at h1
    rw [Option.bind_eq_bind, Option.bind_eq_some_iff] at h1
    obtain ⟨k, hk, h1⟩ := h1
    rw [Option.some_inj] at h1
    subst h1
    rw [ih h2, List.reverse_cons, List.find?_append]
    simp only
    cases hf : List.find? (fun e => decide (normIdxs t.shape e.1 = some idx)) es.reverse with
    | some x => simp
    | none =>
      simp only [Option.map_none, Option.getD_none, Option.none_or, List.find?_cons, hk, Option.some_inj, List.find?_nil]
      by_cases hx : idx = k
      · simp [hx]
      · have : ¬ k = idx := fun h => hx h.symm
        simp [hx, this]

/-- Filling succeeds exactly when every element has as many indices as the tensor has axes and none is out of range. -/
theorem C147_fill_defined {K : Type} (t : Tensor K) (es : List (List Int × K)) : (fill t es).isSome ↔ ∀ e ∈ es, (normIdxs t.shape e.1).isSome := by
  induction es generalizing t with
  | nil => simp [fill]
  | cons e es ih =>
    unfold fill
    rw [List.foldlM_cons]
    cases hk : normIdxs t.shape e.1 with
    | none => simp [assign, hk]
    | some k =>
      have : assign t e = some ⟨t.shape, fun idx => if idx = k then e.2 else t.val idx⟩ := by simp [assign, hk]
      rw [this, Option.bind_eq_bind, Option.bind_some]
      have := ih ⟨t.shape, fun idx => if idx = k then e.2 else t.val idx⟩
      unfold fill at this
      rw [this]
      simp [hk]

theorem normIdx_iff (n : Nat) (i : Int) (k : Nat) : normIdx n i = some k ↔ k < n ∧ (i = k ∨ i = (k : Int) - n) := by
  unfold normIdx
  split
  · rw [Option.some_inj]; omega
  split
  · rw [Option.some_inj]; omega
  · constructor
    · intro h; cases h
    · intro h; omega

/-- Which entry is meant: one index for each axis, counted from the start of the axis or, if negative, from its end. -/
theorem C147_index (dims : List Nat) (is : List Int) (idx : List Nat) :
    normIdxs dims is = some idx ↔ List.Forall₂ (· < ·) idx dims ∧ is.length = dims.length ∧ ∀ (k : Nat) (h : k < is.length) (h' : k < idx.length) (h'' : k < dims.length), is[k] = idx[k] ∨ is[k] = (idx[k] : Int) - dims[k] := by
  induction dims generalizing is idx with
  | nil =>
    cases is with
    | nil => cases idx <;> simp [normIdxs]
    | cons i is => simp [normIdxs]
  | cons n ns ih =>
    cases is with
    | nil => simp [normIdxs]
    | cons i is =>
      rw [normIdxs, Option.bind_eq_bind, Option.bind_eq_some_iff]
      constructor
      · rintro ⟨k, h1, h2⟩
        rw [Option.bind_eq_bind, Option.bind_eq_some_iff] at h2
        obtain ⟨ks, h2, h3⟩ := h2
        rw [Option.some_inj] at h3
        subst h3
        obtain ⟨a1, a2⟩ := (normIdx_iff n i k).mp h1
        obtain ⟨b1, b2, b3⟩ := (ih is ks).mp h2
        refine ⟨.cons a1 b1, by simp [b2], fun m h h' h'' => ?_⟩
        cases m with
        | zero => simpa using a2
        | succ m => simpa using b3 m (by simpa using h) (by simpa using h') (by simpa using h'')
      · rintro ⟨h1, h2, h3⟩
        cases h1 with
        | @cons k _ ks _ h1 h1' =>
          refine ⟨k, (normIdx_iff n i k).mpr ⟨h1, h3 0 (by simp) (by simp) (by simp)⟩, ?_⟩
          rw [(ih is ks).mpr ⟨h1', by simpa using h2, fun m h h' h'' => h3 (m + 1) (by simpa using h) (by simpa using h') (by simpa using h'')⟩]
          rfl

example : normIdxs [2, 3] [1, -1] = some [1, 2] := by decide +kernel

/-- The value of a key is that of its last assignment. -/
theorem C147_lookup (m : List (Str × Str)) (k v : Str) : lookup m k = some v ↔ ∃ a b, m = a ++ (k, v) :: b ∧ ∀ e ∈ b, e.1 ≠ k := by
  unfold lookup
  induction m using List.reverseRecOn with
  | nil => simp
  | append_singleton m x ih =>
    rw [List.reverse_append, List.reverse_singleton, List.singleton_append, List.find?_cons]
    by_cases hx : x.1 = k
    · simp only [hx, decide_true, Option.map_some, Option.some_inj]
      constructor
      · rintro rfl
        exact ⟨m, [], by rw [← hx], by simp⟩
      · rintro ⟨a, b, h1, h2⟩
        rcases List.eq_nil_or_concat b with rfl | ⟨b', y, rfl⟩
        · have := (List.append_inj' h1 rfl).2
          simp only [List.cons.injEq, and_true] at this
          rw [this]
        · have h1' : m ++ [x] = (a ++ (k, v) :: b') ++ [y] := by rw [h1]; simp
          have := (List.append_inj' h1' rfl).2
          simp only [List.cons.injEq, and_true] at this
          exact absurd (this ▸ hx) (h2 y (by simp))
    · simp only [hx, decide_false]
      rw [ih]
      constructor
      · rintro ⟨a, b, rfl, h⟩
        refine ⟨a, b ++ [x], by simp, fun e he => ?_⟩
        rcases List.mem_append.mp he with he | he
        · exact h e he
        · rw [List.mem_singleton.mp he]; exact hx
      · rintro ⟨a, b, h1, h2⟩
        rcases List.eq_nil_or_concat b with rfl | ⟨b', y, rfl⟩
        · have := (List.append_inj' h1 rfl).2
          simp only [List.cons.injEq, and_true] at this
          exact absurd (by rw [this]) hx
        · have h1' : m ++ [x] = (a ++ (k, v) :: b') ++ [y] := by rw [h1]; simp
          exact ⟨a, b', (List.append_inj' h1' rfl).1, fun e he => h2 e (by simp [he])⟩

/-- **C147.** `fill_from_sparse_coo_FIX`: the first element keeps its indices, those of all others are lowered by one; without any element there is an error. -/
theorem C147_fix {K : Type} (t : Tensor K) (e : List Int × K) (es : List (List Int × K)) :
    fillFix t (e :: es) = fill t (e :: es.map (fun x => (x.1.map (· - 1), x.2))) ∧ fillFix t ([] : List (List Int × K)) = none := by
  refine ⟨?_, rfl⟩
  unfold fillFix raiseFirst
  simp only [Option.bind_eq_bind, Option.bind_some, List.map_cons, List.map_map]
  congr 2
  have : (e.1.map ((fun x : Int => x - 1) ∘ fun x => x + 1)) = e.1 := by
    conv_rhs => rw [← List.map_id e.1]
    exact List.map_congr_left fun x _ => by simp
  rw [this]

/-- The tensors asked for, in the order of the file. -/
theorem import_loop {K : Type} [Zero K] (dims : List Nat) (pg : Str) (filler : Tensor K → List (List Int × K) → Option (Tensor K)) (l : List (List (Str × Str) × List (List Int × K)))
    (hp : ∀ x ∈ l, (lookup x.1 ['p', 'g']).isSome) (acc : List (List (Str × Str) × Tensor K)) :
    l.foldlM (importOne dims pg filler) acc =
      ((l.filter (fun x => decide (lookup x.1 ['p', 'g'] = some pg))).mapM (fun x => (filler ⟨dims, fun _ => 0⟩ x.2).map (fun t => (x.1, t)))).map (acc ++ ·) := by
  induction l generalizing acc with
  | nil => simp
  | cons x l ih =>
    obtain ⟨p, hx⟩ := Option.isSome_iff_exists.mp (hp x (by simp))
    have ih := ih (fun y hy => hp y (List.mem_cons_of_mem _ hy))
    rw [List.foldlM_cons, List.filter_cons]
    by_cases hpg : pg = p
    · have h1 : importOne dims pg filler acc x = (filler ⟨dims, fun _ => 0⟩ x.2).map (fun t => acc ++ [(x.1, t)]) := by
        simp only [importOne, hx, Option.bind_eq_bind, Option.bind_some, if_pos hpg]
        cases filler ⟨dims, fun _ => 0⟩ x.2 <;> rfl
      rw [h1, if_pos (by rw [hx, hpg]; simp), List.mapM_cons]
      cases filler ⟨dims, fun _ => 0⟩ x.2 with
      | none => rfl
      | some t =>
        simp only [Option.map_some, Option.bind_eq_bind, Option.bind_some, ih]
        generalize List.mapM (m := Option) _ _ = y
        cases y <;> simp
    · have h1 : importOne dims pg filler acc x = some acc := by
        simp only [importOne, hx, Option.bind_eq_bind, Option.bind_some, if_neg hpg]
      rw [h1, Option.bind_eq_bind, Option.bind_some, ih, if_neg]
      rw [hx]
      simpa using fun h => hpg h.symm

/-- **C147.** Importing from any well-formed file whose tensors all name their irrep: the result is the list of the tensors of the irrep asked for, in the order of the file, each with all its keys and with its elements put into a tensor of zeros.
Line breaks may stand anywhere. -/
theorem C147_import {K : Type} [Zero K] (int : Str → Option Int) (eval : Str → Option K) (dims : List Nat) (pg : Str) (filler : Tensor K → List (List Int × K) → Option (Tensor K))
    (rs : List Rec) (h : ∀ r ∈ rs, Ok r) (hp : ∀ r ∈ rs, ∃ e ∈ r.entries, e.1 = ['p', 'g']) (after : Str) (ha : Avoids ['('] after) (data : Str) (hd : data.filter (· != '\n') = rs.flatMap text ++ after)
    {ts : List (List (Str × Str) × List (List Int × K))} (hm : rs.mapM (meaning int eval) = some ts) :
    importSym int eval dims pg filler data =
      (ts.filter (fun x => decide (lookup x.1 ['p', 'g'] = some pg))).mapM (fun x => (filler ⟨dims, fun _ => 0⟩ x.2).map (fun t => (x.1, t))) := by
  unfold importSym
  rw [hd, C146_parse int eval rs h after ha, hm, Option.bind_eq_bind, Option.bind_some, import_loop]
  · generalize List.mapM (m := Option) _ _ = y
    cases y <;> simp
  · clear hd ha h
    induction rs generalizing ts with
    | nil => cases hm; simp
    | cons r rs ih =>
      rw [List.mapM_cons, Option.bind_eq_bind, Option.bind_eq_some_iff] at hm
      obtain ⟨m, h1, hm⟩ := hm
      rw [Option.bind_eq_bind, Option.bind_eq_some_iff] at hm
      obtain ⟨ms, h2, h3⟩ := hm
      cases h3
      intro x hx
      rcases List.mem_cons.mp hx with rfl | hx
      · unfold meaning at h1
        rw [Option.bind_eq_bind, Option.bind_eq_some_iff] at h1
        obtain ⟨es, _, h1⟩ := h1
        cases h1
        obtain ⟨e, he, hk⟩ := hp r (by simp)
        simp only [lookup, Option.isSome_map, List.find?_isSome]
        exact ⟨(e.1, strip e.2), List.mem_reverse.mpr (List.mem_map.mpr ⟨e, he, rfl⟩), by simp [hk]⟩
      · exact ih (fun y hy => hp y (List.mem_cons_of_mem _ hy)) h2 x hx

/-- The values read have no blanks at their ends and are otherwise what was written. -/
theorem C146_strip (s : Str) : (∃ a b, s = a ++ strip s ++ b ∧ (∀ c ∈ a, c.isWhitespace = true) ∧ ∀ c ∈ b, c.isWhitespace = true) ∧
    (∀ c t, strip s = c :: t → c.isWhitespace = false) ∧ ∀ c t, strip s = t ++ [c] → c.isWhitespace = false := by
  let u := s.dropWhile Char.isWhitespace
  have hu : s = s.takeWhile Char.isWhitespace ++ u := (List.takeWhile_append_dropWhile).symm
  have hr : u.reverse = u.reverse.takeWhile Char.isWhitespace ++ u.reverse.dropWhile Char.isWhitespace := (List.takeWhile_append_dropWhile).symm
  have hu' : u = strip s ++ (u.reverse.takeWhile Char.isWhitespace).reverse := by
    have := congrArg List.reverse hr
    rw [List.reverse_reverse, List.reverse_append] at this
    exact this
  have tw : ∀ (l : Str) c, c ∈ l.takeWhile Char.isWhitespace → c.isWhitespace = true := by
    intro l
    induction l with
    | nil => intro c hc; simp at hc
    | cons x l ih =>
      intro c hc
      rw [List.takeWhile_cons] at hc
      split at hc
      · next hx =>
        rcases List.mem_cons.mp hc with rfl | hc
        · exact hx
        · exact ih c hc
      · simp at hc
  have dw : ∀ (l : Str) c t, l.dropWhile Char.isWhitespace = c :: t → c.isWhitespace = false := by
    intro l c t h
    have := List.head?_dropWhile_not Char.isWhitespace l
    rw [h] at this
    simpa using this
  refine ⟨⟨_, _, ?_, tw s, fun c hc => tw u.reverse c (List.mem_reverse.mp hc)⟩, fun c t h => ?_, fun c t h => ?_⟩
  · rw [List.append_assoc, ← hu']; exact hu
  · rw [h] at hu'
    exact dw s c _ hu'
  · have : u.reverse.dropWhile Char.isWhitespace = c :: t.reverse := by
      have h' : (u.reverse.dropWhile Char.isWhitespace).reverse = t ++ [c] := h
      have := congrArg List.reverse h'
      simpa using this
    exact dw _ c _ this

/-! ### A file as those of su2sym -/

/-- `({'irreps': (1, 0), 'pg': A_1}, [((0, 1), 1/2), ((1, 0), complex( 0,-1/2 ))])` after `[`. -/
def exRec : Rec where
  g0 := "[".toList
  g1 := []
  entries := [("irreps".toList, " (1, 0)".toList), ("pg".toList, " A_1".toList)]
  g2 := ", ".toList
  elems := [([], ["0".toList, " 1".toList], " 1/2".toList), (", ".toList, ["1".toList, " 0".toList], " complex( 0,-1/2 )".toList)]
  tail := []
  g3 := []

example : String.ofList (text exRec) = "[({'irreps': (1, 0), 'pg': A_1}, [((0, 1), 1/2), ((1, 0), complex( 0,-1/2 ))])" := by decide +kernel

/-- Search for the separator. -/
def hasSep : Str → Bool
  | ',' :: ' ' :: '\'' :: _ => true
  | _ :: cs => hasSep cs
  | [] => false

theorem noSep_of {s : Str} (h : hasSep s = false) : NoSep s := by
  rintro a b rfl
  induction a with
  | nil => simp [hasSep] at h
  | cons c a ih =>
    apply ih
    rw [List.cons_append, List.cons_append] at h
    rw [hasSep.eq_def] at h
    split at h
    · cases h
    · next heq => cases heq; exact h
    · next heq => cases heq

theorem balanced_plain {s : Str} (h : Avoids ['(', ')'] s) : Balanced s := by
  induction s with
  | nil => exact .nil
  | cons c s ih =>
    have hc := h c (by simp)
    simp only [List.mem_cons, List.not_mem_nil, or_false, not_or] at hc
    exact .char hc.1 hc.2 (ih (fun x hx => h x (List.mem_cons_of_mem _ hx)))

theorem exRec_ok : Ok exRec where
  g0 := avoids_lit (by decide +kernel)
  g1 := avoids_lit (by decide +kernel)
  g2 := avoids_lit (by decide +kernel)
  g3 := avoids_lit (by decide +kernel)
  nonempty := by decide +kernel
  braces := by unfold Avoids; decide +kernel
  colon := by unfold Avoids; decide +kernel
  sep := fun e he => noSep_of (by revert e he; decide +kernel)
  tail := avoids_lit (by decide +kernel)
  glue := by unfold Avoids; decide +kernel
  inds := by unfold Avoids; decide +kernel
  value := by
    intro e he
    refine ⟨by revert e he; unfold Avoids; decide +kernel, ?_⟩
    simp only [exRec, List.mem_cons, List.not_mem_nil, or_false] at he
    rcases he with rfl | rfl
    · exact balanced_plain (avoids_lit (by decide +kernel))
    · have : (" complex( 0,-1/2 )".toList : Str) = ' ' :: 'c' :: 'o' :: 'm' :: 'p' :: 'l' :: 'e' :: 'x' :: ('(' :: " 0,-1/2 ".toList ++ ')' :: []) := by decide +kernel
      rw [this]
      repeat refine .char (by decide) (by decide) ?_
      exact .paren (balanced_plain (avoids_lit (by decide +kernel))) .nil

/-- `int` on one digit with blanks; values are kept as texts. -/
def exInt (s : Str) : Option Int := match strip s with
  | [c] => if c.isDigit then some (c.toNat - 48) else none
  | _ => none

example : parseClassification exInt (fun s => some (String.ofList (strip s))) ([exRec, exRec].flatMap text ++ "]".toList) =
    some [([("irreps".toList, "(1, 0)".toList), ("pg".toList, "A_1".toList)], [([0, 1], "1/2"), ([1, 0], "complex( 0,-1/2 )")]),
      ([("irreps".toList, "(1, 0)".toList), ("pg".toList, "A_1".toList)], [([0, 1], "1/2"), ([1, 0], "complex( 0,-1/2 )")])] := by
  rw [C146_parse _ _ _ (by simpa using exRec_ok) _ (avoids_lit (by decide +kernel))]
  rfl

/-- The hypotheses of `C147_import` are met by a file with two tensors of the irrep. -/
example : ∃ ts, importSym exInt (fun s => some (s.length : Int)) [2, 2] "A_1".toList fill ([exRec, exRec].flatMap text ++ "]".toList) = some ts ∧ ts.length = 2 ∧ ts.map (fun t => t.2.val [0, 1]) = [4, 4] ∧ ts.map (fun t => t.2.val [1, 1]) = [0, 0] := by
  have h := C147_import exInt (fun s => some (s.length : Int)) [2, 2] "A_1".toList fill [exRec, exRec] (by simpa using exRec_ok)
    (by simp only [List.mem_cons, List.not_mem_nil, or_false, or_self, forall_eq]; exact ⟨("pg".toList, " A_1".toList), by simp [exRec], by decide +kernel⟩)
    "]".toList (avoids_lit (by decide +kernel)) ([exRec, exRec].flatMap text ++ "]".toList) (by decide +kernel)
    (ts := [([("irreps".toList, "(1, 0)".toList), ("pg".toList, "A_1".toList)], [([0, 1], 4), ([1, 0], 18)]), ([("irreps".toList, "(1, 0)".toList), ("pg".toList, "A_1".toList)], [([0, 1], 4), ([1, 0], 18)])]) rfl
  rw [h]
  exact ⟨_, rfl, by decide +kernel, by decide +kernel, by decide +kernel⟩

/-- An entry without the comma before it, as in /repo/u1sym/D2_U1_B.txt L2, is not seen: its text goes to the entry before it, and looking it up is an error. -/
theorem C146_missing_comma : parseMeta "'pg': A_1, 'occupations': (0) 'charges': (1,-1,0,2) ".toList = [("pg".toList, "A_1".toList), ("occupations".toList, "(0) 'charges': (1,-1,0,2)".toList)] ∧
    lookup (parseMeta "'pg': A_1, 'occupations': (0) 'charges': (1,-1,0,2) ".toList) "charges".toList = none := by decide +kernel

end Verif.SymTen
