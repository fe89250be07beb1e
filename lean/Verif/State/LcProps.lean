import Verif.State.LcLemmas
import Verif.State.LcSpec
import Verif.State.IOProps
import Verif.C4v.RdmSpec
import Mathlib.Tactic.NormNum
/-
Properties C77 (saving and loading), C78 (the site tensors and their symmetry) and C79 (checkpoints, noise, copies) of states
built as linear combinations of elementary tensors.
-/
namespace Verif.Lc
open Verif.State
open Verif.Lattice (Vertex)
variable {R : Type}

theorem mapM_forall₂ {α β : Type} (f : α → Option β) (P : α → β → Prop) : ∀ (l : List α),
    (∀ a ∈ l, ∃ b, f a = some b ∧ P a b) → ∃ l', l.mapM f = some l' ∧ List.Forall₂ P l l' := by
  intro l
  induction l with
  | nil => intro _; exact ⟨[], rfl, .nil⟩
  | cons a l ih =>
    intro h
    obtain ⟨b, hb, hP⟩ := h a (by simp)
    obtain ⟨l', hl, hf⟩ := ih (fun x hx => h x (by simp [hx]))
    exact ⟨b :: l', by rw [List.mapM_cons, hb, hl]; rfl, .cons hP hf⟩

theorem mapM_transfer {α α' β : Type} (f : α → Option β) (g : α' → Option β) (P : α → α' → Prop) (h : ∀ a a', P a a' → f a = g a') :
    ∀ {l : List α} {l' : List α'}, List.Forall₂ P l l' → l.mapM f = l'.mapM g := by
  intro l l' hf
  induction hf with
  | nil => rfl
  | cons h1 _ ih => rw [List.mapM_cons, List.mapM_cons, h _ _ h1, ih]

/-- One elementary tensor, written and read. -/
theorem elem_roundtrip [CommRing R] [DecidableEq R] (F : NumFmt R) (hF : F.Lawful) (aux : List Nat) (haux : aux.Perm [0, 1, 2, 3])
    (p D : Nat) (e : Elem R) (hs : e.t.t.shape = [p, D, D, D, D]) (hc : e.t.cplx = false) (hr : ∀ idx, (e.t.t.val idx).2 = 0) :
    ∃ j, writeElem F (aux.map (· + 1)) e = some j ∧ ∃ e', readElem F j = some e' ∧ Spec.ElemRel aux p D e e' := by
  obtain ⟨L, hL⟩ : ∃ L, L = (Tensor.indices [p, D, D, D, D]).filter (fun ei => decide (e.t.t.val ei ≠ (0, 0))) := ⟨_, rfl⟩
  have hLin : ∀ ei ∈ L, Tensor.InB [p, D, D, D, D] ei ∧ e.t.t.val ei ≠ (0, 0) := by
    intro ei h
    rw [hL, List.mem_filter] at h
    exact ⟨Tensor.mem_indices.1 h.1, by simpa using h.2⟩
  have htxt : L.mapM (elemEntry F (aux.map (· + 1)) e.t) =
      some (L.map (fun ei => join ((moved aux ei).map F.encN) ++ ' ' :: F.encR (e.t.t.val ei).1)) := by
    apply mapM_some_of
    intro ei h
    obtain ⟨s, a, rfl, _, _⟩ := inB5' (hLin ei h).1
    rw [elemEntry_eq F aux haux, moved_eq aux haux]
    simp only [encNum, hc, Bool.false_eq_true, if_false]
  have hnd : (L.map (moved aux)).Nodup := by
    refine List.Nodup.map_on ?_ (hL ▸ (Tensor.nodup_indices _).filter _)
    intro x hx y hy hxy
    obtain ⟨s, a, rfl, _, _⟩ := inB5' (hLin x hx).1
    obtain ⟨s', a', rfl, _, _⟩ := inB5' (hLin y hy).1
    rw [moved_eq aux haux, moved_eq aux haux] at hxy
    obtain ⟨h1, h2⟩ := moved_inj aux haux hxy
    rw [h1, h2 0 (by omega), h2 1 (by omega), h2 2 (by omega), h2 3 (by omega)]
  have hmov : ∀ s (a : Nat → Nat), s < p → (∀ k, k < 4 → a k < D) → Tensor.InB [p, D, D, D, D] (s :: aux.map a) := by
    intro s a hsp ha
    obtain ⟨q0, q1, q2, q3, rfl, h0, h1, h2, h3⟩ := perm4 haux
    exact inB5_of hsp (ha _ h0) (ha _ h1) (ha _ h2) (ha _ h3)
  obtain ⟨out, ho, hv, hz⟩ := fold_set (readElemEntry F false [p, D, D, D, D])
    (fun ei => join ((moved aux ei).map F.encN) ++ ' ' :: F.encR (e.t.t.val ei).1) (moved aux) (fun ei => e.t.t.val ei) L (fun _ => (0, 0))
    (by
      intro ei h val
      obtain ⟨s, a, rfl, hsp, ha⟩ := inB5' (hLin ei h).1
      rw [moved_eq aux haux]
      rw [read_entry_real F hF _ _ (by simp [haux.length_eq]) (hmov s a hsp ha)]
      congr 2
      exact Prod.ext rfl (hr _).symm) hnd
  refine ⟨⟨e.pg, e.info, false, p, D, L.map (fun ei => join ((moved aux ei).map F.encN) ++ ' ' :: F.encR (e.t.t.val ei).1)⟩, ?_, ⟨e.pg, e.info, ⟨false, ⟨[p, D, D, D, D], out⟩⟩⟩, ?_, rfl, rfl, hc.symm, hs, rfl, ?_⟩
  · unfold writeElem
    simp only [hs]
    rw [← hL, htxt, hc]
    rfl
  · unfold readElem
    simp only []
    rw [ho]
    rfl
  · intro s a hsp ha
    show out (s :: aux.map a) = _
    by_cases hm : [s, a 0, a 1, a 2, a 3] ∈ L
    · have := hv _ hm
      rw [moved_eq aux haux] at this
      exact this
    · have h0 : e.t.t.val [s, a 0, a 1, a 2, a 3] = (0, 0) := by
        by_contra hne
        apply hm
        rw [hL, List.mem_filter]
        exact ⟨Tensor.mem_indices.2 (inB5_of hsp (ha 0 (by omega)) (ha 1 (by omega)) (ha 2 (by omega)) (ha 3 (by omega))), by simpa using hne⟩
      rw [h0]
      apply hz
      intro hin
      obtain ⟨ei, hei, heq⟩ := List.mem_map.1 hin
      obtain ⟨s', a', rfl, _, _⟩ := inB5' (hLin ei hei).1
      rw [moved_eq aux haux] at heq
      obtain ⟨h1, h2⟩ := moved_inj aux haux heq
      apply (hLin _ hei).2
      rw [h1, h2 0 (by omega), h2 1 (by omega), h2 2 (by omega), h2 3 (by omega)]
      exact h0

/-- One coefficient vector, written and read. -/
theorem coeff_roundtrip [CommRing R] (F : NumFmt R) (hF : F.Lawful) (nid : Nat) (c : CTensor R) (n : Nat) (hs : c.t.shape = [n])
    (hc : c.cplx = false) (hr : ∀ idx, (c.t.val idx).2 = 0) :
    ∃ j, writeCoeff F nid c = some j ∧ j.siteId = siteName F nid ∧ ∃ c', readCoeff F j = some c' ∧ c'.cplx = c.cplx ∧ c.t.Same c'.t := by
  obtain ⟨out, ho, hv, _⟩ := fold_set (readCoeffEntry F false n)
    (fun i => F.encN i ++ ' ' :: F.encR (c.t.val [i]).1) (fun i => [i]) (fun i => c.t.val [i]) (List.range n) (fun _ => (0, 0))
    (by
      intro i hi val
      unfold readCoeffEntry
      rw [split_token_sp _ _ (hF.tokN i), split_token _ (hF.tokR _)]
      simp only [List.getElem?_cons_zero, List.getElem?_cons_succ, Option.bind_eq_bind, Option.bind_some, hF.decN_encN, hF.decR_encR,
        Bool.false_eq_true, if_false, if_pos (List.mem_range.1 hi)]
      congr 2
      exact Prod.ext rfl (hr _).symm)
    ((List.nodup_range).map (fun a b h => by simpa using h))
  refine ⟨⟨siteName F nid, false, n, (List.range n).map (fun i => F.encN i ++ ' ' :: F.encR (c.t.val [i]).1)⟩, ?_, rfl,
    ⟨false, ⟨[n], out⟩⟩, ?_, hc.symm, hs, ?_⟩
  · unfold writeCoeff
    simp only [hs, hc, encNum, Bool.false_eq_true, if_false]
  · unfold readCoeff
    simp only []
    rw [ho]
    rfl
  · intro idx hi
    rw [hs] at hi
    unfold Tensor.InB at hi
    rcases hi with _ | ⟨h1, h⟩
    cases h
    exact (hv _ (List.mem_range.2 h1)).symm

/-- Equal dtype and equal entries up to the relabelling. -/
def RelT (aux : List Nat) (p D : Nat) (X Y : CTensor R) : Prop := Y.cplx = X.cplx ∧ Spec.Relabelled aux p D X.t Y.t

theorem stack_pos [CommRing R] (X : CTensor R) (Xs : List (CTensor R)) (h : ∀ Y ∈ Xs, Y.t.shape = X.t.shape) :
    stack (X :: Xs) = some ⟨(X :: Xs).any (·.cplx), ⟨(Xs.length + 1) :: X.t.shape, fun i => match i with
        | k :: is => (((X :: Xs)[k]?).map (fun Y => Y.t.val is)).getD (0, 0)
        | [] => (0, 0)⟩⟩ := if_pos h

theorem stack_rel [CommRing R] {aux : List Nat} {p D : Nat} {Xs Ys : List (CTensor R)} (h : List.Forall₂ (RelT aux p D) Xs Ys) {ts : CTensor R}
    (hs : stack Xs = some ts) : ∃ ts', stack Ys = some ts' ∧ ts'.cplx = ts.cplx ∧ ts.t.shape = [Xs.length, p, D, D, D, D] ∧
      ts'.t.shape = [Xs.length, p, D, D, D, D] ∧ ∀ (k s : Nat) (a : Nat → Nat), s < p → (∀ k, k < 4 → a k < D) →
        ts'.t.val (k :: s :: aux.map a) = ts.t.val [k, s, a 0, a 1, a 2, a 3] := by
  have hany : ∀ {l l' : List (CTensor R)}, List.Forall₂ (RelT aux p D) l l' → l'.any (·.cplx) = l.any (·.cplx) := by
    intro l l' h
    induction h with
    | nil => rfl
    | cons h1 _ ih => simp [List.any_cons, h1.1, ih]
  have hget : ∀ {l l' : List (CTensor R)}, List.Forall₂ (RelT aux p D) l l' → ∀ (k s : Nat) (a : Nat → Nat), s < p → (∀ k, k < 4 → a k < D) →
      (l'[k]?.map (fun Y => Y.t.val (s :: aux.map a))).getD (0, 0) = (l[k]?.map (fun Y => Y.t.val [s, a 0, a 1, a 2, a 3])).getD (0, 0) := by
    intro l l' h
    induction h with
    | nil => intros; rfl
    | cons h1 _ ih =>
      intro k s a hsp ha
      rcases k with _ | k
      · simpa using h1.2.2.2 s a hsp ha
      · simpa using ih k s a hsp ha
  have hall : ∀ {l l' : List (CTensor R)}, List.Forall₂ (RelT aux p D) l l' → ∀ Y ∈ l', Y.t.shape = [p, D, D, D, D] := by
    intro l l' h
    induction h with
    | nil => intro Y hY; simp at hY
    | cons h1 _ ih =>
      intro Y hY
      rcases List.mem_cons.1 hY with rfl | hY
      · exact h1.2.2.1
      · exact ih Y hY
  have hlen := h.length_eq
  have hany' := hany h
  have hget' := hget h
  have hall' := hall h
  cases h with
  | nil => simp [stack] at hs
  | @cons X Y Xs Ys h1 h2 =>
    simp only [stack] at hs
    split at hs
    · simp only [Option.some.injEq] at hs
      subst hs
      have hst := stack_pos Y Ys (by intro Z hZ; rw [hall' Z (by simp [hZ]), hall' Y (by simp)])
      refine ⟨_, hst, hany', by simp [h1.2.1], ?_, fun k s a hsp ha => hget' k s a hsp ha⟩
      · simp only [List.length_cons] at hlen ⊢
        rw [h1.2.2.1, hlen]
    · simp at hs

theorem filter_rel {α : Type} {P : α → α → Prop} {f : α → Bool} (hf : ∀ a b, P a b → f a = f b) {l l' : List α} (h : List.Forall₂ P l l') :
    List.Forall₂ P (l.filter f) (l'.filter f) := by
  induction h with
  | nil => exact .nil
  | @cons a b l l' h1 _ ih =>
    have := hf a b h1
    cases hb : f b with
    | false => simpa [List.filter_cons, this, hb] using ih
    | true => simpa [List.filter_cons, this, hb] using And.intro h1 ih

theorem stackElems_rel [CommRing R] {aux : List Nat} {p D : Nat} {es es' : List (Elem R)} (h : List.Forall₂ (Spec.ElemRel aux p D) es es')
    (irreps : List Str) {ts : CTensor R} (hs : stackElems irreps es = some ts) :
    ∃ n ts', stackElems irreps es' = some ts' ∧ ts'.cplx = ts.cplx ∧ ts.t.shape = [n, p, D, D, D, D] ∧
      ts'.t.shape = [n, p, D, D, D, D] ∧ ∀ (k s : Nat) (a : Nat → Nat), s < p → (∀ k, k < 4 → a k < D) →
        ts'.t.val (k :: s :: aux.map a) = ts.t.val [k, s, a 0, a 1, a 2, a 3] := by
  have h1 : ∀ {l l' : List (Elem R)}, List.Forall₂ (Spec.ElemRel aux p D) l l' → List.Forall₂ (RelT aux p D) (l.map (·.t)) (l'.map (·.t)) := by
    intro l l' h
    induction h with
    | nil => exact .nil
    | cons h1 _ ih => exact .cons ⟨h1.2.2.1, h1.2.2.2⟩ ih
  have h2 : ∀ {l l' : List (Elem R)}, List.Forall₂ (Spec.ElemRel aux p D) l l' →
      List.Forall₂ (RelT aux p D) (l.map (fun e => timesI e.t)) (l'.map (fun e => timesI e.t)) := by
    intro l l' h
    induction h with
    | nil => exact .nil
    | cons h1 _ ih =>
      refine .cons ⟨rfl, h1.2.2.2.1, h1.2.2.2.2.1, ?_⟩ ih
      intro s a hsp ha
      have := h1.2.2.2.2.2 s a hsp ha
      simp only [timesI, this]
  unfold stackElems at hs ⊢
  split at hs
  · rename_i hc
    rw [if_pos hc]
    obtain ⟨ts', r⟩ := stack_rel (h1 h) hs
    exact ⟨_, ts', r⟩
  · rename_i hc
    rw [if_neg hc]
    split at hs
    · rename_i hc'
      rw [if_pos hc']
      have hpg : ∀ x : Option Str, ∀ a b : Elem R, Spec.ElemRel aux p D a b → decide (a.pg = x) = decide (b.pg = x) := by
        intro x a b hab; rw [hab.1]
      obtain ⟨ts', r⟩ := stack_rel (List.rel_append (h1 (filter_rel (hpg _) h)) (h2 (filter_rel (hpg _) h))) hs
      exact ⟨_, ts', r⟩
    · simp at hs

theorem combine_rel [CommRing R] {aux : List Nat} (haux : aux.Perm [0, 1, 2, 3]) {p D n : Nat} {c c' ts ts' s : CTensor R} (hc : c'.cplx = c.cplx) (hcs : c.t.Same c'.t)
    (ht : ts'.cplx = ts.cplx) (h1 : ts.t.shape = [n, p, D, D, D, D]) (h2 : ts'.t.shape = [n, p, D, D, D, D])
    (hv : ∀ (k s : Nat) (a : Nat → Nat), s < p → (∀ k, k < 4 → a k < D) → ts'.t.val (k :: s :: aux.map a) = ts.t.val [k, s, a 0, a 1, a 2, a 3])
    (hs : combine c ts = some s) : ∃ s', combine c' ts' = some s' ∧ RelT aux p D s s' := by
  unfold combine at hs ⊢
  rw [ht, hc]
  split at hs
  · simp at hs
  · rename_i hd
    rw [if_neg hd]
    split at hs
    · rename_i N m p' u l d r hcN hts
      rw [h1] at hts
      simp only [List.cons.injEq, and_true] at hts
      obtain ⟨rfl, rfl, rfl, rfl, rfl, rfl⟩ := hts
      rw [← hcs.1, hcN, h2]
      simp only [Option.bind_eq_bind, Option.bind_eq_some_iff] at hs ⊢
      obtain ⟨M, hM, hs⟩ := hs
      simp only [Option.some.injEq] at hs
      subst hs
      refine ⟨_, ⟨M, hM, rfl⟩, rfl, rfl, rfl, ?_⟩
      intro s a hsp ha
      show (∑ k ∈ Finset.range M, cmul (c'.t.val [if N = 1 then 0 else k]) (ts'.t.val ((if n = 1 then 0 else k) :: s :: aux.map a))) =
        ∑ k ∈ Finset.range M, cmul (c.t.val [if N = 1 then 0 else k]) (ts.t.val ((if n = 1 then 0 else k) :: [s, a 0, a 1, a 2, a 3]))
      apply Finset.sum_congr rfl
      intro k hk
      rw [Finset.mem_range] at hk
      have hkc : c'.t.val [if N = 1 then 0 else k] = c.t.val [if N = 1 then 0 else k] := by
        refine (hcs.2 _ ?_).symm
        rw [hcN]
        refine List.Forall₂.cons ?_ .nil
        split
        · omega
        · rename_i hN
          unfold Pg.bcastDim at hM
          rw [if_neg hN] at hM
          by_cases h3 : N = n
          · rw [if_pos h3] at hM; simp at hM; omega
          · rw [if_neg h3] at hM
            by_cases h4 : n = 1
            · rw [if_pos h4] at hM; simp at hM; omega
            · rw [if_neg h4] at hM; simp at hM
      rw [hkc, hv _ s a hsp ha]
    · simp at hs

/-- Building from relabelled elementary tensors and equal coefficients gives relabelled sites. -/
theorem build_rel [CommRing R] {aux : List Nat} (haux : aux.Perm [0, 1, 2, 3]) {p D : Nat} {es es' : List (Elem R)}
    (h : List.Forall₂ (Spec.ElemRel aux p D) es es') {cs cs' : List (Vertex × CTensor R)} (hc : List.Forall₂ Spec.Equal cs cs') (irreps : List Str)
    {sites : List (Vertex × CTensor R)} (hs : buildSites irreps es cs = some sites) :
    ∃ sites', buildSites irreps es' cs' = some sites' ∧ List.Forall₂ (Spec.SiteRel aux p D) sites sites' := by
  unfold buildSites at hs ⊢
  simp only [Option.bind_eq_bind, Option.bind_eq_some_iff] at hs ⊢
  obtain ⟨ts, hts, hm⟩ := hs
  obtain ⟨n, ts', h1, h2, h3, h4, h5⟩ := stackElems_rel h irreps hts
  suffices hh : ∀ {cs cs' : List (Vertex × CTensor R)}, List.Forall₂ Spec.Equal cs cs' → ∀ sites,
      cs.mapM (fun e => (combine e.2 ts).bind (fun s => some (e.1, s))) = some sites →
      ∃ sites', cs'.mapM (fun e => (combine e.2 ts').bind (fun s => some (e.1, s))) = some sites' ∧ List.Forall₂ (Spec.SiteRel aux p D) sites sites' by
    obtain ⟨sites', r1, r2⟩ := hh hc sites hm
    exact ⟨sites', ⟨ts', h1, r1⟩, r2⟩
  intro cs cs' hc
  induction hc with
  | nil => intro sites hm; simp at hm; subst hm; exact ⟨[], rfl, .nil⟩
  | @cons a b l l' hab _ ih =>
    intro sites hm
    rw [List.mapM_cons] at hm
    simp only [Option.bind_eq_bind, Option.bind_eq_some_iff, Option.pure_def, Option.some.injEq] at hm
    obtain ⟨x, ⟨s, hs, rfl⟩, xs, hxs, rfl⟩ := hm
    obtain ⟨s', hs', hrel⟩ := combine_rel haux hab.2.1 hab.2.2 h2 h3 h4 h5 hs
    obtain ⟨xs', hxs', hrels⟩ := ih xs hxs
    refine ⟨(b.1, s') :: xs', ?_, .cons ⟨hab.1, hrel.1, hrel.2⟩ hrels⟩
    rw [List.mapM_cons, hs', Option.bind_some]
    simp only [Option.bind_eq_bind, Option.bind_some, hxs', Option.pure_def]

theorem findCoeff_foldl (cs : List JCoeff) (id : Str) (acc : Option JCoeff) (j : JCoeff)
    (hj : j ∈ cs) (hid : j.siteId = id) (hu : ∀ s ∈ cs, s.siteId = id → s = j) :
    cs.foldl (fun acc s => if s.siteId = id then some s else acc) acc = some j := by
  induction cs generalizing acc with
  | nil => simp at hj
  | cons s ss ih =>
    rw [List.foldl_cons]
    by_cases hm : j ∈ ss
    · exact ih _ hm (fun t ht h => hu t (by simp [ht]) h)
    · have hs : s = j := by
        rcases List.mem_cons.1 hj with h | h
        · exact h.symm
        · exact absurd h hm
      subst hs
      rw [if_pos hid]
      have : ∀ (l : List JCoeff) (a : Option JCoeff), (∀ t ∈ l, t.siteId ≠ id) →
          l.foldl (fun acc s => if s.siteId = id then some s else acc) a = a := by
        intro l
        induction l with
        | nil => intro a _; rfl
        | cons t ts iht =>
          intro a h
          rw [List.foldl_cons, if_neg (h t (by simp))]
          exact iht a (fun u hu => h u (by simp [hu]))
      apply this
      intro t ht h
      have := hu t (by simp [ht]) h
      rw [this] at ht
      exact hm ht

/-- A vector of a state that could be built has one axis. -/
theorem built_rank [CommRing R] {irreps : List Str} {es : List (Elem R)} {cs sites : List (Vertex × CTensor R)}
    (h : buildSites irreps es cs = some sites) : ∀ e ∈ cs, ∃ n, e.2.t.shape = [n] := by
  unfold buildSites at h
  simp only [Option.bind_eq_bind, Option.bind_eq_some_iff] at h
  obtain ⟨ts, _, hm⟩ := h
  clear * - hm
  induction cs generalizing sites with
  | nil => simp
  | cons a l ih =>
    rw [List.mapM_cons] at hm
    simp only [Option.bind_eq_bind, Option.bind_eq_some_iff, Option.pure_def, Option.some.injEq] at hm
    obtain ⟨x, ⟨s, hs, rfl⟩, xs, hxs, rfl⟩ := hm
    intro e he
    rcases List.mem_cons.1 he with rfl | he
    · unfold combine at hs
      split at hs
      · simp at hs
      · split at hs
        · rename_i n _ _ _ _ _ _ h1 _
          exact ⟨n, h1⟩
        · simp at hs
    · exact ih hxs e he

theorem mk_some [CommRing R] {es : List (Elem R)} {cs : List (Vertex × CTensor R)} {st : LState R} (h : mk es cs = some st) :
    st.elems = es ∧ st.coeffs = cs ∧ pgIrreps es = some st.irreps ∧ buildSites st.irreps es cs = some st.sites ∧
      Lattice.mkGeometry (cs.map (·.1)) none ([] : List (List Nat)) none none = .ok ⟨st.lX, st.lY, st.vts⟩ := by
  unfold mk at h
  simp only [Option.bind_eq_bind, Option.bind_eq_some_iff] at h
  obtain ⟨ir, h1, sites, h2, h3⟩ := h
  split at h3
  · simp at h3
  · rename_i g hg
    simp only [Option.some.injEq] at h3
    subst h3
    exact ⟨rfl, rfl, h1, h2, hg⟩

/-- C77. A real state is written without error, for every order `aux` of the auxiliary indices. It is read back without error, whatever order
`aux'` the reader is told. Meta data, dtypes, coefficients, coordinates and geometry are those of the original; the auxiliary axes of every elementary
tensor and of every site tensor are relabelled by `aux`, and never relabelled back. -/
theorem C77_relabels [CommRing R] [DecidableEq R] (F : NumFmt R) (hF : F.Lawful) (aux aux' : List Nat) (haux : aux.Perm [0, 1, 2, 3])
    (p D : Nat) (st : LState R) (hst : mk st.elems st.coeffs = some st) (hkeys : (st.coeffs.map (·.1)).Nodup)
    (hsq : Spec.Square p D st) (hre : Spec.Real st) :
    ∃ j st', writeLc F st aux = some j ∧ readLc F j aux' = some st' ∧
      st'.irreps = st.irreps ∧ st'.lX = st.lX ∧ st'.lY = st.lY ∧ st'.vts = st.vts ∧
      List.Forall₂ (Spec.ElemRel aux p D) st.elems st'.elems ∧ List.Forall₂ Spec.Equal st.coeffs st'.coeffs ∧
      List.Forall₂ (Spec.SiteRel aux p D) st.sites st'.sites := by
  obtain ⟨_, _, hir, hb, hg⟩ := mk_some hst
  -- elementary tensors
  obtain ⟨js, hjs, hrel⟩ := mapM_forall₂ (writeElem F (aux.map (· + 1)))
    (fun e j => ∃ e', readElem F j = some e' ∧ Spec.ElemRel aux p D e e') st.elems
    (fun e he => elem_roundtrip F hF aux haux p D e (hsq e he) (hre.elems e he).1 (hre.elems e he).2)
  have hes : ∀ {l : List (Elem R)} {js : List JElem}, List.Forall₂ (fun e j => ∃ e', readElem F j = some e' ∧ Spec.ElemRel aux p D e e') l js →
      ∃ es', js.mapM (readElem F) = some es' ∧ List.Forall₂ (Spec.ElemRel aux p D) l es' := by
    intro l js h
    induction h with
    | nil => exact ⟨[], rfl, .nil⟩
    | cons h1 _ ih =>
      obtain ⟨e', h2, h3⟩ := h1
      obtain ⟨es', h4, h5⟩ := ih
      exact ⟨e' :: es', by rw [List.mapM_cons, h2, h4]; rfl, .cons h3 h5⟩
  obtain ⟨es', hes1, hes2⟩ := hes hrel
  -- coefficient vectors
  have hrank := built_rank hb
  have hcw : ∀ x ∈ st.coeffs.zipIdx, ∃ j, writeCoeff F x.2 x.1.2 = some j ∧
      (j.siteId = siteName F x.2 ∧ ∃ c', readCoeff F j = some c' ∧ c'.cplx = x.1.2.cplx ∧ x.1.2.t.Same c'.t) := by
    rintro ⟨⟨v, c⟩, n⟩ hx
    have hmem : (v, c) ∈ st.coeffs := by
      have := List.mem_zipIdx hx
      rw [this.2.2]
      exact List.getElem_mem _
    obtain ⟨m, hm⟩ := hrank _ hmem
    exact coeff_roundtrip F hF n c m hm (hre.coeffs _ hmem).1 (hre.coeffs _ hmem).2
  obtain ⟨jc, hjc, hcr⟩ := mapM_forall₂ (fun x => writeCoeff F x.2 x.1.2) (fun x j => j.siteId = siteName F x.2 ∧
    ∃ c', readCoeff F j = some c' ∧ c'.cplx = x.1.2.cplx ∧ x.1.2.t.Same c'.t) st.coeffs.zipIdx hcw
  obtain ⟨j, hj⟩ : ∃ j : JLc, j = ⟨st.lX, st.lY, js, jc, st.coeffs.zipIdx.map (fun e => (siteName F e.2, e.1.1))⟩ := ⟨_, rfl⟩
  have hfind : ∀ x ∈ st.coeffs.zipIdx, ∃ jx, findCoeff j.coeffs (siteName F x.2) = some jx ∧
      ∃ c', readCoeff F jx = some c' ∧ c'.cplx = x.1.2.cplx ∧ x.1.2.t.Same c'.t := by
    intro x hx
    have key : ∀ {l : List ((Vertex × CTensor R) × Nat)} {jl : List JCoeff}, List.Forall₂ (fun x j => j.siteId = siteName F x.2 ∧
        ∃ c', readCoeff F j = some c' ∧ c'.cplx = x.1.2.cplx ∧ x.1.2.t.Same c'.t) l jl → (l.map (·.2)).Nodup → x ∈ l →
        ∃ jx ∈ jl, (jx.siteId = siteName F x.2 ∧ ∃ c', readCoeff F jx = some c' ∧ c'.cplx = x.1.2.cplx ∧ x.1.2.t.Same c'.t) ∧
          ∀ s ∈ jl, s.siteId = siteName F x.2 → s = jx := by
      intro l jl h
      induction h with
      | nil => intro _ hx; simp at hx
      | @cons a b l jl hab hrest ih =>
        intro hnd hx
        rw [List.map_cons, List.nodup_cons] at hnd
        have hids : ∀ {l : List ((Vertex × CTensor R) × Nat)} {jl : List JCoeff}, List.Forall₂ (fun x j => j.siteId = siteName F x.2 ∧
            ∃ c', readCoeff F j = some c' ∧ c'.cplx = x.1.2.cplx ∧ x.1.2.t.Same c'.t) l jl →
            ∀ s ∈ jl, ∃ y ∈ l, s.siteId = siteName F y.2 := by
          intro l jl h
          induction h with
          | nil => intro s hs; simp at hs
          | @cons a b l jl hab _ ih =>
            intro s hs
            rcases List.mem_cons.1 hs with rfl | hs
            · exact ⟨a, by simp, hab.1⟩
            · obtain ⟨y, hy, h⟩ := ih s hs
              exact ⟨y, by simp [hy], h⟩
        by_cases hax : x.2 = a.2
        · have hxa : x = a := by
            rcases List.mem_cons.1 hx with h | h
            · exact h
            · exact absurd (List.mem_map.2 ⟨x, h, hax⟩) hnd.1
          subst hxa
          refine ⟨b, by simp, hab, ?_⟩
          intro s hs hid
          rcases List.mem_cons.1 hs with h | h
          · exact h
          · obtain ⟨y, hy, hy'⟩ := hids hrest s h
            rw [hid] at hy'
            exact absurd (List.mem_map.2 ⟨y, hy, (siteName_inj F hF hy').symm⟩) hnd.1
        · have hxl : x ∈ l := by
            rcases List.mem_cons.1 hx with h | h
            · exact absurd (by rw [h]) hax
            · exact h
          obtain ⟨jx, h1, h2, h3⟩ := ih hnd.2 hxl
          refine ⟨jx, by simp [h1], h2, ?_⟩
          intro s hs hid
          rcases List.mem_cons.1 hs with rfl | h
          · rw [hab.1] at hid
            exact absurd (siteName_inj F hF hid).symm hax
          · exact h3 s h hid
    have hnd : (st.coeffs.zipIdx.map (·.2)).Nodup := by
      rw [List.zipIdx_map_snd]
      exact List.nodup_range'
    obtain ⟨jx, h1, h2, h3⟩ := key hcr hnd hx
    refine ⟨jx, ?_, h2.2⟩
    rw [hj]
    exact findCoeff_foldl jc _ none jx h1 h2.1 h3
  have hcs : ∀ (L : List ((Vertex × CTensor R) × Nat)) (acc : List (Vertex × CTensor R)), (∀ x ∈ L, x ∈ st.coeffs.zipIdx) →
      (acc.map (·.1) ++ L.map (fun e => e.1.1)).Nodup →
      ∃ out, (L.map (fun e => (siteName F e.2, e.1.1))).foldlM (readOne F j) acc = some (acc ++ out) ∧
        List.Forall₂ Spec.Equal (L.map (·.1)) out := by
    intro L
    induction L with
    | nil => intro acc _ _; exact ⟨[], by simp, by simp⟩
    | cons x L ih =>
      intro acc hL hn
      obtain ⟨jx, h1, c', h2, h3, h4⟩ := hfind x (hL x (by simp))
      have hnew : x.1.1 ∉ acc.map (·.1) := by
        intro hc
        rw [List.nodup_append] at hn
        exact hn.2.2 _ hc _ (by simp) rfl
      have hstep : readOne F j acc (siteName F x.2, x.1.1) = some (acc ++ [(x.1.1, c')]) := by
        unfold readOne
        simp only [h1, h2, Option.bind_eq_bind, Option.bind_some]
        rw [dictSet_new _ _ _ hnew]
      obtain ⟨out, ho, hf⟩ := ih (acc ++ [(x.1.1, c')]) (fun e he => hL e (by simp [he])) (by simpa [List.append_assoc] using hn)
      refine ⟨(x.1.1, c') :: out, ?_, ?_⟩
      · rw [List.map_cons, List.foldlM_cons, hstep]
        simpa using ho
      · rw [List.map_cons]
        exact .cons ⟨rfl, h3, h4⟩ hf
  obtain ⟨cs', hcs1, hcs2⟩ := hcs st.coeffs.zipIdx [] (fun _ h => h) (by
    have e : st.coeffs.zipIdx.map (fun e => e.1.1) = st.coeffs.map (·.1) := by
      conv_rhs => rw [← List.zipIdx_map_fst 0 st.coeffs]
      rw [List.map_map]; rfl
    simpa [e] using hkeys)
  rw [List.zipIdx_map_fst] at hcs2
  rw [List.nil_append] at hcs1
  -- sites
  obtain ⟨sites', hs1, hs2⟩ := build_rel haux hes2 hcs2 st.irreps hb
  have hkeys' : cs'.map (·.1) = st.coeffs.map (·.1) := by
    have : ∀ {l l' : List (Vertex × CTensor R)}, List.Forall₂ Spec.Equal l l' → l'.map (·.1) = l.map (·.1) := by
      intro l l' h
      induction h with
      | nil => rfl
      | cons h1 _ ih => rw [List.map_cons, List.map_cons, h1.1, ih]
    exact this hcs2
  have hir' : pgIrreps es' = some st.irreps := by
    rw [← hir]
    exact (mapM_transfer _ _ (Spec.ElemRel aux p D) (fun a a' h => h.1.symm) hes2).symm
  refine ⟨j, ⟨st.irreps, es', cs', sites', st.lX, st.lY, st.vts⟩, ?_, ?_, rfl, rfl, rfl, rfl, hes2, hcs2, hs2⟩
  · unfold writeLc
    simp only [hjs, hjc, Option.bind_eq_bind, Option.bind_some]
    rw [hj]
  · unfold readLc
    have hje : j.elems = js := by rw [hj]
    have hjm : j.map = st.coeffs.zipIdx.map (fun e => (siteName F e.2, e.1.1)) := by rw [hj]
    simp only [hje, hjm, hes1, hcs1, Option.bind_eq_bind, Option.bind_some]
    unfold mk
    simp only [hir', hs1, hkeys', hg, Option.bind_eq_bind, Option.bind_some]

theorem relabelled_id {p D : Nat} {X Y : Tensor (R × R)} (h : Spec.Relabelled [0, 1, 2, 3] p D X Y) : X.Same Y := by
  refine ⟨h.1.trans h.2.1.symm, ?_⟩
  intro idx hi
  rw [h.1] at hi
  obtain ⟨s, a, rfl, hs, ha⟩ := inB5' hi
  exact (h.2.2 s a hs ha).symm

/-- C77, partial: for real states and the default order of the auxiliary indices, writing and reading restores the state: meta data, entries of the elementary
tensors, coefficients, site tensors and geometry. Missing: complex tensors and other orders (refuted below), `normalize=True`. -/
theorem C77_roundtrip_partial [CommRing R] [DecidableEq R] (F : NumFmt R) (hF : F.Lawful) (p D : Nat) (st : LState R)
    (hst : mk st.elems st.coeffs = some st) (hkeys : (st.coeffs.map (·.1)).Nodup) (hsq : Spec.Square p D st) (hre : Spec.Real st) :
    ∃ j st', writeLc F st [0, 1, 2, 3] = some j ∧ readLc F j [0, 1, 2, 3] = some st' ∧
      st'.irreps = st.irreps ∧ st'.lX = st.lX ∧ st'.lY = st.lY ∧ st'.vts = st.vts ∧
      List.Forall₂ (fun e e' : Elem R => e'.pg = e.pg ∧ e'.info = e.info ∧ e'.t.cplx = e.t.cplx ∧ e.t.t.Same e'.t.t) st.elems st'.elems ∧
      List.Forall₂ Spec.Equal st.coeffs st'.coeffs ∧ List.Forall₂ Spec.Equal st.sites st'.sites := by
  obtain ⟨j, st', h1, h2, h3, h4, h5, h6, h7, h8, h9⟩ := C77_relabels F hF [0, 1, 2, 3] [0, 1, 2, 3] (List.Perm.refl _) p D st hst hkeys hsq hre
  exact ⟨j, st', h1, h2, h3, h4, h5, h6, h7.imp (fun _ _ h => ⟨h.1, h.2.1, h.2.2.1, relabelled_id h.2.2.2⟩), h8,
    h9.imp (fun _ _ h => ⟨h.1, h.2.1, relabelled_id h.2.2⟩)⟩

/-! ### A chiral example: `A_1 + i A_2` with bond dimension 3 -/

/-- `1 + u + l + d + r`, invariant under all symmetries. -/
def sampleA1 : Elem Int := ⟨some ['A', '_', '1'], ['x'], ⟨false, ⟨[1, 3, 3, 3, 3],
  fun i => (1 + i.getD 1 0 + i.getD 2 0 + i.getD 3 0 + i.getD 4 0, 0)⟩⟩⟩

/-- `(u - d) (l - r) (u + d - l - r)`, invariant under rotations and odd under reflections. -/
def sampleA2 : Elem Int := ⟨some ['A', '_', '2'], ['y'], ⟨false, ⟨[1, 3, 3, 3, 3],
  fun i => (((i.getD 1 0 : Int) - i.getD 3 0) * ((i.getD 2 0 : Int) - i.getD 4 0) * ((i.getD 1 0 : Int) + i.getD 3 0 - i.getD 2 0 - i.getD 4 0), 0)⟩⟩⟩

def sampleCoeffs : List (Vertex × CTensor Int) := [((0, 0), ⟨false, ⟨[2], fun i => (2 + i.getD 0 0, 0)⟩⟩)]

theorem fin4 (g : Pg.Spec.G) : (∃ k : Fin 4, g = .rot k) ∨ ∃ k : Fin 4, g = .refl k := by
  cases g <;> simp

theorem sampleA1_rep : Spec.Representative 1 3 sampleA1 := by
  refine ⟨fun _ => rfl, Or.inl ⟨rfl, rfl, ?_⟩⟩
  intro g s f _ _
  rcases fin4 g with ⟨k, rfl⟩ | ⟨k, rfl⟩ <;> fin_cases k <;>
    simp [Pg.Spec.entry, Spec.re, sampleA1, Pg.Spec.G.act, Pg.Spec.Character.at, Pg.Spec.chA1, show (-1 : Fin 4) = 3 from rfl, show (-2 : Fin 4) = 2 from rfl, show (-3 : Fin 4) = 1 from rfl] <;> ring

theorem sampleA2_rep : Spec.Representative 1 3 sampleA2 := by
  refine ⟨fun _ => rfl, Or.inr ⟨rfl, rfl, ?_⟩⟩
  intro g s f _ _
  rcases fin4 g with ⟨k, rfl⟩ | ⟨k, rfl⟩ <;> fin_cases k <;>
    simp [Pg.Spec.entry, Spec.re, sampleA2, Pg.Spec.G.act, Pg.Spec.Character.at, Pg.Spec.chA2, show (-1 : Fin 4) = 3 from rfl, show (-2 : Fin 4) = 2 from rfl, show (-3 : Fin 4) = 1 from rfl] <;> ring

theorem sample_built : ∃ st, mk [sampleA1, sampleA2] sampleCoeffs = some st := Option.isSome_iff_exists.1 (by decide)

theorem sample_ok {st : LState Int} (h : mk [sampleA1, sampleA2] sampleCoeffs = some st) :
    mk st.elems st.coeffs = some st ∧ (st.coeffs.map (·.1)).Nodup ∧ Spec.Square 1 3 st ∧ Spec.Real st := by
  obtain ⟨h1, h2, _⟩ := mk_some h
  refine ⟨by rw [h1, h2, h], by rw [h2]; decide, ?_, ?_, ?_⟩
  · intro e he
    rw [h1] at he
    simp only [List.mem_cons, List.not_mem_nil, or_false] at he
    rcases he with rfl | rfl <;> rfl
  · intro e he
    rw [h1] at he
    simp only [List.mem_cons, List.not_mem_nil, or_false] at he
    rcases he with rfl | rfl <;> exact ⟨rfl, fun _ => rfl⟩
  · intro e he
    rw [h2] at he
    simp only [sampleCoeffs, List.mem_cons, List.not_mem_nil, or_false] at he
    rcases he with rfl
    exact ⟨rfl, fun _ => rfl⟩

/-- Non-vacuity of C77: the sample is a state, satisfies all hypotheses and has two sites entries that differ under reflection. -/
example : ∃ st, mk [sampleA1, sampleA2] sampleCoeffs = some st ∧ (mk st.elems st.coeffs = some st ∧ (st.coeffs.map (·.1)).Nodup ∧ Spec.Square 1 3 st ∧ Spec.Real st) := by
  obtain ⟨st, h⟩ := sample_built
  exact ⟨st, h, sample_ok h⟩

theorem sample_site {st : LState Int} (h : mk [sampleA1, sampleA2] sampleCoeffs = some st) :
    ∃ X, st.sites = [((0, 0), X)] ∧ X.t.val [0, 0, 0, 1, 2] = (8, -6) ∧ X.t.val [0, 0, 0, 2, 1] = (8, 6) := by
  obtain ⟨_, _, h3, h4, _⟩ := mk_some h
  have e : (mk [sampleA1, sampleA2] sampleCoeffs).map (fun st => (st.sites.map (·.1), st.sites.map (fun e => (e.2.t.val [0, 0, 0, 1, 2], e.2.t.val [0, 0, 0, 2, 1])))) =
      some ([(0, 0)], [((8, -6), (8, 6))]) := by decide
  rw [h] at e
  simp only [Option.map_some, Option.some.injEq, Prod.mk.injEq] at e
  match hs : st.sites, e with
  | [(v, X)], e =>
    simp only [List.map_cons, List.map_nil, List.cons.injEq, and_true, Prod.mk.injEq] at e
    exact ⟨X, by rw [e.1], e.2.1, e.2.2⟩
  | [], e => simp at e
  | _ :: _ :: _, e => simp at e

/-- C77 violated for other orders of the auxiliary indices: the chiral sample written and read with the same order [left, up, right, down], the one
given as example in the documentation, comes back with another site tensor (its complex conjugate, the state of opposite chirality). -/
theorem C77_order_violated : ∃ (st : LState Int) (aux : List Nat), aux.Perm [0, 1, 2, 3] ∧ mk st.elems st.coeffs = some st ∧
    (st.coeffs.map (·.1)).Nodup ∧ Spec.Square 1 3 st ∧ Spec.Real st ∧ (∀ e ∈ st.elems, Spec.Representative 1 3 e) ∧
    ∀ F : NumFmt Int, F.Lawful → ∃ j st', writeLc F st aux = some j ∧ readLc F j aux = some st' ∧ ¬ List.Forall₂ Spec.Equal st.sites st'.sites := by
  obtain ⟨st, h⟩ := sample_built
  obtain ⟨h1, h2, h3, h4⟩ := sample_ok h
  refine ⟨st, [1, 0, 3, 2], by decide, h1, h2, h3, h4, ?_, ?_⟩
  · intro e he
    rw [(mk_some h).1] at he
    simp only [List.mem_cons, List.not_mem_nil, or_false] at he
    rcases he with rfl | rfl
    · exact sampleA1_rep
    · exact sampleA2_rep
  · intro F hF
    obtain ⟨j, st', w, r, _, _, _, _, _, _, hs⟩ := C77_relabels F hF [1, 0, 3, 2] [1, 0, 3, 2] (by decide) 1 3 st h1 h2 h3 h4
    refine ⟨j, st', w, r, ?_⟩
    intro heq
    obtain ⟨X, hX, v1, v2⟩ := sample_site h
    rw [hX] at hs heq
    generalize st'.sites = ss at hs heq
    cases hs with
    | @cons a b l l' hab hl =>
      cases heq with
      | cons he _ =>
        have e1 := hab.2.2.2.2 0 (fun k => [0, 0, 2, 1].getD k 0) (by omega) (by
          intro k hk
          rcases k with _ | _ | _ | _ | k <;> simp at * <;> omega)
        have e2 := he.2.2.2 [0, 0, 0, 1, 2] (by rw [hab.2.2.1]; exact inB5_of (by omega) (by omega) (by omega) (by omega) (by omega))
        change b.2.t.val [0, 0, 0, 1, 2] = X.t.val [0, 0, 0, 2, 1] at e1
        change X.t.val [0, 0, 0, 1, 2] = b.2.t.val [0, 0, 0, 1, 2] at e2
        rw [v1, e1, v2] at e2
        exact absurd e2 (by decide)

theorem foldlM_none {α β : Type} (f : β → α → Option β) (l : List α) (a : α) (ha : a ∈ l) (h : ∀ b, f b a = none) (b : β) : l.foldlM f b = none := by
  induction l generalizing b with
  | nil => simp at ha
  | cons x l ih =>
    rw [List.foldlM_cons]
    rcases List.mem_cons.1 ha with rfl | ha
    · rw [h]; rfl
    · cases hx : f b x with
      | none => rfl
      | some y => exact ih ha y

theorem mapM_none {α β : Type} (f : α → Option β) (l : List α) (a : α) (ha : a ∈ l) (h : f a = none) : l.mapM f = none := by
  induction l with
  | nil => simp at ha
  | cons x l ih =>
    rw [List.mapM_cons]
    rcases List.mem_cons.1 ha with rfl | ha
    · rw [h]; rfl
    · rw [ih ha]
      cases f x <;> rfl

theorem mapM_mem {α β : Type} (f : α → Option β) {l : List α} {l' : List β} (h : l.mapM f = some l') {a : α} (ha : a ∈ l) : ∃ b ∈ l', f a = some b := by
  induction l generalizing l' with
  | nil => simp at ha
  | cons x l ih =>
    rw [List.mapM_cons] at h
    simp only [Option.bind_eq_bind, Option.bind_eq_some_iff, Option.pure_def, Option.some.injEq] at h
    obtain ⟨y, hy, ys, hys, rfl⟩ := h
    rcases List.mem_cons.1 ha with rfl | ha
    · exact ⟨y, by simp, hy⟩
    · obtain ⟨b, hb, h'⟩ := ih hys ha
      exact ⟨b, by simp [hb], h'⟩

/-- C77 violated for complex tensors: if a complex elementary tensor has a nonzero entry, whatever was written cannot be read back. A complex number
is printed as one word, such as `(1+2j)`, while the reader expects real and imaginary part as two words. -/
theorem C77_complex_violated [CommRing R] [DecidableEq R] (F : NumFmt R) (hF : F.Lawful) (hC : ∀ z, IsToken (F.encC z)) (st : LState R)
    (e : Elem R) (he : e ∈ st.elems) (hc : e.t.cplx = true) (ei : List Nat) (hei : Tensor.InB e.t.t.shape ei) (hne : e.t.t.val ei ≠ (0, 0))
    (aux : List Nat) (j : JLc) (hj : writeLc F st aux = some j) (aux' : List Nat) : readLc F j aux' = none := by
  unfold writeLc at hj
  simp only [Option.bind_eq_bind, Option.bind_eq_some_iff, Option.some.injEq] at hj
  obtain ⟨js, hjs, jc, hjc, rfl⟩ := hj
  obtain ⟨je, hje, hw⟩ := mapM_mem _ hjs he
  unfold readLc
  have : readElem F je = none := by
    unfold writeElem at hw
    split at hw
    · simp only [Option.bind_eq_bind, Option.bind_eq_some_iff, Option.some.injEq] at hw
      obtain ⟨en, hen, rfl⟩ := hw
      obtain ⟨txt, htxt, hx⟩ := mapM_mem _ hen (List.mem_filter.2 ⟨Tensor.mem_indices.2 hei, by simpa using hne⟩)
      unfold readElem
      simp only []
      rw [foldlM_none _ _ txt htxt]
      · rfl
      · intro val
        unfold elemEntry at hx
        simp only [Option.bind_eq_bind, Option.bind_eq_some_iff, Option.some.injEq] at hx
        obtain ⟨s, _, _, _, _, _, _, _, _, _, i0, _, i1, _, i2, _, i3, _, rfl⟩ := hx
        have hsp : splitSp (join ([s, i0, i1, i2, i3].map F.encN) ++ ' ' :: encNum F e.t.cplx (e.t.t.val ei)) =
            [s, i0, i1, i2, i3].map F.encN ++ [F.encC (e.t.t.val ei)] := by
          rw [splitSp_join_sp _ (by simp) _ (by
            intro w hw
            obtain ⟨n, _, rfl⟩ := List.mem_map.1 hw
            exact hF.tokN n)]
          rw [encNum, hc, if_pos rfl, splitSp_token _ (hC _)]
        unfold readElemEntry
        rw [hsp, hc]
        simp
    · simp at hw
  simp only [mapM_none _ _ je hje this, Option.bind_eq_bind, Option.bind_none]

/-- The same for complex coefficients. -/
theorem C77_complex_coeffs_violated [CommRing R] [DecidableEq R] (F : NumFmt R) (hF : F.Lawful) (hC : ∀ z, IsToken (F.encC z)) (st : LState R)
    (v : Vertex) (c : CTensor R) (n : Nat) (hone : st.coeffs = [(v, c)]) (hs : c.t.shape = [n + 1]) (hc : c.cplx = true)
    (aux : List Nat) (j : JLc) (hj : writeLc F st aux = some j) (aux' : List Nat) : readLc F j aux' = none := by
  unfold writeLc at hj
  simp only [Option.bind_eq_bind, Option.bind_eq_some_iff, Option.some.injEq] at hj
  obtain ⟨js, hjs, jc, hjc, rfl⟩ := hj
  rw [hone] at hjc
  simp only [List.zipIdx_cons, List.zipIdx_nil, List.mapM_cons, List.mapM_nil, writeCoeff, hs, Option.pure_def, Option.bind_eq_bind,
    Option.bind_some, Option.some.injEq] at hjc
  unfold readLc
  simp only [hone, List.zipIdx_cons, List.zipIdx_nil, List.map_cons, List.map_nil, List.foldlM_cons, List.foldlM_nil]
  have : readCoeff F ⟨siteName F 0, c.cplx, n + 1, (List.range (n + 1)).map (fun i => F.encN i ++ ' ' :: encNum F c.cplx (c.t.val [i]))⟩ = none := by
    unfold readCoeff
    simp only []
    rw [foldlM_none _ _ (F.encN 0 ++ ' ' :: encNum F c.cplx (c.t.val [0])) (List.mem_map.2 ⟨0, by simp, rfl⟩)]
    · rfl
    · intro val
      unfold readCoeffEntry
      rw [split_token_sp _ _ (hF.tokN 0), encNum, hc, if_pos rfl, split_token _ (hC _)]
      simp
  subst hjc
  unfold readOne
  simp only [findCoeff, List.foldl_cons, List.foldl_nil, if_true, this, Option.bind_eq_bind, Option.bind_some, Option.bind_none]
  cases List.mapM (readElem F) js <;> rfl

/-- A complex elementary tensor with a single, imaginary, entry, and complex coefficients. -/
def sampleCplx : Elem Int := ⟨some ['A', '_', '1'], [], ⟨true, ⟨[1, 1, 1, 1, 1], fun _ => (0, 1)⟩⟩⟩
def sampleCoeffsC : List (Vertex × CTensor Int) := [((0, 0), ⟨true, ⟨[1], fun _ => (1, 2)⟩⟩)]

theorem unary_tokC (z : Int × Int) : IsToken (unaryFmt.encC z) := by
  refine ⟨by simp [unaryFmt], ?_⟩
  intro c hc
  simp only [unaryFmt, List.mem_cons, List.mem_append, List.mem_replicate] at hc
  rcases hc with rfl | rfl | ⟨_, rfl⟩ | ⟨_, rfl⟩
  · split <;> decide
  · split <;> decide
  · decide
  · decide

/-- Non-vacuity of the two refutations: the complex sample is a state, the file is written, and the hypotheses hold. -/
example : ∃ st, mk [sampleCplx] sampleCoeffsC = some st ∧ (writeLc unaryFmt st [0, 1, 2, 3]).isSome ∧ sampleCplx ∈ st.elems ∧
    Tensor.InB sampleCplx.t.t.shape [0, 0, 0, 0, 0] ∧ sampleCplx.t.t.val [0, 0, 0, 0, 0] ≠ (0, 0) ∧ unaryFmt.Lawful ∧ (∀ z, IsToken (unaryFmt.encC z)) ∧
    (∃ v c, st.coeffs = [(v, c)] ∧ c.t.shape = [0 + 1] ∧ c.cplx = true) := by
  obtain ⟨st, h⟩ : ∃ st, mk [sampleCplx] sampleCoeffsC = some st := Option.isSome_iff_exists.1 (by decide)
  refine ⟨st, h, ?_, by rw [(mk_some h).1]; simp, by decide, by decide, unaryFmt_lawful, unary_tokC, ?_⟩
  · have e : ((mk [sampleCplx] sampleCoeffsC).map (fun st => (writeLc unaryFmt st [0, 1, 2, 3]).isSome)) = some true := by decide
    rw [h] at e
    simpa using e
  · exact ⟨(0, 0), ⟨true, ⟨[1], fun _ => (1, 2)⟩⟩, (mk_some h).2.1, rfl, rfl⟩

/-! ## C78: the site tensors -/

/-- An elementary tensor as it enters the stack. -/
def entering [Neg R] (e : Elem R) : CTensor R := if e.pg = some nameA2 then timesI e.t else e.t

theorem entering_val [CommRing R] (e : Elem R) (idx : List Nat) : (entering e).t.val idx = Spec.weighted e idx := by
  unfold entering Spec.weighted timesI
  change (if e.pg = some ['A', '_', '2'] then _ else _ : CTensor R).t.val idx = _
  split <;> rfl

theorem pg_mem {es : List (Elem R)} {irreps : List Str} (h : pgIrreps es = some irreps) (x : Str) : x ∈ irreps ↔ ∃ e ∈ es, e.pg = some x := by
  unfold pgIrreps at h
  induction es generalizing irreps with
  | nil => simp at h; subst h; simp
  | cons e es ih =>
    rw [List.mapM_cons] at h
    simp only [Option.bind_eq_bind, Option.bind_eq_some_iff, Option.pure_def, Option.some.injEq] at h
    obtain ⟨y, hy, ys, hys, rfl⟩ := h
    rw [List.mem_cons, ih hys]
    constructor
    · rintro (rfl | ⟨e', h1, h2⟩)
      · exact ⟨e, by simp, hy⟩
      · exact ⟨e', by simp [h1], h2⟩
    · rintro ⟨e', h1, h2⟩
      rcases List.mem_cons.1 h1 with rfl | h1
      · left; rw [hy] at h2; simpa using h2.symm
      · exact Or.inr ⟨e', h1, h2⟩

theorem ne12 : nameA1 ≠ nameA2 := by decide

/-- With the `A_1` tensors listed before the `A_2` tensors, the stack follows the list. -/
theorem stackElems_sorted [CommRing R] {es1 es2 : List (Elem R)} (h1 : ∀ e ∈ es1, e.pg = some nameA1) (h2 : ∀ e ∈ es2, e.pg = some nameA2)
    {irreps : List Str} (hp : pgIrreps (es1 ++ es2) = some irreps) {ts : CTensor R} (hs : stackElems irreps (es1 ++ es2) = some ts) :
    stack ((es1 ++ es2).map entering) = some ts := by
  unfold stackElems at hs
  have hm1 : es1.map entering = es1.map (·.t) := by
    apply List.map_congr_left
    intro e he
    unfold entering
    rw [if_neg (by rw [h1 e he]; simp [ne12])]
  have hm2 : es2.map entering = es2.map (fun e => timesI e.t) := by
    apply List.map_congr_left
    intro e he
    unfold entering
    rw [if_pos (h2 e he)]
  split at hs
  · rename_i hc
    have : es2 = [] := by
      cases es2 with
      | nil => rfl
      | cons e es =>
        have := hc.2 nameA2 ((pg_mem hp _).2 ⟨e, by simp, h2 e (by simp)⟩)
        exact absurd this.symm ne12
    subst this
    rw [List.append_nil] at hs ⊢
    rw [hm1, hs]
  · split at hs
    · have f1 : (es1 ++ es2).filter (fun e => decide (e.pg = some nameA1)) = es1 := by
        rw [List.filter_append, List.filter_eq_self.2 (by intro e he; simp [h1 e he]), List.filter_eq_nil_iff.2 (by intro e he; simp [h2 e he, ne12.symm]), List.append_nil]
      have f2 : (es1 ++ es2).filter (fun e => decide (e.pg = some nameA2)) = es2 := by
        rw [List.filter_append, (List.filter_eq_nil_iff (l := es1)).2 (by intro e he; simp [h1 e he, ne12]), List.nil_append, List.filter_eq_self.2 (by intro e he; simp [h2 e he])]
      rw [f1, f2] at hs
      rw [List.map_append, hm1, hm2, hs]
    · simp at hs

theorem stack_get [CommRing R] {Xs : List (CTensor R)} {ts : CTensor R} (h : stack Xs = some ts) :
    (∃ sh, ts.t.shape = Xs.length :: sh ∧ ∀ X ∈ Xs, X.t.shape = sh) ∧ ts.cplx = Xs.any (·.cplx) ∧
    ∀ k idx, ts.t.val (k :: idx) = ((Xs[k]?).map (fun Y => Y.t.val idx)).getD (0, 0) := by
  cases Xs with
  | nil => simp [stack] at h
  | cons X Xs =>
    simp only [stack] at h
    split at h
    · rename_i hc
      simp only [Option.some.injEq] at h
      subst h
      refine ⟨⟨X.t.shape, rfl, ?_⟩, rfl, fun k idx => rfl⟩
      intro Y hY
      rcases List.mem_cons.1 hY with rfl | hY
      · rfl
      · exact hc Y hY
    · simp at h

theorem build_forall₂ [CommRing R] {irreps : List Str} {es : List (Elem R)} {cs sites : List (Vertex × CTensor R)} (h : buildSites irreps es cs = some sites) :
    ∃ ts, stackElems irreps es = some ts ∧ List.Forall₂ (fun e s => s.1 = e.1 ∧ combine e.2 ts = some s.2) cs sites := by
  unfold buildSites at h
  simp only [Option.bind_eq_bind, Option.bind_eq_some_iff] at h
  obtain ⟨ts, hts, hm⟩ := h
  refine ⟨ts, hts, ?_⟩
  clear hts
  induction cs generalizing sites with
  | nil => simp at hm; subst hm; exact .nil
  | cons a l ih =>
    rw [List.mapM_cons] at hm
    simp only [Option.bind_eq_bind, Option.bind_eq_some_iff, Option.pure_def, Option.some.injEq] at hm
    obtain ⟨x, ⟨s, hs, rfl⟩, xs, hxs, rfl⟩ := hm
    exact .cons ⟨rfl, hs⟩ (ih hxs)

/-- C78, partial: when the `A_1` tensors are listed before the `A_2` tensors, every site tensor is the documented combination: the sum over the list of the
`k`-th coefficient times the `k`-th elementary tensor, with a factor `i` for `A_2`. Missing: other orders of the list (refuted below). -/
theorem C78_combination_partial [CommRing R] (es1 es2 : List (Elem R)) (h1 : ∀ e ∈ es1, e.pg = some ['A', '_', '1']) (h2 : ∀ e ∈ es2, e.pg = some ['A', '_', '2'])
    (cs : List (Vertex × CTensor R)) (hlen : ∀ e ∈ cs, e.2.t.shape = [(es1 ++ es2).length]) (st : LState R) (h : mk (es1 ++ es2) cs = some st) :
    List.Forall₂ (fun e s => s.1 = e.1 ∧ (∀ x ∈ es1 ++ es2, s.2.t.shape = x.t.t.shape) ∧
      ∀ idx, s.2.t.val idx = Spec.combination (es1 ++ es2) (fun k => e.2.t.val [k]) idx) cs st.sites := by
  obtain ⟨_, _, hir, hb, _⟩ := mk_some h
  obtain ⟨ts, hts, hf⟩ := build_forall₂ hb
  have hst := stackElems_sorted h1 h2 hir hts
  obtain ⟨⟨sh, hsh, hall⟩, _, hget⟩ := stack_get hst
  rw [List.length_map] at hsh
  refine (List.forall₂_iff_get.2 ⟨hf.length_eq, ?_⟩)
  intro i hi hi'
  obtain ⟨hk, hc⟩ := (List.forall₂_iff_get.1 hf).2 i hi hi'
  refine ⟨hk, ?_⟩
  have hl := hlen _ (List.get_mem cs ⟨i, hi⟩)
  unfold combine at hc
  split at hc
  · simp at hc
  · rw [hl] at hc
    split at hc
    · rename_i n m p u l d r hn hm
      simp only [List.cons.injEq, and_true] at hn
      subst hn
      rw [hsh] at hm
      simp only [List.cons.injEq] at hm
      obtain ⟨rfl, rfl⟩ := hm
      simp only [Pg.bcastDim, if_true, Option.bind_eq_bind, Option.bind_some, Option.some.injEq] at hc
      rw [← hc]
      refine ⟨?_, ?_⟩
      · intro x hx
        have := hall (entering x) (List.mem_map.2 ⟨x, hx, rfl⟩)
        rw [← this]
        unfold entering timesI
        split <;> rfl
      · intro idx
        show (∑ k ∈ Finset.range (es1 ++ es2).length, _) = _
        rw [Spec.combination, Finset.sum_range]
        apply Finset.sum_congr rfl
        intro k _
        have hk0 : (if (es1 ++ es2).length = 1 then 0 else (k : Nat)) = k := by
          have := k.isLt
          split <;> omega
        rw [hk0, hget, List.getElem?_map, List.getElem?_eq_getElem k.isLt]
        simp only [Option.map_some, Option.getD_some, entering_val, cmul]
        rfl
    · simp at hc

/-- Non-vacuity: the chiral sample is of this form. -/
example : ∃ st, mk ([sampleA1] ++ [sampleA2]) sampleCoeffs = some st ∧ (∀ e ∈ sampleCoeffs, e.2.t.shape = [([sampleA1] ++ [sampleA2]).length]) := by
  obtain ⟨st, h⟩ := sample_built
  exact ⟨st, h, by simp [sampleCoeffs]⟩

/-- C78 violated for other orders of the list: with the `A_2` tensor listed first, the site tensor is not the combination of the listed tensors with the
listed coefficients; the first coefficient multiplies the `A_1` tensor. -/
theorem C78_order_violated : ∃ (es : List (Elem Int)) (cs : List (Vertex × CTensor Int)) (st : LState Int), mk es cs = some st ∧
    (∀ e ∈ es, Spec.Representative 1 3 e) ∧ (∀ e ∈ cs, e.2.t.shape = [es.length]) ∧
    ∃ v c X idx, cs = [(v, c)] ∧ st.sites = [(v, X)] ∧ X.t.val idx ≠ Spec.combination es (fun k => c.t.val [k]) idx := by
  obtain ⟨st, h⟩ : ∃ st, mk [sampleA2, sampleA1] sampleCoeffs = some st := Option.isSome_iff_exists.1 (by decide)
  refine ⟨[sampleA2, sampleA1], sampleCoeffs, st, h, ?_, by simp [sampleCoeffs], ?_⟩
  · intro e he
    simp only [List.mem_cons, List.not_mem_nil, or_false] at he
    rcases he with rfl | rfl
    · exact sampleA2_rep
    · exact sampleA1_rep
  · have e : (mk [sampleA2, sampleA1] sampleCoeffs).map (fun st => (st.sites.map (·.1), st.sites.map (fun e => e.2.t.val [0, 0, 0, 1, 2]))) =
        some ([(0, 0)], [(8, -6)]) := by decide
    rw [h] at e
    simp only [Option.map_some, Option.some.injEq, Prod.mk.injEq] at e
    match hs : st.sites, e with
    | [(v, X)], e =>
      simp only [List.map_cons, List.map_nil, List.cons.injEq, and_true, Prod.mk.injEq] at e
      refine ⟨(0, 0), _, X, [0, 0, 0, 1, 2], rfl, by rw [← e.1], ?_⟩
      rw [e.2]
      decide
    | [], e => simp at e
    | _ :: _ :: _, e => simp at e

/-- Real part in `A1`, imaginary part in `A2`. -/
def Chiral [CommRing R] (p D : Nat) (f : List Nat → R × R) : Prop :=
  ∀ (g : Pg.Spec.G) (s : Nat) (a : Fin 4 → Nat), s < p → (∀ i, a i < D) →
    (f [s, a (g.act 0), a (g.act 1), a (g.act 2), a (g.act 3)]).1 = (Pg.Spec.chA1.at g : R) * (f [s, a 0, a 1, a 2, a 3]).1 ∧
    (f [s, a (g.act 0), a (g.act 1), a (g.act 2), a (g.act 3)]).2 = (Pg.Spec.chA2.at g : R) * (f [s, a 0, a 1, a 2, a 3]).2

theorem chiral_zero [CommRing R] (p D : Nat) : Chiral p D (fun _ => ((0, 0) : R × R)) := by
  intro g s a _ _; simp

theorem chiral_entering [CommRing R] {p D : Nat} {e : Elem R} (h : Spec.Representative p D e) : Chiral p D (entering e).t.val ∧ (entering e).t.shape = [p, D, D, D, D] := by
  obtain ⟨him, ⟨hpg, hsh, hT⟩ | ⟨hpg, hsh, hT⟩⟩ := h
  · unfold entering
    rw [if_neg (by rw [hpg]; exact (by decide : some ['A', '_', '1'] ≠ some nameA2))]
    refine ⟨?_, hsh⟩
    intro g s a hs ha
    exact ⟨hT g s a hs ha, by rw [him, him, mul_zero]⟩
  · unfold entering
    rw [if_pos (by rw [hpg]; rfl)]
    refine ⟨?_, hsh⟩
    intro g s a hs ha
    exact ⟨by simp only [timesI, him, neg_zero, mul_zero], hT g s a hs ha⟩

theorem stackElems_good [CommRing R] {p D : Nat} {es : List (Elem R)} (h : ∀ e ∈ es, Spec.Representative p D e) {irreps : List Str} (hp : pgIrreps es = some irreps)
    {ts : CTensor R} (hs : stackElems irreps es = some ts) : (∃ n, ts.t.shape = [n, p, D, D, D, D]) ∧ ∀ k, Chiral p D (fun idx => ts.t.val (k :: idx)) := by
  have key : ∀ (l : List (Elem R)), (∀ e ∈ l, Spec.Representative p D e) → stack (l.map entering) = some ts →
      (∃ n, ts.t.shape = [n, p, D, D, D, D]) ∧ ∀ k, Chiral p D (fun idx => ts.t.val (k :: idx)) := by
    intro l hl hst
    obtain ⟨⟨sh, h1, h2⟩, _, h3⟩ := stack_get hst
    refine ⟨?_, ?_⟩
    · cases l with
      | nil => simp [stack] at hst
      | cons e l =>
        have := h2 (entering e) (by simp)
        rw [(chiral_entering (hl e (by simp))).2] at this
        exact ⟨_, by rw [h1, this]⟩
    · intro k
      have e : (fun idx => ts.t.val (k :: idx)) = fun idx => (((l.map entering)[k]?).map (fun Y => Y.t.val idx)).getD (0, 0) := funext (h3 k)
      rw [e, List.getElem?_map]
      cases hk : l[k]? with
      | none => exact chiral_zero p D
      | some x => exact (chiral_entering (hl x (List.mem_of_getElem? hk))).1
  have hm1 : ∀ l : List (Elem R), (∀ e ∈ l, e.pg = some nameA1) → l.map (·.t) = l.map entering := by
    intro l hl
    apply List.map_congr_left
    intro e he
    unfold entering
    rw [if_neg (by rw [hl e he]; simp [ne12])]
  have hm2 : ∀ l : List (Elem R), (∀ e ∈ l, e.pg = some nameA2) → l.map (fun e => timesI e.t) = l.map entering := by
    intro l hl
    apply List.map_congr_left
    intro e he
    unfold entering
    rw [if_pos (hl e he)]
  unfold stackElems at hs
  split at hs
  · rename_i hc
    rw [hm1 es] at hs
    · exact key es h hs
    · intro e he
      rcases (h e he).2 with ⟨h1, _⟩ | ⟨h1, _⟩
      · exact h1
      · exact absurd (hc.2 nameA2 ((pg_mem hp _).2 ⟨e, he, h1⟩)).symm ne12
  · split at hs
    · rw [hm1 _ (by intro e he; simpa using (List.mem_filter.1 he).2), hm2 _ (by intro e he; simpa using (List.mem_filter.1 he).2), ← List.map_append] at hs
      refine key _ ?_ hs
      intro e he
      rcases List.mem_append.1 he with he | he <;> exact h e (List.mem_filter.1 he).1
    · simp at hs

theorem combine_good [CommRing R] {p D n : Nat} {c ts s : CTensor R} (hc : ∀ idx, (c.t.val idx).2 = 0) (h1 : ts.t.shape = [n, p, D, D, D, D])
    (h2 : ∀ k, Chiral p D (fun idx => ts.t.val (k :: idx))) (hs : combine c ts = some s) : s.t.shape = [p, D, D, D, D] ∧ Chiral p D s.t.val := by
  unfold combine at hs
  split at hs
  · simp at hs
  · split at hs
    · rename_i N m p' u l d r hcN hts
      rw [h1] at hts
      simp only [List.cons.injEq, and_true] at hts
      obtain ⟨rfl, rfl, rfl, rfl, rfl, rfl⟩ := hts
      simp only [Option.bind_eq_bind, Option.bind_eq_some_iff, Option.some.injEq] at hs
      obtain ⟨M, _, rfl⟩ := hs
      refine ⟨rfl, ?_⟩
      intro g s a hs ha
      simp only [Prod.fst_sum, Prod.snd_sum, Finset.mul_sum, cmul, hc, zero_mul, sub_zero, add_zero]
      constructor
      · apply Finset.sum_congr rfl
        intro k _
        rw [(h2 _ g s a hs ha).1]; ring
      · apply Finset.sum_congr rfl
        intro k _
        rw [(h2 _ g s a hs ha).2]; ring
    · simp at hs

/-- C78. If every elementary tensor is a real representative of the irrep it claims and the coefficients are real, then the real part of every site tensor of
every reachable state transforms as `A1` and its imaginary part as `A2`, whatever the order of the list. -/
theorem C78_symmetric [CommRing R] (p D : Nat) (st : LState R) (hst : Spec.Consistent st) (hrep : ∀ e ∈ st.elems, Spec.Representative p D e)
    (hreal : ∀ e ∈ st.coeffs, ∀ idx, (e.2.t.val idx).2 = 0) : ∀ s ∈ st.sites,
      Pg.Spec.Transforms Pg.Spec.chA1 p D (Spec.re s.2.t) ∧ Pg.Spec.Transforms Pg.Spec.chA2 p D (Spec.im s.2.t) := by
  obtain ⟨ts, hts, hf⟩ := build_forall₂ hst.2
  obtain ⟨⟨n, hn⟩, hg⟩ := stackElems_good hrep hst.1 hts
  intro s hs
  obtain ⟨i, hi, rfl⟩ := List.getElem_of_mem hs
  have hi' : i < st.coeffs.length := by rw [hf.length_eq]; exact hi
  have hc := ((List.forall₂_iff_get.1 hf).2 i hi' hi).2
  obtain ⟨h1, h2⟩ := combine_good (hreal _ (List.get_mem st.coeffs ⟨i, hi'⟩)) hn hg hc
  exact ⟨⟨h1, fun g s f hs hf => (h2 g s f hs hf).1⟩, ⟨h1, fun g s f hs hf => (h2 g s f hs hf).2⟩⟩

/-- C78. The site tensors of such a state satisfy what the routines for point-group symmetric states ask for: invariance under rotations by 90 degrees, and under
the diagonal reflection combined with complex conjugation. -/
theorem C78_fits_c4v (p D : Nat) (st : LState ℝ) (hst : Spec.Consistent st) (hrep : ∀ e ∈ st.elems, Spec.Representative p D e)
    (hreal : ∀ e ∈ st.coeffs, ∀ idx, (e.2.t.val idx).2 = 0) : ∀ s ∈ st.sites,
      C4v.Spec.Rotated D p (Spec.toComplex s.2.t) ∧ C4v.Spec.Reflected D p (Spec.toComplex s.2.t) := by
  intro s hs
  obtain ⟨h1, h2⟩ := C78_symmetric p D st hst hrep hreal s hs
  constructor
  · refine ⟨1, by simp, ?_⟩
    intro i u l d r hi hu hl hd hr
    have hb : ∀ k, ![u, l, d, r] k < D := by intro k; fin_cases k <;> simpa
    have e1 := h1.2 (.rot 3) i ![u, l, d, r] hi hb
    have e2 := h2.2 (.rot 3) i ![u, l, d, r] hi hb
    simp [Pg.Spec.entry, Spec.re, Spec.im, Pg.Spec.G.act, Pg.Spec.Character.at, Pg.Spec.chA1, Pg.Spec.chA2,
      show (1 + 3 : Fin 4) = 0 from rfl, show (2 + 3 : Fin 4) = 1 from rfl, show (3 + 3 : Fin 4) = 2 from rfl] at e1 e2
    rw [one_mul]
    apply Complex.ext
    · simpa [Spec.toComplex] using e1
    · simpa [Spec.toComplex] using e2
  · intro i u l d r hi hu hl hd hr
    have hb : ∀ k, ![u, l, d, r] k < D := by intro k; fin_cases k <;> simpa
    have e1 := h1.2 (.refl 1) i ![u, l, d, r] hi hb
    have e2 := h2.2 (.refl 1) i ![u, l, d, r] hi hb
    simp [Pg.Spec.entry, Spec.re, Spec.im, Pg.Spec.G.act, Pg.Spec.Character.at, Pg.Spec.chA1, Pg.Spec.chA2,
      show (1 - 2 : Fin 4) = 3 from rfl, show (1 - 3 : Fin 4) = 2 from rfl] at e1 e2
    apply Complex.ext
    · simpa [Spec.toComplex] using e1.symm
    · have : (s.2.t.val [i, u, l, d, r]).2 = -(s.2.t.val [i, l, u, r, d]).2 := by rw [e2, neg_neg]
      simpa [Spec.toComplex] using this

/-- Only `A_1` alone or `A_1` with `A_2` are supported: a state with `A_2` tensors only, or with any other name, cannot be constructed. -/
theorem C78_rejects [CommRing R] (es : List (Elem R)) (cs : List (Vertex × CTensor R))
    (h : (∀ e ∈ es, e.pg ≠ some ['A', '_', '1']) ∨ ∃ e ∈ es, e.pg ≠ some ['A', '_', '1'] ∧ e.pg ≠ some ['A', '_', '2']) : mk es cs = none := by
  cases hp : pgIrreps es with
  | none => unfold mk; rw [hp]; rfl
  | some irreps =>
    have hn : stackElems irreps es = none := by
      unfold stackElems
      rcases h with h | ⟨e, he, h1, h2⟩
      · have hA : nameA1 ∉ irreps := by
          intro hm
          obtain ⟨e, he, hpg⟩ := (pg_mem hp _).1 hm
          exact h e he hpg
        rw [if_neg, if_neg (fun hc => hA hc.1)]
        rintro ⟨hne, hall⟩
        cases irreps with
        | nil => exact hne rfl
        | cons x xs => exact hA (by rw [← hall x (by simp)]; simp)
      · obtain ⟨x, hx⟩ : ∃ x, e.pg = some x := by
          have : e.pg ≠ none := by
            intro hnone
            unfold pgIrreps at hp
            rw [mapM_none _ _ e he hnone] at hp
            simp at hp
          exact Option.ne_none_iff_exists'.1 this
        have hm : x ∈ irreps := (pg_mem hp _).2 ⟨e, he, hx⟩
        rw [if_neg, if_neg]
        · rintro ⟨_, _, hall⟩
          rcases hall x hm with rfl | rfl
          · exact h1 hx
          · exact h2 hx
        · rintro ⟨_, hall⟩
          rw [hall x hm] at hx
          exact h1 hx
    unfold mk
    simp only [hp, Option.bind_eq_bind, Option.bind_some, buildSites, hn, Option.bind_none]

/-- Non-vacuity: `A_2` alone. -/
example : mk [sampleA2] sampleCoeffs = none := C78_rejects _ _ (Or.inl (by simp [sampleA2]))

/-! ## C79: histories -/

/-- C79. After any sequence of construction, reading, restoring of checkpoints, addition of noise and copying, the site tensors are those built from the current
coefficients and elementary tensors. -/
theorem C79_consistent [CommRing R] (F : NumFmt R) (st : LState R) (h : Spec.Reachable F st) : Spec.Consistent st := by
  have hmk : ∀ {es : List (Elem R)} {cs : List (Vertex × CTensor R)} {st : LState R}, mk es cs = some st → Spec.Consistent st := by
    intro es cs st h
    obtain ⟨h1, h2, h3, h4, _⟩ := mk_some h
    exact ⟨by rw [h1, h3], by rw [h1, h2, h4]⟩
  induction h with
  | construct h => exact hmk h
  | read h =>
    unfold readLc at h
    simp only [Option.bind_eq_bind, Option.bind_eq_some_iff] at h
    obtain ⟨_, _, _, _, h⟩ := h
    exact hmk h
  | restore _ h _ =>
    unfold loadCheckpoint at h
    simp only [Option.bind_eq_bind, Option.bind_eq_some_iff, Option.some.injEq] at h
    obtain ⟨es, _, ir, h2, sites, h3, rfl⟩ := h
    exact ⟨h2, h3⟩
  | noise _ h ih =>
    unfold addNoise at h
    simp only [Option.bind_eq_bind, Option.bind_eq_some_iff, Option.some.injEq] at h
    obtain ⟨sites, h2, rfl⟩ := h
    exact ⟨ih.1, h2⟩
  | copy _ h _ => exact hmk h

/-- C79. Restoring the checkpoint of a state, into any other state, brings back its elementary tensors, coefficients and site tensors. -/
theorem C79_checkpoint [CommRing R] (st st0 : LState R) (h : Spec.Consistent st) (hne : st.coeffs ≠ [])
    (hlen : ∀ e ∈ st.coeffs, e.2.t.shape = [st.elems.length]) : ∃ st', loadCheckpoint st0 (getCheckpoint st) = some st' ∧
      st'.elems = st.elems ∧ st'.coeffs = st.coeffs ∧ st'.sites = st.sites ∧ st'.irreps = st.irreps := by
  refine ⟨{ st0 with irreps := st.irreps, elems := st.elems, coeffs := st.coeffs, sites := st.sites }, ?_, rfl, rfl, rfl, rfl⟩
  unfold loadCheckpoint getCheckpoint ckptElems
  have : st.coeffs.any (fun e => numel e.2 == st.elems.length) = true := by
    cases hc : st.coeffs with
    | nil => exact absurd hc hne
    | cons e es =>
      have := hlen e (by rw [hc]; simp)
      simp [List.any_cons, numel, this]
  simp only [this, if_true, Option.bind_eq_bind, Option.bind_some, h.1, h.2]

/-- C79. A state whose number of coefficients differs from the number of elementary tensors for every coordinate is not restored. -/
theorem C79_checkpoint_rejects [CommRing R] (st0 : LState R) (es : List (Elem R)) (cs : List (Vertex × CTensor R)) (h : ∀ e ∈ cs, numel e.2 ≠ es.length) :
    loadCheckpoint st0 ⟨some es, cs⟩ = none := by
  have : cs.any (fun e => numel e.2 == es.length) = false := by
    rw [List.any_eq_false]
    intro e he
    simpa using h e he
  unfold loadCheckpoint ckptElems
  simp only [this, Bool.false_eq_true, if_false, Option.bind_eq_bind, Option.bind_none]

/-- C79. A copy of a constructed state is equal to it. -/
theorem C79_clone [CommRing R] (st : LState R) (h : mk st.elems st.coeffs = some st) : clone st = some st := by
  unfold clone
  have e1 : st.elems.map (fun e => (⟨e.pg, e.info, e.t⟩ : Elem R)) = st.elems := List.map_id'' (fun _ => rfl) _
  have e2 : st.coeffs.map (fun e => (e.1, e.2)) = st.coeffs := List.map_id'' (fun _ => rfl) _
  rw [e1, e2, h]

/-- C79. Adding noise changes the coefficients and, with them, the site tensors; elementary tensors, irreps, coordinates and geometry stay. -/
theorem C79_noise [CommRing R] (pert : Vertex → CTensor R → CTensor R) (scale : CTensor R → CTensor R) (st st' : LState R)
    (h : addNoise pert scale st = some st') : st'.elems = st.elems ∧ st'.irreps = st.irreps ∧ st'.vts = st.vts ∧
      st'.coeffs.map (·.1) = st.coeffs.map (·.1) ∧ List.Forall₂ (fun e e' => e'.2 = scale (pert e.1 e.2)) st.coeffs st'.coeffs ∧
      buildSites st.irreps st.elems st'.coeffs = some st'.sites := by
  unfold addNoise at h
  simp only [Option.bind_eq_bind, Option.bind_eq_some_iff, Option.some.injEq] at h
  obtain ⟨sites, h2, rfl⟩ := h
  refine ⟨rfl, rfl, rfl, by simp [Function.comp_def], ?_, h2⟩
  rw [List.forall₂_map_right_iff]
  exact List.forall₂_same.2 (fun _ _ => rfl)

/-- C79 violated: moving a state to a device always raises when the elementary tensors are given as tuples, as documented and as built by the reader. -/
theorem C79_move_violated (dev : CTensor R → CTensor R) (st : LState R) (hne : st.elems ≠ []) : moveTo .tuple dev st = none := by
  unfold moveTo
  cases hs : st.elems with
  | nil => exact absurd hs hne
  | cons e es =>
    rw [List.length_cons, List.range_succ_eq_map, List.foldlM_cons]
    rfl

/-- C79 violated also for pairs given as lists: of two elementary tensors the first is overwritten by the second, and the second does not move. -/
theorem C79_move_lists_violated (dev : CTensor R → CTensor R) (e1 e2 : Elem R) (st : LState R) (hs : st.elems = [e1, e2]) :
    ∃ st', moveTo .list dev st = some st' ∧ st'.elems = [⟨e1.pg, e1.info, dev e2.t⟩, e2] := by
  refine ⟨{ st with elems := [⟨e1.pg, e1.info, dev e2.t⟩, e2], coeffs := st.coeffs.map (fun e => (e.1, dev e.2)) }, ?_, rfl⟩
  unfold moveTo
  rw [hs]
  rfl

/-- C79 violated: the function that loads a checkpoint from a file always raises, since it passes keywords the constructor does not accept. -/
theorem C79_load_function_violated [CommRing R] (ck : Ckpt R) : loadCheckpointFile ck = none := by
  unfold loadCheckpointFile
  cases ck.elems with
  | none => rfl
  | some es =>
    simp only [Option.bind_eq_bind, Option.bind_some]
    split
    · exact if_neg (by decide)
    · rfl

/-- Non-vacuity of C78 and C79: the chiral sample is reachable, consistent, made of representatives, has real coefficients of the right length, and is restored
from its checkpoint. -/
example : ∃ st, mk [sampleA1, sampleA2] sampleCoeffs = some st ∧ Spec.Reachable unaryFmt st ∧ Spec.Consistent st ∧ (∀ e ∈ st.elems, Spec.Representative 1 3 e) ∧
    (∀ e ∈ st.coeffs, ∀ idx, (e.2.t.val idx).2 = 0) ∧ st.coeffs ≠ [] ∧ (∀ e ∈ st.coeffs, e.2.t.shape = [st.elems.length]) ∧ mk st.elems st.coeffs = some st := by
  obtain ⟨st, h⟩ := sample_built
  obtain ⟨h1, h2, h3, h4⟩ := sample_ok h
  obtain ⟨e1, e2, _⟩ := mk_some h
  refine ⟨st, h, .construct h, C79_consistent unaryFmt st (.construct h), ?_, fun e he => (h4.coeffs e he).2, ?_, ?_, h1⟩
  · intro e he
    rw [e1] at he
    simp only [List.mem_cons, List.not_mem_nil, or_false] at he
    rcases he with rfl | rfl
    · exact sampleA1_rep
    · exact sampleA2_rep
  · rw [e2]; simp [sampleCoeffs]
  · rw [e1, e2]; simp [sampleCoeffs]

end Verif.Lc
