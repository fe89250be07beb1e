import Verif.Oe.UnrollModel
import Verif.Tensor.Einsum
/-
Property C29: unrolled contraction equals the plain contraction.
-/
namespace Verif.Oe
open Tensor
variable {K : Type} [CommRing K]

/-- An assignment of the labels with the unrolled ones fixed. -/
def fixed (u : Nat → Option Nat) (σ : Nat → Nat) (l : Nat) : Nat := (u l).getD (σ l)

theorem expand_map (unroll : List Nat) (u : Nat → Option Nat) (hu : ∀ l, (u l).isSome ↔ l ∈ unroll) (ig : List Nat) (σ : Nat → Nat) :
    expand u ig ((strip unroll ig).map σ) = ig.map (fixed u σ) := by
  induction ig with
  | nil => rfl
  | cons l ls ih =>
    unfold expand
    by_cases h : l ∈ unroll
    · obtain ⟨v, hv⟩ := Option.isSome_iff_exists.1 ((hu l).2 h)
      have hs : strip unroll (l :: ls) = strip unroll ls := by simp [strip, h]
      simp only [hv, hs, ih, List.map_cons, fixed, Option.getD_some]
    · have hv : u l = none := by
        by_contra hc
        exact h ((hu l).1 (Option.isSome_iff_ne_none.2 hc))
      have hs : strip unroll (l :: ls) = l :: strip unroll ls := by simp [strip, h]
      simp only [hv, hs, List.map_cons, List.headD_cons, List.tail_cons, ih, fixed, Option.getD_none]

omit [CommRing K] in
theorem narrow_shape (unroll : List Nat) (u : Nat → Option Nat) (t : Tensor K) (ig : List Nat) (dim : Nat → Nat) (h : t.shape = ig.map dim) :
    (narrow unroll u t ig).shape = (strip unroll ig).map dim := by
  unfold narrow strip
  simp only [h]
  clear h
  induction ig with
  | nil => rfl
  | cons l ls ih =>
    by_cases hl : l ∈ unroll
    · simp [hl] at ih ⊢; exact ih
    · simp [hl] at ih ⊢; exact ih

theorem uiMap_isSome (unroll vals : List Nat) (h : unroll.length = vals.length) (l : Nat) : (uiMap unroll vals l).isSome ↔ l ∈ unroll := by
  unfold uiMap
  induction unroll generalizing vals with
  | nil => simp
  | cons a unroll ih =>
    cases vals with
    | nil => simp at h
    | cons v vals =>
      simp only [List.zip_cons_cons, List.lookup_cons, List.mem_cons]
      by_cases hl : l = a
      · simp [hl]
      · have : (l == a) = false := by simpa using hl
        simp only [this, hl, false_or]
        exact ih vals (by simpa using h)

theorem uiMap_map (unroll : List Nat) (τ : Nat → Nat) (l : Nat) (h : l ∈ unroll) : uiMap unroll (unroll.map τ) l = some (τ l) :=
  lookup_zip_map τ unroll l h

theorem uiMap_none (unroll vals : List Nat) (l : Nat) (h : l ∉ unroll) : uiMap unroll vals l = none := by
  unfold uiMap
  induction unroll generalizing vals with
  | nil => simp
  | cons a unroll ih =>
    cases vals with
    | nil => simp
    | cons v vals =>
      simp only [List.zip_cons_cons, List.lookup_cons]
      have : (l == a) = false := by simp at h; simpa using h.1
      simp only [this]
      exact ih vals (by simp at h; simp [h.2])

/-- Without unrolled labels narrowing does nothing. -/
theorem expand_none (u : Nat → Option Nat) (ig idx : List Nat) (hu : ∀ l ∈ ig, u l = none) (h : idx.length = ig.length) : expand u ig idx = idx := by
  induction ig generalizing idx with
  | nil => simp at h; simp [h, expand]
  | cons l ls ih =>
    cases idx with
    | nil => simp at h
    | cons i is =>
      unfold expand
      rw [hu l (by simp)]
      simp only [List.headD_cons, List.tail_cons, List.cons.injEq, true_and]
      exact ih is (fun l hl => hu l (by simp [hl])) (by simpa using h)

/-- The operands of one turn of the loop. -/
theorem body_ops (ck : Bool) (ops : List (Tensor K × List Nat)) (unroll : List Nat) (u : Nat → Option Nat) (hu : ∀ l, (u l).isSome ↔ l ∈ unroll) (dim : Nat → Nat)
    (hs : ∀ p ∈ ops, p.1.shape = p.2.map dim) :
    ∃ ts : List (Tensor K), ts = (if ck then ops.map (fun p => narrow unroll u p.1 p.2)
      else callExpr (constants ops unroll) ((ops.filter (fun p => p.2.any (· ∈ unroll))).map (fun p => narrow unroll u p.1 p.2))) ∧
      (∀ p ∈ ts.zip (ops.map (fun p => strip unroll p.2)), p.1.shape = p.2.map dim) ∧
      (ts.zip (ops.map (fun p => strip unroll p.2))).flatMap Prod.snd = strip unroll (ops.flatMap Prod.snd) ∧
      ∀ σ, termOf (ts.zip (ops.map (fun p => strip unroll p.2))) σ = termOf ops (fixed u σ) := by
  refine ⟨_, rfl, ?_⟩
  induction ops with
  | nil => cases ck <;> simp [callExpr, constants, strip, termOf]
  | cons p ops ih =>
    obtain ⟨i1, i2, i3⟩ := ih (fun q hq => hs q (by simp [hq]))
    have key : ∀ (t : Tensor K) (ts : List (Tensor K)), t.shape = (strip unroll p.2).map dim →
        (∀ σ, t.val ((strip unroll p.2).map σ) = p.1.val (p.2.map (fixed u σ))) →
        ts = (if ck then ops.map (fun p => narrow unroll u p.1 p.2)
          else callExpr (constants ops unroll) ((ops.filter (fun p => p.2.any (· ∈ unroll))).map (fun p => narrow unroll u p.1 p.2))) →
        (∀ q ∈ (t :: ts).zip ((p :: ops).map (fun p => strip unroll p.2)), q.1.shape = q.2.map dim) ∧
        ((t :: ts).zip ((p :: ops).map (fun p => strip unroll p.2))).flatMap Prod.snd = strip unroll ((p :: ops).flatMap Prod.snd) ∧
        ∀ σ, termOf ((t :: ts).zip ((p :: ops).map (fun p => strip unroll p.2))) σ = termOf (p :: ops) (fixed u σ) := by
      rintro t ts h1 h2 rfl
      refine ⟨?_, ?_, ?_⟩
      · intro q hq
        simp only [List.map_cons, List.zip_cons_cons, List.mem_cons] at hq
        rcases hq with rfl | hq
        · exact h1
        · exact i1 q hq
      · simp only [List.map_cons, List.zip_cons_cons, List.flatMap_cons, i2]
        simp [strip]
      · intro σ
        have := i3 σ
        simp only [termOf, List.map_cons, List.zip_cons_cons, List.prod_cons] at this ⊢
        rw [this, h2]
    have hnar : ∀ σ, (narrow unroll u p.1 p.2).val ((strip unroll p.2).map σ) = p.1.val (p.2.map (fixed u σ)) := by
      intro σ
      show p.1.val (expand u p.2 ((strip unroll p.2).map σ)) = _
      rw [expand_map unroll u hu]
    cases ck with
    | true => exact key _ _ (narrow_shape unroll u p.1 p.2 dim (hs p (by simp))) hnar rfl
    | false =>
      by_cases hp : p.2.any (· ∈ unroll)
      · have := key _ _ (narrow_shape unroll u p.1 p.2 dim (hs p (by simp))) hnar rfl
        simpa only [constants, List.map_cons, hp, if_true, if_false, List.filter_cons, callExpr, Bool.false_eq_true] using this
      · have hno : ∀ l ∈ p.2, l ∉ unroll := by
          intro l hl hc
          exact hp (List.any_eq_true.2 ⟨l, hl, by simpa using hc⟩)
        have hst : strip unroll p.2 = p.2 := List.filter_eq_self.2 (fun l hl => by simpa using hno l hl)
        have := key p.1 _ (by rw [hst]; exact hs p (by simp)) (fun σ => by
          rw [hst]
          congr 1
          apply List.map_congr_left
          intro l hl
          have : u l = none := by
            by_contra hc
            exact hno l hl ((hu l).1 (Option.isSome_iff_ne_none.2 hc))
          simp [fixed, this]) rfl
        simpa only [constants, List.map_cons, hp, if_false, List.filter_cons, callExpr, Bool.false_eq_true] using this

/-- One turn of the loop contracts the network with the unrolled labels fixed. -/
theorem body_val (ck : Bool) (ops : List (Tensor K × List Nat)) (out unroll vals : List Nat) (dim : Nat → Nat) (hl : unroll.length = vals.length)
    (hs : ∀ p ∈ ops, p.1.shape = p.2.map dim) (hn : out.Nodup) (ho : ∀ l ∈ out, l ∈ ops.flatMap Prod.snd) :
    ∃ X, body ck ops out unroll vals = some X ∧ ∀ σ, (∀ l ∈ strip unroll out, σ l < dim l) → X.val ((strip unroll out).map σ) =
      sumOver dim ((strip unroll (ops.flatMap Prod.snd)).dedup.filter (fun l => l ∉ strip unroll out)) (fun σ => termOf ops (fixed (uiMap unroll vals) σ)) σ := by
  obtain ⟨ts, ets, h1, h2, h3⟩ := body_ops ck ops unroll (uiMap unroll vals) (uiMap_isSome unroll vals hl) dim hs
  obtain ⟨X, eX, -, hX⟩ := einsum_ok dim (ts.zip (ops.map (fun p => strip unroll p.2))) (strip unroll out) h1 (hn.filter _) (by
    intro l hl
    rw [h2]
    simp only [strip, List.mem_filter] at hl ⊢
    exact ⟨ho l hl.1, hl.2⟩)
  refine ⟨X, by unfold body; simp only [← ets]; exact eX, fun σ hσ => ?_⟩
  rw [hX σ hσ, h2]
  congr 1
  exact funext h3

omit [CommRing K] in
/-- The loop: an entry that is written in exactly one turn has the value of that turn. -/
theorem loop_val (F : List Nat → Option (Tensor K)) (X : List Nat → Tensor K) (pat : List Nat → List (Option Nat)) (vs : List (List Nat))
    (hF : ∀ v ∈ vs, F v = some (X v)) (g : List Nat → K) :
    ∃ f, vs.foldlM (fun f v => do
        let Y ← F v
        return assign (pat v) Y f) g = some f ∧
      (∀ idx, (∀ w ∈ vs, ((pat w).zip idx).all (fun q => q.1 = none ∨ q.1 = some q.2) = false) → f idx = g idx) ∧
      ∀ idx v, v ∈ vs → ((pat v).zip idx).all (fun q => q.1 = none ∨ q.1 = some q.2) = true →
        (∀ w ∈ vs, ((pat w).zip idx).all (fun q => q.1 = none ∨ q.1 = some q.2) = true → w = v) →
        f idx = (X v).val ((((pat v).zip idx).filter (fun q => q.1 = none)).map Prod.snd) := by
  induction vs generalizing g with
  | nil => exact ⟨g, rfl, fun _ _ => rfl, fun _ _ h => absurd h (by simp)⟩
  | cons a vs ih =>
    obtain ⟨f, e, h1, h2⟩ := ih (fun v hv => hF v (by simp [hv])) (assign (pat a) (X a) g)
    refine ⟨f, ?_, ?_, ?_⟩
    · rw [List.foldlM_cons, hF a (by simp)]
      exact e
    · intro idx h
      rw [h1 idx (fun w hw => h w (by simp [hw]))]
      unfold assign
      rw [if_neg]
      rw [h a (by simp)]; exact Bool.false_ne_true
    · intro idx v hv hm hu
      by_cases hva : v ∈ vs
      · exact h2 idx v hva hm (fun w hw => hu w (by simp [hw]))
      · obtain rfl : v = a := by rcases List.mem_cons.1 hv with h | h
                                 · exact h
                                 · exact absurd h hva
        rw [h1 idx]
        · unfold assign
          rw [if_pos hm]
        · intro w hw
          exact Bool.eq_false_iff.2 (fun hc => hva (hu w (by simp [hw]) hc ▸ hw))

omit [CommRing K] in
theorem sizeOf_eq (dim : Nat → Nat) (ops : List (Tensor K × List Nat)) (hs : ∀ p ∈ ops, p.1.shape = p.2.map dim) (l : Nat) (hl : l ∈ ops.flatMap Prod.snd) :
    sizeOf ops l = some (dim l) := by
  unfold sizeOf
  have hall : ∀ q ∈ (labelDims ops).reverse, q.2 = dim q.1 := by
    intro q hq
    obtain ⟨p, hp, hq⟩ := List.mem_flatMap.1 (List.mem_reverse.1 hq)
    rw [hs p hp] at hq
    obtain ⟨i, hi, rfl⟩ := List.mem_iff_getElem.1 hq
    simp
  have hmem : ∃ q ∈ (labelDims ops).reverse, q.1 = l := by
    obtain ⟨p, hp, hl⟩ := List.mem_flatMap.1 hl
    obtain ⟨i, hi, rfl⟩ := List.mem_iff_getElem.1 hl
    have hi' : i < p.1.shape.length := by rw [hs p hp]; simpa using hi
    refine ⟨(p.2[i], p.1.shape[i]), List.mem_reverse.2 (List.mem_flatMap.2 ⟨p, hp, ?_⟩), rfl⟩
    rw [← List.getElem_zip (h := by simp; omega)]
    exact List.getElem_mem _
  generalize (labelDims ops).reverse = L at hall hmem
  induction L with
  | nil => obtain ⟨q, hq, -⟩ := hmem; simp at hq
  | cons a L ih =>
    rcases a with ⟨k, d⟩
    by_cases hk : l = k
    · subst hk
      rw [List.lookup_cons_self]
      exact congrArg some (hall (l, d) (by simp))
    · rw [List.lookup_cons, beq_eq_false_iff_ne.2 hk]
      refine ih (fun q hq => hall q (by simp [hq])) ?_
      obtain ⟨q, hq, rfl⟩ := hmem
      rcases List.mem_cons.1 hq with rfl | hq
      · exact absurd rfl hk
      · exact ⟨q, hq, rfl⟩

omit [CommRing K] in
theorem mapM_sizeOf (dim : Nat → Nat) (ops : List (Tensor K × List Nat)) (hs : ∀ p ∈ ops, p.1.shape = p.2.map dim) (ls : List Nat)
    (hl : ∀ l ∈ ls, l ∈ ops.flatMap Prod.snd) : ls.mapM (sizeOf ops) = some (ls.map dim) := by
  induction ls with
  | nil => rfl
  | cons a ls ih => rw [List.mapM_cons, sizeOf_eq dim ops hs a (hl a (by simp)), ih (fun l h => hl l (by simp [h]))]; rfl

/-- Which entries a turn of the loop writes. -/
theorem match_iff (u : Nat → Option Nat) (L : List Nat) (σ : Nat → Nat) :
    ((L.map u).zip (L.map σ)).all (fun q => q.1 = none ∨ q.1 = some q.2) = true ↔ ∀ l ∈ L, u l = none ∨ u l = some (σ l) := by
  induction L with
  | nil => simp
  | cons a L ih => simp only [List.map_cons, List.zip_cons_cons, List.all_cons, Bool.and_eq_true, ih, List.forall_mem_cons, decide_eq_true_eq]

theorem free_part (unroll : List Nat) (u : Nat → Option Nat) (hu : ∀ l, (u l).isSome ↔ l ∈ unroll) (L : List Nat) (σ : Nat → Nat) :
    (((L.map u).zip (L.map σ)).filter (fun q => q.1 = none)).map Prod.snd = (strip unroll L).map σ := by
  induction L with
  | nil => rfl
  | cons a L ih =>
    simp only [List.map_cons, List.zip_cons_cons, List.filter_cons, strip]
    by_cases h : a ∈ unroll
    · obtain ⟨v, hv⟩ := Option.isSome_iff_exists.1 ((hu a).2 h)
      simpa [hv, h, strip] using ih
    · have hv : u a = none := by
        by_contra hc
        exact h ((hu a).1 (Option.isSome_iff_ne_none.2 hc))
      simpa [hv, h, strip] using ih

/-- The loop computes the plain contraction. -/
theorem unrollLoop_val (g : List Nat → K) (ck : Bool) (ops : List (Tensor K × List Nat)) (out unroll : List Nat) (R : Tensor K) (hR : einsum ops out = some R)
    (hn : unroll.Nodup) (hul : ∀ l ∈ unroll, l ∈ ops.flatMap Prod.snd) :
    ∃ R', unrollLoop g (body ck ops out unroll) ops out unroll = some R' ∧ R'.Same R := by
  obtain ⟨dim, hs, hno, ho⟩ := einsum_some hR
  set con := unroll.filter (fun l => l ∉ out) with hcon
  have hconm : ∀ l, l ∈ con ↔ l ∈ unroll ∧ l ∉ out := by intro l; simp [hcon]
  have hlen : ∀ v ∈ indices (unroll.map dim), unroll.length = v.length := by
    intro v hv
    have := (mem_indices.1 hv).length_eq
    simpa using this.symm
  have : Nonempty (Tensor K) := ⟨R⟩
  choose! X hX using fun v (hv : v ∈ indices (unroll.map dim)) => body_val ck ops out unroll v dim (hlen v hv) hs hno ho
  obtain ⟨f, ef, -, hf⟩ := loop_val (body ck ops out unroll) X (fun vals => out.map (uiMap unroll vals) ++ con.map (uiMap unroll vals)) (indices (unroll.map dim))
    (fun v hv => (hX v hv).1) g
  have hnoc : (out ++ con).Nodup := by
    refine List.Nodup.append hno (hn.filter _) ?_
    intro l h1 h2
    exact ((hconm l).1 h2).2 h1
  obtain ⟨R', eR', hsR', hvR'⟩ := einsum_ok dim [((⟨(out ++ con).map dim, f⟩ : Tensor K), out ++ con)] out (by simp) hno (by simp; tauto)
  obtain ⟨R0, eR0, hsR, hvR⟩ := einsum_ok dim ops out hs hno ho
  obtain rfl : R0 = R := Option.some.inj (eR0.symm.trans hR)
  refine ⟨R', ?_, hsR'.trans hsR.symm, ?_⟩
  · unfold unrollLoop
    rw [mapM_sizeOf dim ops hs out ho]
    show (con.mapM (sizeOf ops) >>= _) = _
    rw [mapM_sizeOf dim ops hs con (fun l hl => hul l ((hconm l).1 hl).1)]
    show (unroll.mapM (sizeOf ops) >>= _) = _
    rw [mapM_sizeOf dim ops hs unroll hul]
    show ((List.foldlM _ g _ : Option (List Nat → K)) >>= _) = _
    rw [ef]
    show einsum [(⟨out.map dim ++ con.map dim, f⟩, out ++ con)] out = _
    rw [← List.map_append]
    exact eR'
  · intro idx hidx
    rw [hsR'] at hidx
    obtain ⟨σ, hσ, rfl, -⟩ := exists_labels dim out hno idx hidx (fun _ => 0)
    rw [hvR' σ hσ, hvR σ hσ]
    have h1 : (List.filter (fun l => decide (l ∉ out)) (List.flatMap Prod.snd [((⟨(out ++ con).map dim, f⟩ : Tensor K), out ++ con)]).dedup) = con := by
      simp only [List.flatMap_cons, List.flatMap_nil, List.append_nil, hnoc.dedup, List.filter_append]
      rw [List.filter_eq_nil_iff.2 (by simp), List.nil_append]
      exact List.filter_eq_self.2 (fun l hl => by simpa using ((hconm l).1 hl).2)
    rw [h1]
    set rest := (strip unroll (ops.flatMap Prod.snd)).dedup.filter (fun l => l ∉ strip unroll out) with hrest
    have hrm : ∀ l, l ∈ rest ↔ l ∈ ops.flatMap Prod.snd ∧ l ∉ unroll ∧ l ∉ out := by
      intro l
      simp only [hrest, strip, List.mem_filter, List.mem_dedup, decide_eq_true_eq]
      tauto
    have hperm : ((ops.flatMap Prod.snd).dedup.filter (fun l => l ∉ out)).Perm (con ++ rest) := by
      rw [List.perm_ext_iff_of_nodup ((List.nodup_dedup _).filter _)]
      · intro l
        rw [List.mem_append, hconm, hrm, List.mem_filter, List.mem_dedup, decide_eq_true_eq]
        have := hul l
        tauto
      · refine List.Nodup.append (hn.filter _) ((List.nodup_dedup _).filter _) ?_
        intro l h1 h2
        exact ((hrm l).1 h2).2.1 ((hconm l).1 h1).1
    rw [sumOver_perm _ hperm, sumOver_append]
    refine sumOver_congr _ _ _ _ _ (fun τ hτ hτ' => ?_)
    have hτo : ∀ l ∈ out, τ l < dim l := by
      intro l hl
      rw [hτ' l (fun hc => ((hconm l).1 hc).2 hl)]
      exact hσ l hl
    have hτu : ∀ l ∈ unroll, τ l < dim l := by
      intro l hl
      by_cases h : l ∈ out
      · exact hτo l h
      · exact hτ l ((hconm l).2 ⟨hl, h⟩)
    have hv : unroll.map τ ∈ indices (unroll.map dim) := mem_indices.2 (inB_map dim τ unroll hτu)
    have hmt : ∀ w ∈ indices (unroll.map dim), ∀ ρ : Nat → Nat, w = unroll.map ρ →
        (((out.map (uiMap unroll w) ++ con.map (uiMap unroll w)).zip ((out ++ con).map τ)).all (fun q => q.1 = none ∨ q.1 = some q.2) = true ↔ w = unroll.map τ) := by
      rintro w hw ρ rfl
      rw [← List.map_append, match_iff]
      constructor
      · intro h
        apply List.map_congr_left
        intro l hl
        have := h l (by by_cases ho : l ∈ out
                        · simp [ho]
                        · simp [(hconm l).2 ⟨hl, ho⟩])
        rw [uiMap_map unroll ρ l hl] at this
        simpa using this
      · intro h l hl
        rw [h]
        by_cases hlu : l ∈ unroll
        · exact .inr (uiMap_map unroll τ l hlu)
        · exact .inl (uiMap_none unroll _ l hlu)
    have hval := hf ((out ++ con).map τ) (unroll.map τ) hv ((hmt _ hv τ rfl).2 rfl) (fun w hw hm => by
      obtain ⟨ρ, -, hρ, -⟩ := exists_labels dim unroll hn w (mem_indices.1 hw) (fun _ => 0)
      exact (hmt w hw ρ hρ.symm).1 hm)
    have hterm : termOf [((⟨(out ++ con).map dim, f⟩ : Tensor K), out ++ con)] τ = f ((out ++ con).map τ) := by simp [termOf]
    have hui := uiMap_isSome unroll (unroll.map τ) (by simp)
    rw [hterm, hval, ← List.map_append, free_part unroll _ hui]
    have hst : strip unroll (out ++ con) = strip unroll out := by
      unfold strip
      have hc : con.filter (fun l => l ∉ unroll) = [] := List.filter_eq_nil_iff.2 (fun l hl => by simpa using ((hconm l).1 hl).1)
      rw [List.filter_append, hc, List.append_nil]
    rw [hst, (hX _ hv).2 τ (fun l hl => hτo l (List.mem_filter.1 hl).1)]
    refine sumOver_congr _ _ _ _ _ (fun ρ _ hρ => termOf_congr _ _ _ (fun l _ => ?_))
    unfold fixed
    by_cases hlu : l ∈ unroll
    · rw [uiMap_map unroll τ l hlu, Option.getD_some, hρ l (fun hc => ((hrm l).1 hc).2.1 hlu)]
    · rw [uiMap_none unroll _ l hlu, Option.getD_none]

/-- The indices that may be unrolled: each occurs in at least two of the index groups, the output included. -/
def Spec.Admissible (groups : List (List Nat)) (out unroll : List Nat) : Prop :=
  ∀ u ∈ unroll, 2 ≤ ((groups ++ [out]).filter (fun ig => u ∈ ig)).length

/-- C29: whatever indices are unrolled, checkpointed or not, and whatever the uninitialised buffer contains, the result is the plain contraction. -/
theorem C29_unroll (g : List Nat → K) (ck : Bool) (ops : List (Tensor K × List Nat)) (out unroll : List Nat) (R : Tensor K) (hR : einsum ops out = some R)
    (hn : unroll.Nodup) (ha : Spec.Admissible (ops.map Prod.snd) out unroll) :
    ∃ R', contractWithUnroll g ck ops out unroll = some R' ∧ R'.Same R := by
  obtain ⟨dim, hs, hno, ho⟩ := einsum_some hR
  by_cases hu0 : unroll = []
  · exact ⟨R, by unfold contractWithUnroll; rw [if_pos hu0]; exact hR, Same.refl R⟩
  have hul : ∀ l ∈ unroll, l ∈ ops.flatMap Prod.snd := by
    intro l hl
    have h2 := ha l hl
    obtain ⟨ig, hig⟩ := List.exists_mem_of_length_pos (by omega : 0 < ((ops.map Prod.snd ++ [out]).filter (fun ig => l ∈ ig)).length)
    simp only [List.mem_filter, List.mem_append, List.mem_map, List.mem_singleton, decide_eq_true_eq] at hig
    rcases hig with ⟨⟨p, hp, rfl⟩ | rfl, h⟩
    · exact List.mem_flatMap.2 ⟨p, hp, h⟩
    · exact ho l h
  have hchk : unroll.any (fun u => ((ops.map Prod.snd ++ [out]).filter (fun ig => u ∈ ig)).length < 2) = false := by
    rw [List.any_eq_false]
    intro l hl
    have := ha l hl
    simp only [decide_eq_true_eq]
    omega
  unfold contractWithUnroll
  rw [if_neg hu0, if_neg (by rw [hchk]; exact Bool.false_ne_true)]
  exact unrollLoop_val g ck ops out unroll R hR hn hul

omit [CommRing K] in
theorem callExpr_eq (ops : List (Tensor K × List Nat)) (unroll : List Nat) (u : Nat → Option Nat) :
    callExpr (constants ops unroll) ((ops.filter (fun p => p.2.any (· ∈ unroll))).map (fun p => narrow unroll u p.1 p.2)) =
      ops.map (fun p => if p.2.any (· ∈ unroll) then narrow unroll u p.1 p.2 else p.1) := by
  induction ops with
  | nil => rfl
  | cons p ops ih =>
    by_cases hp : p.2.any (· ∈ unroll)
    · simpa only [constants, List.map_cons, hp, if_true, List.filter_cons, callExpr, List.cons.injEq, true_and] using ih
    · simpa only [constants, List.map_cons, hp, if_false, List.filter_cons, callExpr, Bool.false_eq_true, List.cons.injEq, true_and] using ih

/-- C29, the older routine: it needs of the unrolled indices only that they belong to the network. -/
theorem C29_legacy (g : List Nat → K) (ops : List (Tensor K × List Nat)) (out unroll : List Nat) (R : Tensor K) (hR : einsum ops out = some R)
    (hn : unroll.Nodup) (hul : ∀ l ∈ unroll, ∃ p ∈ ops, l ∈ p.2) : ∃ R', contractLegacy g ops out unroll = some R' ∧ R'.Same R := by
  by_cases hu0 : unroll = []
  · exact ⟨R, by unfold contractLegacy; rw [if_pos hu0]; exact hR, Same.refl R⟩
  have hb : legacyBody ops out unroll = body false ops out unroll := by
    funext vals
    unfold legacyBody body
    simp only [Bool.false_eq_true, if_false]
    rw [callExpr_eq, List.zip_map']
  unfold contractLegacy
  rw [if_neg hu0, hb]
  exact unrollLoop_val g false ops out unroll R hR hn (fun l hl => List.mem_flatMap.2 (hul l hl))

/-- An index occurring in a single index group is refused. -/
theorem C29_refused (g : List Nat → K) (ck : Bool) (ops : List (Tensor K × List Nat)) (out unroll : List Nat) (ha : ¬ Spec.Admissible (ops.map Prod.snd) out unroll) :
    contractWithUnroll g ck ops out unroll = none := by
  have hu0 : unroll ≠ [] := by
    rintro rfl
    exact ha (by simp [Spec.Admissible])
  unfold contractWithUnroll
  rw [if_neg hu0, if_pos]
  unfold Spec.Admissible at ha
  simp only [not_forall] at ha
  obtain ⟨u, hu, h⟩ := ha
  rw [List.any_eq_true]
  exact ⟨u, hu, by simpa using h⟩

/-- A matrix product with a traced third tensor, unrolling the contracted index, an output index and the traced one. -/
example (g : List Nat → Int) (ck : Bool) (A B C : Tensor Int) (hA : A.shape = [2, 3]) (hB : B.shape = [3, 4]) (hC : C.shape = [4, 5, 5]) :
    ∃ R R', einsum [(A, [0, 1]), (B, [1, 2]), (C, [2, 7, 7])] [2, 0] = some R ∧
      contractWithUnroll g ck [(A, [0, 1]), (B, [1, 2]), (C, [2, 7, 7])] [2, 0] [1, 2] = some R' ∧ R'.Same R := by
  obtain ⟨R, e, -, -⟩ := einsum_ok (fun l => if l = 0 then 2 else if l = 1 then 3 else if l = 2 then 4 else 5)
    [(A, [0, 1]), (B, [1, 2]), (C, [2, 7, 7])] [2, 0] (by simp [hA, hB, hC]) (by decide) (by simp)
  obtain ⟨R', e', h⟩ := C29_unroll g ck _ _ [1, 2] R e (by decide) (by intro u hu; simp at hu; rcases hu with rfl | rfl <;> simp)
  exact ⟨R, R', e, e', h⟩

/-- The older routine also unrolls an index of a single tensor. -/
example (g : List Nat → Int) (A : Tensor Int) (hA : A.shape = [2, 3]) : ∃ R R', einsum [(A, [0, 1])] [0] = some R ∧
    contractLegacy g [(A, [0, 1])] [0] [1] = some R' ∧ R'.Same R ∧ contractWithUnroll g false [(A, [0, 1])] [0] [1] = none := by
  obtain ⟨R, e, -, -⟩ := einsum_ok (fun l => if l = 0 then 2 else 3) [(A, [0, 1])] [0] (by simp [hA]) (by decide) (by simp)
  obtain ⟨R', e', h⟩ := C29_legacy g _ _ [1] R e (by decide) (by simp)
  exact ⟨R, R', e, e', h, C29_refused g false _ _ _ (by simp [Spec.Admissible])⟩

end Verif.Oe
