import Verif.Tensor.Ops
import Mathlib.Data.List.Perm.Basic
import Mathlib.Data.List.Dedup
/-
Networks of labelled tensors and the proof that the tensor operations compute them.
-/
namespace Verif.Tensor
variable {K : Type}

section sums
variable [AddCommMonoid K] (dim : Nat → Nat)

theorem sumOver_append (l1 l2 : List Nat) (f : (Nat → Nat) → K) (σ : Nat → Nat) :
    sumOver dim (l1 ++ l2) f σ = sumOver dim l1 (sumOver dim l2 f) σ := by
  induction l1 generalizing σ with
  | nil => rfl
  | cons l l1 ih => simp only [List.cons_append, sumOver, ih]

theorem sumOver_congr (ls : List Nat) (f g : (Nat → Nat) → K) (σ : Nat → Nat)
    (h : ∀ τ, (∀ l ∈ ls, τ l < dim l) → (∀ l, l ∉ ls → τ l = σ l) → f τ = g τ) :
    sumOver dim ls f σ = sumOver dim ls g σ := by
  induction ls generalizing σ with
  | nil => exact h σ (by simp) (by simp)
  | cons a ls ih =>
    simp only [sumOver]
    apply Finset.sum_congr rfl
    intro i hi
    apply ih
    intro τ h1 h2
    by_cases ha : a ∈ ls
    · apply h
      · intro l hl
        rcases List.mem_cons.1 hl with rfl | hl
        · exact h1 _ ha
        · exact h1 _ hl
      · intro l hl
        rw [h2 l (fun hh => hl (List.mem_cons_of_mem _ hh)), Function.update_of_ne]
        rintro rfl; exact hl (by simp)
    · apply h
      · intro l hl
        rcases List.mem_cons.1 hl with rfl | hl
        · rw [h2 _ ha, Function.update_self]; exact Finset.mem_range.1 hi
        · exact h1 _ hl
      · intro l hl
        rw [h2 l (fun hh => hl (List.mem_cons_of_mem _ hh)), Function.update_of_ne]
        rintro rfl; exact hl (by simp)

theorem sumOver_perm {l1 l2 : List Nat} (h : l1.Perm l2) (f : (Nat → Nat) → K) (σ : Nat → Nat) :
    sumOver dim l1 f σ = sumOver dim l2 f σ := by
  induction h generalizing σ with
  | nil => rfl
  | cons a _ ih => simp only [sumOver, ih]
  | swap a b l =>
    simp only [sumOver]
    by_cases hab : a = b
    · subst hab; rfl
    · rw [Finset.sum_comm]
      refine Finset.sum_congr rfl (fun i _ => Finset.sum_congr rfl (fun j _ => ?_))
      rw [Function.update_comm (Ne.symm hab)]
  | trans _ _ ih1 ih2 => rw [ih1, ih2]

/-- The value depends on `σ` only through the labels that are not summed and that `f` depends on. -/
theorem sumOver_local (ls S : List Nat) (f : (Nat → Nat) → K) (hf : ∀ σ τ, (∀ l ∈ S, σ l = τ l) → f σ = f τ) (σ τ : Nat → Nat)
    (h : ∀ l ∈ S, l ∉ ls → σ l = τ l) : sumOver dim ls f σ = sumOver dim ls f τ := by
  induction ls generalizing σ τ with
  | nil => exact hf _ _ (fun l hl => h l hl (by simp))
  | cons a ls ih =>
    simp only [sumOver]
    refine Finset.sum_congr rfl (fun i _ => ih _ _ ?_)
    intro l hl hn
    by_cases hla : l = a
    · subst hla; simp
    · rw [Function.update_of_ne hla, Function.update_of_ne hla]
      exact h l hl (by simp [hla, hn])

theorem sumOver_dim (dim' : Nat → Nat) (ls : List Nat) (f : (Nat → Nat) → K) (σ : Nat → Nat) (h : ∀ l ∈ ls, dim l = dim' l) :
    sumOver dim ls f σ = sumOver dim' ls f σ := by
  induction ls generalizing σ with
  | nil => rfl
  | cons a ls ih =>
    simp only [sumOver]
    rw [h a (by simp)]
    exact Finset.sum_congr rfl (fun i _ => ih _ (fun l hl => h l (by simp [hl])))

end sums

section mul
variable [CommRing K] (dim : Nat → Nat)

theorem sumOver_mul (ls : List Nat) (f : (Nat → Nat) → K) (σ : Nat → Nat) (x : K) :
    sumOver dim ls f σ * x = sumOver dim ls (fun τ => f τ * x) σ := by
  induction ls generalizing σ with
  | nil => rfl
  | cons a ls ih => simp only [sumOver, Finset.sum_mul, ih]

theorem mul_sumOver (ls : List Nat) (f : (Nat → Nat) → K) (σ : Nat → Nat) (x : K) :
    x * sumOver dim ls f σ = sumOver dim ls (fun τ => x * f τ) σ := by
  simp only [mul_comm x, sumOver_mul]

theorem sumOver_mul_sumOver (L1 L2 S1 S2 : List Nat) (f g : (Nat → Nat) → K) (σ : Nat → Nat)
    (hf : ∀ σ τ, (∀ l ∈ S1, σ l = τ l) → f σ = f τ) (hg : ∀ σ τ, (∀ l ∈ S2, σ l = τ l) → g σ = g τ)
    (h1 : ∀ l ∈ L2, l ∉ S1) (h2 : ∀ l ∈ L1, l ∉ S2) :
    sumOver dim L1 f σ * sumOver dim L2 g σ = sumOver dim (L1 ++ L2) (fun τ => f τ * g τ) σ := by
  rw [sumOver_append, sumOver_mul]
  apply sumOver_congr
  intro τ _ hτ
  rw [sumOver_local dim L2 S2 g hg σ τ, mul_sumOver]
  · apply sumOver_congr
    intro ρ _ hρ
    rw [hf τ ρ]
    intro l hl
    exact (hρ l (fun h => h1 l h hl)).symm
  · intro l hl _
    exact (hτ l (fun h => h2 l h hl)).symm

end mul

/-! ### Grouped labels: a fused axis carries several labels -/

/-- Size of a fused axis. -/
def gdim (dim : Nat → Nat) (g : List Nat) : Nat := (g.map dim).prod

/-- Index on a fused axis: the first label is the slowest. -/
def gidx (dim σ : Nat → Nat) (g : List Nat) : Nat := ravel (g.map dim) (g.map σ)

theorem gidx_cons (dim σ : Nat → Nat) (l : Nat) (g : List Nat) : gidx dim σ (l :: g) = σ l * gdim dim g + gidx dim σ g := rfl

theorem inB_map (dim σ : Nat → Nat) (g : List Nat) (h : ∀ l ∈ g, σ l < dim l) : InB (g.map dim) (g.map σ) := by
  induction g with
  | nil => exact List.Forall₂.nil
  | cons a g ih => exact List.Forall₂.cons (h a (by simp)) (ih (fun l hl => h l (by simp [hl])))

theorem gidx_lt (dim σ : Nat → Nat) (g : List Nat) (h : ∀ l ∈ g, σ l < dim l) : gidx dim σ g < gdim dim g :=
  ravel_lt (inB_map dim σ g h)

theorem gidx_congr (dim σ τ : Nat → Nat) (g : List Nat) (h : ∀ l ∈ g, σ l = τ l) : gidx dim σ g = gidx dim τ g := by
  unfold gidx
  rw [List.map_congr_left h]

theorem gidx_map_congr (dim σ τ : Nat → Nat) (O : List (List Nat)) (h : ∀ l ∈ O.flatten, σ l = τ l) :
    O.map (gidx dim σ) = O.map (gidx dim τ) :=
  List.map_congr_left (fun g hg => gidx_congr dim σ τ g (fun l hl => h l (List.mem_flatten.2 ⟨g, hg, hl⟩)))

theorem sum_range_mul [AddCommMonoid K] (a b : Nat) (H : Nat → K) :
    ∑ i ∈ Finset.range (a * b), H i = ∑ i ∈ Finset.range a, ∑ j ∈ Finset.range b, H (i * b + j) := by
  induction a with
  | zero => simp
  | succ a ih => rw [Nat.succ_mul, Finset.sum_range_add, ih, Finset.sum_range_succ]

theorem sum_group [AddCommMonoid K] (dim : Nat → Nat) (g : List Nat) (hg : g.Nodup) (H : Nat → K) (σ : Nat → Nat) :
    ∑ i ∈ Finset.range (gdim dim g), H i = sumOver dim g (fun τ => H (gidx dim τ g)) σ := by
  induction g generalizing H σ with
  | nil => simp [gdim, gidx, sumOver, ravel]
  | cons l g ih =>
    rw [List.nodup_cons] at hg
    have : gdim dim (l :: g) = dim l * gdim dim g := by simp [gdim]
    rw [this, sum_range_mul]
    simp only [sumOver]
    refine Finset.sum_congr rfl (fun i _ => ?_)
    rw [ih hg.2 (fun j => H (i * gdim dim g + j)) (Function.update σ l i)]
    apply sumOver_congr
    intro τ _ hτ
    rw [gidx_cons, hτ l hg.1, Function.update_self]

theorem sumIdx_groups [AddCommMonoid K] (dim : Nat → Nat) (c : List (List Nat)) (hc : c.flatten.Nodup) (G : List Nat → K) (σ : Nat → Nat) :
    sumIdx (c.map (gdim dim)) G = sumOver dim c.flatten (fun τ => G (c.map (gidx dim τ))) σ := by
  induction c generalizing G σ with
  | nil => rfl
  | cons g c ih =>
    rw [List.flatten_cons, List.nodup_append] at hc
    simp only [List.map_cons, List.flatten_cons, sumIdx]
    rw [sumOver_append, sum_group dim g hc.1 _ σ]
    apply sumOver_congr
    intro τ _ _
    rw [ih hc.2.1 _ τ]
    apply sumOver_congr
    intro ρ _ hρ
    rw [gidx_congr dim τ ρ g]
    intro l hl
    exact (hρ l (fun h => hc.2.2 l hl l h rfl)).symm

theorem ravel_append (s1 s2 i1 i2 : List Nat) (h : i1.length = s1.length) :
    ravel (s1 ++ s2) (i1 ++ i2) = ravel s1 i1 * s2.prod + ravel s2 i2 := by
  induction s1 generalizing i1 with
  | nil =>
    cases i1 with
    | nil => simp [ravel]
    | cons a i => simp at h
  | cons d s1 ih =>
    cases i1 with
    | nil => simp at h
    | cons a i =>
      simp only [List.cons_append, ravel]
      rw [ih i (by simpa using h), List.prod_append]
      ring

/-- Row-major order is associative: fusing groups does not change the position. -/
theorem ravel_groups (dim σ : Nat → Nat) (O : List (List Nat)) :
    ravel (O.map (gdim dim)) (O.map (gidx dim σ)) = ravel (O.flatten.map dim) (O.flatten.map σ) := by
  induction O with
  | nil => rfl
  | cons g O ih =>
    simp only [List.map_cons, List.flatten_cons, List.map_append]
    rw [ravel_append _ _ _ _ (by simp), ravel, ih]
    congr 1
    unfold gidx
    congr 1
    rw [List.map_flatten, List.prod_flatten, List.map_map]
    congr 1

theorem prod_groups (dim : Nat → Nat) (O : List (List Nat)) : (O.map (gdim dim)).prod = (O.flatten.map dim).prod := by
  rw [List.map_flatten, List.prod_flatten, List.map_map]
  rfl

theorem inB_groups (dim σ : Nat → Nat) (O : List (List Nat)) (h : ∀ l ∈ O.flatten, σ l < dim l) :
    InB (O.map (gdim dim)) (O.map (gidx dim σ)) := by
  induction O with
  | nil => exact List.Forall₂.nil
  | cons g O ih =>
    simp only [List.flatten_cons, List.mem_append] at h
    exact List.Forall₂.cons (gidx_lt dim σ g (fun l hl => h l (Or.inl hl))) (ih (fun l hl => h l (Or.inr hl)))

theorem inB_unravel (shape : List Nat) (n : Nat) (h : n < shape.prod) : InB shape (unravel shape n) ∧ ravel shape (unravel shape n) = n := by
  induction shape generalizing n with
  | nil => simp only [List.prod_nil, Nat.lt_one_iff] at h; subst h; exact ⟨List.Forall₂.nil, rfl⟩
  | cons d ds ih =>
    rw [List.prod_cons] at h
    have hp : 0 < ds.prod := by
      rcases Nat.eq_zero_or_pos ds.prod with h0 | h0
      · rw [h0] at h; simp at h
      · exact h0
    obtain ⟨h1, h2⟩ := ih (n % ds.prod) (Nat.mod_lt _ hp)
    refine ⟨List.Forall₂.cons ?_ h1, ?_⟩
    · rw [Nat.div_lt_iff_lt_mul hp]; exact h
    · simp only [unravel, ravel, h2]
      rw [Nat.mul_comm]; exact Nat.div_add_mod n ds.prod

/-- Every multi-index is given by values of distinct labels. -/
theorem exists_labels (dim : Nat → Nat) (g : List Nat) (hg : g.Nodup) (idx : List Nat) (h : InB (g.map dim) idx) (ρ : Nat → Nat) :
    ∃ σ, (∀ l ∈ g, σ l < dim l) ∧ g.map σ = idx ∧ ∀ l, l ∉ g → σ l = ρ l := by
  induction g generalizing idx with
  | nil => cases h; exact ⟨ρ, by simp, rfl, fun _ _ => rfl⟩
  | cons a g ih =>
    cases h with
    | @cons i _ is _ hi h =>
      rw [List.nodup_cons] at hg
      obtain ⟨σ, h1, h2, h3⟩ := ih hg.2 is h
      refine ⟨Function.update σ a i, ?_, ?_, ?_⟩
      · intro l hl
        by_cases hla : l = a
        · subst hla; simpa using hi
        · rw [Function.update_of_ne hla]
          exact h1 l (by simpa [hla] using hl)
      · rw [List.map_cons, Function.update_self, ← h2]
        congr 1
        apply List.map_congr_left
        intro l hl
        rw [Function.update_of_ne]
        rintro rfl; exact hg.1 hl
      · intro l hl
        simp only [List.mem_cons, not_or] at hl
        rw [Function.update_of_ne hl.1, h3 l hl.2]

theorem exists_groups (dim : Nat → Nat) (O : List (List Nat)) (hO : O.flatten.Nodup) (idx : List Nat) (h : InB (O.map (gdim dim)) idx) :
    ∃ σ, (∀ l ∈ O.flatten, σ l < dim l) ∧ O.map (gidx dim σ) = idx := by
  have hlt : ravel (O.map (gdim dim)) idx < (O.flatten.map dim).prod := by
    rw [← prod_groups]; exact ravel_lt h
  obtain ⟨h1, h2⟩ := inB_unravel _ _ hlt
  obtain ⟨σ, s1, s2, _⟩ := exists_labels dim O.flatten hO _ h1 (fun _ => 0)
  refine ⟨σ, s1, ?_⟩
  have key : ravel (O.map (gdim dim)) (O.map (gidx dim σ)) = ravel (O.map (gdim dim)) idx := by
    rw [ravel_groups, s2, h2]
  rw [← unravel_ravel (inB_groups dim σ O s1), key, unravel_ravel h]

/-! ### Tensors computed by a network -/

/-- `T` is the network with internal labels `L` and summand `F` (depending on the labels in `S` only); its axes carry the labels
of the groups `O`. -/
structure Denotes [AddCommMonoid K] (dim : Nat → Nat) (T : Tensor K) (O : List (List Nat)) (L S : List Nat) (F : (Nat → Nat) → K) : Prop where
  shape : T.shape = O.map (gdim dim)
  loc : ∀ σ τ, (∀ l ∈ S, σ l = τ l) → F σ = F τ
  val : ∀ σ, (∀ l ∈ O.flatten, σ l < dim l) → T.val (O.map (gidx dim σ)) = sumOver dim L F σ

/-- A given tensor is the network of itself. -/
theorem Denotes.leaf [AddCommMonoid K] (dim : Nat → Nat) (T : Tensor K) (O : List (List Nat)) (h : T.shape = O.map (gdim dim)) :
    Denotes dim T O [] O.flatten (fun σ => T.val (O.map (gidx dim σ))) :=
  ⟨h, fun σ τ hh => by simp only [gidx_map_congr dim σ τ O hh], fun _ _ => rfl⟩

/-- Two tensors given by the same network are equal. -/
theorem Denotes.same [AddCommMonoid K] {dim : Nat → Nat} {T T' : Tensor K} {O : List (List Nat)} {L L' S S' : List Nat}
    {F F' : (Nat → Nat) → K} (h : Denotes dim T O L S F) (h' : Denotes dim T' O L' S' F') (hO : O.flatten.Nodup) (hL : L.Perm L')
    (hF : ∀ σ, F σ = F' σ) : Same T T' := by
  refine ⟨h.shape.trans h'.shape.symm, fun idx hidx => ?_⟩
  rw [h.shape] at hidx
  obtain ⟨σ, s1, rfl⟩ := exists_groups dim O hO idx hidx
  rw [h.val σ s1, h'.val σ s1, sumOver_perm dim hL, funext hF]

theorem getD_map_lt {α β : Type} (f : α → β) (l : List α) (d : α) (d' : β) (i : Nat) (h : i < l.length) :
    (l.map f).getD i d' = f (l.getD i d) := by
  simp [List.getD_eq_getElem?_getD, h]

theorem mem_freeAxes {n : Nat} {ax : List Nat} {p : Nat} : p ∈ freeAxes n ax ↔ p < n ∧ p ∉ ax := by
  simp [freeAxes]

/-- The list of the entries of `O` at the positions `ax`. -/
def pick (O : List (List Nat)) (ax : List Nat) : List (List Nat) := ax.map (fun p => O.getD p [])

theorem getD_map_idxOf {β : Type} (f : Nat → β) (l : List Nat) (d : β) (p : Nat) (h : p ∈ l) :
    (l.map f).getD (l.idxOf p) d = f p := by
  have hi := List.idxOf_lt_length_iff.2 h
  simp [List.getD_eq_getElem?_getD, hi]

theorem range_map_getD' {α β : Type} (l : List α) (d : α) (f : α → β) : (List.range l.length).map (fun p => f (l.getD p d)) = l.map f := by
  apply List.ext_getElem
  · simp
  · intro i h1 h2
    simp only [List.length_map, List.length_range] at h1
    simp [h1]

theorem merge_groups (O : List (List Nat)) (ax : List Nat) (h : List Nat → Nat) :
    merge O.length ax ((pick O ax).map h) ((pick O (freeAxes O.length ax)).map h) = O.map h := by
  unfold merge
  rw [← range_map_getD' O [] h]
  apply List.map_congr_left
  intro p hp
  rw [List.mem_range] at hp
  by_cases hpa : p ∈ ax
  · rw [if_pos hpa]
    unfold pick
    rw [List.map_map, getD_map_idxOf _ _ _ _ hpa]
    rfl
  · rw [if_neg hpa]
    unfold pick
    rw [List.map_map, getD_map_idxOf _ _ _ _ (mem_freeAxes.2 ⟨hp, hpa⟩)]
    rfl

theorem shape_pick (dim : Nat → Nat) (O : List (List Nat)) (ax : List Nat) (h : ∀ p ∈ ax, p < O.length) :
    ax.map ((O.map (gdim dim)).getD · 0) = (pick O ax).map (gdim dim) := by
  unfold pick
  rw [List.map_map]
  apply List.map_congr_left
  intro p hp
  exact getD_map_lt _ _ _ _ _ (h p hp)

/-- Conditions on labels for a contraction. All are decidable on literals. -/
structure DotOK (O1 L1 S1 : _) (O2 : List (List Nat)) (L2 S2 ax bx : List Nat) : Prop where
  n1 : ax.Nodup
  n2 : bx.Nodup
  r1 : ∀ p ∈ ax, p < List.length (α := List Nat) O1
  r2 : ∀ p ∈ bx, p < O2.length
  eq : pick O1 ax = pick O2 bx
  nd : (pick O1 ax).flatten.Nodup
  d1 : ∀ l ∈ (pick O1 ax).flatten, l ∉ (pick O1 (freeAxes O1.length ax)).flatten
  d2 : ∀ l ∈ (pick O1 ax).flatten, l ∉ (pick O2 (freeAxes O2.length bx)).flatten
  i1 : ∀ l ∈ L2, l ∉ (S1 : List Nat)
  i2 : ∀ l ∈ (L1 : List Nat), l ∉ S2

/-- `DotOK` as a Boolean test. -/
def dotOK (O1 : List (List Nat)) (L1 S1 : List Nat) (O2 : List (List Nat)) (L2 S2 ax bx : List Nat) : Bool :=
  decide (ax.Nodup) && decide (bx.Nodup) && decide (∀ p ∈ ax, p < O1.length) && decide (∀ p ∈ bx, p < O2.length) &&
  decide (pick O1 ax = pick O2 bx) && decide ((pick O1 ax).flatten.Nodup) &&
  decide (∀ l ∈ (pick O1 ax).flatten, l ∉ (pick O1 (freeAxes O1.length ax)).flatten) &&
  decide (∀ l ∈ (pick O1 ax).flatten, l ∉ (pick O2 (freeAxes O2.length bx)).flatten) &&
  decide (∀ l ∈ L2, l ∉ S1) && decide (∀ l ∈ L1, l ∉ S2)

theorem dotOK_iff {O1 L1 S1 O2 L2 S2 ax bx} (h : dotOK O1 L1 S1 O2 L2 S2 ax bx = true) : DotOK O1 L1 S1 O2 L2 S2 ax bx := by
  simp only [dotOK, Bool.and_eq_true, decide_eq_true_eq] at h
  obtain ⟨⟨⟨⟨⟨⟨⟨⟨⟨h1, h2⟩, h3⟩, h4⟩, h5⟩, h6⟩, h7⟩, h8⟩, h9⟩, h10⟩ := h
  exact ⟨h1, h2, h3, h4, h5, h6, h7, h8, h9, h10⟩

variable [CommRing K]

/-- Contraction of two networks along equal labels. -/
theorem Denotes.tensordot {dim : Nat → Nat} {A B : Tensor K} {O1 O2 : List (List Nat)} {L1 S1 L2 S2 : List Nat} {F1 F2 : (Nat → Nat) → K}
    (h1 : Denotes dim A O1 L1 S1 F1) (h2 : Denotes dim B O2 L2 S2 F2) (ax bx : List Nat) (hok : DotOK O1 L1 S1 O2 L2 S2 ax bx) :
    ∃ R, Tensor.tensordot ax bx A B = some R ∧
      Denotes dim R (pick O1 (freeAxes O1.length ax) ++ pick O2 (freeAxes O2.length bx)) ((pick O1 ax).flatten ++ (L1 ++ L2)) (S1 ++ S2)
        (fun σ => F1 σ * F2 σ) := by
  obtain ⟨n1, n2, r1, r2, heq, nd, d1, d2, i1, i2⟩ := hok
  have hlA : A.shape.length = O1.length := by rw [h1.shape]; simp
  have hlB : B.shape.length = O2.length := by rw [h2.shape]; simp
  have hcond : ax.Nodup ∧ bx.Nodup ∧ (∀ p ∈ ax, p < A.shape.length) ∧ (∀ p ∈ bx, p < B.shape.length) ∧
      ax.map (A.shape.getD · 0) = bx.map (B.shape.getD · 0) := by
    refine ⟨n1, n2, by rw [hlA]; exact r1, by rw [hlB]; exact r2, ?_⟩
    rw [h1.shape, h2.shape, shape_pick dim O1 ax r1, shape_pick dim O2 bx r2, heq]
  have hf1 : ∀ p ∈ freeAxes O1.length ax, p < O1.length := fun p hp => (mem_freeAxes.1 hp).1
  have hf2 : ∀ p ∈ freeAxes O2.length bx, p < O2.length := fun p hp => (mem_freeAxes.1 hp).1
  unfold Tensor.tensordot
  rw [if_pos hcond]
  refine ⟨_, rfl, ⟨?_, ?_, ?_⟩⟩
  · simp only [hlA, hlB]
    rw [h1.shape, h2.shape, shape_pick dim O1 _ hf1, shape_pick dim O2 _ hf2, List.map_append]
  · intro σ τ h
    show F1 σ * F2 σ = F1 τ * F2 τ
    rw [h1.loc σ τ (fun l hl => h l (by simp [hl])), h2.loc σ τ (fun l hl => h l (by simp [hl]))]
  · intro σ hσ
    simp only [hlA, hlB]
    rw [h1.shape, shape_pick dim O1 ax r1, sumIdx_groups dim _ nd _ σ, sumOver_append]
    apply sumOver_congr
    intro τ hτ hτσ
    have hlen : ((pick O1 (freeAxes O1.length ax)).map (gidx dim σ)).length = (freeAxes O1.length ax).length := by simp [pick]
    rw [List.map_append, ← hlen, List.take_left, List.drop_left]
    have e1 : (pick O1 (freeAxes O1.length ax)).map (gidx dim σ) = (pick O1 (freeAxes O1.length ax)).map (gidx dim τ) :=
      gidx_map_congr dim σ τ _ (fun l hl => (hτσ l (fun hh => d1 l hh hl)).symm)
    have e2 : (pick O2 (freeAxes O2.length bx)).map (gidx dim σ) = (pick O2 (freeAxes O2.length bx)).map (gidx dim τ) :=
      gidx_map_congr dim σ τ _ (fun l hl => (hτσ l (fun hh => d2 l hh hl)).symm)
    rw [e1, merge_groups]
    rw [heq, e2, merge_groups]
    have split : ∀ (O : List (List Nat)) (ax : List Nat) (l : Nat), l ∈ O.flatten → l ∈ (pick O ax).flatten ∨ l ∈ (pick O (freeAxes O.length ax)).flatten := by
      intro O ax l hl
      obtain ⟨g, hg, hlg⟩ := List.mem_flatten.1 hl
      obtain ⟨p, hp, rfl⟩ := List.getElem_of_mem hg
      have hgd : O.getD p [] = O[p] := by simp [hp]
      by_cases hpa : p ∈ ax
      · left
        exact List.mem_flatten.2 ⟨O[p], List.mem_map.2 ⟨p, hpa, hgd⟩, hlg⟩
      · right
        exact List.mem_flatten.2 ⟨O[p], List.mem_map.2 ⟨p, mem_freeAxes.2 ⟨hp, hpa⟩, hgd⟩, hlg⟩
    have hr1 : ∀ l ∈ O1.flatten, τ l < dim l := by
      intro l hl
      rcases split O1 ax l hl with hh | hh
      · exact hτ l hh
      · rw [hτσ l (fun hc => d1 l hc hh)]
        exact hσ l (by rw [List.flatten_append]; exact List.mem_append_left _ hh)
    have hr2 : ∀ l ∈ O2.flatten, τ l < dim l := by
      intro l hl
      rcases split O2 bx l hl with hh | hh
      · exact hτ l (heq ▸ hh)
      · rw [hτσ l (fun hc => d2 l hc hh)]
        exact hσ l (by rw [List.flatten_append]; exact List.mem_append_right _ hh)
    rw [h1.val τ hr1, h2.val τ hr2]
    exact sumOver_mul_sumOver dim L1 L2 S1 S2 F1 F2 τ h1.loc h2.loc i1 i2

/-- Permutation of the axes. -/
theorem Denotes.permute {dim : Nat → Nat} {A : Tensor K} {O : List (List Nat)} {L S : List Nat} {F : (Nat → Nat) → K}
    (h : Denotes dim A O L S F) (perm : List Nat) (hp : decide (perm.length = O.length ∧ perm.Nodup ∧ ∀ p ∈ perm, p < O.length) = true) :
    ∃ R, Tensor.permute perm A = some R ∧ Denotes dim R (pick O perm) L S F := by
  rw [decide_eq_true_eq] at hp
  obtain ⟨hl, hn, hr⟩ := hp
  have hlA : A.shape.length = O.length := by rw [h.shape]; simp
  have hall : ∀ p < O.length, p ∈ perm := by
    intro p hp
    have hs : perm.toFinset = Finset.range O.length := by
      apply Finset.eq_of_subset_of_card_le
      · intro x hx; rw [Finset.mem_range]; exact hr x (List.mem_toFinset.1 hx)
      · rw [List.toFinset_card_of_nodup hn, hl, Finset.card_range]
    exact List.mem_toFinset.1 (hs ▸ Finset.mem_range.2 hp)
  unfold Tensor.permute
  rw [if_pos (by rw [hlA]; exact ⟨hl, hn, hr⟩)]
  refine ⟨_, rfl, ⟨?_, h.loc, ?_⟩⟩
  · simp only
    rw [h.shape, shape_pick dim O perm hr]
  · intro σ hσ
    simp only [hlA]
    have : (List.range O.length).map (fun j => ((pick O perm).map (gidx dim σ)).getD (perm.idxOf j) 0) = O.map (gidx dim σ) := by
      rw [← range_map_getD' O [] (gidx dim σ)]
      apply List.map_congr_left
      intro p hp
      unfold pick
      rw [List.map_map, getD_map_idxOf _ _ _ _ (hall p (List.mem_range.1 hp))]
      rfl
    rw [this]
    apply h.val
    intro l hl
    apply hσ
    obtain ⟨g, hg, hlg⟩ := List.mem_flatten.1 hl
    obtain ⟨p, hp, rfl⟩ := List.getElem_of_mem hg
    exact List.mem_flatten.2 ⟨O[p], List.mem_map.2 ⟨p, hall p hp, by simp [hp]⟩, hlg⟩

/-- Fusing and splitting axes. -/
theorem Denotes.view {dim : Nat → Nat} {A : Tensor K} {O : List (List Nat)} {L S : List Nat} {F : (Nat → Nat) → K}
    (h : Denotes dim A O L S F) (O' : List (List Nat)) (sh : List Nat) (hO : O'.flatten = O.flatten) (hsh : sh = O'.map (gdim dim)) :
    ∃ R, Tensor.view sh A = some R ∧ Denotes dim R O' L S F := by
  subst hsh
  unfold Tensor.view
  rw [if_pos (by rw [h.shape, prod_groups, prod_groups, hO])]
  refine ⟨_, rfl, ⟨rfl, h.loc, ?_⟩⟩
  intro σ hσ
  simp only
  rw [ravel_groups, hO, ← ravel_groups, h.shape, unravel_ravel (inB_groups dim σ O (hO ▸ hσ))]
  exact h.val σ (hO ▸ hσ)

/-- Complex conjugation. -/
theorem Denotes.conj [StarRing K] {dim : Nat → Nat} {A : Tensor K} {O : List (List Nat)} {L S : List Nat} {F : (Nat → Nat) → K}
    (h : Denotes dim A O L S F) : Denotes dim A.conj O L S (fun σ => star (F σ)) := by
  refine ⟨h.shape, fun σ τ hh => by simp only [h.loc σ τ hh], fun σ hσ => ?_⟩
  have star_sum : ∀ (ls : List Nat) (σ : Nat → Nat), star (sumOver dim ls F σ) = sumOver dim ls (fun τ => star (F τ)) σ := by
    intro ls
    induction ls with
    | nil => intro σ; rfl
    | cons a ls ih => intro σ; simp only [sumOver, star_sum, ih]
  simp only [Tensor.conj]
  rw [h.val σ hσ, star_sum]

/-- The labels of a network may be listed in any order, and its summand written in any form. -/
theorem Denotes.congr {dim : Nat → Nat} {A : Tensor K} {O : List (List Nat)} {L S L' S' : List Nat} {F F' : (Nat → Nat) → K}
    (h : Denotes dim A O L S F) (hL : L.Perm L') (hS : ∀ l ∈ S, l ∈ S') (hF : ∀ σ, F σ = F' σ) : Denotes dim A O L' S' F' := by
  obtain rfl : F = F' := funext hF
  exact ⟨h.shape, fun σ τ hh => h.loc σ τ (fun l hl => hh l (hS l hl)), fun σ hσ => by rw [h.val σ hσ, sumOver_perm dim hL]⟩

/-- Renaming of labels. `W` contains all labels in use. -/
theorem Denotes.rename {dim dim' : Nat → Nat} {A : Tensor K} {O : List (List Nat)} {L S : List Nat} {F : (Nat → Nat) → K}
    (h : Denotes dim A O L S F) (r : Nat → Nat) (W : List Nat) (hr : ∀ a ∈ W, ∀ b ∈ W, r a = r b → a = b) (hd : ∀ a ∈ W, dim' (r a) = dim a)
    (hO : ∀ l ∈ O.flatten, l ∈ W) (hL : ∀ l ∈ L, l ∈ W) (hS : ∀ l ∈ S, l ∈ W) :
    Denotes dim' A (O.map (·.map r)) (L.map r) (S.map r) (fun σ => F (fun l => σ (r l))) := by
  have hg : ∀ (σ : Nat → Nat) (g : List Nat), (∀ l ∈ g, l ∈ W) → gdim dim' (g.map r) = gdim dim g ∧ gidx dim' σ (g.map r) = gidx dim (fun l => σ (r l)) g := by
    intro σ g hgW
    have : (g.map r).map dim' = g.map dim := by
      rw [List.map_map]
      exact List.map_congr_left (fun l hl => hd l (hgW l hl))
    constructor
    · unfold gdim; rw [this]
    · unfold gidx; rw [this, List.map_map]; rfl
  have hsum : ∀ (L : List Nat), (∀ l ∈ L, l ∈ W) → ∀ σ τ, (∀ l ∈ W, σ (r l) = τ l) →
      sumOver dim' (L.map r) (fun σ => F (fun l => σ (r l))) σ = sumOver dim L F τ := by
    intro L
    induction L with
    | nil => intro _ σ τ hh; exact h.loc _ _ (fun l hl => hh l (hS l hl))
    | cons a L ih =>
      intro hLW σ τ hh
      simp only [List.map_cons, sumOver]
      rw [hd a (hLW a (by simp))]
      refine Finset.sum_congr rfl (fun i _ => ih (fun l hl => hLW l (by simp [hl])) _ _ ?_)
      intro l hl
      by_cases hla : l = a
      · subst hla; simp
      · rw [Function.update_of_ne hla, Function.update_of_ne (fun hc => hla (hr l hl a (hLW a (by simp)) hc)), hh l hl]
  refine ⟨?_, ?_, ?_⟩
  · rw [h.shape, List.map_map]
    apply List.map_congr_left
    intro g hgO
    exact ((hg (fun _ => 0) g (fun l hl => hO l (List.mem_flatten.2 ⟨g, hgO, hl⟩))).1).symm
  · intro σ τ hh
    exact h.loc _ _ (fun l hl => hh _ (List.mem_map_of_mem hl))
  · intro σ hσ
    rw [List.map_map]
    have e : O.map (gidx dim' σ ∘ fun g => g.map r) = O.map (gidx dim (fun l => σ (r l))) :=
      List.map_congr_left (fun g hgO => (hg σ g (fun l hl => hO l (List.mem_flatten.2 ⟨g, hgO, hl⟩))).2)
    rw [e, h.val _ ?_]
    · exact (hsum L hL _ _ (fun _ _ => rfl)).symm
    · intro l hl
      rw [← hd l (hO l hl)]
      apply hσ
      rw [List.mem_flatten] at hl ⊢
      obtain ⟨g, hgO, hlg⟩ := hl
      exact ⟨g.map r, List.mem_map.2 ⟨g, hgO, rfl⟩, List.mem_map_of_mem hlg⟩

/-- The network of a tensor as a formula for its entries. -/
theorem Denotes.net {dim : Nat → Nat} {T : Tensor K} {O : List (List Nat)} {L S : List Nat} {F : (Nat → Nat) → K}
    (h : Denotes dim T O L S F) : T.shape = O.map (gdim dim) ∧
      ∀ σ, (∀ l ∈ O.flatten, σ l < dim l) → T.val (O.map (gidx dim σ)) = sumOver dim L F σ := ⟨h.shape, h.val⟩

@[simp] theorem gdim_single (dim : Nat → Nat) (l : Nat) : gdim dim [l] = dim l := by simp [gdim]
@[simp] theorem gidx_single (dim σ : Nat → Nat) (l : Nat) : gidx dim σ [l] = σ l := by simp [gidx, ravel]

/-- One group per label. -/
def singles (ls : List Nat) : List (List Nat) := ls.map (fun l => [l])

theorem singles_flatten (ls : List Nat) : (singles ls).flatten = ls := by
  induction ls with
  | nil => rfl
  | cons a ls ih => simpa [singles] using ih

theorem singles_gdim (dim : Nat → Nat) (ls : List Nat) : (singles ls).map (gdim dim) = ls.map dim := by
  simp [singles, Function.comp_def]

theorem singles_gidx (dim σ : Nat → Nat) (ls : List Nat) : (singles ls).map (gidx dim σ) = ls.map σ := by
  simp [singles, Function.comp_def]

theorem lookup_zip_map (dim : Nat → Nat) (ls : List Nat) (l : Nat) (h : l ∈ ls) : (ls.zip (ls.map dim)).lookup l = some (dim l) := by
  induction ls with
  | nil => exact absurd h (by simp)
  | cons a ls ih =>
    by_cases hla : l = a
    · subst hla; exact List.lookup_cons_self
    · rw [List.map_cons, List.zip_cons_cons, List.lookup_cons, beq_eq_false_iff_ne.2 hla]
      exact ih (by simpa [hla] using h)

theorem lookup_zip_map_none (dim : Nat → Nat) (ls : List Nat) (l : Nat) (h : l ∉ ls) : (ls.zip (ls.map dim)).lookup l = none := by
  induction ls with
  | nil => rfl
  | cons a ls ih =>
    simp only [List.mem_cons, not_or] at h
    rw [List.map_cons, List.zip_cons_cons, List.lookup_cons, beq_eq_false_iff_ne.2 h.1]
    exact ih h.2

theorem lookup_append' {α β : Type} [BEq α] (l1 l2 : List (α × β)) (a : α) :
    (l1 ++ l2).lookup a = (l1.lookup a).or (l2.lookup a) := by
  induction l1 with
  | nil => simp
  | cons p l1 ih =>
    obtain ⟨x, y⟩ := p
    simp only [List.cons_append, List.lookup_cons]
    split
    · rfl
    · exact ih

/-- The operands of an `einsum` and the networks of which they are. -/
def Operands (dim : Nat → Nat) (ops : List (Tensor K × List Nat)) (qs : List (List Nat × ((Nat → Nat) → K))) : Prop :=
  List.Forall₂ (fun p q => Denotes dim p.1 (singles p.2) [] q.1 q.2) ops qs

theorem labelDims_lookup (dim : Nat → Nat) (ops : List (Tensor K × List Nat)) (hs : ∀ p ∈ ops, p.1.shape = p.2.map dim) (l : Nat)
    (hl : l ∈ ops.flatMap Prod.snd) : (labelDims ops).lookup l = some (dim l) := by
  induction ops with
  | nil => exact absurd hl (by simp)
  | cons p ops ih =>
    unfold labelDims
    rw [List.flatMap_cons, lookup_append', hs p (by simp)]
    by_cases h : l ∈ p.2
    · rw [lookup_zip_map dim _ _ h]; rfl
    · rw [lookup_zip_map_none dim _ _ h, Option.none_or]
      exact ih (fun q hq => hs q (by simp [hq])) (by simpa [h] using hl)

/-- Labelled contraction of several tensors. -/
theorem Denotes.einsum {dim : Nat → Nat} {ops : List (Tensor K × List Nat)} {qs : List (List Nat × ((Nat → Nat) → K))}
    (h : Operands dim ops qs) (out : List Nat) (hout : decide (out.Nodup ∧ ∀ l ∈ out, l ∈ ops.flatMap Prod.snd) = true) :
    ∃ R, Tensor.einsum ops out = some R ∧
      Denotes dim R (singles out) ((ops.flatMap Prod.snd).dedup.filter (fun l => l ∉ out)) (qs.flatMap Prod.fst)
        (fun σ => (qs.map (fun q => q.2 σ)).prod) := by
  rw [decide_eq_true_eq] at hout
  obtain ⟨hnd, hmem⟩ := hout
  have hs : ∀ p ∈ ops, p.1.shape = p.2.map dim := by
    intro p hp
    clear hmem
    unfold Operands at h
    induction h with
    | nil => exact absurd hp (by simp)
    | cons h1 _ ih =>
      rcases List.mem_cons.1 hp with rfl | hp
      · rw [h1.shape, singles_gdim]
      · exact ih hp
  have hlk := labelDims_lookup dim ops hs
  have hcond : (∀ p ∈ ops, p.2.length = p.1.shape.length) ∧ (∀ q ∈ labelDims ops, (labelDims ops).lookup q.1 = some q.2) ∧ out.Nodup ∧
      (∀ l ∈ out, l ∈ (ops.flatMap Prod.snd).dedup) := by
    refine ⟨fun p hp => by rw [hs p hp]; simp, ?_, hnd, fun l hl => List.mem_dedup.2 (hmem l hl)⟩
    rintro ⟨l, d⟩ hq
    obtain ⟨p, hp, hld⟩ := List.mem_flatMap.1 hq
    rw [hs p hp] at hld
    have hl := (List.of_mem_zip hld).1
    rw [hlk l (List.mem_flatMap.2 ⟨p, hp, hl⟩)]
    congr 1
    obtain ⟨i, hi, hgi⟩ := List.getElem_of_mem hld
    rw [List.getElem_zip] at hgi
    simp only [List.getElem_map, Prod.mk.injEq] at hgi
    rw [← hgi.1, hgi.2]
  unfold Tensor.einsum
  simp only
  rw [if_pos hcond]
  refine ⟨_, rfl, ⟨?_, ?_, ?_⟩⟩
  · simp only
    rw [singles_gdim]
    apply List.map_congr_left
    intro l hl
    rw [hlk l (hmem l hl)]; rfl
  · intro σ τ hh
    show (qs.map (fun q => q.2 σ)).prod = (qs.map (fun q => q.2 τ)).prod
    congr 1
    apply List.map_congr_left
    intro q hq
    unfold Operands at h
    clear hlk hcond hs hmem
    induction h with
    | nil => exact absurd hq (by simp)
    | cons h1 _ ih =>
      rcases List.mem_cons.1 hq with rfl | hq
      · exact h1.loc σ τ (fun l hl => hh l (by simp [hl]))
      · exact ih (fun l hl => hh l (by rw [List.flatMap_cons]; exact List.mem_append_right _ hl)) hq
  · intro σ hσ
    simp only
    rw [singles_gidx]
    rw [singles_flatten] at hσ
    rw [sumOver_dim _ dim]
    · have hτ : ∀ l ∈ out, (out.map σ).getD (out.idxOf l) 0 = σ l := fun l hl => getD_map_idxOf σ out 0 l hl
      rw [sumOver_local dim _ (ops.flatMap Prod.snd) _ _ _ σ]
      · apply sumOver_congr
        intro ρ hρ hρσ
        have hin : ∀ l ∈ ops.flatMap Prod.snd, ρ l < dim l := by
          intro l hl
          by_cases hlo : l ∈ out
          · rw [hρσ l (by simp [hlo])]; exact hσ l hlo
          · exact hρ l (by simpa [hlo] using hl)
        clear hlk hcond hs hmem hρ
        unfold Operands at h
        induction h with
        | nil => rfl
        | @cons p q ops qs h1 _ ih =>
          simp only [List.map_cons, List.prod_cons]
          have hv := h1.val ρ (by
            intro l hl
            rw [singles_flatten] at hl
            exact hin l (by rw [List.flatMap_cons]; exact List.mem_append_left _ hl))
          rw [singles_gidx] at hv
          rw [hv]
          simp only [sumOver]
          congr 1
          have ih' : ∀ (hh : ∀ l ∈ ops.flatMap Prod.snd, ρ l < dim l), (ops.map (fun p => p.1.val (p.2.map ρ))).prod = (qs.map (fun q => q.2 ρ)).prod := by
            intro hh
            clear ih hin
            rename_i htail
            clear h1 hv
            clear hρσ
            induction htail with
            | nil => rfl
            | @cons p q ops qs h1 _ ih =>
              simp only [List.map_cons, List.prod_cons]
              have hv := h1.val ρ (by
                intro l hl
                rw [singles_flatten] at hl
                exact hh l (by rw [List.flatMap_cons]; exact List.mem_append_left _ hl))
              rw [singles_gidx] at hv
              rw [hv, ih (fun l hl => hh l (by rw [List.flatMap_cons]; exact List.mem_append_right _ hl))]
              rfl
          exact ih' (fun l hl => hin l (by rw [List.flatMap_cons]; exact List.mem_append_right _ hl))
      · intro l hl hn
        simp only [List.mem_filter, List.mem_dedup, decide_eq_true_eq, not_and, not_not] at hn
        exact hτ l (hn hl)
      · intro σ τ hh
        congr 1
        apply List.map_congr_left
        intro p hp
        congr 1
        exact List.map_congr_left (fun l hl => hh l (List.mem_flatMap.2 ⟨p, hp, hl⟩))
    · intro l hl
      simp only [List.mem_filter, List.mem_dedup] at hl
      rw [hlk l hl.1]; rfl

/-- The operands `ops` with all their labels `labs`, dependencies `S` and the product `F` of their summands. -/
def OpsNet (dim : Nat → Nat) (ops : List (Tensor K × List Nat)) (labs S : List Nat) (F : (Nat → Nat) → K) : Prop :=
  ∃ qs, Operands dim ops qs ∧ ops.flatMap Prod.snd = labs ∧ qs.flatMap Prod.fst = S ∧ ∀ σ, F σ = (qs.map (fun q => q.2 σ)).prod

theorem OpsNet.nil {dim : Nat → Nat} : OpsNet (K := K) dim [] [] [] (fun _ => 1) := ⟨[], List.Forall₂.nil, rfl, rfl, fun _ => rfl⟩

theorem OpsNet.cons {dim : Nat → Nat} {T : Tensor K} {l S1 : List Nat} {F1 : (Nat → Nat) → K} {ops : List (Tensor K × List Nat)}
    {labs S : List Nat} {F : (Nat → Nat) → K} (h : Denotes dim T (singles l) [] S1 F1) (hs : OpsNet dim ops labs S F) :
    OpsNet dim ((T, l) :: ops) (l ++ labs) (S1 ++ S) (fun σ => F1 σ * F σ) := by
  obtain ⟨qs, h1, h2, h3, h4⟩ := hs
  refine ⟨(S1, F1) :: qs, List.Forall₂.cons h h1, by simp [h2], by simp [h3], fun σ => by simp [h4]⟩

/-- `Denotes.einsum` with the labels listed separately. -/
theorem Denotes.einsum' {dim : Nat → Nat} {ops : List (Tensor K × List Nat)} {labs S : List Nat} {F : (Nat → Nat) → K}
    (h : OpsNet dim ops labs S F) (out : List Nat) (hout : decide (out.Nodup ∧ ∀ l ∈ out, l ∈ labs) = true) :
    ∃ R, Tensor.einsum ops out = some R ∧ Denotes dim R (singles out) (labs.dedup.filter (fun l => l ∉ out)) S F := by
  obtain ⟨qs, h1, rfl, rfl, h4⟩ := h
  obtain rfl : F = _ := funext h4
  exact Denotes.einsum h1 out (by simpa using hout)

end Verif.Tensor
