import Verif.Tensor.Net
/-
The value of a labelled contraction in terms of assignments of its labels.
-/
namespace Verif.Tensor
variable {K : Type} [CommRing K]

/-- Product of the entries selected by an assignment of the labels. -/
def termOf (ops : List (Tensor K × List Nat)) (σ : Nat → Nat) : K := (ops.map (fun p => p.1.val (p.2.map σ))).prod

theorem termOf_congr (ops : List (Tensor K × List Nat)) (σ τ : Nat → Nat) (h : ∀ l ∈ ops.flatMap Prod.snd, σ l = τ l) : termOf ops σ = termOf ops τ := by
  unfold termOf
  congr 1
  apply List.map_congr_left
  intro p hp
  congr 1
  exact List.map_congr_left (fun l hl => h l (List.mem_flatMap.2 ⟨p, hp, hl⟩))

/-- Operands whose labels have consistent sizes are contracted. -/
theorem einsum_ok (dim : Nat → Nat) (ops : List (Tensor K × List Nat)) (out : List Nat) (hs : ∀ p ∈ ops, p.1.shape = p.2.map dim) (hn : out.Nodup)
    (ho : ∀ l ∈ out, l ∈ ops.flatMap Prod.snd) :
    ∃ R, einsum ops out = some R ∧ R.shape = out.map dim ∧ ∀ σ, (∀ l ∈ out, σ l < dim l) →
      R.val (out.map σ) = sumOver dim ((ops.flatMap Prod.snd).dedup.filter (fun l => l ∉ out)) (termOf ops) σ := by
  have hop : Operands dim ops (ops.map (fun p => (p.2, fun σ => p.1.val (p.2.map σ)))) := by
    unfold Operands
    clear ho
    induction ops with
    | nil => exact List.Forall₂.nil
    | cons p ops ih =>
      refine List.Forall₂.cons ?_ (ih (fun q hq => hs q (by simp [hq])))
      have := Denotes.leaf dim p.1 (singles p.2) (by rw [singles_gdim]; exact hs p (by simp))
      rw [singles_flatten] at this
      simpa only [singles_gidx] using this
  obtain ⟨R, e, q⟩ := Denotes.einsum hop out (by simpa using ⟨hn, by simpa using ho⟩)
  refine ⟨R, e, by rw [q.shape, singles_gdim], fun σ hσ => ?_⟩
  have := q.val σ (by rw [singles_flatten]; exact hσ)
  rw [singles_gidx] at this
  rw [this]
  congr 1
  funext τ
  simp only [termOf, List.map_map]
  rfl

/-- If a contraction succeeds the sizes of its labels are consistent. -/
theorem einsum_some {ops : List (Tensor K × List Nat)} {out : List Nat} {R : Tensor K} (h : einsum ops out = some R) :
    ∃ dim : Nat → Nat, (∀ p ∈ ops, p.1.shape = p.2.map dim) ∧ out.Nodup ∧ ∀ l ∈ out, l ∈ ops.flatMap Prod.snd := by
  unfold einsum at h
  simp only at h
  split at h
  · rename_i hc
    obtain ⟨h1, h2, h3, h4⟩ := hc
    refine ⟨fun l => ((labelDims ops).lookup l).getD 1, fun p hp => ?_, h3, fun l hl => List.mem_dedup.1 (h4 l hl)⟩
    apply List.ext_getElem
    · simp [h1 p hp]
    · intro i hi hi'
      rw [List.getElem_map]
      have hi2 : i < p.2.length := by simpa using hi'
      have := h2 (p.2[i], p.1.shape[i]) (List.mem_flatMap.2 ⟨p, hp, by
        rw [← List.getElem_zip (h := by simp; omega)]
        exact List.getElem_mem _⟩)
      rw [this]
      rfl
  · cases h

theorem termOf_append (A B : List (Tensor K × List Nat)) (σ : Nat → Nat) : termOf (A ++ B) σ = termOf A σ * termOf B σ := by
  simp [termOf]

/-- Two networks that share only the open labels of the first: the joint contraction to a number. -/
theorem einsum_join (dim : Nat → Nat) (A B : List (Tensor K × List Nat)) (phys LB : List Nat) {R : Tensor K} (hA : ∀ p ∈ A, p.1.shape = p.2.map dim)
    (hB : ∀ p ∈ B, p.1.shape = p.2.map dim) (eR : einsum A phys = some R) (hLB : LB.Nodup)
    (hB1 : ∀ l, l ∈ B.flatMap Prod.snd → l ∈ phys ∨ l ∈ LB) (hB2 : ∀ l ∈ LB, l ∈ B.flatMap Prod.snd ∧ l ∉ phys ∧ l ∉ A.flatMap Prod.snd) :
    ∃ X, einsum (A ++ B) [] = some X ∧ X.shape = [] ∧ ∀ σ, X.val [] = sumOver dim phys (fun τ => R.val (phys.map τ) * sumOver dim LB (termOf B) τ) σ := by
  obtain ⟨-, -, hn, ho⟩ := einsum_some eR
  obtain ⟨R', eR', -, hv⟩ := einsum_ok dim A phys hA hn ho
  obtain rfl : R' = R := Option.some.inj (eR'.symm.trans eR)
  obtain ⟨X, eX, hX, hXv⟩ := einsum_ok dim (A ++ B) [] (by
    intro p hp
    rcases List.mem_append.1 hp with h | h
    · exact hA p h
    · exact hB p h) List.nodup_nil (by simp)
  refine ⟨X, eX, hX, fun σ => ?_⟩
  rw [show ([] : List Nat) = [].map σ from rfl, hXv σ (by simp)]
  set LA := (A.flatMap Prod.snd).dedup.filter (fun l => l ∉ phys) with hLA
  have hLAm : ∀ l, l ∈ LA ↔ l ∈ A.flatMap Prod.snd ∧ l ∉ phys := by intro l; simp [hLA]
  have hperm : (((A ++ B).flatMap Prod.snd).dedup.filter (fun l => l ∉ ([] : List Nat))).Perm (phys ++ (LA ++ LB)) := by
    rw [List.perm_ext_iff_of_nodup ((List.nodup_dedup _).filter _)]
    · intro l
      rw [List.mem_filter, List.mem_dedup, List.mem_append, List.mem_append, hLAm, List.flatMap_append, List.mem_append]
      have h1 := ho l
      have h2 := hB1 l
      have h3 := hB2 l
      simp only [List.not_mem_nil, not_false_eq_true, decide_true, and_true]
      by_cases hp : l ∈ phys <;> tauto
    · refine List.Nodup.append hn (List.Nodup.append ((List.nodup_dedup _).filter _) hLB ?_) ?_
      · intro l h1 h2
        exact (hB2 l h2).2.2 ((hLAm l).1 h1).1
      · intro l h1 h2
        rcases List.mem_append.1 h2 with h | h
        · exact ((hLAm l).1 h).2 h1
        · exact (hB2 l h).2.1 h1
  rw [sumOver_perm _ hperm, sumOver_append]
  apply sumOver_congr
  intro τ hτ _
  rw [hv τ hτ]
  rw [sumOver_mul_sumOver dim LA LB (A.flatMap Prod.snd) (B.flatMap Prod.snd) _ _ τ (termOf_congr A) (termOf_congr B) (fun l hl => (hB2 l hl).2.2)]
  · apply sumOver_congr
    intro ρ _ _
    exact termOf_append A B ρ
  · intro l hl hc
    rcases hB1 l hc with h | h
    · exact ((hLAm l).1 hl).2 h
    · exact (hB2 l h).2.2 ((hLAm l).1 hl).1

end Verif.Tensor
