import Verif.Rdm.ManualModel
import Verif.Rdm.SixLemmas
import Verif.Energy.ObsProps
/-
Lemmas for contractions with labels of their own, for slices and for the sum over the loop.
-/
namespace Verif.Tensor
variable {K : Type} [CommRing K]

theorem operands_shape {dim r : Nat → Nat} {ops : List (Tensor K × List Nat)} {qs : List (List Nat × ((Nat → Nat) → K))}
    (h : Operands dim (ops.map (fun p => (p.1, p.2.map r))) qs) : ∀ p ∈ ops, p.1.shape = p.2.map (fun l => dim (r l)) := by
  induction ops generalizing qs with
  | nil => intro p hp; cases hp
  | cons a ops ih =>
    cases h with
    | cons h1 h2 =>
      intro p hp
      rcases List.mem_cons.1 hp with rfl | hp
      · have := h1.shape
        rw [singles_gdim, List.map_map] at this
        exact this
      · exact ih h2 p hp

theorem operands_leaf {dim : Nat → Nat} {ops : List (Tensor K × List Nat)} (h : ∀ p ∈ ops, p.1.shape = p.2.map dim) :
    Operands dim ops (ops.map (fun p => (p.2, fun σ => p.1.val (p.2.map σ)))) := by
  induction ops with
  | nil => exact List.Forall₂.nil
  | cons a ops ih =>
    refine List.Forall₂.cons ?_ (ih (fun p hp => h p (by simp [hp])))
    have := Denotes.leaf dim a.1 (singles a.2) (by rw [singles_gdim]; exact h a (by simp))
    simp only [singles_flatten, singles_gidx] at this
    exact this

theorem operands_val {dim r : Nat → Nat} {ops : List (Tensor K × List Nat)} {qs : List (List Nat × ((Nat → Nat) → K))}
    (h : Operands dim (ops.map (fun p => (p.1, p.2.map r))) qs) (τ : Nat → Nat) (hτ : ∀ l ∈ ops.flatMap Prod.snd, τ (r l) < dim (r l)) :
    (ops.map (fun p => p.1.val (p.2.map (fun l => τ (r l))))).prod = (qs.map (fun q => q.2 τ)).prod := by
  induction ops generalizing qs with
  | nil => cases h; rfl
  | cons a ops ih =>
    cases h with
    | cons h1 h2 =>
      simp only [List.map_cons, List.prod_cons]
      rw [ih h2 (fun l hl => hτ l (by rw [List.flatMap_cons]; exact List.mem_append_right _ hl))]
      congr 1
      have := h1.val τ (by
        intro l hl
        rw [singles_flatten] at hl
        obtain ⟨m, hm, rfl⟩ := List.mem_map.1 hl
        exact hτ m (by rw [List.flatMap_cons]; exact List.mem_append_left _ hm))
      rw [singles_gidx, List.map_map] at this
      exact this

/-- Labelled contraction where the labels of the network are images of the labels of the call. -/
theorem Denotes.einsumR {dim : Nat → Nat} {ops : List (Tensor K × List Nat)} {labs S : List Nat} {F : (Nat → Nat) → K} (r : Nat → Nat)
    (h : OpsNet dim (ops.map (fun p => (p.1, p.2.map r))) labs S F) (out : List Nat)
    (hout : decide (out.Nodup ∧ ∀ l ∈ out, l ∈ ops.flatMap Prod.snd) = true)
    (hr : ∀ a ∈ ops.flatMap Prod.snd, ∀ b ∈ ops.flatMap Prod.snd, r a = r b → a = b) :
    ∃ R, Tensor.einsum ops out = some R ∧
      Denotes dim R (singles (out.map r)) (((ops.flatMap Prod.snd).dedup.filter (fun l => l ∉ out)).map r) S F := by
  have hloc := h.loc
  obtain ⟨qs, h1, rfl, rfl, h4⟩ := h
  have hs := operands_shape h1
  obtain ⟨R, e, q⟩ := Denotes.einsum (dim := fun l => dim (r l)) (operands_leaf hs) out hout
  have ho := hout
  rw [decide_eq_true_eq] at ho
  have q2 := q.rename (dim' := dim) r (ops.flatMap Prod.snd) hr (fun _ _ => rfl) (by rw [singles_flatten]; exact ho.2)
    (fun l hl => List.mem_dedup.1 (List.mem_filter.1 hl).1) (by intro l hl; rw [List.flatMap_map] at hl; exact hl)
  refine ⟨R, e, ⟨?_, hloc, ?_⟩⟩
  · rw [q2.shape]; simp [singles]
  · intro σ hσ
    rw [singles_flatten] at hσ
    have := q2.val σ (by
      intro l hl
      apply hσ
      rw [← singles_flatten (out.map r)]
      simpa [singles] using hl)
    rw [show (singles out).map (fun g => g.map r) = singles (out.map r) by simp [singles]] at this
    rw [this]
    apply sumOver_congr
    intro τ h2 h3
    rw [h4, ← operands_val h1 τ]
    · simp only [List.map_map]; rfl
    · intro l hl
      by_cases hlo : l ∈ out
      · rw [h3 (r l)]
        · exact hσ _ (List.mem_map_of_mem hlo)
        · intro hm
          obtain ⟨m, hm, he⟩ := List.mem_map.1 hm
          have hm' := List.mem_filter.1 hm
          have := hr m (List.mem_dedup.1 hm'.1) l hl he
          subst this
          simp [hlo] at hm'
      · exact h2 _ (List.mem_map_of_mem (List.mem_filter.2 ⟨List.mem_dedup.2 hl, by simpa using hlo⟩))

/-- The labels fit for a contraction of two networks. -/
def pairOK (la lb out La Sa Lb Sb G : List Nat) : Bool :=
  let r := fun l => G.getD l 0
  decide (out.Nodup ∧ ∀ l ∈ out, l ∈ la ++ (lb ++ [])) && decide (∀ a ∈ la ++ lb, ∀ b ∈ la ++ lb, r a = r b → a = b) &&
  decide (∀ l ∈ Lb, l ∉ Sa) && decide (∀ l ∈ La, l ∉ Sb)

/-- Labelled contraction of two networks; `G` lists the labels of the network for those of the call. -/
theorem Denotes.einsum2 {dim : Nat → Nat} {A B : Tensor K} {OA OB : List (List Nat)} {La Sa Lb Sb : List Nat} {Fa Fb : (Nat → Nat) → K}
    (hA : Denotes dim A OA La Sa Fa) (hB : Denotes dim B OB Lb Sb Fb) (la lb out G : List Nat)
    (hOA : OA = singles (la.map (fun l => G.getD l 0))) (hOB : OB = singles (lb.map (fun l => G.getD l 0))) (hok : pairOK la lb out La Sa Lb Sb G = true) :
    ∃ R, Tensor.einsum [(A, la), (B, lb)] out = some R ∧
      Denotes dim R (singles (out.map (fun l => G.getD l 0))) (((la ++ lb).dedup.filter (fun l => l ∉ out)).map (fun l => G.getD l 0) ++ (La ++ Lb)) (Sa ++ Sb) (fun σ => Fa σ * Fb σ) := by
  subst hOA hOB
  simp only [pairOK, Bool.and_eq_true] at hok
  obtain ⟨⟨⟨h1, h2⟩, h3⟩, h4⟩ := hok
  rw [decide_eq_true_eq] at h2 h3 h4
  have net := OpsNet.cons (l := la.map (fun l => G.getD l 0)) hA.close (OpsNet.cons (l := lb.map (fun l => G.getD l 0)) hB.close OpsNet.nil)
  obtain ⟨R, e, q⟩ := Denotes.einsumR (ops := [(A, la), (B, lb)]) (fun l => G.getD l 0) net out (by simpa using h1) (by simpa using h2)
  refine ⟨R, e, ⟨q.shape, ?_, ?_⟩⟩
  · intro σ τ h
    show Fa σ * Fb σ = Fa τ * Fb τ
    rw [hA.loc σ τ (fun x hx => h x (by simp [hx])), hB.loc σ τ (fun x hx => h x (by simp [hx]))]
  · intro σ hσ
    rw [q.val σ hσ, sumOver_append]
    simp only [List.flatMap_cons, List.flatMap_nil, List.append_nil]
    apply sumOver_congr
    intro τ _ _
    rw [mul_one]
    exact sumOver_mul_sumOver dim La Lb Sa Sb Fa Fb τ hA.loc hB.loc h3 h4

/-- Labelled contraction of three tensors. -/
theorem Denotes.einsum3 {dim : Nat → Nat} {A B C : Tensor K} {OA OB OC : List (List Nat)} {Sa Sb Sc : List Nat} {Fa Fb Fc : (Nat → Nat) → K}
    (hA : Denotes dim A OA [] Sa Fa) (hB : Denotes dim B OB [] Sb Fb) (hC : Denotes dim C OC [] Sc Fc) (la lb lc out G : List Nat)
    (hOA : OA = singles (la.map (fun l => G.getD l 0))) (hOB : OB = singles (lb.map (fun l => G.getD l 0))) (hOC : OC = singles (lc.map (fun l => G.getD l 0)))
    (h1 : decide (out.Nodup ∧ ∀ l ∈ out, l ∈ la ++ (lb ++ lc)) = true)
    (h2 : ∀ a ∈ la ++ (lb ++ lc), ∀ b ∈ la ++ (lb ++ lc), (fun l => G.getD l 0) a = (fun l => G.getD l 0) b → a = b) :
    ∃ R, Tensor.einsum [(A, la), (B, lb), (C, lc)] out = some R ∧
      Denotes dim R (singles (out.map (fun l => G.getD l 0))) (((la ++ (lb ++ lc)).dedup.filter (fun l => l ∉ out)).map (fun l => G.getD l 0)) (Sa ++ (Sb ++ Sc)) (fun σ => Fa σ * (Fb σ * Fc σ)) := by
  subst hOA hOB hOC
  have net := OpsNet.cons (l := la.map (fun l => G.getD l 0)) hA (OpsNet.cons (l := lb.map (fun l => G.getD l 0)) hB (OpsNet.cons (l := lc.map (fun l => G.getD l 0)) hC OpsNet.nil))
  have e0 : ([(A, la), (B, lb), (C, lc)] : List (Tensor K × List Nat)).flatMap Prod.snd = la ++ (lb ++ lc) := by simp
  obtain ⟨R, e, q⟩ := Denotes.einsumR (ops := [(A, la), (B, lb), (C, lc)]) (fun l => G.getD l 0) net out (by rw [e0]; exact h1) (by rw [e0]; exact h2)
  rw [e0] at q
  exact ⟨R, e, q.congr (List.Perm.refl _) (by simp) (fun σ => by rw [mul_one])⟩

theorem sumOver_upd {dim : Nat → Nat} {L : List Nat} {l i : Nat} (hl : l ∉ L) (f : (Nat → Nat) → K) (σ : Nat → Nat) :
    sumOver dim L (fun τ => f (Function.update τ l i)) σ = sumOver dim L f (Function.update σ l i) := by
  induction L generalizing σ with
  | nil => rfl
  | cons a L ih =>
    rw [List.mem_cons, not_or] at hl
    simp only [sumOver]
    refine Finset.sum_congr rfl (fun j _ => ?_)
    rw [ih hl.2, Function.update_comm (Ne.symm hl.1)]

end Verif.Tensor

namespace Verif.Rdm
open Tensor
variable {K : Type} [RCLike K]

/-- A slice of a tensor with five axes. -/
theorem select_denotes {dim : Nat → Nat} {A : Tensor K} {a0 a1 a2 a3 a4 i : Nat} (h : A.shape = [dim a0, dim a1, dim a2, dim a3, dim a4]) :
    (i < dim a1 → ∃ X, select 1 i A = some X ∧ Denotes dim X [[a0], [a2], [a3], [a4]] [] [a0, a2, a3, a4] (fun σ => A.val [σ a0, i, σ a2, σ a3, σ a4])) ∧
    (i < dim a2 → ∃ X, select 2 i A = some X ∧ Denotes dim X [[a0], [a1], [a3], [a4]] [] [a0, a1, a3, a4] (fun σ => A.val [σ a0, σ a1, i, σ a3, σ a4])) ∧
    (i < dim a3 → ∃ X, select 3 i A = some X ∧ Denotes dim X [[a0], [a1], [a2], [a4]] [] [a0, a1, a2, a4] (fun σ => A.val [σ a0, σ a1, σ a2, i, σ a4])) ∧
    (i < dim a4 → ∃ X, select 4 i A = some X ∧ Denotes dim X [[a0], [a1], [a2], [a3]] [] [a0, a1, a2, a3] (fun σ => A.val [σ a0, σ a1, σ a2, σ a3, i])) := by
  refine ⟨fun hi => ?_, fun hi => ?_, fun hi => ?_, fun hi => ?_⟩
  · refine ⟨_, by unfold select; rw [if_pos (by rw [size, h]; exact ⟨by simp, hi⟩)], ?_⟩
    exact (Denotes.leaf dim _ [[a0], [a2], [a3], [a4]] (by simp [gdim, h])).congr (List.Perm.refl _) (by simp) (fun σ => by simp only [List.map_cons, List.map_nil, gidx_single]; rfl)
  · refine ⟨_, by unfold select; rw [if_pos (by rw [size, h]; exact ⟨by simp, hi⟩)], ?_⟩
    exact (Denotes.leaf dim _ [[a0], [a1], [a3], [a4]] (by simp [gdim, h])).congr (List.Perm.refl _) (by simp) (fun σ => by simp only [List.map_cons, List.map_nil, gidx_single]; rfl)
  · refine ⟨_, by unfold select; rw [if_pos (by rw [size, h]; exact ⟨by simp, hi⟩)], ?_⟩
    exact (Denotes.leaf dim _ [[a0], [a1], [a2], [a4]] (by simp [gdim, h])).congr (List.Perm.refl _) (by simp) (fun σ => by simp only [List.map_cons, List.map_nil, gidx_single]; rfl)
  · refine ⟨_, by unfold select; rw [if_pos (by rw [size, h]; exact ⟨by simp, hi⟩)], ?_⟩
    exact (Denotes.leaf dim _ [[a0], [a1], [a2], [a3]] (by simp [gdim, h])).congr (List.Perm.refl _) (by simp) (fun σ => by simp only [List.map_cons, List.map_nil, gidx_single]; rfl)

/-- The sum over the loop is the sum over the two labels whose values are fixed in the body. -/
theorem loopSum_denotes {dim : Nat → Nat} {O : List (List Nat)} {L S : List Nat} {F : (Nat → Nat) → K} (u v D : Nat) (sh : List Nat) (body : Nat → Nat → Option (Tensor K))
    (hu : dim u = D) (hv : dim v = D) (hsh : sh = O.map (gdim dim)) (huv : u ∉ L ∧ v ∉ L ∧ u ∉ O.flatten ∧ v ∉ O.flatten)
    (hloc : ∀ σ τ, (∀ l ∈ S, σ l = τ l) → F σ = F τ)
    (h : ∀ i < D, ∀ ip < D, ∃ R S', body i ip = some R ∧ Denotes dim R O L S' (fun σ => F (Function.update (Function.update σ u i) v ip))) :
    ∃ R, loopSum sh D body = some R ∧ Denotes dim R O (u :: v :: L) S F := by
  have h' : ∀ n, ∃ R, n < D * D → ∃ S', body (n / D) (n % D) = some R ∧ Denotes dim R O L S' (fun σ => F (Function.update (Function.update σ u (n / D)) v (n % D))) := by
    intro n
    by_cases hn : n < D * D
    · have hD : 0 < D := by rcases Nat.eq_zero_or_pos D with h0 | h0; · simp [h0] at hn
                            · exact h0
      obtain ⟨R, S', h1, h2⟩ := h (n / D) (Nat.div_lt_of_lt_mul hn) (n % D) (Nat.mod_lt _ hD)
      exact ⟨R, fun _ => ⟨S', h1, h2⟩⟩
    · exact ⟨⟨[], fun _ => 0⟩, fun hh => absurd hh hn⟩
  choose g hg using h'
  have hm : (List.range (D * D)).mapM (fun n => do
      let t ← body (n / D) (n % D)
      if t.shape = sh then some t else none) = some ((List.range (D * D)).map g) := by
    apply Energy.mapM_some
    intro n hn
    obtain ⟨S', h1, h2⟩ := hg n (List.mem_range.1 hn)
    rw [h1, Option.bind_eq_bind, Option.bind_some, if_pos (by rw [h2.shape, hsh])]
  refine ⟨_, by unfold loopSum; rw [hm]; rfl, hsh, hloc, ?_⟩
  intro σ hσ
  show (((List.range (D * D)).map g).map (fun t => t.val (O.map (gidx dim σ)))).sum = _
  rw [List.map_map, ← List.sum_toFinset _ (List.nodup_range), List.toFinset_range, sum_range_mul]
  simp only [sumOver, hu, hv]
  refine Finset.sum_congr rfl (fun i hi => Finset.sum_congr rfl (fun ip hip => ?_))
  rw [Finset.mem_range] at hi hip
  have hD : 0 < D := by omega
  have hlt : i * D + ip < D * D := by
    calc i * D + ip < i * D + D := by omega
      _ = (i + 1) * D := by ring
      _ ≤ D * D := Nat.mul_le_mul_right _ hi
  obtain ⟨S', h1, h2⟩ := hg _ hlt
  have e1 : (i * D + ip) / D = i := by rw [Nat.mul_comm, Nat.mul_add_div hD, Nat.div_eq_of_lt hip, add_zero]
  have e2 : (i * D + ip) % D = ip := by rw [Nat.mul_comm, Nat.mul_add_mod, Nat.mod_eq_of_lt hip]
  have := h2.val σ hσ
  rw [e1, e2] at this
  show (g (i * D + ip)).val _ = _
  rw [this]
  exact (sumOver_upd huv.1 (fun ρ => F (Function.update ρ v ip)) σ).trans (sumOver_upd huv.2.1 F _)

end Verif.Rdm
