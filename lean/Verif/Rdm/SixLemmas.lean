import Verif.Tensor.Net
import Verif.Tensor.Subst
/-
Lemmas for contractions done in two halves.
-/
namespace Verif.Tensor
variable {K : Type} [CommRing K]

theorem OpsNet.fun_eq {dim : Nat → Nat} {ops : List (Tensor K × List Nat)} {labs S : List Nat} {F F' : (Nat → Nat) → K}
    (h : OpsNet dim ops labs S F) (hF : ∀ σ, F σ = F' σ) : OpsNet dim ops labs S F' := by
  obtain rfl : F = F' := funext hF
  exact h

theorem OpsNet.append {dim : Nat → Nat} {ops ops' : List (Tensor K × List Nat)} {labs labs' S S' : List Nat} {F F' : (Nat → Nat) → K}
    (h : OpsNet dim ops labs S F) (h' : OpsNet dim ops' labs' S' F') : OpsNet dim (ops ++ ops') (labs ++ labs') (S ++ S') (fun σ => F σ * F' σ) := by
  obtain ⟨qs, h1, h2, h3, h4⟩ := h
  obtain ⟨qs', h1', h2', h3', h4'⟩ := h'
  exact ⟨qs ++ qs', List.rel_append h1 h1', by simp [h2, h2'], by simp [h3, h3'], fun σ => by simp [h4, h4']⟩

/-- The summand of a list of operands depends on the labels of `S` only. -/
theorem OpsNet.loc {dim : Nat → Nat} {ops : List (Tensor K × List Nat)} {labs S : List Nat} {F : (Nat → Nat) → K} (h : OpsNet dim ops labs S F)
    (σ τ : Nat → Nat) (hs : ∀ l ∈ S, σ l = τ l) : F σ = F τ := by
  obtain ⟨qs, h1, hx, rfl, h4⟩ := h
  rw [h4, h4]
  congr 1
  clear h4 hx
  induction h1 with
  | nil => rfl
  | cons hd _ ih =>
    simp only [List.map_cons]
    rw [hd.loc σ τ (fun l hl => hs l (by rw [List.flatMap_cons]; exact List.mem_append_left _ hl)),
      ih (fun l hl => hs l (by rw [List.flatMap_cons]; exact List.mem_append_right _ hl))]

/-- A network is one tensor for what follows. -/
theorem Denotes.close {dim : Nat → Nat} {T : Tensor K} {O : List (List Nat)} {L S : List Nat} {F : (Nat → Nat) → K} (h : Denotes dim T O L S F) :
    Denotes dim T O [] S (sumOver dim L F) :=
  ⟨h.shape, fun σ τ hh => sumOver_local dim L S F h.loc σ τ (fun l hl _ => hh l hl), fun σ hσ => h.val σ hσ⟩

/-- The labels fit for a contraction in two halves with operands between them. -/
def halvesOK (labs1 S1 O1 labsm Sm labs2 S2 O2 out L Sall : List Nat) : Bool :=
  let L1 := labs1.dedup.filter (fun l => l ∉ O1)
  let L2 := labs2.dedup.filter (fun l => l ∉ O2)
  let L3 := (O1 ++ (labsm ++ (O2 ++ []))).dedup.filter (fun l => l ∉ out)
  decide (O1.Nodup ∧ ∀ l ∈ O1, l ∈ labs1) && decide (O2.Nodup ∧ ∀ l ∈ O2, l ∈ labs2) &&
  decide (out.Nodup ∧ ∀ l ∈ out, l ∈ O1 ++ (labsm ++ (O2 ++ []))) &&
  decide (∀ l ∈ L1, l ∉ Sm) && decide (∀ l ∈ L1, l ∉ S2) && decide (∀ l ∈ L2, l ∉ S1) && decide (∀ l ∈ L2, l ∉ Sm) &&
  decide ((L3 ++ (L1 ++ L2)).Perm L) && decide (∀ l ∈ S1 ++ (Sm ++ (S2 ++ [])), l ∈ Sall)

theorem halves {dim : Nat → Nat} {ops1 opsm ops2 : List (Tensor K × List Nat)} {labs1 labsm labs2 S1 Sm S2 : List Nat} {F1 Fm F2 : (Nat → Nat) → K}
    (n1 : OpsNet dim ops1 labs1 S1 F1) (nm : OpsNet dim opsm labsm Sm Fm) (n2 : OpsNet dim ops2 labs2 S2 F2)
    (O1 O2 out L Sall : List Nat) (hok : halvesOK labs1 S1 O1 labsm Sm labs2 S2 O2 out L Sall = true) :
    ∃ R, (do
      let l ← einsum ops1 O1
      let r ← einsum ops2 O2
      einsum ((l, O1) :: (opsm ++ [(r, O2)])) out) = some R ∧ Denotes dim R (singles out) L Sall (fun σ => F1 σ * (Fm σ * F2 σ)) := by
  have locm := nm.loc
  simp only [halvesOK, Bool.and_eq_true] at hok
  obtain ⟨⟨⟨⟨⟨⟨⟨⟨h1, h2⟩, h3⟩, h4⟩, h5⟩, h6⟩, h7⟩, h8⟩, h9⟩ := hok
  obtain ⟨l, el, ql⟩ := Denotes.einsum' n1 O1 h1
  obtain ⟨r, er, qr⟩ := Denotes.einsum' n2 O2 h2
  have net := OpsNet.cons (l := O1) ql.close (nm.append (OpsNet.cons (l := O2) qr.close OpsNet.nil))
  obtain ⟨R, eR, qR⟩ := Denotes.einsum' net out h3
  refine ⟨R, by simp only [el, er, Option.bind_eq_bind, Option.bind_some]; exact eR, ?_⟩
  rw [decide_eq_true_iff] at h4 h5 h6 h7 h8 h9
  refine ⟨qR.shape, ?_, ?_⟩
  · intro σ τ h
    show F1 σ * (Fm σ * F2 σ) = F1 τ * (Fm τ * F2 τ)
    rw [ql.loc σ τ (fun x hx => h x (h9 x (by simp [hx]))), qr.loc σ τ (fun x hx => h x (h9 x (by simp [hx]))), locm σ τ (fun x hx => h x (h9 x (by simp [hx])))]
  · intro σ hσ
    rw [qR.val σ hσ, ← sumOver_perm dim h8, sumOver_append]
    apply sumOver_congr
    intro τ _ _
    rw [mul_one, show Fm τ * sumOver dim (labs2.dedup.filter (fun l => l ∉ O2)) F2 τ = _ from
        sumOver_mul_sumOver dim [] _ Sm S2 Fm F2 τ locm qr.loc h7 (by simp),
      List.nil_append, sumOver_mul_sumOver dim _ _ S1 (Sm ++ S2) F1 (fun ρ => Fm ρ * F2 ρ) τ ql.loc ?_ h6 ?_]
    · intro σ τ h
      show Fm σ * F2 σ = Fm τ * F2 τ
      rw [qr.loc σ τ (fun x hx => h x (by simp [hx])), locm σ τ (fun x hx => h x (by simp [hx]))]
    · intro x hx hm
      rcases List.mem_append.1 hm with hm | hm
      · exact h4 x hx hm
      · exact h5 x hx hm

end Verif.Tensor
