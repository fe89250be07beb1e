import Verif.Transfer.Strip
/-
Property C93: spectra of transfer operators of width one (`get_Top_spec`).
-/
namespace Verif.Transfer
open Tensor Ctm Ctm.Spec Spec Corrf.Spec

section
variable {D : Dims} {st : State ℂ} {env : Env ℂ} {N : Tensors ℂ}

theorem iter_rep (ht : Tiling st) (hs : FitsState D st) (he : FitsEnv D st env) (hN : Reads st env N) (d : Dir) : ∀ (n : Nat) (c : Coord) {E : Tensor ℂ} {f : Vec ℂ},
    Corrf.Rep (cut D d c) E f → ∃ R, iter (fun c V => Corrf.applyTM st env d c V none) d n c E = some R ∧ Corrf.Rep (cut D d (ahead d c n)) R (grow N D d c (List.replicate n one) f)
  | 0, c, E, f, hE => ⟨E, rfl, by rw [Corrf.ahead_zero]; exact hE⟩
  | n + 1, c, E, f, hE => by
    obtain ⟨R, e, q⟩ := Corrf.applyTM_rep ht hs he hN d c none (fun o ho => by cases ho) hE
    obtain ⟨R', e', q'⟩ := iter_rep ht hs he hN d n (ahead d c 1) q
    refine ⟨R', ?_, ?_⟩
    · simp only [iter, e, Option.bind_eq_bind, Option.bind_some, Corrf.shift_vec]
      exact e'
    · rw [Corrf.ahead_ahead, Nat.add_comm 1 n] at q'
      exact q'

theorem getChis_ok (ht : Tiling st) (he : FitsEnv D st env) (hN : Reads st env N) (d : Dir) (c : Coord) : getChis st env c d = some ((cut D d c).1, (cut D d c).2.2) := by
  have hv : st.vts (st.vts c) = st.vts c := ht.fix _ (ht.mem c)
  have a := Corrf.shape_of (he.tu c) (hN.tu c)
  have b := Corrf.shape_of (he.tl c) (hN.tl c)
  have a' := Corrf.shape_of (he.td c) (hN.td c)
  have b' := Corrf.shape_of (he.tr c) (hN.tr c)
  cases d <;> simp [getChis, hv, hN.tu c, hN.tl c, hN.td c, hN.tr c, size, a, b, a', b', cut]

theorem site_size (hs : FitsState D st) (d : Dir) (c : Coord) : ∃ a, st.site c = some a ∧ a.size (axisOf (Corrf.rev d)) * a.size (axisOf (Corrf.rev d)) = (cut D d c).2.1 := by
  obtain ⟨a, e, s⟩ := hs.site c
  refine ⟨a, e, ?_⟩
  cases d <;> simp [size, s, axisOf, Corrf.rev, cut]

theorem ravel_bij (a b c n : Nat) (hn : a * b * c = n) :
    Set.BijOn (fun k : Nat × Nat × Nat => ravel [a, b, c] [k.1, k.2.1, k.2.2]) (Finset.range a ×ˢ (Finset.range b ×ˢ Finset.range c) : Finset (Nat × Nat × Nat)) (Set.Iio n) := by
  have hp : [a, b, c].prod = n := by simp [← hn, mul_assoc]
  have hin : ∀ k : Nat × Nat × Nat, k ∈ (Finset.range a ×ˢ (Finset.range b ×ˢ Finset.range c)) → InB [a, b, c] [k.1, k.2.1, k.2.2] := by
    intro k hk
    simp only [Finset.mem_product, Finset.mem_range] at hk
    exact .cons hk.1 (.cons hk.2.1 (.cons hk.2.2 .nil))
  refine ⟨fun k hk => ?_, fun k hk k' hk' h => ?_, fun i hi => ?_⟩
  · have := ravel_lt (hin k hk)
    rwa [hp] at this
  · have := congrArg (unravel [a, b, c]) h
    simp only [unravel_ravel (hin k hk), unravel_ravel (hin k' hk')] at this
    obtain ⟨k1, k2, k3⟩ := k
    obtain ⟨l1, l2, l3⟩ := k'
    simpa using this
  · obtain ⟨h1, h2⟩ := inB_unravel [a, b, c] i (by rw [hp]; exact hi)
    generalize unravel [a, b, c] i = u at h1 h2
    cases h1 with
    | cons hx h1 => cases h1 with
      | cons hy h1 => cases h1 with
        | cons hz h1 => cases h1 with
          | nil =>
            rename_i x y z
            exact ⟨(x, y, z), by simpa using ⟨hx, hy, hz⟩, h2⟩

theorem cut_period (ht : Tiling st) (hs : FitsState D st) (he : FitsEnv D st env) (hp : Periodic st) (d : Dir) (c : Coord) :
    cut D d (ahead d c (cellLen st d)) = cut D d c := cut_vts ht hs he d (vts_period hp d c)

/-- The function handed to the solver multiplies by the matrix of the strip. -/
theorem mv1_multiplies (ht : Tiling st) (hs : FitsState D st) (he : FitsEnv D st env) (hN : Reads st env N) (hp : Periodic st) (d : Dir) (c : Coord) (ad : Nat)
    (had : ad * ad = (cut D d c).2.1) :
    ∃ e : Idx (cut D d c) ≃ Fin ((cut D d c).1 * ad * ad * (cut D d c).2.2),
      Multiplies (mv1 st env d c (cut D d c).1 ad (cut D d c).2.2) (Matrix.reindex e e (period st N D d c)) := by
  have hn : (cut D d c).1 * (cut D d c).2.1 * (cut D d c).2.2 = (cut D d c).1 * ad * ad * (cut D d c).2.2 := by rw [← had]; ring
  obtain ⟨s, hsd⟩ : ∃ s, s = cut D d c := ⟨_, rfl⟩
  obtain ⟨e, _, hM⟩ := multiplies_of (A := cutSet D d c) _ (ravel_bij _ _ _ _ hn) (mv1 st env d c (cut D d c).1 ad (cut D d c).2.2)
    (cmat (cutSet D d) (siteKer N D d) (nxt d) (cellLen st d) c (cutSet D d c) (cutSet D d c)) (by
      intro v hv
      have hmem : ∀ k ∈ cutSet D d c, InB [(cut D d c).1, (cut D d c).2.1, (cut D d c).2.2] [k.1, k.2.1, k.2.2] := by
        intro k hk
        have := (mem_box (s := cut D d c) rfl k).1 hk
        exact .cons this.1 (.cons this.2.1 (.cons this.2.2 .nil))
      have hprod : [(cut D d c).1, (cut D d c).2.1, (cut D d c).2.2].prod = (cut D d c).1 * ad * ad * (cut D d c).2.2 := by rw [← hn]; simp [mul_assoc]
      obtain ⟨V, eV, hV⟩ : ∃ V, view [(cut D d c).1, ad * ad, (cut D d c).2.2] v = some V ∧
          Corrf.Rep (cut D d c) V (fun x y z => v.val [ravel [(cut D d c).1, (cut D d c).2.1, (cut D d c).2.2] [x, y, z]]) := by
        refine ⟨_, by rw [view, had, if_pos (by rw [hv, hprod]; simp)], rfl, ?_⟩
        intro x y z hx hy hz
        have hlt := ravel_lt (hmem (x, y, z) ((mem_box (s := cut D d c) rfl _).2 ⟨hx, hy, hz⟩))
        simp only [hv]
        congr 1
        have := unravel_ravel (shape := [(cut D d c).1 * ad * ad * (cut D d c).2.2]) (idx := [ravel [(cut D d c).1, (cut D d c).2.1, (cut D d c).2.2] [x, y, z]])
          (.cons (by rw [← hprod]; exact hlt) .nil)
        rw [← this]
        congr 1
        simp [ravel]
      obtain ⟨R, eR, hR⟩ := iter_rep ht hs he hN d (cellLen st d) c hV
      rw [cut_period ht hs he hp] at hR
      refine ⟨⟨[(cut D d c).1 * ad * ad * (cut D d c).2.2], fun idx => R.val (unravel R.shape (ravel [(cut D d c).1 * ad * ad * (cut D d c).2.2] idx))⟩, ?_, rfl, ?_⟩
      · simp only [mv1, eV, eR, Option.bind_eq_bind, Option.bind_some]
        rw [view, if_pos (by rw [hR.1, hprod]; simp)]
      · intro k
        have hk := hmem k.1 k.2
        have e1 : ravel [(cut D d c).1 * ad * ad * (cut D d c).2.2] [ravel [(cut D d c).1, (cut D d c).2.1, (cut D d c).2.2] [k.1.1, k.1.2.1, k.1.2.2]] =
            ravel [(cut D d c).1, (cut D d c).2.1, (cut D d c).2.2] [k.1.1, k.1.2.1, k.1.2.2] := by simp [ravel]
        have hb := (mem_box (s := cut D d c) rfl _).1 k.2
        show R.val (unravel R.shape (ravel _ [ravel _ _])) = _
        rw [e1, hR.1, unravel_ravel hk, hR.2 _ _ _ hb.1 hb.2.1 hb.2.2, grow_chain N D d _ c _ k.1,
          chain_expand (S := cutSet D d) _ c _ k.1 (by rw [nxt_iter, cutSet_vts ht hs he d (vts_period hp d c)]; exact k.2), ← Finset.sum_coe_sort (cutSet D d c)]
        exact Finset.sum_congr rfl (fun j _ => mul_comm _ _))
  refine ⟨(idxEquiv (cut D d c) (cutSet D d c) rfl).trans e, ?_⟩
  rw [strip_reindex] at hM
  exact hM

/-- **C93.** `get_Top_spec` returns the `n` leading eigenvalues of the transfer operator drawn in its documentation (one period of the strip of sites in direction `d`
from `coord`, between the environment rows), ordered by decreasing modulus and divided by the largest one. With `eigenvectors=True` column `i` is an eigenvector to the value in row `i`. -/
theorem C93_leading {eigs : Eigs} {argsort : Argsort} (hei : Solves eigs) (har : Sorts argsort) (ht : Tiling st) (hs : FitsState D st) (he : FitsEnv D st env) (hN : Reads st env N)
    (hp : Periodic st) (b : Bool) (n : Nat) (c : Coord) (d : Dir) {r : List (ℝ × ℝ) × List (Tensor ℂ)} (h : topSpec eigs argsort b n c d st env = .ok r) :
    Spectrum (period st N D d c) n r.1 ∧
      (b = true → ∃ (m : Nat) (e : Idx (cut D d c) ≃ Fin m) (s : ℝ), 0 < s ∧
        List.Forall₂ (fun p v => Eigenvector (Matrix.reindex e e (period st N D d c)) ((s : ℂ) * row p) v) r.1 r.2) := by
  obtain ⟨a, ea, ha⟩ := site_size hs d c
  obtain ⟨e, hM⟩ := mv1_multiplies ht hs he hN hp d c _ ha
  unfold topSpec at h
  rw [getChis_ok ht he hN d c, ea] at h
  obtain ⟨h1, h2⟩ := sorted_ok hei har hM h
  refine ⟨Spectrum.congr (Matrix.charpoly_reindex e _) h1, fun hb => ?_⟩
  obtain ⟨s, s0, h3⟩ := h2 hb
  exact ⟨_, e, s, s0, h3⟩

/-- **C93.** It fails only if the solver does or if the operator has no eigenvalue other than zero. -/
theorem C93_defined {eigs : Eigs} {argsort : Argsort} (hei : Solves eigs) (har : Sorts argsort) (ht : Tiling st) (hs : FitsState D st) (he : FitsEnv D st env) (hN : Reads st env N)
    (hp : Periodic st) (b : Bool) (n : Nat) (c : Coord) (d : Dir) (hn : 0 < n) (hz : ∃ x ∈ (period st N D d c).charpoly.roots, x ≠ 0)
    (hsol : ∀ m f (M : Matrix (Fin m) (Fin m) ℂ), Fintype.card (Idx (cut D d c)) = m → Multiplies f M → (eigs b m f n).isSome) :
    ∃ r, topSpec eigs argsort b n c d st env = .ok r := by
  obtain ⟨a, ea, ha⟩ := site_size hs d c
  obtain ⟨e, hM⟩ := mv1_multiplies ht hs he hN hp d c _ ha
  unfold topSpec
  rw [getChis_ok ht he hN d c, ea]
  refine sorted_defined hei har hM hn ?_ (hsol _ _ _ ?_ hM)
  · rw [Matrix.charpoly_reindex]; exact hz
  · rw [Fintype.card_congr e, Fintype.card_fin]

/-- **C93.** The moduli do not depend on the reference site along the strip, nor on the sense of the direction. -/
theorem C93_reference {eigs eigs' : Eigs} {argsort argsort' : Argsort} (hei : Solves eigs) (hei' : Solves eigs') (har : Sorts argsort) (har' : Sorts argsort') (ht : Tiling st) (hs : FitsState D st)
    (he : FitsEnv D st env) (hp : Periodic st) (b b' : Bool) (n : Nat) (c : Coord) (d d' : Dir) (hd : d' = d ∨ d' = Corrf.rev d) (hc : 0 < cellLen st d) (m : Int)
    {r r' : List (ℝ × ℝ) × List (Tensor ℂ)} (h : topSpec eigs argsort b n c d st env = .ok r)
    (h' : topSpec eigs' argsort' b' n (c.1 + m * d.vec.1, c.2 + m * d.vec.2) d' st env = .ok r') :
    r.1.map (fun p => ‖row p‖) = r'.1.map (fun p => ‖row p‖) := by
  obtain ⟨N, hN⟩ := Corrf.Spec.Reads.exists hs he
  have h1 := (C93_leading hei har ht hs he hN hp b n c d h).1
  have h2 := (C93_leading hei' har' ht hs he hN hp b' n _ d' h').1
  refine spectrum_unique h1 h2 ((period_line ht hs he hN hp d hc c m).trans ?_)
  rcases hd with rfl | rfl
  · exact Eq.refl _
  · exact period_rev ht hs he hN hp d hc _

end
end Verif.Transfer
