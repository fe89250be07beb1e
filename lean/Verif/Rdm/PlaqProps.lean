import Verif.Rdm.PlaqNet2
import Verif.Rdm.Props
/-
Properties C33 (partial traces of the plaquette density matrix), C67 (the other plaquette routines) and C68 (plaquette MPO).
-/
namespace Verif.Rdm
open Tensor Ctm Ctm.Spec
set_option linter.unusedSimpArgs false
set_option linter.unusedSectionVars false
variable {K : Type} [RCLike K]

namespace Spec
/-- The environment tensors around the plaquette with upper left vertex `c`, and its site tensors. -/
structure AroundPlaq (st : State K) (env : Env K) (c : Coord) (e : PlaqEnv K) (s : PlaqSites K) : Prop where
  C1 : env.C (st.vts c, (-1, -1)) = some e.C1
  C2 : env.C (st.vts (rt c), (1, -1)) = some e.C2
  C3 : env.C (st.vts (rt (dn c)), (1, 1)) = some e.C3
  C4 : env.C (st.vts (dn c), (-1, 1)) = some e.C4
  T1 : env.T (st.vts c, (0, -1)) = some e.T1
  T4 : env.T (st.vts c, (-1, 0)) = some e.T4
  T1x : env.T (st.vts (rt c), (0, -1)) = some e.T1x
  T2x : env.T (st.vts (rt c), (1, 0)) = some e.T2x
  T2xy : env.T (st.vts (rt (dn c)), (1, 0)) = some e.T2xy
  T3xy : env.T (st.vts (rt (dn c)), (0, 1)) = some e.T3xy
  T3y : env.T (st.vts (dn c), (0, 1)) = some e.T3y
  T4y : env.T (st.vts (dn c), (-1, 0)) = some e.T4y
  a : st.sites (st.vts c) = some s.a
  ax : st.sites (st.vts (rt c)) = some s.ax
  ay : st.sites (st.vts (dn c)) = some s.ay
  axy : st.sites (st.vts (rt (dn c))) = some s.axy

/-- Physical dimension of site `x` of the plaquette: upper left, upper right, lower left, lower right. -/
def physP (D : Dims) (c : Coord) (x : Nat) : Nat := [D.p c, D.p (rt c), D.p (dn c), D.p (rt (dn c))].getD x 0

/-- Sizes of the labels of the plaquette network. -/
def dimsP (D : Dims) (c : Coord) (l : Nat) : Nat :=
  if 100 ≤ l then physP D c ((l - 100) / 2) else
  let x := rt c
  let y := dn c
  let xy := rt (dn c)
  [D.el c, D.eu c, D.U c, D.L c, 0, D.U c, D.L c, D.ed y, D.el (dn y), D.L y, D.U (dn y), 0, D.L y, D.U (dn y), 0, D.el y, D.U y, D.U y,
    D.eu (rt x), D.er x, D.U x, D.L (rt x), 0, D.U x, D.L (rt x), 0, D.er (dn xy), D.ed (rt xy), D.L (rt xy), D.U (dn xy), 0, D.L (rt xy),
    D.U (dn xy), D.er xy, D.U xy, D.U xy, D.eu x, D.L x, D.L x, D.L xy, D.L xy, D.ed xy].getD l 0

/-- `T` is an operator on four sites of dimensions `d 0 .. d 3`, with axes `s0 s1 s2 s3; s0' s1' s2' s3'`. Its partial trace over the sites that
are not in `os`: axes are the remaining sites in increasing order, `t` runs over the values on the closed sites. -/
def ptrace (d : Nat → Nat) (os : List Nat) (T : Tensor K) : Tensor K :=
  let keep := (List.range 4).filter (· ∈ os)
  let closed := (List.range 4).filter (· ∉ os)
  { shape := keep.map d ++ keep.map d
    val := fun idx => sumOver d closed
      (fun t => T.val ((List.range 4).map t ++ (List.range 4).map (fun x => if x ∈ os then idx.getD (keep.length + keep.idxOf x) 0 else t x)))
      (fun x => if x ∈ os then idx.getD (keep.idxOf x) 0 else 0) }

/-- Entry of the operator represented by four MPO tensors with axes (left, ket, right, bra); `B` are the sizes of the five auxiliary indices, the
first and the last of which are summed too. -/
def mpoEntry (B : Nat → Nat) (m0 m1 m2 m3 : Tensor K) (k b : List Nat) : K :=
  ∑ x0 ∈ Finset.range (B 0), ∑ x1 ∈ Finset.range (B 1), ∑ x2 ∈ Finset.range (B 2), ∑ x3 ∈ Finset.range (B 3), ∑ x4 ∈ Finset.range (B 4),
    m0.val [x0, k.getD 0 0, x1, b.getD 0 0] * m1.val [x1, k.getD 1 0, x2, b.getD 1 0] * m2.val [x2, k.getD 2 0, x3, b.getD 2 0] *
      m3.val [x3, k.getD 3 0, x4, b.getD 3 0]

/-- The un-normalised density matrix of the plaquette at `c`: the network with all eight physical indices open. -/
def IsPlaq (D : Dims) (st : State K) (env : Env K) (c : Coord) (rho : Tensor K) : Prop :=
  ∃ e s, AroundPlaq st env c e s ∧
    Corner.Spec.IsNetwork (dimsP D c) rho [[100], [102], [104], [106], [101], [103], [105], [107]] innerP (rhoP (dimsP D c) e s (bra [0, 1, 2, 3]))
end Spec
open Spec

/-! ### Helpers -/

theorem plaq_ok {D : Dims} {st : State K} {env : Env K} (hs : FitsState D st) (he : FitsEnv D st env) (c : Coord) :
    ∃ e s, plaq st env c = some (e, s) ∧ Spec.AroundPlaq st env c e s ∧ Spec.FitsP (dimsP D c) e s := by
  obtain ⟨C1, h1, s1⟩ := he.lu c
  obtain ⟨C2, h2, s2⟩ := he.ru (rt c)
  obtain ⟨C3, h3, s3⟩ := he.rd (rt (dn c))
  obtain ⟨C4, h4, s4⟩ := he.ld (dn c)
  obtain ⟨T1, h5, s5⟩ := he.tu c
  obtain ⟨T4, h6, s6⟩ := he.tl c
  obtain ⟨T1x, h7, s7⟩ := he.tu (rt c)
  obtain ⟨T2x, h8, s8⟩ := he.tr (rt c)
  obtain ⟨T2xy, h9, s9⟩ := he.tr (rt (dn c))
  obtain ⟨T3xy, h10, s10⟩ := he.td (rt (dn c))
  obtain ⟨T3y, h11, s11⟩ := he.td (dn c)
  obtain ⟨T4y, h12, s12⟩ := he.tl (dn c)
  obtain ⟨a, h13, s13⟩ := hs.site c
  obtain ⟨ax, h14, s14⟩ := hs.site (rt c)
  obtain ⟨ay, h15, s15⟩ := hs.site (dn c)
  obtain ⟨axy, h16, s16⟩ := hs.site (rt (dn c))
  have er : (c.1 + 1, c.2) = rt c := rfl
  have ed : (c.1, c.2 + 1) = dn c := rfl
  have ex : (c.1 + 1, c.2 + 1) = rt (dn c) := rfl
  refine ⟨⟨C1, C2, C3, C4, T1, T4, T1x, T2x, T2xy, T3xy, T3y, T4y⟩, ⟨a, ax, ay, axy⟩,
    by simp [plaq, er, ed, ex, h1, h2, h3, h4, h5, h6, h7, h8, h9, h10, h11, h12, h13, h14, h15, h16],
    ⟨h1, h2, h3, h4, h5, h6, h7, h8, h9, h10, h11, h12, h13, h14, h15, h16⟩, ?_⟩
  constructor <;> first | rfl | (simp only [*, dimsP]; rfl)

theorem sumOver_comp (dim : Nat → Nat) (r : Nat → Nat) (ls : List Nat) (hr : ∀ a ∈ ls, ∀ l, r l = a ↔ l = a) (F : (Nat → Nat) → K) (σ : Nat → Nat) :
    sumOver dim ls (fun τ => F (fun l => τ (r l))) σ = sumOver dim ls F (fun l => σ (r l)) := by
  induction ls generalizing σ with
  | nil => rfl
  | cons a ls ih =>
    simp only [sumOver]
    refine Finset.sum_congr rfl (fun i _ => ?_)
    rw [ih (fun b hb => hr b (by simp [hb]))]
    congr 1
    funext l
    by_cases h : l = a
    · subst h
      have := (hr l (by simp) l).2 rfl
      rw [this]; simp
    · have : r l ≠ a := fun h' => h ((hr a (by simp) l).1 h')
      simp [Function.update_of_ne h, Function.update_of_ne this]

theorem sumOver_relabel (dim d : Nat → Nat) (ls : List Nat) (hls : ∀ x ∈ ls, x < 4 ∧ dim (100 + 2 * x) = d x) (G G' : (Nat → Nat) → K) (σ σ0 : Nat → Nat)
    (h0 : ∀ x < 4, σ (100 + 2 * x) = σ0 x)
    (h : ∀ τ τ0, (∀ x < 4, τ (100 + 2 * x) = τ0 x) → (∀ x ∈ ls, τ0 x < d x) → (∀ x, x ∉ ls → τ0 x = σ0 x) →
      (∀ l, (∀ x ∈ ls, l ≠ 100 + 2 * x) → τ l = σ l) → G τ = G' τ0) :
    sumOver dim (ls.map (fun x => 100 + 2 * x)) G σ = sumOver d ls G' σ0 := by
  induction ls generalizing σ σ0 with
  | nil => exact h σ σ0 h0 (by simp) (fun _ _ => rfl) (fun _ _ => rfl)
  | cons a ls ih =>
    simp only [List.map_cons, sumOver, (hls a (by simp)).2]
    refine Finset.sum_congr rfl (fun i hi => ih (fun x hx => hls x (by simp [hx])) _ _ ?_ ?_)
    · intro x hx
      by_cases hxa : x = a
      · subst hxa; simp
      · rw [Function.update_of_ne (by omega), Function.update_of_ne hxa]; exact h0 x hx
    · intro τ τ0 g1 g2 g3 g4
      refine h τ τ0 g1 ?_ ?_ ?_
      · intro x hx
        by_cases hxl : x ∈ ls
        · exact g2 x hxl
        · obtain rfl : x = a := by simpa [hxl] using hx
          rw [g3 x hxl]; simpa using hi
      · intro x hx
        simp only [List.mem_cons, not_or] at hx
        rw [g3 x hx.2, Function.update_of_ne hx.1]
      · intro l hl
        rw [g4 l (fun x hx => hl x (by simp [hx])), Function.update_of_ne (hl a (by simp))]

theorem siteSet_sub (os : List Nat) : siteSet os ∈ [0, 1, 2, 3].sublists := by
  rw [List.mem_sublists]
  exact List.filter_sublist

theorem mem_siteSet {os : List Nat} {x : Nat} (hx : x < 4) : x ∈ siteSet os ↔ x ∈ os := by simp [siteSet, hx]

theorem siteSet_idem (os : List Nat) : siteSet (siteSet os) = siteSet os := by
  unfold siteSet
  apply List.filter_congr
  intro x hx
  simp only [List.mem_range] at hx
  simp [hx]

theorem physLabels_siteSet (os : List Nat) : physLabels (siteSet os) = physLabels os := by
  simp only [physLabels, List.range_succ, List.range_zero, List.nil_append, List.flatMap_append, List.flatMap_cons, List.flatMap_nil, List.append_nil,
    mem_siteSet (by decide : 0 < 4), mem_siteSet (by decide : 1 < 4), mem_siteSet (by decide : 2 < 4), mem_siteSet (by decide : 3 < 4)]

theorem oe2x2_siteSet (e : PlaqEnv K) (s : PlaqSites K) (os : List Nat) : oe2x2 e s os = oe2x2 e s (siteSet os) := by
  unfold oe2x2
  rw [physLabels_siteSet]
  simp only [outLabels, siteSet_idem]

theorem ptrace_siteSet (d : Nat → Nat) (os : List Nat) (T : Tensor K) : ptrace d (siteSet os) T = ptrace d os T := by
  have h1 : (List.range 4).filter (fun x => decide (x ∈ siteSet os)) = (List.range 4).filter (fun x => decide (x ∈ os)) := siteSet_idem os
  have h2 : (List.range 4).filter (fun x => decide (x ∉ siteSet os)) = (List.range 4).filter (fun x => decide (x ∉ os)) := by
    apply List.filter_congr
    intro x hx
    simp only [List.mem_range] at hx
    simp [mem_siteSet hx]
  have h3 : ∀ x ∈ siteSet os, x < 4 := fun x hx => by simp [siteSet] at hx; exact hx.1
  unfold ptrace
  simp only [h1, h2]
  congr 1
  funext idx
  have hb : ∀ x, x < 4 → ((x ∈ siteSet os) = (x ∈ os)) := fun x hx => propext (mem_siteSet hx)
  have hr : (List.range 4) = [0, 1, 2, 3] := rfl
  rw [sumOver_local d _ [0, 1, 2, 3] _ ?_ _ (fun x => if x ∈ os then idx.getD (((List.range 4).filter (fun x => decide (x ∈ os))).idxOf x) 0 else 0) ?_]
  · apply sumOver_congr
    intro τ _ _
    simp only [hr, List.map_cons, List.map_nil, hb 0 (by decide), hb 1 (by decide), hb 2 (by decide), hb 3 (by decide)]
  · intro σ τ hst
    simp only [List.forall_mem_cons] at hst
    simp only [hr, List.map_cons, List.map_nil, hst]
  · intro l hl _
    have : l < 4 := by simp at hl; omega
    simp only [hb l this]

/-- The contraction with closed sites is the partial trace of the open contraction. -/
theorem ptrace_same (dim : Nat → Nat) (e : PlaqEnv K) (s : PlaqSites K) (h : Spec.FitsP dim e s) {R4 : Tensor K} {S : List Nat}
    (q4 : Denotes dim R4 (singles (outLabels [0, 1, 2, 3])) innerP S (rhoP dim e s (bra [0, 1, 2, 3]))) (os : List Nat) :
    ∃ R, oe2x2 e s os = some R ∧ Same R (ptrace (fun x => dim (100 + 2 * x)) os R4) := by
  rw [oe2x2_siteSet, ← ptrace_siteSet]
  obtain ⟨ks, hks⟩ : ∃ ks, ks = siteSet os := ⟨_, rfl⟩
  have hsub := siteSet_sub os
  have hid : siteSet ks = ks := by rw [hks, siteSet_idem]
  rw [← hks] at hsub ⊢
  have hlt : ∀ x ∈ ks, x < 4 := fun x hx => by
    have := (List.mem_sublists.1 hsub).subset hx
    simp at this; omega
  have hpd : ∀ x < 4, dim (100 + 2 * x + 1) = dim (100 + 2 * x) := by
    intro x hx
    have : x = 0 ∨ x = 1 ∨ x = 2 ∨ x = 3 := by omega
    rcases this with rfl | rfl | rfl | rfl
    exacts [h.a0, h.ax0, h.ay0, h.axy0]
  obtain ⟨R, e1, q⟩ := oe2x2_denotes dim e s h ks hsub
  refine ⟨R, e1, ?_, ?_⟩
  · rw [q.shape, singles_gdim]
    simp only [outLabels, hid, ptrace, List.map_append, List.map_map]
    have hk : (List.range 4).filter (fun x => decide (x ∈ ks)) = ks := hid
    rw [hk]
    congr 1
    apply List.map_congr_left
    intro x hx
    exact hpd x (hlt x hx)
  · intro idx hidx
    rw [q.shape, singles_gdim] at hidx
    have hkn : ks.Nodup := by rw [hks]; exact List.Nodup.filter _ List.nodup_range
    have hon : (outLabels ks).Nodup := by
      unfold outLabels
      rw [hid, List.nodup_append]
      refine ⟨hkn.map (fun a b hab => by simpa using hab), hkn.map (fun a b hab => by simpa using hab), ?_⟩
      intro a ha b hb
      simp only [List.mem_map] at ha hb
      obtain ⟨x, -, rfl⟩ := ha
      obtain ⟨y, -, rfl⟩ := hb
      omega
    obtain ⟨σ0, hσ0⟩ : ∃ σ0 : Nat → Nat, σ0 = fun x => if x ∈ ks then idx.getD (ks.idxOf x) 0 else 0 := ⟨_, rfl⟩
    obtain ⟨σ, g1, g2, g3⟩ := exists_labels dim (outLabels ks) hon idx hidx (fun l => σ0 ((l - 100) / 2))
    have hk : (List.range 4).filter (fun x => decide (x ∈ ks)) = ks := hid
    have hmem : ∀ x ∈ ks, 100 + 2 * x ∈ outLabels ks ∧ 100 + 2 * x + 1 ∈ outLabels ks := by
      intro x hx
      simp only [outLabels, hid, List.mem_append, List.mem_map]
      exact ⟨Or.inl ⟨x, hx, rfl⟩, Or.inr ⟨x, hx, rfl⟩⟩
    have hidx1 : ∀ x ∈ ks, idx.getD (ks.idxOf x) 0 = σ (100 + 2 * x) := by
      intro x hx
      have hi := List.idxOf_lt_length_iff.2 hx
      rw [← g2]
      simp only [outLabels, hid, List.map_append, List.map_map]
      rw [List.getD_eq_getElem?_getD, List.getElem?_append_left (by simpa using hi), ← List.getD_eq_getElem?_getD]
      exact getD_map_idxOf _ _ _ _ hx
    have hidx2 : ∀ x ∈ ks, idx.getD (ks.length + ks.idxOf x) 0 = σ (100 + 2 * x + 1) := by
      intro x hx
      rw [← g2]
      simp only [outLabels, hid, List.map_append, List.map_map]
      rw [List.getD_eq_getElem?_getD, List.getElem?_append_right (by simp), ← List.getD_eq_getElem?_getD]
      simp only [List.length_map, Nat.add_sub_cancel_left]
      exact getD_map_idxOf _ _ _ _ hx
    have hval : R.val idx = sumOver dim ((closedSites ks).map (fun x => 100 + 2 * x) ++ innerP) (rhoP dim e s (bra ks)) σ := by
      have := q.val σ (by rw [singles_flatten]; exact g1)
      rw [singles_gidx, g2] at this
      exact this
    rw [hval, sumOver_append]
    simp only [ptrace, hk]
    rw [← hσ0]
    have hcl : (List.range 4).filter (fun x => decide (x ∉ ks)) = closedSites ks := rfl
    rw [hcl]
    apply sumOver_relabel
    · intro x hx
      simp only [closedSites, List.mem_filter, List.mem_range] at hx
      exact ⟨hx.1, rfl⟩
    · intro x hx
      by_cases hxk : x ∈ ks
      · rw [hσ0]; simp only [if_pos hxk]; exact (hidx1 x hxk).symm
      · rw [g3 _ (by
          simp only [outLabels, hid, List.mem_append, List.mem_map, not_or, not_exists, not_and]
          exact ⟨fun y hy hxy => hxk (by obtain rfl : y = x := by omega
                                         exact hy), fun y hy hxy => by omega⟩)]
        congr 1
        omega
    · intro τ τ0 t1 t2 t3 t4
      obtain ⟨r, hr⟩ : ∃ r : Nat → Nat, r = fun l => if l = 101 then bra ks 0 else if l = 103 then bra ks 1 else if l = 105 then bra ks 2 else
        if l = 107 then bra ks 3 else l := ⟨_, rfl⟩
      have hbra : ∀ x, bra ks x = 100 + 2 * x ∨ bra ks x = 100 + 2 * x + 1 := by intro x; unfold bra; split <;> simp
      have hrl : ∀ l, l < 100 → r l = l := by
        intro l hl
        rw [hr]; simp only
        rw [if_neg (by omega), if_neg (by omega), if_neg (by omega), if_neg (by omega)]
      have hrg : ∀ l, 100 ≤ l → 100 ≤ r l := by
        intro l hl
        rw [hr]; simp only
        split
        · rcases hbra 0 with h | h <;> omega
        · split
          · rcases hbra 1 with h | h <;> omega
          · split
            · rcases hbra 2 with h | h <;> omega
            · split
              · rcases hbra 3 with h | h <;> omega
              · exact hl
      have hF : ∀ τ : Nat → Nat, rhoP dim e s (bra ks) τ = rhoP dim e s (bra [0, 1, 2, 3]) (fun l => τ (r l)) := by
        intro τ
        have f1 : r 101 = bra ks 0 := by rw [hr]; simp
        have f2 : r 103 = bra ks 1 := by rw [hr]; simp
        have f3 : r 105 = bra ks 2 := by rw [hr]; simp
        have f4 : r 107 = bra ks 3 := by rw [hr]; simp
        have f5 : ∀ l ∈ [100, 102, 104, 106], r l = l := by
          intro l hl
          rw [hr]
          simp at hl
          rcases hl with rfl | rfl | rfl | rfl <;> simp
        simp only [List.forall_mem_cons] at f5
        have b0 : bra [0, 1, 2, 3] 0 = 101 := rfl
        have b1 : bra [0, 1, 2, 3] 1 = 103 := rfl
        have b2 : bra [0, 1, 2, 3] 2 = 105 := rfl
        have b3 : bra [0, 1, 2, 3] 3 = 107 := rfl
        simp only [rhoP, Corner.Spec.fused, b0, b1, b2, b3, f1, f2, f3, f4, f5]
        simp [hrl]
      rw [show rhoP dim e s (bra ks) = fun τ => rhoP dim e s (bra [0, 1, 2, 3]) (fun l => τ (r l)) from funext hF]
      rw [sumOver_comp dim r innerP ?_ (rhoP dim e s (bra [0, 1, 2, 3])) τ]
      · have hb4 : ∀ x < 4, x ∉ ks → x ∈ closedSites ks := by
          intro x hx hxk
          simp only [closedSites, List.mem_filter, List.mem_range]
          exact ⟨hx, by simpa using hxk⟩
        have hcls : ∀ x ∈ closedSites ks, x ∉ ks := by
          intro x hx
          simp only [closedSites, List.mem_filter] at hx
          simpa using hx.2
        have hr0 : ∀ x < 4, r (100 + 2 * x) = 100 + 2 * x := by
          intro x hx
          rw [hr]; simp only
          rw [if_neg (by omega), if_neg (by omega), if_neg (by omega), if_neg (by omega)]
        have hr1 : ∀ x < 4, r (100 + 2 * x + 1) = bra ks x := by
          intro x hx
          have : x = 0 ∨ x = 1 ∨ x = 2 ∨ x = 3 := by omega
          rw [hr]
          rcases this with rfl | rfl | rfl | rfl <;> simp
        have hket : ∀ x < 4, τ0 x < dim (100 + 2 * x) := by
          intro x hx
          by_cases hxk : x ∈ ks
          · rw [t3 x (fun hc => hcls x hc hxk), hσ0]
            simp only [if_pos hxk, hidx1 x hxk]
            exact g1 _ (hmem x hxk).1
          · exact t2 x (hb4 x hx hxk)
        have hbr : ∀ x < 4, τ (bra ks x) = (if x ∈ ks then idx.getD (ks.length + ks.idxOf x) 0 else τ0 x) := by
          intro x hx
          unfold bra
          by_cases hxk : x ∈ ks
          · rw [if_pos hxk, if_pos hxk, hidx2 x hxk]
            exact t4 _ (fun y _ => by omega)
          · rw [if_neg hxk, if_neg hxk]; exact t1 x hx
        have hbl : ∀ x < 4, τ (bra ks x) < dim (100 + 2 * x + 1) := by
          intro x hx
          rw [hbr x hx]
          by_cases hxk : x ∈ ks
          · rw [if_pos hxk, hidx2 x hxk]; exact g1 _ (hmem x hxk).2
          · rw [if_neg hxk, hpd x hx]; exact hket x hx
        have key := q4.val (fun l => τ (r l)) (by
          rw [singles_flatten]
          intro l hl
          have : (∃ x < 4, l = 100 + 2 * x) ∨ ∃ x < 4, l = 100 + 2 * x + 1 := by
            simp only [outLabels, siteSet, List.mem_append, List.mem_map, List.mem_filter, List.mem_range] at hl
            rcases hl with ⟨x, hx, rfl⟩ | ⟨x, hx, rfl⟩
            · exact Or.inl ⟨x, hx.1, rfl⟩
            · exact Or.inr ⟨x, hx.1, rfl⟩
          rcases this with ⟨x, hx, rfl⟩ | ⟨x, hx, rfl⟩
          · simp only [hr0 x hx, t1 x hx]; exact hket x hx
          · simp only [hr1 x hx]; exact hbl x hx)
        rw [singles_gidx] at key
        rw [← key]
        congr 1
        have ho : outLabels [0, 1, 2, 3] = (List.range 4).map (fun x => 100 + 2 * x) ++ (List.range 4).map (fun x => 100 + 2 * x + 1) := rfl
        rw [ho, List.map_append, List.map_map, List.map_map]
        congr 1
        · apply List.map_congr_left
          intro x hx
          rw [List.mem_range] at hx
          simp only [Function.comp_apply, hr0 x hx, t1 x hx]
        · apply List.map_congr_left
          intro x hx
          rw [List.mem_range] at hx
          simp only [Function.comp_apply, hr1 x hx, hbr x hx]
      · intro a ha l
        have ha' : a < 100 := by
          have : ∀ a ∈ innerP, a < 100 := by decide
          exact this a ha
        constructor
        · intro hra
          by_cases hl : l < 100
          · rw [hrl l hl] at hra; exact hra
          · have := hrg l (by omega); omega
        · rintro rfl; exact hrl l ha'

theorem dimsP_phys (D : Dims) (c : Coord) : (fun x => dimsP D c (100 + 2 * x)) = physP D c := by
  funext x
  unfold dimsP
  rw [if_pos (by omega)]
  congr 1
  omega

theorem sum_unravel (s : List Nat) (G : List Nat → K) : ∑ n ∈ Finset.range s.prod, G (unravel s n) = sumIdx s G := by
  induction s generalizing G with
  | nil => simp [sumIdx, unravel]
  | cons d s ih =>
    rw [List.prod_cons, sum_range_mul]
    simp only [sumIdx]
    refine Finset.sum_congr rfl (fun i _ => ?_)
    rw [← ih]
    refine Finset.sum_congr rfl (fun j hj => ?_)
    have hj' := Finset.mem_range.1 hj
    have hp : 0 < s.prod := by omega
    congr 1
    show ((i * s.prod + j) / s.prod) :: unravel s ((i * s.prod + j) % s.prod) = _
    rw [Nat.mul_comm i, Nat.mul_add_div hp, Nat.div_eq_of_lt hj', Nat.mul_add_mod, Nat.mod_eq_of_lt hj', Nat.add_zero]

theorem trace_op (s : List Nat) (T : Tensor K) : Matrix.trace (op s T) = sumIdx s (fun k => T.val (k ++ k)) := by
  rw [← sum_unravel, Finset.sum_range]
  rfl

theorem sumIdx_map (d : Nat → Nat) (ls : List Nat) (hn : ls.Nodup) (G : List Nat → K) (σ : Nat → Nat) :
    sumIdx (ls.map d) G = sumOver d ls (fun τ => G (ls.map τ)) σ := by
  have := sumIdx_groups d (singles ls) (by rw [singles_flatten]; exact hn) G σ
  simpa only [singles_gdim, singles_flatten, singles_gidx] using this

/-- What a result of the symmetrisation without `sym_pos_def` is, entry by entry. -/
theorem symRdm_entries (eigh : Tensor K → List ℝ × Tensor K) {s : List Nat} {T : Tensor K} (hT : T.shape = s ++ s) (h0 : 0 < s.prod)
    (ht : RCLike.re (Matrix.trace (op s T)) ≠ 0) :
    ∃ R, symRdm eigh false T = .ok R ∧ R.shape = s ++ s ∧ ∀ k b, InB s k → InB s b →
      R.val (k ++ b) = (1 / (2 * ((RCLike.re (Matrix.trace (op s T)) : ℝ) : K))) * (T.val (k ++ b) + star (T.val (b ++ k))) := by
  obtain ⟨R, h1, h2, -, -, h5⟩ := C30_hermitian eigh h0 hT ht
  refine ⟨R, h1, h2.trans hT, fun k b hk hb => ?_⟩
  have := congrFun (congrFun h5 ⟨ravel s k, ravel_lt hk⟩) ⟨ravel s b, ravel_lt hb⟩
  simpa [op, unravel_ravel hk, unravel_ravel hb] using this

theorem symRdm_ok (eigh : Tensor K → List ℝ × Tensor K) {s : List Nat} {T R : Tensor K} (hT : T.shape = s ++ s) (h : symRdm eigh false T = .ok R) :
    0 < s.prod ∧ RCLike.re (Matrix.trace (op s T)) ≠ 0 := by
  have hp : 0 < s.prod := by
    by_contra hc
    have h0 : s.prod = 0 := by omega
    unfold symRdm at h
    rw [hT, if_pos (by rw [List.length_append]; omega)] at h
    simp only [List.length_append, show (s.length + s.length) / 2 = s.length by omega, List.take_left, h0, if_true] at h
    cases h
  refine ⟨hp, fun h0 => ?_⟩
  obtain ⟨Y, -, -, h3, -, -, h6, -⟩ := symRdm_eq eigh false hp hT (by simp)
  rw [h6 (by rw [h3 rfl, re_trace_herm]; exact h0)] at h
  cases h

/-- The values on the open sites `v`, in increasing order of the sites, completed by `t` on the closed ones. -/
def fill (os : List Nat) (v : List Nat) (t : Nat → Nat) : List Nat :=
  (List.range 4).map (fun x => if x ∈ os then v.getD (((List.range 4).filter (· ∈ os)).idxOf x) 0 else t x)

theorem ptrace_val (d : Nat → Nat) (os : List Nat) (T : Tensor K) (k b : List Nat) (hk : k.length = ((List.range 4).filter (· ∈ os)).length) :
    (ptrace d os T).val (k ++ b) = sumOver d (closedSites os) (fun t => T.val (fill os k t ++ fill os b t)) (fun _ => 0) := by
  have hmem : ∀ x < 4, x ∈ os → ((List.range 4).filter (· ∈ os)).idxOf x < k.length := by
    intro x hx hxo
    rw [hk]
    exact List.idxOf_lt_length_iff.2 (by simp [hx, hxo])
  have e1 : ∀ x < 4, x ∈ os → (k ++ b).getD (((List.range 4).filter (· ∈ os)).idxOf x) 0 = k.getD (((List.range 4).filter (· ∈ os)).idxOf x) 0 := by
    intro x hx hxo
    rw [List.getD_eq_getElem?_getD, List.getElem?_append_left (hmem x hx hxo), ← List.getD_eq_getElem?_getD]
  have e2 : ∀ j, (k ++ b).getD (((List.range 4).filter (· ∈ os)).length + j) 0 = b.getD j 0 := by
    intro j
    rw [← hk, List.getD_eq_getElem?_getD, List.getElem?_append_right (by omega), ← List.getD_eq_getElem?_getD]
    congr 1; omega
  unfold ptrace
  simp only
  rw [sumOver_congr d _ _ (fun t => T.val (fill os k t ++ fill os b t)) _ ?_]
  · apply sumOver_local d _ (closedSites os)
    · intro σ τ h
      have : ∀ v, fill os v σ = fill os v τ := by
        intro v
        unfold fill
        apply List.map_congr_left
        intro x hx
        by_cases hxo : x ∈ os
        · rw [if_pos hxo, if_pos hxo]
        · rw [if_neg hxo, if_neg hxo]
          exact h x (by simp only [closedSites, List.mem_filter, decide_eq_true_eq]; exact ⟨hx, hxo⟩)
      rw [this, this]
    · intro l hl hl'
      exact absurd hl hl'
  · intro t _ ht
    have f1 : (List.range 4).map t = fill os k t := by
      unfold fill
      apply List.map_congr_left
      intro x hx
      by_cases hxo : x ∈ os
      · rw [if_pos hxo, ht x (by simp [hxo]), if_pos hxo, e1 x (List.mem_range.1 hx) hxo]
      · rw [if_neg hxo]
    rw [f1]
    simp only [e2]
    rfl

theorem fill_inB {d : Nat → Nat} {os : List Nat} {k : List Nat} {t : Nat → Nat} (hk : InB (((List.range 4).filter (· ∈ os)).map d) k)
    (ht : ∀ x ∈ closedSites os, t x < d x) : InB ((List.range 4).map d) (fill os k t) := by
  unfold fill
  obtain ⟨σ, g1, g2, -⟩ := exists_labels d ((List.range 4).filter (· ∈ os)) (List.Nodup.filter _ List.nodup_range) k hk t
  have e : (List.range 4).map (fun x => if x ∈ os then k.getD (((List.range 4).filter (· ∈ os)).idxOf x) 0 else t x) =
      (List.range 4).map (fun x => if x ∈ os then σ x else t x) := by
    apply List.map_congr_left
    intro x hx
    by_cases hxo : x ∈ os
    · rw [if_pos hxo, if_pos hxo, ← g2]
      exact getD_map_idxOf _ _ _ _ (by simp only [List.mem_filter, decide_eq_true_eq]; exact ⟨hx, hxo⟩)
    · rw [if_neg hxo, if_neg hxo]
  rw [e]
  apply inB_map
  intro x hx
  by_cases hxo : x ∈ os
  · rw [if_pos hxo]; exact g1 x (by simp only [List.mem_filter, decide_eq_true_eq]; exact ⟨hx, hxo⟩)
  · rw [if_neg hxo]; exact ht x (by simp only [closedSites, List.mem_filter, decide_eq_true_eq]; exact ⟨hx, hxo⟩)

theorem fill_map {os : List Nat} (τ t : Nat → Nat) (h : ∀ x, x ∉ closedSites os → t x = τ x) :
    fill os (((List.range 4).filter (· ∈ os)).map τ) t = (List.range 4).map t := by
  unfold fill
  apply List.map_congr_left
  intro x hx
  by_cases hxo : x ∈ os
  · rw [if_pos hxo, getD_map_idxOf _ _ _ _ (by simp only [List.mem_filter, decide_eq_true_eq]; exact ⟨hx, hxo⟩)]
    exact (h x (by simp [closedSites, hxo])).symm
  · rw [if_neg hxo]

/-- The partial trace has the same trace. -/
theorem trace_ptrace (d : Nat → Nat) (os : List Nat) (T : Tensor K) :
    Matrix.trace (op (((List.range 4).filter (· ∈ os)).map d) (ptrace d os T)) = Matrix.trace (op ((List.range 4).map d) T) := by
  rw [trace_op, trace_op, sumIdx_map d _ (List.Nodup.filter _ List.nodup_range) _ (fun _ => 0), sumIdx_map d _ List.nodup_range _ (fun _ => 0)]
  have hperm : (((List.range 4).filter (fun x => decide (x ∈ os))) ++ closedSites os).Perm (List.range 4) := by
    have := List.filter_append_perm (fun x => decide (x ∈ os)) (List.range 4)
    simpa [closedSites] using this
  rw [← sumOver_perm d hperm, sumOver_append]
  apply sumOver_congr
  intro τ _ _
  rw [ptrace_val d os T _ _ (by simp)]
  have hloc : ∀ σ τ' : Nat → Nat, (∀ l ∈ closedSites os, σ l = τ' l) → (∀ v, fill os v σ = fill os v τ') := by
    intro σ τ' h v
    unfold fill
    apply List.map_congr_left
    intro x hx
    by_cases hxo : x ∈ os
    · rw [if_pos hxo, if_pos hxo]
    · rw [if_neg hxo, if_neg hxo]
      exact h x (by simp only [closedSites, List.mem_filter, decide_eq_true_eq]; exact ⟨hx, hxo⟩)
  rw [sumOver_local d _ (closedSites os) _ (fun σ τ' h => by rw [hloc σ τ' h]) _ τ (fun l hl hl' => absurd hl hl')]
  apply sumOver_congr
  intro t _ ht
  rw [fill_map τ t ht]

theorem star_sumOver (d : Nat → Nat) (ls : List Nat) (F : (Nat → Nat) → K) (σ : Nat → Nat) :
    star (sumOver d ls F σ) = sumOver d ls (fun τ => star (F τ)) σ := by
  induction ls generalizing σ with
  | nil => rfl
  | cons a ls ih => simp only [sumOver, star_sum, ih]

theorem add_sumOver (d : Nat → Nat) (ls : List Nat) (F G : (Nat → Nat) → K) (σ : Nat → Nat) :
    sumOver d ls F σ + sumOver d ls G σ = sumOver d ls (fun τ => F τ + G τ) σ := by
  induction ls generalizing σ with
  | nil => rfl
  | cons a ls ih => simp only [sumOver, ← Finset.sum_add_distrib, ih]

/-! ### C33 -/

theorem rdm2x2_eq (eigh : Tensor K → List ℝ × Tensor K) (spd : Bool) {st : State K} {env : Env K} {c : Coord} {e : PlaqEnv K} {s : PlaqSites K}
    (h : plaq st env c = some (e, s)) {os : List Nat} (ho : os.Nodup ∧ ∀ x ∈ os, x < 4) {R : Tensor K} (hR : oe2x2 e s os = some R) :
    rdm2x2 eigh spd st env c os = symRdm eigh spd R := by
  unfold rdm2x2
  rw [if_pos ho, h]
  show (lift (oe2x2 e s os) >>= _) = _
  rw [hR]; rfl

/-- For every list of sites `rdm2x2` symmetrises the partial trace of one and the same network. -/
theorem C33_partial_trace (eigh : Tensor K → List ℝ × Tensor K) (spd : Bool) {D : Dims} {st : State K} {env : Env K} (hs : FitsState D st)
    (he : FitsEnv D st env) (c : Coord) :
    ∃ rho, IsPlaq D st env c rho ∧ ∀ os : List Nat, os.Nodup → (∀ x ∈ os, x < 4) → os ≠ [] →
      rdm2x2 eigh spd st env c os = symRdm eigh spd (ptrace (physP D c) os rho) := by
  obtain ⟨e, s, h1, h0, h2⟩ := plaq_ok hs he c
  obtain ⟨R4, e4, q4⟩ := oe2x2_denotes (dimsP D c) e s h2 [0, 1, 2, 3] (by decide)
  refine ⟨R4, ⟨e, s, h0, Corner.isNetwork q4⟩, fun os hn hlt _ => ?_⟩
  obtain ⟨R, eR, hS⟩ := ptrace_same (dimsP D c) e s h2 q4 os
  rw [dimsP_phys] at hS
  rw [rdm2x2_eq eigh spd h1 ⟨hn, hlt⟩ eR, symRdm_same eigh spd hS]

/-- Without `sym_pos_def` the density matrix of a subset of the sites is the partial trace of the density matrix of the plaquette. -/
theorem C33_normalised (eigh : Tensor K → List ℝ × Tensor K) {D : Dims} {st : State K} {env : Env K} (hs : FitsState D st)
    (he : FitsEnv D st env) (c : Coord) (os : List Nat) (hn : os.Nodup) (hlt : ∀ x ∈ os, x < 4) (_hne : os ≠ []) {R : Tensor K}
    (h : rdm2x2 eigh false st env c [0, 1, 2, 3] = .ok R) :
    ∃ Q, rdm2x2 eigh false st env c os = .ok Q ∧ Same Q (ptrace (physP D c) os R) := by
  obtain ⟨e, s, h1, h0, h2⟩ := plaq_ok hs he c
  obtain ⟨R4, e4, q4⟩ := oe2x2_denotes (dimsP D c) e s h2 [0, 1, 2, 3] (by decide)
  rw [rdm2x2_eq eigh false h1 (by decide) e4] at h
  obtain ⟨P, eP, hP⟩ := ptrace_same (dimsP D c) e s h2 q4 os
  rw [dimsP_phys] at hP
  rw [rdm2x2_eq eigh false h1 ⟨hn, hlt⟩ eP, symRdm_same eigh false hP]
  have h4 : R4.shape = (List.range 4).map (physP D c) ++ (List.range 4).map (physP D c) := by rw [q4.shape, singles_gdim]; rfl
  obtain ⟨p0, p1⟩ := symRdm_ok eigh h4 h
  obtain ⟨R', r1, r2, r3⟩ := symRdm_entries eigh h4 p0 p1
  obtain rfl : R = R' := by rw [h] at r1; injection r1
  obtain ⟨keep, hkeep⟩ : ∃ keep, keep = (List.range 4).filter (fun x => decide (x ∈ os)) := ⟨_, rfl⟩
  have hsh : (ptrace (physP D c) os R4).shape = keep.map (physP D c) ++ keep.map (physP D c) := by rw [hkeep]; rfl
  have hpos : 0 < (keep.map (physP D c)).prod := by
    rw [List.prod_pos_iff_forall_pos_nat]
    intro n hm
    obtain ⟨x, hx, rfl⟩ := List.mem_map.1 hm
    rw [List.prod_pos_iff_forall_pos_nat] at p0
    exact p0 _ (List.mem_map_of_mem (by rw [hkeep] at hx; exact (List.mem_filter.1 hx).1))
  have htr : Matrix.trace (op (keep.map (physP D c)) (ptrace (physP D c) os R4)) = Matrix.trace (op ((List.range 4).map (physP D c)) R4) := by
    rw [hkeep]; exact trace_ptrace _ _ _
  obtain ⟨Q, s1, s2, s3⟩ := symRdm_entries eigh hsh hpos (by rw [htr]; exact p1)
  refine ⟨Q, s1, by rw [s2, hkeep]; rfl, fun idx hidx => ?_⟩
  rw [s2] at hidx
  obtain ⟨k, b, hk, hb, rfl⟩ : ∃ k b, InB (keep.map (physP D c)) k ∧ InB (keep.map (physP D c)) b ∧ idx = k ++ b := by
    refine ⟨idx.take (keep.map (physP D c)).length, idx.drop (keep.map (physP D c)).length, ?_, ?_, (List.take_append_drop _ _).symm⟩
    · have := List.forall₂_take (keep.map (physP D c)).length hidx
      rwa [List.take_left] at this
    · have := List.forall₂_drop (keep.map (physP D c)).length hidx
      rwa [List.drop_left] at this
  have lk : k.length = keep.length := by have := hk.length_eq; simpa using this
  have lb : b.length = keep.length := by have := hb.length_eq; simpa using this
  rw [s3 k b hk hb, htr, ptrace_val _ _ _ _ _ (by rw [lk, hkeep]), ptrace_val _ _ _ _ _ (by rw [lb, hkeep]), ptrace_val _ _ _ _ _ (by rw [lk, hkeep]),
    star_sumOver, add_sumOver, mul_sumOver]
  apply sumOver_congr
  intro t ht _
  rw [hkeep] at hk hb
  rw [r3 _ _ (fill_inB hk ht) (fill_inB hb ht)]

/-! ### C67 -/

theorem vts_vts {st : State K} (ht : Tiling st) (c : Coord) : st.vts (st.vts c) = st.vts c := ht.fix _ (ht.mem c)

/-- `rdm2x2_NNN_11` is the density matrix of the upper left and the lower right site. -/
theorem C67_diagonal (eigh : Tensor K → List ℝ × Tensor K) (spd : Bool) {D : Dims} {st : State K} {env : Env K} (ht : Tiling st) (hs : FitsState D st)
    (he : FitsEnv D st env) (c : Coord) : rdm11 eigh spd st env c = rdm2x2 eigh spd st env c [0, 3] := by
  obtain ⟨e, s, h1, h0, h2⟩ := plaq_ok hs he c
  obtain ⟨R, e1, q1⟩ := corners11 (dimsP D c) e s h2
  obtain ⟨R', e2, q2⟩ := oe2x2_denotes (dimsP D c) e s h2 [0, 3] (by decide)
  have er : (c.1 + 1, c.2) = rt c := rfl
  have ed : (c.1, c.2 + 1) = dn c := rfl
  have ex : (c.1 + 1, c.2 + 1) = rt (dn c) := rfl
  have hraw : raw11 st env c = some R := by
    rw [← e1]
    simp only [raw11, cornerLU, cornerRU, cornerRD, cornerLD, State.site, vts_vts ht, er, ed, ex, h0.C1, h0.C2, h0.C3, h0.C4, h0.T1, h0.T4, h0.T1x,
      h0.T2x, h0.T2xy, h0.T3xy, h0.T3y, h0.T4y, h0.a, h0.ax, h0.ay, h0.axy]
    rfl
  rw [rdm2x2_eq eigh spd h1 (by decide) e2]
  unfold rdm11
  rw [hraw, ← symRdm_same eigh spd (q1.same q2 (by decide) (List.Perm.refl _) (fun _ => rfl))]
  rfl

/-- The network contracted by the labelled implementation for the sites on the anti-diagonal. -/
theorem oe1n1_raw {D : Dims} {st : State K} {env : Env K} (hs : FitsState D st) (he : FitsEnv D st env) (c : Coord) :
    ∃ e s rho Y, plaq st env (c.1, c.2 - 1) = some (e, s) ∧
      (do let t ← e.split s; einsum (t.operands s ([4, 4, 22, 25, 11, 14, 30, 30].getD · 0)) [11, 22, 14, 25]) = some Y ∧ IsPlaq D st env (c.1, c.2 - 1) rho ∧
      Y.shape = [D.p c, D.p (c.1 + 1, c.2 - 1), D.p c, D.p (c.1 + 1, c.2 - 1)] ∧
      ∀ x y x' y', x < D.p c → y < D.p (c.1 + 1, c.2 - 1) → x' < D.p c → y' < D.p (c.1 + 1, c.2 - 1) →
        Y.val [x, y, x', y'] = (ptrace (physP D (c.1, c.2 - 1)) [1, 2] rho).val [y, x, y', x'] := by
  obtain ⟨b, hb⟩ : ∃ b : Coord, b = (c.1, c.2 - 1) := ⟨_, rfl⟩
  have hdn : dn b = c := by rw [hb]; simp [dn]
  have hrt : rt b = (c.1 + 1, c.2 - 1) := by rw [hb]; rfl
  have hrd : rt (dn b) = (c.1 + 1, c.2) := by rw [hdn]; rfl
  obtain ⟨e, s, h1, h0, h2⟩ := plaq_ok hs he b
  obtain ⟨R', e2, q2⟩ := oe1n1_denotes (dimsP D b) e s h2
  obtain ⟨R4, e4, q4⟩ := oe2x2_denotes (dimsP D b) e s h2 [0, 1, 2, 3] (by decide)
  obtain ⟨X, eX, hX⟩ := ptrace_same (dimsP D b) e s h2 q4 [1, 2]
  obtain ⟨X', eX', q5⟩ := oe2x2_denotes (dimsP D b) e s h2 [1, 2] (by decide)
  obtain rfl : X = X' := by rw [eX] at eX'; injection eX'
  rw [dimsP_phys] at hX
  refine ⟨e, s, R4, R', by rw [← hb]; exact h1, e2, ⟨e, s, ?_, ?_⟩, ?_, ?_⟩
  · rw [← hb]; exact h0
  · rw [← hb]; exact Corner.isNetwork q4
  · rw [q2.shape]
    simp only [List.map_cons, List.map_nil, gdim_single]
    rw [← hrt, ← hdn, hdn]
    show [physP D b 2, physP D b 1, physP D b 2, physP D b 1] = _
    simp only [physP, hdn]
    rfl
  · intro x y x' y' hx hy hx' hy'
    rw [← hb]
    have d2 : dimsP D b 104 = D.p c ∧ dimsP D b 105 = D.p c := by
      show physP D b 2 = _ ∧ physP D b 2 = _
      simp only [physP, hdn]; exact ⟨rfl, rfl⟩
    have d1 : dimsP D b 102 = D.p (c.1 + 1, c.2 - 1) ∧ dimsP D b 103 = D.p (c.1 + 1, c.2 - 1) := by
      show physP D b 1 = _ ∧ physP D b 1 = _
      simp only [physP, hrt]; exact ⟨rfl, rfl⟩
    obtain ⟨σ, hσ⟩ : ∃ σ : Nat → Nat, σ = fun l => if l = 104 then x else if l = 102 then y else if l = 105 then x' else y' := ⟨_, rfl⟩
    have s1 : σ 104 = x := by rw [hσ]; rfl
    have s2 : σ 102 = y := by rw [hσ]; rfl
    have s3 : σ 105 = x' := by rw [hσ]; rfl
    have s4 : σ 103 = y' := by rw [hσ]; rfl
    have hin : ∀ l ∈ [104, 102, 105, 103], σ l < dimsP D b l := by
      intro l hl
      simp only [List.mem_cons, List.not_mem_nil, or_false] at hl
      rcases hl with rfl | rfl | rfl | rfl
      · rw [s1, d2.1]; exact hx
      · rw [s2, d1.1]; exact hy
      · rw [s3, d2.2]; exact hx'
      · rw [s4, d1.2]; exact hy'
    have v1 := q2.val σ hin
    have v2 := q5.val σ (by
      intro l hl
      rw [singles_flatten] at hl
      apply hin
      have : ∀ l ∈ outLabels [1, 2], l ∈ [104, 102, 105, 103] := by decide
      exact this l hl)
    simp only [List.map_cons, List.map_nil, gidx_single, s1, s2, s3, s4] at v1
    have v3 : X.val [y, x, y', x'] = sumOver (dimsP D b) ((closedSites [1, 2]).map (fun x => 100 + 2 * x) ++ innerP) (rhoP (dimsP D b) e s (bra [1, 2])) σ := by
      rw [← v2, singles_gidx]
      show _ = X.val [σ 102, σ 104, σ 103, σ 105]
      rw [s1, s2, s3, s4]
    rw [v1]
    have hXin : InB X.shape [y, x, y', x'] := by
      rw [q5.shape, singles_gdim]
      show InB [dimsP D b 102, dimsP D b 104, dimsP D b 103, dimsP D b 105] _
      rw [d1.1, d1.2, d2.1, d2.2]
      exact .cons hy (.cons hx (.cons hy' (.cons hx' .nil)))
    rw [← hX.2 _ hXin, v3]
    rfl

/-- Both routes of `rdm2x2_NNN_1n1` agree, and give the density matrix of the lower left site `c` and the upper right site of the plaquette whose
lower left vertex is `c`, in this order. -/
theorem C67_antidiagonal (eigh : Tensor K → List ℝ × Tensor K) (spd : Bool) {D : Dims} {st : State K} {env : Env K} (ht : Tiling st) (hs : FitsState D st)
    (he : FitsEnv D st env) (c : Coord) :
    rdm1n1 eigh spd st env c = rdm1n1Legacy eigh spd st env c ∧
    ∃ rho Y, IsPlaq D st env (c.1, c.2 - 1) rho ∧ rdm1n1 eigh spd st env c = symRdm eigh spd Y ∧
      Y.shape = [D.p c, D.p (c.1 + 1, c.2 - 1), D.p c, D.p (c.1 + 1, c.2 - 1)] ∧
      ∀ x y x' y', x < D.p c → y < D.p (c.1 + 1, c.2 - 1) → x' < D.p c → y' < D.p (c.1 + 1, c.2 - 1) →
        Y.val [x, y, x', y'] = (ptrace (physP D (c.1, c.2 - 1)) [1, 2] rho).val [y, x, y', x'] := by
  obtain ⟨e', s', rho, Y, h1', e2', hp, hsh, hv⟩ := oe1n1_raw hs he c
  obtain ⟨b, hb⟩ : ∃ b : Coord, b = (c.1, c.2 - 1) := ⟨_, rfl⟩
  have hdn : dn b = c := by rw [hb]; simp [dn]
  have hrt : rt b = (c.1 + 1, c.2 - 1) := by rw [hb]; rfl
  have hrd : rt (dn b) = (c.1 + 1, c.2) := by rw [hdn]; rfl
  obtain ⟨e, s, h1, h0, h2⟩ := plaq_ok hs he b
  obtain ⟨R, e1, q1⟩ := corners1n1 (dimsP D b) e s h2
  obtain ⟨R', e2, q2⟩ := oe1n1_denotes (dimsP D b) e s h2
  obtain ⟨rfl, rfl⟩ : e = e' ∧ s = s' := by rw [← hb, h1] at h1'; injection h1' with h; injection h with g g'; exact ⟨g, g'⟩
  obtain rfl : R' = Y := Option.some.inj (e2.symm.trans e2')
  have hraw : raw1n1 st env c = some R := by
    rw [← e1]
    have g2 := h0.C2; have g3 := h0.C3; have g4 := h0.C4; have t1 := h0.T1x; have t2 := h0.T2x; have t3 := h0.T2xy; have t4 := h0.T3xy; have t5 := h0.T3y
    have t6 := h0.T4y; have a2 := h0.ax; have a3 := h0.ay; have a4 := h0.axy
    rw [hrd] at g3 t3 t4 a4
    rw [hrt] at g2 t1 t2 a2
    rw [hdn] at g4 t5 t6 a3
    simp only [raw1n1, cornerLU, cornerRU, cornerRD, cornerLD, State.site, vts_vts ht, ← hb, h0.C1, g2, g3, g4, h0.T1, h0.T4, t1, t2, t3, t4, t5, t6, h0.a, a2, a3, a4]
    rfl
  have hl : rdm1n1Legacy eigh spd st env c = symRdm eigh spd R := by
    unfold rdm1n1Legacy; rw [hraw]; rfl
  have ho : rdm1n1 eigh spd st env c = symRdm eigh spd R' := by
    unfold rdm1n1
    rw [← hb, h1]
    show (lift (do let t ← e.split s; einsum (t.operands s ([4, 4, 22, 25, 11, 14, 30, 30].getD · 0)) [11, 22, 14, 25]) >>= _) = _
    rw [e2]; rfl
  exact ⟨by rw [hl, ho, symRdm_same eigh spd (q1.same q2 (by decide) (List.Perm.refl _) (fun _ => rfl))], rho, R', hp, ho, hsh, hv⟩

/-- `rdm2x2_legacy` gives the same as `rdm2x2` with all sites open. -/
theorem C67_legacy (eigh : Tensor K → List ℝ × Tensor K) (spd : Bool) {D : Dims} {st : State K} {env : Env K} (hs : FitsState D st)
    (he : FitsEnv D st env) (c : Coord) : rdm2x2Legacy eigh spd st env c = rdm2x2 eigh spd st env c [0, 1, 2, 3] := by
  obtain ⟨e, s, h1, h0, h2⟩ := plaq_ok hs he c
  obtain ⟨R, e1, q1⟩ := legacy2x2_denotes (dimsP D c) e s h2
  obtain ⟨R', e2, q2⟩ := oe2x2_denotes (dimsP D c) e s h2 [0, 1, 2, 3] (by decide)
  rw [rdm2x2_eq eigh spd h1 (by decide) e2]
  unfold rdm2x2Legacy
  rw [h1]
  show (lift (legacy2x2 e s) >>= _) = _
  rw [e1, ← symRdm_same eigh spd (q1.same q2 (by decide) (List.Perm.refl _) (fun _ => rfl))]
  rfl

/-! ### C68 -/

/-- `eval_mpo_rdm2x2_oe` is the trace of the un-normalised density matrix with the operator of the MPO. -/
theorem C68_mpo {D : Dims} {st : State K} {env : Env K} (hs : FitsState D st) (he : FitsEnv D st env) (c : Coord) (B : Nat → Nat) (m0 m1 m2 m3 : Tensor K)
    (h0 : m0.shape = [B 0, physP D c 0, B 1, physP D c 0]) (h1 : m1.shape = [B 1, physP D c 1, B 2, physP D c 1])
    (h2 : m2.shape = [B 2, physP D c 2, B 3, physP D c 2]) (h3 : m3.shape = [B 3, physP D c 3, B 4, physP D c 3]) :
    ∃ rho r, IsPlaq D st env c rho ∧ evalMpo2x2 st env c [m0, m1, m2, m3] = some r ∧ r.shape = [] ∧
      r.val [] = sumIdx ((List.range 4).map (physP D c)) (fun k => sumIdx ((List.range 4).map (physP D c)) (fun b =>
        rho.val (k ++ b) * mpoEntry B m0 m1 m2 m3 k b)) := by
  obtain ⟨e, s, p1, p0, p2⟩ := plaq_ok hs he c
  obtain ⟨R4, e4, q4⟩ := oe2x2_denotes (dimsP D c) e s p2 [0, 1, 2, 3] (by decide)
  obtain ⟨dim, hdim⟩ : ∃ dim : Nat → Nat, dim = fun l => if l = 300 then B 0 else if l = 200 then B 1 else if l = 201 then B 2 else if l = 202 then B 3 else
    if l = 301 then B 4 else dimsP D c l := ⟨_, rfl⟩
  have hlow : ∀ l, l < 200 → dim l = dimsP D c l := by
    intro l hl
    rw [hdim]; simp only
    rw [if_neg (by omega), if_neg (by omega), if_neg (by omega), if_neg (by omega), if_neg (by omega)]
  have p3 : FitsP dim e s := by
    rw [hdim]
    constructor
    exacts [p2.C1, p2.T1, p2.T4, p2.T4y, p2.C4, p2.T3y, p2.T1x, p2.C2, p2.T2x, p2.T2xy, p2.C3, p2.T3xy, p2.a, p2.a0, p2.a1, p2.a2, p2.a3, p2.a4,
      p2.ax, p2.ax0, p2.ax1, p2.ax2, p2.ax3, p2.ax4, p2.ay, p2.ay0, p2.ay1, p2.ay2, p2.ay3, p2.ay4, p2.axy, p2.axy0, p2.axy1, p2.axy2, p2.axy3, p2.axy4]
  obtain ⟨R4', e4', q⟩ := oe2x2_denotes dim e s p3 [0, 1, 2, 3] (by decide)
  obtain rfl : R4 = R4' := by rw [e4] at e4'; injection e4'
  obtain ⟨r, er, qr⟩ := mpo_denotes dim e s p3 m0 m1 m2 m3 (by rw [h0, hdim]; rfl) (by rw [h1, hdim]; rfl) (by rw [h2, hdim]; rfl) (by rw [h3, hdim]; rfl)
  refine ⟨R4, r, ⟨e, s, p0, Corner.isNetwork q4⟩, ?_, by rw [qr.shape]; rfl, ?_⟩
  · unfold evalMpo2x2
    simp only [p1]
    rw [← er]
    rfl
  · have v := qr.val (fun _ => 0) (by simp)
    simp only [List.map_nil] at v
    have hk : (List.range 4).map (physP D c) = [100, 102, 104, 106].map dim := by rw [hdim]; rfl
    have hb : (List.range 4).map (physP D c) = [101, 103, 105, 107].map dim := by rw [hdim]; rfl
    have hl : [100, 102, 104, 106, 101, 103, 105, 107] ++ [300, 200, 201, 202, 301] ++ innerP =
        [100, 102, 104, 106] ++ ([101, 103, 105, 107] ++ ([300, 200, 201, 202, 301] ++ innerP)) := rfl
    rw [v, hl, sumOver_append]
    rw [show sumIdx ((List.range 4).map (physP D c)) (fun k => sumIdx ((List.range 4).map (physP D c)) (fun b =>
        R4.val (k ++ b) * mpoEntry B m0 m1 m2 m3 k b)) = sumIdx ([100, 102, 104, 106].map dim) (fun k => sumIdx ([101, 103, 105, 107].map dim) (fun b =>
        R4.val (k ++ b) * mpoEntry B m0 m1 m2 m3 k b)) by rw [← hk, ← hb]]
    rw [sumIdx_map dim _ (by decide) _ (fun _ => 0)]
    apply sumOver_congr
    intro τ hτ _
    rw [sumIdx_map dim _ (by decide) _ τ, sumOver_append]
    apply sumOver_congr
    intro τ' hτ' hτ2
    have hkk : [100, 102, 104, 106].map τ = [100, 102, 104, 106].map τ' := by
      apply List.map_congr_left
      intro l hl
      exact (hτ2 l (by
        have : ∀ l ∈ [100, 102, 104, 106], l ∉ [101, 103, 105, 107] := by decide
        exact this l hl)).symm
    rw [hkk]
    have hv := q.val τ' (by
      rw [singles_flatten]
      intro l hl
      have : l ∈ [100, 102, 104, 106] ∨ l ∈ [101, 103, 105, 107] := by
        have : ∀ l ∈ outLabels [0, 1, 2, 3], l ∈ [100, 102, 104, 106] ∨ l ∈ [101, 103, 105, 107] := by decide
        exact this l hl
      rcases this with h | h
      · rw [hτ2 l (by
          have : ∀ l ∈ [100, 102, 104, 106], l ∉ [101, 103, 105, 107] := by decide
          exact this l h)]
        exact hτ l h
      · exact hτ' l h)
    rw [singles_gidx] at hv
    have hout : (outLabels [0, 1, 2, 3]).map τ' = [100, 102, 104, 106].map τ' ++ [101, 103, 105, 107].map τ' := rfl
    rw [hout, show (closedSites [0, 1, 2, 3]).map (fun x => 100 + 2 * x) ++ innerP = innerP from rfl] at hv
    rw [hv]
    have hM : mpoEntry B m0 m1 m2 m3 ([100, 102, 104, 106].map τ') ([101, 103, 105, 107].map τ') =
        sumOver dim [300, 200, 201, 202, 301] (fun σ => m0.val [σ 300, σ 100, σ 200, σ 101] * m1.val [σ 200, σ 102, σ 201, σ 103] *
          m2.val [σ 201, σ 104, σ 202, σ 105] * m3.val [σ 202, σ 106, σ 301, σ 107]) τ' := by
      have e1 : dim 300 = B 0 := by rw [hdim]; rfl
      have e2 : dim 200 = B 1 := by rw [hdim]; rfl
      have e3 : dim 201 = B 2 := by rw [hdim]; rfl
      have e4 : dim 202 = B 3 := by rw [hdim]; rfl
      have e5 : dim 301 = B 4 := by rw [hdim]; rfl
      simp [mpoEntry, sumOver, e1, e2, e3, e4, e5, Function.update_apply]
    rw [hM, mul_comm, sumOver_mul_sumOver dim [300, 200, 201, 202, 301] innerP ([100, 102, 104, 106, 101, 103, 105, 107] ++ [300, 200, 201, 202, 301]) _ _ _ τ' ?_ q.loc (by decide) (by decide)]
    · apply sumOver_congr
      intro σ _ _
      exact mul_comm _ _
    · intro σ σ' h
      simp only [List.cons_append, List.nil_append, List.forall_mem_cons] at h
      simp only [h]

/-! ### Hypotheses are met -/

theorem sumOver_one_pos (dim : Nat → Nat) (ls : List Nat) (h : ∀ l ∈ ls, 0 < dim l) (σ : Nat → Nat) : 0 < sumOver dim ls (fun _ => (1 : ℝ)) σ := by
  induction ls generalizing σ with
  | nil => exact one_pos
  | cons a ls ih =>
    simp only [sumOver]
    apply Finset.sum_pos (fun i _ => ih (fun l hl => h l (by simp [hl])) _)
    exact ⟨0, Finset.mem_range.2 (h a (by simp))⟩

/-- The density matrix of a plaquette with all tensors one exists. -/
theorem exPlaq (eigh : Tensor ℝ → List ℝ × Tensor ℝ) (c : Coord) : ∃ R, rdm2x2 eigh false (exState (exDims 2 3)) (cellEnv (exDims 2 3)) c [0, 1, 2, 3] = .ok R := by
  have hs : FitsState (exDims 2 3) (exState (exDims 2 3)) := exFitsState (by decide) (by decide)
  obtain ⟨e, s, h1, h0, h2⟩ := plaq_ok hs cellFits c
  obtain ⟨R4, e4, q4⟩ := oe2x2_denotes _ e s h2 [0, 1, 2, 3] (by decide)
  rw [rdm2x2_eq eigh false h1 (by decide) e4]
  have hC : ∀ k T, (cellEnv (exDims 2 3)).C k = some T → T.val = fun _ => 1 := by
    intro k T h
    simp only [cellEnv, exEnv] at h
    split at h
    · injection h with h; rw [← h]; rfl
    · cases h
  have hT : ∀ k T, (cellEnv (exDims 2 3)).T k = some T → T.val = fun _ => 1 := by
    intro k T h
    simp only [cellEnv, exEnv] at h
    split at h
    · injection h with h; rw [← h]; rfl
    · cases h
  have hS : ∀ k T, (exState (exDims 2 3)).sites k = some T → T.val = fun _ => 1 := by
    intro k T h
    simp only [exState] at h
    injection h with h; rw [← h]; rfl
  have hone : ∀ q, rhoP (dimsP (exDims 2 3) c) e s q = fun _ => 1 := by
    intro q
    funext σ
    simp [rhoP, hC _ _ h0.C1, hC _ _ h0.C2, hC _ _ h0.C3, hC _ _ h0.C4, hT _ _ h0.T1, hT _ _ h0.T4, hT _ _ h0.T1x, hT _ _ h0.T2x, hT _ _ h0.T2xy,
      hT _ _ h0.T3xy, hT _ _ h0.T3y, hT _ _ h0.T4y, hS _ _ h0.a, hS _ _ h0.ax, hS _ _ h0.ay, hS _ _ h0.axy]
  have hpos : ∀ a b : Nat, 0 < a → 0 < b → ∀ c, 0 < ab a b c := by
    intro a b ha hb c; unfold ab; split <;> assumption
  have h4 : R4.shape = (List.range 4).map (physP (exDims 2 3) c) ++ (List.range 4).map (physP (exDims 2 3) c) := by rw [q4.shape, singles_gdim]; rfl
  have hp : ∀ x ∈ List.range 4, 0 < physP (exDims 2 3) c x := by
    intro x hx
    have : x = 0 ∨ x = 1 ∨ x = 2 ∨ x = 3 := by simp at hx; omega
    rcases this with rfl | rfl | rfl | rfl <;> exact hpos 2 2 (by decide) (by decide) _
  have hin : ∀ l ∈ innerP, 0 < dimsP (exDims 2 3) c l := by
    intro l hl
    fin_cases hl <;> exact hpos _ _ (by decide) (by decide) _
  have htr : 0 < Matrix.trace (op ((List.range 4).map (physP (exDims 2 3) c)) R4) := by
    rw [trace_op, sumIdx_map _ _ List.nodup_range _ (fun _ => 0)]
    rw [sumOver_congr _ _ _ (fun _ => sumOver (dimsP (exDims 2 3) c) innerP (fun _ => (1 : ℝ)) (fun _ => 0))]
    · rw [← one_mul (sumOver (dimsP (exDims 2 3) c) innerP (fun _ => (1 : ℝ)) (fun _ => 0)), ← sumOver_mul]
      exact mul_pos (sumOver_one_pos _ _ hp _) (sumOver_one_pos _ _ hin _)
    · intro τ hτ _
      have hb : ∀ l ∈ outLabels [0, 1, 2, 3], τ ((l - 100) / 2) < dimsP (exDims 2 3) c l := by
        intro l hl
        fin_cases hl
        exacts [hτ 0 (by decide), hτ 1 (by decide), hτ 2 (by decide), hτ 3 (by decide), hτ 0 (by decide), hτ 1 (by decide), hτ 2 (by decide), hτ 3 (by decide)]
      have := q4.val (fun l => τ ((l - 100) / 2)) (by rw [singles_flatten]; exact hb)
      rw [singles_gidx, hone] at this
      have hl : (List.range 4).map τ ++ (List.range 4).map τ = (outLabels [0, 1, 2, 3]).map (fun l => τ ((l - 100) / 2)) := rfl
      rw [hl, this]
      exact sumOver_local _ _ [] _ (fun _ _ _ => rfl) _ _ (by simp)
  obtain ⟨R, hR, -⟩ := symRdm_entries eigh h4 (by
    rw [List.prod_pos_iff_forall_pos_nat]
    intro n hn
    obtain ⟨x, hx, rfl⟩ := List.mem_map.1 hn
    exact hp x hx) (by simpa using htr.ne')
  exact ⟨R, hR⟩

example (eigh : Tensor ℝ → List ℝ × Tensor ℝ) := C33_partial_trace eigh true (exFitsState (l := 2) (l' := 3) (by decide) (by decide)) cellFits (-3, 2)
example (eigh : Tensor ℝ → List ℝ × Tensor ℝ) : ∃ R Q, rdm2x2 eigh false (exState (exDims 2 3)) (cellEnv (exDims 2 3)) (1, 0) [3, 1] = .ok Q ∧
    Same Q (ptrace (physP (exDims 2 3) (1, 0)) [3, 1] R) := by
  obtain ⟨R, hR⟩ := exPlaq eigh (1, 0)
  obtain ⟨Q, h⟩ := C33_normalised eigh (exFitsState (l := 2) (l' := 3) (by decide) (by decide)) cellFits (1, 0) [3, 1] (by decide) (by decide) (by decide) hR
  exact ⟨R, Q, h⟩
example (eigh : Tensor ℝ → List ℝ × Tensor ℝ) := C67_diagonal eigh true (exTiling (exDims 2 3)) (exFitsState (by decide) (by decide)) cellFits (1, 0)
example (eigh : Tensor ℝ → List ℝ × Tensor ℝ) := C67_antidiagonal eigh true (exTiling (exDims 2 3)) (exFitsState (by decide) (by decide)) cellFits (1, 0)
example (eigh : Tensor ℝ → List ℝ × Tensor ℝ) := C67_legacy eigh true (exFitsState (l := 2) (l' := 3) (by decide) (by decide)) cellFits (0, 0)
example := C68_mpo (exFitsState (l := 2) (l' := 3) (by decide) (by decide)) cellFits (0, 0) (fun x => if x = 2 then 3 else 1) (exOnes [1, 2, 1, 2])
  (exOnes [1, 2, 3, 2]) (exOnes [3, 2, 1, 2]) (exOnes [1, 2, 1, 2]) rfl rfl rfl rfl

end Verif.Rdm
