import Verif.Rdm.Six23
import Verif.Rdm.Six32
import Verif.Rdm.PlaqProps
/-
Property C126: the density matrices on patches of six sites.
-/
namespace Verif.Rdm
open Tensor Ctm Ctm.Spec
set_option linter.unusedSimpArgs false
set_option linter.unusedSectionVars false
variable {K : Type} [RCLike K]
open Spec

/-! ### Helpers -/

theorem siteSet6_sub (os : List Nat) : siteSet6 os ∈ [0, 1, 2, 3, 4, 5].sublists := by
  rw [List.mem_sublists]
  exact List.filter_sublist (l := List.range 6)

theorem mem_siteSet6 {os : List Nat} {x : Nat} (hx : x < 6) : x ∈ siteSet6 os ↔ x ∈ os := by simp [siteSet6, hx]

theorem siteSet6_idem (os : List Nat) : siteSet6 (siteSet6 os) = siteSet6 os := by
  unfold siteSet6
  apply List.filter_congr
  intro x hx
  have hx' : x < 6 := List.mem_range.1 hx
  simp [hx']

theorem physLabels6_siteSet (os : List Nat) : physLabels6 (siteSet6 os) = physLabels6 os := by
  unfold physLabels6
  apply List.flatMap_congr
  intro x hx
  simp only [mem_siteSet6 (List.mem_range.1 hx)]

theorem outLabels6_siteSet (os sub : List Nat) : outLabels6 (siteSet6 os) sub = outLabels6 os sub := by
  simp only [outLabels6, siteSet6_idem]

theorem bra_siteSet (os : List Nat) {x : Nat} (hx : x < 6) : bra (siteSet6 os) x = bra os x := by
  simp only [bra, mem_siteSet6 hx]

theorem closed6_siteSet (os : List Nat) : closed6 (siteSet6 os) = closed6 os := by
  unfold closed6
  apply List.filter_congr
  intro x hx
  simp only [mem_siteSet6 (List.mem_range.1 hx)]

theorem out_open6 (os : List Nat) : singles (outLabels6 (siteSet6 os) [0, 1, 2, 3, 4, 5]) =
    (open6 os).map (fun x => [100 + 2 * x]) ++ (open6 os).map (fun x => [100 + 2 * x + 1]) := by
  have h : ∀ ks ∈ [0, 1, 2, 3, 4, 5].sublists, singles (outLabels6 ks [0, 1, 2, 3, 4, 5]) =
      (open6 ks).map (fun x => [100 + 2 * x]) ++ (open6 ks).map (fun x => [100 + 2 * x + 1]) := by decide +kernel
  rw [h _ (siteSet6_sub os)]
  have : open6 (siteSet6 os) = open6 os := siteSet6_idem os
  rw [this]

theorem fetch23_ok {D : Dims} {st : State K} {env : Env K} (hs : FitsState D st) (he : FitsEnv D st env) (c : Coord) :
    ∃ e s, fetch23 st env c = some (e, s) ∧ Around23 st env c e s ∧ Fits23 (dims23 D c) e s := by
  obtain ⟨C1, h1, s1⟩ := he.lu (c)
  obtain ⟨C2, h2, s2⟩ := he.ru (rt (rt c))
  obtain ⟨C3, h3, s3⟩ := he.rd (rt (rt (dn c)))
  obtain ⟨C4, h4, s4⟩ := he.ld (dn c)
  obtain ⟨T1, h5, s5⟩ := he.tu (c)
  obtain ⟨T4, h6, s6⟩ := he.tl (c)
  obtain ⟨T3y, h7, s7⟩ := he.td (dn c)
  obtain ⟨T4y, h8, s8⟩ := he.tl (dn c)
  obtain ⟨T3xy, h9, s9⟩ := he.td (rt (dn c))
  obtain ⟨T2zy, h10, s10⟩ := he.tr (rt (rt (dn c)))
  obtain ⟨T3zy, h11, s11⟩ := he.td (rt (rt (dn c)))
  obtain ⟨T1z, h12, s12⟩ := he.tu (rt (rt c))
  obtain ⟨T2z, h13, s13⟩ := he.tr (rt (rt c))
  obtain ⟨T1x, h14, s14⟩ := he.tu (rt c)
  obtain ⟨a, h15, s15⟩ := hs.site (c)
  obtain ⟨ax, h16, s16⟩ := hs.site (rt c)
  obtain ⟨az, h17, s17⟩ := hs.site (rt (rt c))
  obtain ⟨ay, h18, s18⟩ := hs.site (dn c)
  obtain ⟨axy, h19, s19⟩ := hs.site (rt (dn c))
  obtain ⟨azy, h20, s20⟩ := hs.site (rt (rt (dn c)))
  have rax : (c.1 + 1, c.2) = rt c := rfl
  have raz : (c.1 + 2, c.2) = rt (rt c) := by simp [rt, dn, add_assoc]
  have ray : (c.1, c.2 + 1) = dn c := rfl
  have raxy : (c.1 + 1, c.2 + 1) = rt (dn c) := rfl
  have razy : (c.1 + 2, c.2 + 1) = rt (rt (dn c)) := by simp [rt, dn, add_assoc]
  refine ⟨⟨C1, C2, C3, C4, T1, T4, T3y, T4y, T3xy, T2zy, T3zy, T1z, T2z, T1x⟩, ⟨a, ax, az, ay, axy, azy⟩,
    by simp only [fetch23, rax, raz, ray, raxy, razy, h1, h2, h3, h4, h5, h6, h7, h8, h9, h10, h11, h12, h13, h14, h15, h16, h17, h18, h19, h20, Option.bind_eq_bind, Option.bind_some]; rfl,
    ⟨h1, h2, h3, h4, h5, h6, h7, h8, h9, h10, h11, h12, h13, h14, h15, h16, h17, h18, h19, h20⟩, ?_⟩
  constructor <;> first | rfl | (simp only [*, dims23]; rfl)

theorem raw23 {D : Dims} {st : State K} {env : Env K} (hs : FitsState D st) (he : FitsEnv D st env) (c : Coord) (os : List Nat) :
    ∃ e s R, fetch23 st env c = some (e, s) ∧ oe23 e s os = some R ∧ IsPatch23 D st env c os R ∧ ∃ R', semi23 e s os = some R' ∧ Same R R' := by
  obtain ⟨e, s, h1, h0, h2⟩ := fetch23_ok hs he c
  obtain ⟨R, e1, q1⟩ := oe23_denotes (dims23 D c) e s h2 (siteSet6 os) (siteSet6_sub os)
  obtain ⟨R', e2, q2⟩ := semi23_denotes (dims23 D c) e s h2 (siteSet6 os) (siteSet6_sub os)
  refine ⟨e, s, R, h1, ?_, ⟨e, s, h0, ?_⟩, R', ?_, ?_⟩
  · rw [← e1]; unfold oe23; simp only [physLabels6_siteSet, outLabels6_siteSet]
  · have := Corner.isNetwork q1
    rw [out_open6, closed6_siteSet] at this
    have hr : rho23 (dims23 D c) e s (bra (siteSet6 os)) = rho23 (dims23 D c) e s (bra os) := by
      funext σ; simp only [rho23, bra_siteSet os (by decide : 0 < 6), bra_siteSet os (by decide : 1 < 6), bra_siteSet os (by decide : 2 < 6), bra_siteSet os (by decide : 3 < 6), bra_siteSet os (by decide : 4 < 6), bra_siteSet os (by decide : 5 < 6)]
    rwa [hr] at this
  · rw [← e2]; unfold semi23; simp only [physLabels6_siteSet, outLabels6_siteSet]
  · refine q1.same q2 ?_ (List.Perm.refl _) (fun _ => rfl)
    rw [singles_flatten]
    have h : ∀ ks ∈ [0, 1, 2, 3, 4, 5].sublists, (outLabels6 ks [0, 1, 2, 3, 4, 5]).Nodup := by decide +kernel
    exact h _ (siteSet6_sub os)

theorem fetch32_ok {D : Dims} {st : State K} {env : Env K} (hs : FitsState D st) (he : FitsEnv D st env) (c : Coord) :
    ∃ e s, fetch32 st env c = some (e, s) ∧ Around32 st env c e s ∧ Fits32 (dims32 D c) e s := by
  obtain ⟨C1, h1, s1⟩ := he.lu (c)
  obtain ⟨C2, h2, s2⟩ := he.ru (rt c)
  obtain ⟨C3, h3, s3⟩ := he.rd (rt (dn (dn c)))
  obtain ⟨C4, h4, s4⟩ := he.ld (dn (dn c))
  obtain ⟨T1, h5, s5⟩ := he.tu (c)
  obtain ⟨T4, h6, s6⟩ := he.tl (c)
  obtain ⟨T4y, h7, s7⟩ := he.tl (dn c)
  obtain ⟨T4w, h8, s8⟩ := he.tl (dn (dn c))
  obtain ⟨T1x, h9, s9⟩ := he.tu (rt c)
  obtain ⟨T2x, h10, s10⟩ := he.tr (rt c)
  obtain ⟨T2xy, h11, s11⟩ := he.tr (rt (dn c))
  obtain ⟨T2xw, h12, s12⟩ := he.tr (rt (dn (dn c)))
  obtain ⟨T3xw, h13, s13⟩ := he.td (rt (dn (dn c)))
  obtain ⟨T3w, h14, s14⟩ := he.td (dn (dn c))
  obtain ⟨a, h15, s15⟩ := hs.site (c)
  obtain ⟨ay, h16, s16⟩ := hs.site (dn c)
  obtain ⟨aw, h17, s17⟩ := hs.site (dn (dn c))
  obtain ⟨ax, h18, s18⟩ := hs.site (rt c)
  obtain ⟨axy, h19, s19⟩ := hs.site (rt (dn c))
  obtain ⟨axw, h20, s20⟩ := hs.site (rt (dn (dn c)))
  have ray : (c.1, c.2 + 1) = dn c := rfl
  have raw : (c.1, c.2 + 2) = dn (dn c) := by simp [rt, dn, add_assoc]
  have rax : (c.1 + 1, c.2) = rt c := rfl
  have raxy : (c.1 + 1, c.2 + 1) = rt (dn c) := rfl
  have raxw : (c.1 + 1, c.2 + 2) = rt (dn (dn c)) := by simp [rt, dn, add_assoc]
  refine ⟨⟨C1, C2, C3, C4, T1, T4, T4y, T4w, T1x, T2x, T2xy, T2xw, T3xw, T3w⟩, ⟨a, ay, aw, ax, axy, axw⟩,
    by simp only [fetch32, ray, raw, rax, raxy, raxw, h1, h2, h3, h4, h5, h6, h7, h8, h9, h10, h11, h12, h13, h14, h15, h16, h17, h18, h19, h20, Option.bind_eq_bind, Option.bind_some]; rfl,
    ⟨h1, h2, h3, h4, h5, h6, h7, h8, h9, h10, h11, h12, h13, h14, h15, h16, h17, h18, h19, h20⟩, ?_⟩
  constructor <;> first | rfl | (simp only [*, dims32]; rfl)

theorem raw32 {D : Dims} {st : State K} {env : Env K} (hs : FitsState D st) (he : FitsEnv D st env) (c : Coord) (os : List Nat) :
    ∃ e s R, fetch32 st env c = some (e, s) ∧ oe32 e s os = some R ∧ IsPatch32 D st env c os R ∧ ∃ R', semi32 e s os = some R' ∧ Same R R' := by
  obtain ⟨e, s, h1, h0, h2⟩ := fetch32_ok hs he c
  obtain ⟨R, e1, q1⟩ := oe32_denotes (dims32 D c) e s h2 (siteSet6 os) (siteSet6_sub os)
  obtain ⟨R', e2, q2⟩ := semi32_denotes (dims32 D c) e s h2 (siteSet6 os) (siteSet6_sub os)
  refine ⟨e, s, R, h1, ?_, ⟨e, s, h0, ?_⟩, R', ?_, ?_⟩
  · rw [← e1]; unfold oe32; simp only [physLabels6_siteSet, outLabels6_siteSet]
  · have := Corner.isNetwork q1
    rw [out_open6, closed6_siteSet] at this
    have hr : rho32 (dims32 D c) e s (bra (siteSet6 os)) = rho32 (dims32 D c) e s (bra os) := by
      funext σ; simp only [rho32, bra_siteSet os (by decide : 0 < 6), bra_siteSet os (by decide : 1 < 6), bra_siteSet os (by decide : 2 < 6), bra_siteSet os (by decide : 3 < 6), bra_siteSet os (by decide : 4 < 6), bra_siteSet os (by decide : 5 < 6)]
    rwa [hr] at this
  · rw [← e2]; unfold semi32; simp only [physLabels6_siteSet, outLabels6_siteSet]
  · refine q1.same q2 ?_ (List.Perm.refl _) (fun _ => rfl)
    rw [singles_flatten]
    have h : ∀ ks ∈ [0, 1, 2, 3, 4, 5].sublists, (outLabels6 ks [0, 1, 2, 3, 4, 5]).Nodup := by decide +kernel
    exact h _ (siteSet6_sub os)

/-! ### C126 -/

/-- For every list of distinct sites of the patch `s0 s1 s2` over `s3 s4 s5`, `rdm2x3_loop_oe` and `rdm2x3_loop_oe_semimanual` return the same tensor: the symmetrised network of the patch with these sites open. -/
theorem C126_horizontal (eigh : Tensor K → List ℝ × Tensor K) (spd : Bool) {D : Dims} {st : State K} {env : Env K} (hs : FitsState D st) (he : FitsEnv D st env) (c : Coord)
    (os : List Nat) (hn : os.Nodup) (hlt : ∀ x ∈ os, x < 6) :
    ∃ rho, IsPatch23 D st env c os rho ∧ rdm2x3 eigh spd st env c os = symRdm eigh spd rho ∧ rdm2x3Semi eigh spd st env c os = symRdm eigh spd rho := by
  obtain ⟨e, s, R, h1, h2, h3, R', h4, h5⟩ := raw23 hs he c os
  have hc : checked6 os = true := by simp [checked6, hn]; exact hlt
  refine ⟨R, h3, ?_, ?_⟩
  · unfold rdm2x3
    rw [if_pos hc, h1]
    show (lift (oe23 e s os) >>= _) = _
    rw [h2]; rfl
  · unfold rdm2x3Semi
    rw [if_pos hc, h1]
    show (lift (semi23 e s os) >>= _) = _
    rw [h4, symRdm_same eigh spd h5]; rfl

/-- Otherwise both raise. -/
theorem C126_horizontal_raises (eigh : Tensor K → List ℝ × Tensor K) (spd : Bool) (st : State K) (env : Env K) (c : Coord)
    (os : List Nat) (h : ¬ (os.Nodup ∧ ∀ x ∈ os, x < 6)) :
    rdm2x3 eigh spd st env c os = .error .raise ∧ rdm2x3Semi eigh spd st env c os = .error .raise := by
  have hc : ¬ (checked6 os = true) := by simpa [checked6] using h
  unfold rdm2x3 rdm2x3Semi
  rw [if_neg hc, if_neg hc]
  exact ⟨rfl, rfl⟩

/-- For every list of distinct sites of the patch `s0 s3` over `s1 s4` over `s2 s5`, `rdm3x2_loop_oe` and `rdm3x2_loop_oe_semimanual` return the same tensor: the symmetrised network of the patch with these sites open. -/
theorem C126_vertical (eigh : Tensor K → List ℝ × Tensor K) (spd : Bool) {D : Dims} {st : State K} {env : Env K} (hs : FitsState D st) (he : FitsEnv D st env) (c : Coord)
    (os : List Nat) (hn : os.Nodup) (hlt : ∀ x ∈ os, x < 6) :
    ∃ rho, IsPatch32 D st env c os rho ∧ rdm3x2 eigh spd st env c os = symRdm eigh spd rho ∧ rdm3x2Semi eigh spd st env c os = symRdm eigh spd rho := by
  obtain ⟨e, s, R, h1, h2, h3, R', h4, h5⟩ := raw32 hs he c os
  have hc : checked6 os = true := by simp [checked6, hn]; exact hlt
  refine ⟨R, h3, ?_, ?_⟩
  · unfold rdm3x2
    rw [if_pos hc, h1]
    show (lift (oe32 e s os) >>= _) = _
    rw [h2]; rfl
  · unfold rdm3x2Semi
    rw [if_pos hc, h1]
    show (lift (semi32 e s os) >>= _) = _
    rw [h4, symRdm_same eigh spd h5]; rfl

/-- Otherwise both raise. -/
theorem C126_vertical_raises (eigh : Tensor K → List ℝ × Tensor K) (spd : Bool) (st : State K) (env : Env K) (c : Coord)
    (os : List Nat) (h : ¬ (os.Nodup ∧ ∀ x ∈ os, x < 6)) :
    rdm3x2 eigh spd st env c os = .error .raise ∧ rdm3x2Semi eigh spd st env c os = .error .raise := by
  have hc : ¬ (checked6 os = true) := by simpa [checked6] using h
  unfold rdm3x2 rdm3x2Semi
  rw [if_neg hc, if_neg hc]
  exact ⟨rfl, rfl⟩

example (eigh : Tensor ℝ → List ℝ × Tensor ℝ) := C126_horizontal eigh true (exFitsState (l := 2) (l' := 3) (by decide) (by decide)) cellFits (-3, 2) [3, 2, 5] (by decide) (by decide)
example (eigh : Tensor ℝ → List ℝ × Tensor ℝ) := C126_vertical eigh false (exFitsState (l := 2) (l' := 3) (by decide) (by decide)) cellFits (1, 2) [4, 0] (by decide) (by decide)
example (eigh : Tensor ℝ → List ℝ × Tensor ℝ) := C126_horizontal_raises eigh true (exState (exDims 2 3)) (cellEnv (exDims 2 3)) (0, 0) [1, 6] (by decide)
example (eigh : Tensor ℝ → List ℝ × Tensor ℝ) := C126_vertical_raises eigh true (exState (exDims 2 3)) (cellEnv (exDims 2 3)) (0, 0) [2, 1, 2] (by decide)

end Verif.Rdm
