import Verif.Rdm.ManualBody23
import Verif.Rdm.ManualBody32
import Verif.Rdm.SixProps
import Verif.Rdm.PlaqProps
/-
The density matrices of four-site rhombi by the routines with a loop over one bond equal the networks of the patches.
-/
namespace Verif.Rdm
open Tensor Ctm Ctm.Spec Corner Spec
set_option linter.unusedSimpArgs false
set_option linter.unusedVariables false
variable {K : Type} [RCLike K]

/-- The routine computes the network of the patch. -/
theorem manual23_denotes {D : Dims} {st : State K} {env : Env K} (ht : Tiling st) (hs : FitsState D st) (he : FitsEnv D st env) (c : Coord)
    (hp1 : D.p (c.1 + 1, c.2) = D.p c) (hp2 : D.p (c.1 + 2, c.2 - 1) = D.p c) (hp3 : D.p (c.1 + 1, c.2 - 1) = D.p c) :
    ∃ e s R, fetch23 st env (c.1, c.2 - 1) = some (e, s) ∧ Around23 st env (c.1, c.2 - 1) e s ∧ Fits23 (dims23 D (c.1, c.2 - 1)) e s ∧ manual23 st env c = some R ∧
      Denotes (dims23 D (c.1, c.2 - 1)) R [[106], [108], [104], [102], [107], [109], [105], [103]] ([100, 110] ++ inner23) [0, 1, 2, 3, 5, 6, 7, 8, 9, 10, 12, 13, 15, 16, 17, 19, 20, 21, 22, 23, 24, 25, 26, 27, 28, 29, 30, 31, 32, 33, 34, 35, 36, 37, 38, 39, 40, 41, 42, 43, 44, 45, 46, 47, 48, 49, 50, 51, 100, 101, 102, 103, 104, 105, 106, 107, 108, 109, 110, 111] (rho23 (dims23 D (c.1, c.2 - 1)) e s (bra [1, 2, 3, 4])) := by
  obtain ⟨b, hb⟩ : ∃ b : Coord, b = (c.1, c.2 - 1) := ⟨_, rfl⟩
  have rax : (c.1 + 1, c.2 - 1) = rt b := by rw [hb]; apply Prod.ext <;> simp [rt, dn] <;> omega
  have raz : (c.1 + 2, c.2 - 1) = rt (rt b) := by rw [hb]; apply Prod.ext <;> simp [rt, dn] <;> omega
  have ray : dn b = c := by rw [hb]; apply Prod.ext <;> simp [rt, dn] <;> omega
  have raxy : (c.1 + 1, c.2) = rt (dn b) := by rw [hb]; apply Prod.ext <;> simp [rt, dn] <;> omega
  have razy : (c.1 + 2, c.2) = rt (rt (dn b)) := by rw [hb]; apply Prod.ext <;> simp [rt, dn] <;> omega
  have ra := hb.symm
  obtain ⟨e, s, hf, h0, h2⟩ := fetch23_ok hs he b
  rw [← hb]
  obtain ⟨lu, elu, dlu⟩ := lu23_closed (dims23 D b) e s h2
  obtain ⟨ru, eru, dru⟩ := ru23_open (dims23 D b) e s h2
  obtain ⟨rd, erd, drd⟩ := rd23_closed (dims23 D b) e s h2
  obtain ⟨ld, eld, dld⟩ := ld23_open (dims23 D b) e s h2
  have h3 := h2
  obtain ⟨hC1, hT1, hT4, hT4y, hC4, hT3y, hT3xy, hT1z, hC2, hT2z, hT2zy, hC3, hT3zy, hT1x, ha, ha0, ha1, ha2, ha3, ha4, hax, hax0, hax1, hax2, hax3, hax4, haz, haz0, haz1, haz2, haz3, haz4, hay, hay0, hay1, hay2, hay3, hay4, haxy, haxy0, haxy1, haxy2, haxy3, haxy4, hazy, hazy0, hazy1, hazy2, hazy3, hazy4⟩ := h2
  obtain ⟨ta, eta, qta⟩ := Denotes.view (Denotes.leaf (dims23 D b) e.T3xy [[21, 23], [19], [51]] (by rw [hT3xy]; simp [gdim])) [[21], [23], [19], [51]] [s.axy.size 3, s.axy.size 3, e.T3xy.size 1, e.T3xy.size 2] (by decide)
    (by simp only [size, hT3xy, haxy, haxy1, haxy2, haxy3, haxy4, List.map_cons, List.map_nil, gdim_single]; rfl)
  obtain ⟨tb, etb, qtb⟩ := Denotes.view (Denotes.leaf (dims23 D b) e.T1x [[44], [40, 42], [39]] (by rw [hT1x]; simp [gdim])) [[44], [40], [42], [39]] [e.T1x.size 0, s.ax.size 1, s.ax.size 1, e.T1x.size 2] (by decide)
    (by simp only [size, hT1x, hax, hax1, hax2, hax3, hax4, List.map_cons, List.map_nil, gdim_single]; rfl)
  obtain ⟨xa0, ea0, qa0⟩ := Denotes.tensordot dlu dld [0] [0] (dotOK_iff (by decide))
  obtain ⟨xb0, eb0, qb0⟩ := Denotes.tensordot dru drd [1] [0] (dotOK_iff (by decide))
  have sta := qta.shape
  have stb := qtb.shape
  have sa0 : xa0.shape = List.map (gdim (dims23 D b)) [[44, 45, 46], [19, 20, 22], [106], [107]] := qa0.shape
  have sb0 : xb0.shape = List.map (gdim (dims23 D b)) [[39, 41, 43], [104], [105], [51, 49, 50]] := qb0.shape
  simp only [List.map_cons, List.map_nil, gdim_single] at sta stb
  obtain ⟨xa, ea, qa⟩ := Denotes.view qa0 [[44], [45], [46], [19], [20], [22], [106], [107]] [tb.size 0, s.ax.size 2, s.ax.size 2, ta.size 2, s.axy.size 2, s.axy.size 2, s.ay.size 0, s.ay.size 0] (by decide)
    (by simp only [size, sta, stb, sa0, sb0, ha, ha0, ha1, ha2, ha3, ha4, hax, hax0, hax1, hax2, hax3, hax4, haz, haz0, haz1, haz2, haz3, haz4, hay, hay0, hay1, hay2, hay3, hay4, haxy, haxy0, haxy1, haxy2, haxy3, haxy4, hazy, hazy0, hazy1, hazy2, hazy3, hazy4, List.map_cons, List.map_nil, gdim_single]; rfl)
  obtain ⟨xb, eb, qb⟩ := Denotes.view qb0 [[39], [41], [43], [104], [105], [51], [49], [50]] [tb.size 3, s.ax.size 4, s.ax.size 4, s.az.size 0, s.az.size 0, ta.size 3, s.axy.size 4, s.axy.size 4] (by decide)
    (by simp only [size, sta, stb, sa0, sb0, ha, ha0, ha1, ha2, ha3, ha4, hax, hax0, hax1, hax2, hax3, hax4, haz, haz0, haz1, haz2, haz3, haz4, hay, hay0, hay1, hay2, hay3, hay4, haxy, haxy0, haxy1, haxy2, haxy3, haxy4, hazy, hazy0, hazy1, hazy2, hazy3, hazy4, List.map_cons, List.map_nil, gdim_single]; rfl)
  have dta := qta.congr (S' := [21, 23, 19, 51]) (F' := (fun σ => e.T3xy.val [Corner.Spec.fused (dims23 D b) σ 21 23, σ 19, σ 51])) (List.Perm.refl _) (by decide) (fun σ => by simp only [List.map_cons, List.map_nil, gidx_single, fused_eq])
  have dtb := qtb.congr (S' := [44, 40, 42, 39]) (F' := (fun σ => e.T1x.val [σ 44, Corner.Spec.fused (dims23 D b) σ 40 42, σ 39])) (List.Perm.refl _) (by decide) (fun σ => by simp only [List.map_cons, List.map_nil, gidx_single, fused_eq])
  have dxa := qa.congr (L' := [15, 16, 17, 0, 1, 2, 5, 3, 6, 100, 8, 7, 9, 12, 10, 13]) (S' := [0, 1, 44, 15, 2, 5, 3, 6, 16, 17, 45, 46, 100, 8, 7, 15, 19, 16, 17, 9, 12, 10, 13, 20, 22, 106, 107]) (by decide) (by decide) (fun σ => rfl)
  have dxb := qb.congr (L' := [36, 37, 38, 24, 25, 26, 28, 27, 29, 31, 30, 32, 34, 33, 35, 110]) (S' := [24, 25, 36, 39, 26, 28, 41, 43, 37, 38, 27, 29, 104, 105, 31, 30, 51, 36, 37, 38, 49, 50, 32, 34, 33, 35, 110]) (by decide) (by decide) (fun σ => rfl)
  have hsz : s.axy.size 1 = dims23 D b 47 := by simp only [size, haxy, haxy1, haxy2, haxy3, haxy4]; rfl
  obtain ⟨R0, e0, q0⟩ := loopSum_denotes (dim := dims23 D b) (O := [[106], [107], [108], [109], [104], [105], [102], [103]]) (L := [100, 110, 0, 1, 2, 3, 5, 6, 7, 8, 9, 10, 12, 13, 15, 16, 17, 19, 20, 21, 22, 23, 24, 25, 26, 27, 28, 29, 30, 31, 32, 33, 34, 35, 36, 37, 38, 39, 40, 41, 42, 43, 44, 45, 46, 49, 50, 51]) (S := [0, 1, 2, 3, 5, 6, 7, 8, 9, 10, 12, 13, 15, 16, 17, 19, 20, 21, 22, 23, 24, 25, 26, 27, 28, 29, 30, 31, 32, 33, 34, 35, 36, 37, 38, 39, 40, 41, 42, 43, 44, 45, 46, 47, 48, 49, 50, 51, 100, 101, 102, 103, 104, 105, 106, 107, 108, 109, 110, 111])
    (F := rho23 (dims23 D b) e s (bra [1, 2, 3, 4])) 47 48 (s.axy.size 1) (List.replicate 8 (s.ay.size 0)) (body23 xa xb ta tb s.axy s.ax) hsz.symm (hsz ▸ rfl)
    (by
      have p1 : dims23 D b 108 = D.p c := by show D.p (rt (dn b)) = _; rw [← hp1, raxy]
      have p2 : dims23 D b 104 = D.p c := by show D.p (rt (rt b)) = _; rw [← hp2, raz]
      have p3 : dims23 D b 102 = D.p c := by show D.p (rt b) = _; rw [← hp3, rax]
      have p0 : dims23 D b 106 = D.p c := by show D.p (dn b) = _; rw [ray]
      have q1 : dims23 D b 109 = dims23 D b 108 := rfl
      have q2 : dims23 D b 105 = dims23 D b 104 := rfl
      have q3 : dims23 D b 103 = dims23 D b 102 := rfl
      have q4 : dims23 D b 107 = dims23 D b 106 := rfl
      simp only [size, hay, List.map_cons, List.map_nil, gdim_single, q1, q2, q3, q4, p0, p1, p2, p3]
      rfl)
    (by decide)
    (by
      intro σ τ h
      simp only [rho23, Corner.Spec.fused, bra]
      simp (discharger := decide) only [h, if_true, if_false, List.mem_cons, List.not_mem_nil])
    (fun i hi ip hip => body23_denotes (dims23 D b) e s h3 dxa dxb dta dtb i ip (hsz ▸ hi) (hsz ▸ hip))
  obtain ⟨R, eR, qR⟩ := Denotes.permute q0 [0, 2, 4, 6, 1, 3, 5, 7] (by decide)
  refine ⟨e, s, R, hf, h0, h3, ?_, qR.congr (by decide) (fun _ h => h) (fun _ => rfl)⟩
  have gC1 := h0.C1
  have gC2 := h0.C2
  have gC3 := h0.C3
  have gC4 := h0.C4
  have gT1 := h0.T1
  have gT4 := h0.T4
  have gT3y := h0.T3y
  have gT4y := h0.T4y
  have gT3xy := h0.T3xy
  have gT2zy := h0.T2zy
  have gT3zy := h0.T3zy
  have gT1z := h0.T1z
  have gT2z := h0.T2z
  have gT1x := h0.T1x
  have ka := h0.a
  have kax := h0.ax
  have kaz := h0.az
  have kay := h0.ay
  have kaxy := h0.axy
  have kazy := h0.azy
  rw [← rax] at gT1x kax
  rw [← raz] at gC2 gT1z gT2z kaz
  rw [ray] at gC4 gT3y gT4y kay
  rw [← raxy] at gT3xy kaxy
  rw [← razy] at gC3 gT2zy gT3zy kazy
  rw [hb] at gC1 gT1 gT4 ka
  simp only [manual23, cornerLU, cornerRU, cornerRD, cornerLD, State.site, vts_vts ht, gC1, gC2, gC3, gC4, gT1, gT4, gT3y, gT4y, gT3xy, gT2zy, gT3zy, gT1z, gT2z, gT1x, ka, kax, kaz, kay, kaxy, kazy, Option.bind_eq_bind, Option.bind_some, elu, eld, eru, erd, eta, etb, ea0, eb0, ea, eb, e0]
  exact eR

/-- The routine computes the network of the patch. -/
theorem manual32_denotes {D : Dims} {st : State K} {env : Env K} (ht : Tiling st) (hs : FitsState D st) (he : FitsEnv D st env) (c : Coord)
    (hp1 : D.p (c.1 + 1, c.2 - 1) = D.p c) (hp2 : D.p (c.1 + 1, c.2 - 2) = D.p c) (hp3 : D.p (c.1, c.2 - 1) = D.p c) :
    ∃ e s R, fetch32 st env (c.1, c.2 - 2) = some (e, s) ∧ Around32 st env (c.1, c.2 - 2) e s ∧ Fits32 (dims32 D (c.1, c.2 - 2)) e s ∧ manual32 st env c = some R ∧
      Denotes (dims32 D (c.1, c.2 - 2)) R [[104], [108], [106], [102], [105], [109], [107], [103]] ([100, 110] ++ inner32) [0, 1, 2, 3, 5, 6, 7, 8, 9, 10, 11, 12, 13, 14, 15, 16, 17, 18, 19, 20, 40, 41, 42, 43, 44, 45, 46, 47, 48, 49, 50, 51, 52, 53, 54, 55, 56, 57, 58, 59, 80, 81, 82, 83, 84, 85, 86, 87, 100, 101, 102, 103, 104, 105, 106, 107, 108, 109, 110, 111] (rho32 (dims32 D (c.1, c.2 - 2)) e s (bra [1, 2, 3, 4])) := by
  obtain ⟨b, hb⟩ : ∃ b : Coord, b = (c.1, c.2 - 2) := ⟨_, rfl⟩
  have rax : (c.1 + 1, c.2 - 2) = rt b := by rw [hb]; apply Prod.ext <;> simp [rt, dn] <;> omega
  have ray : (c.1, c.2 - 1) = dn b := by rw [hb]; apply Prod.ext <;> simp [rt, dn] <;> omega
  have raxy : (c.1 + 1, c.2 - 1) = rt (dn b) := by rw [hb]; apply Prod.ext <;> simp [rt, dn] <;> omega
  have raw : dn (dn b) = c := by rw [hb]; apply Prod.ext <;> simp [rt, dn] <;> omega
  have raxw : (c.1 + 1, c.2) = rt (dn (dn b)) := by rw [hb]; apply Prod.ext <;> simp [rt, dn] <;> omega
  have ra := hb.symm
  obtain ⟨e, s, hf, h0, h2⟩ := fetch32_ok hs he b
  rw [← hb]
  obtain ⟨lu, elu, dlu⟩ := lu32_closed (dims32 D b) e s h2
  obtain ⟨ru, eru, dru⟩ := ru32_open (dims32 D b) e s h2
  obtain ⟨rd, erd, drd⟩ := rd32_closed (dims32 D b) e s h2
  obtain ⟨ld, eld, dld⟩ := ld32_open (dims32 D b) e s h2
  have h3 := h2
  obtain ⟨hC1, hT1, hT4, hT1x, hC2, hT2x, hT4y, hT2xy, hT3xw, hC3, hT2xw, hT4w, hC4, hT3w, ha, ha0, ha1, ha2, ha3, ha4, hay, hay0, hay1, hay2, hay3, hay4, haw, haw0, haw1, haw2, haw3, haw4, hax, hax0, hax1, hax2, hax3, hax4, haxy, haxy0, haxy1, haxy2, haxy3, haxy4, haxw, haxw0, haxw1, haxw2, haxw3, haxw4⟩ := h2
  obtain ⟨ta, eta, qta⟩ := Denotes.view (Denotes.leaf (dims32 D b) e.T4y [[18], [80], [16, 17]] (by rw [hT4y]; simp [gdim])) [[18], [80], [16], [17]] [e.T4y.size 0, e.T4y.size 1, s.ay.size 2, s.ay.size 2] (by decide)
    (by simp only [size, hT4y, hay, hay1, hay2, hay3, hay4, List.map_cons, List.map_nil, gdim_single]; rfl)
  obtain ⟨tb, etb, qtb⟩ := Denotes.view (Denotes.leaf (dims32 D b) e.T2xy [[87], [55, 56], [57]] (by rw [hT2xy]; simp [gdim])) [[87], [55], [56], [57]] [e.T2xy.size 0, s.axy.size 4, s.axy.size 4, e.T2xy.size 2] (by decide)
    (by simp only [size, hT2xy, haxy, haxy1, haxy2, haxy3, haxy4, List.map_cons, List.map_nil, gdim_single]; rfl)
  obtain ⟨xa0, ea0, qa0⟩ := Denotes.tensordot drd dld [1] [1] (dotOK_iff (by decide))
  obtain ⟨xb0, eb0, qb0⟩ := Denotes.tensordot dlu dru [1] [0] (dotOK_iff (by decide))
  have sta := qta.shape
  have stb := qtb.shape
  have sa0 : xa0.shape = List.map (gdim (dims32 D b)) [[57, 58, 59], [80, 81, 82], [104], [105]] := qa0.shape
  have sb0 : xb0.shape = List.map (gdim (dims32 D b)) [[18, 19, 20], [87, 85, 86], [106], [107]] := qb0.shape
  simp only [List.map_cons, List.map_nil, gdim_single] at sta stb
  obtain ⟨xa, ea, qa⟩ := Denotes.view qa0 [[57], [58], [59], [80], [81], [82], [104], [105]] [tb.size 3, s.axy.size 3, s.axy.size 3, ta.size 1, s.ay.size 3, s.ay.size 3, xa0.size 2, xa0.size 3] (by decide)
    (by simp only [size, sta, stb, sa0, sb0, ha, ha0, ha1, ha2, ha3, ha4, hax, hax0, hax1, hax2, hax3, hax4, hay, hay0, hay1, hay2, hay3, hay4, haxy, haxy0, haxy1, haxy2, haxy3, haxy4, haw, haw0, haw1, haw2, haw3, haw4, haxw, haxw0, haxw1, haxw2, haxw3, haxw4, List.map_cons, List.map_nil, gdim_single]; rfl)
  obtain ⟨xb, eb, qb⟩ := Denotes.view qb0 [[18], [19], [20], [87], [85], [86], [106], [107]] [ta.size 0, s.ay.size 1, s.ay.size 1, tb.size 0, s.axy.size 1, s.axy.size 1, xb0.size 2, xb0.size 3] (by decide)
    (by simp only [size, sta, stb, sa0, sb0, ha, ha0, ha1, ha2, ha3, ha4, hax, hax0, hax1, hax2, hax3, hax4, hay, hay0, hay1, hay2, hay3, hay4, haxy, haxy0, haxy1, haxy2, haxy3, haxy4, haw, haw0, haw1, haw2, haw3, haw4, haxw, haxw0, haxw1, haxw2, haxw3, haxw4, List.map_cons, List.map_nil, gdim_single]; rfl)
  have dta := qta.congr (S' := [18, 80, 16, 17]) (F' := (fun σ => e.T4y.val [σ 18, σ 80, Corner.Spec.fused (dims32 D b) σ 16 17])) (List.Perm.refl _) (by decide) (fun σ => by simp only [List.map_cons, List.map_nil, gidx_single, fused_eq])
  have dtb := qtb.congr (S' := [87, 55, 56, 57]) (F' := (fun σ => e.T2xy.val [σ 87, Corner.Spec.fused (dims32 D b) σ 55 56, σ 57])) (List.Perm.refl _) (by decide) (fun σ => by simp only [List.map_cons, List.map_nil, gidx_single, fused_eq])
  have dxa := qa.congr (L' := [52, 53, 54, 41, 40, 42, 44, 43, 45, 110, 47, 46, 48, 50, 49, 51]) (S' := [41, 40, 52, 57, 58, 59, 53, 54, 42, 44, 43, 45, 110, 47, 46, 80, 52, 81, 82, 48, 50, 49, 51, 53, 54, 104, 105]) (by decide) (by decide) (fun σ => rfl)
  have dxb := qb.congr (L' := [13, 14, 15, 0, 1, 2, 5, 3, 6, 100, 7, 8, 9, 11, 10, 12]) (S' := [0, 1, 13, 18, 2, 5, 3, 6, 19, 20, 14, 15, 100, 7, 8, 87, 13, 9, 11, 14, 15, 85, 86, 10, 12, 106, 107]) (by decide) (by decide) (fun σ => rfl)
  have hsz : s.ay.size 4 = dims32 D b 83 := by simp only [size, hay, hay1, hay2, hay3, hay4]; rfl
  obtain ⟨R0, e0, q0⟩ := loopSum_denotes (dim := dims32 D b) (O := [[104], [105], [108], [109], [106], [107], [102], [103]]) (L := [100, 110, 0, 1, 2, 3, 5, 6, 7, 8, 9, 10, 11, 12, 13, 14, 15, 16, 17, 18, 19, 20, 40, 41, 42, 43, 44, 45, 46, 47, 48, 49, 50, 51, 52, 53, 54, 55, 56, 57, 58, 59, 80, 81, 82, 85, 86, 87]) (S := [0, 1, 2, 3, 5, 6, 7, 8, 9, 10, 11, 12, 13, 14, 15, 16, 17, 18, 19, 20, 40, 41, 42, 43, 44, 45, 46, 47, 48, 49, 50, 51, 52, 53, 54, 55, 56, 57, 58, 59, 80, 81, 82, 83, 84, 85, 86, 87, 100, 101, 102, 103, 104, 105, 106, 107, 108, 109, 110, 111])
    (F := rho32 (dims32 D b) e s (bra [1, 2, 3, 4])) 83 84 (s.ay.size 4) (List.replicate 8 (s.aw.size 0)) (body32 xb xa ta tb s.ay s.axy) hsz.symm (hsz ▸ rfl)
    (by
      have p1 : dims32 D b 108 = D.p c := by show D.p (rt (dn b)) = _; rw [← hp1, raxy]
      have p2 : dims32 D b 106 = D.p c := by show D.p (rt b) = _; rw [← hp2, rax]
      have p3 : dims32 D b 102 = D.p c := by show D.p (dn b) = _; rw [← hp3, ray]
      have p0 : dims32 D b 104 = D.p c := by show D.p (dn (dn b)) = _; rw [raw]
      have q1 : dims32 D b 109 = dims32 D b 108 := rfl
      have q2 : dims32 D b 105 = dims32 D b 104 := rfl
      have q3 : dims32 D b 103 = dims32 D b 102 := rfl
      have q4 : dims32 D b 107 = dims32 D b 106 := rfl
      simp only [size, haw, List.map_cons, List.map_nil, gdim_single, q1, q2, q3, q4, p0, p1, p2, p3]
      rfl)
    (by decide)
    (by
      intro σ τ h
      simp only [rho32, Corner.Spec.fused, bra]
      simp (discharger := decide) only [h, if_true, if_false, List.mem_cons, List.not_mem_nil])
    (fun i hi ip hip => body32_denotes (dims32 D b) e s h3 dxa dxb dta dtb i ip (hsz ▸ hi) (hsz ▸ hip))
  obtain ⟨R, eR, qR⟩ := Denotes.permute q0 [0, 2, 4, 6, 1, 3, 5, 7] (by decide)
  refine ⟨e, s, R, hf, h0, h3, ?_, qR.congr (by decide) (fun _ h => h) (fun _ => rfl)⟩
  have gC1 := h0.C1
  have gC2 := h0.C2
  have gC3 := h0.C3
  have gC4 := h0.C4
  have gT1 := h0.T1
  have gT4 := h0.T4
  have gT4y := h0.T4y
  have gT4w := h0.T4w
  have gT1x := h0.T1x
  have gT2x := h0.T2x
  have gT2xy := h0.T2xy
  have gT2xw := h0.T2xw
  have gT3xw := h0.T3xw
  have gT3w := h0.T3w
  have ka := h0.a
  have kax := h0.ax
  have kay := h0.ay
  have kaxy := h0.axy
  have kaw := h0.aw
  have kaxw := h0.axw
  rw [← rax] at gC2 gT1x gT2x kax
  rw [← ray] at gT4y kay
  rw [← raxy] at gT2xy kaxy
  rw [raw] at gC4 gT4w gT3w kaw
  rw [← raxw] at gC3 gT2xw gT3xw kaxw
  rw [hb] at gC1 gT1 gT4 ka
  simp only [manual32, cornerLU, cornerRU, cornerRD, cornerLD, State.site, vts_vts ht, gC1, gC2, gC3, gC4, gT1, gT4, gT4y, gT4w, gT1x, gT2x, gT2xy, gT2xw, gT3xw, gT3w, ka, kax, kay, kaxy, kaw, kaxw, Option.bind_eq_bind, Option.bind_some, elu, eld, eru, erd, eta, etb, ea0, eb0, ea, eb, e0]
  exact eR

end Verif.Rdm
