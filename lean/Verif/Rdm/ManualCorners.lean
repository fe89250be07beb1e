import Verif.Rdm.SixSpec
import Verif.Rdm.ManualLemmas
import Verif.Rdm.Networks
import Verif.Rdm.PlaqNet2
/-
The corners of the patches of six sites as parts of their networks (generated from the drawings).
-/
namespace Verif.Rdm
open Tensor Corner
set_option linter.unusedSimpArgs false
set_option linter.unusedVariables false
set_option linter.unusedSectionVars false
variable {K : Type} [RCLike K]

theorem lu23_closed (dim : Nat → Nat) (e : Env23 K) (s : Sites23 K) (h : Spec.Fits23 dim e s) :
    ∃ R, luSl e.C1 e.T1 e.T4 s.a false = some R ∧ Denotes dim R [[15, 16, 17], [44, 45, 46]] [0, 1, 2, 5, 3, 6, 100] [0, 1, 44, 15, 2, 5, 3, 6, 16, 17, 45, 46, 100]
      (fun σ => e.C1.val [σ 0, σ 1] * e.T1.val [σ 1, Corner.Spec.fused dim σ 2 5, σ 44] * e.T4.val [σ 0, σ 15, Corner.Spec.fused dim σ 3 6] * (s.a.val [σ 100, σ 2, σ 3, σ 16, σ 45] * star (s.a.val [σ 100, σ 5, σ 6, σ 17, σ 46]))) := by
  obtain ⟨hC1, hT1, hT4, hT4y, hC4, hT3y, hT3xy, hT1z, hC2, hT2z, hT2zy, hC3, hT3zy, hT1x, ha, ha0, ha1, ha2, ha3, ha4, hax, hax0, hax1, hax2, hax3, hax4, haz, haz0, haz1, haz2, haz3, haz4, hay, hay0, hay1, hay2, hay3, hay4, haxy, haxy0, haxy1, haxy2, haxy3, haxy4, hazy, hazy0, hazy1, hazy2, hazy3, hazy4⟩ := h
  obtain ⟨r, hr⟩ : ∃ r : Nat → Nat, r = fun l => [0, 1, 44, 15, 2, 5, 3, 6, 16, 17, 45, 46, 100, 101].getD l 0 := ⟨_, rfl⟩
  obtain ⟨R, e1, q⟩ := luSl_closed (fun l => dim (r l)) e.C1 e.T1 e.T4 s.a ⟨by simp [hr, ha], by simp [hr, ha1], by simp [hr, ha2], by simp [hr, ha3], by simp [hr, ha4], by simp [hr, ha0]⟩
    (by simp [hr, hC1]) (by simp [hr, hT1]) (by simp [hr, hT4])
  have q2 := q.rename (dim' := dim) r [0, 1, 2, 3, 4, 5, 6, 7, 8, 9, 10, 11, 12] (by rw [hr]; decide) (fun _ _ => rfl) (by decide) (by decide) (by decide)
  rw [hr] at q2
  refine ⟨R, e1, Denotes.congr (O := [[15, 16, 17], [44, 45, 46]]) q2 (by decide) (by decide) ?_⟩
  intro σ
  simp [Corner.Spec.lu, Corner.Spec.site, Corner.Spec.fused]

theorem ld23_open (dim : Nat → Nat) (e : Env23 K) (s : Sites23 K) (h : Spec.Fits23 dim e s) :
    ∃ R, ldSl e.C4 e.T4y e.T3y s.ay true = some R ∧ Denotes dim R [[15, 16, 17], [19, 20, 22], [106], [107]] [8, 7, 9, 12, 10, 13] [8, 7, 15, 19, 16, 17, 9, 12, 10, 13, 20, 22, 106, 107]
      (fun σ => e.C4.val [σ 8, σ 7] * e.T4y.val [σ 15, σ 8, Corner.Spec.fused dim σ 9 12] * e.T3y.val [Corner.Spec.fused dim σ 10 13, σ 7, σ 19] * (s.ay.val [σ 106, σ 16, σ 9, σ 10, σ 20] * star (s.ay.val [σ 107, σ 17, σ 12, σ 13, σ 22]))) := by
  obtain ⟨hC1, hT1, hT4, hT4y, hC4, hT3y, hT3xy, hT1z, hC2, hT2z, hT2zy, hC3, hT3zy, hT1x, ha, ha0, ha1, ha2, ha3, ha4, hax, hax0, hax1, hax2, hax3, hax4, haz, haz0, haz1, haz2, haz3, haz4, hay, hay0, hay1, hay2, hay3, hay4, haxy, haxy0, haxy1, haxy2, haxy3, haxy4, hazy, hazy0, hazy1, hazy2, hazy3, hazy4⟩ := h
  obtain ⟨r, hr⟩ : ∃ r : Nat → Nat, r = fun l => [8, 7, 15, 19, 16, 17, 9, 12, 10, 13, 20, 22, 106, 107].getD l 0 := ⟨_, rfl⟩
  obtain ⟨R, e1, q⟩ := ldSl_open (fun l => dim (r l)) e.C4 e.T4y e.T3y s.ay ⟨by simp [hr, hay], by simp [hr, hay1], by simp [hr, hay2], by simp [hr, hay3], by simp [hr, hay4], by simp [hr, hay0]⟩
    (by simp [hr, hC4]) (by simp [hr, hT4y]) (by simp [hr, hT3y])
  have q2 := q.rename (dim' := dim) r [0, 1, 2, 3, 4, 5, 6, 7, 8, 9, 10, 11, 12, 13] (by rw [hr]; decide) (fun _ _ => rfl) (by decide) (by decide) (by decide)
  rw [hr] at q2
  refine ⟨R, e1, Denotes.congr (O := [[15, 16, 17], [19, 20, 22], [106], [107]]) q2 (by decide) (by decide) ?_⟩
  intro σ
  simp [Corner.Spec.ld, Corner.Spec.site, Corner.Spec.fused]

theorem ru23_open (dim : Nat → Nat) (e : Env23 K) (s : Sites23 K) (h : Spec.Fits23 dim e s) :
    ∃ R, ruSl e.C2 e.T2z e.T1z s.az true = some R ∧ Denotes dim R [[39, 41, 43], [36, 37, 38], [104], [105]] [24, 25, 26, 28, 27, 29] [24, 25, 36, 39, 26, 28, 41, 43, 37, 38, 27, 29, 104, 105]
      (fun σ => e.C2.val [σ 24, σ 25] * e.T2z.val [σ 25, Corner.Spec.fused dim σ 27 29, σ 36] * e.T1z.val [σ 39, Corner.Spec.fused dim σ 26 28, σ 24] * (s.az.val [σ 104, σ 26, σ 41, σ 37, σ 27] * star (s.az.val [σ 105, σ 28, σ 43, σ 38, σ 29]))) := by
  obtain ⟨hC1, hT1, hT4, hT4y, hC4, hT3y, hT3xy, hT1z, hC2, hT2z, hT2zy, hC3, hT3zy, hT1x, ha, ha0, ha1, ha2, ha3, ha4, hax, hax0, hax1, hax2, hax3, hax4, haz, haz0, haz1, haz2, haz3, haz4, hay, hay0, hay1, hay2, hay3, hay4, haxy, haxy0, haxy1, haxy2, haxy3, haxy4, hazy, hazy0, hazy1, hazy2, hazy3, hazy4⟩ := h
  obtain ⟨r, hr⟩ : ∃ r : Nat → Nat, r = fun l => [24, 25, 36, 39, 26, 28, 41, 43, 37, 38, 27, 29, 104, 105].getD l 0 := ⟨_, rfl⟩
  obtain ⟨R, e1, q⟩ := ruSl_open (fun l => dim (r l)) e.C2 e.T2z e.T1z s.az ⟨by simp [hr, haz], by simp [hr, haz1], by simp [hr, haz2], by simp [hr, haz3], by simp [hr, haz4], by simp [hr, haz0]⟩
    (by simp [hr, hC2]) (by simp [hr, hT2z]) (by simp [hr, hT1z])
  have q2 := q.rename (dim' := dim) r [0, 1, 2, 3, 4, 5, 6, 7, 8, 9, 10, 11, 12, 13] (by rw [hr]; decide) (fun _ _ => rfl) (by decide) (by decide) (by decide)
  rw [hr] at q2
  refine ⟨R, e1, Denotes.congr (O := [[39, 41, 43], [36, 37, 38], [104], [105]]) q2 (by decide) (by decide) ?_⟩
  intro σ
  simp [Corner.Spec.ru, Corner.Spec.site, Corner.Spec.fused]

theorem rd23_closed (dim : Nat → Nat) (e : Env23 K) (s : Sites23 K) (h : Spec.Fits23 dim e s) :
    ∃ R, rdSl e.C3 e.T3zy e.T2zy s.azy false = some R ∧ Denotes dim R [[36, 37, 38], [51, 49, 50]] [31, 30, 32, 34, 33, 35, 110] [31, 30, 51, 36, 37, 38, 49, 50, 32, 34, 33, 35, 110]
      (fun σ => e.C3.val [σ 31, σ 30] * e.T3zy.val [Corner.Spec.fused dim σ 32 34, σ 51, σ 30] * e.T2zy.val [σ 36, Corner.Spec.fused dim σ 33 35, σ 31] * (s.azy.val [σ 110, σ 37, σ 49, σ 32, σ 33] * star (s.azy.val [σ 110, σ 38, σ 50, σ 34, σ 35]))) := by
  obtain ⟨hC1, hT1, hT4, hT4y, hC4, hT3y, hT3xy, hT1z, hC2, hT2z, hT2zy, hC3, hT3zy, hT1x, ha, ha0, ha1, ha2, ha3, ha4, hax, hax0, hax1, hax2, hax3, hax4, haz, haz0, haz1, haz2, haz3, haz4, hay, hay0, hay1, hay2, hay3, hay4, haxy, haxy0, haxy1, haxy2, haxy3, haxy4, hazy, hazy0, hazy1, hazy2, hazy3, hazy4⟩ := h
  obtain ⟨r, hr⟩ : ∃ r : Nat → Nat, r = fun l => [31, 30, 51, 36, 37, 38, 49, 50, 32, 34, 33, 35, 110, 111].getD l 0 := ⟨_, rfl⟩
  obtain ⟨R, e1, q⟩ := rdSl_closed (fun l => dim (r l)) e.C3 e.T3zy e.T2zy s.azy ⟨by simp [hr, hazy], by simp [hr, hazy1], by simp [hr, hazy2], by simp [hr, hazy3], by simp [hr, hazy4], by simp [hr, hazy0]⟩
    (by simp [hr, hC3]) (by simp [hr, hT3zy]) (by simp [hr, hT2zy])
  have q2 := q.rename (dim' := dim) r [0, 1, 2, 3, 4, 5, 6, 7, 8, 9, 10, 11, 12] (by rw [hr]; decide) (fun _ _ => rfl) (by decide) (by decide) (by decide)
  rw [hr] at q2
  refine ⟨R, e1, Denotes.congr (O := [[36, 37, 38], [51, 49, 50]]) q2 (by decide) (by decide) ?_⟩
  intro σ
  simp [Corner.Spec.rd, Corner.Spec.site, Corner.Spec.fused]

theorem lu32_closed (dim : Nat → Nat) (e : Env32 K) (s : Sites32 K) (h : Spec.Fits32 dim e s) :
    ∃ R, luSl e.C1 e.T1 e.T4 s.a false = some R ∧ Denotes dim R [[18, 19, 20], [13, 14, 15]] [0, 1, 2, 5, 3, 6, 100] [0, 1, 13, 18, 2, 5, 3, 6, 19, 20, 14, 15, 100]
      (fun σ => e.C1.val [σ 0, σ 1] * e.T1.val [σ 1, Corner.Spec.fused dim σ 2 5, σ 13] * e.T4.val [σ 0, σ 18, Corner.Spec.fused dim σ 3 6] * (s.a.val [σ 100, σ 2, σ 3, σ 19, σ 14] * star (s.a.val [σ 100, σ 5, σ 6, σ 20, σ 15]))) := by
  obtain ⟨hC1, hT1, hT4, hT1x, hC2, hT2x, hT4y, hT2xy, hT3xw, hC3, hT2xw, hT4w, hC4, hT3w, ha, ha0, ha1, ha2, ha3, ha4, hay, hay0, hay1, hay2, hay3, hay4, haw, haw0, haw1, haw2, haw3, haw4, hax, hax0, hax1, hax2, hax3, hax4, haxy, haxy0, haxy1, haxy2, haxy3, haxy4, haxw, haxw0, haxw1, haxw2, haxw3, haxw4⟩ := h
  obtain ⟨r, hr⟩ : ∃ r : Nat → Nat, r = fun l => [0, 1, 13, 18, 2, 5, 3, 6, 19, 20, 14, 15, 100, 101].getD l 0 := ⟨_, rfl⟩
  obtain ⟨R, e1, q⟩ := luSl_closed (fun l => dim (r l)) e.C1 e.T1 e.T4 s.a ⟨by simp [hr, ha], by simp [hr, ha1], by simp [hr, ha2], by simp [hr, ha3], by simp [hr, ha4], by simp [hr, ha0]⟩
    (by simp [hr, hC1]) (by simp [hr, hT1]) (by simp [hr, hT4])
  have q2 := q.rename (dim' := dim) r [0, 1, 2, 3, 4, 5, 6, 7, 8, 9, 10, 11, 12] (by rw [hr]; decide) (fun _ _ => rfl) (by decide) (by decide) (by decide)
  rw [hr] at q2
  refine ⟨R, e1, Denotes.congr (O := [[18, 19, 20], [13, 14, 15]]) q2 (by decide) (by decide) ?_⟩
  intro σ
  simp [Corner.Spec.lu, Corner.Spec.site, Corner.Spec.fused]

theorem ru32_open (dim : Nat → Nat) (e : Env32 K) (s : Sites32 K) (h : Spec.Fits32 dim e s) :
    ∃ R, ruSl e.C2 e.T2x e.T1x s.ax true = some R ∧ Denotes dim R [[13, 14, 15], [87, 85, 86], [106], [107]] [7, 8, 9, 11, 10, 12] [7, 8, 87, 13, 9, 11, 14, 15, 85, 86, 10, 12, 106, 107]
      (fun σ => e.C2.val [σ 7, σ 8] * e.T2x.val [σ 8, Corner.Spec.fused dim σ 10 12, σ 87] * e.T1x.val [σ 13, Corner.Spec.fused dim σ 9 11, σ 7] * (s.ax.val [σ 106, σ 9, σ 14, σ 85, σ 10] * star (s.ax.val [σ 107, σ 11, σ 15, σ 86, σ 12]))) := by
  obtain ⟨hC1, hT1, hT4, hT1x, hC2, hT2x, hT4y, hT2xy, hT3xw, hC3, hT2xw, hT4w, hC4, hT3w, ha, ha0, ha1, ha2, ha3, ha4, hay, hay0, hay1, hay2, hay3, hay4, haw, haw0, haw1, haw2, haw3, haw4, hax, hax0, hax1, hax2, hax3, hax4, haxy, haxy0, haxy1, haxy2, haxy3, haxy4, haxw, haxw0, haxw1, haxw2, haxw3, haxw4⟩ := h
  obtain ⟨r, hr⟩ : ∃ r : Nat → Nat, r = fun l => [7, 8, 87, 13, 9, 11, 14, 15, 85, 86, 10, 12, 106, 107].getD l 0 := ⟨_, rfl⟩
  obtain ⟨R, e1, q⟩ := ruSl_open (fun l => dim (r l)) e.C2 e.T2x e.T1x s.ax ⟨by simp [hr, hax], by simp [hr, hax1], by simp [hr, hax2], by simp [hr, hax3], by simp [hr, hax4], by simp [hr, hax0]⟩
    (by simp [hr, hC2]) (by simp [hr, hT2x]) (by simp [hr, hT1x])
  have q2 := q.rename (dim' := dim) r [0, 1, 2, 3, 4, 5, 6, 7, 8, 9, 10, 11, 12, 13] (by rw [hr]; decide) (fun _ _ => rfl) (by decide) (by decide) (by decide)
  rw [hr] at q2
  refine ⟨R, e1, Denotes.congr (O := [[13, 14, 15], [87, 85, 86], [106], [107]]) q2 (by decide) (by decide) ?_⟩
  intro σ
  simp [Corner.Spec.ru, Corner.Spec.site, Corner.Spec.fused]

theorem rd32_closed (dim : Nat → Nat) (e : Env32 K) (s : Sites32 K) (h : Spec.Fits32 dim e s) :
    ∃ R, rdSl e.C3 e.T3xw e.T2xw s.axw false = some R ∧ Denotes dim R [[57, 58, 59], [52, 53, 54]] [41, 40, 42, 44, 43, 45, 110] [41, 40, 52, 57, 58, 59, 53, 54, 42, 44, 43, 45, 110]
      (fun σ => e.C3.val [σ 41, σ 40] * e.T3xw.val [Corner.Spec.fused dim σ 42 44, σ 52, σ 40] * e.T2xw.val [σ 57, Corner.Spec.fused dim σ 43 45, σ 41] * (s.axw.val [σ 110, σ 58, σ 53, σ 42, σ 43] * star (s.axw.val [σ 110, σ 59, σ 54, σ 44, σ 45]))) := by
  obtain ⟨hC1, hT1, hT4, hT1x, hC2, hT2x, hT4y, hT2xy, hT3xw, hC3, hT2xw, hT4w, hC4, hT3w, ha, ha0, ha1, ha2, ha3, ha4, hay, hay0, hay1, hay2, hay3, hay4, haw, haw0, haw1, haw2, haw3, haw4, hax, hax0, hax1, hax2, hax3, hax4, haxy, haxy0, haxy1, haxy2, haxy3, haxy4, haxw, haxw0, haxw1, haxw2, haxw3, haxw4⟩ := h
  obtain ⟨r, hr⟩ : ∃ r : Nat → Nat, r = fun l => [41, 40, 52, 57, 58, 59, 53, 54, 42, 44, 43, 45, 110, 111].getD l 0 := ⟨_, rfl⟩
  obtain ⟨R, e1, q⟩ := rdSl_closed (fun l => dim (r l)) e.C3 e.T3xw e.T2xw s.axw ⟨by simp [hr, haxw], by simp [hr, haxw1], by simp [hr, haxw2], by simp [hr, haxw3], by simp [hr, haxw4], by simp [hr, haxw0]⟩
    (by simp [hr, hC3]) (by simp [hr, hT3xw]) (by simp [hr, hT2xw])
  have q2 := q.rename (dim' := dim) r [0, 1, 2, 3, 4, 5, 6, 7, 8, 9, 10, 11, 12] (by rw [hr]; decide) (fun _ _ => rfl) (by decide) (by decide) (by decide)
  rw [hr] at q2
  refine ⟨R, e1, Denotes.congr (O := [[57, 58, 59], [52, 53, 54]]) q2 (by decide) (by decide) ?_⟩
  intro σ
  simp [Corner.Spec.rd, Corner.Spec.site, Corner.Spec.fused]

theorem ld32_open (dim : Nat → Nat) (e : Env32 K) (s : Sites32 K) (h : Spec.Fits32 dim e s) :
    ∃ R, ldSl e.C4 e.T4w e.T3w s.aw true = some R ∧ Denotes dim R [[80, 81, 82], [52, 53, 54], [104], [105]] [47, 46, 48, 50, 49, 51] [47, 46, 80, 52, 81, 82, 48, 50, 49, 51, 53, 54, 104, 105]
      (fun σ => e.C4.val [σ 47, σ 46] * e.T4w.val [σ 80, σ 47, Corner.Spec.fused dim σ 48 50] * e.T3w.val [Corner.Spec.fused dim σ 49 51, σ 46, σ 52] * (s.aw.val [σ 104, σ 81, σ 48, σ 49, σ 53] * star (s.aw.val [σ 105, σ 82, σ 50, σ 51, σ 54]))) := by
  obtain ⟨hC1, hT1, hT4, hT1x, hC2, hT2x, hT4y, hT2xy, hT3xw, hC3, hT2xw, hT4w, hC4, hT3w, ha, ha0, ha1, ha2, ha3, ha4, hay, hay0, hay1, hay2, hay3, hay4, haw, haw0, haw1, haw2, haw3, haw4, hax, hax0, hax1, hax2, hax3, hax4, haxy, haxy0, haxy1, haxy2, haxy3, haxy4, haxw, haxw0, haxw1, haxw2, haxw3, haxw4⟩ := h
  obtain ⟨r, hr⟩ : ∃ r : Nat → Nat, r = fun l => [47, 46, 80, 52, 81, 82, 48, 50, 49, 51, 53, 54, 104, 105].getD l 0 := ⟨_, rfl⟩
  obtain ⟨R, e1, q⟩ := ldSl_open (fun l => dim (r l)) e.C4 e.T4w e.T3w s.aw ⟨by simp [hr, haw], by simp [hr, haw1], by simp [hr, haw2], by simp [hr, haw3], by simp [hr, haw4], by simp [hr, haw0]⟩
    (by simp [hr, hC4]) (by simp [hr, hT4w]) (by simp [hr, hT3w])
  have q2 := q.rename (dim' := dim) r [0, 1, 2, 3, 4, 5, 6, 7, 8, 9, 10, 11, 12, 13] (by rw [hr]; decide) (fun _ _ => rfl) (by decide) (by decide) (by decide)
  rw [hr] at q2
  refine ⟨R, e1, Denotes.congr (O := [[80, 81, 82], [52, 53, 54], [104], [105]]) q2 (by decide) (by decide) ?_⟩
  intro σ
  simp [Corner.Spec.ld, Corner.Spec.site, Corner.Spec.fused]

end Verif.Rdm
