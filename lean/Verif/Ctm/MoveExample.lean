import Verif.Ctm.SweepProps
/-
A move that succeeds: one site, all sizes one, all entries one. It shows that the hypothesis of `C24_move` is met.
-/
namespace Verif.Ctm
open Tensor Spec
/-- A tensor with a single entry, which is one. -/
def Is1 (A : Tensor ℝ) (n : Nat) : Prop := A.shape = List.replicate n 1 ∧ A.val (List.replicate n 0) = 1

theorem is1_canon {A : Tensor ℝ} {n : Nat} (h : Is1 A n) : Is1 (canon A) n := by
  refine ⟨h.1, ?_⟩
  simp only [canon]
  rw [if_pos, h.2]
  rw [h.1]
  clear h
  induction n with
  | zero => exact .nil
  | succ n ih => exact .cons (by decide) ih

theorem sumIdx_one (n : Nat) (f : List Nat → ℝ) : sumIdx (List.replicate n 1) f = f (List.replicate n 0) := by
  induction n generalizing f with
  | zero => rfl
  | succ n ih => simp [List.replicate_succ, sumIdx, ih]

theorem merge_zero (n : Nat) (ax : List Nat) (k m : Nat) : merge n ax (List.replicate k 0) (List.replicate m 0) = List.replicate n 0 := by
  simp only [merge]
  rw [List.eq_replicate_iff]
  refine ⟨by simp, fun b hb => ?_⟩
  simp only [List.mem_map] at hb
  obtain ⟨p, -, rfl⟩ := hb
  split <;> simp [List.getD_eq_getElem?_getD, List.getElem?_replicate] <;> split <;> rfl

theorem is1_td {A B : Tensor ℝ} {n m : Nat} (hA : Is1 A n) (hB : Is1 B m) (ax bx : List Nat) (h1 : ax.Nodup ∧ bx.Nodup ∧ (∀ p ∈ ax, p < n) ∧ (∀ p ∈ bx, p < m) ∧ ax.length = bx.length)
   (k : Nat) (hk : (freeAxes n ax).length + (freeAxes m bx).length = k) :
    ∃ C, tensordot ax bx A B = some C ∧ Is1 C k := by
  have g : ∀ (q : Nat) (l : List Nat), (∀ p ∈ l, p < q) → l.map ((List.replicate q 1).getD · 0) = List.replicate l.length 1 := by
    intro q l hl
    rw [List.eq_replicate_iff]
    refine ⟨by simp, fun b hb => ?_⟩
    obtain ⟨p, hp, rfl⟩ := List.mem_map.1 hb
    simp [List.getD_eq_getElem?_getD, List.getElem?_replicate, hl p hp]
  have fr : ∀ (q : Nat) (l : List Nat), ∀ p ∈ freeAxes q l, p < q := by
    intro q l p hp; simp [freeAxes] at hp; exact hp.1
  unfold tensordot
  rw [if_pos]
  · refine ⟨_, rfl, ?_, ?_⟩
    · simp only [hA.1, hB.1, List.length_replicate]
      rw [g _ _ (fr _ _), g _ _ (fr _ _), ← List.replicate_add, hk]
    · simp only [hA.1, hB.1, List.length_replicate, g _ _ h1.2.2.1, sumIdx_one, List.take_replicate, List.drop_replicate, merge_zero, hA.2, hB.2, mul_one]
  · simp only [hA.1, hB.1, List.length_replicate]
    rw [g _ _ h1.2.2.1, g _ _ h1.2.2.2.1, h1.2.2.2.2]
    exact ⟨h1.1, h1.2.1, h1.2.2.1, h1.2.2.2.1, rfl⟩

theorem is1_size {A : Tensor ℝ} {n : Nat} (h : Is1 A n) (i : Nat) (hi : i < n) : A.size i = 1 := by
  simp [size, h.1, List.getD_eq_getElem?_getD, hi]

theorem is1_view {A : Tensor ℝ} {n : Nat} (h : Is1 A n) (k : Nat) : ∃ C, view (List.replicate k 1) A = some C ∧ Is1 C k := by
  unfold view
  rw [if_pos (by simp [h.1])]
  refine ⟨_, rfl, rfl, ?_⟩
  have hr : ∀ k, ravel (List.replicate k 1) (List.replicate k 0) = 0 := by
    intro k; induction k with
    | zero => rfl
    | succ k ih => simp [List.replicate_succ, ravel, ih]
  have hu : ∀ n, unravel (List.replicate n 1) 0 = List.replicate n 0 := by
    intro k; induction k with
    | zero => rfl
    | succ k ih => simp [List.replicate_succ, unravel, ih]
  simp only [h.1, hr, hu, h.2]

theorem is1_permute {A : Tensor ℝ} {n : Nat} (h : Is1 A n) (p : List Nat) (hp : p.length = n ∧ p.Nodup ∧ ∀ q ∈ p, q < n) :
    ∃ C, permute p A = some C ∧ Is1 C n := by
  unfold permute
  rw [if_pos (by simpa [h.1] using hp)]
  refine ⟨_, rfl, ?_, ?_⟩
  · rw [List.eq_replicate_iff]
    refine ⟨by simp [hp.1], fun b hb => ?_⟩
    obtain ⟨q, hq, rfl⟩ := List.mem_map.1 hb
    simp [h.1, List.getD_eq_getElem?_getD, hp.2.2 q hq]
  · simp only [h.1, List.length_replicate]
    have : (List.range n).map (fun j => (List.replicate n 0).getD (List.idxOf j p) 0) = List.replicate n 0 := by
      rw [List.eq_replicate_iff]
      refine ⟨by simp, fun b hb => ?_⟩
      obtain ⟨q, hq, rfl⟩ := List.mem_map.1 hb
      simp [List.getD_eq_getElem?_getD, List.getElem?_replicate]
      split <;> rfl
    rw [this, h.2]

theorem is1_lu {C T1 T2 A : Tensor ℝ} (hC : Is1 C 2) (h1 : Is1 T1 3) (h2 : Is1 T2 3) (hA : Is1 A 4) : ∃ X, Corner.luDl C T1 T2 A false = some X ∧ Is1 X 2 := by
  obtain ⟨x, e1, hx⟩ := is1_td hC h1 [1] [0] (by decide) 3 (by decide)
  obtain ⟨y, e2, hy⟩ := is1_td hx h2 [0] [0] (by decide) 4 (by decide)
  obtain ⟨z, e3, hz⟩ := is1_td hy hA [0, 3] [0, 1] (by decide) 4 (by decide)
  obtain ⟨w, e4, hw⟩ := is1_permute hz [1, 2, 0, 3] (by decide)
  obtain ⟨v, e5, hv⟩ := is1_view hw 2
  refine ⟨v, ?_, hv⟩
  simp [Corner.luDl, e1, e2, e3, e4, is1_size h1, is1_size h2, is1_size hA]
  exact e5

theorem is1_ru {C T1 T2 A : Tensor ℝ} (hC : Is1 C 2) (h1 : Is1 T1 3) (h2 : Is1 T2 3) (hA : Is1 A 4) : ∃ X, Corner.ruDl C T1 T2 A false = some X ∧ Is1 X 2 := by
  obtain ⟨x, e1, hx⟩ := is1_td hC h1 [1] [0] (by decide) 3 (by decide)
  obtain ⟨y, e2, hy⟩ := is1_td hx h2 [0] [2] (by decide) 4 (by decide)
  obtain ⟨z, e3, hz⟩ := is1_td hy hA [0, 3] [3, 0] (by decide) 4 (by decide)
  obtain ⟨w, e4, hw⟩ := is1_permute hz [1, 2, 0, 3] (by decide)
  obtain ⟨v, e5, hv⟩ := is1_view hw 2
  refine ⟨v, ?_, hv⟩
  simp [Corner.ruDl, e1, e2, e3, e4, is1_size h1, is1_size h2, is1_size hA]
  exact e5

theorem is1_rd {C T1 T2 A : Tensor ℝ} (hC : Is1 C 2) (h1 : Is1 T1 3) (h2 : Is1 T2 3) (hA : Is1 A 4) : ∃ X, Corner.rdDl C T1 T2 A false = some X ∧ Is1 X 2 := by
  obtain ⟨x, e1, hx⟩ := is1_td hC h1 [1] [2] (by decide) 3 (by decide)
  obtain ⟨y, e2, hy⟩ := is1_td hx h2 [0] [2] (by decide) 4 (by decide)
  obtain ⟨z, e3, hz⟩ := is1_td hy hA [0, 3] [2, 3] (by decide) 4 (by decide)
  obtain ⟨w, e4, hw⟩ := is1_permute hz [1, 2, 0, 3] (by decide)
  obtain ⟨v, e5, hv⟩ := is1_view hw 2
  refine ⟨v, ?_, hv⟩
  simp [Corner.rdDl, e1, e2, e3, e4, is1_size h1, is1_size h2, is1_size hA]
  exact e5

theorem is1_ld {C T1 T2 A : Tensor ℝ} (hC : Is1 C 2) (h1 : Is1 T1 3) (h2 : Is1 T2 3) (hA : Is1 A 4) : ∃ X, Corner.ldDl C T1 T2 A false = some X ∧ Is1 X 2 := by
  obtain ⟨x, e1, hx⟩ := is1_td hC h1 [0] [1] (by decide) 3 (by decide)
  obtain ⟨y, e2, hy⟩ := is1_td hx h2 [0] [1] (by decide) 4 (by decide)
  obtain ⟨z, e3, hz⟩ := is1_td hy hA [1, 2] [1, 2] (by decide) 4 (by decide)
  obtain ⟨w, e4, hw⟩ := is1_permute hz [0, 2, 1, 3] (by decide)
  obtain ⟨v, e5, hv⟩ := is1_view hw 2
  refine ⟨v, ?_, hv⟩
  simp [Corner.ldDl, e1, e2, e3, e4, is1_size h1, is1_size h2, is1_size hA]
  exact e5

/-- One site (double layer), all sizes and entries one. -/
def oneState : State ℝ := { keys := [(0, 0)], sites := fun _ => some (exOnes [1, 1, 1, 1]), vts := fun _ => (0, 0), lX := 1, lY := 1 }
def oneEnv : Env ℝ := { chi := 1, C := fun _ => some (exOnes [1, 1]), T := fun _ => some (exOnes [1, 1, 1]) }
noncomputable def oneArgs : Args := ⟨true, true, 0, true, true⟩

theorem is1_ones (n : Nat) : Is1 (exOnes (List.replicate n 1)) n := ⟨rfl, rfl⟩

theorem is1_projectorsFrom {R Q : Tensor ℝ} (hR : Is1 R 2) (hQ : Is1 Q 2) : ∃ P Pt, projectorsFrom oneArgs exSvd R Q 1 = some (P, Pt) ∧ Is1 P 2 ∧ Is1 Pt 2 := by
  obtain ⟨x, e1, hx⟩ := is1_permute hR [1, 0] (by decide)
  obtain ⟨M, e2, hM⟩ := is1_td hx hQ [1] [0] (by decide) 2 (by decide)
  have hs : (exSvd (canon M) 1).U = exOnes [1, 1] ∧ (exSvd (canon M) 1).S = [1] ∧ (exSvd (canon M) 1).V = exOnes [1, 1] := by
    have : (canon M).shape = [1, 1] := hM.1
    simp [exSvd, this]
  have hf : firstCols 1 (exOnes [1, 1]) = some (exOnes [1, 1]) := rfl
  have hc : (exOnes [1, 1]).conj = exOnes [1, 1] := by simp [exOnes, conj]
  obtain ⟨p, e3, hp⟩ := is1_td hR (is1_ones 2) [1] [0] (by decide) 2 (by decide)
  obtain ⟨q, e4, hq⟩ := is1_td hQ (is1_ones 2) [1] [0] (by decide) 2 (by decide)
  have e3' : tensordot [1] [0] R (exOnes [1, 1]) = some p := e3
  have e4' : tensordot [1] [0] Q (exOnes [1, 1]) = some q := e4
  have hr : recipRoots 0 [1] = [1] := by simp [recipRoots, nonzero]
  have hsc : ∀ {A : Tensor ℝ}, Is1 A 2 → ∃ B, scaleCols [1] A = some B ∧ Is1 B 2 := by
    intro A hA
    have h1 : A.shape = [1, 1] := hA.1
    have h2 : A.val [0, 0] = 1 := hA.2
    exact ⟨⟨[1, 1], fun idx => A.val idx * (([(1 : ℝ)].getD (idx.getD 1 0) 0 : ℝ) : ℝ)⟩, by simp [scaleCols, h1], rfl, by simp [h2]⟩
  obtain ⟨p', e5, hp'⟩ := hsc hp
  obtain ⟨q', e6, hq'⟩ := hsc hq
  refine ⟨p', q', ?_, hp', hq'⟩
  unfold projectorsFrom
  rw [if_pos ⟨by rw [hR.1, hQ.1], by simp [hR.1]⟩]
  simp [e1, e2, hs, oneArgs, hf, hc, e3', e4', hr, e5, e6]

theorem is1_view3 {P : Tensor ℝ} (h : Is1 P 2) : ∃ Q, view3 1 1 P = some Q ∧ Is1 Q 3 := by
  obtain ⟨v, e, hv⟩ := is1_view h 3
  refine ⟨v, ?_, hv⟩
  simp only [view3, h.1]
  simpa using e

theorem is1_normalize {A : Tensor ℝ} {n : Nat} (h : Is1 A n) : ∃ B, normalize true A = .ok B := by
  unfold normalize
  rw [if_neg]
  · exact ⟨_, rfl⟩
  · have hin : (List.replicate n 0) ∈ indices A.shape := by
      rw [mem_indices, h.1]
      have : ∀ n, InB (List.replicate n 1) (List.replicate n 0) := by
        intro n; induction n with
        | zero => exact .nil
        | succ n ih => exact .cons (by decide) ih
      exact this n
    have : (1 : ℝ) ≤ vecNorm true A := by
      simp only [vecNorm, if_true]
      refine le_foldr_max (List.mem_map.2 ⟨_, hin, by simp [h.2]⟩)
    linarith

theorem one_move : ∃ env', ctmMove oneArgs exSvd .left oneState oneEnv = .ok env' := by
  have h2 : Is1 (exOnes [1, 1]) 2 := is1_ones 2
  have h3 : Is1 (exOnes [1, 1, 1]) 3 := is1_ones 3
  have h4 : Is1 (exOnes [1, 1, 1, 1]) 4 := is1_ones 4
  obtain ⟨lu, e1, hlu⟩ := is1_lu h2 h3 h3 h4
  obtain ⟨ru, e2, hru⟩ := is1_ru h2 h3 h3 h4
  obtain ⟨rd, e3, hrd⟩ := is1_rd h2 h3 h3 h4
  obtain ⟨ld, e4, hld⟩ := is1_ld h2 h3 h3 h4
  obtain ⟨R, e5, hR⟩ := is1_td hlu hru [1] [0] (by decide) 2 (by decide)
  obtain ⟨Q, e6, hQ⟩ := is1_td hld hrd [1] [1] (by decide) 2 (by decide)
  obtain ⟨P, Pt, e7, hP, hPt⟩ := is1_projectorsFrom hR hQ
  have hpr : projectors oneArgs exSvd oneState oneEnv .left (0, 0) = some (canon P, canon Pt) := by
    have hh : halves oneState oneEnv false .left (0, 0) = some (R, Q) := by
      simp [halves, c2x2LU, c2x2RU, c2x2RD, c2x2LD, oneState, oneEnv, State.site, e1, e2, e3, e4, e5, e6]
    have hm : mats oneArgs oneState oneEnv .left (0, 0) = some (R, Q) := hh
    have e7' : projectorsFrom oneArgs exSvd R Q oneEnv.chi = some (P, Pt) := e7
    simp [projectors, hm, e7']
  obtain ⟨V, e8, hV⟩ := is1_view3 (is1_canon hP)
  obtain ⟨W, e9, hW⟩ := is1_view3 (is1_canon hPt)
  obtain ⟨a1, f1, g1⟩ := is1_td h2 h3 [1] [0] (by decide) 3 (by decide)
  obtain ⟨a, f2, ha⟩ := is1_td hW g1 [0, 1] [0, 1] (by decide) 2 (by decide)
  obtain ⟨b1, f3, g3⟩ := is1_td h2 h3 [1] [1] (by decide) 3 (by decide)
  obtain ⟨b, f4, hb⟩ := is1_td hV g3 [0, 1] [0, 1] (by decide) 2 (by decide)
  obtain ⟨t1, f5, g5⟩ := is1_td hV h3 [0] [0] (by decide) 4 (by decide)
  obtain ⟨t2, f6, g6⟩ := is1_td g5 h4 [0, 3] [0, 1] (by decide) 4 (by decide)
  obtain ⟨t3, f7, g7⟩ := is1_td g6 hW [1, 2] [0, 1] (by decide) 3 (by decide)
  obtain ⟨t, f8, ht⟩ := is1_permute g7 [0, 2, 1] (by decide)
  have hab : absorb oneState oneEnv true (ofList [((0, 0), canon P, canon Pt)]) .left (0, 0) = some (a, b, t) := by
    have hof : ofList [((0, 0), canon P, canon Pt)] (0, 0) = some (canon P, canon Pt) := by simp [ofList]
    have hs2 : ∀ i, i < 2 → (exOnes [1, 1]).size i = 1 := is1_size h2
    have hs3 : ∀ i, i < 3 → (exOnes [1, 1, 1]).size i = 1 := is1_size h3
    have hs4 : ∀ i, i < 4 → (exOnes [1, 1, 1, 1]).size i = 1 := is1_size h4
    simp [absorb, absorbLeft, oneState, oneEnv, State.site, siteSize, hof, hs2, hs3, hs4, e8, e9, Absorb.leftC1, Absorb.leftC2, Absorb.leftTdl, f1, f2, f3, f4, f5, f6, f7, f8]
  obtain ⟨a', na⟩ := is1_normalize ha
  obtain ⟨b', nb⟩ := is1_normalize hb
  obtain ⟨t', nt⟩ := is1_normalize ht
  have h5 : newTensors oneArgs exSvd .left oneState oneEnv = .ok [((0, 0), a', b', t')] := by
    have hk : oneState.keys = [(0, 0)] := rfl
    have hps : projStep oneArgs exSvd .left oneState oneEnv (0, 0) = .ok ((0, 0), canon P, canon Pt) := by
      simp [projStep, hpr, lift, bind, Except.bind, pure, Except.pure]
    have hss : siteStep oneArgs .left oneState oneEnv (ofList [((0, 0), canon P, canon Pt)]) (0, 0) = .ok ((0, 0), a', b', t') := by
      have hab' : absorb oneState oneEnv oneArgs.dl (ofList [((0, 0), canon P, canon Pt)]) .left (0, 0) = some (a, b, t) := hab
      have hi : oneArgs.inf = true := rfl
      simp [siteStep, hab', hi, na, nb, nt, lift, bind, Except.bind, pure, Except.pure]
    unfold newTensors
    simp [hk, hps, hss, bind, Except.bind, pure, Except.pure]
  exact ⟨_, by unfold ctmMove; rw [h5]; rfl⟩

theorem oneTiling : Tiling oneState := ⟨fun _ _ => rfl, fun _ => by simp [oneState], fun c hc => by simp [oneState] at hc; rw [hc]; rfl, by simp [oneState]⟩

example : ∃ env', ctmMove oneArgs exSvd .left oneState oneEnv = .ok env' ∧ env'.chi = 1 := by
  obtain ⟨env', h⟩ := one_move
  exact ⟨env', h, (C24_move oneTiling h).1⟩

end Verif.Ctm
