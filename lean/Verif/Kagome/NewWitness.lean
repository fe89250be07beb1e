import Verif.Kagome.NewProps
import Verif.Rdm.PlaqProps
import Verif.Kagome.Example
/-
C114, continued: refutations and a concrete case.
-/
namespace Verif.KagomeRdm
open Tensor Ctm Rdm Ctm.Spec

/-- One site in the cell, vertical bonds of size two, three spins one half. -/
def wDims : Dims := ⟨fun _ => 2 ^ 3, fun _ => 2, fun _ => 1, fun _ => 1, fun _ => 1, fun _ => 1, fun _ => 1⟩

/-- Two spins in the first state, the last in the second; one value of the bonds. -/
def wSite : Tensor ℝ := ⟨[2 ^ 3, 2, 1, 2, 1], fun idx => if idx = [1, 0, 0, 0, 0] then 1 else 0⟩

def wState : State ℝ := { keys := [(0, 0)], sites := fun _ => some wSite, vts := fun _ => (0, 0), lX := 1, lY := 1 }

/-- All entries are one; there are entries for the site of the cell only. -/
def wEnv : Env ℝ :=
  { chi := 1, C := fun k => if k.1 = (0, 0) then some ⟨[1, 1], fun _ => 1⟩ else none
    T := fun k => if k.1 = (0, 0) then some ⟨if k.2 = (0, -1) then [1, 4, 1] else if k.2 = (0, 1) then [4, 1, 1] else [1, 1, 1], fun _ => 1⟩ else none }

theorem wTiling : Tiling wState := ⟨fun _ _ => rfl, fun _ => by simp [wState], fun c hc => by simp [wState] at hc ⊢; exact hc.symm, by simp [wState]⟩

theorem wFits : FitsState wDims wState :=
  ⟨fun c => ⟨_, rfl, rfl⟩, ⟨fun _ => by simp [wDims], fun _ => rfl⟩, ⟨fun _ => by simp [wDims], fun _ => rfl⟩, ⟨fun _ => by simp [wDims], fun _ => rfl⟩⟩

theorem wFitsEnv : FitsEnv wDims wState wEnv := by
  refine ⟨?_, ?_, ?_, ?_, ?_, ?_, ?_, ?_, ⟨fun _ => by simp [wDims], fun _ => rfl⟩, ⟨fun _ => by simp [wDims], fun _ => rfl⟩, ⟨fun _ => by simp [wDims], fun _ => rfl⟩, ⟨fun _ => by simp [wDims], fun _ => rfl⟩⟩ <;>
  · intro c
    exact ⟨_, rfl, rfl⟩

theorem netS_ones (dim : Nat → Nat) (e : SiteEnv ℝ) (f : Nat → Nat → Nat → Nat → ℝ) (he : ∀ σ, envS e σ = 1) (h2 : dim 2 = 2) (h16 : dim 16 = 2)
    (h1 : ∀ l ∈ [0, 1, 3, 7, 15, 19, 27, 33, 36, 37], dim l = 1) : netS dim e f = ∑ U ∈ Finset.range 4, ∑ D ∈ Finset.range 4, f U 0 D 0 := by
  simp only [List.forall_mem_cons, List.not_mem_nil, false_imp_iff, implies_true, and_true] at h1
  obtain ⟨a0, a1, a3, a7, a15, a19, a27, a33, a36, a37⟩ := h1
  simp [netS, innerS, sumOver, bodyS, he, fdim, fused, h2, h16, a0, a1, a3, a7, a15, a19, a27, a33, a36, a37, Finset.sum_range_succ]

theorem netS_unit (dim : Nat → Nat) (e : SiteEnv ℝ) (f : Nat → Nat → Nat → Nat → ℝ) (he : ∀ σ, envS e σ = 1)
    (h1 : ∀ l ∈ [0, 1, 2, 3, 7, 15, 16, 19, 27, 33, 36, 37], dim l = 1) : netS dim e f = f 0 0 0 0 := by
  simp only [List.forall_mem_cons, List.not_mem_nil, false_imp_iff, implies_true, and_true] at h1
  obtain ⟨a0, a1, a2, a3, a7, a15, a16, a19, a27, a33, a36, a37⟩ := h1
  simp [netS, innerS, sumOver, bodyS, he, fdim, fused, a0, a1, a2, a3, a7, a15, a16, a19, a27, a33, a36, a37]

/-- The density matrix of a site tensor with one entry. -/
theorem wRdm (eigh : Tensor ℝ → List ℝ × Tensor ℝ) {st : State ℝ} (ht : Tiling st) (hs : FitsState wDims st) (he : FitsEnv wDims st wEnv) (hv : st.vts = fun _ => (0, 0)) {a : Tensor ℝ} (ha : st.site (0, 0) = some a)
    (s0 : Nat) (hs0 : s0 < 8) (h : ∀ s < 8, ∀ u < 2, ∀ d < 2, a.val [s, u, 0, d, 0] = if s = s0 ∧ u = 0 ∧ d = 0 then 1 else 0) :
    ∃ R, rdm1x1 eigh true false st wEnv (0, 0) none = .ok R ∧ ∀ s < 8, ∀ t < 8, R.val [s, t] = if s = s0 ∧ t = s0 then 1 else 0 := by
  obtain ⟨e, a', h1, h2, h0, h3⟩ := siteEnv_ok hs he (0, 0)
  obtain rfl : a = a' := by rw [ha] at h2; exact Option.some.inj h2
  obtain ⟨A, rho, eA, e1, -⟩ := dl1x1_open (Rdm.Spec.dims1 wDims (0, 0)) e a h3
  obtain ⟨T, eT, sT, vT⟩ := fullS h3 eA (P := 2 ^ 3) rfl
  obtain rfl : T = rho := by rw [e1] at eT; exact (Option.some.inj eT).symm
  have hE : ∀ σ, envS e σ = 1 := by
    rw [hv] at h1
    have : e = ⟨⟨[1, 1], fun _ => 1⟩, ⟨[1, 1], fun _ => 1⟩, ⟨[1, 1], fun _ => 1⟩, ⟨[1, 1], fun _ => 1⟩, ⟨[1, 4, 1], fun _ => 1⟩, ⟨[1, 1, 1], fun _ => 1⟩, ⟨[4, 1, 1], fun _ => 1⟩, ⟨[1, 1, 1], fun _ => 1⟩⟩ :=
      (Option.some.inj h1).symm
    intro σ
    rw [this]; simp [envS]
  have hval : ∀ s < 8, ∀ t < 8, T.val [s, t] = if s = s0 ∧ t = s0 then 1 else 0 := by
    intro s hs t ht
    have := vT s t hs ht
    rw [netS_ones _ e _ hE rfl rfl (by decide)] at this
    refine this.trans ?_
    have sz : a.size 1 = 2 ∧ a.size 2 = 1 ∧ a.size 3 = 2 ∧ a.size 4 = 1 := by
      have := h3.a
      refine ⟨?_, ?_, ?_, ?_⟩ <;> rw [size, this] <;> rfl
    obtain ⟨z1, z2, z3, z4⟩ := sz
    have g := fun s hs u hu d hd => h s hs u hu d hd
    simp only [lay, z1, z2, z3, z4, Finset.sum_range_succ, Finset.sum_range_zero]
    norm_num [h s hs 0 (by omega) 0 (by omega), h s hs 0 (by omega) 1 (by omega), h s hs 1 (by omega) 0 (by omega), h s hs 1 (by omega) 1 (by omega),
      h t ht 0 (by omega) 0 (by omega), h t ht 0 (by omega) 1 (by omega), h t ht 1 (by omega) 0 (by omega), h t ht 1 (by omega) 1 (by omega)]
    by_cases h1 : s = s0 <;> by_cases h2 : t = s0 <;> simp [h1, h2]
  have htr : Matrix.trace (Rdm.Spec.op (List.replicate 1 (2 ^ 3)) T) = 1 := by
    rw [trace_op]
    simp only [List.replicate, sumIdx]
    rw [Finset.sum_eq_single s0]
    · exact (hval s0 hs0 s0 hs0).trans (by simp)
    · intro s hs hne
      have hs' : s < 8 := Finset.mem_range.1 hs
      exact (hval s hs' s hs').trans (by simp [hne])
    · intro hn; exact absurd (Finset.mem_range.2 (by simpa using hs0)) hn
  obtain ⟨R, eR, -, vR⟩ := symRdm_entries eigh sT (by decide) (by rw [htr]; simp)
  refine ⟨R, by rw [site_network ht h1 h2 h3 eA e1 eigh true false (.inl rfl), eR], fun s hs t ht => ?_⟩
  have := vR [s] [t] (by simpa [InB] using hs) (by simpa [InB] using ht)
  rw [htr] at this
  refine this.trans ?_
  show _ * (T.val [s, t] + star (T.val [t, s])) = _
  rw [hval s hs t ht, hval t ht s hs]
  by_cases h1 : s = s0 <;> by_cases h2 : t = s0 <;> simp [h1, h2]; norm_num

/-- `rdm1x1_kagome` is not the density matrix of the three spins: the spins `0, 0, 1` are returned as `1, 0, 0`. -/
theorem C114_violated (eigh : Tensor ℝ → List ℝ × Tensor ℝ) : ∃ (D : Dims) (st : State ℝ) (env : Env ℝ) (R R' : Tensor ℝ), Tiling st ∧ FitsState D st ∧ FitsEnv D st env ∧
    (∀ c, D.p c = 2 ^ 3) ∧ rdm1x1 eigh true false st env (0, 0) none = .ok R ∧ new1x1 eigh false st env (0, 0) ['A', 'B', 'C'] = .ok R' ∧
    Spec.marginal 2 1 R [0, 1, 2] (fun x => [0, 0, 1].getD x 0) (fun x => [0, 0, 1].getD x 0) = 1 ∧ R'.val [0, 0, 1, 0, 0, 1] = 0 ∧ R'.val [1, 0, 0, 1, 0, 0] = 1 := by
  obtain ⟨R, hR, vR⟩ := wRdm eigh wTiling wFits wFitsEnv rfl (a := wSite) rfl 1 (by decide) (by
    intro s hs u hu d hd
    simp [wSite])
  obtain ⟨Q, hQ, vQ⟩ := wRdm eigh (scrambled_tiling wTiling) (scrambled_fits wFits) (scrambled_env wFitsEnv) rfl (a := Spec.scrambled wSite) rfl 4 (by decide) (by
    have key : ∀ s < 8, ∀ u < 2, ∀ d < 2, (unravel [2 ^ 3, 2, 1, 2, 1] (ravel ([2 ^ 3, 2, 1, 2, 1].drop 1 ++ [2 ^ 3, 2, 1, 2, 1].take 1) ([s, u, 0, d, 0].drop 1 ++ [s, u, 0, d, 0].take 1)) = [1, 0, 0, 0, 0]) ↔
      (s = 4 ∧ u = 0 ∧ d = 0) := by decide
    intro s hs u hu d hd
    show (if _ = [1, 0, 0, 0, 0] then (1 : ℝ) else 0) = _
    exact if_congr (key s hs u hu d hd) rfl rfl)
  obtain ⟨R', h1, h2⟩ := C114_new eigh wTiling wFits wFitsEnv (p := 2) (fun _ => rfl) (0, 0) ['A', 'B', 'C'] ⟨by decide, by decide⟩ (by decide) hQ
  have hm : ∀ (X : Tensor ℝ), ∀ v < 8, Spec.marginal 2 1 X [0, 1, 2] (fun x => [v / 4 % 2, v / 2 % 2, v % 2].getD x 0) (fun x => [v / 4 % 2, v / 2 % 2, v % 2].getD x 0) = X.val [v, v] := by
    intro X v hv
    have key : ∀ v < 8, ∀ s < 8, ∀ t < 8, Spec.Agree 2 1 [0, 1, 2] (fun x => [v / 4 % 2, v / 2 % 2, v % 2].getD x 0) (fun x => [v / 4 % 2, v / 2 % 2, v % 2].getD x 0) [s] [t] ↔ (s = v ∧ t = v) := by
      decide +kernel
    unfold Spec.marginal
    simp only [List.replicate, sumIdx]
    rw [Finset.sum_eq_single v, Finset.sum_eq_single v]
    · exact if_pos ((key v hv v hv v hv).2 ⟨rfl, rfl⟩)
    · intro t h1 h2
      exact if_neg fun h => h2 ((key v hv v hv t (Finset.mem_range.1 h1)).1 h).2
    · intro h; exact absurd (Finset.mem_range.2 hv) h
    · intro s h1 h2
      exact Finset.sum_eq_zero fun t h3 => if_neg fun h => h2 ((key v hv s (Finset.mem_range.1 h1) t (Finset.mem_range.1 h3)).1 h).1
    · intro h; exact absurd (Finset.mem_range.2 hv) h
  have e1 := h2.val (fun x => [0, 0, 1].getD x 0) (fun x => [0, 0, 1].getD x 0) (by intro x; rcases x with _ | _ | _ | x <;> simp) (by intro x; rcases x with _ | _ | _ | x <;> simp)
  have e2 := h2.val (fun x => [1, 0, 0].getD x 0) (fun x => [1, 0, 0].getD x 0) (by intro x; rcases x with _ | _ | _ | x <;> simp) (by intro x; rcases x with _ | _ | _ | x <;> simp)
  have hl : Spec.letters ['A', 'B', 'C'] = [0, 1, 2] := by decide
  rw [hl] at e1 e2
  refine ⟨wDims, wState, wEnv, R, R', wTiling, wFits, wFitsEnv, fun _ => rfl, hR, h1, ?_, ?_, ?_⟩
  · exact (hm R 1 (by decide)).trans (vR 1 (by decide) 1 (by decide))
  · exact (e1.trans (hm Q 1 (by decide))).trans ((vQ 1 (by decide) 1 (by decide)).trans (by simp))
  · exact (e2.trans (hm Q 4 (by decide))).trans ((vQ 4 (by decide) 4 (by decide)).trans (by simp))

/-- `trace1x1_dn_kagome` raises for a vertex outside the cell, where `rdm1x1` gives a density matrix. -/
theorem C114_trace_violated (eigh : Tensor ℝ → List ℝ × Tensor ℝ) : ∃ (D : Dims) (st : State ℝ) (env : Env ℝ) (o : Tensor ℝ) (R : Tensor ℝ), Tiling st ∧ FitsState D st ∧ FitsEnv D st env ∧
    (∀ c, D.p c = 2 ^ 3) ∧ Spec.Represents o (1 : Spec.Op3 ℝ 2) ∧ rdm1x1 eigh true false st env (1, 0) none = .ok R ∧ trace1x1 st env (1, 0) o = none := by
  obtain ⟨R, hR, vR⟩ := wRdm eigh wTiling wFits wFitsEnv rfl (a := wSite) rfl 1 (by decide) (by
    intro s hs u hu d hd
    simp [wSite])
  refine ⟨wDims, wState, wEnv, ⟨[2, 2, 2, 2, 2, 2], fun idx => if idx.take 3 = idx.drop 3 then 1 else 0⟩, R, wTiling, wFits, wFitsEnv, fun _ => rfl, .inl ⟨rfl, ?_⟩, ?_, ?_⟩
  · intro t s
    show (if [(t 0 : Nat), t 1, t 2] = [(s 0 : Nat), s 1, s 2] then (1 : ℝ) else 0) = _
    rw [Matrix.one_apply]
    refine if_congr ⟨fun h => ?_, fun h => by rw [h]⟩ rfl rfl
    simp only [List.cons.injEq, and_true] at h
    funext i
    fin_cases i
    exacts [Fin.ext h.1, Fin.ext h.2.1, Fin.ext h.2.2]
  · rw [← hR]; rfl
  · rfl

/-! Concrete cases: bonds of different sizes, and bonds of size one. -/

example (c : Coord) (hc : c ∈ (exState kDims).keys) :=
  C114_trace_partial (exTiling kDims) kFitsState kFits kCube c hc

example (eigh : Tensor ℝ → List ℝ × Tensor ℝ) : ∃ R', old1x1 eigh false wState wEnv (0, 0) ['A', 'C'] = .ok R' := by
  obtain ⟨R, hR, vR⟩ := wRdm eigh wTiling wFits wFitsEnv rfl (a := wSite) rfl 1 (by decide) (by
    intro s hs u hu d hd
    simp [wSite])
  obtain ⟨R', h, -⟩ := C114_old eigh wTiling wFits wFitsEnv (p := 2) (fun _ => rfl) (0, 0) ['A', 'C'] ⟨by decide, by decide⟩ (by decide) true (.inl rfl) hR
  exact ⟨R', h⟩

/-- As `wState`, with bonds of size one. -/
def uDims : Dims := ⟨fun _ => 2 ^ 3, fun _ => 1, fun _ => 1, fun _ => 1, fun _ => 1, fun _ => 1, fun _ => 1⟩
def uState : State ℝ := { keys := [(0, 0)], sites := fun _ => some ⟨[2 ^ 3, 1, 1, 1, 1], fun _ => 1⟩, vts := fun _ => (0, 0), lX := 1, lY := 1 }
def uEnv : Env ℝ := { chi := 1, C := fun _ => some ⟨[1, 1], fun _ => 1⟩, T := fun _ => some ⟨[1, 1, 1], fun _ => 1⟩ }

theorem uTiling : Tiling uState := ⟨fun _ _ => rfl, fun _ => by simp [uState], fun c hc => by simp [uState] at hc ⊢; exact hc.symm, by simp [uState]⟩

theorem uFits : FitsState uDims uState :=
  ⟨fun c => ⟨_, rfl, rfl⟩, ⟨fun _ => by simp [uDims], fun _ => rfl⟩, ⟨fun _ => by simp [uDims], fun _ => rfl⟩, ⟨fun _ => by simp [uDims], fun _ => rfl⟩⟩

theorem uFitsEnv : FitsEnv uDims uState uEnv := by
  refine ⟨?_, ?_, ?_, ?_, ?_, ?_, ?_, ?_, ⟨fun _ => by simp [uDims], fun _ => rfl⟩, ⟨fun _ => by simp [uDims], fun _ => rfl⟩, ⟨fun _ => by simp [uDims], fun _ => rfl⟩, ⟨fun _ => by simp [uDims], fun _ => rfl⟩⟩ <;>
  · intro c
    exact ⟨_, rfl, rfl⟩

example (eigh : Tensor ℝ → List ℝ × Tensor ℝ) : ∃ R R', rdm1x1 eigh true false uState uEnv (0, 0) none = .ok R ∧ new1x1 eigh false uState uEnv (0, 0) ['B'] = .ok R' ∧
    Spec.IsMarginal 2 1 R R' [1] := by
  obtain ⟨e, a, h1, h2, h0, h3⟩ := siteEnv_ok uFits uFitsEnv (0, 0)
  obtain ⟨A, T, eA, e1, -⟩ := dl1x1_open (Rdm.Spec.dims1 uDims (0, 0)) e a h3
  obtain ⟨T', eT, sT, vT⟩ := fullS h3 eA (P := 2 ^ 3) rfl
  obtain rfl : T = T' := by rw [e1] at eT; exact (Option.some.inj eT)
  obtain rfl : e = ⟨⟨[1, 1], fun _ => 1⟩, ⟨[1, 1], fun _ => 1⟩, ⟨[1, 1], fun _ => 1⟩, ⟨[1, 1], fun _ => 1⟩, ⟨[1, 1, 1], fun _ => 1⟩, ⟨[1, 1, 1], fun _ => 1⟩, ⟨[1, 1, 1], fun _ => 1⟩, ⟨[1, 1, 1], fun _ => 1⟩⟩ :=
    (Option.some.inj h1).symm
  obtain rfl : a = ⟨[2 ^ 3, 1, 1, 1, 1], fun _ => 1⟩ := (Option.some.inj h2).symm
  have hval : ∀ s < 8, ∀ t < 8, T.val [s, t] = 1 := by
    intro s hs t ht
    refine (vT s t hs ht).trans ?_
    rw [netS_unit _ _ _ (by intro σ; simp [envS]) (by decide)]
    simp [lay]
  have htr : Matrix.trace (Rdm.Spec.op (List.replicate 1 (2 ^ 3)) T) = 8 := by
    rw [trace_op]
    simp only [List.replicate, sumIdx]
    refine (Finset.sum_congr rfl (g := fun _ => (1 : ℝ)) (fun s hs => hval s (Finset.mem_range.1 hs) s (Finset.mem_range.1 hs))).trans ?_
    simp
  obtain ⟨R, eR, -, vR⟩ := symRdm_entries eigh sT (by decide) (by rw [htr]; simp)
  have hR : rdm1x1 eigh true false uState uEnv (0, 0) none = .ok R := by rw [site_network uTiling h1 h2 h3 eA e1 eigh true false (.inl rfl), eR]
  obtain ⟨R', h4, h5⟩ := C114_new_partial eigh uTiling uFits uFitsEnv (p := 2) (fun _ => rfl) (0, 0) ⟨rfl, rfl, rfl, rfl⟩ ['B'] ⟨by decide, by decide⟩ (by decide) true (.inl rfl) hR
  exact ⟨R, R', hR, h4, h5⟩

end Verif.KagomeRdm
