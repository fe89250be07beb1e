import Verif.C4v.InitProps
/-
Properties C137, C138 and C139: further initial environments, larger environments and the multiplets of a corner.
-/
namespace Verif.C4v
open Tensor Ctm Corner.Spec
set_option linter.unusedSimpArgs false
variable {K : Type} [RCLike K]

/-! ### The hypotheses of C137 are met -/

/-- Every Hermitian matrix has a full eigendecomposition. -/
theorem exists_fullEig : ∃ eig : Tensor K → Nat → List ℝ × Tensor K, Spec.FullEig eig := by
  classical
  have h : ∀ M : Tensor K, ∀ n, ∃ q : List ℝ × Tensor K, M.shape = [n, n] → (∀ x y, x < n → y < n → M.val [x, y] = star (M.val [y, x])) →
      q.1.length = n ∧ q.2.shape = [n, n] ∧ (∀ x i, x < n → i < n → ∑ y ∈ Finset.range n, M.val [x, y] * q.2.val [y, i] = q.2.val [x, i] * ((q.1.getD i 0 : ℝ) : K)) ∧
      ∀ i j, i < n → j < n → ∑ x ∈ Finset.range n, star (q.2.val [x, i]) * q.2.val [x, j] = if i = j then 1 else 0 := by
    intro M n
    by_cases hM : ∀ x y, x < n → y < n → M.val [x, y] = star (M.val [y, x])
    · let A : Matrix (Fin n) (Fin n) K := fun x y => M.val [x.1, y.1]
      have hA : A.IsHermitian := by
        ext x y
        exact (hM x y x.2 y.2).symm
      let b := hA.eigenvectorBasis
      refine ⟨(List.ofFn hA.eigenvalues, ⟨[n, n], fun idx => if h : idx.getD 0 0 < n ∧ idx.getD 1 0 < n then b ⟨idx.getD 1 0, h.2⟩ ⟨idx.getD 0 0, h.1⟩ else 0⟩), fun _ _ => ⟨by simp, rfl, ?_, ?_⟩⟩
      · intro x i hx hi
        have hm := congrFun (hA.mulVec_eigenvectorBasis ⟨i, hi⟩) ⟨x, hx⟩
        simp only [Matrix.mulVec, dotProduct, Pi.smul_apply] at hm
        have hd : (List.ofFn hA.eigenvalues).getD i 0 = hA.eigenvalues ⟨i, hi⟩ := by
          rw [List.getD_eq_getElem?_getD, List.getElem?_eq_getElem (by simpa using hi)]; simp
        rw [Finset.sum_range]
        simp only [List.getD_cons_zero, List.getD_cons_succ, hx, hi, and_true, dif_pos, Fin.is_lt, hd]
        rw [RCLike.real_smul_eq_coe_mul, mul_comm] at hm
        exact hm
      · intro i j hi hj
        have ho := orthonormal_iff_ite.1 b.orthonormal ⟨i, hi⟩ ⟨j, hj⟩
        rw [PiLp.inner_apply] at ho
        rw [Finset.sum_range]
        simp only [List.getD_cons_zero, List.getD_cons_succ, hi, hj, and_true, dif_pos, Fin.is_lt]
        simp only [RCLike.inner_apply, Fin.mk.injEq] at ho
        rw [← ho]
        exact Finset.sum_congr rfl (fun x _ => mul_comm _ _)
    · exact ⟨([], M), fun _ h => absurd h hM⟩
  choose q hq using h
  exact ⟨q, fun M n hs hM => hq M n hs hM⟩

/-- A site tensor of bond dimension two whose elements depend on the number of ones only. -/
def exSite2 : Tensor K := ⟨[2, 2, 2, 2, 2], fun idx => ((idx.getD 0 0 + (idx.getD 1 0 + idx.getD 2 0 + idx.getD 3 0 + idx.getD 4 0) : Nat) : K)⟩

example : ∃ (eig : Tensor ℂ → Nat → List ℝ × Tensor ℂ), ∃ env', initEnv eig .ctmrg none exSite2 (emptyEnv 3 2) = .ok env' ∧ Spec.Fits 3 2 2 exSite2 env' ∧ Spec.Hermitian env' := by
  obtain ⟨eig, he⟩ := exists_fullEig (K := ℂ)
  obtain ⟨env', c, t, U, h1, h2, h3, -⟩ := C137_ctmrg (p := 2) (D := 2) (a := (exSite2 : Tensor ℂ)) (env := emptyEnv 3 2) rfl
    ⟨[1, 1, 1, 1, 1], by simp [InB, exSite2], by simp [exSite2]; norm_num⟩
    (fun s u l d r _ _ _ _ _ => by simp [exSite2]; ring) (fun s u l d r _ _ _ _ _ => by simp [exSite2]; ring) he
  exact ⟨eig, env', h1, h2, h3⟩

/-! ### C137, the other options -/

theorem assign_shape {n : List Nat} {src dst B : Tensor K} (h : assignBlock n src dst = some B) : B.shape = dst.shape := by
  unfold assignBlock at h
  simp only at h
  by_cases hc : n.length = dst.shape.length ∧ broadcasts src.shape (List.zipWith min n dst.shape)
  · rw [if_pos hc] at h
    simp only [Option.some.injEq] at h
    rw [← h]
  · rw [if_neg hc] at h
    cases h

theorem sq_one {n : Nat} (h : n * n = 1) : n = 1 := by
  rcases n with _ | _ | n
  · simp at h
  · rfl
  · nlinarith [h]

theorem lift_inv {α : Type} {o : Option α} {x : α} (h : lift o = .ok x) : o = some x := by
  cases o with
  | none => cases h
  | some y => simp only [lift, Except.ok.injEq] at h; rw [h]

section
variable {p D : Nat} {a : Tensor K} {env : Env K} {eig : Tensor K → Nat → List ℝ × Tensor K}

theorem embeds_herm2 {c C : Tensor K} {n chi : Nat} (sc : c.shape = [n, n]) (vc : ∀ x y, x < n → y < n → c.val [x, y] = star (c.val [y, x])) (sC : C.shape = [chi, chi])
    (h : Ctm.Spec.Embeds c C) (i j : Nat) (hi : i < chi) (hj : j < chi) : C.val [i, j] = star (C.val [j, i]) := by
  rw [h [i, j] (by rw [sC]; exact inB2 hi hj), h [j, i] (by rw [sC]; exact inB2 hj hi), sc]
  simp only [inB2']
  by_cases hij : i < n ∧ j < n
  · rw [if_pos hij, if_pos hij.symm, vc i j hij.1 hij.2]
  · rw [if_neg hij, if_neg (fun h => hij h.symm)]; simp

theorem embeds_herm3 {c C : Tensor K} {n k chi : Nat} (sc : c.shape = [n, n, k]) (vc : ∀ x y s, x < n → y < n → s < k → c.val [x, y, s] = star (c.val [y, x, s]))
    (sC : C.shape = [chi, chi, k]) (h : Ctm.Spec.Embeds c C) (i j s : Nat) (hi : i < chi) (hj : j < chi) (hs : s < k) : C.val [i, j, s] = star (C.val [j, i, s]) := by
  rw [h [i, j, s] (by rw [sC]; exact inB3 hi hj hs), h [j, i, s] (by rw [sC]; exact inB3 hj hi hs), sc]
  simp only [inB_of_embeds, hs, and_true]
  by_cases hij : i < n ∧ j < n
  · rw [if_pos hij, if_pos hij.symm, vc i j s hij.1 hij.2 hs]
  · rw [if_neg hij, if_neg (fun h => hij h.symm)]; simp

/-- `CTMRG_OBC`: the site with its outer legs summed, ket and bra separately; Hermitian. The only failure is a division by zero if one of the sums vanishes. -/
theorem C137_obc (hs : a.shape = [p, D, D, D, D]) (hr : Spec.Reflected D p a) (hf : Spec.Flipped D p a) :
    (initEnv eig .ctmrgObc none a env = .error .nan ∧ ∃ n, (Spec.OpenCorner a n ∨ Spec.OpenHalf a n) ∧ ∀ idx, InB n.shape idx → n.val idx = 0) ∨
    ∃ env' c0 c t0 t, initEnv eig .ctmrgObc none a env = .ok env' ∧ Spec.Fits env.chi D p a env' ∧ Spec.Hermitian env' ∧
      Spec.OpenCorner a c0 ∧ Ctm.Spec.Normalised true c0 c ∧ Ctm.Spec.Embeds c env'.C ∧ Spec.OpenHalf a t0 ∧ Ctm.Spec.Normalised true t0 t ∧ Ctm.Spec.Embeds t env'.T := by
  have hA : a.shape.length = 5 := by rw [hs]; rfl
  have e0 : initEnv eig .ctmrgObc none a env = initObc a env.chi := by
    simp only [initEnv, initKind]
    rw [if_neg (by rw [hs]; simp)]
  rw [e0]
  unfold initObc
  rcases block_init (cj := true) (b := cornerObc) (v := (-1, -1)) (L := [0, 1, 6, 2, 7]) (sh := [0]) (by decide) (by decide) (by decide) (by decide) (by decide) hA env.chi
    (F := Ctm.Spec.ketBra [0] a) (fun σ => by simp only [if_true]; rfl) with ⟨e1, n, hz, hn⟩ | ⟨C, e1, c0, c, hc0, hc, sC, vC⟩
  · left
    refine ⟨by rw [e1]; rfl, n, .inl hn, fun idx hi => vecNorm_zero hz idx hi⟩
  rcases block_init (cj := true) (b := halfObc) (v := (-1, 0)) (L := [0, 2, 7]) (sh := [0]) (by decide) (by decide) (by decide) (by decide) (by decide) hA env.chi
    (F := Ctm.Spec.ketBra [0] a) (fun σ => by simp only [if_true]; rfl) with ⟨e2, n, hz, hn⟩ | ⟨T, e2, t0, t, ht0, ht, sT, vT⟩
  · left
    refine ⟨by rw [e1, ok_bind, e2]; rfl, n, .inr hn, fun idx hi => vecNorm_zero hz idx hi⟩
  right
  have sC' : C.shape = [env.chi, env.chi] := sC
  have sT' : T.shape = [env.chi, env.chi, D * D] := by rw [sT, hs]; rfl
  obtain ⟨s1, h1⟩ := corner_herm hs hc0 (by decide) (obcC_conj hs hr)
  obtain ⟨s2, h2⟩ := half_herm hs ht0 (by decide) (obcT_conj hs hf)
  refine ⟨⟨env.chi, C, T⟩, c0, c, t0, t, by rw [e1, ok_bind, e2]; rfl, ⟨hs, rfl, sC', sT'⟩, ⟨fun i j hi hj => ?_, fun i j s hi hj hss => ?_⟩, hc0, hc, vC, ht0, ht, vT⟩
  · exact embeds_herm2 (hc.shape.trans s1) (fun x y hx hy => norm_conj hc (by rw [s1]; exact inB2 hx hy) (by rw [s1]; exact inB2 hy hx) (h1 x y hx hy)) sC' vC i j hi hj
  · have hss : s < D * D := by rw [size, sT'] at hss; exact hss
    exact embeds_herm3 (ht.shape.trans s2) (fun x y s hx hy hs => norm_conj ht (by rw [s2]; exact inB3 hx hy hs) (by rw [s2]; exact inB3 hy hx hs) (h2 x y s hx hy hs)) sT' vT i j s hi hj hss

example : Spec.Reflected 2 2 (exSite2 : Tensor ℂ) ∧ Spec.Flipped 2 2 (exSite2 : Tensor ℂ) :=
  ⟨fun s u l d r _ _ _ _ _ => by simp [exSite2]; ring, fun s u l d r _ _ _ _ _ => by simp [exSite2]; ring⟩

/-- `RANDOM`: the corner is Hermitian. -/
theorem C137_random_partial (rC rT : List Nat → K) (hfit : Spec.Fits env.chi D p a env) :
    ∃ env', initEnv eig (.random rC rT) none a env = .ok env' ∧ Spec.Fits env.chi D p a env' ∧
      ∀ i j, i < env.chi → j < env.chi → env'.C.val [i, j] = star (env'.C.val [j, i]) := by
  refine ⟨initRandom rC rT env, rfl, ⟨hfit.site, rfl, hfit.corner, hfit.half⟩, fun i j _ _ => ?_⟩
  simp only [initRandom, List.getD_cons_zero, List.getD_cons_succ, star_mul', star_add, star_star]
  rw [add_comm]
  simp

/-- `RANDOM`: the half-row tensor is Hermitian only if the numbers drawn are; two different numbers suffice for the environment not to be. -/
theorem C137_random_violated (rC rT : List Nat → ℝ) (chi D : Nat) (a : Tensor ℝ) (eig : Tensor ℝ → Nat → List ℝ × Tensor ℝ) (hchi : 2 ≤ chi) (hD : 1 ≤ D)
    (h : rT [0, 1, 0] ≠ rT [1, 0, 0]) : ∃ env', initEnv eig (.random rC rT) none a (emptyEnv chi D) = .ok env' ∧ ¬ Spec.Hermitian env' := by
  refine ⟨_, rfl, fun hh => h ?_⟩
  have := hh.2 0 1 0 (show 0 < chi by omega) (show 1 < chi by omega) (show 0 < D ^ 2 by positivity)
  simpa [initRandom] using this

example : ∃ rT : List Nat → ℝ, rT [0, 1, 0] ≠ rT [1, 0, 0] ∧ ∀ idx, 0 ≤ rT idx ∧ rT idx < 1 :=
  ⟨fun idx => if idx = [0, 1, 0] then 1 / 2 else 0, by simp, fun idx => by dsimp only; split <;> norm_num⟩

/-- Unknown options are rejected, and so are the double-layer options for a site without physical index. -/
theorem C137_invalid : initEnv eig .other none a env = .error .raise ∧
    (a.shape.length = 4 → initEnv eig .ctmrg none a env = .error .raise ∧ initEnv eig .ctmrgObc none a env = .error .raise) := by
  refine ⟨rfl, fun h => ⟨?_, ?_⟩⟩ <;> simp [initEnv, initKind, h]

/-- `PROD`: if it returns, the corner is the unit matrix element and the half-row tensor the leading vector of the traced column, everything else zero; for real tensors the
environment is Hermitian. The two leading eigenvalues differ by more than 1e-8, so the vector is unique. -/
theorem C137_prod_partial (hfit : Spec.Fits env.chi D p a env) {env' : Env K} (hD : D ≠ 1) (he : Spec.EigSize eig) (h : initEnv eig .prod none a env = .ok env') :
    Spec.Fits env.chi D p a env' ∧ (∃ m, Spec.TracedColumn a m ∧ 1 / 10 ^ 8 < |(eig m 2).1.getD 0 0 - (eig m 2).1.getD 1 0| ∧ ∀ i j s, i < env.chi → j < env.chi → s < D * D →
      env'.T.val [i, j, s] = if i = 0 ∧ j = 0 then (eig m 2).2.val [s, 0] else 0) ∧
    (∀ i j, i < env.chi → j < env.chi → env'.C.val [i, j] = if i = 0 ∧ j = 0 then 1 else 0) ∧ ((∀ z : K, star z = z) → Spec.Hermitian env') := by
  have hs := hfit.site
  have hA : a.shape.length = 5 := by rw [hs]; rfl
  simp only [initEnv, initKind, initProd] at h
  obtain ⟨C, eC, h⟩ := bind_ok h
  obtain ⟨m0, em0, h⟩ := bind_ok h
  obtain ⟨m, em, h⟩ := bind_ok h
  obtain ⟨mt, -, h⟩ := bind_ok h
  obtain ⟨-, -, h⟩ := bind_ok h
  obtain ⟨u, eg, h⟩ := bind_ok h
  have hgap : 1 / 10 ^ 8 < |(eig m 2).1.getD 0 0 - (eig m 2).1.getD 1 0| := by
    unfold checkGap at eg
    split at eg
    · next hg => exact hg.2
    · cases eg
  obtain ⟨T, eT, h⟩ := bind_ok h
  simp only [pure, Except.pure, Except.ok.injEq] at h
  subst h
  let b : Block := ⟨[0, 3, 1, 4, 2], [0, 6, 1, 7, 2], [3, 6, 4, 7], [(1, true), (3, true)]⟩
  obtain ⟨x0, x, e0, e1, hn⟩ := block_net true (b := b) (by decide) hA
  have hx : m0 = x := by
    simp only [prodMatrix] at em0
    rw [if_neg (by omega)] at em0
    have e0' : einsum [(a, [0, 3, 1, 4, 2]), (a.conj, [0, 6, 1, 7, 2])] [3, 6, 4, 7] = some x0 := e0
    have e1' : view [a.size 1 ^ 2, a.size 3 ^ 2] x0 = some x := e1
    rw [e0'] at em0
    simp only [Option.bind_eq_bind, Option.bind_some, e1', lift, Except.ok.injEq] at em0
    exact em0.symm
  subst hx
  have hnet : IsNetwork (Ctm.Spec.legDim a) m0 [[1, 6], [3, 8]] [0, 2, 4] (Ctm.Spec.ketBra [0, 2, 4] a) :=
    isNetwork_congr hn rfl (by decide) (fun σ => by simp only [if_true]; rfl)
  have hN := (normalize_ok em).1
  have sm : m.shape = [D * D, D * D] := by
    rw [hN.shape, hnet.1]; simp [legDim_eq hs]
  have hsize := (he m (D * D) 2 sm).2
  have hC : C = ⟨[env.chi, env.chi], fun idx => if idx.getD 0 0 = 0 ∧ idx.getD 1 0 = 0 then 1 else 0⟩ := by
    simp only [unitCorner] at eC
    split at eC
    · simp only [Except.ok.injEq] at eC
      rw [← eC, hfit.corner]
    · cases eC
  have hd : D * D ≠ 1 := fun h => hD (sq_one h)
  have hT : T = ⟨[env.chi, env.chi, D * D], fun idx => if idx.getD 0 0 = 0 ∧ idx.getD 1 0 = 0 then (eig m 2).2.val [idx.getD 2 0, 0] else 0⟩ := by
    rw [hfit.half, hsize] at eT
    simp only [putVec] at eT
    split at eT
    · simp only [Except.ok.injEq] at eT
      rw [← eT]
    · cases eT
  subst hC hT
  refine ⟨⟨hs, rfl, rfl, rfl⟩, ⟨m, ⟨m0, hnet, hN⟩, hgap, fun i j s _ _ _ => rfl⟩, fun i j _ _ => rfl, fun hz => ⟨fun i j _ _ => ?_, fun i j s _ _ _ => ?_⟩⟩
  · rw [hz]; simp only [List.getD_cons_zero, List.getD_cons_succ, and_comm]
  · rw [hz]; simp only [List.getD_cons_zero, List.getD_cons_succ, and_comm]

/-- `PROD` never works for bond dimension one: it asks for two eigenvalues of a matrix that has one. -/
theorem C137_prod_violated (hs : a.shape = [p, 1, 1, 1, 1]) (he : Spec.EigSize eig) (env env' : Env K) : initEnv eig .prod none a env ≠ .ok env' := by
  intro h
  have hA : a.shape.length = 5 := by rw [hs]; rfl
  simp only [initEnv, initKind, initProd] at h
  obtain ⟨C, eC, h⟩ := bind_ok h
  obtain ⟨m0, em0, h⟩ := bind_ok h
  obtain ⟨m, em, h⟩ := bind_ok h
  obtain ⟨mt, -, h⟩ := bind_ok h
  obtain ⟨-, -, h⟩ := bind_ok h
  obtain ⟨u, hg, h⟩ := bind_ok h
  have sm0 : m0.shape = [1, 1] := by
    simp only [prodMatrix] at em0
    rw [if_neg (by omega)] at em0
    cases hx : einsum [(a, [0, 3, 1, 4, 2]), (a.conj, [0, 6, 1, 7, 2])] [3, 6, 4, 7] with
    | none => rw [hx] at em0; cases em0
    | some x =>
      rw [hx] at em0
      simp only [Option.bind_eq_bind, Option.bind_some, view] at em0
      split at em0
      · simp only [lift, Except.ok.injEq] at em0
        rw [← em0]
        simp [size, hs]
      · cases em0
  have := (he m 1 2 ((normalize_ok em).1.shape.trans sm0)).1
  simp only [checkGap] at hg
  split at hg
  · omega
  · cases hg

/-- `PROD` never works for sites without physical index, if the bond dimension is larger than one: the environment was made for a double-layer site. -/
theorem C137_prod_single_violated (hD : 2 ≤ D) (hs : a.shape = [D, D, D, D]) (he : Spec.EigSize eig) (chi : Nat) (env' : Env K) :
    initEnv eig .prod none a (emptyEnv chi D) ≠ .ok env' := by
  intro h
  simp only [initEnv, initKind, initProd] at h
  obtain ⟨C, eC, h⟩ := bind_ok h
  obtain ⟨m0, em0, h⟩ := bind_ok h
  obtain ⟨m, em, h⟩ := bind_ok h
  obtain ⟨mt, -, h⟩ := bind_ok h
  obtain ⟨-, -, h⟩ := bind_ok h
  obtain ⟨u, hg, h⟩ := bind_ok h
  obtain ⟨T, eT, h⟩ := bind_ok h
  have sm0 : m0.shape = [D, D] := by
    simp only [prodMatrix] at em0
    rw [if_pos (by rw [hs]; rfl)] at em0
    obtain ⟨R, e, hR, -⟩ := einsum_ok (fun _ => D) [(a, [0, 1, 2, 3])] [0, 2] (by simp [hs]) (by decide) (by
      show ∀ l ∈ [0, 2], l ∈ [0, 1, 2, 3]
      decide)
    rw [e] at em0
    simp only [lift, Except.ok.injEq] at em0
    rw [← em0, hR]; rfl
  have hn := (he m D 2 ((normalize_ok em).1.shape.trans sm0)).2
  rw [hn] at eT
  simp only [emptyEnv, zeros, putVec] at eT
  split at eT
  · rename_i hc
    rcases hc.2.2 with hc | hc
    · nlinarith [hc]
    · omega
  · cases eT

end

/-! ### C138 -/

section
variable {p D chi : Nat} {a : Tensor K} {env : Env K}

theorem C138_extend (hfit : Spec.Fits chi D p a env) (new : Nat) :
    ∃ env', extendEnv D new env = .ok env' ∧ Spec.Fits new D p a env' ∧
      (∀ i j, i < new → j < new → env'.C.val [i, j] = if i < chi ∧ j < chi then env.C.val [i, j] else 0) ∧
      (∀ i j s, i < new → j < new → s < D * D → env'.T.val [i, j, s] = if i < chi ∧ j < chi then env.T.val [i, j, s] else 0) ∧
      (Spec.Hermitian env → Spec.Hermitian env') ∧ (Spec.Diagonal env → Spec.Diagonal env') := by
  obtain ⟨C', C, e1, e2, sC, vC⟩ := slice_assign (chi := new) (ls := [(0, true), (1, true)]) (s := fun _ => chi) (a := env.C) (by simp [hfit.corner])
  obtain ⟨T', T, e3, e4, sT, vT⟩ := slice_assign (chi := new) (ls := [(0, true), (1, true), (2, false)]) (s := fun i => if i = 2 then D * D else chi) (a := env.T) (by simp [hfit.half])
  simp only [List.map_cons, List.map_nil, if_true, Bool.false_eq_true, if_false, Nat.zero_ne_one, OfNat.zero_ne_ofNat, OfNat.one_ne_ofNat, min_comm new chi] at e1 e2 e3 e4 sC sT
  have vC' : ∀ i j, i < new → j < new → C.val [i, j] = if i < chi ∧ j < chi then env.C.val [i, j] else 0 := by
    intro i j hi hj
    rw [vC _ (by rw [sC]; exact inB2 hi hj), hfit.corner]
    simp only [inB2']
  have vT' : ∀ i j s, i < new → j < new → s < D * D → T.val [i, j, s] = if i < chi ∧ j < chi then env.T.val [i, j, s] else 0 := by
    intro i j s hi hj hs
    rw [vT _ (by rw [sT]; exact inB3 hi hj hs), hfit.half]
    simp only [inB_of_embeds, hs, and_true]
  refine ⟨⟨new, C, T⟩, ?_, ⟨hfit.site, rfl, sC, sT⟩, vC', vT', fun hh => ⟨fun i j hi hj => ?_, fun i j s hi hj hs => ?_⟩, fun hd i j hi hj hij => ?_⟩
  · unfold extendEnv
    rw [hfit.bond, e1]
    simp only [lift, ok_bind, emptyEnv, pow_two]
    rw [e2]
    simp only [ok_bind]
    rw [e3]
    simp only [ok_bind]
    rw [e4]
    rfl
  · show C.val [i, j] = star (C.val [j, i])
    rw [vC' i j hi hj, vC' j i hj hi]
    by_cases hij : i < chi ∧ j < chi
    · rw [if_pos hij, if_pos hij.symm, hh.1 i j (by rw [hfit.bond]; exact hij.1) (by rw [hfit.bond]; exact hij.2)]
    · rw [if_neg hij, if_neg (fun h => hij h.symm)]; simp
  · have hs : s < D * D := by simp only [size, sT] at hs; exact hs
    show T.val [i, j, s] = star (T.val [j, i, s])
    rw [vT' i j s hi hj hs, vT' j i s hj hi hs]
    by_cases hij : i < chi ∧ j < chi
    · rw [if_pos hij, if_pos hij.symm, hh.2 i j s (by rw [hfit.bond]; exact hij.1) (by rw [hfit.bond]; exact hij.2) (by rw [size, hfit.half]; exact hs)]
    · rw [if_neg hij, if_neg (fun h => hij h.symm)]; simp
  · show C.val [i, j] = 0
    rw [vC' i j hi hj]
    split
    · rename_i h
      exact hd i j (by rw [hfit.bond]; exact h.1) (by rw [hfit.bond]; exact h.2) hij
    · rfl

example : Spec.Fits 3 2 2 (exSite2 : Tensor ℂ) (emptyEnv 3 2) := ⟨rfl, rfl, rfl, rfl⟩

theorem assign_square {x chi : Nat} {src dst : Tensor K} (h1 : src.shape = [x, x]) (h2 : dst.shape = [chi, chi]) (hx : x ≤ chi) :
    ∃ B, assignBlock [x, x] src dst = some B ∧ B.shape = [chi, chi] ∧ ∀ i j, B.val [i, j] = if i < x ∧ j < x then src.val [i, j] else dst.val [i, j] := by
  unfold assignBlock
  simp only [h1, h2, List.zipWith_cons_cons, List.zipWith_nil_left, min_eq_left hx]
  rw [if_pos ⟨rfl, List.forall₂_same.2 (fun _ _ => .inl rfl)⟩]
  refine ⟨_, rfl, rfl, fun i j => ?_⟩
  simp only [inB2']
  by_cases h : i < x ∧ j < x
  · rw [if_pos h, if_pos h]
    have e : ∀ i, i < x → (if x = 1 then 0 else i) = i := fun i hi => by split <;> omega
    simp only [List.zipWith_cons_cons, List.zipWith_nil_left, e i h.1, e j h.2]
  · rw [if_neg h, if_neg h]

theorem assign_cube {x d chi : Nat} {src dst : Tensor K} (h1 : src.shape = [x, x, d]) (h2 : dst.shape = [chi, chi, d]) (hx : x ≤ chi) :
    ∃ B, assignBlock [x, x, d] src dst = some B ∧ B.shape = [chi, chi, d] ∧ ∀ i j s, s < d → B.val [i, j, s] = if i < x ∧ j < x then src.val [i, j, s] else dst.val [i, j, s] := by
  unfold assignBlock
  simp only [h1, h2, List.zipWith_cons_cons, List.zipWith_nil_left, min_eq_left hx, min_self]
  rw [if_pos ⟨rfl, List.forall₂_same.2 (fun _ _ => .inl rfl)⟩]
  refine ⟨_, rfl, rfl, fun i j s hs => ?_⟩
  simp only [inB_of_embeds, hs, and_true]
  by_cases h : i < x ∧ j < x
  · rw [if_pos h, if_pos h]
    have e : ∀ n i, i < n → (if n = 1 then 0 else i) = i := fun n i hi => by split <;> omega
    simp only [List.zipWith_cons_cons, List.zipWith_nil_left, e x i h.1, e x j h.2, e d s hs]
  · rw [if_neg h, if_neg h]

/-- Given tensors no larger than the environment are used, whatever the option; in an environment as constructed the rest is zero, and Hermitian tensors give a Hermitian
environment. -/
theorem C138_given_partial {x : Nat} {C T : Tensor K} (hC : C.shape = [x, x]) (hT : T.shape = [x, x, D * D]) (hx : x ≤ chi) (hs : a.shape = [p, D, D, D, D])
    (eig : Tensor K → Nat → List ℝ × Tensor K) (k : InitKind K) :
    ∃ env', initEnv eig k (some (C, T)) a (emptyEnv chi D) = .ok env' ∧ Spec.Fits chi D p a env' ∧
      (∀ i j, i < chi → j < chi → env'.C.val [i, j] = if i < x ∧ j < x then C.val [i, j] else 0) ∧
      (∀ i j s, i < chi → j < chi → s < D * D → env'.T.val [i, j, s] = if i < x ∧ j < x then T.val [i, j, s] else 0) ∧
      (Spec.Hermitian ⟨x, C, T⟩ → Spec.Hermitian env') := by
  obtain ⟨C', e1, s1, v1⟩ := assign_square (dst := (emptyEnv chi D : Env K).C) hC rfl hx
  obtain ⟨T', e2, s2, v2⟩ := assign_cube (dst := (zeros [chi, chi, D * D] : Tensor K)) hT rfl hx
  refine ⟨⟨chi, C', T'⟩, ?_, ⟨hs, rfl, s1, s2⟩, fun i j _ _ => v1 i j, fun i j s _ _ h => v2 i j s h, fun hh => ⟨fun i j hi hj => ?_, fun i j s hi hj hss => ?_⟩⟩
  · have z1 : C.size 0 = x := by simp [size, hC]
    have z2 : T.size 2 = D * D := by simp [size, hT]
    simp only [initEnv, initGiven, z1, z2]
    rw [e1]
    simp only [lift, ok_bind]
    have e2' : assignBlock [x, x, D * D] T (zeros [(emptyEnv chi D : Env K).chi, (emptyEnv chi D : Env K).chi, D * D]) = some T' := e2
    rw [e2']
    rfl
  · show C'.val [i, j] = star (C'.val [j, i])
    rw [v1, v1]
    by_cases h : i < x ∧ j < x
    · rw [if_pos h, if_pos h.symm, hh.1 i j h.1 h.2]
    · rw [if_neg h, if_neg (fun h' => h h'.symm)]; simp [emptyEnv, zeros]
  · have hss : s < D * D := by simp only [size, s2] at hss; exact hss
    show T'.val [i, j, s] = star (T'.val [j, i, s])
    rw [v2 _ _ _ hss, v2 _ _ _ hss]
    by_cases h : i < x ∧ j < x
    · rw [if_pos h, if_pos h.symm, hh.2 i j s h.1 h.2 (by simp only [size, hT]; exact hss)]
    · rw [if_neg h, if_neg (fun h' => h h'.symm)]; simp [zeros]

/-- Given tensors that are too large are rejected. -/
theorem C138_given_large {x : Nat} {C T : Tensor K} (hC : C.shape = [x, x]) (hx : chi < x) (h2 : 2 ≤ x) (eig : Tensor K → Nat → List ℝ × Tensor K) (k : InitKind K) :
    initEnv eig k (some (C, T)) a (emptyEnv chi D) = .error .raise := by
  have z1 : C.size 0 = x := by simp [size, hC]
  simp only [initEnv, initGiven, z1]
  have : assignBlock [x, x] C (emptyEnv chi D : Env K).C = none := by
    unfold assignBlock
    rw [if_neg]
    rintro ⟨-, hb⟩
    simp only [hC, emptyEnv, zeros, broadcasts, List.zipWith_cons_cons, List.zipWith_nil_left, List.forall₂_cons, min_eq_right hx.le] at hb
    omega
  rw [this]
  rfl

/-- In an environment that was used before, the corner keeps its old values outside the given block, while the half-row tensor is reset: the result depends on the past. -/
theorem C138_given_violated : ∃ (C T : Tensor ℝ) (env env' : Env ℝ) (eig : Tensor ℝ → Nat → List ℝ × Tensor ℝ) (k : InitKind ℝ), Spec.Fits 2 2 2 exSite2 env ∧
    initEnv eig k (some (C, T)) exSite2 env = .ok env' ∧ env'.C.val [1, 1] ≠ 0 ∧ env'.T.val [1, 1, 0] = 0 := by
  let C : Tensor ℝ := ⟨[1, 1], fun _ => 1⟩
  let T : Tensor ℝ := ⟨[1, 1, 4], fun _ => 1⟩
  let env : Env ℝ := ⟨2, ⟨[2, 2], fun _ => 1⟩, ⟨[2, 2, 4], fun _ => 1⟩⟩
  obtain ⟨C', e1, s1, v1⟩ := assign_square (x := 1) (chi := 2) (src := C) (dst := env.C) rfl rfl (by decide)
  obtain ⟨T', e2, s2, v2⟩ := assign_cube (x := 1) (chi := 2) (d := 4) (src := T) (dst := (zeros [2, 2, 4] : Tensor ℝ)) rfl rfl (by decide)
  refine ⟨C, T, env, ⟨2, C', T'⟩, fun M _ => ([], M), .other, ⟨rfl, rfl, rfl, rfl⟩, ?_, ?_, ?_⟩
  · simp only [initEnv, initGiven]
    have e1' : assignBlock [C.size 0, C.size 0] C env.C = some C' := e1
    have e2' : assignBlock [C.size 0, C.size 0, T.size 2] T (zeros [env.chi, env.chi, T.size 2]) = some T' := e2
    rw [e1']
    simp only [lift, ok_bind]
    rw [e2']
    rfl
  · show C'.val [1, 1] ≠ 0
    rw [v1]; simp [env]
  · show T'.val [1, 1, 0] = 0
    rw [v2 1 1 0 (by decide)]; simp [zeros]

/-- `CTMRG_OBC_SL` for sites without physical index: the corner is the site summed over up and left, the half-row tensor the site summed over left, both divided by the largest
modulus and put into zeros or cut. -/
theorem C137_obc_single (hs : a.shape = [D, D, D, D]) (eig : Tensor K → Nat → List ℝ × Tensor K) (env e : Env K) (h : initEnv eig .ctmrgObcSl none a env = .ok e) :
    e.chi = env.chi ∧ e.C.shape = [env.chi, env.chi] ∧ e.T.shape = [env.chi, env.chi, D] ∧
    (∃ c0 c, (c0.shape = [D, D] ∧ ∀ d r, d < D → r < D → c0.val [d, r] = ∑ u ∈ Finset.range D, ∑ l ∈ Finset.range D, a.val [u, l, d, r]) ∧
      Ctm.Spec.Normalised true c0 c ∧ Ctm.Spec.Embeds c e.C) ∧
    ∃ t0 t, (t0.shape = [D, D, D] ∧ ∀ u d r, u < D → d < D → r < D → t0.val [u, d, r] = ∑ l ∈ Finset.range D, a.val [u, l, d, r]) ∧
      Ctm.Spec.Normalised true t0 t ∧ Ctm.Spec.Embeds t e.T := by
  simp only [initEnv, initKind, initObcSl] at h
  rw [if_pos (by rw [hs]; rfl)] at h
  obtain ⟨c0, ec0, h⟩ := bind_ok h
  obtain ⟨c, ec, h⟩ := bind_ok h
  obtain ⟨C, eC, h⟩ := bind_ok h
  obtain ⟨t0, et0, h⟩ := bind_ok h
  obtain ⟨t, et, h⟩ := bind_ok h
  obtain ⟨T, eT, h⟩ := bind_ok h
  simp only [pure, Except.pure, Except.ok.injEq] at h
  subst h
  obtain ⟨R, e1, hR, hv⟩ := einsum_ok (fun _ => D) [(a, [0, 1, 2, 3])] [2, 3] (by simp [hs]) (by decide) (by
    show ∀ l ∈ [2, 3], l ∈ [0, 1, 2, 3]; decide)
  obtain ⟨R', e2, hR', hv'⟩ := einsum_ok (fun _ => D) [(a, [0, 1, 2, 3])] [0, 2, 3] (by simp [hs]) (by decide) (by
    show ∀ l ∈ [0, 2, 3], l ∈ [0, 1, 2, 3]; decide)
  have hRc : R = c0 := by rw [e1] at ec0; simpa [lift] using ec0
  have hRt : R' = t0 := by rw [e2] at et0; simpa [lift] using et0
  subst hRc hRt
  have hL1 : (([(a, [0, 1, 2, 3])] : List (Tensor K × List Nat)).flatMap Prod.snd).dedup.filter (fun l => l ∉ [2, 3]) = [0, 1] := by
    show ([0, 1, 2, 3].dedup).filter (fun l => l ∉ [2, 3]) = [0, 1]
    decide
  have hL2 : (([(a, [0, 1, 2, 3])] : List (Tensor K × List Nat)).flatMap Prod.snd).dedup.filter (fun l => l ∉ [0, 2, 3]) = [1] := by
    show ([0, 1, 2, 3].dedup).filter (fun l => l ∉ [0, 2, 3]) = [1]
    decide
  rw [hL1] at hv
  rw [hL2] at hv'
  have s2 : a.size 2 = D := by simp [size, hs]
  have s3 : a.size 3 = D := by simp [size, hs]
  have s0 : a.size 0 = D := by simp [size, hs]
  obtain ⟨B, eB, sB, hB⟩ := put_ok (chi := env.chi) [(0, true), (1, true)] (fun _ => D) (a := c) (by rw [(normalize_ok ec).1.shape, hR]; rfl)
  obtain ⟨B', eB', sB', hB'⟩ := put_ok (chi := env.chi) [(0, true), (1, true), (2, false)] (fun _ => D) (a := t) (by rw [(normalize_ok et).1.shape, hR']; rfl)
  rw [s2, s3] at eC
  rw [s0, s2, s3] at eT
  have hBC : B = C := by
    have : (Except.ok B : Except Err (Tensor K)) = .ok C := eB.symm.trans eC
    simpa using this
  have hBT : B' = T := by
    have : (Except.ok B' : Except Err (Tensor K)) = .ok T := eB'.symm.trans eT
    simpa using this
  subst hBC hBT
  refine ⟨rfl, sB, sB', ⟨R, c, ⟨hR, fun d r hd hr => ?_⟩, (normalize_ok ec).1, hB⟩, R', t, ⟨hR', fun u d r hu hd hr => ?_⟩, (normalize_ok et).1, hB'⟩
  · have := hv (fun l => [0, 0, d, r].getD l 0) (by intro l hl; simp at hl; rcases hl with rfl | rfl <;> simpa)
    simpa [sumOver, termOf] using this
  · have := hv' (fun l => [u, 0, d, r].getD l 0) (by intro l hl; simp at hl; rcases hl with rfl | rfl | rfl <;> simpa)
    simpa [sumOver, termOf] using this

/-- Environments of sites without physical index, as `CTMRG_OBC_SL` builds them, cannot be extended if the bond dimension is larger than one. -/
theorem C138_extend_violated (hD : 2 ≤ D) (hs : a.shape = [D, D, D, D]) (eig : Tensor K → Nat → List ℝ × Tensor K) (e : Env K)
    (h : initEnv eig .ctmrgObcSl none a (emptyEnv chi D) = .ok e) (new : Nat) : extendEnv D new e = .error .raise := by
  simp only [initEnv, initKind, initObcSl] at h
  rw [if_pos (by rw [hs]; rfl)] at h
  obtain ⟨c0, -, h⟩ := bind_ok h
  obtain ⟨c, -, h⟩ := bind_ok h
  obtain ⟨C, -, h⟩ := bind_ok h
  obtain ⟨t0, -, h⟩ := bind_ok h
  obtain ⟨t, -, h⟩ := bind_ok h
  obtain ⟨T, eT, h⟩ := bind_ok h
  simp only [pure, Except.pure, Except.ok.injEq] at h
  subst h
  have sT : T.shape = [chi, chi, D] := by
    simp only [put] at eT
    obtain ⟨t', -, eT⟩ := bind_ok eT
    rw [assign_shape (lift_inv eT)]
    simp [zeros, size, hs, emptyEnv]
  unfold extendEnv
  cases e1 : (slice [min (emptyEnv chi D : Env K).chi new, min (emptyEnv chi D : Env K).chi new] C) with
  | none => rfl
  | some C' =>
    simp only [lift, ok_bind]
    cases e2 : assignBlock [min (emptyEnv chi D : Env K).chi new, min (emptyEnv chi D : Env K).chi new] C' (emptyEnv new D : Env K).C with
    | none => rfl
    | some C'' =>
      simp only [ok_bind]
      have hlt : D < D ^ 2 := by nlinarith
      have e3 : slice [min (emptyEnv chi D : Env K).chi new, min (emptyEnv chi D : Env K).chi new, D ^ 2] T =
          some ⟨[min (min chi new) chi, min (min chi new) chi, D], T.val⟩ := by
        unfold slice
        rw [if_pos (by rw [sT]; rfl), sT]
        simp [emptyEnv, hlt.le]
      rw [e3]
      simp only [ok_bind]
      have e4 : assignBlock [min (emptyEnv chi D : Env K).chi new, min (emptyEnv chi D : Env K).chi new, D ^ 2] (⟨[min (min chi new) chi, min (min chi new) chi, D], T.val⟩ : Tensor K)
          (emptyEnv new D : Env K).T = none := by
        unfold assignBlock
        rw [if_neg]
        rintro ⟨-, hb⟩
        simp only [emptyEnv, zeros, broadcasts, List.zipWith_cons_cons, List.zipWith_nil_left, List.forall₂_cons, min_self] at hb
        omega
      rw [e4]
      rfl

/-- A site without physical index for which that environment is built. -/
example : ∃ e, initEnv (fun M _ => ([], M)) .ctmrgObcSl none (⟨[2, 2, 2, 2], fun _ => 1⟩ : Tensor ℝ) (emptyEnv 1 2) = .ok e := by
  have hs : (⟨[2, 2, 2, 2], fun _ => 1⟩ : Tensor ℝ).shape = [2, 2, 2, 2] := rfl
  obtain ⟨R, e1, hR, hv⟩ := einsum_ok (fun _ => 2) [((⟨[2, 2, 2, 2], fun _ => 1⟩ : Tensor ℝ), [0, 1, 2, 3])] [2, 3] (by simp) (by decide) (by
    show ∀ l ∈ [2, 3], l ∈ [0, 1, 2, 3]; decide)
  obtain ⟨R', e2, hR', hv'⟩ := einsum_ok (fun _ => 2) [((⟨[2, 2, 2, 2], fun _ => 1⟩ : Tensor ℝ), [0, 1, 2, 3])] [0, 2, 3] (by simp) (by decide) (by
    show ∀ l ∈ [0, 2, 3], l ∈ [0, 1, 2, 3]; decide)
  have n1 : vecNorm true R ≠ 0 := by
    intro h0
    have := vecNorm_zero h0 [0, 0] (by rw [hR]; exact inB2 (by decide) (by decide))
    have h1 := hv (fun _ => 0) (by simp)
    have h2 : R.val (List.map (fun _ => 0) [2, 3]) = 0 := this
    rw [h2] at h1
    have hL : (([((⟨[2, 2, 2, 2], fun _ => 1⟩ : Tensor ℝ), [0, 1, 2, 3])] : List (Tensor ℝ × List Nat)).flatMap Prod.snd).dedup.filter (fun l => l ∉ [2, 3]) = [0, 1] := by
      show ([0, 1, 2, 3].dedup).filter (fun l => l ∉ [2, 3]) = [0, 1]
      decide
    rw [hL] at h1
    simp [sumOver, termOf] at h1
  have n2 : vecNorm true R' ≠ 0 := by
    intro h0
    have := vecNorm_zero h0 [0, 0, 0] (by rw [hR']; exact inB3 (by decide) (by decide) (by decide))
    have h1 := hv' (fun _ => 0) (by simp)
    have h2 : R'.val (List.map (fun _ => 0) [0, 2, 3]) = 0 := this
    rw [h2] at h1
    have hL : (([((⟨[2, 2, 2, 2], fun _ => 1⟩ : Tensor ℝ), [0, 1, 2, 3])] : List (Tensor ℝ × List Nat)).flatMap Prod.snd).dedup.filter (fun l => l ∉ [0, 2, 3]) = [1] := by
      show ([0, 1, 2, 3].dedup).filter (fun l => l ∉ [0, 2, 3]) = [1]
      decide
    rw [hL] at h1
    simp [sumOver, termOf] at h1
  obtain ⟨N, eN⟩ : ∃ N, normMax R = .ok N := by unfold normMax Ctm.normalize; rw [if_neg n1]; exact ⟨_, rfl⟩
  obtain ⟨N', eN'⟩ : ∃ N, normMax R' = .ok N := by unfold normMax Ctm.normalize; rw [if_neg n2]; exact ⟨_, rfl⟩
  obtain ⟨B, eB, -⟩ := put_ok (chi := 1) [(0, true), (1, true)] (fun _ => 2) (a := N) (by rw [(normalize_ok eN).1.shape, hR]; rfl)
  obtain ⟨B', eB', -⟩ := put_ok (chi := 1) [(0, true), (1, true), (2, false)] (fun _ => 2) (a := N') (by rw [(normalize_ok eN').1.shape, hR']; rfl)
  refine ⟨⟨1, B, B'⟩, ?_⟩
  simp only [initEnv, initKind, initObcSl]
  rw [if_pos (show [2, 2, 2, 2].length = 4 from rfl), e1]
  simp only [lift, ok_bind]
  rw [eN]
  simp only [ok_bind]
  have eB2 : put [(emptyEnv 1 2 : Env ℝ).chi, (emptyEnv 1 2 : Env ℝ).chi] [min (emptyEnv 1 2 : Env ℝ).chi ((⟨[2, 2, 2, 2], fun _ => 1⟩ : Tensor ℝ).size 2), min (emptyEnv 1 2 : Env ℝ).chi ((⟨[2, 2, 2, 2], fun _ => 1⟩ : Tensor ℝ).size 3)] N = .ok B := eB
  rw [eB2]
  simp only [ok_bind]
  rw [e2]
  simp only [ok_bind]
  rw [eN']
  simp only [ok_bind]
  have eB3 : put [(emptyEnv 1 2 : Env ℝ).chi, (emptyEnv 1 2 : Env ℝ).chi, (⟨[2, 2, 2, 2], fun _ => 1⟩ : Tensor ℝ).size 3] [min (emptyEnv 1 2 : Env ℝ).chi ((⟨[2, 2, 2, 2], fun _ => 1⟩ : Tensor ℝ).size 0), min (emptyEnv 1 2 : Env ℝ).chi ((⟨[2, 2, 2, 2], fun _ => 1⟩ : Tensor ℝ).size 2), (⟨[2, 2, 2, 2], fun _ => 1⟩ : Tensor ℝ).size 3] N' = .ok B' := eB'
  rw [eB3]
  rfl

end

/-! ### C139 -/

theorem multLoop_ends (eps : ℝ) (d : List ℝ) (l k : Nat) :
    k ∈ Spec.ends (multLoop eps d l) ↔ ∃ i, i + 1 < d.length ∧ eps < d.getD i 0 - d.getD (i + 1) 0 ∧ k = l + i + 1 := by
  induction d generalizing l k with
  | nil => simp [multLoop, Spec.ends]
  | cons x d ih =>
    cases d with
    | nil => simp [multLoop, Spec.ends]
    | cons y ds =>
      have hstep : ∀ c : Nat, (∃ i, i + 1 < (x :: y :: ds).length ∧ eps < (x :: y :: ds).getD i 0 - (x :: y :: ds).getD (i + 1) 0 ∧ k = c + i + 1) ↔
          (eps < x - y ∧ k = c + 1) ∨ ∃ i, i + 1 < (y :: ds).length ∧ eps < (y :: ds).getD i 0 - (y :: ds).getD (i + 1) 0 ∧ k = c + 1 + i + 1 := by
        intro c
        constructor
        · rintro ⟨i, h1, h2, h3⟩
          cases i with
          | zero => exact .inl ⟨h2, h3⟩
          | succ i => exact .inr ⟨i, by simpa using h1, h2, by omega⟩
        · rintro (⟨h1, h2⟩ | ⟨i, h1, h2, h3⟩)
          · exact ⟨0, by simp, h1, h2⟩
          · exact ⟨i + 1, by simpa using h1, h2, by omega⟩
      rw [hstep, multLoop]
      split
      · rename_i hg
        simp only [Spec.ends, List.mem_cons, List.mem_map, hg, true_and]
        refine or_congr Iff.rfl ⟨?_, ?_⟩
        · rintro ⟨k', h1, rfl⟩
          obtain ⟨i, h2, h3, rfl⟩ := (ih 0 k').1 h1
          exact ⟨i, h2, h3, by omega⟩
        · rintro ⟨i, h2, h3, rfl⟩
          exact ⟨0 + i + 1, (ih 0 _).2 ⟨i, h2, h3, rfl⟩, by omega⟩
      · rename_i hg
        simp only [hg, false_and, false_or]
        exact ih (l + 1) k

theorem multLoop_pos (eps : ℝ) (d : List ℝ) (l : Nat) : ∀ n ∈ multLoop eps d l, 0 < n := by
  induction d generalizing l with
  | nil => simp [multLoop]
  | cons x d ih =>
    cases d with
    | nil => simp [multLoop]
    | cons y ds =>
      rw [multLoop]
      split
      · intro n hn
        rcases List.mem_cons.1 hn with rfl | hn
        · omega
        · exact ih 0 n hn
      · exact ih (l + 1)

/-- `compute_multiplets`: with the magnitudes of the eigenvalues and a zero in descending order, a block ends exactly where a value exceeds the next one by more than the gap. -/
theorem C139_multiplets (eps : ℝ) (ev m : List ℝ) (hm : m.Perm (ev.map abs ++ [0])) (hsort : m.Pairwise (· ≥ ·)) :
    (∀ n ∈ multiplets eps ev, 0 < n) ∧
    ∀ k, k ∈ Spec.ends (multiplets eps ev) ↔ 0 < k ∧ k ≤ ev.length ∧ eps < m.getD (k - 1) 0 - m.getD k 0 := by
  have he : (ev.map abs ++ [0]).mergeSort (fun a b => decide (b ≤ a)) = m := by
    refine List.Perm.eq_of_pairwise (le := fun a b : ℝ => b ≤ a) (fun a b _ _ h1 h2 => le_antisymm h2 h1) ?_ hsort ((List.mergeSort_perm _ _).trans hm.symm)
    have := List.pairwise_mergeSort (le := fun a b : ℝ => decide (b ≤ a)) (fun a b c h1 h2 => by simp only [decide_eq_true_eq] at *; exact h2.trans h1)
      (fun a b => by simp only [Bool.or_eq_true, decide_eq_true_eq]; exact le_total _ _) (ev.map abs ++ [0])
    exact this.imp (fun h => by simpa using h)
  have hl : m.length = ev.length + 1 := by rw [hm.length_eq]; simp
  unfold multiplets
  rw [he]
  refine ⟨multLoop_pos _ _ _, fun k => ?_⟩
  rw [multLoop_ends]
  constructor
  · rintro ⟨i, h1, h2, rfl⟩
    refine ⟨by omega, by omega, ?_⟩
    rw [show 0 + i + 1 - 1 = i by omega, show 0 + i + 1 = i + 1 by omega]
    exact h2
  · rintro ⟨h1, h2, h3⟩
    refine ⟨k - 1, by omega, ?_, by omega⟩
    rw [show k - 1 + 1 = k by omega]
    exact h3

theorem ends_sum (l : List Nat) (hl : l ≠ []) : l.sum ∈ Spec.ends l := by
  induction l with
  | nil => exact absurd rfl hl
  | cons x xs ih =>
    by_cases hx : xs = []
    · subst hx; simp [Spec.ends]
    · simp only [Spec.ends, List.sum_cons, List.mem_cons, List.mem_map]
      exact .inr ⟨_, ih hx, rfl⟩

theorem ends_le (l : List Nat) (k : Nat) (hk : k ∈ Spec.ends l) : k ≤ l.sum := by
  induction l generalizing k with
  | nil => simp [Spec.ends] at hk
  | cons x xs ih =>
    simp only [Spec.ends, List.mem_cons, List.mem_map] at hk
    rcases hk with rfl | ⟨y, hy, rfl⟩
    · simp
    · have := ih y hy
      simp; omega

/-- The blocks cover at most all eigenvalues, and all of them if and only if (for at least one value) the smallest magnitude is larger than the gap. -/
theorem C139_cover (eps : ℝ) (ev : List ℝ) (hne : ev ≠ []) : (multiplets eps ev).sum ≤ ev.length ∧ ((multiplets eps ev).sum = ev.length ↔ ∀ x ∈ ev, eps < |x|) := by
  obtain ⟨hpos, hends⟩ := C139_multiplets eps ev ((ev.map abs).mergeSort (fun a b => decide (b ≤ a)) ++ [0]) ((List.mergeSort_perm _ _).append_right _) (by
    rw [List.pairwise_append]
    refine ⟨?_, by simp, fun a ha b hb => ?_⟩
    · have := List.pairwise_mergeSort (le := fun a b : ℝ => decide (b ≤ a)) (fun a b c h1 h2 => by simp only [decide_eq_true_eq] at *; exact h2.trans h1)
        (fun a b => by simp only [Bool.or_eq_true, decide_eq_true_eq]; exact le_total _ _) (ev.map abs)
      exact this.imp (fun h => by simpa using h)
    · obtain ⟨x, -, rfl⟩ := List.mem_map.1 ((List.mergeSort_perm _ _).mem_iff.1 ha)
      rw [List.mem_singleton.1 hb]
      exact abs_nonneg x)
  set s := (ev.map abs).mergeSort (fun a b => decide (b ≤ a)) with hsdef
  have hperm : s.Perm (ev.map abs) := List.mergeSort_perm _ _
  have hlen : s.length = ev.length := by rw [hperm.length_eq]; simp
  have hsorted : s.Pairwise (· ≥ ·) := by
    have := List.pairwise_mergeSort (le := fun a b : ℝ => decide (b ≤ a)) (fun a b c h1 h2 => by simp only [decide_eq_true_eq] at *; exact h2.trans h1)
      (fun a b => by simp only [Bool.or_eq_true, decide_eq_true_eq]; exact le_total _ _) (ev.map abs)
    exact this.imp (fun h => by simpa using h)
  have h0 : 0 < ev.length := List.length_pos_iff.2 hne
  have hle : (multiplets eps ev).sum ≤ ev.length := by
    by_cases hm : multiplets eps ev = []
    · rw [hm]; simp
    · exact ((hends _).1 (ends_sum _ hm)).2.1
  have hlast : ev.length ∈ Spec.ends (multiplets eps ev) ↔ eps < s.getD (ev.length - 1) 0 := by
    rw [hends]
    have e1 : (s ++ [0]).getD (ev.length - 1) 0 = s.getD (ev.length - 1) 0 := by
      rw [List.getD_eq_getElem?_getD, List.getElem?_append_left (by omega), ← List.getD_eq_getElem?_getD]
    have e2 : (s ++ [0]).getD ev.length 0 = 0 := by
      rw [List.getD_eq_getElem?_getD, List.getElem?_append_right (by omega)]; simp [hlen]
    rw [e1, e2, sub_zero]
    simp [h0]
  refine ⟨hle, ?_⟩
  have h1 : (multiplets eps ev).sum = ev.length ↔ ev.length ∈ Spec.ends (multiplets eps ev) := by
    constructor
    · intro h
      rw [← h]
      refine ends_sum _ (fun hm => ?_)
      rw [hm] at h
      simp at h
      omega
    · intro h
      exact le_antisymm hle (ends_le _ _ h)
  rw [h1, hlast]
  have hget : s.getD (ev.length - 1) 0 = s[ev.length - 1]'(by omega) := by
    rw [List.getD_eq_getElem?_getD, List.getElem?_eq_getElem (by omega)]; rfl
  rw [hget]
  constructor
  · intro h x hx
    have hxs : |x| ∈ s := hperm.mem_iff.2 (List.mem_map_of_mem hx)
    obtain ⟨i, hi, hxi⟩ := List.getElem_of_mem hxs
    rw [← hxi]
    rcases Nat.lt_or_ge i (ev.length - 1) with hlt | hge
    · exact lt_of_lt_of_le h (List.pairwise_iff_getElem.1 hsorted i (ev.length - 1) hi (by omega) hlt)
    · have : i = ev.length - 1 := by omega
      subst this
      exact h
  · intro h
    obtain ⟨x, hx, hxe⟩ := List.mem_map.1 (hperm.mem_iff.1 (List.getElem_mem (show ev.length - 1 < s.length by omega)))
    rw [← hxe]
    exact h x hx

/-- The case of two values of the same magnitude, one smaller value and one that vanishes: blocks of sizes two and one. -/
example : Spec.ends (multiplets (1 / 10) [1, -1, 1 / 2, 0]) = [2, 3] := by
  have h : ((([1, -1, 1 / 2, 0] : List ℝ).map abs) ++ [0]).mergeSort (fun a b => decide (b ≤ a)) = [1, 1, 1 / 2, 0, 0] := by
    refine List.Perm.eq_of_pairwise (le := fun a b : ℝ => b ≤ a) (fun a b _ _ h1 h2 => le_antisymm h2 h1) ?_ (by simp; norm_num) ((List.mergeSort_perm _ _).trans (by
      simp [abs_of_pos]))
    have := List.pairwise_mergeSort (le := fun a b : ℝ => decide (b ≤ a)) (fun a b c h1 h2 => by simp only [decide_eq_true_eq] at *; exact h2.trans h1)
      (fun a b => by simp only [Bool.or_eq_true, decide_eq_true_eq]; exact le_total _ _) ((([1, -1, 1 / 2, 0] : List ℝ).map abs) ++ [0])
    exact this.imp (fun h => by simpa using h)
  unfold multiplets
  rw [h]
  norm_num [multLoop, Spec.ends]

end Verif.C4v
