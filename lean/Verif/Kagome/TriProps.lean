import Verif.Kagome.Tri
/-
C115. Expectation values of operators on three spins of the Kagome lattice.
-/
namespace Verif.KagomeRdm
open Tensor Rdm Ctm Ctm.Spec
set_option linter.unusedSectionVars false
variable {K : Type} [RCLike K]

namespace Spec

/-- The norm used by the code: the real part of the trace of the un-normalised density matrix of `n` site tensors. -/
noncomputable def norm (p n : Nat) (rho : Tensor K) : ℝ := RCLike.re (Matrix.trace (Rdm.Spec.op (List.replicate n (p ^ 3)) rho))

end Spec

theorem put_lt {p : Nat} (x y : Nat) (s : Spec.Spins p) (i : Nat) : Spec.put x y s i < p := by
  unfold Spec.put; split
  · exact (s 0).2
  · split
    · exact (s 1).2
    · exact (s 2).2

theorem trace_mul3 {p : Nat} (A B : Spec.Op3 K p) : Matrix.trace (A * B) = ∑ s, ∑ t, A s t * B t s := rfl

theorem pairOf_nil (k b : Nat → Nat) : pairOf [] k b = fun _ => none := by
  funext x; simp [pairOf]

theorem pairs_none {keeps : List (List Nat)} {k b : Nat → Nat} {i : Nat} (h : keeps.getD i [] = []) : pairs keeps k b i = fun _ => none := by
  unfold pairs; rw [h, pairOf_nil]

/-- Entries of the network of the plaquette. -/
def Full (dim : Nat → Nat) (e : PlaqEnv K) (s : PlaqSites K) (P : Nat) (T : Tensor K) : Prop :=
  ∀ s0 s1 s2 s3 t0 t1 t2 t3 : Nat, s0 < P → s1 < P → s2 < P → s3 < P → t0 < P → t1 < P → t2 < P → t3 < P →
      T.val ([s0, s1, s2, s3] ++ [t0, t1, t2, t3]) = plaqF dim e (lay s.a s0 t0) (lay s.ax s1 t1) (lay s.ay s2 t2) (lay s.axy s3 t3)

theorem norm_part (dim : Nat → Nat) (e : PlaqEnv K) (s : PlaqSites K) {p : Nat} {T : Tensor K} (vT : Full dim e s (p ^ 3) T) :
    plaqF dim e (fun U L D R => ∑ t ∈ Finset.range (p ^ 3), lay s.a t t U L D R) (opened p s.ax (fun _ => none)) (opened p s.ay (fun _ => none))
      (opened p s.axy (fun _ => none)) = Matrix.trace (Rdm.Spec.op (List.replicate 4 (p ^ 3)) T) := by
  have := plaqF_opened dim e p s.a s.ax s.ay s.axy (keeps := [[], [], [], []]) (by simp) (fun _ => 0) (fun _ => 0) vT
  rw [show Spec.kept [[], [], [], []] = [] from rfl, marginal_nil] at this
  rw [← this]
  have e0 : opened p s.a (fun _ => none) = fun U L D R => ∑ t ∈ Finset.range (p ^ 3), lay s.a t t U L D R := by
    funext U L D R
    exact opened_closed p s.a U L D R
  rw [pairs_none (i := 0) rfl, pairs_none (i := 1) rfl, pairs_none (i := 2) rfl, pairs_none (i := 3) rfl, e0]

theorem op_part (dim : Nat → Nat) (e : PlaqEnv K) (s : PlaqSites K) {p : Nat} {T o : Tensor K} {O : Spec.Op3 K p} (vT : Full dim e s (p ^ 3) T)
    (vo : ∀ t s : Spec.Spins p, o.val [Spec.index t, Spec.index s] = O t s) :
    plaqF dim e (fun U L D R => ∑ u ∈ Finset.range (p ^ 3), ∑ t ∈ Finset.range (p ^ 3), o.val [t, u] * lay s.a u t U L D R) (opened p s.ax (fun _ => none))
      (opened p s.ay (fun _ => none)) (opened p s.axy (fun _ => none)) = Matrix.trace (Spec.reduced p 4 T 0 1 2 * O) := by
  refine (lin0 dim e _ _ _ (p ^ 3) (fun s t => o.val [t, s]) (fun u t => lay s.a u t)).trans ?_
  rw [sum_pairs, trace_mul3]
  refine Finset.sum_congr rfl fun u _ => Finset.sum_congr rfl fun t _ => ?_
  rw [vo, mul_comm]
  refine congrArg (· * O t u) ?_
  have := plaqF_opened dim e p s.a s.ax s.ay s.axy (keeps := [[0, 1, 2], [], [], []]) (by simp) (Spec.put 0 1 u) (Spec.put 0 1 t) vT
  rw [show Spec.kept [[0, 1, 2], [], [], []] = [0, 1, 2] from rfl] at this
  refine Eq.trans ?_ this
  have e0 : opened p s.a (pairs [[0, 1, 2], [], [], []] (Spec.put 0 1 u) (Spec.put 0 1 t) 0) = lay s.a (Spec.index u) (Spec.index t) := by
    funext U L D R
    rw [index_enc, index_enc]
    exact opened_all s.a (fun x => Spec.put 0 1 u (3 * 0 + x)) (fun x => Spec.put 0 1 t (3 * 0 + x)) (fun _ => put_lt _ _ _ _) (fun _ => put_lt _ _ _ _) U L D R
  rw [e0, pairs_none (i := 1) rfl, pairs_none (i := 2) rfl, pairs_none (i := 3) rfl]

theorem rawDn_val {D : Dims} {st : State K} {env : Env K} (ht : Tiling st) (hs : FitsState D st) (he : FitsEnv D st env) {p : Nat} (hp : ∀ c, D.p c = p ^ 3)
    (c : Coord) {o : Tensor K} {O : Spec.Op3 K p} (ho : Spec.Represents o O) {e : PlaqEnv K} {s : PlaqSites K} (h0 : Rdm.Spec.AroundPlaq st env c e s)
    (h2 : Rdm.Spec.FitsP (Rdm.Spec.dimsP D c) e s) {T : Tensor K} (eT : oe2x2 e s [0, 1, 2, 3] = some T) :
    rawDn st env c o = some (Matrix.trace (Spec.reduced p 4 T 0 1 2 * O), Matrix.trace (Rdm.Spec.op (List.replicate 4 (p ^ 3)) T)) := by
  have d0 : Rdm.Spec.dimsP D c 100 = p ^ 3 := hp _
  have d1 : Rdm.Spec.dimsP D c 102 = p ^ 3 := hp _
  have d2 : Rdm.Spec.dimsP D c 104 = p ^ 3 := hp _
  have d3 : Rdm.Spec.dimsP D c 106 = p ^ 3 := hp _
  obtain ⟨T', eT', sT, vT⟩ := plaq_full h2 d0 d1 d2 d3
  obtain rfl : T' = T := by rw [eT'] at eT; exact Option.some.inj eT
  obtain ⟨hl, o', eo, so, vo⟩ := fuseOp_ok ho
  have h2' := h2
  obtain ⟨hC1, hT1, hT4, hT4y, hC4, hT3y, hT1x, hC2, hT2x, hT2xy, hC3, hT3xy, ha, ha0, ha1, ha2, ha3, ha4, hax, hax0, hax1, hax2, hax3, hax4, hay, hay0, hay1, hay2, hay3, hay4, haxy, haxy0, haxy1, haxy2, haxy3, haxy4⟩ := h2
  rw [d0] at ha; rw [d1] at hax; rw [d2] at hay; rw [d3] at haxy
  obtain ⟨A, eA, sA, vA⟩ := dlClosed_val s.a _ _ _ _ _ ha
  obtain ⟨Ao, eAo, sAo, vAo⟩ := dlOp_val s.a o' _ _ _ _ _ ha so
  obtain ⟨B, eB, sB, vB⟩ := layer_opened p s.ax _ _ _ _ [] (by decide) hax
  obtain ⟨E, eE, sE, vE⟩ := layer_opened p s.ay _ _ _ _ [] (by decide) hay
  obtain ⟨X, eX, sX, vX⟩ := layer_opened p s.axy _ _ _ _ [] (by decide) haxy
  have hp0 : 0 < p := by
    have := hs.p.1 c
    rw [hp] at this
    by_contra h
    have : p = 0 := by omega
    subst this; simp at *
  have vB' : ∀ U L D' R, _ → _ → _ → _ → B.val [U, L, D', R] = opened p s.ax (fun _ => none) U L D' R := fun U L D' R h1 h2 h3 h4 =>
    (vB (fun _ => 0) (fun _ => 0) U L D' R (fun _ => hp0) (fun _ => hp0) h1 h2 h3 h4).trans (by rw [pairOf_nil])
  have vE' : ∀ U L D' R, _ → _ → _ → _ → E.val [U, L, D', R] = opened p s.ay (fun _ => none) U L D' R := fun U L D' R h1 h2 h3 h4 =>
    (vE (fun _ => 0) (fun _ => 0) U L D' R (fun _ => hp0) (fun _ => hp0) h1 h2 h3 h4).trans (by rw [pairOf_nil])
  have vX' : ∀ U L D' R, _ → _ → _ → _ → X.val [U, L, D', R] = opened p s.axy (fun _ => none) U L D' R := fun U L D' R h1 h2 h3 h4 =>
    (vX (fun _ => 0) (fun _ => 0) U L D' R (fun _ => hp0) (fun _ => hp0) h1 h2 h3 h4).trans (by rw [pairOf_nil])
  obtain ⟨LU, RU, LD, RD, Y, eLU, eRU, eLD, eRD, eY, sY, vY⟩ := plaq_closed h2' (A := A) (B := B) (E := E) (D := X) sA sB sE sX _ _ _ _ vA vB' vE' vX'
  obtain ⟨LUo, RU', LD', RD', Yo, eLUo, eRU', eLD', eRD', eYo, sYo, vYo⟩ := plaq_closed h2' (A := Ao) (B := B) (E := E) (D := X) sAo sB sE sX _ _ _ _ vAo vB' vE' vX'
  obtain rfl : RU' = RU := by rw [eRU] at eRU'; exact (Option.some.inj eRU').symm
  obtain rfl : LD' = LD := by rw [eLD] at eLD'; exact (Option.some.inj eLD').symm
  obtain rfl : RD' = RD := by rw [eRD] at eRD'; exact (Option.some.inj eRD').symm
  have hY : Y.val [] = Matrix.trace (Rdm.Spec.op (List.replicate 4 (p ^ 3)) T') := vY.trans (norm_part _ e s vT)
  have hYo : Yo.val [] = Matrix.trace (Spec.reduced p 4 T' 0 1 2 * O) := vYo.trans (op_part _ e s vT vo)
  have hv : ∀ c, st.vts (st.vts c) = st.vts c := fun c => ht.fix _ (ht.mem c)
  have q0 := h0.a
  have q1 := h0.ax
  have q2 := h0.ay
  have q3 := h0.axy
  have g1 := h0.C1
  have g2 := h0.C2
  have g3 := h0.C3
  have g4 := h0.C4
  have t1 := h0.T1
  have t2 := h0.T4
  have t3 := h0.T1x
  have t4 := h0.T2x
  have t5 := h0.T2xy
  have t6 := h0.T3xy
  have t7 := h0.T3y
  have t8 := h0.T4y
  simp only [rt, dn] at q1 q2 q3 g2 g3 g4 t3 t4 t5 t6 t7 t8
  have pl : pleg [] = false := rfl
  unfold join2x2 halfPerm at eY eYo
  obtain ⟨up, f1, f2⟩ := Option.bind_eq_some_iff.1 eY
  obtain ⟨upo, k1, k2⟩ := Option.bind_eq_some_iff.1 eYo
  obtain ⟨up', f3, f4⟩ := Option.bind_eq_some_iff.1 f2
  obtain ⟨upo', k3, k4⟩ := Option.bind_eq_some_iff.1 k2
  obtain ⟨lo, f5, f6⟩ := Option.bind_eq_some_iff.1 f4
  obtain ⟨lo', k5, k6⟩ := Option.bind_eq_some_iff.1 k4
  obtain ⟨lo2, f7, f8⟩ := Option.bind_eq_some_iff.1 f6
  obtain ⟨lo2', k7, k8⟩ := Option.bind_eq_some_iff.1 k6
  simp only [Bool.and_self, Bool.false_eq_true, if_false, Option.some.injEq] at f3 k3 f7 k7
  subst f3 k3 f7 k7
  obtain rfl : lo = lo' := by rw [f5] at k5; exact Option.some.inj k5
  simp only [rawDn, eo, physDim_ok ht hs hp, cornerRU, cornerRD, cornerLD, State.site, hv, q0, q1, q2, q3, g1, g2, g3, g4, t1, t2, t3, t4, t5, t6, t7, t8,
      Option.bind_eq_bind, Option.bind_some, eA, eAo, eB, eE, eX, pl, eLU, eLUo, eRU, eLD, eRD, f1, k1, f5, f8, k8, hY, hYo]
  rfl

/-- `rdm2x2_dn_triangle_with_operator` returns the trace of the operator with the density matrix of the three spins of the upper left tensor of the plaquette, divided by
the norm, and the norm; both from the network of the plaquette `rho`. -/
theorem C115_down {D : Dims} {st : State K} {env : Env K} (ht : Tiling st) (hs : FitsState D st) (he : FitsEnv D st env) {p : Nat} (hp : ∀ c, D.p c = p ^ 3)
    (c : Coord) {o : Tensor K} {O : Spec.Op3 K p} (ho : Spec.Represents o O) :
    ∃ rho, Rdm.Spec.IsPlaq D st env c rho ∧ (Spec.norm p 4 rho ≠ 0 →
      dnTriangle st env c o = .ok (Matrix.trace (Spec.reduced p 4 rho 0 1 2 * O) / ((Spec.norm p 4 rho : ℝ) : K), Spec.norm p 4 rho)) := by
  obtain ⟨e, s, h1, h0, h2⟩ := plaq_ok hs he c
  obtain ⟨T, eT, qT⟩ := oe2x2_denotes (Rdm.Spec.dimsP D c) e s h2 [0, 1, 2, 3] (by decide)
  refine ⟨T, ⟨e, s, h0, Corner.isNetwork qT⟩, fun hn => ?_⟩
  unfold dnTriangle
  rw [rawDn_val ht hs he hp c ho h0 h2 eT]
  show quotient _ = _
  unfold quotient
  rw [if_neg (by exact hn)]
  rfl

theorem reduced_herm {p n : Nat} {x y z : Nat} (c : K) (T R : Tensor K)
    (hR : ∀ s t, InB (List.replicate n (p ^ 3)) s → InB (List.replicate n (p ^ 3)) t → R.val (s ++ t) = c * (T.val (s ++ t) + star (T.val (t ++ s)))) :
    Spec.reduced p n R x y z = c • (Spec.reduced p n T x y z + (Spec.reduced p n T x y z).conjTranspose) := by
  ext s t
  exact marginal_herm p n [x, y, z] _ _ c T R hR

theorem trace_herm {p : Nat} (X O : Spec.Op3 K p) (hO : O.IsHermitian) : Matrix.trace ((X + X.conjTranspose) * O) = ((2 * RCLike.re (Matrix.trace (X * O)) : ℝ) : K) := by
  have h : Matrix.trace (X.conjTranspose * O) = star (Matrix.trace (X * O)) := by
    rw [← Matrix.trace_conjTranspose, Matrix.conjTranspose_mul, hO.eq, Matrix.trace_mul_comm]
  rw [add_mul, Matrix.trace_add, h, RCLike.star_def, RCLike.add_conj]
  push_cast
  ring

/-- For a Hermitian operator the real part of the value returned for a down triangle is its expectation value in the density matrix of the plaquette. -/
theorem C115_down_hermitian (eigh : Tensor K → List ℝ × Tensor K) {D : Dims} {st : State K} {env : Env K} (ht : Tiling st) (hs : FitsState D st) (he : FitsEnv D st env)
    {p : Nat} (hp : ∀ c, D.p c = p ^ 3) (c : Coord) {o : Tensor K} {O : Spec.Op3 K p} (ho : Spec.Represents o O) (hO : O.IsHermitian) {R : Tensor K}
    (hR : rdm2x2 eigh false st env c [0, 1, 2, 3] = .ok R) :
    ∃ v n, dnTriangle st env c o = .ok (v, n) ∧ ((RCLike.re v : ℝ) : K) = Matrix.trace (Spec.reduced p 4 R 0 1 2 * O) := by
  obtain ⟨e, s, h1, h0, h2⟩ := plaq_ok hs he c
  obtain ⟨T, eT, qT⟩ := oe2x2_denotes (Rdm.Spec.dimsP D c) e s h2 [0, 1, 2, 3] (by decide)
  rw [rdm2x2_eq eigh false h1 (by decide) eT] at hR
  obtain ⟨T', eT', sT, -⟩ := plaq_full h2 (P := p ^ 3) (hp _) (hp _) (hp _) (hp _)
  obtain rfl : T' = T := by rw [eT'] at eT; exact Option.some.inj eT
  obtain ⟨hpos, hn⟩ := symRdm_ok eigh sT hR
  obtain ⟨R1, e1, -, v1⟩ := symRdm_entries eigh sT hpos hn
  obtain rfl : R = R1 := by rw [hR] at e1; exact Except.ok.inj e1
  refine ⟨Matrix.trace (Spec.reduced p 4 T' 0 1 2 * O) / ((RCLike.re (Matrix.trace (Rdm.Spec.op (List.replicate 4 (p ^ 3)) T')) : ℝ) : K),
    RCLike.re (Matrix.trace (Rdm.Spec.op (List.replicate 4 (p ^ 3)) T')), ?_, ?_⟩
  · unfold dnTriangle
    rw [rawDn_val ht hs he hp c ho h0 h2 eT]
    show quotient _ = _
    unfold quotient
    rw [if_neg (by exact hn)]
  · rw [reduced_herm _ T' R v1, Matrix.smul_mul, Matrix.trace_smul, trace_herm _ _ hO]
    rw [smul_eq_mul, RCLike.div_re_ofReal]
    push_cast
    field_simp

end Verif.KagomeRdm
