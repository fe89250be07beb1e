import Verif.Kagome.One
import Verif.Kagome.TriProps
/-
C114: `trace1x1_dn_kagome` and `_old_rdm1x1_kagome`.
-/
namespace Verif.KagomeRdm
open Tensor Ctm Rdm Ctm.Spec
variable {K : Type} [RCLike K]

theorem spin_pos {D : Dims} {st : State K} (hs : FitsState D st) {p : Nat} (hp : ∀ c, D.p c = p ^ 3) : 0 < p := by
  have := hs.p.1 (0, 0)
  rw [hp] at this
  exact Nat.pos_of_ne_zero fun h => by subst h; simp at this

/-- Both modes of `rdm1x1` symmetrise the same network. -/
theorem site_network {D : Dims} {st : State K} {env : Env K} (ht : Tiling st) {c : Coord} {e : SiteEnv K} {a A rho : Tensor K} (h1 : siteEnv env (st.vts c) = some e)
    (h2 : st.site c = some a) (h3 : Rdm.Spec.Fits1 (Rdm.Spec.dims1 D c) e a) (eA : dlOpen a = some A) (e1 : dl1x1 e A = some rho)
    (eigh : Tensor K → List ℝ × Tensor K) (sl spd : Bool) (hc : sl = true ∨ c ∈ st.keys) : rdm1x1 eigh sl spd st env c none = symRdm eigh spd rho := by
  obtain ⟨A', rho', eA', e1', q1⟩ := dl1x1_open (Rdm.Spec.dims1 D c) e a h3
  obtain rfl : A = A' := by rw [eA] at eA'; exact Option.some.inj eA'
  obtain rfl : rho = rho' := by rw [e1] at e1'; exact Option.some.inj e1'
  cases sl with
  | false =>
    have hk : st.vts c = c := ht.fix c (by simpa using hc)
    rw [hk] at h1
    simp [rdm1x1, raw1x1, h1, h2, eA, e1, lift]
    rfl
  | true =>
    obtain ⟨r, e2, q2⟩ := sl1x1_open (Rdm.Spec.dims1 D c) e a h3
    have hs : Same r rho := q2.same q1 (by decide) (List.Perm.refl _) (fun _ => rfl)
    rw [← symRdm_same eigh spd hs]
    simp [rdm1x1, raw1x1, h1, h2, e2, lift]
    rfl

theorem op_part1 (dim : Nat → Nat) (e : SiteEnv K) (a : Tensor K) {p : Nat} {T o : Tensor K} {O : Spec.Op3 K p} (vT : Full1 dim e a (p ^ 3) T)
    (vo : ∀ t s : Spec.Spins p, o.val [Spec.index t, Spec.index s] = O t s) :
    netS dim e (fun U L D R => ∑ u ∈ Finset.range (p ^ 3), ∑ t ∈ Finset.range (p ^ 3), o.val [t, u] * lay a u t U L D R) =
      Matrix.trace (Spec.reduced p 1 T 0 1 2 * O) := by
  refine (linS dim e (p ^ 3) (fun s t => o.val [t, s]) (fun u t => lay a u t)).trans ?_
  rw [sum_pairs, trace_mul3]
  refine Finset.sum_congr rfl fun u _ => Finset.sum_congr rfl fun t _ => ?_
  rw [vo, mul_comm]
  refine congrArg (· * O t u) ?_
  have := net1_opened dim e p a (os := [0, 1, 2]) (by simp) (Spec.put 0 1 u) (Spec.put 0 1 t) vT
  rw [show Spec.kept [[0, 1, 2]] = [0, 1, 2] from rfl] at this
  refine Eq.trans ?_ this
  have e0 : opened p a (pairs [[0, 1, 2]] (Spec.put 0 1 u) (Spec.put 0 1 t) 0) = lay a (Spec.index u) (Spec.index t) := by
    funext U L D R
    rw [index_enc, index_enc]
    exact opened_all a (fun x => Spec.put 0 1 u (3 * 0 + x)) (fun x => Spec.put 0 1 t (3 * 0 + x)) (fun _ => put_lt _ _ _ _) (fun _ => put_lt _ _ _ _) U L D R
  rw [e0]

/-- For a site of the cell `trace1x1_dn_kagome` is the trace of the operator with the network `rho` of one site tensor and its environment, for every operator on the three
spins of the tensor. `rho` is the network whose symmetrised form `rdm1x1` returns (C31). -/
theorem C114_trace_partial {D : Dims} {st : State K} {env : Env K} (ht : Tiling st) (hs : FitsState D st) (he : FitsEnv D st env) {p : Nat} (hp : ∀ c, D.p c = p ^ 3)
    (c : Coord) (hc : c ∈ st.keys) :
    ∃ e a rho, Rdm.Spec.AroundSite st env c e a ∧ Corner.Spec.IsNetwork (Rdm.Spec.dims1 D c) rho [[4], [7]] Rdm.Spec.inner1 (Rdm.Spec.rho1 (Rdm.Spec.dims1 D c) e a) ∧
      (∀ eigh sl spd, rdm1x1 eigh sl spd st env c none = symRdm eigh spd rho) ∧
      ∀ (o : Tensor K) (O : Spec.Op3 K p), Spec.Represents o O → trace1x1 st env c o = some (Matrix.trace (Spec.reduced p 1 rho 0 1 2 * O)) := by
  obtain ⟨e, a, h1, h2, h0, h3⟩ := siteEnv_ok hs he c
  have hk : st.vts c = c := ht.fix c hc
  obtain ⟨A, rho, eA, e1, q1⟩ := dl1x1_open (Rdm.Spec.dims1 D c) e a h3
  refine ⟨e, a, rho, h0, Corner.isNetwork q1, fun eigh sl spd => ?_, fun o O ho => ?_⟩
  · exact site_network ht h1 h2 h3 eA e1 eigh sl spd (.inr hc)
  · obtain ⟨hl, o', eo, so, vo⟩ := fuseOp_ok ho
    have p0 : Rdm.Spec.dims1 D c 4 = p ^ 3 := hp _
    obtain ⟨T, eT, -, vT⟩ := fullS h3 eA p0
    obtain rfl : T = rho := by rw [e1] at eT; exact (Option.some.inj eT).symm
    have ha := h3.a
    rw [p0] at ha
    obtain ⟨Ao, eAo, sAo, vAo⟩ := dlOp_val a o' _ _ _ _ _ ha so
    obtain ⟨X, eX, -, vX⟩ := closedS h3 sAo _ vAo
    have hC : env.C (c, (1, 1)) = some e.C3 := by
      have := h0.C3
      rwa [hk] at this
    have hX : dl1x1 { e with C3 := e.C3 } Ao = some X := eX
    unfold trace1x1
    rw [if_neg (not_not.2 hl)]
    simp only [h1, h2, eo, eAo, hC, Option.bind_eq_bind, Option.bind_some]
    rw [eX]
    show some (X.val []) = _
    rw [vX, op_part1 _ e a vT vo]

/-- `_old_rdm1x1_kagome` is the partial trace of the density matrix `rdm1x1` of the site tensor over the spins that are not kept. -/
theorem C114_old (eigh : Tensor K → List ℝ × Tensor K) {D : Dims} {st : State K} {env : Env K} (ht : Tiling st) (hs : FitsState D st) (he : FitsEnv D st env)
    {p : Nat} (hp : ∀ c, D.p c = p ^ 3) (c : Coord) (keep : List Char) (hk : Spec.Keep keep) (hne : keep ≠ []) (sl : Bool) (hsl : sl = true ∨ c ∈ st.keys) {R : Tensor K}
    (hR : rdm1x1 eigh sl false st env c none = .ok R) :
    ∃ R', old1x1 eigh false st env c keep = .ok R' ∧ Spec.IsMarginal p 1 R R' (Spec.letters keep) := by
  obtain ⟨ha, hsub⟩ := abc012_ok hk
  have hne' : Spec.letters keep ≠ [] := by
    have key : ∀ keep ∈ ['A', 'B', 'C'].sublists.flatMap List.permutations', keep ≠ [] → Spec.letters keep ≠ [] := by decide +kernel
    exact key keep (keep_cases hk) hne
  obtain ⟨e, a, h1, h2, h0, h3⟩ := siteEnv_ok hs he c
  have p0 : Rdm.Spec.dims1 D c 4 = p ^ 3 := hp _
  obtain ⟨A, rho, eA, e1, -⟩ := dl1x1_open (Rdm.Spec.dims1 D c) e a h3
  obtain ⟨T, eT, sT, -⟩ := fullS h3 eA p0
  obtain rfl : T = rho := by rw [e1] at eT; exact (Option.some.inj eT).symm
  rw [site_network ht h1 h2 h3 eA e1 eigh sl false hsl] at hR
  obtain ⟨a0, X, R0, ea0, eX, eR0, hm⟩ := openedS h3 p0 eA hsub hne'
  have hkk : Spec.kept [Spec.letters keep] = Spec.letters keep := by simp [Spec.kept, List.range, List.range.loop]
  have hm' := hm T e1
  rw [hkk] at hm'
  obtain ⟨R1, f1, m1⟩ := symRdm_marginal (n := 1) eigh (spin_pos hs hp) (subsets_lt _ hsub).1 (fun x hx => (subsets_lt _ hsub).2 x hx) sT hm' hR
  refine ⟨R1, ?_, m1⟩
  unfold old1x1
  rw [ha]
  have : rawOld1x1 st env c (Spec.letters keep) = some R0 := by
    simp only [rawOld1x1, h1, h2, physDim_ok ht hs hp, ea0, eX, eR0, Option.bind_eq_bind, Option.bind_some]
  show (lift (rawOld1x1 st env c _) >>= _) = _
  rw [this]
  exact f1

end Verif.KagomeRdm
