import Verif.Rdm.MpsModel
import Verif.Rdm.PlaqProps
import Verif.Tensor.Einsum
/-
Property C35: an operator given as a matrix-product state and the density matrix of a network.
-/
namespace Verif.Rdm
open Tensor Ctm
variable {K : Type} [RCLike K]

namespace Spec

/-- `|s0'>,<s0|,|s1'>,<s1|,...` from kets and bras. -/
def interleave (ks bs : List Nat) : List Nat := (ks.zip bs).flatMap (fun p => [p.1, p.2])

/-- The entry of a matrix-product state with open ends of size one: `Σ m0[0,s0,a] m1[a,s1,b] ...`. -/
def chain : Nat → List (Tensor K) → List Nat → K
  | _, [], _ => 1
  | _, _ :: _, [] => 0
  | a, t :: ts, s :: ss => ∑ b ∈ Finset.range (t.shape.getD 2 0), t.val [a, s, b] * chain b ts ss

/-- A matrix-product state over indices of sizes `d` with bonds of sizes `B`. -/
structure FitsMps (B : Nat → Nat) (d : List Nat) (mps : List (Tensor K)) : Prop where
  len : mps.length = d.length
  first : B 0 = 1
  last : B d.length = 1
  shape : ∀ i (h : i < mps.length), mps[i].shape = [B i, d.getD i 0, B (i + 1)]

/-- `Σ rho[k,b] M(k0,b0,k1,b1,...)` for a density matrix on sites of sizes `ds`. -/
noncomputable def expect (ds : List Nat) (rho : Tensor K) (mps : List (Tensor K)) : K :=
  sumIdx ds (fun k => sumIdx ds (fun b => rho.val (k ++ b) * chain 0 mps (interleave k b)))

/-- `Σ rho[k,k]`. -/
noncomputable def trace (ds : List Nat) (rho : Tensor K) : K := sumIdx ds (fun k => rho.val (k ++ k))

end Spec
open Spec

omit [RCLike K] in
theorem squeezeFirst_eq {t : Tensor K} {s : List Nat} (h : t.shape = 1 :: s) : squeezeFirst t = ⟨s, fun idx => t.val (0 :: idx)⟩ := by
  unfold squeezeFirst
  split
  · rename_i s' hs
    rw [h] at hs
    injection hs with _ hs
    rw [hs]
  · rename_i hs
    exact absurd h (hs s)

omit [RCLike K] in
theorem squeezeLast_eq {t : Tensor K} {s : List Nat} (h : t.shape = s ++ [1]) : squeezeLast t = ⟨s, fun idx => t.val (idx ++ [0])⟩ := by
  unfold squeezeLast
  rw [if_pos (by rw [h]; simp), h]
  simp

/-- The sizes of all labels: those of the network and those of the bonds of the operator. -/
def withBonds (dim B : Nat → Nat) (l : Nat) : Nat := if l < 100 then dim l else B (l - 99)

open Classical in
theorem evalMps_eq {A B C : List (Tensor K × List Nat)} {phys : List Nat} {mps : List (Tensor K)} {R I : Tensor K} (etn : getMpsTn mps phys = some B)
    (eR : einsum (A ++ B) [] = some R) (eid : getIdTn mps phys = some C) (eI : einsum (A ++ C) [] = some I) :
    evalMps (A, phys) mps = if I.val [] = 0 then .error .nan else .ok (R.val [] / I.val [], I.val []) := by
  unfold evalMps
  simp only
  rw [etn]
  show (lift (einsum (A ++ _) []) >>= _) = _
  rw [eR]
  show (lift (getIdTn _ _) >>= _) = _
  rw [eid]
  show (lift (einsum (A ++ _) []) >>= _) = _
  rw [eI]
  rfl

/-- C35 for one site (see `C35_value_partial`). -/
theorem value1 (B : Nat → Nat) (A : List (Tensor K × List Nat)) (k0 b0 : Nat) (rho : Tensor K) (hA : einsum A [k0, b0] = some rho)
    (hl : ∀ p ∈ A, ∀ l ∈ p.2, l < 100) (d0 : Nat) (hs : rho.shape = [d0] ++ [d0]) (mps : List (Tensor K)) (hm : FitsMps B [d0, d0] mps)
    (h0 : trace [d0] rho ≠ 0) : evalMps (A, [k0, b0]) mps = .ok (expect [d0] rho mps / trace [d0] rho, trace [d0] rho) := by
  obtain ⟨dim, hsA, hn, ho⟩ := einsum_some hA
  obtain ⟨R0, eR0, hsR, -⟩ := einsum_ok dim A _ hsA hn ho
  obtain rfl : R0 = rho := Option.some.inj (eR0.symm.trans hA)
  have hlt : ∀ l ∈ A.flatMap Prod.snd, l < 100 := by
    intro l h
    obtain ⟨p, hp, h⟩ := List.mem_flatMap.1 h
    exact hl p hp l h
  have hsA' : ∀ p ∈ A, p.1.shape = p.2.map (withBonds dim B) := by
    intro p hp
    rw [hsA p hp]
    apply List.map_congr_left
    intro l h
    simp [withBonds, hl p hp l h]
  obtain ⟨m0, m1, rfl⟩ : ∃ m0 m1, mps = [m0, m1] := by
    have := hm.len
    match mps, this with
    | [m0, m1], _ => exact ⟨m0, m1, rfl⟩
  have g0 : m0.shape = [1, d0, B 1] := by have := hm.shape 0 (by simp); simpa [hm.first] using this
  have g1 : m1.shape = [B 1, d0, 1] := by have := hm.shape 1 (by simp); have h4 := hm.last; simp at h4; simpa [h4] using this
  rw [hsR] at hs
  simp only [List.map_cons, List.map_nil, List.cons_append, List.nil_append, List.cons.injEq, and_true] at hs
  obtain ⟨s0, s2⟩ := hs
  have q0 := hlt k0 (ho k0 (by simp))
  have q2 := hlt b0 (ho b0 (by simp))
  have w0 : withBonds dim B k0 = d0 := by simp [withBonds, q0, s0]
  have w2 : withBonds dim B b0 = d0 := by simp [withBonds, q2, s2]
  have t0 : squeezeFirst m0 = ⟨[d0, B 1], fun idx => m0.val (0 :: idx)⟩ := squeezeFirst_eq g0
  have t3 : squeezeLast m1 = ⟨[B 1, d0], fun idx => m1.val (idx ++ [0])⟩ := squeezeLast_eq (s := [B 1, d0]) g1
  have etn : getMpsTn [m0, m1] [k0, b0] = some [(squeezeFirst m0, [k0, 100]), (squeezeLast m1, [100, b0])] := by
    simp [getMpsTn]
  have eid : getIdTn [m0, m1] [k0, b0] = some [(eye d0, [k0, b0])] := by
    simp [getIdTn, List.range_succ, g0]
  obtain ⟨R, eR, -, vR⟩ := einsum_join (withBonds dim B) A [(squeezeFirst m0, [k0, 100]), (squeezeLast m1, [100, b0])]
    [k0, b0] [100] hsA' (by
      intro p hp
      simp only [List.mem_cons, List.not_mem_nil, or_false] at hp
      rcases hp with rfl | rfl
      · rw [t0]; simp [w0]; simp [withBonds]
      · rw [t3]; simp [w2]; simp [withBonds]) hA (by decide) (by simp) (by
      intro l h
      have h2 : ∀ l, 100 ≤ l → l ∉ A.flatMap Prod.snd := fun l h hc => absurd (hlt l hc) (by omega)
      simp only [List.mem_cons, List.not_mem_nil, or_false] at h
      rcases h with rfl
      refine ⟨by simp, by simp; omega, h2 _ (by omega)⟩)
  obtain ⟨I, eI, -, vI⟩ := einsum_join (withBonds dim B) A [(eye d0, [k0, b0])] [k0, b0] [] hsA' (by simp [eye, w0, w2]) hA (by decide) (by simp) (by simp)
  have n1 : k0 ≠ b0 := by simpa using hn
  have hI : I.val [] = trace [d0] R0 := by
    rw [vI (fun _ => 0)]
    simp only [sumOver, w0, w2, termOf, List.map_cons, List.map_nil, List.prod_cons, List.prod_nil, Function.update_apply, n1, if_true, if_false, eye, trace, sumIdx]
    refine Finset.sum_congr rfl (fun i hi => ?_)
    simp only [List.getD_cons_zero, List.getD_cons_succ, mul_one, mul_ite, mul_zero, Finset.sum_ite_eq, hi, if_true]
    simp
  have hR : R.val [] = expect [d0] R0 [m0, m1] := by
    rw [vR (fun _ => 0)]
    simp only [sumOver, w0, w2, termOf, List.map_cons, List.map_nil, List.prod_cons, List.prod_nil, Function.update_apply, n1, if_true, if_false, expect, interleave, sumIdx, t0, t3]
    have z0 : withBonds dim B 100 = B 1 := rfl
    refine Finset.sum_congr rfl (fun i hi => Finset.sum_congr rfl (fun j hj => ?_))
    simp [chain, g0, g1, z0, q0.ne, q2.ne]
  rw [evalMps_eq etn eR eid eI, hI, if_neg h0, hR]

/-- C35 for two sites (see `C35_value_partial`). -/
theorem value2 (B : Nat → Nat) (A : List (Tensor K × List Nat)) (k0 k1 b0 b1 : Nat) (rho : Tensor K) (hA : einsum A [k0, k1, b0, b1] = some rho)
    (hl : ∀ p ∈ A, ∀ l ∈ p.2, l < 100) (d0 d1 : Nat) (hs : rho.shape = [d0, d1] ++ [d0, d1]) (mps : List (Tensor K)) (hm : FitsMps B [d0, d0, d1, d1] mps)
    (h0 : trace [d0, d1] rho ≠ 0) :
    evalMps (A, [k0, k1, b0, b1]) mps = .ok (expect [d0, d1] rho mps / trace [d0, d1] rho, trace [d0, d1] rho) := by
  obtain ⟨dim, hsA, hn, ho⟩ := einsum_some hA
  obtain ⟨R0, eR0, hsR, -⟩ := einsum_ok dim A _ hsA hn ho
  obtain rfl : R0 = rho := Option.some.inj (eR0.symm.trans hA)
  have hlt : ∀ l ∈ A.flatMap Prod.snd, l < 100 := by
    intro l h
    obtain ⟨p, hp, h⟩ := List.mem_flatMap.1 h
    exact hl p hp l h
  have hsA' : ∀ p ∈ A, p.1.shape = p.2.map (withBonds dim B) := by
    intro p hp
    rw [hsA p hp]
    apply List.map_congr_left
    intro l h
    simp [withBonds, hl p hp l h]
  obtain ⟨m0, m1, m2, m3, rfl⟩ : ∃ m0 m1 m2 m3, mps = [m0, m1, m2, m3] := by
    have := hm.len
    match mps, this with
    | [m0, m1, m2, m3], _ => exact ⟨m0, m1, m2, m3, rfl⟩
  have g0 : m0.shape = [1, d0, B 1] := by have := hm.shape 0 (by simp); simpa [hm.first] using this
  have g1 : m1.shape = [B 1, d0, B 2] := by simpa using hm.shape 1 (by simp)
  have g2 : m2.shape = [B 2, d1, B 3] := by simpa using hm.shape 2 (by simp)
  have g3 : m3.shape = [B 3, d1, 1] := by have := hm.shape 3 (by simp); have h4 := hm.last; simp at h4; simpa [h4] using this
  rw [hsR] at hs
  simp only [List.map_cons, List.map_nil, List.cons_append, List.nil_append, List.cons.injEq, and_true] at hs
  obtain ⟨s0, s1, s2, s3⟩ := hs
  have q0 := hlt k0 (ho k0 (by simp))
  have q1 := hlt k1 (ho k1 (by simp))
  have q2 := hlt b0 (ho b0 (by simp))
  have q3 := hlt b1 (ho b1 (by simp))
  have w0 : withBonds dim B k0 = d0 := by simp [withBonds, q0, s0]
  have w1 : withBonds dim B k1 = d1 := by simp [withBonds, q1, s1]
  have w2 : withBonds dim B b0 = d0 := by simp [withBonds, q2, s2]
  have w3 : withBonds dim B b1 = d1 := by simp [withBonds, q3, s3]
  have t0 : squeezeFirst m0 = ⟨[d0, B 1], fun idx => m0.val (0 :: idx)⟩ := squeezeFirst_eq g0
  have t3 : squeezeLast m3 = ⟨[B 3, d1], fun idx => m3.val (idx ++ [0])⟩ := squeezeLast_eq (s := [B 3, d1]) g3
  have etn : getMpsTn [m0, m1, m2, m3] [k0, k1, b0, b1] = some [(squeezeFirst m0, [k0, 100]), (m1, [100, b0, 101]), (m2, [101, k1, 102]), (squeezeLast m3, [102, b1])] := by
    simp [getMpsTn, List.range']
  have eid : getIdTn [m0, m1, m2, m3] [k0, k1, b0, b1] = some [(eye d0, [k0, b0]), (eye d1, [k1, b1])] := by
    simp [getIdTn, List.range_succ, g0, g2]
  obtain ⟨R, eR, -, vR⟩ := einsum_join (withBonds dim B) A [(squeezeFirst m0, [k0, 100]), (m1, [100, b0, 101]), (m2, [101, k1, 102]), (squeezeLast m3, [102, b1])]
    [k0, k1, b0, b1] [100, 101, 102] hsA' (by
      intro p hp
      simp only [List.mem_cons, List.not_mem_nil, or_false] at hp
      rcases hp with rfl | rfl | rfl | rfl
      · rw [t0]; simp [w0]; simp [withBonds]
      · rw [g1]; simp [w2]; simp [withBonds]
      · rw [g2]; simp [w1]; simp [withBonds]
      · rw [t3]; simp [w3]; simp [withBonds]) hA (by decide) (by simp) (by
      intro l h
      have h2 : ∀ l, 100 ≤ l → l ∉ A.flatMap Prod.snd := fun l h hc => absurd (hlt l hc) (by omega)
      simp only [List.mem_cons, List.not_mem_nil, or_false] at h
      rcases h with rfl | rfl | rfl <;> refine ⟨by simp, by simp; omega, h2 _ (by omega)⟩)
  obtain ⟨I, eI, -, vI⟩ := einsum_join (withBonds dim B) A [(eye d0, [k0, b0]), (eye d1, [k1, b1])]
    [k0, k1, b0, b1] [] hsA' (by
      intro p hp
      simp only [List.mem_cons, List.not_mem_nil, or_false] at hp
      rcases hp with rfl | rfl
      · simp [eye, w0, w2]
      · simp [eye, w1, w3]) hA (by decide) (by simp) (by simp)
  simp only [List.nodup_cons, List.mem_cons, List.not_mem_nil, not_or, or_false, not_false_eq_true, List.nodup_nil, and_true] at hn
  obtain ⟨⟨n1, n2, n3⟩, ⟨n4, n5⟩, n6⟩ := hn
  have hI : I.val [] = trace [d0, d1] R0 := by
    rw [vI (fun _ => 0)]
    simp only [sumOver, w0, w1, w2, w3, termOf, List.map_cons, List.map_nil, List.prod_cons, List.prod_nil, Function.update_apply, n1, n2, n3, n4, n5, n6, if_true, if_false, eye,
      trace, sumIdx]
    refine Finset.sum_congr rfl (fun i hi => Finset.sum_congr rfl (fun j hj => ?_))
    simp only [List.getD_cons_zero, List.getD_cons_succ, mul_one, mul_ite, mul_zero, Finset.sum_ite_eq, hj, if_true]
    simp [Finset.mem_range.1 hi]
  have hR : R.val [] = expect [d0, d1] R0 [m0, m1, m2, m3] := by
    rw [vR (fun _ => 0)]
    simp only [sumOver, w0, w1, w2, w3, termOf, List.map_cons, List.map_nil, List.prod_cons, List.prod_nil, Function.update_apply, n1, n2, n3, n4, n5, n6, if_true, if_false,
      expect, interleave, sumIdx, t0, t3]
    have z0 : withBonds dim B 100 = B 1 := rfl
    have z1 : withBonds dim B 101 = B 2 := rfl
    have z2 : withBonds dim B 102 = B 3 := rfl
    refine Finset.sum_congr rfl (fun i hi => Finset.sum_congr rfl (fun j hj => Finset.sum_congr rfl (fun k hk => Finset.sum_congr rfl (fun l hl => ?_))))
    simp [chain, g0, g1, g2, g3, z0, z1, z2, q0.ne, q1.ne, q2.ne, q3.ne, (show k0 ≠ 102 by omega), (show k0 ≠ 101 by omega), (show k1 ≠ 102 by omega),
      (show k1 ≠ 101 by omega), (show b0 ≠ 102 by omega), (show b0 ≠ 101 by omega), (show b1 ≠ 102 by omega), (show b1 ≠ 101 by omega), Finset.mul_sum]
  rw [evalMps_eq etn eR eid eI, hI, if_neg h0, hR]

/-- C35 for one and two sites (missing: three sites, see `C35_violated`, and four or more, see `C35_raises`): for every labelled network that contracts
to a density matrix `rho` and every matrix-product state over its physical indices, the expectation value and the norm are returned. -/
theorem C35_value_partial (B : Nat → Nat) (A : List (Tensor K × List Nat)) (phys : List Nat) (rho : Tensor K) (hA : einsum A phys = some rho)
    (hl : ∀ p ∈ A, ∀ l ∈ p.2, l < 100) (ds : List Nat) (h1 : 1 ≤ ds.length) (h2 : ds.length ≤ 2) (hs : rho.shape = ds ++ ds) (mps : List (Tensor K))
    (hm : FitsMps B (interleave ds ds) mps) (h0 : trace ds rho ≠ 0) :
    evalMps (A, phys) mps = .ok (expect ds rho mps / trace ds rho, trace ds rho) := by
  have hlen : phys.length = ds.length + ds.length := by
    obtain ⟨dim, hsA, hn, ho⟩ := einsum_some hA
    obtain ⟨R0, eR0, hsR, -⟩ := einsum_ok dim A _ hsA hn ho
    obtain rfl : R0 = rho := Option.some.inj (eR0.symm.trans hA)
    have := congrArg List.length (hsR.symm.trans hs)
    simpa using this
  match ds, h1, h2 with
  | [d0], _, _ =>
    match phys, hlen with
    | [k0, b0], _ => exact value1 B A k0 b0 rho hA hl d0 hs mps hm h0
  | [d0, d1], _, _ =>
    match phys, hlen with
    | [k0, k1, b0, b1], _ => exact value2 B A k0 k1 b0 b1 rho hA hl d0 d1 hs mps hm h0

theorem mapM_none {α β : Type} {f : α → Option β} {l : List α} {a : α} (ha : a ∈ l) (hf : f a = none) : l.mapM f = none := by
  induction l with
  | nil => simp at ha
  | cons b l ih =>
    rw [List.mapM_cons]
    rcases List.mem_cons.1 ha with rfl | h
    · rw [hf]; rfl
    · rw [ih h]; cases f b <;> rfl

/-- C35: for four or more sites the call raises. -/
theorem C35_raises (A : List (Tensor K × List Nat)) (phys : List Nat) (mps : List (Tensor K)) (N : Nat) (hN : 4 ≤ N) (hp : phys.length = 2 * N)
    (hm : mps.length = 2 * N) : evalMps (A, phys) mps = .error .raise := by
  have hnone : getMpsTn mps phys = none := by
    have hmid : (List.range' 1 (mps.length - 2)).mapM (fun i => do
        let t ← mps[i]?
        let p ← phys[phys.length / 2 * (i % 2) + i - 1]?
        return (t, [100 + i - 1, p, 100 + i])) = none := by
      refine mapM_none (a := 2 * N - 3) (by rw [List.mem_range'_1]; omega) ?_
      have : phys[phys.length / 2 * ((2 * N - 3) % 2) + (2 * N - 3) - 1]? = none := by
        rw [List.getElem?_eq_none_iff, hp, show (2 * N - 3) % 2 = 1 by omega]
        omega
      rw [this]
      cases mps[2 * N - 3]? <;> rfl
    unfold getMpsTn
    simp only [hmid]
    cases mps.head? <;> cases phys.head? <;> rfl
  unfold evalMps
  simp only [hnone]
  rfl

theorem net2x1_labels {e : PairEnv K} {a b : Tensor K} {tn : List (Tensor K × List Nat) × List Nat} (h : net2x1 e a b = some tn) :
    (∀ p ∈ tn.1, ∀ l ∈ p.2, l < 100) ∧ tn.2 = [4, 16, 7, 19] := by
  simp only [net2x1, Option.bind_eq_bind, Option.bind_eq_some_iff] at h
  obtain ⟨_, -, _, -, _, -, _, -, _, -, _, -, h⟩ := h
  obtain rfl := Option.some.inj h
  exact ⟨by simp, rfl⟩

theorem net1x2_labels {e : PairEnv K} {a b : Tensor K} {tn : List (Tensor K × List Nat) × List Nat} (h : net1x2 e a b = some tn) :
    (∀ p ∈ tn.1, ∀ l ∈ p.2, l < 100) ∧ tn.2 = [4, 16, 7, 19] := by
  simp only [net1x2, Option.bind_eq_bind, Option.bind_eq_some_iff] at h
  obtain ⟨_, -, _, -, _, -, _, -, _, -, _, -, h⟩ := h
  obtain rfl := Option.some.inj h
  exact ⟨by simp, rfl⟩

/-- C35, `eval_mpo_rdm2x1`: the expectation value in the un-normalised density matrix of two sites in a row. -/
theorem C35_row {D : Dims} {st : State K} {env : Env K} (hs : FitsState D st) (he : FitsEnv D st env) (c : Coord) :
    ∃ e a b rho, Spec.AroundRow st env c e a b ∧ Corner.Spec.IsNetwork (dimsH D c) rho [[4], [16], [7], [19]] inner2 (Spec.rhoH (dimsH D c) e a b) ∧
      ∀ B mps, FitsMps B [D.p c, D.p c, D.p (rt c), D.p (rt c)] mps → trace [D.p c, D.p (rt c)] rho ≠ 0 →
        evalMps2x1 st env c mps = .ok (expect [D.p c, D.p (rt c)] rho mps / trace [D.p c, D.p (rt c)] rho, trace [D.p c, D.p (rt c)] rho) := by
  obtain ⟨e, a, b, h1, h0, h2⟩ := pairH_ok hs he c
  obtain ⟨R, e1, q1⟩ := sl2x1_denotes (dimsH D c) e a b h2
  obtain ⟨tn, e2, e3⟩ := Option.bind_eq_some_iff.1 e1
  obtain ⟨h3, h4⟩ := net2x1_labels e2
  refine ⟨e, a, b, R, h0, Corner.isNetwork q1, fun B mps hm ht => ?_⟩
  have := C35_value_partial B tn.1 tn.2 R e3 h3 [D.p c, D.p (rt c)] (by simp) (by simp) (by rw [q1.shape]; simp [gdim, dimsH]) mps hm ht
  unfold evalMps2x1
  rw [h1]
  show (lift (net2x1 e a b) >>= _) = _
  rw [e2]
  exact this

/-- C35, `eval_mpo_rdm1x2`: two sites in a column. -/
theorem C35_column {D : Dims} {st : State K} {env : Env K} (hs : FitsState D st) (he : FitsEnv D st env) (c : Coord) :
    ∃ e a b rho, Spec.AroundColumn st env c e a b ∧ Corner.Spec.IsNetwork (dimsV D c) rho [[4], [16], [7], [19]] inner2 (Spec.rhoV (dimsV D c) e a b) ∧
      ∀ B mps, FitsMps B [D.p c, D.p c, D.p (dn c), D.p (dn c)] mps → trace [D.p c, D.p (dn c)] rho ≠ 0 →
        evalMps1x2 st env c mps = .ok (expect [D.p c, D.p (dn c)] rho mps / trace [D.p c, D.p (dn c)] rho, trace [D.p c, D.p (dn c)] rho) := by
  obtain ⟨e, a, b, h1, h0, h2⟩ := pairV_ok hs he c
  obtain ⟨R, e1, q1⟩ := sl1x2_denotes (dimsV D c) e a b h2
  obtain ⟨tn, e2, e3⟩ := Option.bind_eq_some_iff.1 e1
  obtain ⟨h3, h4⟩ := net1x2_labels e2
  refine ⟨e, a, b, R, h0, Corner.isNetwork q1, fun B mps hm ht => ?_⟩
  have := C35_value_partial B tn.1 tn.2 R e3 h3 [D.p c, D.p (dn c)] (by simp) (by simp) (by rw [q1.shape]; simp [gdim, dimsV]) mps hm ht
  unfold evalMps1x2
  rw [h1]
  show (lift (net1x2 e a b) >>= _) = _
  rw [e2]
  exact this

/-- C35, `eval_mpo_rdm2x2_NNN_1n1`: the density matrix that `rdm2x2_NNN_1n1` symmetrises, given by C67_antidiagonal. -/
theorem C35_antidiagonal {D : Dims} {st : State K} {env : Env K} (hs : FitsState D st) (he : FitsEnv D st env) (c : Coord) :
    ∃ rho Y, IsPlaq D st env (c.1, c.2 - 1) rho ∧
      (∀ x y x' y', x < D.p c → y < D.p (c.1 + 1, c.2 - 1) → x' < D.p c → y' < D.p (c.1 + 1, c.2 - 1) →
        Y.val [x, y, x', y'] = (ptrace (physP D (c.1, c.2 - 1)) [1, 2] rho).val [y, x, y', x']) ∧
      ∀ B mps, FitsMps B [D.p c, D.p c, D.p (c.1 + 1, c.2 - 1), D.p (c.1 + 1, c.2 - 1)] mps → trace [D.p c, D.p (c.1 + 1, c.2 - 1)] Y ≠ 0 →
        evalMps1n1 st env c mps = .ok (expect [D.p c, D.p (c.1 + 1, c.2 - 1)] Y mps / trace [D.p c, D.p (c.1 + 1, c.2 - 1)] Y, trace [D.p c, D.p (c.1 + 1, c.2 - 1)] Y) := by
  obtain ⟨e, s, rho, Y, h1, e2, hp, hsh, hv⟩ := oe1n1_raw hs he c
  obtain ⟨t, e3, e4⟩ := Option.bind_eq_some_iff.1 e2
  refine ⟨rho, Y, hp, hv, fun B mps hm ht => ?_⟩
  have := C35_value_partial B _ _ Y e4 (by simp [PlaqEnv.operands]) [D.p c, D.p (c.1 + 1, c.2 - 1)] (by simp) (by simp) hsh mps hm ht
  unfold evalMps1n1
  rw [h1]
  show (lift (do let t ← e.split s; return (t.operands s ([4, 4, 22, 25, 11, 14, 30, 30].getD · 0), [11, 22, 14, 25])) >>= _) = _
  rw [e3]
  exact this

/-- A density matrix of three sites with two entries, one of them on the diagonal. -/
def wRho : Tensor ℝ := ⟨[2, 2, 2, 2, 2, 2], fun idx =>
  if idx.getD 0 0 = 0 ∧ idx.getD 1 0 = 0 ∧ idx.getD 3 0 = 0 ∧ idx.getD 4 0 = 0 ∧ idx.getD 5 0 = 0 then 1 else 0⟩

/-- One tensor of the projector on the first basis state. -/
def wM : Tensor ℝ := ⟨[1, 2, 1], fun idx => if idx.getD 1 0 = 0 then 1 else 0⟩

theorem wFits : FitsMps (fun _ => 1) (interleave [2, 2, 2] [2, 2, 2]) [wM, wM, wM, wM, wM, wM] := by
  refine ⟨rfl, rfl, rfl, ?_⟩
  intro i h
  simp only [List.length_cons, List.length_nil] at h
  rcases i with _ | _ | _ | _ | _ | _ | i
  all_goals first | rfl | omega

theorem wBonds (τ : Nat → Nat) : sumOver (fun l => if l < 100 then 2 else 1) [100, 101, 102, 103, 104] (termOf [(squeezeFirst wM, [0, 100]), (wM, [100, 3, 101]),
    (wM, [101, 1, 102]), (wM, [102, 5, 103]), (wM, [103, 3, 104]), (squeezeLast wM, [104, 5])]) τ =
      if τ 0 = 0 ∧ τ 1 = 0 ∧ τ 3 = 0 ∧ τ 5 = 0 then 1 else 0 := by
  have q : squeezeFirst wM = ⟨[2, 1], fun idx => wM.val (0 :: idx)⟩ := squeezeFirst_eq rfl
  have q' : squeezeLast wM = ⟨[1, 2], fun idx => wM.val (idx ++ [0])⟩ := squeezeLast_eq (s := [1, 2]) rfl
  simp only [sumOver, termOf, List.map_cons, List.map_nil, List.prod_cons, List.prod_nil, q, q']
  simp [wM]
  by_cases h0 : τ 0 = 0 <;> by_cases h1 : τ 1 = 0 <;> by_cases h3 : τ 3 = 0 <;> by_cases h5 : τ 5 = 0 <;> simp [h0, h1, h3, h5]

theorem wChain (a b c d e f : Nat) : chain 0 [wM, wM, wM, wM, wM, wM] [a, b, c, d, e, f] =
    if a = 0 ∧ b = 0 ∧ c = 0 ∧ d = 0 ∧ e = 0 ∧ f = 0 then 1 else 0 := by
  simp [chain, wM]
  by_cases h0 : a = 0 <;> by_cases h1 : b = 0 <;> by_cases h2 : c = 0 <;> by_cases h3 : d = 0 <;> by_cases h4 : e = 0 <;> by_cases h5 : f = 0 <;> simp [*]

theorem sum_two (F : Nat → ℝ) : ∑ i ∈ Finset.range 2, F i = F 0 + F 1 := by simp [Finset.sum_range_succ]

theorem wEntry (rho : Tensor ℝ) (hrho : ∀ a b c d e f, a < 2 → b < 2 → c < 2 → d < 2 → e < 2 → f < 2 → rho.val [a, b, c, d, e, f] = wRho.val [a, b, c, d, e, f])
    (a b c d e f : Nat) (ha : a < 2) (hb : b < 2) (hc : c < 2) (hd : d < 2) (he : e < 2) (hf : f < 2) : rho.val [a, b, c, d, e, f] =
      (if a = 0 then 1 else 0) * ((if b = 0 then 1 else 0) * ((if d = 0 then 1 else 0) * ((if e = 0 then 1 else 0) * (if f = 0 then 1 else 0)))) := by
  rw [hrho a b c d e f ha hb hc hd he hf]
  simp [wRho]
  split_ifs <;> simp_all

theorem wNorm (rho : Tensor ℝ) (hrho : ∀ a b c d e f, a < 2 → b < 2 → c < 2 → d < 2 → e < 2 → f < 2 → rho.val [a, b, c, d, e, f] = wRho.val [a, b, c, d, e, f]) :
    trace [2, 2, 2] rho = 1 := by
  simp only [trace, sumIdx, sum_two, List.cons_append, List.nil_append]
  simp [wEntry rho hrho]

theorem wExpect (rho : Tensor ℝ) (hrho : ∀ a b c d e f, a < 2 → b < 2 → c < 2 → d < 2 → e < 2 → f < 2 → rho.val [a, b, c, d, e, f] = wRho.val [a, b, c, d, e, f]) :
    expect [2, 2, 2] rho [wM, wM, wM, wM, wM, wM] = 1 := by
  simp only [expect, sumIdx, sum_two, interleave, List.zip_cons_cons, List.zip_nil_right, List.flatMap_cons, List.flatMap_nil, List.cons_append, List.nil_append, wChain]
  simp [wEntry rho hrho]

theorem wCode (rho : Tensor ℝ) (hrho : ∀ a b c d e f, a < 2 → b < 2 → c < 2 → d < 2 → e < 2 → f < 2 → rho.val [a, b, c, d, e, f] = wRho.val [a, b, c, d, e, f]) :
    sumIdx [2, 2, 2, 2, 2, 2] (fun idx => rho.val idx * if idx.getD 0 0 = 0 ∧ idx.getD 1 0 = 0 ∧ idx.getD 3 0 = 0 ∧ idx.getD 5 0 = 0 then 1 else 0) = 2 := by
  simp only [sumIdx, sum_two, List.getD_cons_zero, List.getD_cons_succ]
  simp [wEntry rho hrho]
  norm_num

theorem wIdent (rho : Tensor ℝ) (hrho : ∀ a b c d e f, a < 2 → b < 2 → c < 2 → d < 2 → e < 2 → f < 2 → rho.val [a, b, c, d, e, f] = wRho.val [a, b, c, d, e, f]) :
    sumIdx [2, 2, 2, 2, 2, 2] (fun idx => rho.val idx * termOf [(eye 2, [0, 3]), (eye 2, [1, 4]), (eye 2, [2, 5])] (idx.getD · 0)) = 1 := by
  simp only [sumIdx, sum_two, termOf, eye, List.map_cons, List.map_nil, List.prod_cons, List.prod_nil, List.getD_cons_zero, List.getD_cons_succ]
  simp [wEntry rho hrho]

/-- C35 is violated for three sites: a wrong expectation value is returned. -/
theorem C35_violated : ∃ (A : List (Tensor ℝ × List Nat)) (phys : List Nat) (rho : Tensor ℝ) (mps : List (Tensor ℝ)) (E n : ℝ),
    einsum A phys = some rho ∧ (∀ p ∈ A, ∀ l ∈ p.2, l < 100) ∧ rho.shape = [2, 2, 2] ++ [2, 2, 2] ∧ FitsMps (fun _ => 1) (interleave [2, 2, 2] [2, 2, 2]) mps ∧
    trace [2, 2, 2] rho ≠ 0 ∧ evalMps (A, phys) mps = .ok (E, n) ∧ E ≠ expect [2, 2, 2] rho mps / trace [2, 2, 2] rho := by
  obtain ⟨rho, eA, hsR, hvR⟩ := einsum_ok (fun l => if l < 100 then 2 else 1) [(wRho, [0, 1, 2, 3, 4, 5])] [0, 1, 2, 3, 4, 5] (by simp [wRho]) (by decide) (by simp)
  have hrho : ∀ a b c d e f, a < 2 → b < 2 → c < 2 → d < 2 → e < 2 → f < 2 → rho.val [a, b, c, d, e, f] = wRho.val [a, b, c, d, e, f] := by
    intro a b c d e f ha hb hc hd he hf
    have := hvR (fun l => [a, b, c, d, e, f].getD l 0) (by simp; omega)
    rw [show (List.filter (fun l => decide (l ∉ [0, 1, 2, 3, 4, 5])) (List.flatMap Prod.snd [(wRho, [0, 1, 2, 3, 4, 5])]).dedup) = [] from by
      show (List.filter (fun l => decide (l ∉ [0, 1, 2, 3, 4, 5])) [0, 1, 2, 3, 4, 5].dedup) = []
      decide] at this
    simpa [sumOver, termOf] using this
  have q : squeezeFirst wM = ⟨[2, 1], fun idx => wM.val (0 :: idx)⟩ := squeezeFirst_eq rfl
  have q' : squeezeLast wM = ⟨[1, 2], fun idx => wM.val (idx ++ [0])⟩ := squeezeLast_eq (s := [1, 2]) rfl
  have etn : getMpsTn [wM, wM, wM, wM, wM, wM] [0, 1, 2, 3, 4, 5] = some [(squeezeFirst wM, [0, 100]), (wM, [100, 3, 101]), (wM, [101, 1, 102]),
      (wM, [102, 5, 103]), (wM, [103, 3, 104]), (squeezeLast wM, [104, 5])] := by
    simp [getMpsTn, List.range']
  have eid : getIdTn [wM, wM, wM, wM, wM, wM] [0, 1, 2, 3, 4, 5] = some [(eye 2, [0, 3]), (eye 2, [1, 4]), (eye 2, [2, 5])] := by
    simp [getIdTn, List.range_succ, wM]
  obtain ⟨R, eR, -, vR⟩ := einsum_join (fun l => if l < 100 then 2 else 1) [(wRho, [0, 1, 2, 3, 4, 5])]
    [(squeezeFirst wM, [0, 100]), (wM, [100, 3, 101]), (wM, [101, 1, 102]), (wM, [102, 5, 103]), (wM, [103, 3, 104]), (squeezeLast wM, [104, 5])]
    [0, 1, 2, 3, 4, 5] [100, 101, 102, 103, 104] (by simp [wRho]) (by rw [q, q']; simp [wM]) eA (by decide) (by simp) (by simp)
  obtain ⟨I, eI, -, vI⟩ := einsum_join (fun l => if l < 100 then 2 else 1) [(wRho, [0, 1, 2, 3, 4, 5])]
    [(eye 2, [0, 3]), (eye 2, [1, 4]), (eye 2, [2, 5])] [0, 1, 2, 3, 4, 5] [] (by simp [wRho]) (by simp [eye]) eA (by decide) (by simp) (by simp)
  have hI : I.val [] = 1 := by
    rw [vI (fun _ => 0), ← wIdent rho hrho]
    have := sumIdx_map (fun l => if l < 100 then 2 else 1) [0, 1, 2, 3, 4, 5] (by decide)
      (fun idx => rho.val idx * termOf [(eye 2, [0, 3]), (eye 2, [1, 4]), (eye 2, [2, 5])] (idx.getD · 0)) (fun _ => 0)
    simp only [List.map_cons, List.map_nil, Nat.reduceLT, if_true] at this ⊢
    rw [this]
    refine sumOver_congr _ _ _ _ _ (fun τ _ _ => ?_)
    congr 1
  have hR : R.val [] = 2 := by
    rw [vR (fun _ => 0), ← wCode rho hrho]
    rw [sumOver_congr _ _ _ (fun τ => rho.val ([0, 1, 2, 3, 4, 5].map τ) * if τ 0 = 0 ∧ τ 1 = 0 ∧ τ 3 = 0 ∧ τ 5 = 0 then 1 else 0) _ (fun τ _ _ => by rw [wBonds])]
    have := sumIdx_map (fun l => if l < 100 then 2 else 1) [0, 1, 2, 3, 4, 5] (by decide)
      (fun idx => rho.val idx * if idx.getD 0 0 = 0 ∧ idx.getD 1 0 = 0 ∧ idx.getD 3 0 = 0 ∧ idx.getD 5 0 = 0 then 1 else 0) (fun _ => 0)
    simp only [List.map_cons, List.map_nil, Nat.reduceLT, if_true] at this ⊢
    rw [this]
    rfl
  have ht := wNorm rho hrho
  have hx := wExpect rho hrho
  refine ⟨[(wRho, [0, 1, 2, 3, 4, 5])], [0, 1, 2, 3, 4, 5], rho, [wM, wM, wM, wM, wM, wM], 2 / 1, 1, eA, by simp, hsR, wFits, by rw [ht]; norm_num, ?_, by rw [ht, hx]; norm_num⟩
  rw [evalMps_eq etn eR eid eI, hI, if_neg one_ne_zero, hR]

/-! ### Hypotheses are met -/

/-- An operator on two sites: the tensors of a product state with a bond of size two. -/
def exMps : List (Tensor ℝ) := [exOnes [1, 2, 2], exOnes [2, 2, 2], exOnes [2, 2, 2], exOnes [2, 2, 1]]

theorem exMps_fits : FitsMps (fun i => if i = 0 ∨ i = 4 then 1 else 2) [2, 2, 2, 2] exMps := by
  refine ⟨rfl, rfl, rfl, fun i h => ?_⟩
  simp only [exMps, List.length_cons, List.length_nil] at h
  rcases i with _ | _ | _ | _ | i
  all_goals first | rfl | omega

/-- The all-ones state has a density matrix with non-zero trace, so `C35_row` applies to it. -/
example : ∃ r, evalMps2x1 (exState (exDims 2 3)) (cellEnv (exDims 2 3)) (1, 0) exMps = .ok r := by
  obtain ⟨e, a, b, rho, h0, hn, hv⟩ := C35_row (exFitsState (l := 2) (l' := 3) (by decide) (by decide)) cellFits (1, 0)
  refine ⟨_, hv _ exMps exMps_fits ?_⟩
  have hC : ∀ k T, (cellEnv (exDims 2 3)).C k = some T → T.val = fun _ => 1 := by
    intro k T h
    simp only [cellEnv, exEnv] at h
    split at h
    · injection h with h; rw [← h]; rfl
    · cases h
  have hT : ∀ k T, (cellEnv (exDims 2 3)).T k = some T → T.val = fun _ => 1 := by
    intro k T h
    simp only [cellEnv, exEnv] at h
    split at h
    · injection h with h; rw [← h]; rfl
    · cases h
  have hS : ∀ k T, (exState (exDims 2 3)).sites k = some T → T.val = fun _ => 1 := by
    intro k T h
    simp only [exState] at h
    injection h with h; rw [← h]; rfl
  have hone : rhoH (dimsH (exDims 2 3) (1, 0)) e a b = fun _ => 1 := by
    funext σ
    simp [rhoH, hC _ _ h0.C1, hC _ _ h0.C2, hC _ _ h0.C3, hC _ _ h0.C4, hT _ _ h0.T1, hT _ _ h0.T1b, hT _ _ h0.T3, hT _ _ h0.T3b, hT _ _ h0.S, hT _ _ h0.Sb,
      hS _ _ h0.ket, hS _ _ h0.ket']
  have hpos : ∀ i j, i < 2 → j < 2 → 0 < rho.val [i, j, i, j] := by
    intro i j hi hj
    have := hn.2 (fun l => if l = 4 ∨ l = 7 then i else j) (by
      intro g hg l hl
      simp only [List.mem_cons, List.not_mem_nil, or_false] at hg
      rcases hg with rfl | rfl | rfl | rfl <;> obtain rfl := List.mem_singleton.1 hl
      exacts [hi, hj, hi, hj])
    rw [hone] at this
    simp only [List.map_cons, List.map_nil, ravel] at this
    have e : rho.val [i, j, i, j] = sumOver (dimsH (exDims 2 3) (1, 0)) inner2 (fun _ => (1 : ℝ)) fun l => if l = 4 ∨ l = 7 then i else j := by
      simpa using this
    rw [e]
    apply sumOver_one_pos
    intro l hl
    fin_cases hl <;> decide
  apply ne_of_gt
  show 0 < ∑ i ∈ Finset.range 2, ∑ j ∈ Finset.range 2, rho.val [i, j, i, j]
  exact Finset.sum_pos (fun i hi => Finset.sum_pos (fun j hj => hpos i j (Finset.mem_range.1 hi) (Finset.mem_range.1 hj)) ⟨0, by simp⟩) ⟨0, by simp⟩

example := C35_column (exFitsState (l := 2) (l' := 3) (by decide) (by decide)) cellFits (1, 0)
example := C35_antidiagonal (exFitsState (l := 2) (l' := 3) (by decide) (by decide)) cellFits (1, 0)
example : evalMps ([(exOnes [2, 2, 2, 2, 2, 2, 2, 2], [0, 1, 2, 3, 4, 5, 6, 7])], [0, 1, 2, 3, 4, 5, 6, 7])
    [exOnes [1, 2, 1], exOnes [1, 2, 1], exOnes [1, 2, 1], exOnes [1, 2, 1], exOnes [1, 2, 1], exOnes [1, 2, 1], exOnes [1, 2, 1], exOnes [1, 2, 1]] = .error .raise :=
  C35_raises _ _ _ 4 (by decide) rfl rfl

end Verif.Rdm
