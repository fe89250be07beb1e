import Verif.Kagome.Unfuse
import Verif.Kagome.Net
/-
The network of a plaquette as a functional of its four double-layer tensors: the density matrices of chosen spins are partial traces of the
density matrix of all spins.
-/
namespace Verif.KagomeRdm
open Tensor Rdm Ctm
set_option linter.unusedSectionVars false
variable {K : Type} [RCLike K]

/-- The fused bond labels. -/
def fused : List Nat := [2, 3, 9, 10, 16, 20, 21, 28, 29, 34, 37, 39]

/-- Sizes of the fused labels; `ph` gives the physical ones. -/
def fdim (dim ph : Nat → Nat) (l : Nat) : Nat := if 100 ≤ l then ph l else if l ∈ fused then dim l * dim l else dim l

/-- The summand of the plaquette network. -/
def plaqBody (e : PlaqEnv K) (f g h i : Nat → Nat → Nat → Nat → K) (σ : Nat → Nat) : K :=
  (e.C1.val [σ 0, σ 1] * e.T1.val [σ 1, σ 2, σ 36] * e.T4.val [σ 0, σ 15, σ 3] * f (σ 2) (σ 3) (σ 16) (σ 37)) *
    (e.C2.val [σ 18, σ 19] * e.T2x.val [σ 19, σ 21, σ 33] * e.T1x.val [σ 36, σ 20, σ 18] * g (σ 20) (σ 37) (σ 34) (σ 21)) *
    ((e.C4.val [σ 8, σ 7] * e.T4y.val [σ 15, σ 8, σ 9] * e.T3y.val [σ 10, σ 7, σ 41] * h (σ 16) (σ 9) (σ 10) (σ 39)) *
    (e.C3.val [σ 26, σ 27] * e.T3xy.val [σ 29, σ 41, σ 27] * e.T2xy.val [σ 33, σ 28, σ 26] * i (σ 34) (σ 39) (σ 29) (σ 28)))

/-- The plaquette network as a functional of its four double-layer tensors. -/
noncomputable def plaqF (dim : Nat → Nat) (e : PlaqEnv K) (f g h i : Nat → Nat → Nat → Nat → K) : K :=
  sumOver (fdim dim (fun _ => 0)) innerF (plaqBody e f g h i) (fun _ => 0)

theorem plaqBody_local (e : PlaqEnv K) (f g h i : Nat → Nat → Nat → Nat → K) (σ τ : Nat → Nat) (hh : ∀ l ∈ innerF, σ l = τ l) :
    plaqBody e f g h i σ = plaqBody e f g h i τ := by
  simp only [innerF, List.forall_mem_cons, List.not_mem_nil, false_imp_iff, implies_true, and_true] at hh
  obtain ⟨h0, h1, h2, h3, h4, h5, h6, h7, h8, h9, h10, h11, h12, h13, h14, h15, h16, h17, h18, h19, h20, h21, h22, h23⟩ := hh
  simp only [plaqBody, h0, h1, h2, h3, h4, h5, h6, h7, h8, h9, h10, h11, h12, h13, h14, h15, h16, h17, h18, h19, h20, h21, h22, h23]

theorem sumOver_plaq (dim ph : Nat → Nat) (e : PlaqEnv K) (f g h i : Nat → Nat → Nat → Nat → K) (F : (Nat → Nat) → K) (σ : Nat → Nat)
    (hF : ∀ τ, (∀ l ∈ innerF, τ l < fdim dim (fun _ => 0) l) → (∀ l, 100 ≤ l → τ l = σ l) → F τ = plaqBody e f g h i τ) :
    sumOver (fdim dim ph) innerF F σ = plaqF dim e f g h i := by
  have hd : ∀ l ∈ innerF, fdim dim ph l = fdim dim (fun _ => 0) l := by
    intro l hl
    have : ¬ 100 ≤ l := by
      have : ∀ l ∈ innerF, ¬ 100 ≤ l := by decide
      exact this l hl
    unfold fdim; rw [if_neg this, if_neg this]
  rw [sumOver_dim _ (fdim dim (fun _ => 0)) _ _ _ hd, sumOver_congr _ _ F (plaqBody e f g h i) σ]
  · exact sumOver_local _ innerF innerF _ (plaqBody_local e f g h i) _ _ (fun l hl hn => absurd hl hn)
  · intro τ h1 h2
    refine hF τ h1 (fun l hl => h2 l ?_)
    have : ∀ l ∈ innerF, ¬ 100 ≤ l := by decide
    exact fun h' => this l h' hl

theorem lin0 (dim : Nat → Nat) (e : PlaqEnv K) (g h i : Nat → Nat → Nat → Nat → K) : Lin (fun f => plaqF dim e f g h i) := by
  have := lin_sumOver (fdim dim (fun _ => 0)) innerF (fun τ => plaqBody e (fun _ _ _ _ => (1 : K)) g h i τ) 2 3 16 37 (fun _ => 0)
  refine (congrArg Lin ?_).mp this
  funext f; unfold plaqF; congr 1; funext τ; simp only [plaqBody]; ring

theorem lin1 (dim : Nat → Nat) (e : PlaqEnv K) (f h i : Nat → Nat → Nat → Nat → K) : Lin (fun g => plaqF dim e f g h i) := by
  have := lin_sumOver (fdim dim (fun _ => 0)) innerF (fun τ => plaqBody e f (fun _ _ _ _ => (1 : K)) h i τ) 20 37 34 21 (fun _ => 0)
  refine (congrArg Lin ?_).mp this
  funext g; unfold plaqF; congr 1; funext τ; simp only [plaqBody]; ring

theorem lin2 (dim : Nat → Nat) (e : PlaqEnv K) (f g i : Nat → Nat → Nat → Nat → K) : Lin (fun h => plaqF dim e f g h i) := by
  have := lin_sumOver (fdim dim (fun _ => 0)) innerF (fun τ => plaqBody e f g (fun _ _ _ _ => (1 : K)) i τ) 16 9 10 39 (fun _ => 0)
  refine (congrArg Lin ?_).mp this
  funext h; unfold plaqF; congr 1; funext τ; simp only [plaqBody]; ring

theorem lin3 (dim : Nat → Nat) (e : PlaqEnv K) (f g h : Nat → Nat → Nat → Nat → K) : Lin (fun i => plaqF dim e f g h i) := by
  have := lin_sumOver (fdim dim (fun _ => 0)) innerF (fun τ => plaqBody e f g h (fun _ _ _ _ => (1 : K)) τ) 34 39 29 28 (fun _ => 0)
  refine (congrArg Lin ?_).mp this
  funext i; unfold plaqF; congr 1; funext τ; simp only [plaqBody]; ring

/-! ### The kept spins -/

theorem mem_kept {keeps : List (List Nat)} (h3 : ∀ os ∈ keeps, ∀ x ∈ os, x < 3) (x : Nat) : x ∈ Spec.kept keeps ↔ x % 3 ∈ keeps.getD (x / 3) [] := by
  unfold Spec.kept
  simp only [List.mem_flatMap, List.mem_range, List.mem_map]
  constructor
  · rintro ⟨i, hi, y, hy, rfl⟩
    have hy3 : y < 3 := by
      rw [List.getD_eq_getElem?_getD, List.getElem?_eq_getElem hi] at hy
      exact h3 _ (List.getElem_mem hi) y hy
    rw [show (3 * i + y) % 3 = y by omega, show (3 * i + y) / 3 = i by omega]
    exact hy
  · intro hx
    refine ⟨x / 3, ?_, x % 3, hx, by omega⟩
    by_contra hn
    rw [List.getD_eq_getElem?_getD, List.getElem?_eq_none (by omega)] at hx
    simp at hx

/-- The pair of ket and bra of spin `x` of tensor `i`. -/
def pairs (keeps : List (List Nat)) (k b : Nat → Nat) (i : Nat) : Nat → Option (Nat × Nat) :=
  pairOf (keeps.getD i []) (fun x => k (3 * i + x)) (fun x => b (3 * i + x))

theorem agree_iff {p n : Nat} {keeps : List (List Nat)} (h3 : ∀ os ∈ keeps, ∀ x ∈ os, x < 3) (k b : Nat → Nat) (s t : List Nat) :
    Spec.Agree p n (Spec.kept keeps) k b s t ↔ ∀ i < n, Ag3 p (pairs keeps k b i) (s.getD i 0) (t.getD i 0) := by
  have key : ∀ i x, x < 3 → ((if 3 * i + x ∈ Spec.kept keeps then Spec.spin p s (3 * i + x) = k (3 * i + x) ∧ Spec.spin p t (3 * i + x) = b (3 * i + x)
      else Spec.spin p s (3 * i + x) = Spec.spin p t (3 * i + x)) ↔ Ag (pairs keeps k b i x) (sp p (s.getD i 0) x) (sp p (t.getD i 0) x)) := by
    intro i x hx
    have e1 : (3 * i + x) / 3 = i := by omega
    have e2 : (3 * i + x) % 3 = x := by omega
    have hm := mem_kept h3 (3 * i + x)
    rw [e1, e2] at hm
    have es : ∀ u : List Nat, Spec.spin p u (3 * i + x) = sp p (u.getD i 0) x := by
      intro u; unfold Spec.spin sp; rw [e1, e2]
    unfold pairs pairOf
    by_cases h : x ∈ keeps.getD i []
    · rw [if_pos (hm.2 h), if_pos h, es, es]; rfl
    · rw [if_neg (fun h' => h (hm.1 h')), if_neg h, es, es]; rfl
  constructor
  · intro h i hi x hx
    exact (key i x hx).1 (h (3 * i + x) (by omega))
  · intro h x hx
    have := (key (x / 3) (x % 3) (by omega)).2 (h (x / 3) (by omega) (x % 3) (by omega))
    rwa [show 3 * (x / 3) + x % 3 = x by omega] at this

theorem kept_nodup {keeps : List (List Nat)} (h3 : ∀ os ∈ keeps, os.Nodup ∧ ∀ x ∈ os, x < 3) : (Spec.kept keeps).Nodup := by
  unfold Spec.kept
  rw [List.nodup_flatMap]
  have hi : ∀ i, i < keeps.length → (keeps.getD i []).Nodup ∧ ∀ x ∈ keeps.getD i [], x < 3 := by
    intro i hi
    rw [List.getD_eq_getElem?_getD, List.getElem?_eq_getElem hi]
    exact h3 _ (List.getElem_mem hi)
  constructor
  · intro i h
    exact (hi i (List.mem_range.1 h)).1.map (fun a b hab => by simpa using hab)
  · have : (List.range keeps.length).Pairwise (fun i j => i ≠ j) := List.nodup_range
    refine List.Pairwise.imp_of_mem (fun {i j} h1 h2 hij => ?_) this
    simp only [Function.onFun]
    intro x hx hy
    obtain ⟨a, ha, rfl⟩ := List.mem_map.1 hx
    obtain ⟨b, hb, hab⟩ := List.mem_map.1 hy
    have := (hi i (List.mem_range.1 h1)).2 a ha
    have := (hi j (List.mem_range.1 h2)).2 b hb
    omega

theorem kept_lt {keeps : List (List Nat)} (h3 : ∀ os ∈ keeps, ∀ x ∈ os, x < 3) : ∀ x ∈ Spec.kept keeps, x < 3 * keeps.length := by
  intro x hx
  have := (mem_kept h3 x).1 hx
  by_contra hn
  rw [List.getD_eq_getElem?_getD, List.getElem?_eq_none (by omega)] at this
  simp at this

/-! ### Double-layer tensors -/

/-- The double-layer tensor with its kept spins open, as a sum over all configurations. -/
noncomputable def opened (p : Nat) (A : Tensor K) (o : Nat → Option (Nat × Nat)) (U L D R : Nat) : K :=
  ∑ s ∈ Finset.range (p ^ 3), ∑ t ∈ Finset.range (p ^ 3), ind (Ag3 p o s t) * lay A s t U L D R

theorem layer_opened (p : Nat) (A : Tensor K) (d1 d2 d3 d4 : Nat) (os : List Nat) (hos : os ∈ subsets) (hA : A.shape = [p ^ 3, d1, d2, d3, d4]) :
    ∃ a, doubleLayer p A os = some a ∧ a.shape = [d1 * d1, d2 * d2, d3 * d3, d4 * d4] ++ (if os = [] then [] else [p ^ (2 * os.length)]) ∧
      ∀ (k b : Nat → Nat) (U L D R : Nat), (∀ x, k x < p) → (∀ x, b x < p) → U < d1 * d1 → L < d2 * d2 → D < d3 * d3 → R < d4 * d4 →
        a.val ([U, L, D, R] ++ openIdx p os k b) = opened p A (pairOf os k b) U L D R := by
  obtain ⟨a, e, hs, hv⟩ := layer_val p A d1 d2 d3 d4 os hos hA
  refine ⟨a, e, hs, fun k b U L D R hk hb hU hL hD hR => ?_⟩
  rw [hv k b U L D R hk hb hU hL hD hR]
  unfold opened
  rw [three_spins p (pairOf os k b) (fun x => pairOf_lt os hk hb x) (fun s t => lay A s t U L D R)]

theorem dlOpen_val (A : Tensor K) (P d1 d2 d3 d4 : Nat) (hA : A.shape = [P, d1, d2, d3, d4]) :
    ∃ a, dlOpen A = some a ∧ a.shape = [d1 * d1, d2 * d2, d3 * d3, d4 * d4, P, P] ∧
      ∀ s t U L D R : Nat, s < P → t < P → U < d1 * d1 → L < d2 * d2 → D < d3 * d3 → R < d4 * d4 → a.val [U, L, D, R, s, t] = lay A s t U L D R := by
  let dim : Nat → Nat := fun l => [P, d1, d2, d3, d4, d1, d2, d3, d4, P].getD l 0
  obtain ⟨a, e, q⟩ := dlOpen_denotes dim A 0 1 2 3 4 5 6 7 8 9 (by decide) (by simp [dim, hA]) rfl rfl rfl rfl rfl
  refine ⟨a, e, by rw [q.shape]; simp [gdim, dim], ?_⟩
  intro s t U L D R hs ht hU hL hD hR
  let σ : Nat → Nat := fun l => [s, U / d1, L / d2, D / d3, R / d4, U % d1, L % d2, D % d3, R % d4, t].getD l 0
  have pos : ∀ {x d : Nat}, x < d * d → 0 < d := fun {x d} h => by
    rcases Nat.eq_zero_or_pos d with rfl | h'
    · simp at h
    · exact h'
  have hv := q.val σ (by
    simp only [List.flatten_cons, List.flatten_nil, List.append_nil, List.cons_append, List.nil_append, List.forall_mem_cons, List.not_mem_nil, false_imp_iff,
      implies_true, and_true]
    exact ⟨Nat.div_lt_of_lt_mul hU, Nat.mod_lt _ (pos hU), Nat.div_lt_of_lt_mul hL, Nat.mod_lt _ (pos hL), Nat.div_lt_of_lt_mul hD, Nat.mod_lt _ (pos hD),
      Nat.div_lt_of_lt_mul hR, Nat.mod_lt _ (pos hR), hs, ht⟩)
  have hg : ∀ (x d i j : Nat), σ i = x / d → σ j = x % d → dim j = d → gidx dim σ [i, j] = x := by
    intro x d i j h1 h2 h3
    simp [gidx, ravel, h1, h2, h3, Nat.div_add_mod']
  simp only [List.map_cons, List.map_nil, gidx_single] at hv
  rw [hg U d1 1 5 rfl rfl rfl, hg L d2 2 6 rfl rfl rfl, hg D d3 3 7 rfl rfl rfl, hg R d4 4 8 rfl rfl rfl] at hv
  rw [show σ 0 = s from rfl, show σ 9 = t from rfl] at hv
  rw [hv]
  simp only [sumOver, lay, size, hA]
  rfl

theorem swap4 (P : Nat) (F : Nat → Nat → Nat → Nat → Nat → Nat → Nat → Nat → K) :
    (∑ s0 ∈ Finset.range P, ∑ s1 ∈ Finset.range P, ∑ s2 ∈ Finset.range P, ∑ s3 ∈ Finset.range P, ∑ t0 ∈ Finset.range P, ∑ t1 ∈ Finset.range P,
      ∑ t2 ∈ Finset.range P, ∑ t3 ∈ Finset.range P, F s0 s1 s2 s3 t0 t1 t2 t3) =
    ∑ s0 ∈ Finset.range P, ∑ t0 ∈ Finset.range P, ∑ s1 ∈ Finset.range P, ∑ t1 ∈ Finset.range P, ∑ s2 ∈ Finset.range P, ∑ t2 ∈ Finset.range P,
      ∑ s3 ∈ Finset.range P, ∑ t3 ∈ Finset.range P, F s0 s1 s2 s3 t0 t1 t2 t3 := by
  refine Finset.sum_congr rfl fun s0 _ => ?_
  have b : ∀ G : Nat → Nat → Nat → K, (∑ s2 ∈ Finset.range P, ∑ s3 ∈ Finset.range P, ∑ t1 ∈ Finset.range P, G s2 s3 t1) =
      ∑ t1 ∈ Finset.range P, ∑ s2 ∈ Finset.range P, ∑ s3 ∈ Finset.range P, G s2 s3 t1 := by
    intro G
    rw [Finset.sum_congr rfl fun s2 _ => Finset.sum_comm]
    exact Finset.sum_comm
  have a : ∀ G : Nat → Nat → Nat → Nat → K, (∑ s1 ∈ Finset.range P, ∑ s2 ∈ Finset.range P, ∑ s3 ∈ Finset.range P, ∑ t0 ∈ Finset.range P, G s1 s2 s3 t0) =
      ∑ t0 ∈ Finset.range P, ∑ s1 ∈ Finset.range P, ∑ s2 ∈ Finset.range P, ∑ s3 ∈ Finset.range P, G s1 s2 s3 t0 := by
    intro G
    rw [Finset.sum_congr rfl fun s1 _ => b (G s1)]
    exact Finset.sum_comm
  rw [a]
  refine Finset.sum_congr rfl fun t0 _ => Finset.sum_congr rfl fun s1 _ => ?_
  rw [b]
  refine Finset.sum_congr rfl fun t1 _ => Finset.sum_congr rfl fun s2 _ => ?_
  exact Finset.sum_comm

/-- The plaquette network of opened tensors is the partial trace of the network of all configurations. -/
theorem plaqF_opened (dim : Nat → Nat) (e : PlaqEnv K) (p : Nat) (A B E D : Tensor K) {keeps : List (List Nat)}
    (h3 : ∀ os ∈ keeps, ∀ x ∈ os, x < 3) (k b : Nat → Nat) {T : Tensor K}
    (hT : ∀ s0 s1 s2 s3 t0 t1 t2 t3 : Nat, s0 < p ^ 3 → s1 < p ^ 3 → s2 < p ^ 3 → s3 < p ^ 3 → t0 < p ^ 3 → t1 < p ^ 3 → t2 < p ^ 3 → t3 < p ^ 3 →
      T.val ([s0, s1, s2, s3] ++ [t0, t1, t2, t3]) = plaqF dim e (lay A s0 t0) (lay B s1 t1) (lay E s2 t2) (lay D s3 t3)) :
    plaqF dim e (opened p A (pairs keeps k b 0)) (opened p B (pairs keeps k b 1)) (opened p E (pairs keeps k b 2)) (opened p D (pairs keeps k b 3)) =
      Spec.marginal p 4 T (Spec.kept keeps) k b := by
  have e0 := lin0 dim e (opened p B (pairs keeps k b 1)) (opened p E (pairs keeps k b 2)) (opened p D (pairs keeps k b 3)) (p ^ 3)
    (fun s t => ind (Ag3 p (pairs keeps k b 0) s t)) (fun s t => lay A s t)
  have e1 := fun f => lin1 dim e f (opened p E (pairs keeps k b 2)) (opened p D (pairs keeps k b 3)) (p ^ 3)
    (fun s t => ind (Ag3 p (pairs keeps k b 1) s t)) (fun s t => lay B s t)
  have e2 := fun f g => lin2 dim e f g (opened p D (pairs keeps k b 3)) (p ^ 3) (fun s t => ind (Ag3 p (pairs keeps k b 2) s t)) (fun s t => lay E s t)
  have e3 := fun f g h => lin3 dim e f g h (p ^ 3) (fun s t => ind (Ag3 p (pairs keeps k b 3) s t)) (fun s t => lay D s t)
  simp only at e0 e1 e2 e3
  unfold Spec.marginal
  simp only [List.replicate, sumIdx]
  rw [swap4]
  refine e0.trans ?_
  refine Finset.sum_congr rfl fun s0 hs0 => Finset.sum_congr rfl fun t0 ht0 => ?_
  refine (congrArg _ (e1 _)).trans ?_
  rw [Finset.mul_sum]
  refine Finset.sum_congr rfl fun s1 hs1 => ?_
  rw [Finset.mul_sum]
  refine Finset.sum_congr rfl fun t1 ht1 => ?_
  refine (congrArg _ (congrArg _ (e2 _ _))).trans ?_
  rw [Finset.mul_sum, Finset.mul_sum]
  refine Finset.sum_congr rfl fun s2 hs2 => ?_
  rw [Finset.mul_sum, Finset.mul_sum]
  refine Finset.sum_congr rfl fun t2 ht2 => ?_
  refine (congrArg _ (congrArg _ (congrArg _ (e3 _ _ _)))).trans ?_
  rw [Finset.mul_sum, Finset.mul_sum, Finset.mul_sum]
  refine Finset.sum_congr rfl fun s3 hs3 => ?_
  rw [Finset.mul_sum, Finset.mul_sum, Finset.mul_sum]
  refine Finset.sum_congr rfl fun t3 ht3 => ?_
  simp only [Finset.mem_range] at hs0 hs1 hs2 hs3 ht0 ht1 ht2 ht3
  have hag : Spec.Agree p 4 (Spec.kept keeps) k b [s0, s1, s2, s3] [t0, t1, t2, t3] ↔ (Ag3 p (pairs keeps k b 0) s0 t0 ∧ Ag3 p (pairs keeps k b 1) s1 t1 ∧
      Ag3 p (pairs keeps k b 2) s2 t2 ∧ Ag3 p (pairs keeps k b 3) s3 t3) := by
    rw [agree_iff h3]
    constructor
    · intro h; exact ⟨h 0 (by omega), h 1 (by omega), h 2 (by omega), h 3 (by omega)⟩
    · rintro ⟨g0, g1, g2, g3⟩ i hi
      have : i = 0 ∨ i = 1 ∨ i = 2 ∨ i = 3 := by omega
      rcases this with rfl | rfl | rfl | rfl
      · exact g0
      · exact g1
      · exact g2
      · exact g3
  have hi : (if Spec.Agree p 4 (Spec.kept keeps) k b [s0, s1, s2, s3] [t0, t1, t2, t3] then T.val ([s0, s1, s2, s3] ++ [t0, t1, t2, t3]) else 0) =
      ind (Spec.Agree p 4 (Spec.kept keeps) k b [s0, s1, s2, s3] [t0, t1, t2, t3]) * T.val ([s0, s1, s2, s3] ++ [t0, t1, t2, t3]) := by
    unfold ind; split <;> simp
  refine Eq.trans ?_ hi.symm
  rw [ind_congr hag, ind_and, ind_and, ind_and, hT s0 s1 s2 s3 t0 t1 t2 t3 hs0 hs1 hs2 hs3 ht0 ht1 ht2 ht3]
  ring

end Verif.KagomeRdm
