import Verif.State.GaugeSpec
import Mathlib.LinearAlgebra.Matrix.NonsingularInverse
/-
Lemmas on the gauge of weighted states: change of basis on all bonds, the loop over bonds.
-/
namespace Verif.Gauge
open Verif.Lattice (Vertex)
open Verif.State (Mat)
variable {K : Type} [RCLike K] {g : Cell}

theorem Dir.prod_univ {M : Type} [CommMonoid M] (f : Dir → M) : ∏ d, f d = f .up * (f .left * (f .down * f .right)) := by
  have : (Finset.univ : Finset Dir) = {.up, .left, .down, .right} := rfl
  rw [this, Finset.prod_insert (by decide), Finset.prod_insert (by decide), Finset.prod_insert (by decide), Finset.prod_singleton]

/-- Sites in new bases: the amplitude is that of the old sites with the weights in the old bases. -/
theorem amp_change {V : Type} [Fintype V] [DecidableEq V] (P : Spec.Patch g V) (A B : Weighted K) (M : Key → Mat K) (s : V → Nat)
    (hs : ∀ c ∈ g.keys, ∀ t i, B.site c t i = ∑ m ∈ g.legs c, A.site c t m * ∏ d, M (c, d) (i d) (m d))
    (hr : ∀ c ∈ g.keys, ∀ a < g.dim c .right, ∀ b < g.dim (g.rev (c, .right)).1 .left,
      ∑ x ∈ Finset.range (g.dim c .right), ∑ y ∈ Finset.range (g.dim (g.rev (c, .right)).1 .left),
        M (c, .right) x a * ((B.wt (c, .right) x y : ℝ) : K) * M (g.rev (c, .right)) y b = ((A.wt (c, .right) a b : ℝ) : K))
    (hd : ∀ c ∈ g.keys, ∀ a < g.dim c .down, ∀ b < g.dim (g.rev (c, .down)).1 .up,
      ∑ x ∈ Finset.range (g.dim c .down), ∑ y ∈ Finset.range (g.dim (g.rev (c, .down)).1 .up),
        M (c, .down) x a * ((B.wt (c, .down) x y : ℝ) : K) * M (g.rev (c, .down)) y b = ((A.wt (c, .down) a b : ℝ) : K)) :
    Spec.amp P B s = Spec.amp P A s := by
  have er : ∀ v, g.rev (P.at' v, .right) = (P.at' (P.right v), .left) := fun v => by
    rw [P.onRight]; simp [Cell.rev, Dir.delta, Dir.neg]
  have ed : ∀ v, g.rev (P.at' v, .down) = (P.at' (P.down v), .up) := fun v => by
    rw [P.onDown]; simp [Cell.rev, Dir.delta, Dir.neg]
  unfold Spec.amp
  have h1 : ∀ i : V → Dir → Nat, ∏ v, B.site (P.at' v) (s v) (i v) =
      ∑ m ∈ Fintype.piFinset (fun v => g.legs (P.at' v)), (∏ v, A.site (P.at' v) (s v) (m v)) * ∏ v, ∏ d, M (P.at' v, d) (i v d) (m v d) := by
    intro i
    rw [Finset.prod_congr rfl (fun v _ => hs _ (P.mem v) (s v) (i v)), Finset.prod_univ_sum]
    exact Finset.sum_congr rfl (fun m _ => Finset.prod_mul_distrib)
  simp only [h1, Finset.sum_mul]
  rw [Finset.sum_comm]
  refine Finset.sum_congr rfl (fun m hm => ?_)
  simp only [mul_assoc]
  rw [← Finset.mul_sum]
  congr 1
  have hmv : ∀ v d, m v d < g.dim (P.at' v) d := fun v d => by
    have := Fintype.mem_piFinset.mp ((Fintype.mem_piFinset.mp hm) v) d
    simpa using this
  -- the factors of one vertex: its right and its lower bond
  have h2 : ∀ i : V → Dir → Nat, (∏ v, ∏ d, M (P.at' v, d) (i v d) (m v d)) *
      ∏ v, (((B.wt (P.at' v, .right) (i v .right) (i (P.right v) .left) : ℝ) : K) * ((B.wt (P.at' v, .down) (i v .down) (i (P.down v) .up) : ℝ) : K)) =
      ∏ v, ((M (P.at' v, .right) (i v .right) (m v .right) * ((B.wt (P.at' v, .right) (i v .right) (i (P.right v) .left) : ℝ) : K) *
          M (P.at' (P.right v), .left) (i (P.right v) .left) (m (P.right v) .left)) *
        (M (P.at' v, .down) (i v .down) (m v .down) * ((B.wt (P.at' v, .down) (i v .down) (i (P.down v) .up) : ℝ) : K) *
          M (P.at' (P.down v), .up) (i (P.down v) .up) (m (P.down v) .up))) := by
    intro i
    simp only [Dir.prod_univ, Finset.prod_mul_distrib]
    rw [Equiv.prod_comp P.right (fun v => M (P.at' v, .left) (i v .left) (m v .left)),
      Equiv.prod_comp P.down (fun v => M (P.at' v, .up) (i v .up) (m v .up))]
    ring
  rw [Finset.sum_congr rfl (fun i _ => h2 i)]
  let t : V → Finset ((Nat × Nat) × Nat × Nat) := fun v =>
    (Finset.range (g.dim (P.at' v) .right) ×ˢ Finset.range (g.dim (P.at' (P.right v)) .left)) ×ˢ
    (Finset.range (g.dim (P.at' v) .down) ×ˢ Finset.range (g.dim (P.at' (P.down v)) .up))
  let F : V → (Nat × Nat) × Nat × Nat → K := fun v j =>
    (M (P.at' v, .right) j.1.1 (m v .right) * ((B.wt (P.at' v, .right) j.1.1 j.1.2 : ℝ) : K) * M (P.at' (P.right v), .left) j.1.2 (m (P.right v) .left)) *
    (M (P.at' v, .down) j.2.1 (m v .down) * ((B.wt (P.at' v, .down) j.2.1 j.2.2 : ℝ) : K) * M (P.at' (P.down v), .up) j.2.2 (m (P.down v) .up))
  have h3 : (∑ i ∈ Fintype.piFinset (fun v => Fintype.piFinset (fun d => Finset.range (g.dim (P.at' v) d))),
      ∏ v, F v ((i v .right, i (P.right v) .left), (i v .down, i (P.down v) .up))) = ∑ j ∈ Fintype.piFinset t, ∏ v, F v (j v) := by
    refine Finset.sum_nbij' (fun i v => ((i v .right, i (P.right v) .left), (i v .down, i (P.down v) .up)))
      (fun j v d => match d with
        | .right => (j v).1.1 | .left => (j (P.right.symm v)).1.2 | .down => (j v).2.1 | .up => (j (P.down.symm v)).2.2) ?_ ?_ ?_ ?_ ?_
    · intro i hi
      simp only [Fintype.mem_piFinset, Finset.mem_range] at hi
      simp only [t, Fintype.mem_piFinset, Finset.mem_product, Finset.mem_range]
      exact fun v => ⟨⟨hi _ _, hi _ _⟩, hi _ _, hi _ _⟩
    · intro j hj
      simp only [t, Fintype.mem_piFinset, Finset.mem_product, Finset.mem_range] at hj
      simp only [Fintype.mem_piFinset, Finset.mem_range]
      intro v d
      cases d with
      | right => exact (hj v).1.1
      | down => exact (hj v).2.1
      | left => simpa using (hj (P.right.symm v)).1.2
      | up => simpa using (hj (P.down.symm v)).2.2
    · intro i _
      funext v d
      cases d <;> simp
    · intro j _
      funext v
      simp
    · intro i _
      rfl
  refine h3.trans ?_
  rw [← Finset.prod_univ_sum]
  refine Finset.prod_congr rfl (fun v _ => ?_)
  simp only [t, F]
  rw [Finset.sum_product, ]
  simp only [← Finset.mul_sum, ← Finset.sum_mul]
  rw [Finset.sum_product, Finset.sum_product]
  have e1 := hr _ (P.mem v) (m v .right) (hmv v .right) (m (P.right v) .left) (by rw [er]; exact hmv _ _)
  have e2 := hd _ (P.mem v) (m v .down) (hmv v .down) (m (P.down v) .up) (by rw [ed]; exact hmv _ _)
  rw [er] at e1
  rw [ed] at e2
  rw [e1, e2]

/-! ### The loop over bonds -/

theorem rev_mem (ht : Spec.Tiling g) (k : Key) : (g.rev k).1 ∈ g.keys := ht.mem _

theorem neg_neg (d : Dir) : d.neg.neg = d := by cases d <;> rfl

theorem rev_rev (ht : Spec.Tiling g) {k : Key} (hk : k.1 ∈ g.keys) : g.rev (g.rev k) = k := by
  obtain ⟨c, d⟩ := k
  have h := ht.shift (c.1 + d.delta.1, c.2 + d.delta.2) d.neg.delta
  have e : ((c.1 + d.delta.1) + d.neg.delta.1, (c.2 + d.delta.2) + d.neg.delta.2) = c := by
    cases d <;> simp [Dir.delta, Dir.neg]
  simp only [Cell.rev, neg_neg]
  rw [h]
  simp only [e]
  rw [ht.fix c hk]

theorem rev_ne (k : Key) : g.rev k ≠ k := by
  intro h
  have := congrArg Prod.snd h
  obtain ⟨c, d⟩ := k
  cases d <;> simp [Cell.rev, Dir.neg] at this

/-- The two entries of a bond come from one decomposition. -/
def Linked (g : Cell) (eig : Eigh K) (svd : Svd K) (st : Weighted K) (b : Bonds K) (k : Key) : Prop :=
  b k = some (fun x y => if x = y then (svd (g.dim k.1 k.2) (bondMat g eig st k)).2.1 x else 0, fun x y => (svd (g.dim k.1 k.2) (bondMat g eig st k)).1 y x) ∧
  b (g.rev k) = some (fun x y => if x = y then (svd (g.dim k.1 k.2) (bondMat g eig st k)).2.1 x else 0, (svd (g.dim k.1 k.2) (bondMat g eig st k)).2.2)

def Inv (g : Cell) (eig : Eigh K) (svd : Svd K) (st : Weighted K) (b : Bonds K) : Prop :=
  ∀ k, k.1 ∈ g.keys → (b k = none ∧ b (g.rev k) = none) ∨ Linked g eig svd st b k ∨ Linked g eig svd st b (g.rev k)

theorem bondStep_inv {eig : Eigh K} {svd : Svd K} {st : Weighted K} {b : Bonds K} (ht : Spec.Tiling g) (h : Inv g eig svd st b) {k : Key} (hk : k.1 ∈ g.keys) :
    Inv g eig svd st (bondStep g eig svd st b k) ∧ (bondStep g eig svd st b k k).isSome ∧ ∀ j, (b j).isSome → (bondStep g eig svd st b k j).isSome := by
  unfold bondStep
  split
  · rename_i hn
    have hl : Linked g eig svd st (Function.update (Function.update b k (some (fun x y => if x = y then (svd (g.dim k.1 k.2) (bondMat g eig st k)).2.1 x else 0,
        fun x y => (svd (g.dim k.1 k.2) (bondMat g eig st k)).1 y x))) (g.rev k)
        (some (fun x y => if x = y then (svd (g.dim k.1 k.2) (bondMat g eig st k)).2.1 x else 0, (svd (g.dim k.1 k.2) (bondMat g eig st k)).2.2))) k := by
      refine ⟨?_, by simp⟩
      rw [Function.update_of_ne (rev_ne k).symm, Function.update_self]
    refine ⟨fun j hj => ?_, by dsimp only; rw [hl.1]; rfl, fun j hj => ?_⟩
    · by_cases h1 : j = k
      · subst h1; exact Or.inr (Or.inl hl)
      by_cases h2 : j = g.rev k
      · refine Or.inr (Or.inr ?_)
        rw [h2, rev_rev ht hk]; exact hl
      have h3 : g.rev j ≠ k := fun e => h2 (by rw [← e, rev_rev ht hj])
      have h4 : g.rev j ≠ g.rev k := fun e => h1 (by rw [← rev_rev ht hj, e, rev_rev ht hk])
      have e1 : ∀ x y, Function.update (Function.update b k x) (g.rev k) y j = b j := fun x y => by
        rw [Function.update_of_ne h2, Function.update_of_ne h1]
      have e2 : ∀ x y, Function.update (Function.update b k x) (g.rev k) y (g.rev j) = b (g.rev j) := fun x y => by
        rw [Function.update_of_ne h4, Function.update_of_ne h3]
      have e3 : ∀ x y, Function.update (Function.update b k x) (g.rev k) y (g.rev (g.rev j)) = b (g.rev (g.rev j)) := fun x y => by
        rw [rev_rev ht hj]; exact e1 x y
      dsimp only [Linked]
      rw [e1, e2, e3]
      exact h j hj
    · by_cases h2 : j = g.rev k
      · subst h2; simp
      dsimp only
      rw [Function.update_of_ne h2]
      by_cases h1 : j = k
      · subst h1; simp
      rw [Function.update_of_ne h1]; exact hj
  · rename_i hn
    refine ⟨h, ?_, fun _ hj => hj⟩
    rcases h k hk with h1 | h1 | h1
    · simp [h1.1, h1.2] at hn
    · rw [h1.1]; rfl
    · rw [← rev_rev ht hk, h1.2]; rfl

theorem foldl_inv {eig : Eigh K} {svd : Svd K} {st : Weighted K} (ht : Spec.Tiling g) : ∀ (ks : List Key) (b : Bonds K), (∀ k ∈ ks, k.1 ∈ g.keys) → Inv g eig svd st b →
    Inv g eig svd st (ks.foldl (bondStep g eig svd st) b) ∧ (∀ k ∈ ks, (ks.foldl (bondStep g eig svd st) b k).isSome) ∧
    ∀ j, (b j).isSome → (ks.foldl (bondStep g eig svd st) b j).isSome
  | [], b, _, h => ⟨h, by simp, fun _ hj => hj⟩
  | k :: ks, b, hk, h => by
    obtain ⟨h1, h2, h3⟩ := bondStep_inv ht h (hk k (by simp))
    obtain ⟨i1, i2, i3⟩ := foldl_inv ht ks _ (fun j hj => hk j (by simp [hj])) h1
    refine ⟨i1, fun j hj => ?_, fun j hj => i3 j (h3 j hj)⟩
    rcases List.mem_cons.mp hj with e | e
    · subst e; exact i3 _ h2
    · exact i2 j e

theorem allBonds_linked (ht : Spec.Tiling g) (eig : Eigh K) (svd : Svd K) (st : Weighted K) {k : Key} (hk : k.1 ∈ g.keys) :
    Linked g eig svd st (allBonds g eig svd st) k ∨ Linked g eig svd st (allBonds g eig svd st) (g.rev k) := by
  have hb : ∀ j ∈ g.bonds, j.1 ∈ g.keys := fun j hj => by
    simp only [Cell.bonds, List.mem_flatMap, List.mem_map] at hj
    obtain ⟨c, hc, d, -, e⟩ := hj
    rw [← e]; exact hc
  have hm : k ∈ g.bonds := by
    simp only [Cell.bonds, List.mem_flatMap, List.mem_map]
    refine ⟨k.1, hk, k.2, ?_, rfl⟩
    obtain ⟨c, d⟩ := k
    cases d <;> simp
  obtain ⟨h1, h2, -⟩ := foldl_inv (eig := eig) (svd := svd) (st := st) ht g.bonds (fun _ => none) hb (fun _ _ => Or.inl ⟨rfl, rfl⟩)
  rcases h1 k hk with h | h
  · have := h2 k hm
    rw [h.1] at this
    simp at this
  · exact h

/-! ### One bond -/

/-- The leading block as a matrix. -/
def toM (n : Nat) (A : Mat K) : Matrix (Fin n) (Fin n) K := Matrix.of fun i j => A i j

theorem link_mat {n : Nat} {X Xi Y Yi U S V W : Matrix (Fin n) (Fin n) K} (hx : X * Xi = 1) (hy : Y * Yi = 1) (h : X.transpose * W * Y = U * S * V) :
    (U.transpose * Xi).transpose * S * (V * Yi) = W := by
  rw [Matrix.transpose_mul, Matrix.transpose_transpose]
  calc Xi.transpose * U * S * (V * Yi) = Xi.transpose * (U * S * V) * Yi := by simp only [Matrix.mul_assoc]
    _ = (Xi.transpose * X.transpose) * W * (Y * Yi) := by rw [← h]; simp only [Matrix.mul_assoc]
    _ = W := by rw [← Matrix.transpose_mul, hx, hy]; simp

theorem herm_gram {st : Weighted K} (ht : Spec.Tiling g) (hd : Spec.Diagonal g st.wt) (k : Key) (x y : Nat) : gram g st k x y = star (gram g st k y x) := by
  unfold gram
  rw [star_sum]
  refine Finset.sum_congr rfl (fun s _ => ?_)
  rw [star_sum, Finset.sum_comm]
  refine Finset.sum_congr rfl (fun i _ => ?_)
  rw [star_sum]
  refine Finset.sum_congr rfl (fun j _ => ?_)
  by_cases h : j k.2 = x ∧ i k.2 = y
  · rw [if_pos h, if_pos ⟨h.2, h.1⟩, StarMul.star_mul, StarMul.star_mul, star_star, mul_comm]
    congr 1
    rw [star_prod]
    refine Finset.prod_congr rfl (fun e _ => ?_)
    have : st.wt (g.vts k.1, e) (j e) (i e) = st.wt (g.vts k.1, e) (i e) (j e) := by
      by_cases hij : i e = j e
      · rw [hij]
      · rw [hd _ (ht.mem _) _ _ _ hij, hd _ (ht.mem _) _ _ _ (Ne.symm hij)]
    rw [this]
    exact (RCLike.conj_ofReal _).symm
  · rw [if_neg h, if_neg (fun h' => h ⟨h'.2, h'.1⟩), star_zero]

theorem herm_arg {st : Weighted K} (ht : Spec.Tiling g) (hd : Spec.Diagonal g st.wt) (k : Key) (x y : Nat) : eigArg g st k x y = star (eigArg g st k y x) := by
  unfold eigArg
  rw [star_neg, star_div₀, ← herm_gram ht hd]
  congr 2
  exact (RCLike.conj_ofReal _).symm

theorem x_xinv {eig : Eigh K} {st : Weighted K} (ht : Spec.Tiling g) (he : Spec.IsEigh eig) (hd : Spec.Diagonal g st.wt) (hr : Spec.Regular g eig st) {k : Key} (hk : k.1 ∈ g.keys) :
    toM (g.dim k.1 k.2) (gX g eig st k) * toM (g.dim k.1 k.2) (gXinv g eig st k) = 1 := by
  obtain ⟨hu, -, -⟩ := he (g.dim k.1 k.2) (eigArg g st k) (fun x _ y _ => herm_arg ht hd k x y)
  ext x y
  rw [Matrix.mul_apply, Matrix.one_apply]
  have h := hu x x.2 y y.2
  rw [Finset.sum_range] at h
  have e : (x = y) ↔ ((x : Nat) = y) := Fin.ext_iff
  simp only [e]
  rw [← h]
  refine Finset.sum_congr rfl (fun i _ => ?_)
  obtain ⟨h1, h2⟩ := hr k.1 hk k.2 i i.2
  simp only [toM, Matrix.of_apply, gX, gXinv, invSqrt]
  rw [if_neg (not_lt.mpr h2), StarMul.star_mul]
  have hs : (((Real.sqrt ((spec g eig st k).1 i)) : ℝ) : K) ≠ 0 := by
    rw [Ne, RCLike.ofReal_eq_zero]; exact (Real.sqrt_pos.mpr h1).ne'
  have hc : star (((1 / Real.sqrt ((spec g eig st k).1 i) : ℝ)) : K) = (((1 / Real.sqrt ((spec g eig st k).1 i) : ℝ)) : K) := RCLike.conj_ofReal _
  rw [hc]
  push_cast
  have e2 : (spec g eig st k).2 = (eig (g.dim k.1 k.2) (eigArg g st k)).2 := by
    simp only [spec, ht.fix k.1 hk]
  rw [e2]
  field_simp

end Verif.Gauge
