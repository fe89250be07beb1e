import Verif.Transfer.Chain
/-
Transfer operators of width one: `get_Top_spec` multiplies by the matrix of the strip; its nonzero eigenvalues do not depend on the starting point nor on the sense of direction.
-/
namespace Verif.Transfer
open Tensor Ctm Ctm.Spec Spec Corrf.Spec

/-- Index triples at the cut in front of `c`. -/
def cutSet (D : Dims) (d : Dir) (c : Coord) : Finset (Nat × Nat × Nat) :=
  Finset.range (cut D d c).1 ×ˢ (Finset.range (cut D d c).2.1 ×ˢ Finset.range (cut D d c).2.2)

/-- Matrix element of one site. -/
noncomputable def siteKer (N : Tensors ℂ) (D : Dims) (d : Dir) (c : Coord) (j i : Nat × Nat × Nat) : ℂ :=
  ∑ m ∈ Finset.range (sides D d c).1, ∑ n ∈ Finset.range (sides D d c).2, first N d c j.1 m i.1 * middle N d c one j.2.1 m n i.2.1 * second N d c j.2.2 n i.2.2

/-- The next vertex. -/
abbrev nxt (d : Dir) (c : Coord) : Coord := ahead d c 1

theorem nxt_iter (d : Dir) (n : Nat) (c : Coord) : (nxt d)^[n] c = ahead d c n := by
  induction n generalizing c with
  | zero => rw [Corrf.ahead_zero]; rfl
  | succ n ih => rw [Function.iterate_succ_apply, ih, Corrf.ahead_ahead, Nat.add_comm 1 n]

theorem step_chain (N : Tensors ℂ) (D : Dims) (d : Dir) (c : Coord) (E : Vec ℂ) (x y z : Nat) :
    step N D d c one E x y z = ∑ j ∈ cutSet D d c, E j.1 j.2.1 j.2.2 * siteKer N D d c j (x, y, z) := by
  rw [cutSet, Finset.sum_product]
  simp only [Finset.sum_product, step, siteKer, Finset.mul_sum]
  exact Finset.sum_congr rfl (fun _ _ => Finset.sum_congr rfl (fun _ _ => Finset.sum_congr rfl (fun _ _ => Finset.sum_congr rfl (fun _ _ => Finset.sum_congr rfl (fun _ _ => by ring)))))

theorem grow_chain (N : Tensors ℂ) (D : Dims) (d : Dir) : ∀ (n : Nat) (c : Coord) (E : Vec ℂ) (i : Nat × Nat × Nat),
    grow N D d c (List.replicate n one) E i.1 i.2.1 i.2.2 = chain (cutSet D d) (siteKer N D d) (nxt d) n c (fun j => E j.1 j.2.1 j.2.2) i
  | 0, _, _, _ => rfl
  | n + 1, c, E, i => by
    rw [List.replicate_succ]
    simp only [grow, chain]
    rw [grow_chain N D d n]
    congr 1
    funext k
    exact step_chain N D d c E _ _ _

theorem mem_box {s : Nat × Nat × Nat} {A : Finset (Nat × Nat × Nat)} (hA : A = Finset.range s.1 ×ˢ (Finset.range s.2.1 ×ˢ Finset.range s.2.2)) (k : Nat × Nat × Nat) :
    k ∈ A ↔ k.1 < s.1 ∧ k.2.1 < s.2.1 ∧ k.2.2 < s.2.2 := by
  rw [hA]; simp only [Finset.mem_product, Finset.mem_range]

/-- Triples of indices at a cut. -/
def idxEquiv (s : Nat × Nat × Nat) (A : Finset (Nat × Nat × Nat)) (hA : A = Finset.range s.1 ×ˢ (Finset.range s.2.1 ×ˢ Finset.range s.2.2)) : Idx s ≃ A where
  toFun i := ⟨(i.1.1, i.2.1.1, i.2.2.1), (mem_box hA _).2 ⟨i.1.2, i.2.1.2, i.2.2.2⟩⟩
  invFun k := (⟨k.1.1, ((mem_box hA _).1 k.2).1⟩, ⟨k.1.2.1, ((mem_box hA _).1 k.2).2.1⟩, ⟨k.1.2.2, ((mem_box hA _).1 k.2).2.2⟩)
  left_inv _ := rfl
  right_inv _ := rfl

theorem strip_reindex (N : Tensors ℂ) (D : Dims) (d : Dir) (c : Coord) (n : Nat) :
    cmat (cutSet D d) (siteKer N D d) (nxt d) n c (cutSet D d c) (cutSet D d c) =
      Matrix.reindex (idxEquiv (cut D d c) (cutSet D d c) rfl) (idxEquiv (cut D d c) (cutSet D d c) rfl) (strip N D d c n (cut D d c) (cut D d c)) := by
  ext i j
  rw [Matrix.reindex_apply, Matrix.submatrix_apply, cmat, strip]
  refine Eq.trans ?_ (grow_chain N D d n c _ (i.1)).symm
  congr 1
  funext k
  obtain ⟨⟨j1, j2, j3⟩, hj⟩ := j
  obtain ⟨k1, k2, k3⟩ := k
  simp [single, idxEquiv, Pi.single_apply]
  congr

theorem strip_charpoly (N : Tensors ℂ) (D : Dims) (d : Dir) (c : Coord) (n : Nat) :
    (cmat (cutSet D d) (siteKer N D d) (nxt d) n c (cutSet D d c) (cutSet D d c)).charpoly = (strip N D d c n (cut D d c) (cut D d c)).charpoly := by
  rw [strip_reindex, Matrix.charpoly_reindex]

section
variable {D : Dims} {st : State ℂ} {env : Env ℂ} {N : Tensors ℂ}

theorem vts_period (hp : Periodic st) (d : Dir) (c : Coord) : st.vts (ahead d c (cellLen st d)) = st.vts c := by
  cases d with
  | right => simpa [ahead, Dir.vec, cellLen] using (hp c).1
  | down => simpa [ahead, Dir.vec, cellLen] using (hp c).2
  | left =>
    have := (hp (ahead .left c (cellLen st .left))).1
    rw [← this]
    simp [ahead, Dir.vec, cellLen]
  | up =>
    have := (hp (ahead .up c (cellLen st .up))).2
    rw [← this]
    simp [ahead, Dir.vec, cellLen]

theorem vts_rt (ht : Tiling st) {c c' : Coord} (h : st.vts c = st.vts c') : st.vts (rt c) = st.vts (rt c') := by
  have a := ht.shift c (1, 0)
  have b := ht.shift c' (1, 0)
  rw [h] at a
  simp only [add_zero] at a b
  exact a.symm.trans b

theorem vts_dn (ht : Tiling st) {c c' : Coord} (h : st.vts c = st.vts c') : st.vts (dn c) = st.vts (dn c') := by
  have a := ht.shift c (0, 1)
  have b := ht.shift c' (0, 1)
  rw [h] at a
  simp only [add_zero] at a b
  exact a.symm.trans b

theorem size_vts {f : Coord → Nat} (hf : Sizes st f) {c c' : Coord} (h : st.vts c = st.vts c') : f c = f c' := by
  rw [← hf.2 c, h, hf.2 c']

theorem cut_vts (ht : Tiling st) (hs : FitsState D st) (he : FitsEnv D st env) (d : Dir) {c c' : Coord} (h : st.vts c = st.vts c') : cut D d c = cut D d c' := by
  cases d <;> simp only [cut] <;>
    simp only [size_vts he.eu h, size_vts hs.L h, size_vts he.ed h, size_vts he.el h, size_vts hs.U h, size_vts he.er h,
      size_vts he.eu (vts_rt ht h), size_vts hs.L (vts_rt ht h), size_vts he.ed (vts_rt ht h), size_vts he.el (vts_dn ht h), size_vts hs.U (vts_dn ht h), size_vts he.er (vts_dn ht h)]

theorem sides_vts (ht : Tiling st) (hs : FitsState D st) (d : Dir) {c c' : Coord} (h : st.vts c = st.vts c') : sides D d c = sides D d c' := by
  cases d <;> simp only [sides] <;> simp only [size_vts hs.L h, size_vts hs.U h, size_vts hs.L (vts_rt ht h), size_vts hs.U (vts_dn ht h)]

theorem first_vts (hN : Reads st env N) (d : Dir) {c c' : Coord} (h : st.vts c = st.vts c') : first N d c = first N d c' := by
  have a : N.tu c = N.tu c' := Option.some.inj ((hN.tu c).symm.trans (h ▸ hN.tu c'))
  have b : N.tl c = N.tl c' := Option.some.inj ((hN.tl c).symm.trans (h ▸ hN.tl c'))
  funext x m x'
  cases d <;> simp only [first, a, b]

theorem second_vts (hN : Reads st env N) (d : Dir) {c c' : Coord} (h : st.vts c = st.vts c') : second N d c = second N d c' := by
  have a : N.td c = N.td c' := Option.some.inj ((hN.td c).symm.trans (h ▸ hN.td c'))
  have b : N.tr c = N.tr c' := Option.some.inj ((hN.tr c).symm.trans (h ▸ hN.tr c'))
  funext x m x'
  cases d <;> simp only [second, a, b]

theorem middle_vts (hN : Reads st env N) (d : Dir) {c c' : Coord} (h : st.vts c = st.vts c') : middle N d c = middle N d c' := by
  have a : N.a c = N.a c' := Option.some.inj ((hN.a c).symm.trans (h ▸ hN.a c'))
  funext o y m n y'
  cases d <;> simp only [middle, a]

theorem siteKer_vts (ht : Tiling st) (hs : FitsState D st) (hN : Reads st env N) (d : Dir) {c c' : Coord} (h : st.vts c = st.vts c') : siteKer N D d c = siteKer N D d c' := by
  funext j i
  simp only [siteKer, sides_vts ht hs d h, first_vts hN d h, second_vts hN d h, middle_vts hN d h]

theorem cutSet_vts (ht : Tiling st) (hs : FitsState D st) (he : FitsEnv D st env) (d : Dir) {c c' : Coord} (h : st.vts c = st.vts c') : cutSet D d c = cutSet D d c' := by
  simp only [cutSet, cut_vts ht hs he d h]

/-- Starting further along the strip does not change the nonzero eigenvalues. -/
theorem period_ahead (ht : Tiling st) (hs : FitsState D st) (he : FitsEnv D st env) (hN : Reads st env N) (hp : Periodic st) (d : Dir) (hc : 0 < cellLen st d)
    (c : Coord) (m : Nat) : SameNonzero (period st N D d c) (period st N D d (ahead d c m)) := by
  have h := cmat_shift_iter (S := cutSet D d) (ker := siteKer N D d) (nx := nxt d) hc (fun c => by rw [nxt_iter]; exact cutSet_vts ht hs he d (vts_period hp d c))
    (fun c => by rw [nxt_iter]; exact siteKer_vts ht hs hN d (vts_period hp d c)) c m
  rw [nxt_iter] at h
  rw [SameNonzero, strip_charpoly, strip_charpoly] at h
  exact h

theorem rev_rev (d : Dir) : Corrf.rev (Corrf.rev d) = d := by cases d <;> rfl

theorem ahead_rev (d : Dir) (c : Coord) (n : Nat) : ahead (Corrf.rev d) (ahead d c n) n = c := by
  cases d <;> simp [ahead, Corrf.rev, Dir.vec]

theorem cut_rev (d : Dir) (c : Coord) : cut D (Corrf.rev d) c = cut D d (ahead d c 1) := by
  cases d <;> simp [cut, Corrf.rev, ahead, Dir.vec, rt, dn]

theorem siteKer_rev (d : Dir) (c : Coord) (i j : Nat × Nat × Nat) : siteKer N D (Corrf.rev d) c i j = siteKer N D d c j i := by
  cases d <;> rfl

theorem cellLen_rev (d : Dir) : cellLen st (Corrf.rev d) = cellLen st d := by cases d <;> rfl

/-- The strip run in the opposite direction. -/
theorem period_rev (ht : Tiling st) (hs : FitsState D st) (he : FitsEnv D st env) (hN : Reads st env N) (hp : Periodic st) (d : Dir) (hc : 0 < cellLen st d)
    (c : Coord) : SameNonzero (period st N D d c) (period st N D (Corrf.rev d) c) := by
  obtain ⟨q, hq⟩ : ∃ q, cellLen st d = q + 1 := ⟨cellLen st d - 1, by omega⟩
  have hA : cutSet D d ((nxt d)^[q + 1] c) = cutSet D d c := by rw [nxt_iter, ← hq]; exact cutSet_vts ht hs he d (vts_period hp d c)
  have hS : ∀ c, cutSet D (Corrf.rev d) c = cutSet D d (nxt d c) := fun c => by simp only [cutSet, cut_rev]
  have h := cmat_reverse (S := cutSet D d) (ker := siteKer N D d) (nx := nxt d) (S' := cutSet D (Corrf.rev d)) (ker' := siteKer N D (Corrf.rev d)) (nx' := nxt (Corrf.rev d))
    hS (fun c i j => siteKer_rev d c i j) (fun c => ahead_rev d c 1) (fun c => by have := ahead_rev (Corrf.rev d) c 1; rwa [rev_rev] at this) q c (cutSet D d c) hA
  have h1 : SameNonzero (period st N D d c) (period st N D (Corrf.rev d) ((nxt d)^[q] c)) := by
    refine sameNonzero_of_charpoly ?_
    have hB : cutSet D (Corrf.rev d) ((nxt d)^[q] c) = cutSet D d c := by
      rw [hS]; exact (congrArg (cutSet D d) (Function.iterate_succ_apply' (nxt d) q c).symm).trans hA
    have e := strip_charpoly N D (Corrf.rev d) ((nxt d)^[q] c) (q + 1)
    rw [hB, h, Matrix.charpoly_transpose, strip_charpoly] at e
    rw [period, period, cellLen_rev, hq]
    exact e
  have h2 := period_ahead ht hs he hN hp (Corrf.rev d) (by rw [cellLen_rev]; exact hc) ((nxt d)^[q] c) q
  rw [nxt_iter, ahead_rev] at h2
  rw [nxt_iter] at h1
  exact h1.trans h2

/-- The vertices of the line through `c` in direction `d`. -/
theorem period_line (ht : Tiling st) (hs : FitsState D st) (he : FitsEnv D st env) (hN : Reads st env N) (hp : Periodic st) (d : Dir) (hc : 0 < cellLen st d)
    (c : Coord) (m : Int) : SameNonzero (period st N D d c) (period st N D d (c.1 + m * d.vec.1, c.2 + m * d.vec.2)) := by
  rcases Int.eq_nat_or_neg m with ⟨n, rfl | rfl⟩
  · exact period_ahead ht hs he hN hp d hc c n
  · have h := period_ahead ht hs he hN hp d hc (c.1 + -(n : Int) * d.vec.1, c.2 + -(n : Int) * d.vec.2) n
    have e : ahead d (c.1 + -(n : Int) * d.vec.1, c.2 + -(n : Int) * d.vec.2) n = c := by
      simp [ahead]
    rw [e] at h
    exact h.symm

end
end Verif.Transfer
