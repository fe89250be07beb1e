import Verif.Transfer.Boundary
import Verif.C4v.CorrfLemmas
/-
Property C96: spectra of transfer operators and of the boundary Hamiltonian of one-site C4v states.
-/
namespace Verif.Transfer
open Tensor Ctm Ctm.Spec Spec Corrf.Spec

/-- A linear map between tensors of shape `sh`, on flattened vectors. -/
theorem mult_list {sh : List Nat} {n : Nat} (hn : sh.prod = n) {g f : Tensor ℂ → Option (Tensor ℂ)} (hf : ∀ v, f v = (view sh v).bind (fun V => (g V).bind (fun W => view [n] W)))
    (K : List Nat → List Nat → ℂ)
    (hg : ∀ E : Tensor ℂ, E.shape = sh → ∃ R, g E = some R ∧ R.shape = sh ∧ ∀ k, InB sh k → R.val k = sumIdx sh (fun j => K k j * E.val j)) :
    Multiplies f (fun i j : Fin n => K (unravel sh i) (unravel sh j)) := by
  intro v hv
  obtain ⟨V, eV, sV, vV⟩ := view_flat hn hv
  obtain ⟨R, eR, sR, vR⟩ := hg V sV
  obtain ⟨w, ew, sw, vw⟩ := flat_view hn sR
  subst hn
  refine ⟨w, by rw [hf, eV, Option.bind_some, eR, Option.bind_some, ew], sw, fun i => ?_⟩
  rw [vw, vR _ (inB_unravel sh i i.2).1, sumIdx_fin]
  exact Finset.sum_congr rfl (fun j _ => by rw [vV j j.2])

/-- Enumeration of index triples. -/
theorem exists_idx3 (s : Nat × Nat × Nat) {n : Nat} (hn : [s.1, s.2.1, s.2.2].prod = n) : ∃ e : Idx s ≃ Fin n, ∀ i, unravel [s.1, s.2.1, s.2.2] (e i) = [i.1.1, i.2.1.1, i.2.2.1] := by
  subst hn
  have hin : ∀ i : Idx s, InB [s.1, s.2.1, s.2.2] [i.1.1, i.2.1.1, i.2.2.1] := fun i => .cons i.1.2 (.cons i.2.1.2 (.cons i.2.2.2 .nil))
  let f : Idx s → Fin [s.1, s.2.1, s.2.2].prod := fun i => ⟨ravel _ _, ravel_lt (hin i)⟩
  have hf : ∀ i, unravel [s.1, s.2.1, s.2.2] (f i) = [i.1.1, i.2.1.1, i.2.2.1] := fun i => unravel_ravel (hin i)
  have hb : Function.Bijective f := by
    rw [Fintype.bijective_iff_injective_and_card]
    refine ⟨fun i j h => ?_, by simp⟩
    have := congrArg (fun x : Fin _ => unravel [s.1, s.2.1, s.2.2] x) h
    simp only [hf] at this
    obtain ⟨i1, i2, i3⟩ := i
    obtain ⟨j1, j2, j3⟩ := j
    simp only [List.cons.injEq, and_true, ← Fin.ext_iff] at this
    simp [this]
  exact ⟨Equiv.ofBijective f hb, hf⟩

theorem exists_idx4 (s : Nat × Nat × Nat × Nat) {n : Nat} (hn : [s.1, s.2.1, s.2.2.1, s.2.2.2].prod = n) :
    ∃ e : Idx4 s ≃ Fin n, ∀ i, unravel [s.1, s.2.1, s.2.2.1, s.2.2.2] (e i) = [i.1.1, i.2.1.1, i.2.2.1.1, i.2.2.2.1] := by
  subst hn
  have hin : ∀ i : Idx4 s, InB [s.1, s.2.1, s.2.2.1, s.2.2.2] [i.1.1, i.2.1.1, i.2.2.1.1, i.2.2.2.1] := fun i => .cons i.1.2 (.cons i.2.1.2 (.cons i.2.2.1.2 (.cons i.2.2.2.2 .nil)))
  let f : Idx4 s → Fin [s.1, s.2.1, s.2.2.1, s.2.2.2].prod := fun i => ⟨ravel _ _, ravel_lt (hin i)⟩
  have hf : ∀ i, unravel [s.1, s.2.1, s.2.2.1, s.2.2.2] (f i) = [i.1.1, i.2.1.1, i.2.2.1.1, i.2.2.2.1] := fun i => unravel_ravel (hin i)
  have hb : Function.Bijective f := by
    rw [Fintype.bijective_iff_injective_and_card]
    refine ⟨fun i j h => ?_, by simp⟩
    have := congrArg (fun x : Fin _ => unravel [s.1, s.2.1, s.2.2.1, s.2.2.2] x) h
    simp only [hf] at this
    obtain ⟨i1, i2, i3, i4⟩ := i
    obtain ⟨j1, j2, j3, j4⟩ := j
    simp only [List.cons.injEq, and_true, ← Fin.ext_iff] at this
    simp [this]
  exact ⟨Equiv.ofBijective f hb, hf⟩

theorem reindex_of {ι : Type} {n : Nat} (e : ι ≃ Fin n) {A : Matrix ι ι ℂ} {B : Matrix (Fin n) (Fin n) ℂ} (h : ∀ i j, B (e i) (e j) = A i j) : B = Matrix.reindex e e A := by
  ext i j
  rw [Matrix.reindex_apply, Matrix.submatrix_apply, ← h, Equiv.apply_symm_apply, Equiv.apply_symm_apply]

theorem reads_unique {st : State ℂ} {env : Env ℂ} {N N' : Tensors ℂ} (h : Reads st env N) (h' : Reads st env N') : N = N' := by
  obtain ⟨a1, a2, a3, a4, a5, a6, a7, a8, a9⟩ := N
  obtain ⟨b1, b2, b3, b4, b5, b6, b7, b8, b9⟩ := N'
  have e1 : a1 = b1 := funext fun c => Option.some.inj ((h.lu c).symm.trans (h'.lu c))
  have e2 : a2 = b2 := funext fun c => Option.some.inj ((h.ru c).symm.trans (h'.ru c))
  have e3 : a3 = b3 := funext fun c => Option.some.inj ((h.rd c).symm.trans (h'.rd c))
  have e4 : a4 = b4 := funext fun c => Option.some.inj ((h.ld c).symm.trans (h'.ld c))
  have e5 : a5 = b5 := funext fun c => Option.some.inj ((h.tu c).symm.trans (h'.tu c))
  have e6 : a6 = b6 := funext fun c => Option.some.inj ((h.tl c).symm.trans (h'.tl c))
  have e7 : a7 = b7 := funext fun c => Option.some.inj ((h.td c).symm.trans (h'.td c))
  have e8 : a8 = b8 := funext fun c => Option.some.inj ((h.tr c).symm.trans (h'.tr c))
  have e9 : a9 = b9 := funext fun c => Option.some.inj ((h.a c).symm.trans (h'.a c))
  subst e1 e2 e3 e4 e5 e6 e7 e8 e9
  rfl

theorem strip_one (N : Tensors ℂ) (D : Dims) (d : Dir) (c : Coord) (i j : Idx (cut D d c)) :
    strip N D d c 1 (cut D d c) (cut D d c) i j = siteKer N D d c (j.1.1, j.2.1.1, j.2.2.1) (i.1.1, i.2.1.1, i.2.2.1) := by
  show step N D d c one (single j) _ _ _ = _
  rw [step_chain, Finset.sum_eq_single (j.1.1, j.2.1.1, j.2.2.1)]
  · simp [single]
  · rintro ⟨x, y, z⟩ _ hne
    have : ¬ (x = j.1.1 ∧ y = j.2.1.1 ∧ z = j.2.2.1) := fun ⟨h1, h2, h3⟩ => hne (by rw [h1, h2, h3])
    simp only [single, if_neg this, zero_mul]
  · intro h
    exact absurd ((mem_box (s := cut D d c) rfl _).2 ⟨j.1.2, j.2.1.2, j.2.2.2⟩) h

/-- Matrix element of two sites. -/
noncomputable def wideKer (N : Tensors ℂ) (D : Dims) (d : Dir) (c : Coord) (j i : Nat × Nat × Nat × Nat) : ℂ :=
  ∑ m ∈ Finset.range (sides D d c).1, ∑ k ∈ Finset.range (sides D d c).2, ∑ n ∈ Finset.range (sides D d (beside d c)).2,
    first N d c j.1 m i.1 * middle N d c one j.2.1 m k i.2.1 * middle N d (beside d c) one j.2.2.1 k n i.2.2.1 * second N d (beside d c) j.2.2.2 n i.2.2.2

theorem wide_ker (N : Tensors ℂ) (D : Dims) (d : Dir) (c : Coord) (E : Vec4 ℂ) (x' y' w' z' : Nat) : wide N D d c one one E x' y' w' z' =
    ∑ x ∈ Finset.range (cut2 D d c).1, ∑ y ∈ Finset.range (cut2 D d c).2.1, ∑ w ∈ Finset.range (cut2 D d c).2.2.1, ∑ z ∈ Finset.range (cut2 D d c).2.2.2,
      E x y w z * wideKer N D d c (x, y, w, z) (x', y', w', z') := by
  simp only [wide, wideKer, Finset.mul_sum]
  exact Finset.sum_congr rfl (fun _ _ => Finset.sum_congr rfl (fun _ _ => Finset.sum_congr rfl (fun _ _ => Finset.sum_congr rfl (fun _ _ => Finset.sum_congr rfl (fun _ _ =>
    Finset.sum_congr rfl (fun _ _ => Finset.sum_congr rfl (fun _ _ => by ring)))))))

theorem wideStrip_ker (N : Tensors ℂ) (D : Dims) (d : Dir) (c : Coord) (i j : Idx4 (cut2 D d c)) :
    wideStrip N D d c (cut2 D d c) (cut2 D d c) i j = wideKer N D d c (j.1.1, j.2.1.1, j.2.2.1.1, j.2.2.2.1) (i.1.1, i.2.1.1, i.2.2.1.1, i.2.2.2.1) := by
  obtain ⟨j1, j2, j3, j4⟩ := j
  simp only [wideStrip, wide_ker]
  rw [Finset.sum_eq_single j1.1, Finset.sum_eq_single j2.1, Finset.sum_eq_single j3.1, Finset.sum_eq_single j4.1]
  · simp
  · intro z _ h; simp [h]
  · intro h; exact absurd (Finset.mem_range.2 j4.2) h
  · intro w _ h; simp [h]
  · intro h; exact absurd (Finset.mem_range.2 j3.2) h
  · intro y _ h; simp [h]
  · intro h; exact absurd (Finset.mem_range.2 j2.2) h
  · intro x _ h; simp [h]
  · intro h; exact absurd (Finset.mem_range.2 j1.2) h

section
variable {chi D p : Nat} {a : Tensor ℂ} {env : C4v.Env ℂ} {N : Tensors ℂ}

/-- The function of `get_Top_spec_c4v` multiplies by the matrix of the strip with one site. -/
theorem mvC4v_multiplies (hf : C4v.Spec.Fits chi D p a env) (hchi : env.chi = chi) (hN : Reads (C4v.Spec.cell a) (C4v.Spec.unfold env) N) (c : Coord) :
    ∃ e : Idx (chi, D * D, chi) ≃ Fin (chi * D * D * chi), Multiplies (mvC4v a env) (Matrix.reindex e e (period (C4v.Spec.cell a) N (C4v.Spec.dims chi D p) .right c)) := by
  cases reads_unique hN (C4v.reads a env)
  have hD : a.size 1 = D := by simp [size, hf.site]
  have hn : [chi, D * D, chi].prod = chi * D * D * chi := by simp; ring
  obtain ⟨e, he⟩ := exists_idx3 (chi, D * D, chi) hn
  refine ⟨e, ?_⟩
  have hM := mult_list (sh := [chi, D * D, chi]) hn (f := mvC4v a env) (g := fun V => C4v.applyTM a env V none) (fun v => by simp only [mvC4v, hD, hchi]; rfl)
    (fun k j => siteKer (C4v.tensors a env) (C4v.Spec.dims chi D p) .right c (j.getD 0 0, j.getD 1 0, j.getD 2 0) (k.getD 0 0, k.getD 1 0, k.getD 2 0)) (by
      intro E hE
      obtain ⟨R, eR, sR, vR⟩ := C4v.applyTM_rep hf none (fun o h => by cases h) (E := E) (f := fun x y z => E.val [x, y, z]) ⟨hE, fun _ _ _ _ _ _ => rfl⟩ c
      refine ⟨R, eR, sR, fun k hk => ?_⟩
      cases hk with
      | cons hx hk => cases hk with
        | cons hy hk => cases hk with
          | cons hz hk => cases hk with
            | nil =>
              rename_i x y z
              rw [vR x y z hx hy hz]
              refine (step_chain _ _ _ _ _ _ _ _).trans ?_
              rw [cutSet, Finset.sum_product]
              simp only [Finset.sum_product]
              refine Finset.sum_congr rfl (fun _ _ => Finset.sum_congr rfl (fun _ _ => Finset.sum_congr rfl (fun _ _ => mul_comm _ _))))
  have hr := reindex_of e (A := period (C4v.Spec.cell a) (C4v.tensors a env) (C4v.Spec.dims chi D p) .right c) (B := fun i j => siteKer (C4v.tensors a env) (C4v.Spec.dims chi D p) .right c
      ((unravel [chi, D * D, chi] j).getD 0 0, (unravel [chi, D * D, chi] j).getD 1 0, (unravel [chi, D * D, chi] j).getD 2 0)
      ((unravel [chi, D * D, chi] i).getD 0 0, (unravel [chi, D * D, chi] i).getD 1 0, (unravel [chi, D * D, chi] i).getD 2 0)) (fun i j => by
    simp only [he]
    exact (strip_one _ (C4v.Spec.dims chi D p) .right c i j).symm)
  rw [← hr]
  exact hM

/-- The function of `get_Top2_spec_c4v` multiplies by the matrix of the strip of width two. -/
theorem mvC4v2_multiplies (hf : C4v.Spec.Fits chi D p a env) (hchi : env.chi = chi) (hN : Reads (C4v.Spec.cell a) (C4v.Spec.unfold env) N) (c : Coord) :
    ∃ e : Idx4 (chi, D * D, D * D, chi) ≃ Fin (chi * D ^ 4 * chi),
      Multiplies (mvC4v2 a env) (Matrix.reindex e e (wideStrip N (C4v.Spec.dims chi D p) .right c (chi, D * D, D * D, chi) (chi, D * D, D * D, chi))) := by
  cases reads_unique hN (C4v.reads a env)
  have hD : a.size 1 = D := by simp [size, hf.site]
  have hn : [chi, D * D, D * D, chi].prod = chi * D ^ 4 * chi := by simp; ring
  obtain ⟨e, he⟩ := exists_idx4 (chi, D * D, D * D, chi) hn
  refine ⟨e, ?_⟩
  have hM := mult_list (sh := [chi, D * D, D * D, chi]) hn (f := mvC4v2 a env) (g := fun V => C4v.applyTMW (fun M _ => ⟨M, [], M⟩) a env V none) (fun v => by simp only [mvC4v2, hD, hchi]; rfl)
    (fun k j => wideKer (C4v.tensors a env) (C4v.Spec.dims chi D p) .right c (j.getD 0 0, j.getD 1 0, j.getD 2 0, j.getD 3 0) (k.getD 0 0, k.getD 1 0, k.getD 2 0, k.getD 3 0)) (by
      intro E hE
      obtain ⟨R, eR, sR, vR⟩ := C4v.applyTMW_none hf (svd := fun M _ => ⟨M, [], M⟩) (E := E) (f := fun x y w z => E.val [x, y, w, z]) ⟨hE, fun _ _ _ _ _ _ _ _ => rfl⟩ c
      refine ⟨R, eR, sR, fun k hk => ?_⟩
      cases hk with
      | cons hx hk => cases hk with
        | cons hy hk => cases hk with
          | cons hw hk => cases hk with
            | cons hz hk => cases hk with
              | nil =>
                rename_i x y w z
                rw [vR x y w z hx hy hw hz]
                refine (wide_ker _ _ _ _ _ _ _ _ _).trans ?_
                refine Finset.sum_congr rfl (fun _ _ => Finset.sum_congr rfl (fun _ _ => Finset.sum_congr rfl (fun _ _ => Finset.sum_congr rfl (fun _ _ => mul_comm _ _)))))
  have hr := reindex_of e (A := wideStrip (C4v.tensors a env) (C4v.Spec.dims chi D p) .right c (chi, D * D, D * D, chi) (chi, D * D, D * D, chi))
      (B := fun i j => wideKer (C4v.tensors a env) (C4v.Spec.dims chi D p) .right c
      ((unravel [chi, D * D, D * D, chi] j).getD 0 0, (unravel [chi, D * D, D * D, chi] j).getD 1 0, (unravel [chi, D * D, D * D, chi] j).getD 2 0, (unravel [chi, D * D, D * D, chi] j).getD 3 0)
      ((unravel [chi, D * D, D * D, chi] i).getD 0 0, (unravel [chi, D * D, D * D, chi] i).getD 1 0, (unravel [chi, D * D, D * D, chi] i).getD 2 0, (unravel [chi, D * D, D * D, chi] i).getD 3 0)) (fun i j => by
    simp only [he]
    exact (wideStrip_ker _ (C4v.Spec.dims chi D p) .right c i j).symm)
  rw [← hr]
  exact hM

/-- The function of `get_EH_spec_Ttensor` multiplies by the ring of half-row tensors. -/
theorem mvC4vEH_multiplies (hf : C4v.Spec.Fits chi D p a env) (hN : Reads (C4v.Spec.cell a) (C4v.Spec.unfold env) N) (c : Coord) {L : Nat} (hL : 1 < L) {T : Tensor ℂ}
    (hT : view [chi, chi, D, D] env.T = some T) {n : Nat} (hn : D ^ L = n) : ∃ h : (List.replicate L D).prod = n,
      Multiplies (mvC4vEH D L T) (Matrix.reindex (finCongr h) (finCongr h) (boundary N (C4v.Spec.dims chi D p) chi .left .down c L (List.replicate L D))) := by
  cases reads_unique hN (C4v.reads a env)
  have h : (List.replicate L D).prod = n := by rw [List.prod_replicate, hn]
  refine ⟨h, ?_⟩
  obtain ⟨t, e, s, v⟩ := split_view hf.half
  rw [hT] at e
  cases e
  have hM := mult_list (sh := List.replicate L D) h (f := mvC4vEH D L T) (g := mvSigma (List.replicate L T)) (fun v => by simp only [mvC4vEH, hn]; rfl)
    (fun k j => ring chi ((List.replicate L T).map ent) k j) (fun E hE => mvSigma_ok (forall2_replicate (R := fun (t : Tensor ℂ) a => t.shape = [chi, chi, a, a]) s L) (by rw [List.length_replicate]; exact hL) hE)
  subst h
  rw [List.map_replicate] at hM
  have e1 : boundary (C4v.tensors a env) (C4v.Spec.dims chi D p) chi .left .down c L (List.replicate L D) = even chi (half (C4v.tensors a env) (C4v.Spec.dims chi D p) .left c) L (List.replicate L D) := by
    rw [boundary, even]
    congr 1
    rw [show (fun i => along (C4v.tensors a env) (C4v.Spec.dims chi D p) .left .down (ahead .down c i)) = fun _ => half (C4v.tensors a env) (C4v.Spec.dims chi D p) .left c from rfl,
      List.map_const', List.length_range]
  have e2 : even chi (ent T) L (List.replicate L D) = even chi (half (C4v.tensors a env) (C4v.Spec.dims chi D p) .left c) L (List.replicate L D) := even_congr v
  rw [e1, ← e2]
  exact hM

/-- **C96.** `get_Top_spec_c4v` returns the `n` leading eigenvalues of the transfer operator of width one of the state and environment unfolded onto the lattice, by decreasing modulus, divided by the
largest one (`normalize=True`) or as they are; with `eigenvectors=True` together with eigenvectors. -/
theorem C96_top {eigs : Eigs} {argsort : Argsort} (hei : Solves eigs) (har : Sorts argsort) (hf : C4v.Spec.Fits chi D p a env) (hchi : env.chi = chi)
    (hN : Reads (C4v.Spec.cell a) (C4v.Spec.unfold env) N) (c : Coord) (normal b : Bool) (n : Nat) {r : List (ℝ × ℝ) × List (Tensor ℂ)} (h : topC4v eigs argsort normal b n a env = .ok r) :
    (normal = true → Spectrum (period (C4v.Spec.cell a) N (C4v.Spec.dims chi D p) .right c) n r.1) ∧
    (normal = false → (r.1.map (fun p => ‖row p‖)).Pairwise (· ≥ ·) ∧ Leading (period (C4v.Spec.cell a) N (C4v.Spec.dims chi D p) .right c) n (r.1.map row)) ∧
    (b = true → ∃ (m : Nat) (e : Idx (chi, D * D, chi) ≃ Fin m) (s : ℝ), 0 < s ∧ (normal = false → s = 1) ∧
      List.Forall₂ (fun q v => Eigenvector (Matrix.reindex e e (period (C4v.Spec.cell a) N (C4v.Spec.dims chi D p) .right c)) ((s : ℂ) * row q) v) r.1 r.2) := by
  obtain ⟨e, hM⟩ := mvC4v_multiplies hf hchi hN c
  have hD : a.size 1 = D := by simp [size, hf.site]
  simp only [topC4v, hD, hchi] at h
  cases normal with
  | true =>
    obtain ⟨h1, h2⟩ := sorted_ok hei har hM h
    refine ⟨fun _ => Spectrum.congr (Matrix.charpoly_reindex e _) h1, by simp, fun hb => ?_⟩
    obtain ⟨s, s0, h3⟩ := h2 hb
    exact ⟨_, e, s, s0, by simp, h3⟩
  | false =>
    obtain ⟨h0, h1, h2⟩ := sorted_plain hei har hM h
    refine ⟨by simp, fun _ => ⟨h0, Leading.congr (Matrix.charpoly_reindex e _) h1⟩, fun hb => ⟨_, e, 1, one_pos, fun _ => rfl, ?_⟩⟩
    simpa using h2 hb

/-- **C96.** `get_Top2_spec_c4v`: `n` leading eigenvalues of the transfer operator of width two, divided by a positive number so that the first has modulus one. Partial: in the order of the solver. -/
theorem C96_top2_partial {eigs : Eigs} (hei : Solves eigs) (hf : C4v.Spec.Fits chi D p a env) (hchi : env.chi = chi)
    (hN : Reads (C4v.Spec.cell a) (C4v.Spec.unfold env) N) (c : Coord) (n : Nat) {r : List (ℝ × ℝ)} (h : top2C4v eigs n a env = .ok r) :
    ((∃ s : ℝ, 0 < s ∧ Leading (wideStrip N (C4v.Spec.dims chi D p) .right c (chi, D * D, D * D, chi) (chi, D * D, D * D, chi)) n (r.map (fun p => (s : ℂ) * row p))) ∧
      ∃ p, r.head? = some p ∧ ‖row p‖ = 1) ∧
    (Ascending eigs → Spectrum (wideStrip N (C4v.Spec.dims chi D p) .right c (chi, D * D, D * D, chi) (chi, D * D, D * D, chi)) n r) := by
  obtain ⟨e, hM⟩ := mvC4v2_multiplies hf hchi hN c
  have hD : a.size 1 = D := by simp [size, hf.site]
  simp only [top2C4v, hD, hchi] at h
  obtain ⟨⟨s, s0, h1⟩, h2⟩ := reversed_values hei hM h
  exact ⟨⟨⟨s, s0, Leading.congr (Matrix.charpoly_reindex e _) h1⟩, h2⟩, fun ha => Spectrum.congr (Matrix.charpoly_reindex e _) (reversed_ok hei ha hM h)⟩

/-- **C96.** `get_EH_spec_Ttensor` of a C4v state: `n` leading eigenvalues of the boundary operator of a cylinder of circumference `L`, divided by a positive number so that the first has modulus one.
Partial: in the order of the solver. -/
theorem C96_boundary_partial {eigs : Eigs} (hei : Solves eigs) (hf : C4v.Spec.Fits chi D p a env) (hchi : env.chi = chi)
    (hN : Reads (C4v.Spec.cell a) (C4v.Spec.unfold env) N) (c : Coord) (n L : Nat) {r : List (ℝ × ℝ)} (h : specC4vEH eigs n L a env = .ok r) :
    1 < L ∧ ((∃ s : ℝ, 0 < s ∧ Leading (boundary N (C4v.Spec.dims chi D p) chi .left .down c L (List.replicate L D)) n (r.map (fun p => (s : ℂ) * row p))) ∧
      ∃ p, r.head? = some p ∧ ‖row p‖ = 1) ∧
    (Ascending eigs → Spectrum (boundary N (C4v.Spec.dims chi D p) chi .left .down c L (List.replicate L D)) n r) := by
  unfold specC4vEH at h
  by_cases hL : 1 < L
  swap
  · rw [if_pos hL] at h; cases h
  rw [if_neg (not_not.2 hL)] at h
  have hD : a.size 4 = D := by simp [size, hf.site]
  simp only [hD, hchi] at h
  obtain ⟨T, hT, h⟩ := bind_ok'.1 h
  rw [lift_ok'] at hT
  obtain ⟨e, hM⟩ := mvC4vEH_multiplies hf hN c hL hT rfl
  obtain ⟨⟨s, s0, h1⟩, h2⟩ := reversed_values hei hM h
  exact ⟨hL, ⟨⟨s, s0, Leading.congr (Matrix.charpoly_reindex _ _) h1⟩, h2⟩, fun ha => Spectrum.congr (Matrix.charpoly_reindex _ _) (reversed_ok hei ha hM h)⟩

end
end Verif.Transfer
