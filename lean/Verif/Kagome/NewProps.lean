import Verif.Kagome.New
import Verif.Tensor.Trace
/-
C114, continued: `rdm1x1_kagome`.
-/
namespace Verif.KagomeRdm
open Tensor Ctm Rdm Ctm.Spec
variable {K : Type} [RCLike K]

/-- The labels of `New.lean` for the dimensions of a site. -/
def dimN (p : Nat) (dim : Nat → Nat) (l : Nat) : Nat :=
  if l < 6 then p else [dim 2, dim 3, dim 15, dim 10, dim 5, dim 6, dim 16, dim 11, 0, 0, 0, 0, 0, 0, dim 0, dim 1, dim 9, dim 8, dim 17, dim 13, dim 12, dim 14].getD (l - 6) 0

theorem fitsN {dim : Nat → Nat} {e : SiteEnv K} {a : Tensor K} (h : Rdm.Spec.Fits1 dim e a) (p : Nat) : FitsN (dimN p dim) e := by
  obtain ⟨hC1, hT1, hT4, hC2, hT2, hC3, hT3, hC4, ha, ha0, ha1, ha2, ha3, ha4⟩ := h
  constructor <;> simp [dimN, *]

/-- The network of `rdm1x1_kagome` with the tensor `a` is that of `_old_rdm1x1_kagome` with another tensor. -/
theorem new_same {dim : Nat → Nat} {e : SiteEnv K} {a b : Tensor K} (h : Rdm.Spec.Fits1 dim e a) {p : Nat} (p0 : dim 4 = p ^ 3) (sb : b.shape = a.shape)
    (hb : ∀ s u l d r, s < p ^ 3 → u < dim 2 → l < dim 3 → d < dim 15 → r < dim 10 → b.val [s, u, l, d, r] = (Spec.scrambled a).val [s, u, l, d, r])
    {os : List Nat} (hos : os ∈ subsets) (hne : os ≠ []) :
    ∃ R a0 X R', net1x1 e p a os = some R ∧ doubleLayer p b os = some a0 ∧ dl1x1 e a0 = some X ∧ view (List.replicate (2 * os.length) p) X = some R' ∧ Same R R' := by
  have hN := fitsN h p
  obtain ⟨hC1, hT1, hT4, hC2, hT2, hC3, hT3, hC4, ha, ha0, ha1, ha2, ha3, ha4⟩ := h
  have sa : a.shape = [p ^ 3, dimN p dim 6, dimN p dim 7, dimN p dim 8, dimN p dim 9] := by rw [ha, p0]; rfl
  have hp : ∀ l < 6, dimN p dim l = p := fun l hl => by simp [dimN, hl]
  obtain ⟨R, e1, q1⟩ := newN_denotes (dimN p dim) e hN p a os hos hne hp sa ha1 ha2 ha3 ha4
  obtain ⟨a0, X, R', e2, e3, e4, q2⟩ := oldN_denotes (dimN p dim) e hN p b os hos hne hp (sb.trans sa) ha1 ha2 ha3 ha4
  refine ⟨R, a0, X, R', e1, e2, e3, e4, q1.same_bounded q2 ?_ (List.Perm.refl _) (fun σ hσ => ?_)⟩
  · simp only [subsets, List.mem_cons, List.not_mem_nil, or_false] at hos
    rcases hos with rfl | rfl | rfl | rfl | rfl | rfl | rfl | rfl <;> decide
  have h' : ∀ l ∈ (singles (os ++ os.map (3 + ·))).flatten ++ innerN os, σ l < dimN p dim l := hσ
  rw [singles_flatten] at h'
  have hbra : ∀ l ∈ [0, 1, 2] ++ braL os, σ l < p := by
    intro l hl
    have : l < 6 ∧ l ∈ (os ++ os.map (3 + ·)) ++ innerN os := by
      simp only [subsets, List.mem_cons, List.not_mem_nil, or_false] at hos
      rcases hos with rfl | rfl | rfl | rfl | rfl | rfl | rfl | rfl <;> revert l <;> decide
    have h2 := h' l this.2
    rwa [hp l this.1] at h2
  have hin : ∀ l ∈ [6, 7, 8, 9, 10, 11, 12, 13], σ l < dimN p dim l := by
    intro l hl
    refine h' l (List.mem_append_right _ (List.mem_append_left _ ?_))
    revert l; decide
  simp only [List.forall_mem_cons, List.not_mem_nil, false_imp_iff, implies_true, and_true] at hin
  obtain ⟨i6, i7, i8, i9, i10, i11, i12, i13⟩ := hin
  have g3 : ∀ g : List Nat, g.length = 3 → (∀ l ∈ g, l < 6 ∧ σ l < p) → gidx (dimN p dim) σ g < p ^ 3 := by
    intro g hg h6
    have h1 := gidx_lt (dimN p dim) σ g (fun l hl => by rw [hp l (h6 l hl).1]; exact (h6 l hl).2)
    have h2 : gdim (dimN p dim) g = p ^ 3 := by
      unfold gdim
      rw [List.map_congr_left (g := fun _ => p) (fun l hl => hp l (h6 l hl).1)]
      rw [List.map_const', List.prod_replicate, hg]
    rwa [h2] at h1
  have hbl : ∀ l ∈ [0, 1, 2] ++ braL os, l < 6 := by
    simp only [subsets, List.mem_cons, List.not_mem_nil, or_false] at hos
    rcases hos with rfl | rfl | rfl | rfl | rfl | rfl | rfl | rfl <;> decide
  simp only [bodyN]
  rw [hb _ _ _ _ _ (g3 [0, 1, 2] rfl fun l hl => ⟨hbl l (List.mem_append_left _ hl), hbra l (List.mem_append_left _ hl)⟩) i6 i7 i8 i9,
    hb _ _ _ _ _ (g3 (braL os) (by simp [braL]) fun l hl => ⟨hbl l (List.mem_append_right _ hl), hbra l (List.mem_append_right _ hl)⟩)
      (lt_of_lt_of_eq i10 ha1) (lt_of_lt_of_eq i11 ha2) (lt_of_lt_of_eq i12 ha3) (lt_of_lt_of_eq i13 ha4)]

/-- Every site tensor replaced by the scrambled one. -/
def Spec.scrambledState (st : State K) : State K := { st with sites := fun c => (st.sites c).map Spec.scrambled }

theorem scrambled_tiling {st : State K} (ht : Tiling st) : Tiling (Spec.scrambledState st) := ⟨ht.shift, ht.mem, ht.fix, ht.nodup⟩

theorem scrambled_fits {D : Dims} {st : State K} (hs : FitsState D st) : FitsState D (Spec.scrambledState st) := by
  refine ⟨fun c => ?_, hs.p, hs.U, hs.L⟩
  obtain ⟨t, h1, h2⟩ := hs.site c
  refine ⟨Spec.scrambled t, ?_, h2⟩
  show (st.sites (st.vts c)).map _ = _
  rw [show st.sites (st.vts c) = some t from h1]; rfl

theorem scrambled_env {D : Dims} {st : State K} {env : Env K} (he : FitsEnv D st env) : FitsEnv D (Spec.scrambledState st) env :=
  ⟨he.lu, he.ru, he.rd, he.ld, he.tu, he.tl, he.td, he.tr, he.eu, he.el, he.ed, he.er⟩

theorem letters_ne {keep : List Char} (hk : Spec.Keep keep) (hne : keep ≠ []) : Spec.letters keep ≠ [] := by
  have key : ∀ keep ∈ ['A', 'B', 'C'].sublists.flatMap List.permutations', keep ≠ [] → Spec.letters keep ≠ [] := by decide +kernel
  exact key keep (keep_cases hk) hne

/-- `rdm1x1_kagome` returns what `_old_rdm1x1_kagome` returns for a state whose tensors have the entries `b`. -/
theorem new_eq_old (eigh : Tensor K → List ℝ × Tensor K) (spd : Bool) {D : Dims} {st st' : State K} {env : Env K} (ht : Tiling st) (hs : FitsState D st) (he : FitsEnv D st env)
    (ht' : Tiling st') (hs' : FitsState D st') (hv : st'.vts = st.vts) {p : Nat} (hp : ∀ c, D.p c = p ^ 3) (c : Coord)
    (hb : ∀ a b, st.site c = some a → st'.site c = some b → ∀ s u l d r, s < p ^ 3 → u < D.U c → l < D.L c → d < D.U (dn c) → r < D.L (rt c) →
      b.val [s, u, l, d, r] = (Spec.scrambled a).val [s, u, l, d, r])
    (keep : List Char) (hk : Spec.Keep keep) (hne : keep ≠ []) : new1x1 eigh spd st env c keep = old1x1 eigh spd st' env c keep := by
  obtain ⟨ha, hsub⟩ := abc012_ok hk
  obtain ⟨e, a, h1, h2, h0, h3⟩ := siteEnv_ok hs he c
  obtain ⟨b, h4, h5⟩ := hs'.site c
  obtain ⟨R, a0, X, R', e1, e2, e3, e4, hS⟩ := new_same h3 (p := p) (hp _) (b := b) (h5.trans h3.a.symm) (hb a b h2 h4) hsub (letters_ne hk hne)
  have r1 : rawNew1x1 st env c (Spec.letters keep) = some R := by
    simp only [rawNew1x1, h1, h2, physDim_ok ht hs hp, Option.bind_eq_bind, Option.bind_some, e1]
  have r2 : rawOld1x1 st' env c (Spec.letters keep) = some R' := by
    simp only [rawOld1x1, hv, h1, h4, physDim_ok ht' hs' hp, e2, e3, e4, Option.bind_eq_bind, Option.bind_some]
  unfold new1x1 old1x1
  rw [ha]
  show (lift (rawNew1x1 st env c _) >>= _) = (lift (rawOld1x1 st' env c _) >>= _)
  rw [r1, r2]
  exact symRdm_same eigh spd hS

/-- What `rdm1x1_kagome` returns: the density matrix of the kept spins for the state with scrambled site tensors in the environment of the given state. -/
theorem C114_new (eigh : Tensor K → List ℝ × Tensor K) {D : Dims} {st : State K} {env : Env K} (ht : Tiling st) (hs : FitsState D st) (he : FitsEnv D st env)
    {p : Nat} (hp : ∀ c, D.p c = p ^ 3) (c : Coord) (keep : List Char) (hk : Spec.Keep keep) (hne : keep ≠ []) {R : Tensor K}
    (hR : rdm1x1 eigh true false (Spec.scrambledState st) env c none = .ok R) :
    ∃ R', new1x1 eigh false st env c keep = .ok R' ∧ Spec.IsMarginal p 1 R R' (Spec.letters keep) := by
  rw [new_eq_old eigh false ht hs he (scrambled_tiling ht) (scrambled_fits hs) rfl hp c ?_ keep hk hne]
  · exact C114_old eigh (scrambled_tiling ht) (scrambled_fits hs) (scrambled_env he) hp c keep hk hne true (.inl rfl) hR
  · intro a b h1 h2 s u l d r _ _ _ _ _
    have h3 : (st.sites (st.vts c)).map Spec.scrambled = some b := h2
    rw [show st.sites (st.vts c) = some a from h1] at h3
    obtain rfl : Spec.scrambled a = b := Option.some.inj h3
    rfl

/-- If all bonds of the site tensor have size one, `rdm1x1_kagome` is the partial trace of `rdm1x1`. Missing: larger bonds, where it is refuted (`C114_violated`). -/
theorem C114_new_partial (eigh : Tensor K → List ℝ × Tensor K) {D : Dims} {st : State K} {env : Env K} (ht : Tiling st) (hs : FitsState D st) (he : FitsEnv D st env)
    {p : Nat} (hp : ∀ c, D.p c = p ^ 3) (c : Coord) (h1 : D.U c = 1 ∧ D.L c = 1 ∧ D.U (dn c) = 1 ∧ D.L (rt c) = 1) (keep : List Char) (hk : Spec.Keep keep) (hne : keep ≠ [])
    (sl : Bool) (hsl : sl = true ∨ c ∈ st.keys) {R : Tensor K} (hR : rdm1x1 eigh sl false st env c none = .ok R) :
    ∃ R', new1x1 eigh false st env c keep = .ok R' ∧ Spec.IsMarginal p 1 R R' (Spec.letters keep) := by
  rw [new_eq_old eigh false ht hs he ht hs rfl hp c ?_ keep hk hne]
  · exact C114_old eigh ht hs he hp c keep hk hne sl hsl hR
  · intro a b e1 e2 s u l d r _ hu hl hd hr
    obtain rfl : a = b := by rw [e1] at e2; exact Option.some.inj e2
    obtain ⟨t, e3, sh⟩ := hs.site c
    obtain rfl : a = t := by rw [e1] at e3; exact Option.some.inj e3
    obtain ⟨u1, l1, d1, r1⟩ := h1
    rw [u1] at hu; rw [l1] at hl; rw [d1] at hd; rw [r1] at hr
    obtain rfl : u = 0 := by omega
    obtain rfl : l = 0 := by omega
    obtain rfl : d = 0 := by omega
    obtain rfl : r = 0 := by omega
    simp [Spec.scrambled, sh, u1, l1, d1, r1, ravel, unravel, Nat.mod_one]

end Verif.KagomeRdm
