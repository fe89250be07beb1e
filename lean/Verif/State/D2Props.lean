import Verif.State.D2Spec
import Verif.State.IOProps
import Verif.State.BondProps
/-
C141, C142: states of coupled ladders.
-/
namespace Verif.D2
open Verif.State
open Verif.Lattice (Vertex)
variable {R : Type}

theorem build_some {A : CTensor R} {l : List (Vertex × CTensor R)} (h : build A = some l) :
    ∃ B, l = [((0, 0), A), ((0, 1), B)] ∧ Spec.FlipUD A B := by
  unfold build at h
  rw [Option.bind_eq_bind, Option.bind_eq_some_iff] at h
  obtain ⟨t, ht, h⟩ := h
  unfold Tensor.permute at ht
  split at ht
  · rename_i hc
    have h5 : A.t.shape.length = 5 := hc.1.symm
    obtain ⟨p, u, l', d, r, hs⟩ : ∃ p u l d r, A.t.shape = [p, u, l, d, r] := by
      match hA : A.t.shape, h5 with
      | [p, u, l, d, r], _ => exact ⟨p, u, l, d, r, rfl⟩
    simp only [Option.some.injEq] at ht h
    refine ⟨_, h.symm, rfl, p, u, l', d, r, hs, ?_, ?_⟩
    · rw [← ht]; simp [hs]
    · intro s i j k o
      rw [← ht]
      simp [hs, List.range_succ, List.idxOf, List.findIdx, List.findIdx.go]
  · cases ht

theorem mk_of_build {A : CTensor R} {l : List (Vertex × CTensor R)} (h : build A = some l) : mk A = some ⟨A, ⟨1, 2, l, Lattice.defaultVertexToSite 1 2⟩⟩ := by
  obtain ⟨B, rfl, -⟩ := build_some h
  unfold mk
  rw [h]
  rfl

theorem mk_some {A : CTensor R} {st : DState R} (h : mk A = some st) :
    st.parent = A ∧ build A = some st.base.sites ∧ st.base.lX = 1 ∧ st.base.lY = 2 ∧ st.base.vts = Lattice.defaultVertexToSite 1 2 := by
  have hb : ∃ l, build A = some l := by
    unfold mk at h
    rw [Option.bind_eq_bind, Option.bind_eq_some_iff] at h
    obtain ⟨l, hl, -⟩ := h
    exact ⟨l, hl⟩
  obtain ⟨l, hl⟩ := hb
  rw [mk_of_build hl] at h
  cases h
  exact ⟨rfl, hl, rfl, rfl, rfl⟩

theorem consistent [Field R] {F : NumFmt R} {st : DState R} (h : Spec.Reachable F st) : mk st.parent = some st := by
  have load_ok : ∀ {A : CTensor R} {l st}, mk (R := R) st.parent = some st → build A = some l → mk A = some ⟨A, { st.base with sites := l }⟩ := by
    intro A l st hm hb
    obtain ⟨-, -, h1, h2, h3⟩ := mk_some hm
    rw [mk_of_build hb]
    simp only [h1, h2, h3]
  induction h with
  | new h =>
    have := (mk_some h).1
    rw [this]; exact h
  | load _ h ih =>
    unfold load at h
    rw [Option.bind_eq_bind, Option.bind_eq_some_iff] at h
    obtain ⟨l, hl, h⟩ := h
    simp only [Option.some.injEq] at h
    subst h
    exact load_ok ih hl
  | noise _ h ih =>
    unfold addNoise at h
    rw [Option.bind_eq_bind, Option.bind_eq_some_iff] at h
    obtain ⟨t, -, h⟩ := h
    rw [Option.bind_eq_bind, Option.bind_eq_some_iff] at h
    obtain ⟨l, hl, h⟩ := h
    simp only [Option.some.injEq] at h
    subst h
    exact load_ok ih hl
  | extend _ h _ =>
    unfold extend at h
    rw [Option.bind_eq_bind, Option.bind_eq_some_iff] at h
    obtain ⟨t, -, h⟩ := h
    have := (mk_some h).1
    rw [this]; exact h
  | file h =>
    unfold read at h
    rw [Option.bind_eq_bind, Option.bind_eq_some_iff] at h
    obtain ⟨s, -, h⟩ := h
    split at h
    · rw [Option.bind_eq_bind, Option.bind_eq_some_iff] at h
      obtain ⟨X, -, h⟩ := h
      have := (mk_some h).1
      rw [this]; exact h
    · cases h

theorem siteAt_mod {A : CTensor R} {st : DState R} (h : mk A = some st) (x y : Int) : siteAt st.base (x, y) = dictFind st.base.sites (0, y % 2) := by
  obtain ⟨-, -, -, -, hv⟩ := mk_some h
  have := (Lattice.C01_default_tiling 1 2 (by decide) (by decide)).1 (x, y)
  unfold siteAt
  rw [hv, this]
  simp [Lattice.Spec.reduce, Int.emod_one]

/-- **C141**: after every history of constructions, restorations, noise, growth and reading, rows with even `y` carry the parent tensor and rows with odd `y` the parent with up and down
exchanged, for all vertices of the plane. -/
theorem C141_tiling [Field R] {F : NumFmt R} {st : DState R} (h : Spec.Reachable F st) : ∃ B, Spec.FlipUD st.parent B ∧
    ∀ x y : Int, siteAt st.base (x, 2 * y) = some st.parent ∧ siteAt st.base (x, 2 * y + 1) = some B := by
  have hm := consistent h
  obtain ⟨-, hb, -⟩ := mk_some hm
  obtain ⟨B, hl, hf⟩ := build_some hb
  refine ⟨B, hf, fun x y => ⟨?_, ?_⟩⟩
  · rw [siteAt_mod hm, hl]
    have : (2 * y) % 2 = 0 := by omega
    rw [this]; rfl
  · rw [siteAt_mod hm, hl]
    have : (2 * y + 1) % 2 = 1 := by omega
    rw [this]; rfl

/-- **C141**, mirror symmetry: exchanging up and down in the tensor of every vertex is the reflection of the plane in the rungs (`y` to `1-y`),
and also the one between ladders (`y` to `-1-y`). -/
theorem C141_reflection [Field R] {F : NumFmt R} {st : DState R} (h : Spec.Reachable F st) (x y : Int) :
    ∃ A B, siteAt st.base (x, y) = some A ∧ siteAt st.base (x, 1 - y) = some B ∧ siteAt st.base (x, -1 - y) = some B ∧ Spec.FlipUD A B := by
  obtain ⟨B, hf, ht⟩ := C141_tiling h
  have hsym : Spec.FlipUD B st.parent := by
    obtain ⟨hc, p, u, l, d, r, h1, h2, h3⟩ := hf
    exact ⟨hc.symm, p, d, l, u, r, h2, h1, fun s i j k o => (h3 s k j i o).symm⟩
  rcases Int.even_or_odd' y with ⟨k, e | e⟩
  · refine ⟨st.parent, B, by rw [e]; exact (ht x k).1, ?_, ?_, hf⟩
    · have : 1 - y = 2 * (-k) + 1 := by omega
      rw [this]; exact (ht x _).2
    · have : -1 - y = 2 * (-k - 1) + 1 := by omega
      rw [this]; exact (ht x _).2
  · refine ⟨B, st.parent, by rw [e]; exact (ht x k).2, ?_, ?_, hsym⟩
    · have : 1 - y = 2 * (-k) := by omega
      rw [this]; exact (ht x _).1
    · have : -1 - y = 2 * (-k - 1) := by omega
      rw [this]; exact (ht x _).1

theorem permLR {A : Tensor (R × R)} {p u l d r : Nat} (hs : A.shape = [p, u, l, d, r]) : ∃ B, A.permute [0, 1, 4, 3, 2] = some B ∧ B.shape = [p, u, r, d, l] ∧
    ∀ s i j k o, B.val [s, i, j, k, o] = A.val [s, i, o, k, j] := by
  refine ⟨_, by unfold Tensor.permute; rw [if_pos (by rw [hs]; simp)], by simp [hs], fun s i j k o => ?_⟩
  simp [hs, List.range_succ, List.idxOf, List.findIdx, List.findIdx.go]

/-- **C141**, noise: whatever is drawn, the new tensor is symmetric under exchange of left and right, and its symmetric part is the symmetric part of the sum of the old tensor and the noise,
up to the common factor. -/
theorem C141_noise [Field R] {c : Bool} {rand : List Nat → R × R} {μ : CTensor R → R} {st st' : DState R} (h : addNoise c rand μ st = some st') :
    Spec.LeftRight st'.parent ∧ ∃ f : R, ∀ s i j k o, (st'.parent.t.val [s, i, j, k, o]).1 =
      f * ((1 / 2) * (((st.parent.t.val [s, i, j, k, o]).1 + (rand [s, i, j, k, o]).1) + ((st.parent.t.val [s, i, o, k, j]).1 + (rand [s, i, o, k, j]).1))) := by
  unfold addNoise at h
  rw [Option.bind_eq_bind, Option.bind_eq_some_iff] at h
  obtain ⟨t, ht, h⟩ := h
  rw [Option.bind_eq_bind, Option.bind_eq_some_iff] at h
  obtain ⟨l, hl, h⟩ := h
  simp only [Option.some.injEq] at h
  subst h
  obtain ⟨B, -, -, p, u, l', d, r, hs, -⟩ := build_some hl
  have hts : t.t.shape = [p, u, l', d, r] := hs
  unfold d2Symm at ht
  rw [Option.bind_eq_bind, Option.bind_eq_some_iff] at ht
  obtain ⟨Q, hQ, ht⟩ := ht
  split at ht
  · rename_i hsh
    simp only [Option.some.injEq] at ht
    subst ht
    change (perturb c rand st.parent).t.shape = [p, u, l', d, r] at hts
    obtain ⟨Q', hQ', hs', hv⟩ := permLR hts
    rw [hQ] at hQ'
    cases hQ'
    have hlr : r = l' := by
      rw [hts, hs'] at hsh
      simp only [List.cons.injEq] at hsh
      exact hsh.2.2.1.symm
    subst hlr
    refine ⟨⟨p, u, r, d, hts, fun s i j k o _ _ _ _ _ => ?_⟩, ?_⟩
    · simp only [rescale, hv]
      rw [add_comm ((perturb c rand st.parent).t.val [s, i, j, k, o]).1, add_comm ((perturb c rand st.parent).t.val [s, i, j, k, o]).2]
    · refine ⟨μ ⟨(perturb c rand st.parent).cplx, ⟨(perturb c rand st.parent).t.shape, fun idx =>
        ((1 / 2) * (((perturb c rand st.parent).t.val idx).1 + (Q.val idx).1), (1 / 2) * (((perturb c rand st.parent).t.val idx).2 + (Q.val idx).2))⟩⟩, fun s i j k o => ?_⟩
      simp only [rescale, hv]
      rfl
  · cases ht

theorem extendSite_some {d : Nat} {X Y : Tensor (R × R)} [Zero R] (h : extendSite d X = some Y) :
    ∃ p a b c e, X.shape = [p, a, b, c, e] ∧ a ≤ d ∧ b ≤ d ∧ c ≤ d ∧ e ≤ d ∧ Y.shape = [p, d, d, d, d] ∧ ∀ idx, Y.val idx = if Tensor.InB X.shape idx then X.val idx else 0 := by
  unfold extendSite at h
  split at h
  · rename_i p a b c e hs
    split at h
    · rename_i hle
      simp only [Option.some.injEq] at h
      subst h
      exact ⟨p, a, b, c, e, hs, hle.1, hle.2.1, hle.2.2.1, hle.2.2.2, rfl, fun _ => rfl⟩
    · cases h
  · cases h

/-- **C141**, growth: the call succeeds exactly if no bond is larger than the new size; old entries are kept, new ones are zero, and exchange of left and right remains a symmetry. -/
theorem C141_extend [Field R] {F : NumFmt R} {st : DState R} (hr : Spec.Reachable F st) (d : Nat) :
    ((∃ st', extend d st = some st') ↔ ∀ a ∈ auxDims st, a ≤ d) ∧
    ∀ st', extend d st = some st' → st'.parent.cplx = st.parent.cplx ∧ (∃ p, st'.parent.t.shape = [p, d, d, d, d]) ∧
      (∀ idx, Tensor.InB st.parent.t.shape idx → st'.parent.t.val idx = st.parent.t.val idx) ∧
      (∀ idx, ¬ Tensor.InB st.parent.t.shape idx → st'.parent.t.val idx = 0) ∧ (Spec.LeftRight st.parent → Spec.LeftRight st'.parent) := by
  obtain ⟨-, hb, -⟩ := mk_some (consistent hr)
  obtain ⟨B, -, -, p, u, l, e, r, hs, -⟩ := build_some hb
  refine ⟨⟨?_, ?_⟩, ?_⟩
  · rintro ⟨st', h⟩
    unfold extend at h
    rw [Option.bind_eq_bind, Option.bind_eq_some_iff] at h
    obtain ⟨t, ht, h⟩ := h
    obtain ⟨p', a, b, c, e', hs', h1, h2, h3, h4, -⟩ := extendSite_some ht
    simp only [auxDims, hs', List.tail_cons, List.mem_cons, List.not_mem_nil, or_false]
    rintro x (rfl | rfl | rfl | rfl) <;> assumption
  · intro hd
    simp only [auxDims, hs, List.tail_cons, List.mem_cons, List.not_mem_nil, or_false] at hd
    have ht : extendSite d st.parent.t = some ⟨[p, d, d, d, d], fun idx => if Tensor.InB st.parent.t.shape idx then st.parent.t.val idx else 0⟩ := by
      unfold extendSite
      split
      · rename_i p' a b c e' hs'
        rw [hs] at hs'
        simp only [List.cons.injEq, and_true] at hs'
        obtain ⟨rfl, rfl, rfl, rfl, rfl⟩ := hs'
        rw [if_pos ⟨hd _ (Or.inl rfl), hd _ (Or.inr (Or.inl rfl)), hd _ (Or.inr (Or.inr (Or.inl rfl))), hd _ (Or.inr (Or.inr (Or.inr rfl)))⟩]
      · rename_i hne
        exact absurd hs (hne _ _ _ _ _)
    unfold extend
    rw [ht]
    have hbb : ∃ l, build (⟨st.parent.cplx, ⟨[p, d, d, d, d], fun idx => if Tensor.InB st.parent.t.shape idx then st.parent.t.val idx else 0⟩⟩ : CTensor R) = some l := by
      unfold build Tensor.permute
      rw [if_pos (by simp)]
      exact ⟨_, rfl⟩
    obtain ⟨l, hl⟩ := hbb
    exact ⟨_, mk_of_build hl⟩
  · intro st' h
    unfold extend at h
    rw [Option.bind_eq_bind, Option.bind_eq_some_iff] at h
    obtain ⟨t, ht, h⟩ := h
    obtain ⟨p', a, b, c, e', hs', h1, h2, h3, h4, hs2, hv⟩ := extendSite_some ht
    rw [(mk_some h).1]
    refine ⟨rfl, ⟨p', hs2⟩, fun idx hi => by rw [hv, if_pos hi], fun idx hi => by rw [hv, if_neg hi], ?_⟩
    rintro ⟨p1, u1, l1, d1, hs1, hval⟩
    refine ⟨p', d, d, d, hs2, fun s i j k o _ _ _ _ _ => ?_⟩
    simp only [hv]
    have inb : ∀ s i j k o, Tensor.InB st.parent.t.shape [s, i, j, k, o] ↔ s < p1 ∧ i < u1 ∧ j < l1 ∧ k < d1 ∧ o < l1 := by
      intro s i j k o
      rw [hs1]
      simp [Tensor.InB, List.forall₂_cons]
    by_cases hi : Tensor.InB st.parent.t.shape [s, i, j, k, o]
    · have hi' := (inb _ _ _ _ _).1 hi
      rw [if_pos hi, if_pos ((inb _ _ _ _ _).2 ⟨hi'.1, hi'.2.1, hi'.2.2.2.2, hi'.2.2.2.1, hi'.2.2.1⟩), hval s i j k o hi'.1 hi'.2.1 hi'.2.2.1 hi'.2.2.2.1 hi'.2.2.2.2]
    · rw [if_neg hi, if_neg]
      intro hi2
      have := (inb _ _ _ _ _).1 hi2
      exact hi ((inb _ _ _ _ _).2 ⟨this.1, this.2.1, this.2.2.2.2, this.2.2.2.1, this.2.2.1⟩)

/-- **C141**, checkpoints: restoring the checkpoint of any state into any other gives that state. -/
theorem C141_checkpoint [Field R] {F : NumFmt R} {st st0 : DState R} (h : Spec.Reachable F st) (h0 : Spec.Reachable F st0) : load (getCheckpoint st) st0 = some st := by
  obtain ⟨-, hb, h1, h2, h3⟩ := mk_some (consistent h)
  obtain ⟨-, -, k1, k2, k3⟩ := mk_some (consistent h0)
  unfold load getCheckpoint
  rw [hb]
  obtain ⟨par, ⟨lx, ly, ss, vt⟩⟩ := st
  simp only at h1 h2 h3
  subst h1 h2 h3
  simp [k1, k2, k3]

end Verif.D2
