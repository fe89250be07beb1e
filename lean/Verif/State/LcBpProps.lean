import Verif.State.LcBpSpec
import Verif.State.LcProps
import Mathlib.Tactic.FinCases
/- Theorems about bipartite states with matrices on the bonds (C134). -/
namespace Verif.LcBp
open Verif.State Verif.Lc
open Verif.Lattice (Vertex)
variable {R : Type}

theorem build_inv [CommRing R] {irreps : List Str} {es eb : List (Elem R)} {cs cb : CTensor R} {sites : List (Vertex × CTensor R)}
    (h : buildSites irreps es eb cs cb = some sites) : ∃ ts tb A b B, stackElems irreps es = some ts ∧ stack (eb.map (·.t)) = some tb ∧ combine cs ts = some A ∧
      combineBond (promote ts.cplx cb) tb = some b ∧ dress b A = some B ∧ sites = [((0, 0), A), ((1, 0), B)] := by
  unfold buildSites at h
  simp only [Option.bind_eq_bind, Option.bind_eq_some_iff, Option.some.injEq] at h
  obtain ⟨ts, h1, tb, h2, A, h3, b, h4, B, h5, rfl⟩ := h
  exact ⟨ts, tb, A, b, B, h1, h2, h3, h4, h5, rfl⟩

theorem build_intro [CommRing R] {irreps : List Str} {es eb : List (Elem R)} {cs cb ts tb A b B : CTensor R}
    (h1 : stackElems irreps es = some ts) (h2 : stack (eb.map (·.t)) = some tb) (h3 : combine cs ts = some A)
    (h4 : combineBond (promote ts.cplx cb) tb = some b) (h5 : dress b A = some B) :
    buildSites irreps es eb cs cb = some [((0, 0), A), ((1, 0), B)] := by
  unfold buildSites
  simp only [h1, h2, h3, h4, h5, Option.bind_eq_bind, Option.bind_some]

theorem geometry (f : Vertex → Option Vertex) : Lattice.mkGeometry [(0, 0), (1, 0)] (some f) ([] : List (List Nat)) none none = .ok ⟨2, 1, f⟩ := rfl

theorem mk_inv [CommRing R] {es eb : List (Elem R)} {cs cb : CTensor R} {st : BState R} (h : mk es eb cs cb = some st) :
    st.site = es ∧ st.bond = eb ∧ st.cSite = cs ∧ st.cBond = cb ∧ Spec.Consistent st := by
  unfold mk at h
  simp only [Option.bind_eq_bind, Option.bind_eq_some_iff] at h
  obtain ⟨irreps, h1, sites, h2, h⟩ := h
  obtain ⟨ts, tb, A, b, B, _, _, _, _, _, rfl⟩ := build_inv h2
  have hm : ([((0, 0), A), ((1, 0), B)] : List (Vertex × CTensor R)).map (·.1) = [(0, 0), (1, 0)] := rfl
  rw [hm, geometry] at h
  simp only [Option.some.injEq] at h
  subst h
  exact ⟨rfl, rfl, rfl, rfl, h1, h2, fun _ => rfl, rfl, rfl⟩

theorem mk_intro [CommRing R] {st : BState R} (h : Spec.Consistent st) : mk st.site st.bond st.cSite st.cBond = some st := by
  obtain ⟨h1, h2, h3, h4, h5⟩ := h
  obtain ⟨irreps, es, eb, cs, cb, sites, lX, lY, vts⟩ := st
  simp only at h1 h2 h3 h4 h5
  obtain ⟨ts, tb, A, b, B, _, _, _, _, _, hs⟩ := build_inv h2
  have hm : sites.map (·.1) = [(0, 0), (1, 0)] := by rw [hs]; rfl
  unfold mk
  simp only [h1, h2, hm, geometry, Option.bind_eq_bind, Option.bind_some]
  have : vts = fun v => some (latticeToSite v) := funext h3
  rw [this, h4, h5]

/-- C134. The tiling is bipartite: for all integer coordinates, a vertex carries the first tensor if the sum of its coordinates is even and the second tensor if it is odd. -/
theorem C134_tiling [CommRing R] (st : BState R) (hst : Spec.Consistent st) : ∃ A B, st.sites = [((0, 0), A), ((1, 0), B)] ∧
    ∀ x y : Int, (Even (x + y) → siteAt st (x, y) = some A) ∧ (Odd (x + y) → siteAt st (x, y) = some B) := by
  obtain ⟨ts, tb, A, b, B, _, _, _, _, _, hs⟩ := build_inv hst.sites
  refine ⟨A, B, hs, ?_⟩
  intro x y
  have hx : |x| = x ∨ |x| = -x := abs_choice x
  have hy : |y| = y ∨ |y| = -y := abs_choice y
  constructor
  · intro h
    have h' : latticeToSite (x, y) = (0, 0) := by
      unfold latticeToSite
      simp only [Prod.mk.injEq, and_true]
      rw [Int.even_iff] at h
      rcases hx with hx | hx <;> rcases hy with hy | hy <;> rw [hx, hy] <;> omega
    unfold siteAt
    rw [hst.tiling, h', hs]
    simp
  · intro h
    have h' : latticeToSite (x, y) = (1, 0) := by
      unfold latticeToSite
      simp only [Prod.mk.injEq, and_true]
      rw [Int.odd_iff] at h
      rcases hx with hx | hx <;> rcases hy with hy | hy <;> rw [hx, hy] <;> omega
    unfold siteAt
    rw [hst.tiling, h', hs]
    simp

theorem dress_inv [CommRing R] {b A B : CTensor R} (h : dress b A = some B) : ∃ a e p, b.cplx = A.cplx ∧ B.cplx = A.cplx ∧ b.t.shape = [a, e] ∧ A.t.shape = [p, e, e, e, e] ∧
    B.t.shape = [p, a, a, a, a] ∧ ∀ s u l d r, B.t.val [s, u, l, d, r] =
      ∑ i ∈ Finset.range e, ∑ j ∈ Finset.range e, ∑ k ∈ Finset.range e, ∑ o ∈ Finset.range e,
        cmul (cmul (cmul (b.t.val [u, i]) (b.t.val [l, j])) (cmul (b.t.val [d, k]) (b.t.val [r, o]))) (A.t.val [s, i, j, k, o]) := by
  unfold dress at h
  split at h
  · simp at h
  · rename_i hd
    split at h
    · rename_i a e p m n x y hb hA
      split at h
      · rename_i hc
        obtain ⟨rfl, rfl, rfl, rfl⟩ := hc
        simp only [Option.some.injEq] at h
        subst h
        exact ⟨a, _, p, by simpa using hd, rfl, hb, hA, rfl, fun _ _ _ _ _ => rfl⟩
      · simp at h
    · simp at h

theorem bond_inv [CommRing R] {c tb b : CTensor R} {n l r : Nat} (hc : c.t.shape = [n]) (ht : tb.t.shape = [n, l, r]) (h : combineBond c tb = some b) :
    c.cplx = tb.cplx ∧ b.cplx = tb.cplx ∧ b.t.shape = [l, r] ∧ ∀ idx, b.t.val idx = ∑ k ∈ Finset.range n, cmul (c.t.val [k]) (tb.t.val (k :: idx)) := by
  unfold combineBond at h
  split at h
  · simp at h
  · rename_i hd
    rw [hc, ht] at h
    simp only [Pg.bcastDim, if_true, Option.bind_eq_bind, Option.bind_some, Option.some.injEq] at h
    subst h
    refine ⟨by simpa using hd, rfl, rfl, ?_⟩
    intro idx
    show (∑ k ∈ Finset.range n, cmul (c.t.val [if n = 1 then 0 else k]) (tb.t.val ((if n = 1 then 0 else k) :: idx))) = _
    apply Finset.sum_congr rfl
    intro k hk
    rw [Finset.mem_range] at hk
    have : (if n = 1 then 0 else k) = k := by split <;> omega
    rw [this]

theorem z_cmul (a b : ℝ × ℝ) : Spec.z (cmul a b) = Spec.z a * Spec.z b := by
  apply Complex.ext <;> simp [Spec.z, cmul]

theorem z_sum {ι : Type} (s : Finset ι) (f : ι → ℝ × ℝ) : Spec.z (∑ i ∈ s, f i) = ∑ i ∈ s, Spec.z (f i) := by
  apply Complex.ext <;> simp [Spec.z, Prod.fst_sum, Prod.snd_sum]

/-- Four nested sums are one sum over assignments of the four directions. -/
theorem sum4 {M : Type} [AddCommMonoid M] (D : Nat) (F : Nat → Nat → Nat → Nat → M) :
    (∑ i ∈ Finset.range D, ∑ j ∈ Finset.range D, ∑ k ∈ Finset.range D, ∑ o ∈ Finset.range D, F i j k o) =
      ∑ h : Fin 4 → Fin D, F (h 0) (h 1) (h 2) (h 3) := by
  simp only [Finset.sum_range]
  rw [← Fintype.sum_prod_type', ← Fintype.sum_prod_type', ← Fintype.sum_prod_type']
  symm
  refine Fintype.sum_bijective (fun h : Fin 4 → Fin D => (((h 0, h 1), h 2), h 3)) ⟨?_, ?_⟩ _ _ (fun h => rfl)
  · intro h h' e
    simp only [Prod.mk.injEq] at e
    funext i
    fin_cases i
    · exact e.1.1.1
    · exact e.1.1.2
    · exact e.1.2
    · exact e.2
  · rintro ⟨⟨⟨a, b⟩, c⟩, d⟩
    exact ⟨![a, b, c, d], rfl⟩

theorem stack_bond [CommRing R] {eb : List (Elem R)} {tb : CTensor R} {a e : Nat} (hsh : ∀ x ∈ eb, x.t.t.shape = [a, e]) (h : stack (eb.map (·.t)) = some tb) :
    tb.t.shape = [eb.length, a, e] ∧ ∀ (k : Fin eb.length) idx, tb.t.val ((k : Nat) :: idx) = eb[k].t.t.val idx := by
  obtain ⟨⟨sh, h1, h2⟩, _, h3⟩ := stack_get h
  cases hb : eb with
  | nil => subst hb; simp [stack] at h
  | cons x xs =>
    have : sh = [a, e] := by rw [← h2 x.t (by simp [hb])]; exact hsh x (by simp [hb])
    rw [← hb]
    subst this
    refine ⟨by rw [h1, List.length_map], ?_⟩
    intro k idx
    rw [h3, List.getElem?_map, List.getElem?_eq_getElem k.isLt]
    rfl

/-- C134, partial: with the `A_1` tensors listed before the `A_2` tensors and as many coefficients as tensors, the first site tensor is the documented combination, and the
second is the first with the combination of the bond tensors attached to each of its four auxiliary indices, the second index of the matrix being the contracted one. -/
theorem C134_sites_partial (es1 es2 eb : List (Elem ℝ)) (h1 : ∀ e ∈ es1, e.pg = some ['A', '_', '1']) (h2 : ∀ e ∈ es2, e.pg = some ['A', '_', '2'])
    (p D a : Nat) (hs : ∀ e ∈ es1 ++ es2, e.t.t.shape = [p, D, D, D, D]) (hb : ∀ e ∈ eb, e.t.t.shape = [a, D])
    (cs cb : CTensor ℝ) (hcs : cs.t.shape = [(es1 ++ es2).length]) (hcb : cb.t.shape = [eb.length]) (st : BState ℝ) (h : mk (es1 ++ es2) eb cs cb = some st) :
    ∃ A B, st.sites = [((0, 0), A), ((1, 0), B)] ∧ A.t.shape = [p, D, D, D, D] ∧ B.t.shape = [p, a, a, a, a] ∧
      (∀ idx, A.t.val idx = Lc.Spec.combination (es1 ++ es2) (fun k => cs.t.val [k]) idx) ∧
      ∀ s (f : Fin 4 → Nat), Spec.z (B.t.val [s, f 0, f 1, f 2, f 3]) =
        Spec.dressed D (Spec.matrix eb (fun k => cb.t.val [k])) (fun idx => Spec.z (A.t.val idx)) s f := by
  obtain ⟨e1, e2, e3, e4, hc⟩ := mk_inv h
  have hsites := hc.sites
  have hir := hc.irreps
  rw [e1, e2, e3, e4] at hsites
  rw [e1] at hir
  obtain ⟨ts, tb, A, b, B, g1, g2, g3, g4, g5, hss⟩ := build_inv hsites
  have hlc : ∃ L, Lc.mk (es1 ++ es2) [((0, 0), cs)] = some L ∧ L.sites = [((0, 0), A)] := by
    unfold Lc.mk
    have hbs : Lc.buildSites st.irreps (es1 ++ es2) [((0, 0), cs)] = some [((0, 0), A)] := by
      unfold Lc.buildSites
      simp only [g1, Option.bind_eq_bind, Option.bind_some, List.mapM_cons, List.mapM_nil, g3, Option.pure_def]
    have hg : Lattice.mkGeometry [(0, 0)] none ([] : List (List Nat)) none none = .ok ⟨1, 1, Lattice.defaultVertexToSite 1 1⟩ := rfl
    simp only [hir, hbs, List.map_cons, List.map_nil, hg, Option.bind_eq_bind, Option.bind_some, Option.some.injEq, exists_eq_left']
  obtain ⟨L, hL, hLs⟩ := hlc
  have hcomb := Lc.C78_combination_partial es1 es2 h1 h2 [((0, 0), cs)] (by simpa using hcs) L hL
  rw [hLs] at hcomb
  cases hcomb with
  | cons hA _ =>
    obtain ⟨_, hA1, hA2⟩ := hA
    obtain ⟨a', e, p', d1, _, d2, d3, d4, d5⟩ := dress_inv g5
    obtain ⟨t1, t2⟩ := stack_bond hb g2
    obtain ⟨_, _, b3, b4⟩ := bond_inv (show (promote ts.cplx cb).t.shape = [eb.length] from hcb) t1 g4
    rw [d2] at b3
    simp only [List.cons.injEq, and_true] at b3
    obtain ⟨rfl, rfl⟩ := b3
    have hAs : A.t.shape = [p, e, e, e, e] := by
      cases hes : es1 ++ es2 with
      | nil => rw [hes] at g1 hir; simp [pgIrreps] at hir; rw [hir] at g1; simp [stackElems] at g1
      | cons x xs =>
        have hx : x ∈ es1 ++ es2 := by rw [hes]; simp
        rw [hA1 x hx, hs x hx]
    rw [hAs] at d3
    simp only [List.cons.injEq, and_true] at d3
    rw [← d3] at d4
    refine ⟨A, B, hss, hAs, d4, hA2, ?_⟩
    intro s f
    have hbz : ∀ i j, Spec.z (b.t.val [i, j]) = Spec.matrix eb (fun k => cb.t.val [k]) i j := by
      intro i j
      rw [b4, z_sum, Finset.sum_range]
      unfold Spec.matrix
      apply Finset.sum_congr rfl
      intro k _
      rw [z_cmul, t2]
      rfl
    rw [d5]
    simp only [z_sum, z_cmul, hbz]
    rw [sum4 e (fun i j k o => Spec.matrix eb (fun k => cb.t.val [k]) (f 0) i * Spec.matrix eb (fun k => cb.t.val [k]) (f 1) j *
      (Spec.matrix eb (fun k => cb.t.val [k]) (f 2) k * Spec.matrix eb (fun k => cb.t.val [k]) (f 3) o) * Spec.z (A.t.val [s, i, j, k, o]))]
    unfold Spec.dressed
    apply Finset.sum_congr rfl
    intro h _
    rw [Fin.prod_univ_four]
    ring

theorem act_bij (g : Pg.Spec.G) : Function.Bijective g.act := by
  cases g with
  | rot k => exact ⟨fun i j h => by simpa [Pg.Spec.G.act] using h, fun j => ⟨j - k, by simp [Pg.Spec.G.act]⟩⟩
  | refl k => exact ⟨fun i j h => by simpa [Pg.Spec.G.act] using h, fun j => ⟨k - j, by simp [Pg.Spec.G.act]⟩⟩

/-- Attaching the same real matrix to all four indices preserves the behaviour under the point group. -/
theorem dress_chiral [CommRing R] {b A B : CTensor R} {p D a : Nat} (hb : ∀ idx, (b.t.val idx).2 = 0) (hbs : b.t.shape = [a, D]) (hAs : A.t.shape = [p, D, D, D, D])
    (hA : Chiral p D A.t.val) (h : dress b A = some B) : B.t.shape = [p, a, a, a, a] ∧ Chiral p a B.t.val := by
  obtain ⟨a', e, p', _, _, d2, d3, d4, d5⟩ := dress_inv h
  rw [hbs] at d2
  simp only [List.cons.injEq, and_true] at d2
  obtain ⟨rfl, rfl⟩ := d2
  rw [hAs] at d3
  simp only [List.cons.injEq, and_true] at d3
  obtain ⟨rfl, _⟩ := d3
  refine ⟨d4, ?_⟩
  have key : ∀ s (f : Fin 4 → Nat), (B.t.val [s, f 0, f 1, f 2, f 3]).1 = ∑ h : Fin 4 → Fin D, (∏ i, (b.t.val [f i, h i]).1) * (A.t.val [s, h 0, h 1, h 2, h 3]).1 ∧
      (B.t.val [s, f 0, f 1, f 2, f 3]).2 = ∑ h : Fin 4 → Fin D, (∏ i, (b.t.val [f i, h i]).1) * (A.t.val [s, h 0, h 1, h 2, h 3]).2 := by
    intro s f
    rw [d5, sum4 D (fun i j k o => cmul (cmul (cmul (b.t.val [f 0, i]) (b.t.val [f 1, j])) (cmul (b.t.val [f 2, k]) (b.t.val [f 3, o]))) (A.t.val [s, i, j, k, o])),
      Prod.fst_sum, Prod.snd_sum]
    constructor <;> apply Finset.sum_congr rfl <;> intro h _ <;> rw [Fin.prod_univ_four] <;> simp only [cmul, hb] <;> ring
  intro g s f hs hf
  have hbij : Function.Bijective (fun h : Fin 4 → Fin D => fun i => h (g.act i)) := by
    constructor
    · intro h h' e
      funext i
      obtain ⟨j, rfl⟩ := (act_bij g).2 i
      exact congrFun e j
    · intro h
      obtain ⟨inv, hinv⟩ := (act_bij g).1.hasLeftInverse
      refine ⟨fun i => h (inv i), ?_⟩
      funext i
      show h (inv (g.act i)) = h i
      rw [hinv]
  have hp : ∀ h : Fin 4 → Fin D, (∏ i, (b.t.val [f (g.act i), h (g.act i)]).1) = ∏ i, (b.t.val [f i, h i]).1 := by
    intro h
    exact Fintype.prod_bijective g.act (act_bij g) (fun i => (b.t.val [f (g.act i), h (g.act i)]).1) (fun i => (b.t.val [f i, h i]).1) (fun i => rfl)
  have k1 := key s (fun i => f (g.act i))
  have k2 := key s f
  rw [k1.1, k1.2, k2.1, k2.2, Finset.mul_sum, Finset.mul_sum]
  constructor
  · refine (Fintype.sum_bijective _ hbij _ _ ?_).symm
    intro h
    simp only
    rw [hp]
    have := (hA g s (fun i => (h i : Nat)) hs (fun i => (h i).isLt)).1
    rw [this]
    ring
  · refine (Fintype.sum_bijective _ hbij _ _ ?_).symm
    intro h
    simp only
    rw [hp]
    have := (hA g s (fun i => (h i : Nat)) hs (fun i => (h i).isLt)).2
    rw [this]
    ring

theorem bond_real [CommRing R] {eb : List (Elem R)} {tb c b : CTensor R} {a D : Nat} (hsh : ∀ x ∈ eb, x.t.t.shape = [a, D]) (hre : ∀ x ∈ eb, ∀ idx, (x.t.t.val idx).2 = 0)
    (hc : ∀ idx, (c.t.val idx).2 = 0) (h : stack (eb.map (·.t)) = some tb) (hb : combineBond c tb = some b) : b.t.shape = [a, D] ∧ ∀ idx, (b.t.val idx).2 = 0 := by
  obtain ⟨t1, _⟩ := stack_bond hsh h
  obtain ⟨_, _, h3⟩ := stack_get h
  have ht : ∀ k idx, (tb.t.val (k :: idx)).2 = 0 := by
    intro k idx
    rw [h3, List.getElem?_map]
    cases hk : eb[k]? with
    | none => rfl
    | some x => exact hre x (List.mem_of_getElem? hk) idx
  unfold combineBond at hb
  split at hb
  · simp at hb
  · rw [t1] at hb
    split at hb
    · rename_i n m l r hn hm
      simp only [List.cons.injEq, and_true] at hm
      obtain ⟨rfl, rfl, rfl⟩ := hm
      simp only [Option.bind_eq_bind, Option.bind_eq_some_iff, Option.some.injEq] at hb
      obtain ⟨N, _, rfl⟩ := hb
      refine ⟨rfl, ?_⟩
      intro idx
      simp only [Prod.snd_sum, cmul, hc, ht, mul_zero, zero_mul, add_zero, Finset.sum_const_zero]
    · simp at hb

/-- C134. If every elementary site tensor is a real representative of the irrep it claims, and bond tensors and coefficients are real, then the tensors of both sites of every
consistent state have a real part that transforms as `A1` and an imaginary part that transforms as `A2`: the second site is as symmetric as the first. -/
theorem C134_symmetric [CommRing R] (p D a : Nat) (st : BState R) (hst : Spec.Consistent st) (hrep : ∀ e ∈ st.site, Lc.Spec.Representative p D e)
    (hb : ∀ e ∈ st.bond, e.t.t.shape = [a, D] ∧ ∀ idx, (e.t.t.val idx).2 = 0)
    (hcs : ∀ idx, (st.cSite.t.val idx).2 = 0) (hcb : ∀ idx, (st.cBond.t.val idx).2 = 0) : ∃ A B, st.sites = [((0, 0), A), ((1, 0), B)] ∧
      Pg.Spec.Transforms Pg.Spec.chA1 p D (Lc.Spec.re A.t) ∧ Pg.Spec.Transforms Pg.Spec.chA2 p D (Lc.Spec.im A.t) ∧
      Pg.Spec.Transforms Pg.Spec.chA1 p a (Lc.Spec.re B.t) ∧ Pg.Spec.Transforms Pg.Spec.chA2 p a (Lc.Spec.im B.t) := by
  obtain ⟨ts, tb, A, b, B, g1, g2, g3, g4, g5, hss⟩ := build_inv hst.sites
  obtain ⟨⟨n, hn⟩, hg⟩ := stackElems_good hrep hst.irreps g1
  obtain ⟨hA, hA'⟩ := combine_good hcs hn hg g3
  obtain ⟨hbs, hbr⟩ := bond_real (fun x hx => (hb x hx).1) (fun x hx => (hb x hx).2) (show ∀ idx, ((promote ts.cplx st.cBond).t.val idx).2 = 0 from hcb) g2 g4
  obtain ⟨hB, hB'⟩ := dress_chiral hbr hbs hA hA' g5
  exact ⟨A, B, hss, ⟨hA, fun g s f hs hf => (hA' g s f hs hf).1⟩, ⟨hA, fun g s f hs hf => (hA' g s f hs hf).2⟩,
    ⟨hB, fun g s f hs hf => (hB' g s f hs hf).1⟩, ⟨hB, fun g s f hs hf => (hB' g s f hs hf).2⟩⟩

/-- C134 violated: a state with both irreps, `A_1 + i A_2`, and real bond tensors cannot be built: the coefficients of the bond are made complex together with those of
the site, and `einsum` refuses complex coefficients with real bond tensors. -/
theorem C134_chiral_violated [CommRing R] (es eb : List (Elem R)) (cs cb : CTensor R) (h2 : ∃ e ∈ es, e.pg = some ['A', '_', '2'])
    (hb : ∀ e ∈ eb, e.t.cplx = false) : mk es eb cs cb = none := by
  cases hm : mk es eb cs cb with
  | none => rfl
  | some st =>
    exfalso
    obtain ⟨e1, e2, e3, e4, hc⟩ := mk_inv hm
    have hsites := hc.sites
    have hir := hc.irreps
    rw [e1] at hir
    rw [e1, e2] at hsites
    obtain ⟨ts, tb, A, b, B, g1, g2, g3, g4, g5, hss⟩ := build_inv hsites
    obtain ⟨x, hx, hxp⟩ := h2
    have htb : tb.cplx = false := by
      rw [(stack_get g2).2.1]
      rw [List.any_eq_false]
      intro y hy
      obtain ⟨e, he, rfl⟩ := List.mem_map.1 hy
      simp [hb e he]
    have hts : ts.cplx = true := by
      unfold stackElems at g1
      split at g1
      · rename_i hcond
        exact absurd (hcond.2 nameA2 ((pg_mem hir _).2 ⟨x, hx, hxp⟩)).symm ne12
      · split at g1
        · rw [(stack_get g1).2.1, List.any_eq_true]
          refine ⟨timesI x.t, ?_, rfl⟩
          rw [List.mem_append]
          right
          exact List.mem_map.2 ⟨x, List.mem_filter.2 ⟨hx, by simp [hxp, nameA2]⟩, rfl⟩
        · simp at g1
    unfold combineBond at g4
    rw [if_pos (by simp [promote, hts, htb])] at g4
    simp at g4

/-- C134, the largest bond dimension of each site for states with at least two physical states and auxiliary dimensions `D` and `a`. -/
theorem C134_bond_dims_partial [CommRing R] (st : BState R) (p D a : Nat) (A B : CTensor R) (hs : st.sites = [((0, 0), A), ((1, 0), B)])
    (hA : A.t.shape = [p, D, D, D, D]) (hB : B.t.shape = [p, a, a, a, a]) (hp : 2 ≤ p) : auxBondDims st = some [D, a] := by
  unfold auxBondDims
  have e1 : auxDim A = some D := by unfold auxDim; rw [hA]; simp [show 1 < p by omega]
  have e2 : auxDim B = some a := by unfold auxDim; rw [hB]; simp [show 1 < p by omega]
  rw [hs]
  simp [List.mapM_cons, e1, e2]

/-- C134 violated: for states with a single physical state, asking for the bond dimensions raises IndexError. -/
theorem C134_bond_dims_violated [CommRing R] (st : BState R) (D : Nat) (A B : CTensor R) (hs : st.sites = [((0, 0), A), ((1, 0), B)])
    (hA : A.t.shape = [1, D, D, D, D]) : auxBondDims st = none := by
  unfold auxBondDims
  have e1 : auxDim A = none := by unfold auxDim; rw [hA]; simp
  rw [hs]
  simp [List.mapM_cons, e1]

/-! ### Examples -/

/-- A matrix that is not symmetric. -/
def sampleBond : Elem Int := ⟨none, ['b'], ⟨false, ⟨[3, 3], fun i => (1 + 2 * i.getD 0 0 - i.getD 1 0, 0)⟩⟩⟩
def sampleCS : CTensor Int := ⟨false, ⟨[1], fun _ => (2, 0)⟩⟩
def sampleCB : CTensor Int := ⟨false, ⟨[1], fun _ => (1, 0)⟩⟩

theorem sampleBp_built : ∃ st, mk [sampleA1] [sampleBond] sampleCS sampleCB = some st := Option.isSome_iff_exists.1 (by decide)

/-- Non-vacuity of `C134_tiling` and `C134_symmetric`: a state with a representative of `A_1` and a matrix that is not symmetric. -/
example : ∃ st, mk [sampleA1] [sampleBond] sampleCS sampleCB = some st ∧ Spec.Consistent st ∧ (∀ e ∈ st.site, Lc.Spec.Representative 1 3 e) ∧
    (∀ e ∈ st.bond, e.t.t.shape = [3, 3] ∧ ∀ idx, (e.t.t.val idx).2 = 0) ∧ (∀ idx, (st.cSite.t.val idx).2 = 0) ∧ ∀ idx, (st.cBond.t.val idx).2 = 0 := by
  obtain ⟨st, h⟩ := sampleBp_built
  obtain ⟨e1, e2, e3, e4, hc⟩ := mk_inv h
  refine ⟨st, h, hc, ?_, ?_, ?_, ?_⟩
  · intro e he; rw [e1] at he; simp at he; subst he; exact sampleA1_rep
  · intro e he; rw [e2] at he; simp at he; subst he; exact ⟨rfl, fun _ => rfl⟩
  · intro idx; rw [e3]; rfl
  · intro idx; rw [e4]; rfl

/-- Non-vacuity of `C134_sites_partial`: a chiral state with complex bond tensors and one with both lists non-empty. -/
noncomputable def realA1 : Elem ℝ := ⟨some ['A', '_', '1'], ['x'], ⟨false, ⟨[2, 1, 1, 1, 1], fun _ => (1, 0)⟩⟩⟩
noncomputable def realA2 : Elem ℝ := ⟨some ['A', '_', '2'], ['y'], ⟨false, ⟨[2, 1, 1, 1, 1], fun _ => (3, 0)⟩⟩⟩
noncomputable def realBond : Elem ℝ := ⟨none, [], ⟨true, ⟨[2, 1], fun _ => (1, 1)⟩⟩⟩

example : ∃ st, mk ([realA1] ++ [realA2]) [realBond] ⟨false, ⟨[2], fun _ => (1, 0)⟩⟩ ⟨false, ⟨[1], fun _ => (1, 0)⟩⟩ = some st ∧
    (∀ e ∈ [realA1], e.pg = some ['A', '_', '1']) ∧ (∀ e ∈ [realA2], e.pg = some ['A', '_', '2']) ∧
    (∀ e ∈ [realA1] ++ [realA2], e.t.t.shape = [2, 1, 1, 1, 1]) ∧ (∀ e ∈ [realBond], e.t.t.shape = [2, 1]) := by
  have h1 : ([realA1] ++ [realA2]).mapM (fun e : Elem ℝ => e.pg) = some [['A', '_', '1'], ['A', '_', '2']] := rfl
  have h2 : ∃ st, mk ([realA1] ++ [realA2]) [realBond] ⟨false, ⟨[2], fun _ => (1, 0)⟩⟩ ⟨false, ⟨[1], fun _ => (1, 0)⟩⟩ = some st := by
    refine ⟨_, rfl⟩
  obtain ⟨st, h⟩ := h2
  exact ⟨st, h, by simp [realA1], by simp [realA2], by simp [realA1, realA2], by simp [realBond]⟩

/-- Non-vacuity of `C134_chiral_violated`. -/
example : (∃ e ∈ [sampleA1, sampleA2], e.pg = some ['A', '_', '2']) ∧ ∀ e ∈ [sampleBond], e.t.cplx = false :=
  ⟨⟨sampleA2, by simp, rfl⟩, by simp [sampleBond]⟩

end Verif.LcBp
