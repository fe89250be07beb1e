import Verif.Transfer.Width0
import Verif.Transfer.Ring
import Verif.Rdm.PlaqProps
/-
Property C95: spectrum of the boundary Hamiltonian of a cylinder (`get_EH_spec_Ttensor`).
-/
namespace Verif.Transfer
open Tensor Ctm Ctm.Spec Spec Corrf.Spec

/-! ### Rings as matrices -/

theorem sumIdx_fin (ads : List Nat) (G : List Nat → ℂ) : sumIdx ads G = ∑ i : Fin ads.prod, G (unravel ads i) := by
  rw [← Rdm.sum_unravel, Finset.sum_range]

theorem mvSigma_lin {chi : Nat} {ts : List (Tensor ℂ)} {ads : List Nat} {V : Tensor ℂ} (h : List.Forall₂ (fun t a => t.shape = [chi, chi, a, a]) ts ads) (h2 : 2 ≤ ts.length)
    (hV : V.shape = ads) : ∃ R, mvSigma ts V = some R ∧ R.shape = ads ∧ ∀ i : Fin ads.prod, R.val (unravel ads i) =
      ∑ j : Fin ads.prod, ringMatrix chi (ts.map ent) ads i j * V.val (unravel ads j) := by
  obtain ⟨R, e, s, v⟩ := mvSigma_ok h h2 hV
  refine ⟨R, e, s, fun i => ?_⟩
  rw [v _ (inB_unravel ads i i.2).1, sumIdx_fin]
  rfl

theorem unravel_flat (n i : Nat) : unravel [n] i = [i] := by simp [unravel]

theorem ravel_flat (n i : Nat) : ravel [n] [i] = i := by simp [ravel]

theorem view_flat {ads : List Nat} {n : Nat} (hn : ads.prod = n) {v : Tensor ℂ} (hv : v.shape = [n]) :
    ∃ V, view ads v = some V ∧ V.shape = ads ∧ ∀ j : Nat, j < n → V.val (unravel ads j) = v.val [j] := by
  refine ⟨_, if_pos (by rw [hv, hn]; simp), rfl, fun j hj => ?_⟩
  show v.val _ = _
  rw [(inB_unravel ads j (by rw [hn]; exact hj)).2, hv, unravel_flat]

theorem flat_view {ads : List Nat} {n : Nat} (hn : ads.prod = n) {V : Tensor ℂ} (hV : V.shape = ads) :
    ∃ v, view [n] V = some v ∧ v.shape = [n] ∧ ∀ j : Nat, v.val [j] = V.val (unravel ads j) := by
  refine ⟨_, if_pos (by rw [hV, hn]; simp), rfl, fun j => ?_⟩
  show V.val _ = _
  rw [ravel_flat, hV]

/-- Entries of tensors that agree within their bounds give the same ring. -/
theorem ringMatrix_congr {chi : Nat} {ts us : List (Nat → Nat → Nat → Nat → ℂ)} {ads : List Nat}
    (h : List.Forall₂ (fun p a => ∀ (x y : Fin chi) (k j : Nat), k < a → j < a → p.1 x y k j = p.2 x y k j) (ts.zip us) ads) (hl : ts.length = us.length) :
    ringMatrix chi ts ads = ringMatrix chi us ads := by
  funext i j
  have hi := (inB_unravel ads i i.2).1
  have hj := (inB_unravel ads j j.2).1
  unfold ringMatrix ring
  generalize unravel ads i = k at hi
  generalize unravel ads j = l at hj
  congr 1
  clear i j
  congr 1
  induction hi generalizing ts us l with
  | nil => simp
  | cons hk hi ih =>
    cases hj with
    | cons hl' hj =>
      cases ts with
      | nil => cases us with
        | nil => rfl
        | cons u us => simp at hl
      | cons t ts => cases us with
        | nil => simp at hl
        | cons u us =>
          cases h with
          | cons h0 h =>
            simp only [List.zip_cons_cons, List.zipWith_cons_cons]
            rw [ih h (by simpa using hl) _ hj]
            congr 1
            funext x y
            exact h0 x y _ _ hk hl'

theorem split_view {chi ad : Nat} {x : Tensor ℂ} (hx : x.shape = [chi, chi, ad * ad]) :
    ∃ t, view [chi, chi, ad, ad] x = some t ∧ t.shape = [chi, chi, ad, ad] ∧ ∀ a b k j : Nat, a < chi → b < chi → k < ad → j < ad → t.val [a, b, k, j] = x.val [a, b, k * ad + j] := by
  refine ⟨_, if_pos (by rw [hx]; simp), rfl, fun a b k j ha hb hk hj => ?_⟩
  show x.val (unravel x.shape (ravel _ _)) = _
  have h1 : k * ad + j < ad * ad := by nlinarith
  have h2 : InB [chi, chi, ad * ad] [a, b, k * ad + j] := .cons ha (.cons hb (.cons h1 .nil))
  have h3 : ravel [chi, chi, ad, ad] [a, b, k, j] = ravel [chi, chi, ad * ad] [a, b, k * ad + j] := by simp [ravel]
  rw [hx, h3, unravel_ravel h2]

section
variable {D : Dims} {st : State ℂ} {env : Env ℂ} {N : Tensors ℂ}

theorem getT_ok (ht : Tiling st) (hs : FitsState D st) (he : FitsEnv D st env) (hN : Reads st env N) {chi : Nat} (hU : Uniform D chi) (hchi : env.chi = chi) (d : Dir) (c : Coord) :
    ∃ t, getT st env d (st.vts c) = some t ∧ t.shape = [chi, chi, bond D d c, bond D d c] ∧
      ∀ a b k j : Nat, a < chi → b < chi → k < bond D d c → j < bond D d c → ent t a b k j = half N D d c a b k j := by
  have hv : st.vts (st.vts c) = st.vts c := ht.fix _ (ht.mem c)
  obtain ⟨a, ea, sa⟩ := hs.site c
  have ea' : st.site (st.vts c) = some a := by rw [← ea]; simp only [State.site, hv]
  have h1 := Corrf.shape_of (he.tu c) (hN.tu c)
  have h2 := Corrf.shape_of (he.tl c) (hN.tl c)
  have h3 := Corrf.shape_of (he.td c) (hN.td c)
  have h4 := Corrf.shape_of (he.tr c) (hN.tr c)
  rw [(hU c).1, (hU (rt c)).1] at h1
  rw [(hU c).2.1, (hU (dn c)).2.1] at h2
  rw [(hU c).2.2.1, (hU (rt c)).2.2.1] at h3
  rw [(hU c).2.2.2, (hU (dn c)).2.2.2] at h4
  cases d with
  | up =>
    obtain ⟨x, ex, sx, vx⟩ := permute_val (A := N.tu c) (perm := [0, 2, 1]) (by rw [h1]; simp)
    rw [h1] at sx
    obtain ⟨t, e, s, v⟩ := split_view (ad := D.U c) (x := x) (by simpa using sx)
    refine ⟨t, ?_, s, fun a b k j ha hb hk hj => ?_⟩
    · simp only [getT, Dir.vec, hN.tu c, ea', Option.bind_eq_bind, Option.bind_some, orient, ex, hchi, size, axisOf, sa]
      exact e
    · have := vx [a, k * D.U c + j, b] (by rw [h1]; rfl)
      exact (v a b k j ha hb hk hj).trans (by simpa [half] using this)
  | left =>
    obtain ⟨t, e, s, v⟩ := split_view h2
    refine ⟨t, ?_, s, fun a b k j ha hb hk hj => ?_⟩
    · simp only [getT, Dir.vec, hN.tl c, ea', Option.bind_eq_bind, Option.bind_some, orient, hchi, size, axisOf, sa]
      exact e
    · exact v a b k j ha hb hk hj
  | down =>
    obtain ⟨x, ex, sx, vx⟩ := permute_val (A := N.td c) (perm := [1, 2, 0]) (by rw [h3]; simp)
    rw [h3] at sx
    obtain ⟨t, e, s, v⟩ := split_view (ad := D.U (dn c)) (x := x) (by simpa using sx)
    refine ⟨t, ?_, s, fun a b k j ha hb hk hj => ?_⟩
    · simp only [getT, Dir.vec, hN.td c, ea', Option.bind_eq_bind, Option.bind_some, orient, ex, hchi, size, axisOf, sa]
      exact e
    · have := vx [k * D.U (dn c) + j, a, b] (by rw [h3]; rfl)
      exact (v a b k j ha hb hk hj).trans (by simpa [half] using this)
  | right =>
    obtain ⟨x, ex, sx, vx⟩ := permute_val (A := N.tr c) (perm := [0, 2, 1]) (by rw [h4]; simp)
    rw [h4] at sx
    obtain ⟨t, e, s, v⟩ := split_view (ad := D.L (rt c)) (x := x) (by simpa using sx)
    refine ⟨t, ?_, s, fun a b k j ha hb hk hj => ?_⟩
    · simp only [getT, Dir.vec, hN.tr c, ea', Option.bind_eq_bind, Option.bind_some, orient, ex, hchi, size, axisOf, sa]
      exact e
    · have := vx [a, k * D.L (rt c) + j, b] (by rw [h4]; rfl)
      exact (v a b k j ha hb hk hj).trans (by simpa [half] using this)

/-- In a cell of one site all vertices are equivalent. -/
theorem vts_one (hp : Periodic st) (h1 : st.lX = 1 ∧ st.lY = 1) (c c' : Coord) : st.vts c = st.vts c' := by
  have hx : ∀ (x y : Int), st.vts (x, y) = st.vts (0, y) := by
    intro x y
    induction x using Int.induction_on with
    | zero => rfl
    | succ n ih => have := (hp (n, y)).1; rw [h1.1] at this; exact this.trans ih
    | pred n ih => have := (hp (-n - 1, y)).1; rw [h1.1] at this; rw [← ih, ← this]; congr 2; simp
  have hy : ∀ (x y : Int), st.vts (x, y) = st.vts (x, 0) := by
    intro x y
    induction y using Int.induction_on with
    | zero => rfl
    | succ n ih => have := (hp (x, n)).2; rw [h1.2] at this; exact this.trans ih
    | pred n ih => have := (hp (x, -n - 1)).2; rw [h1.2] at this; rw [← ih, ← this]; congr 2; simp
  have h : ∀ c : Coord, st.vts c = st.vts (0, 0) := fun c => (hx c.1 c.2).trans (hy 0 c.2)
  rw [h c, h c']

theorem walk_eq (ht : Tiling st) (g : Dir) : ∀ (n : Nat) (c : Coord), walk st g n c = (List.range n).map (fun i => st.vts (ahead g c i))
  | 0, c => rfl
  | n + 1, c => by
    rw [walk, walk_eq ht g n, List.range_succ_eq_map, List.map_cons, List.map_map, Corrf.ahead_zero]
    congr 1
    refine List.map_congr_left (fun i _ => ?_)
    show st.vts (ahead g (Corrf.shift (st.vts c) g.vec) i) = _
    have := ht.shift c (((i + 1 : Nat) : Int) * g.vec.1, ((i + 1 : Nat) : Int) * g.vec.2)
    simp only [ahead, Corrf.shift, Function.comp] at this ⊢
    rw [← this]
    congr 2 <;> push_cast <;> ring

/-- The tensors around the cylinder. -/
theorem ringT_ok (ht : Tiling st) (hs : FitsState D st) (he : FitsEnv D st env) (hN : Reads st env N) {chi : Nat} (hU : Uniform D chi) (hchi : env.chi = chi) (hp : Periodic st)
    (h1 : st.lX = 1 ∧ st.lY = 1) (d g : Dir) (L : Nat) (c : Coord) : ∃ t, ringT st env d g L c = some (List.replicate L t) ∧ t.shape = [chi, chi, bond D d c, bond D d c] ∧
      ∀ a b k j : Nat, a < chi → b < chi → k < bond D d c → j < bond D d c → ent t a b k j = half N D d c a b k j := by
  obtain ⟨t, e, s, v⟩ := getT_ok ht hs he hN hU hchi d c
  refine ⟨t, ?_, s, v⟩
  rw [ringT, walk_eq ht, List.map_congr_left (fun i _ => vts_one hp h1 (ahead g c i) c), List.map_const', List.length_range]
  clear s v
  induction L with
  | zero => rfl
  | succ L ih => simp [List.replicate_succ, e, ih]

/-- Rings of equal tensors. -/
noncomputable def even (chi : Nat) (t : Nat → Nat → Nat → Nat → ℂ) (L : Nat) (ads : List Nat) : Matrix (Fin ads.prod) (Fin ads.prod) ℂ := ringMatrix chi (List.replicate L t) ads

theorem forall2_replicate {α β : Type} {R : α → β → Prop} {a : α} {b : β} (h : R a b) : ∀ L, List.Forall₂ R (List.replicate L a) (List.replicate L b)
  | 0 => .nil
  | L + 1 => .cons h (forall2_replicate h L)

theorem even_congr {chi L ad : Nat} {t u : Nat → Nat → Nat → Nat → ℂ} (h : ∀ a b k j : Nat, a < chi → b < chi → k < ad → j < ad → t a b k j = u a b k j) :
    even chi t L (List.replicate L ad) = even chi u L (List.replicate L ad) := by
  refine ringMatrix_congr ?_ (by simp)
  rw [List.zip_replicate' ]
  exact forall2_replicate (R := fun p a => ∀ (x y : Fin chi) (k j : Nat), k < a → j < a → p.1 x y k j = p.2 x y k j) (a := (t, u)) (b := ad)
    (fun x y k j hk hj => h x y k j x.2 y.2 hk hj) L

theorem bond_vts (ht : Tiling st) (hs : FitsState D st) (d : Dir) {c c' : Coord} (h : st.vts c = st.vts c') : bond D d c = bond D d c' := by
  cases d <;> simp [bond, size_vts hs.U h, size_vts hs.L h, size_vts hs.U (vts_dn ht h), size_vts hs.L (vts_rt ht h)]

theorem half_vts (ht : Tiling st) (hs : FitsState D st) (hN : Reads st env N) (d : Dir) {c c' : Coord} (h : st.vts c = st.vts c') : half N D d c = half N D d c' := by
  have e1 := hN.tu c; rw [h, hN.tu c'] at e1
  have e2 := hN.tl c; rw [h, hN.tl c'] at e2
  have e3 := hN.td c; rw [h, hN.td c'] at e3
  have e4 := hN.tr c; rw [h, hN.tr c'] at e4
  funext a b k j
  cases d <;> simp [half, Option.some.inj e1, Option.some.inj e2, Option.some.inj e3, Option.some.inj e4, size_vts hs.U h, size_vts hs.L h, size_vts hs.U (vts_dn ht h), size_vts hs.L (vts_rt ht h)]

theorem cutBonds_one (ht : Tiling st) (hs : FitsState D st) (hp : Periodic st) (h1 : st.lX = 1 ∧ st.lY = 1) (d g : Dir) (c : Coord) (L : Nat) :
    cutBonds D d g c L = List.replicate L (bond D d c) := by
  rw [cutBonds, List.map_congr_left (fun i _ => bond_vts ht hs d (vts_one hp h1 (ahead g c i) c)), List.map_const', List.length_range]

theorem bond_rev (hs : FitsState D st) (hp : Periodic st) (h1 : st.lX = 1 ∧ st.lY = 1) (d : Dir) (c : Coord) : bond D (Corrf.rev d) c = bond D d c := by
  cases d <;> simp only [bond, Corrf.rev]
  · exact size_vts hs.U (vts_one hp h1 _ _)
  · exact size_vts hs.L (vts_one hp h1 _ _)
  · exact size_vts hs.U (vts_one hp h1 _ _)
  · exact size_vts hs.L (vts_one hp h1 _ _)

/-- One application of both rings. -/
theorem mvEH_multiplies (ht : Tiling st) (hs : FitsState D st) (he : FitsEnv D st env) (hN : Reads st env N) {chi : Nat} (hU : Uniform D chi) (hchi : env.chi = chi) (hp : Periodic st)
    (h1 : st.lX = 1 ∧ st.lY = 1) (d : Dir) {L : Nat} (h2 : 1 < L) (c : Coord) {ads : List Nat} (hads : ads = List.replicate L (bond D d c)) :
    Multiplies (mvEH st env d L c ads) (even chi (half N D (Corrf.rev d) c) L ads * even chi (half N D d c) L ads) := by
  intro v hv
  obtain ⟨V, eV, sV, vV⟩ := view_flat rfl hv
  obtain ⟨t, et, st', vt⟩ := ringT_ok ht hs he hN hU hchi hp h1 d (growDir d) L c
  obtain ⟨u, eu, su, vu⟩ := ringT_ok ht hs he hN hU hchi hp h1 (Corrf.rev d) (growDir d) L c
  rw [bond_rev hs hp h1] at su vu
  have f1 : List.Forall₂ (fun (t : Tensor ℂ) a => t.shape = [chi, chi, a, a]) (List.replicate L t) ads := by rw [hads]; exact forall2_replicate (R := fun (t : Tensor ℂ) a => t.shape = [chi, chi, a, a]) st' L
  have f2 : List.Forall₂ (fun (t : Tensor ℂ) a => t.shape = [chi, chi, a, a]) (List.replicate L u) ads := by rw [hads]; exact forall2_replicate (R := fun (t : Tensor ℂ) a => t.shape = [chi, chi, a, a]) su L
  obtain ⟨W, eW, sW, vW⟩ := mvSigma_lin f1 (by rw [List.length_replicate]; exact h2) sV
  obtain ⟨X, eX, sX, vX⟩ := mvSigma_lin f2 (by rw [List.length_replicate]; exact h2) sW
  obtain ⟨w, ew, sw, vw⟩ := flat_view rfl sX
  refine ⟨w, ?_, sw, fun i => ?_⟩
  · simp only [mvEH, eV, et, eu, eW, eX, Option.bind_eq_bind, Option.bind_some]
    exact ew
  · rw [vw, vX]
    have g1 : ringMatrix chi ((List.replicate L t).map ent) ads = even chi (half N D d c) L ads := by
      rw [List.map_replicate, hads]; exact even_congr vt
    have g2 : ringMatrix chi ((List.replicate L u).map ent) ads = even chi (half N D (Corrf.rev d) c) L ads := by
      rw [List.map_replicate, hads]; exact even_congr vu
    rw [g2]
    simp only [vW, g1, Matrix.mul_apply, Finset.sum_mul]
    simp only [Finset.mul_sum]
    rw [Finset.sum_comm]
    refine Finset.sum_congr rfl (fun a _ => Finset.sum_congr rfl (fun b _ => ?_))
    rw [vV a a.2]
    ring

/-! ### Going around the cylinder in the other sense -/

theorem zip_map_T (chi : Nat) (t : Nat → Nat → Nat → Nat → ℂ) : ∀ (L : Nat) (kj : List (Nat × Nat)),
    List.zipWith (fun t kj => block chi t kj.1 kj.2) (List.replicate L (fun a b k j => t b a k j)) kj = (List.zipWith (fun t kj => block chi t kj.1 kj.2) (List.replicate L t) kj).map Matrix.transpose
  | 0, _ => rfl
  | L + 1, [] => rfl
  | L + 1, p :: kj => by
    rw [List.replicate_succ, List.replicate_succ, List.zipWith_cons_cons, List.zipWith_cons_cons, List.map_cons, zip_map_T chi t L kj]
    rfl

theorem zip_all (chi : Nat) (t : Nat → Nat → Nat → Nat → ℂ) : ∀ (L : Nat) (kj : List (Nat × Nat)), kj.length = L →
    List.zipWith (fun t kj => block chi t kj.1 kj.2) (List.replicate L t) kj = kj.map (fun p => block chi t p.1 p.2)
  | 0, [], _ => rfl
  | L + 1, p :: kj, h => by
    rw [List.replicate_succ, List.zipWith_cons_cons, List.map_cons, zip_all chi t L kj (by simpa using h)]

theorem zip_rev : ∀ {a b : List Nat}, a.length = b.length → (a.zip b).reverse = a.reverse.zip b.reverse
  | [], [], _ => rfl
  | x :: a, y :: b, h => by
    have h' : a.length = b.length := by simpa using h
    rw [List.zip_cons_cons, List.reverse_cons, List.reverse_cons, List.reverse_cons, List.zip_append (by simp [h']), zip_rev h']
    rfl

theorem ring_rev (chi : Nat) (t : Nat → Nat → Nat → Nat → ℂ) {L : Nat} {k j : List Nat} (hk : k.length = L) (hj : j.length = L) :
    ring chi (List.replicate L (fun a b k j => t b a k j)) k j = ring chi (List.replicate L t) k.reverse j.reverse := by
  unfold ring
  rw [zip_map_T, zip_all chi t L _ (by simp [hk, hj]), ← zip_rev (by rw [hk, hj]), zip_all chi t L _ (by simp [hk, hj]), ← Matrix.trace_transpose]
  congr 1
  rw [Matrix.transpose_list_prod, List.map_reverse]
  congr 2
  simp

theorem inB_rev {L ad : Nat} {k : List Nat} (h : InB (List.replicate L ad) k) : InB (List.replicate L ad) k.reverse := by
  have := List.rel_reverse h
  rwa [List.reverse_replicate] at this

/-- Reversing the order of the sites. -/
def flip (L ad : Nat) : Fin (List.replicate L ad).prod ≃ Fin (List.replicate L ad).prod where
  toFun i := ⟨ravel (List.replicate L ad) (unravel (List.replicate L ad) i).reverse, ravel_lt (inB_rev (inB_unravel _ i i.2).1)⟩
  invFun i := ⟨ravel (List.replicate L ad) (unravel (List.replicate L ad) i).reverse, ravel_lt (inB_rev (inB_unravel _ i i.2).1)⟩
  left_inv i := by
    have h := inB_unravel (List.replicate L ad) i i.2
    apply Fin.ext
    simp only
    rw [unravel_ravel (inB_rev h.1), List.reverse_reverse, h.2]
  right_inv i := by
    have h := inB_unravel (List.replicate L ad) i i.2
    apply Fin.ext
    simp only
    rw [unravel_ravel (inB_rev h.1), List.reverse_reverse, h.2]

theorem even_flip (chi : Nat) (t : Nat → Nat → Nat → Nat → ℂ) (L ad : Nat) :
    even chi (fun a b k j => t b a k j) L (List.replicate L ad) = Matrix.reindex (flip L ad) (flip L ad) (even chi t L (List.replicate L ad)) := by
  funext i j
  have hi := (inB_unravel (List.replicate L ad) i i.2).1
  have hj := (inB_unravel (List.replicate L ad) j j.2).1
  show ring _ _ _ _ = ring _ _ (unravel _ (ravel _ _)) (unravel _ (ravel _ _))
  rw [ring_rev chi t (by simpa using hi.length) (by simpa using hj.length), unravel_ravel (inB_rev hi), unravel_ravel (inB_rev hj)]

/-- The boundary operators of the specification and the rings of the code differ at most by the order of the sites. -/
theorem boundary_charpoly (ht : Tiling st) (hs : FitsState D st) (hN : Reads st env N) (hp : Periodic st) (h1 : st.lX = 1 ∧ st.lY = 1) (d d' g : Dir) (chi L ad : Nat) (c : Coord) :
    (boundary N D chi d' g c L (List.replicate L ad) * boundary N D chi d g c L (List.replicate L ad)).charpoly =
      (even chi (half N D d' c) L (List.replicate L ad) * even chi (half N D d c) L (List.replicate L ad)).charpoly := by
  have hc : ∀ d i, half N D d (ahead g c i) = half N D d c := fun d i => half_vts ht hs hN d (vts_one hp h1 _ _)
  have e1 : (g = .right ∨ g = .down) → ∀ d, boundary N D chi d g c L (List.replicate L ad) = even chi (half N D d c) L (List.replicate L ad) := by
    intro hg d
    rw [boundary, even]
    congr 1
    rw [List.map_congr_left (g := fun _ => half N D d c) (fun i _ => ?_), List.map_const', List.length_range]
    rw [← hc d i]
    rcases hg with rfl | rfl <;> rfl
  have e2 : (g = .left ∨ g = .up) → ∀ d, boundary N D chi d g c L (List.replicate L ad) = even chi (fun a b k j => half N D d c b a k j) L (List.replicate L ad) := by
    intro hg d
    rw [boundary, even]
    congr 1
    rw [List.map_congr_left (g := fun _ => fun a b k j => half N D d c b a k j) (fun i _ => ?_), List.map_const', List.length_range]
    rw [← hc d i]
    rcases hg with rfl | rfl <;> rfl
  by_cases hg : g = .right ∨ g = .down
  · rw [e1 hg, e1 hg]
  · have hg' : g = .left ∨ g = .up := by cases g <;> simp at hg ⊢
    rw [e2 hg', e2 hg', even_flip chi (half N D d' c), even_flip chi (half N D d c), Matrix.reindex_apply, Matrix.reindex_apply, Matrix.submatrix_mul_equiv, ← Matrix.reindex_apply, Matrix.charpoly_reindex]

theorem cutDims_ok (hs : FitsState D st) (d g : Dir) (L : Nat) (c : Coord) : cutDims st d g L c = some (cutBonds D d g c L) := by
  unfold cutDims cutBonds
  induction List.range L with
  | nil => rfl
  | cons i l ih =>
    obtain ⟨a, e, s⟩ := hs.site (ahead g c i)
    have e' : st.site (c.1 + (i : Int) * g.vec.1, c.2 + (i : Int) * g.vec.2) = some a := e
    have hb : a.size (axisOf d) = bond D d (ahead g c i) := by cases d <;> simp [size, s, axisOf, bond]
    simp [e', ih, hb]

theorem specEH_cases (ht : Tiling st) (hs : FitsState D st) (he : FitsEnv D st env) (hN : Reads st env N) (hp : Periodic st)
    (hU : Uniform D env.chi) {eigs : Eigs} {n L : Nat} {c : Coord} {d : Dir} {r : Option (List (ℝ × ℝ))} (h : specEH eigs n L c d st env = .ok r) :
    (1 < L ∧ st.lX = 1 ∧ st.lY = 1) ∧ (((cutBonds D d (growDir d) c L).prod ≤ n ∧ r = none) ∨ n < (cutBonds D d (growDir d) c L).prod ∧
    ∃ (dim : Nat) (f : Tensor ℂ → Option (Tensor ℂ)) (M : Matrix (Fin dim) (Fin dim) ℂ) (l : List (ℝ × ℝ)), r = some l ∧ Multiplies f M ∧ reversed eigs n dim f = .ok l ∧
      M.charpoly = (boundary N D env.chi (Corrf.rev d) (growDir d) c L (cutBonds D d (growDir d) c L) * boundary N D env.chi d (growDir d) c L (cutBonds D d (growDir d) c L)).charpoly) := by
  unfold specEH at h
  by_cases h2 : 1 < L
  swap
  · rw [if_pos h2] at h; cases h
  rw [if_neg (not_not.2 h2)] at h
  by_cases h1 : st.lX = 1 ∧ st.lY = 1
  swap
  · rw [if_pos h1] at h; cases h
  rw [if_neg (not_not.2 h1), cutDims_ok hs] at h
  obtain ⟨ads, ha, h⟩ := bind_ok'.1 h
  have hads : cutBonds D d (growDir d) c L = ads := Option.some.inj (lift_ok'.1 ha)
  have hrep : ads = List.replicate L (bond D d c) := by rw [← hads, cutBonds_one ht hs hp h1]
  refine ⟨⟨h2, h1⟩, ?_⟩
  rw [hads]
  by_cases hn : ads.prod ≤ n
  · rw [if_pos hn] at h; cases h; exact .inl ⟨hn, rfl⟩
  rw [if_neg hn] at h
  obtain ⟨q, hq, h⟩ := bind_ok'.1 h
  cases h
  have hM := mvEH_multiplies ht hs he hN hU rfl hp h1 d h2 c hrep
  refine .inr ⟨by omega, _, _, _, q, rfl, hM, hq, ?_⟩
  subst hrep
  exact (boundary_charpoly ht hs hN hp h1 d (Corrf.rev d) (growDir d) env.chi L (bond D d c) c).symm

/-- **C95.** `get_EH_spec_Ttensor` returns `n` leading eigenvalues of the product of the two boundary operators of a cylinder of circumference `L` (single-site cells), divided by a positive number,
and the first has modulus one. Partial: in the order of the solver. -/
theorem C95_values_partial {eigs : Eigs} (hei : Solves eigs) (ht : Tiling st) (hs : FitsState D st) (he : FitsEnv D st env) (hN : Reads st env N) (hp : Periodic st)
    (hU : Uniform D env.chi) (n L : Nat) (c : Coord) (d : Dir) {r : List (ℝ × ℝ)} (h : specEH eigs n L c d st env = .ok (some r)) :
    (∃ s : ℝ, 0 < s ∧ Leading (boundary N D env.chi (Corrf.rev d) (growDir d) c L (cutBonds D d (growDir d) c L) * boundary N D env.chi d (growDir d) c L (cutBonds D d (growDir d) c L)) n
      (r.map (fun p => (s : ℂ) * row p))) ∧ ∃ p, r.head? = some p ∧ ‖row p‖ = 1 := by
  obtain ⟨_, ⟨_, h0⟩ | ⟨_, dim, f, M, l, hl, hM, hq, hc⟩⟩ := specEH_cases ht hs he hN hp hU h
  · cases h0
  cases hl
  obtain ⟨⟨s, s0, q⟩, q'⟩ := reversed_values hei hM hq
  exact ⟨⟨s, s0, Leading.congr hc q⟩, q'⟩

/-- **C95.** If the solver returns its values by increasing modulus, they come out by decreasing modulus. -/
theorem C95_sorted_partial {eigs : Eigs} (hei : Solves eigs) (hasc : Ascending eigs) (ht : Tiling st) (hs : FitsState D st) (he : FitsEnv D st env) (hN : Reads st env N) (hp : Periodic st)
    (hU : Uniform D env.chi) (n L : Nat) (c : Coord) (d : Dir) {r : List (ℝ × ℝ)} (h : specEH eigs n L c d st env = .ok (some r)) :
    Spectrum (boundary N D env.chi (Corrf.rev d) (growDir d) c L (cutBonds D d (growDir d) c L) * boundary N D env.chi d (growDir d) c L (cutBonds D d (growDir d) c L)) n r := by
  obtain ⟨_, ⟨_, h0⟩ | ⟨_, dim, f, M, l, hl, hM, hq, hc⟩⟩ := specEH_cases ht hs he hN hp hU h
  · cases h0
  cases hl
  exact Spectrum.congr hc (reversed_ok hei hasc hM hq)

/-- **C95.** The direction around the cylinder is `d` turned clockwise by a quarter turn; the second coordinate grows downwards. -/
theorem C95_direction (d : Dir) : (growDir d).vec = (-d.vec.2, d.vec.1) := by cases d <;> rfl

/-- **C95.** No values are returned exactly if the operator has at most `n` rows. -/
theorem C95_none {eigs : Eigs} (ht : Tiling st) (hs : FitsState D st) (he : FitsEnv D st env) (hp : Periodic st)
    (hU : Uniform D env.chi) (n L : Nat) (c : Coord) (d : Dir) {r : Option (List (ℝ × ℝ))} (h : specEH eigs n L c d st env = .ok r) :
    r = none ↔ (cutBonds D d (growDir d) c L).prod ≤ n := by
  obtain ⟨N, hN⟩ := Corrf.Spec.Reads.exists hs he
  obtain ⟨_, ⟨h1, h0⟩ | ⟨h1, dim, f, M, l, hl, _⟩⟩ := specEH_cases ht hs he hN hp hU h
  · simp [h0, h1]
  · simp [hl]; omega

/-- **C95.** It fails only if the solver does or if the product has no eigenvalue other than zero. -/
theorem C95_defined {eigs : Eigs} (hei : Solves eigs) (hasc : Ascending eigs) (ht : Tiling st) (hs : FitsState D st) (he : FitsEnv D st env) (hN : Reads st env N) (hp : Periodic st)
    (hU : Uniform D env.chi) (n L : Nat) (c : Coord) (d : Dir) (hn : 0 < n) (hL : 1 < L) (h1 : st.lX = 1 ∧ st.lY = 1) (hd : n < (cutBonds D d (growDir d) c L).prod)
    (hz : ∃ x ∈ (boundary N D env.chi (Corrf.rev d) (growDir d) c L (cutBonds D d (growDir d) c L) * boundary N D env.chi d (growDir d) c L (cutBonds D d (growDir d) c L)).charpoly.roots, x ≠ 0)
    (hsol : ∀ f (M : Matrix (Fin (cutBonds D d (growDir d) c L).prod) (Fin (cutBonds D d (growDir d) c L).prod) ℂ), Multiplies f M → (eigs false (cutBonds D d (growDir d) c L).prod f n).isSome) :
    ∃ r, specEH eigs n L c d st env = .ok (some r) := by
  have hrep : cutBonds D d (growDir d) c L = List.replicate L (bond D d c) := cutBonds_one ht hs hp h1 d (growDir d) c L
  have hM := mvEH_multiplies ht hs he hN hU rfl hp h1 d hL c hrep
  have hc := boundary_charpoly ht hs hN hp h1 d (Corrf.rev d) (growDir d) env.chi L (bond D d c) c
  rw [← hrep] at hc
  obtain ⟨r, hr⟩ := reversed_defined hei hasc hM hn (by rw [← hc]; exact hz) (hsol _ _ hM)
  refine ⟨r, ?_⟩
  unfold specEH
  rw [if_neg (not_not.2 hL), if_neg (not_not.2 h1), cutDims_ok hs]
  refine bind_ok'.2 ⟨_, lift_ok'.2 rfl, ?_⟩
  rw [if_neg (by omega)]
  exact bind_ok'.2 ⟨r, hr, rfl⟩

end
end Verif.Transfer
