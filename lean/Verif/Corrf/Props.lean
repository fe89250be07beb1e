import Verif.Corrf.Loop
import Verif.Corrf.Strip
/-
Properties C36 (orientation of the operator in a transfer matrix) and C38 (correlation functions of one-site operators).
-/
namespace Verif.Corrf
open Tensor Ctm Ctm.Spec
set_option linter.unusedSectionVars false
variable {K : Type} [RCLike K]

/-- The transposed matrix as a tensor. -/
def transposeT (o : Tensor K) : Tensor K := ⟨o.shape.reverse, fun idx => o.val idx.reverse⟩

/-! ### C38 -/

/-- For every direction, every distance and all operators, if no normalisation vanishes, `corrf_1sO1sO` returns `dist + 1` numbers; number `r` is
the strip with the two operators at distance `r + 1` divided by the strip without them. The operators enter transposed, see C36. -/
theorem C38_values_partial {D : Dims} {st : State K} {env : Env K} {N : Spec.Tensors K} (ht : Tiling st) (hs : FitsState D st) (he : FitsEnv D st env)
    (hN : Spec.Reads st env N) (d : Dir) (c : Coord) (op1 : Tensor K) (op2 : Nat → Tensor K) (dist : Nat) (h1 : op1.shape = [D.p c, D.p c])
    (h2 : ∀ r ≤ dist, (op2 r).shape = [D.p (Spec.ahead d c (r + 1)), D.p (Spec.ahead d c (r + 1))]) (hn : ∀ r ≤ dist, Spec.norm N D d c (r + 2) ≠ 0) :
    ∃ l, corrf11 st env d c op1 op2 dist = .ok l ∧ l.length = dist + 1 ∧
      ∀ r ≤ dist, l[r]? = some (Spec.twoPoint N D d c (Spec.transposed op1) (Spec.transposed (op2 r)) r / Spec.norm N D d c (r + 2)) := by
  obtain ⟨E, e, q⟩ := getEdge_start he hN d c
  obtain ⟨E1, e1, q1⟩ := applyTM_rep ht hs he hN d c (some op1) (fun o ho => by cases ho; exact h1) q
  obtain ⟨E0, e0, q0⟩ := applyTM_rep ht hs he hN d c none (fun o ho => by cases ho) q
  have hone : ∀ f : Spec.Vec K, scaled 1 f = f := fun f => by funext x y z; simp [scaled]
  obtain ⟨l, el, hl, hv⟩ := (loop11_spec ht hs he hN d c (Spec.transposed op1) op2 (dist + 1) 0 E0 E1 1 one_ne_zero
    (fun k hk => by rw [Nat.zero_add]; exact h2 k (by omega)) (by rw [hone]; exact q0) (by rw [hone]; exact q1)).1
    (fun k hk => by rw [Nat.zero_add]; exact hn k (by omega))
  refine ⟨l, ?_, hl, fun r hr => by have := hv r (by omega); rwa [Nat.zero_add] at this⟩
  simp only [corrf11, e, e1, e0, lift_bind]
  rw [ahead_zero] at el
  exact el

/-- If the normalisation vanishes at some distance, the result is not finite. -/
theorem C38_not_finite {D : Dims} {st : State K} {env : Env K} {N : Spec.Tensors K} (ht : Tiling st) (hs : FitsState D st) (he : FitsEnv D st env)
    (hN : Spec.Reads st env N) (d : Dir) (c : Coord) (op1 : Tensor K) (op2 : Nat → Tensor K) (dist : Nat) (h1 : op1.shape = [D.p c, D.p c])
    (h2 : ∀ r ≤ dist, (op2 r).shape = [D.p (Spec.ahead d c (r + 1)), D.p (Spec.ahead d c (r + 1))]) (hn : ∃ r ≤ dist, Spec.norm N D d c (r + 2) = 0) :
    corrf11 st env d c op1 op2 dist = .error .nan := by
  obtain ⟨E, e, q⟩ := getEdge_start he hN d c
  obtain ⟨E1, e1, q1⟩ := applyTM_rep ht hs he hN d c (some op1) (fun o ho => by cases ho; exact h1) q
  obtain ⟨E0, e0, q0⟩ := applyTM_rep ht hs he hN d c none (fun o ho => by cases ho) q
  have hone : ∀ f : Spec.Vec K, scaled 1 f = f := fun f => by funext x y z; simp [scaled]
  obtain ⟨r, hr, hr0⟩ := hn
  have el := (loop11_spec ht hs he hN d c (Spec.transposed op1) op2 (dist + 1) 0 E0 E1 1 one_ne_zero
    (fun k hk => by rw [Nat.zero_add]; exact h2 k (by omega)) (by rw [hone]; exact q0) (by rw [hone]; exact q1)).2
    ⟨r, by omega, by rw [Nat.zero_add]; exact hr0⟩
  simp only [corrf11, e, e1, e0, lift_bind]
  rw [ahead_zero] at el
  exact el

/-- The documented length of the result is `dist`; a finite result never has that length. -/
theorem C38_length_violated {st : State K} {env : Env K} (d : Dir) (c : Coord) (op1 : Tensor K) (op2 : Nat → Tensor K) (dist : Nat) (l : List K)
    (h : corrf11 st env d c op1 op2 dist = .ok l) : l.length ≠ dist := by
  have key : ∀ n r c E0 E1 l, loop11 st env d op2 n r c E0 E1 = .ok l → l.length = n := by
    intro n
    induction n with
    | zero => intro r c E0 E1 l h; simp only [loop11, Except.ok.injEq] at h; simp [← h]
    | succ n ih =>
      intro r c E0 E1 l h
      simp only [loop11, bind, Except.bind] at h
      split at h; · cases h
      split at h; · cases h
      split at h; · cases h
      split at h; · cases h
      split at h; · cases h
      split at h; · cases h
      split at h; · cases h
      cases h
      rename_i h; rw [List.length_cons, ih _ _ _ _ _ h]
  simp only [corrf11, bind, Except.bind] at h
  split at h; · cases h
  split at h; · cases h
  split at h; · cases h
  rw [key _ _ _ _ _ _ h]
  omega

/-! ### C36 -/

theorem transposeT_transposeT (o : Tensor K) : transposeT (transposeT o) = o := by simp [transposeT]

/-- The strip of one site and the one-site network. -/
theorem strip_denotes {D : Dims} {st : State K} {env : Env K} (ht : Tiling st) (hs : FitsState D st) (he : FitsEnv D st env) (d : Dir) (c : Coord)
    (op : Option (Tensor K)) (ho : ∀ o, op = some o → o.shape = [D.p c, D.p c]) :
    ∃ e a S, Rdm.siteEnv env (st.vts c) = some e ∧ st.site c = some a ∧ Rdm.Spec.Fits1 (Rdm.Spec.dims1 D c) e a ∧ strip st env d c op = some S ∧
      Denotes (Rdm.Spec.dims1 D c) S [] (4 :: 7 :: Rdm.Spec.inner1) (4 :: 7 :: Rdm.Spec.inner1)
        (fun σ => Rdm.Spec.rho1 (Rdm.Spec.dims1 D c) e a σ * inserted op (σ 7) (σ 4)) := by
  obtain ⟨e, a, h1, h2, h0, h3⟩ := Rdm.siteEnv_ok hs he c
  have hsite : st.site (st.vts c) = some a := by
    rw [State.site, ht.fix _ (ht.mem c)]; exact h2
  refine ⟨e, a, ?_⟩
  cases d with
  | up => obtain ⟨S, eS, qS⟩ := strip_up (Rdm.Spec.dims1 D c) e a op h3 ho h0 hsite; exact ⟨S, h1, h2, h3, eS, qS⟩
  | left => obtain ⟨S, eS, qS⟩ := strip_left (Rdm.Spec.dims1 D c) e a op h3 ho h0 hsite; exact ⟨S, h1, h2, h3, eS, qS⟩
  | down => obtain ⟨S, eS, qS⟩ := strip_down (Rdm.Spec.dims1 D c) e a op h3 ho h0 hsite; exact ⟨S, h1, h2, h3, eS, qS⟩
  | right => obtain ⟨S, eS, qS⟩ := strip_right (Rdm.Spec.dims1 D c) e a op h3 ho h0 hsite; exact ⟨S, h1, h2, h3, eS, qS⟩

/-- For every direction, whatever operator `op` (or none) is passed, the strip of one site is what `rdm1x1` gives for any operator `o` whose matrix
elements are those of the inserted operator. -/
theorem strip_rdm (eigh : Tensor K → List ℝ × Tensor K) (sl spd : Bool) {D : Dims} {st : State K} {env : Env K} (ht : Tiling st) (hs : FitsState D st)
    (he : FitsEnv D st env) (d : Dir) (c : Coord) (hc : sl = true ∨ c ∈ st.keys) (op : Option (Tensor K))
    (hop : ∀ o, op = some o → o.shape = [D.p c, D.p c]) (o : Tensor K) (ho : o.shape = [D.p c, D.p c])
    (hv : ∀ s' < D.p c, ∀ s < D.p c, o.val [s', s] = inserted op s' s) :
    ∃ S r, strip st env d c op = some S ∧ Rdm.rdm1x1 eigh sl spd st env c (some o) = .ok r ∧ S.val [] = r.val [] := by
  obtain ⟨e, a, S, h1, h2, h3, eS, qS⟩ := strip_denotes ht hs he d c op hop
  have key : ∀ {r : Tensor K} {S' : List Nat}, Denotes (Rdm.Spec.dims1 D c) r [] (4 :: 7 :: Rdm.Spec.inner1) S'
      (fun σ => Rdm.Spec.rho1 (Rdm.Spec.dims1 D c) e a σ * o.val [σ 7, σ 4]) → S.val [] = r.val [] := by
    intro r S' q
    have v1 := qS.val (fun _ => 0) (by simp)
    have v2 := q.val (fun _ => 0) (by simp)
    simp only [List.map_nil] at v1 v2
    rw [v1, v2]
    apply sumOver_congr
    intro τ hτ _
    have g4 : τ 4 < D.p c := hτ 4 (by decide)
    have g7 : τ 7 < D.p c := hτ 7 (by decide)
    simp only [hv _ g7 _ g4]
  cases sl with
  | true =>
    obtain ⟨r, e2, q2⟩ := Rdm.sl1x1_op (Rdm.Spec.dims1 D c) e a o h3 (by rw [ho]; rfl)
    exact ⟨S, r, eS, by simp [Rdm.rdm1x1, Rdm.raw1x1, h1, h2, e2, lift], key q2⟩
  | false =>
    have hk : st.vts c = c := ht.fix c (by simpa using hc)
    obtain ⟨B, r, eB, e2, q2⟩ := Rdm.dl1x1_op (Rdm.Spec.dims1 D c) e a o h3 (by rw [ho]; rfl)
    rw [hk] at h1
    exact ⟨S, r, eS, by simp [Rdm.rdm1x1, Rdm.raw1x1, h1, h2, e2, eB, lift], key q2⟩

/-- For every direction the transfer matrix with a *symmetric* operator gives the expectation value of `rdm1x1` with that operator. Missing: operators
which are not symmetric, for which the claim fails (`C36_transposed`, `C36_violated`). -/
theorem C36_symmetric_partial (eigh : Tensor K → List ℝ × Tensor K) (sl spd : Bool) {D : Dims} {st : State K} {env : Env K} (ht : Tiling st) (hs : FitsState D st)
    (he : FitsEnv D st env) (d : Dir) (c : Coord) (hc : sl = true ∨ c ∈ st.keys) (o : Tensor K) (ho : o.shape = [D.p c, D.p c])
    (hsym : ∀ s' < D.p c, ∀ s < D.p c, o.val [s', s] = o.val [s, s']) :
    ∃ S r, strip st env d c (some o) = some S ∧ Rdm.rdm1x1 eigh sl spd st env c (some o) = .ok r ∧ S.val [] = r.val [] :=
  strip_rdm eigh sl spd ht hs he d c hc (some o) (fun o' h => by cases h; exact ho) o ho hsym

/-- For every operator the transfer matrix gives the expectation value of `rdm1x1` with the *transposed* operator. -/
theorem C36_transposed (eigh : Tensor K → List ℝ × Tensor K) (sl spd : Bool) {D : Dims} {st : State K} {env : Env K} (ht : Tiling st) (hs : FitsState D st)
    (he : FitsEnv D st env) (d : Dir) (c : Coord) (hc : sl = true ∨ c ∈ st.keys) (o : Tensor K) (ho : o.shape = [D.p c, D.p c]) :
    ∃ S r, strip st env d c (some o) = some S ∧ Rdm.rdm1x1 eigh sl spd st env c (some (transposeT o)) = .ok r ∧ S.val [] = r.val [] :=
  strip_rdm eigh sl spd ht hs he d c hc (some o) (fun o' h => by cases h; exact ho) (transposeT o) (by simp [transposeT, ho]) (fun _ _ _ _ => rfl)

/-- Without an operator the strip is the norm: `rdm1x1` with the identity. -/
theorem C36_identity (eigh : Tensor K → List ℝ × Tensor K) (sl spd : Bool) {D : Dims} {st : State K} {env : Env K} (ht : Tiling st) (hs : FitsState D st)
    (he : FitsEnv D st env) (d : Dir) (c : Coord) (hc : sl = true ∨ c ∈ st.keys) :
    ∃ S r, strip st env d c none = some S ∧
      Rdm.rdm1x1 eigh sl spd st env c (some ⟨[D.p c, D.p c], fun idx => if idx.getD 0 0 = idx.getD 1 0 then 1 else 0⟩) = .ok r ∧ S.val [] = r.val [] :=
  strip_rdm eigh sl spd ht hs he d c hc none (fun o' h => by cases h) _ rfl (fun _ _ _ _ => rfl)

/-- The strip of one site in terms of the specification of C38. -/
theorem C36_network {D : Dims} {st : State K} {env : Env K} {N : Spec.Tensors K} (ht : Tiling st) (hs : FitsState D st) (he : FitsEnv D st env)
    (hN : Spec.Reads st env N) (d : Dir) (c : Coord) (o : Tensor K) (ho : o.shape = [D.p c, D.p c]) :
    ∃ S, strip st env d c (some o) = some S ∧ S.val [] = Spec.network N D d c [Spec.transposed o] := by
  obtain ⟨E, e, q⟩ := getEdge_start he hN d c
  obtain ⟨E1, e1, q1⟩ := applyTM_rep ht hs he hN d c (some o) (fun o' h => by cases h; exact ho) q
  obtain ⟨S, eS, vS⟩ := applyEdge_rep he hN d c q1
  refine ⟨S, by simp [strip, e, e1, eS], ?_⟩
  rw [vS]
  simp only [Spec.network, List.length_cons, List.length_nil, Spec.grow, inserted, Nat.zero_add, Nat.sub_self, ahead_zero]

/-! ### A product state -/

/-- All bonds of size one, physical size two. -/
def pDims : Dims := ⟨fun _ => 2, fun _ => 1, fun _ => 1, fun _ => 1, fun _ => 1, fun _ => 1, fun _ => 1⟩
def pSite (v : Nat → K) : Tensor K := ⟨[2, 1, 1, 1, 1], fun idx => v (idx.getD 0 0)⟩
/-- The product state with the vector `v` on every site. -/
def pState (v : Nat → K) : State K := { keys := [(0, 0)], sites := fun _ => some (pSite v), vts := fun _ => (0, 0), lX := 1, lY := 1 }
def pEnv : Env K := { chi := 1, C := fun _ => some ⟨[1, 1], fun _ => 1⟩, T := fun _ => some ⟨[1, 1, 1], fun _ => 1⟩ }
def pTensors (v : Nat → K) : Spec.Tensors K :=
  ⟨fun _ => ⟨[1, 1], fun _ => 1⟩, fun _ => ⟨[1, 1], fun _ => 1⟩, fun _ => ⟨[1, 1], fun _ => 1⟩, fun _ => ⟨[1, 1], fun _ => 1⟩, fun _ => ⟨[1, 1, 1], fun _ => 1⟩,
    fun _ => ⟨[1, 1, 1], fun _ => 1⟩, fun _ => ⟨[1, 1, 1], fun _ => 1⟩, fun _ => ⟨[1, 1, 1], fun _ => 1⟩, fun _ => pSite v⟩

theorem pTiling (v : Nat → K) : Tiling (pState v) := ⟨fun _ _ => rfl, fun _ => by simp [pState], fun c hc => by simp [pState] at hc ⊢; exact hc.symm, by simp [pState]⟩
theorem pSizes (v : Nat → K) {n : Nat} (h : 0 < n) : Sizes (pState v) (fun _ => n) := ⟨fun _ => h, fun _ => rfl⟩
theorem pFitsState (v : Nat → K) : FitsState pDims (pState v) :=
  ⟨fun _ => ⟨_, rfl, rfl⟩, pSizes v (by decide), pSizes v (by decide), pSizes v (by decide)⟩
theorem pFitsEnv (v : Nat → K) : FitsEnv pDims (pState v) pEnv := by
  refine ⟨?_, ?_, ?_, ?_, ?_, ?_, ?_, ?_, pSizes v (by decide), pSizes v (by decide), pSizes v (by decide), pSizes v (by decide)⟩ <;> exact fun _ => ⟨_, rfl, rfl⟩
theorem pReads (v : Nat → K) : Spec.Reads (pState v) pEnv (pTensors v) :=
  ⟨fun _ => rfl, fun _ => rfl, fun _ => rfl, fun _ => rfl, fun _ => rfl, fun _ => rfl, fun _ => rfl, fun _ => rfl, fun _ => rfl⟩

/-- The expectation value in the product state. -/
def pExpect (v : Nat → K) (o : Spec.Op K) : K := ∑ s' ∈ Finset.range 2, ∑ s ∈ Finset.range 2, star (v s') * o s' s * v s

theorem pLayer (v : Nat → K) (o : Spec.Op K) (u l d r : Nat) : Spec.layer (pSite v) o u l d r = pExpect v o := by
  simp [Spec.layer, pExpect, pSite, size]

theorem pStep (v : Nat → K) (d : Dir) (c : Coord) (o : Spec.Op K) (f : Spec.Vec K) (x y z : Nat) :
    Spec.step (pTensors v) pDims d c o f x y z = f 0 0 0 * pExpect v o := by
  cases d <;> simp [Spec.step, Spec.cut, Spec.sides, pDims, Spec.first, Spec.second, Spec.middle, pTensors, pLayer]

theorem pEdge (v : Nat → K) (d : Dir) (c : Coord) (x y z : Nat) : Spec.edge (pTensors v) pDims d c x y z = 1 := by
  cases d <;> simp [Spec.edge, pDims, pTensors]

theorem pDot (d : Dir) (c : Coord) (f g : Spec.Vec K) : Spec.dot (Spec.cut pDims d c) f g = f 0 0 0 * g 0 0 0 := by
  cases d <;> simp [Spec.dot, Spec.cut, pDims]

theorem pGrow (v : Nat → K) (d : Dir) (c : Coord) (os : List (Spec.Op K)) (f : Spec.Vec K) (g : K) (hf : ∀ x y z, f x y z = g) (x y z : Nat) :
    Spec.grow (pTensors v) pDims d c os f x y z = g * (os.map (pExpect v)).prod := by
  induction os generalizing c f g with
  | nil => simp [Spec.grow, hf]
  | cons o os ih =>
    simp only [Spec.grow, List.map_cons, List.prod_cons]
    rw [ih _ _ (g * pExpect v o) (fun x y z => by rw [pStep, hf]), mul_assoc]

theorem pNetwork (v : Nat → K) (d : Dir) (c : Coord) (os : List (Spec.Op K)) : Spec.network (pTensors v) pDims d c os = (os.map (pExpect v)).prod := by
  rw [Spec.network, pDot, pEdge, mul_one, pGrow v d c os _ 1 (pEdge v _ _), one_mul]

/-- In the product state with vector `(1, i)` the transfer matrix with the raising operator gives `-i`, while `rdm1x1` gives `i`. -/
theorem C36_violated (eigh : Tensor ℂ → List ℝ × Tensor ℂ) (sl spd : Bool) (d : Dir) :
    ∃ S r, strip (pState (fun s => if s = 0 then 1 else Complex.I)) pEnv d (0, 0) (some (⟨[2, 2], fun idx => if idx = [0, 1] then 1 else 0⟩ : Tensor ℂ)) = some S ∧
      Rdm.rdm1x1 eigh sl spd (pState (fun s => if s = 0 then 1 else Complex.I)) pEnv (0, 0) (some (⟨[2, 2], fun idx => if idx = [0, 1] then 1 else 0⟩ : Tensor ℂ)) = .ok r ∧
      S.val [] = - Complex.I ∧ r.val [] = Complex.I := by
  obtain ⟨v, hv⟩ : ∃ v : Nat → ℂ, v = fun s => if s = 0 then 1 else Complex.I := ⟨_, rfl⟩
  obtain ⟨o, ho⟩ : ∃ o : Tensor ℂ, o = ⟨[2, 2], fun idx => if idx = [0, 1] then 1 else 0⟩ := ⟨_, rfl⟩
  rw [← hv, ← ho]
  have so : o.shape = [2, 2] := by rw [ho]
  obtain ⟨S, eS, vS⟩ := C36_network (pTiling v) (pFitsState v) (pFitsEnv v) (pReads v) d (0, 0) o so
  obtain ⟨S', eS', vS'⟩ := C36_network (pTiling v) (pFitsState v) (pFitsEnv v) (pReads v) d (0, 0) (transposeT o) (by rw [transposeT, so]; rfl)
  obtain ⟨T, r, eT, er, hr⟩ := C36_transposed eigh sl spd (pTiling v) (pFitsState v) (pFitsEnv v) d (0, 0) (Or.inr (by simp [pState])) (transposeT o)
    (by rw [transposeT, so]; rfl)
  rw [transposeT_transposeT] at er
  rw [eS'] at eT
  cases eT
  refine ⟨S, r, eS, er, ?_, ?_⟩
  · rw [vS, pNetwork]
    simp [pExpect, Finset.sum_range_succ, Spec.transposed, ho, hv]
  · rw [← hr, vS', pNetwork]
    simp [pExpect, Finset.sum_range_succ, Spec.transposed, transposeT, ho, hv]

/-! ### Hypotheses are met -/

/-- All normalisations of the product state are powers of the squared norm. -/
theorem pNorm (v : Nat → K) (d : Dir) (c : Coord) (n : Nat) : Spec.norm (pTensors v) pDims d c n = pExpect v Spec.one ^ n := by
  rw [Spec.norm, pNetwork]; simp

example (d : Dir) (dist : Nat) := C38_values_partial (pTiling (fun s => if s = 0 then (1 : ℝ) else 2)) (pFitsState _) (pFitsEnv _) (pReads _) d (3, -5) Rdm.exRaise
  (fun _ => Rdm.exRaise) dist rfl (fun _ _ => rfl) (fun r _ => by
    rw [pNorm]; exact pow_ne_zero _ (by simp [pExpect, Spec.one, Finset.sum_range_succ]; norm_num))
example (d : Dir) (dist : Nat) := C38_not_finite (pTiling (fun s => if s = 0 then (0 : ℝ) else 0)) (pFitsState _) (pFitsEnv _) (pReads _) d (3, -5) Rdm.exRaise
  (fun _ => Rdm.exRaise) dist rfl (fun _ _ => rfl) ⟨0, Nat.zero_le _, by rw [pNorm]; simp [pExpect]⟩
/-- The ladder operators two sites apart in the product state `(1, 2)`: every correlation is `(2/5)^2`. -/
example (d : Dir) (dist : Nat) : ∃ l, corrf11 (pState (fun s => if s = 0 then (1 : ℝ) else 2)) pEnv d (3, -5) Rdm.exRaise (fun _ => Rdm.exRaise) dist = .ok l ∧
    ∀ r ≤ dist, l[r]? = some (4 / 25) := by
  obtain ⟨l, h1, -, h3⟩ := C38_values_partial (pTiling (fun s => if s = 0 then (1 : ℝ) else 2)) (pFitsState _) (pFitsEnv _) (pReads _) d (3, -5) Rdm.exRaise
    (fun _ => Rdm.exRaise) dist rfl (fun _ _ => rfl) (fun r _ => by
      rw [pNorm]; exact pow_ne_zero _ (by simp [pExpect, Spec.one, Finset.sum_range_succ]; norm_num))
  refine ⟨l, h1, fun r hr => ?_⟩
  rw [h3 r hr, pNorm, Spec.twoPoint, pNetwork]
  have hone : pExpect (fun s => if s = 0 then (1 : ℝ) else 2) Spec.one = 5 := by simp [pExpect, Spec.one, Finset.sum_range_succ]; norm_num
  have hr1 : pExpect (fun s => if s = 0 then (1 : ℝ) else 2) (Spec.transposed Rdm.exRaise) = 2 := by
    simp [pExpect, Spec.transposed, Rdm.exRaise, Finset.sum_range_succ]
  simp only [List.map_cons, List.map_append, List.map_replicate, List.map_nil, List.prod_cons, List.prod_append, List.prod_replicate, List.prod_nil, hone, hr1]
  congr 1
  field_simp
  ring
example (eigh : Tensor ℝ → List ℝ × Tensor ℝ) (d : Dir) := C36_transposed eigh true true (exTiling (exDims 2 3)) (exFitsState (by decide) (by decide)) Rdm.cellFits d (1, 0)
  (Or.inl rfl) Rdm.exRaise rfl
example (eigh : Tensor ℝ → List ℝ × Tensor ℝ) (d : Dir) := C36_identity eigh true true (exTiling (exDims 2 3)) (exFitsState (by decide) (by decide)) Rdm.cellFits d (1, 0)
  (Or.inl rfl)
example (eigh : Tensor ℝ → List ℝ × Tensor ℝ) (d : Dir) := C36_symmetric_partial eigh false true (exTiling (exDims 2 3)) (exFitsState (by decide) (by decide)) Rdm.cellFits d (1, 0)
  (Or.inr (by decide)) (⟨[2, 2], fun idx => (idx.sum : ℝ)⟩) rfl (fun s' _ s _ => by simp [Nat.add_comm, add_comm])

end Verif.Corrf
