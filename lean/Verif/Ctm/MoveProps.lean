import Verif.Ctm.MoveFrame
/-
Properties C24, C61 and C62.
-/
namespace Verif.Ctm
open Tensor Spec
set_option linter.unusedSectionVars false
variable {K : Type} [RCLike K]

/-! ### Normalisation -/

theorem le_foldr_max {xs : List ℝ} {x : ℝ} (h : x ∈ xs) : x ≤ xs.foldr max 0 := by
  induction xs with
  | nil => simp at h
  | cons y xs ih =>
    rw [List.foldr_cons]
    rcases List.mem_cons.1 h with rfl | h
    · exact le_max_left _ _
    · exact (ih h).trans (le_max_right _ _)

theorem foldr_max_mem {xs : List ℝ} (h : xs.foldr max 0 ≠ 0) : xs.foldr max 0 ∈ xs := by
  induction xs with
  | nil => simp at h
  | cons y xs ih =>
    rw [List.foldr_cons] at h ⊢
    rcases le_total y (xs.foldr max 0) with hy | hy
    · rw [max_eq_right hy] at h ⊢
      exact List.mem_cons_of_mem _ (ih h)
    · rw [max_eq_left hy]; simp

theorem vecNorm_nonneg (inf : Bool) (A : Tensor K) : 0 ≤ vecNorm inf A := by
  unfold vecNorm
  split
  · generalize (indices A.shape).map (fun i => ‖A.val i‖) = xs
    induction xs with
    | nil => simp
    | cons y ys ih => simp [ih]
  · exact Real.sqrt_nonneg _

theorem vecNorm_same (inf : Bool) {A B : Tensor K} (h : Same A B) : vecNorm inf A = vecNorm inf B := by
  have : (indices A.shape).map (fun i => ‖A.val i‖) = (indices B.shape).map (fun i => ‖B.val i‖) := by
    rw [← h.1]
    exact List.map_congr_left (fun i hi => by rw [h.2 i (mem_indices.1 hi)])
  simp only [vecNorm, this]

theorem normalize_same (inf : Bool) {A B : Tensor K} (h : Same A B) : normalize inf A = normalize inf B := by
  unfold normalize
  rw [vecNorm_same inf h]
  split
  · rfl
  · congr 1
    refine canon_eq ⟨h.1, fun idx hi => ?_⟩
    simp only
    rw [h.2 idx hi]

theorem normalize_ne_raise (inf : Bool) (A : Tensor K) : normalize inf A ≠ .error .raise := by
  unfold normalize; split <;> simp

theorem normalize_ok {inf : Bool} {A B : Tensor K} (h : normalize inf A = .ok B) : Normalised inf A B ∧ ∀ n ∈ A.shape, 0 < n := by
  unfold normalize at h
  split at h
  · cases h
  rename_i hv
  simp only [Except.ok.injEq] at h
  subst h
  have hpos : 0 < vecNorm inf A := lt_of_le_of_ne (vecNorm_nonneg _ _) (Ne.symm hv)
  set s := vecNorm inf A with hs
  have hsK : ((s : ℝ) : K) ≠ 0 := by exact_mod_cast hpos.ne'
  have hval : ∀ idx, InB A.shape idx → (canon (⟨A.shape, fun idx => A.val idx / ((s : ℝ) : K)⟩ : Tensor K)).val idx = A.val idx / (s : K) := by
    intro idx hi; simp [canon, hi]
  have hnorm : ∀ idx, InB A.shape idx → ‖(canon (⟨A.shape, fun idx => A.val idx / ((s : ℝ) : K)⟩ : Tensor K)).val idx‖ = ‖A.val idx‖ / s := by
    intro idx hi; rw [hval idx hi, norm_div, RCLike.norm_ofReal, abs_of_pos hpos]
  refine ⟨⟨rfl, ⟨s, hpos, fun idx hi => by rw [hval idx hi, div_mul_cancel₀ _ hsK]⟩, ?_, ?_⟩, ?_⟩
  · intro hi
    have hsx : s = ((indices A.shape).map (fun i => ‖A.val i‖)).foldr max 0 := by simp [hs, vecNorm, hi]
    refine ⟨fun idx hx => ?_, ?_⟩
    · rw [hnorm idx hx, div_le_one hpos, hsx]
      exact le_foldr_max (List.mem_map_of_mem (f := fun i => ‖A.val i‖) (mem_indices.2 hx))
    · have := foldr_max_mem (hsx ▸ hpos.ne')
      obtain ⟨idx, hx, e⟩ := List.mem_map.1 this
      refine ⟨idx, mem_indices.1 hx, ?_⟩
      rw [hnorm idx (mem_indices.1 hx), e, ← hsx, div_self hpos.ne']
  · intro hi
    have hsx : s ^ 2 = ((indices A.shape).map (fun i => ‖A.val i‖ ^ 2)).sum := by
      simp only [hs, vecNorm, hi, Bool.false_eq_true, if_false, List.map_map]
      rw [Real.sq_sqrt]
      · rfl
      · apply List.sum_nonneg
        simp only [List.mem_map, Function.comp]
        rintro _ ⟨i, _, rfl⟩; positivity
    have : (indices A.shape).map (fun idx => ‖(canon (⟨A.shape, fun idx => A.val idx / ((s : ℝ) : K)⟩ : Tensor K)).val idx‖ ^ 2)
        = (indices A.shape).map (fun i => ‖A.val i‖ ^ 2 * (1 / s ^ 2)) := by
      refine List.map_congr_left (fun i hi => ?_)
      rw [hnorm i (mem_indices.1 hi), div_pow]; ring
    rw [this, List.sum_map_mul_right, ← hsx]
    field_simp
  · intro n hn
    rcases Nat.eq_zero_or_pos n with h0 | h0
    · exfalso
      subst h0
      have : indices A.shape = [] := List.eq_nil_of_length_eq_zero (by rw [length_indices]; exact List.prod_eq_zero hn)
      apply hv
      show vecNorm inf A = 0
      unfold vecNorm
      simp [this]
    · exact h0

/-! ### C24 -/

theorem replaced_iff (d : Dir) (v : Coord) : Replaced d v ↔ v = d.c1 ∨ v = d.c2 ∨ v = d.vec := by
  cases d <;> simp only [Replaced, Dir.c1, Dir.c2, Dir.vec] <;> tauto

/-- **C24**. After a successful move in direction `d`:
the tensors adjacent to that edge at vertex `x` are the normalised results of absorbing the neighbour `x + d` with projectors,
where neighbour tensors and all projectors are taken from the environment before the move; every other entry and `chi` are
unchanged. -/
theorem C24_move {args : Args} {svd : Tensor K → Nat → Svd K} {d : Dir} {st : State K} {env env' : Env K} (ht : Tiling st)
    (h : ctmMove args svd d st env = .ok env') :
    env'.chi = env.chi ∧
    (∀ x v, ¬ Replaced d v → env'.C (x, v) = env.C (x, v) ∧ env'.T (x, v) = env.T (x, v)) ∧
    (∀ x v, (x ∉ st.keys ∨ v = d.vec) → env'.C (x, v) = env.C (x, v)) ∧
    (∀ x v, (x ∉ st.keys ∨ v ≠ d.vec) → env'.T (x, v) = env.T (x, v)) ∧
    ∃ P : Proj K, (∀ c, P (st.vts c) = projectors args svd st env d (st.vts c) ∧ P (st.vts c) ≠ none) ∧
      ∀ x, ∃ a b t a' b' t', absorb st env args.dl P d (st.vts (x.1 + d.vec.1, x.2 + d.vec.2)) = some (a, b, t) ∧
        env'.C (st.vts x, d.c1) = some a' ∧ Normalised args.inf a a' ∧
        env'.C (st.vts x, d.c2) = some b' ∧ Normalised args.inf b b' ∧
        env'.T (st.vts x, d.vec) = some t' ∧ Normalised args.inf t t' := by
  obtain ⟨hall, ns, hns, rfl⟩ := ctmMove_ok ht h
  obtain ⟨f1, f2, f3⟩ := foldl_frame st d ns env
  have hfst : ns.map Prod.fst = st.keys := map_fst_of_forall₂ (fun a b hb => (siteStep_ok hb).1) hns
  have htk : ∀ x, x ∉ st.keys → ∀ n ∈ ns, target st d n.1 ≠ x := fun x hx n _ e => hx (e ▸ ht.mem _)
  refine ⟨f3, fun x v hv => ?_, fun x v hv => ?_, fun x v hv => ?_, allProj args svd d st env, fun c => ?_, fun x => ?_⟩
  · rw [replaced_iff] at hv
    simp only [not_or] at hv
    exact ⟨f1 (x, v) (.inl ⟨hv.1, hv.2.1⟩), f2 (x, v) (.inl hv.2.2)⟩
  · apply f1
    rcases hv with hv | rfl
    · exact .inr (htk x hv)
    · left; cases d <;> simp [Dir.vec, Dir.c1, Dir.c2]
  · apply f2
    rcases hv with hv | hv
    · exact .inr (htk x hv)
    · exact .inl hv
  · have hm := ht.mem c
    obtain ⟨p, hp⟩ := hall _ hm
    simp [allProj, hm, hp]
  · have hm := ht.mem (x.1 + d.vec.1, x.2 + d.vec.2)
    obtain ⟨n, hn, hs⟩ := forall₂_mem_left hns hm
    obtain ⟨e1, a, b, t, ha, na, nb, nt⟩ := siteStep_ok hs
    have hnd : (ns.map (fun n => target st d n.1)).Nodup := by
      have : ns.map (fun n => target st d n.1) = st.keys.map (target st d) := by rw [← hfst, List.map_map]; rfl
      rw [this]
      exact ht.nodup.map_on (fun c hc c' hc' e => target_inj ht d hc hc' e)
    obtain ⟨g1, g2, g3⟩ := foldl_assigned st d ns env hnd n hn
    rw [e1, target_source ht] at g1 g2 g3
    exact ⟨a, b, t, _, _, _, ha, g1, (normalize_ok na).1, g2, (normalize_ok nb).1, g3, (normalize_ok nt).1⟩

/-! ### C61, C62 -/

theorem Spec.Tiling.toDl {st : State K} (ht : Tiling st) : Tiling st.dl := ⟨ht.shift, ht.mem, ht.fix, ht.nodup⟩

theorem vts_vts {st : State K} (ht : Tiling st) (x : Coord) : st.vts (st.vts x) = st.vts x := ht.fix _ (ht.mem x)

theorem bondE_vts {D : Dims} {st : State K} {env : Env K} (ht : Tiling st) (he : FitsEnv D st env) (d : Dir) (x : Coord) :
    bondE D d (st.vts x) = bondE D d x := by
  cases d
  · exact he.eu.2 x
  · exact Sizes.dn_vts ht he.el x
  · exact Sizes.rt_vts ht he.ed x
  · exact he.er.2 x

theorem bondS_vts {D : Dims} {st : State K} (ht : Tiling st) (hs : FitsState D st) (d : Dir) (x : Coord) :
    bondS D d (st.vts x) = bondS D d x := by
  cases d
  · exact hs.L.2 x
  · exact Sizes.dn_vts ht hs.U x
  · exact Sizes.rt_vts ht hs.L x
  · exact hs.U.2 x

/-- The number of columns of the projectors. -/
def ncols (st : State K) (P : Proj K) (x : Coord) : Nat := match P (st.vts x) with
  | some (p, _) => p.size 1
  | none => 0

theorem ncols_vts {st : State K} (ht : Tiling st) (P : Proj K) (x : Coord) : ncols st P (st.vts x) = ncols st P x := by
  simp only [ncols, vts_vts ht]

theorem pfits {args : Args} {svd : Tensor K → Nat → Svd K} (hb : Backend svd) {D : Dims} {st : State K} {env : Env K} (ht : Tiling st)
    (hs : FitsState D st) (he : FitsEnv D st env) (d : Dir)
    (hall : ∀ c ∈ st.keys, ∃ p, projectors { args with dl := true } svd st.dl env d c = some p) :
    PFits D st d (allProj { args with dl := true } svd d st.dl env) (ncols st (allProj { args with dl := true } svd d st.dl env)) ∧
    (Truncating svd → ∀ x, ncols st (allProj { args with dl := true } svd d st.dl env) x ≤ env.chi) := by
  suffices h : ∀ x, (∃ p pt, allProj { args with dl := true } svd d st.dl env (st.vts x) = some (p, pt) ∧
      p.shape = [bondE D d x * (bondS D d x * bondS D d x), ncols st (allProj { args with dl := true } svd d st.dl env) x] ∧
      pt.shape = [bondE D d x * (bondS D d x * bondS D d x), ncols st (allProj { args with dl := true } svd d st.dl env) x]) ∧
      (Truncating svd → ncols st (allProj { args with dl := true } svd d st.dl env) x ≤ env.chi) from
    ⟨fun x => (h x).1, fun ht x => (h x).2 ht⟩
  intro x
  have hm := ht.mem x
  obtain ⟨p, hp⟩ := hall _ hm
  rcases projectors_eq (args := args) hb hs he d (st.vts x) with ⟨h, -⟩ | ⟨P, Pt, n, h, -, s1, s2, M, hM⟩
  · rw [hp] at h; cases h
  · have e : allProj { args with dl := true } svd d st.dl env (st.vts x) = some (P, Pt) := by
      simp only [allProj]; exact (if_pos hm).trans h
    have en : ncols st (allProj { args with dl := true } svd d st.dl env) x = n := by simp [ncols, e, size, s1]
    rw [bondE_vts ht he, bondS_vts ht hs] at s1 s2
    exact ⟨⟨P, Pt, e, by rw [en]; exact s1, by rw [en]; exact s2⟩, fun htr => by rw [en]; exact hM.trans (htr M _)⟩

theorem absorb_ok {D : Dims} {st : State K} {env : Env K} (ht : Tiling st) (hs : FitsState D st) (he : FitsEnv D st env) {P : Proj K}
    {n : Coord → Nat} {d : Dir} (hP : PFits D st d P n) (c : Coord) (hc : st.vts c = c) :
    ∃ a b t, absorb st.dl env true P d c = some (a, b, t) ∧
      ((d = .right → D.L c = D.L (rt c)) → ∃ t', absorb st env false P d c = some (a, b, t') ∧ Same t t') := by
  cases d with
  | up => obtain ⟨a, b, t, h, h', -⟩ := absorbUp_ok ht hs he hP c hc; exact ⟨a, b, t, h, fun _ => h'⟩
  | left => obtain ⟨a, b, t, h, h', -⟩ := absorbLeft_ok ht hs he hP c hc; exact ⟨a, b, t, h, fun _ => h'⟩
  | down => obtain ⟨a, b, t, h, h', -⟩ := absorbDown_ok ht hs he hP c hc; exact ⟨a, b, t, h, fun _ => h'⟩
  | right => obtain ⟨a, b, t, h, h', -⟩ := absorbRight_ok ht hs he hP c hc; exact ⟨a, b, t, h, fun e => h' (e rfl)⟩

theorem lift_error {α β : Type} {o : Option α} {f : α → Except Err β} : o = none → (lift o >>= f) = .error .raise := by
  rintro rfl; rfl

theorem projStep_ne_nan (args : Args) (svd : Tensor K → Nat → Svd K) (d : Dir) (st : State K) (env : Env K) (c : Coord) :
    projStep args svd d st env c ≠ .error .nan := by
  unfold projStep
  cases projectors args svd st env d c <;> simp [lift, bind, Except.bind, pure, Except.pure]

theorem ctmMove_congr {args args' : Args} {svd : Tensor K → Nat → Svd K} {d : Dir} {st st' : State K} {env : Env K} (hk : st'.keys = st.keys)
    (hv : st'.vts = st.vts) (h1 : ∀ c ∈ st.keys, projStep args svd d st env c = projStep args' svd d st' env c)
    (h2 : ∀ Ps, st.keys.mapM (projStep args svd d st env) = .ok Ps → ∀ c ∈ st.keys,
      siteStep args d st env (ofList Ps) c = siteStep args' d st' env (ofList Ps) c) :
    ctmMove args svd d st env = ctmMove args' svd d st' env := by
  have ha : assign st' d = assign st d := by funext e n; simp only [assign, hv]
  have e1 := mapM_congr h1
  unfold ctmMove newTensors
  rw [hk, ha, ← e1]
  cases hp : st.keys.mapM (projStep args svd d st env) with
  | error e => rfl
  | ok Ps =>
    have e2 := mapM_congr (h2 Ps hp)
    simp only [bind, Except.bind, e2]

/-- One move in both modes: equal results. -/
theorem move_eq {args : Args} {svd : Tensor K → Nat → Svd K} (hb : Backend svd) {D : Dims} {st : State K} {env : Env K} (ht : Tiling st)
    (hs : FitsState D st) (he : FitsEnv D st env) (d : Dir) (hd : d = .right → ∀ c, D.L c = D.L (rt c)) :
    ctmMove { args with dl := true } svd d st.dl env = ctmMove { args with dl := false } svd d st env := by
  refine ctmMove_congr (by simp [State.dl]) (by simp [State.dl]) (fun c _ => ?_) (fun Ps hp c hc => ?_)
  · unfold projStep
    rcases projectors_eq (args := args) hb hs he d c with ⟨h, h'⟩ | ⟨P, Pt, n, h, h', -⟩ <;> rw [h, h']
  · obtain ⟨hP, hall⟩ := ofList_eq ht.toDl.nodup hp
    obtain ⟨hpf, hchi⟩ := pfits hb ht hs he d hall
    rw [hP]
    obtain ⟨a, b, t, e, e'⟩ := absorb_ok ht hs he hpf c (ht.fix c hc)
    obtain ⟨t', e', hst⟩ := e' (fun h => hd h c)
    unfold siteStep
    simp only [e, e', lift, bind, Except.bind, normalize_same args.inf hst]

theorem Has.of_some {o : Option (Tensor K)} {t : Tensor K} {sh : List Nat} (h : o = some t) (h' : t.shape = sh) : Has o sh := ⟨t, h, h'⟩

/-- One double-layer move: no shape error with the 4X4 method, and the new environment fits. -/
theorem move_fits {args : Args} {svd : Tensor K → Nat → Svd K} (hb : Backend svd) {D : Dims} {st : State K} {env : Env K} (ht : Tiling st)
    (hs : FitsState D st) (he : FitsEnv D st env) (d : Dir) :
    (args.m4x4 = true → ctmMove { args with dl := true } svd d st.dl env ≠ .error .raise) ∧
    ∀ env', ctmMove { args with dl := true } svd d st.dl env = .ok env' → ∃ D', D'.p = D.p ∧ D'.U = D.U ∧ D'.L = D.L ∧ (∀ d', d' ≠ d → D'.edge d' = D.edge d') ∧
      (Truncating svd → ∀ x, D'.edge d x ≤ env.chi) ∧ FitsEnv D' st env' := by
  constructor
  · intro hm h
    unfold ctmMove newTensors at h
    cases hp : st.dl.keys.mapM (projStep { args with dl := true } svd d st.dl env) with
    | error e =>
      obtain ⟨c, hc, h'⟩ := mapM_error hp
      obtain ⟨P, Pt, n, h'', -⟩ := projectors_ok hm hb hs he d c
      unfold projStep at h'
      rw [h''] at h'
      simp [lift, bind, Except.bind, pure, Except.pure] at h'
    | ok Ps =>
      obtain ⟨hP, hall⟩ := ofList_eq (st := st.dl) ht.nodup hp
      obtain ⟨hpf, hchi⟩ := pfits hb ht hs he d hall
      simp only [hp, bind, Except.bind, hP] at h
      cases hq : st.dl.keys.mapM (siteStep { args with dl := true } d st.dl env (allProj { args with dl := true } svd d st.dl env)) with
      | ok ns => simp [hq, pure, Except.pure] at h
      | error e =>
        simp only [hq, Except.error.injEq] at h
        subst h
        obtain ⟨c, hc, h'⟩ := mapM_error hq
        obtain ⟨a, b, t, e, -⟩ := absorb_ok ht hs he hpf c (ht.fix c hc)
        unfold siteStep at h'
        rw [e] at h'
        simp only [lift, bind, Except.bind] at h'
        cases ha : normalize args.inf a with
        | error e => simp only [ha, Except.error.injEq] at h'; subst h'; exact normalize_ne_raise _ _ ha
        | ok a' =>
          cases hb' : normalize args.inf b with
          | error e => simp only [ha, hb', Except.error.injEq] at h'; subst h'; exact normalize_ne_raise _ _ hb'
          | ok b' =>
            cases ht' : normalize args.inf t with
            | error e => simp only [ha, hb', ht', Except.error.injEq] at h'; subst h'; exact normalize_ne_raise _ _ ht'
            | ok t' => simp [ha, hb', ht', pure, Except.pure] at h'
  · intro env' h
    obtain ⟨hall, ns, hns, rfl⟩ := ctmMove_ok ht.toDl h
    obtain ⟨hpf, hchi⟩ := pfits hb ht hs he d hall
    set P := allProj { args with dl := true } svd d st.dl env with hPdef
    set n := ncols st P with hn
    obtain ⟨f1, f2, -⟩ := foldl_frame st.dl d ns env
    have hfst : ns.map Prod.fst = st.keys := map_fst_of_forall₂ (fun a b hb => (siteStep_ok hb).1) hns
    have hnd : (ns.map (fun n => target st.dl d n.1)).Nodup := by
      have : ns.map (fun n => target st.dl d n.1) = st.keys.map (target st.dl d) := by rw [← hfst, List.map_map]; rfl
      rw [this]
      exact ht.nodup.map_on (fun c hc c' hc' e => target_inj ht.toDl d hc hc' e)
    have hnv : ∀ x, n (st.vts x) = n x := ncols_vts ht P
    -- the tensors at the vertex next to `y`
    have key : ∀ y, ∃ a b t a' b' t', absorb st.dl env true P d (st.vts y) = some (a, b, t) ∧
        (ns.foldl (assign st.dl d) env).C (st.vts (y.1 - d.vec.1, y.2 - d.vec.2), d.c1) = some a' ∧
        (ns.foldl (assign st.dl d) env).C (st.vts (y.1 - d.vec.1, y.2 - d.vec.2), d.c2) = some b' ∧
        (ns.foldl (assign st.dl d) env).T (st.vts (y.1 - d.vec.1, y.2 - d.vec.2), d.vec) = some t' ∧
        a'.shape = a.shape ∧ b'.shape = b.shape ∧ t'.shape = t.shape ∧ ∀ k ∈ t.shape, 0 < k := by
      intro y
      obtain ⟨m, hm, hstep⟩ := forall₂_mem_left hns (ht.mem y)
      obtain ⟨e1, a, b, t, ha, na, nb, nt⟩ := siteStep_ok hstep
      obtain ⟨g1, g2, g3⟩ := foldl_assigned st.dl d ns env hnd m hm
      have := ht.shift y (-d.vec.1, -d.vec.2)
      simp only [← sub_eq_add_neg] at this
      rw [e1, show target st.dl d (st.vts y) = st.vts (y.1 - d.vec.1, y.2 - d.vec.2) from this] at g1 g2 g3
      exact ⟨a, b, t, _, _, _, ha, g1, g2, g3, (normalize_ok na).1.shape, (normalize_ok nb).1.shape, (normalize_ok nt).1.shape, (normalize_ok nt).2⟩
    have hC : ∀ x v, v ≠ d.c1 → v ≠ d.c2 → (ns.foldl (assign st.dl d) env).C (x, v) = env.C (x, v) := fun x v h1 h2 => f1 (x, v) (.inl ⟨h1, h2⟩)
    have hT : ∀ x v, v ≠ d.vec → (ns.foldl (assign st.dl d) env).T (x, v) = env.T (x, v) := fun x v h1 => f2 (x, v) (.inl h1)
    generalize ns.foldl (assign st.dl d) env = env' at key hC hT
    clear hns hnd hfst f1 f2 h ns
    cases d with
    | up =>
      have sh : ∀ y, Has (env'.C (st.vts (dn y), (1, -1))) [n (rt y), D.er (dn y)] ∧ Has (env'.C (st.vts (dn y), (-1, -1))) [D.el (dn y), n y] ∧
          Has (env'.T (st.vts (dn y), (0, -1))) [n y, D.U (dn y) * D.U (dn y), n (rt y)] ∧ 0 < n y := by
        intro y
        obtain ⟨a, b, t, a', b', t', e, g1, g2, g3, s1, s2, s3, hpos⟩ := key y
        obtain ⟨a2, b2, t2, e2, -, sa, sb, st'⟩ := absorbUp_ok ht hs he hpf (st.vts y) (vts_vts ht y)
        obtain ⟨rfl, rfl, rfl⟩ : a = a2 ∧ b = b2 ∧ t = t2 := by
          have := e.symm.trans e2; simpa using this
        simp only [Dir.vec, Dir.c1, Dir.c2, sub_zero, sub_neg_eq_add, mk_dn] at g1 g2 g3
        have r1 : n (rt (st.vts y)) = n (rt y) := by
          rw [← hnv (rt (st.vts y)), ← hnv (rt y)]
          have := ht.shift y (1, 0); simp only [add_zero] at this; exact congrArg n this
        rw [Sizes.dn_vts ht he.er, r1] at sa
        rw [Sizes.dn_vts ht he.el, hnv] at sb
        rw [Sizes.dn_vts ht hs.U, r1, hnv] at st'
        exact ⟨⟨a', g1, s1.trans sa⟩, ⟨b', g2, s2.trans sb⟩, ⟨t', g3, s3.trans st'⟩, hpos _ (by rw [st']; simp)⟩
      refine ⟨{ D with eu := fun x => n (x.1, x.2 - 1) }, rfl, rfl, rfl, fun d' hd' => by cases d' <;> first | rfl | exact absurd rfl hd', fun htr x => hchi htr _, ?_⟩
      have hx : ∀ x : Coord, dn (x.1, x.2 - 1) = x := fun x => by simp [dn]
      refine ⟨fun x => ?_, fun x => ?_, fun x => ?_, fun x => ?_, fun x => ?_, fun x => ?_, fun x => ?_, fun x => ?_, ⟨fun x => (sh (x.1, x.2 - 1)).2.2.2, fun x => ?_⟩, he.el, he.ed, he.er⟩
      · have := (sh (x.1, x.2 - 1)).2.1; rw [hx] at this; exact this
      · have := (sh (x.1, x.2 - 1)).1; rw [hx] at this; exact this
      · rw [hC _ _ (by decide) (by decide)]; exact he.rd x
      · rw [hC _ _ (by decide) (by decide)]; exact he.ld x
      · have := (sh (x.1, x.2 - 1)).2.2.1; rw [hx] at this; exact this
      · rw [hT _ _ (by decide)]; exact he.tl x
      · rw [hT _ _ (by decide)]; exact he.td x
      · rw [hT _ _ (by decide)]; exact he.tr x
      · have := ht.shift x (0, -1)
        simp only [add_zero, ← sub_eq_add_neg] at this
        show n _ = n _
        rw [← hnv ((st.vts x).1, (st.vts x).2 - 1), ← hnv (x.1, x.2 - 1), this]
    | left =>
      have sh : ∀ y : Coord, Has (env'.C (st.vts (rt y), (-1, -1))) [n (y.1, y.2 - 1), D.eu (rt y)] ∧ Has (env'.C (st.vts (rt y), (-1, 1))) [n y, D.ed (rt y)] ∧
          Has (env'.T (st.vts (rt y), (-1, 0))) [n (y.1, y.2 - 1), n y, D.L (rt y) * D.L (rt y)] ∧ 0 < n y := by
        intro y
        obtain ⟨a, b, t, a', b', t', e, g1, g2, g3, s1, s2, s3, hpos⟩ := key y
        obtain ⟨a2, b2, t2, e2, -, sa, sb, st'⟩ := absorbLeft_ok ht hs he hpf (st.vts y) (vts_vts ht y)
        obtain ⟨rfl, rfl, rfl⟩ : a = a2 ∧ b = b2 ∧ t = t2 := by
          have := e.symm.trans e2; simpa using this
        simp only [Dir.vec, Dir.c1, Dir.c2, sub_zero, sub_neg_eq_add, mk_rt] at g1 g2 g3
        have r1 : n ((st.vts y).1, (st.vts y).2 - 1) = n (y.1, y.2 - 1) := by
          rw [← hnv ((st.vts y).1, (st.vts y).2 - 1), ← hnv (y.1, y.2 - 1)]
          have := ht.shift y (0, -1); simp only [add_zero, ← sub_eq_add_neg] at this; exact congrArg n this
        rw [Sizes.rt_vts ht he.eu, r1] at sa
        rw [Sizes.rt_vts ht he.ed, hnv] at sb
        rw [Sizes.rt_vts ht hs.L, r1, hnv] at st'
        exact ⟨⟨a', g1, s1.trans sa⟩, ⟨b', g2, s2.trans sb⟩, ⟨t', g3, s3.trans st'⟩, hpos _ (by rw [st']; simp)⟩
      refine ⟨{ D with el := fun x => n (x.1 - 1, x.2 - 1) }, rfl, rfl, rfl, fun d' hd' => by cases d' <;> first | rfl | exact absurd rfl hd', fun htr x => hchi htr _, ?_⟩
      have hx : ∀ x : Coord, rt (x.1 - 1, x.2) = x := fun x => by simp [rt]
      have hy : ∀ x : Coord, ((dn x).1 - 1, (dn x).2 - 1) = (x.1 - 1, x.2) := fun x => by simp [dn]
      refine ⟨fun x => ?_, fun x => ?_, fun x => ?_, fun x => ?_, fun x => ?_, fun x => ?_, fun x => ?_, fun x => ?_, he.eu, ⟨fun x => (sh (x.1 - 1, x.2 - 1)).2.2.2, fun x => ?_⟩, he.ed, he.er⟩
      · have := (sh (x.1 - 1, x.2)).1; rw [hx] at this; exact this
      · rw [hC _ _ (by decide) (by decide)]; exact he.ru x
      · rw [hC _ _ (by decide) (by decide)]; exact he.rd x
      · have := (sh (x.1 - 1, x.2)).2.1; rw [hx] at this; simp only [hy]; exact this
      · rw [hT _ _ (by decide)]; exact he.tu x
      · have := (sh (x.1 - 1, x.2)).2.2.1; rw [hx] at this; simp only [hy]; exact this
      · rw [hT _ _ (by decide)]; exact he.td x
      · rw [hT _ _ (by decide)]; exact he.tr x
      · have := ht.shift x (-1, -1)
        simp only [← sub_eq_add_neg] at this
        show n _ = n _
        rw [← hnv ((st.vts x).1 - 1, (st.vts x).2 - 1), ← hnv (x.1 - 1, x.2 - 1), this]
    | down =>
      have sh : ∀ y : Coord, Has (env'.C (st.vts (y.1, y.2 - 1), (-1, 1))) [D.el y, n (y.1 - 1, y.2)] ∧ Has (env'.C (st.vts (y.1, y.2 - 1), (1, 1))) [D.er y, n y] ∧
          Has (env'.T (st.vts (y.1, y.2 - 1), (0, 1))) [D.U y * D.U y, n (y.1 - 1, y.2), n y] ∧ 0 < n y := by
        intro y
        obtain ⟨a, b, t, a', b', t', e, g1, g2, g3, s1, s2, s3, hpos⟩ := key y
        obtain ⟨a2, b2, t2, e2, -, sa, sb, st'⟩ := absorbDown_ok ht hs he hpf (st.vts y) (vts_vts ht y)
        obtain ⟨rfl, rfl, rfl⟩ : a = a2 ∧ b = b2 ∧ t = t2 := by
          have := e.symm.trans e2; simpa using this
        simp only [Dir.vec, Dir.c1, Dir.c2, sub_zero] at g1 g2 g3
        have r1 : n ((st.vts y).1 - 1, (st.vts y).2) = n (y.1 - 1, y.2) := by
          rw [← hnv ((st.vts y).1 - 1, (st.vts y).2), ← hnv (y.1 - 1, y.2)]
          have := ht.shift y (-1, 0); simp only [add_zero, ← sub_eq_add_neg] at this; exact congrArg n this
        rw [he.el.2, r1] at sa
        rw [he.er.2, hnv] at sb
        rw [hs.U.2, r1, hnv] at st'
        exact ⟨⟨a', g1, s1.trans sa⟩, ⟨b', g2, s2.trans sb⟩, ⟨t', g3, s3.trans st'⟩, hpos _ (by rw [st']; simp)⟩
      refine ⟨{ D with ed := fun x => n (x.1 - 1, x.2 + 1) }, rfl, rfl, rfl, fun d' hd' => by cases d' <;> first | rfl | exact absurd rfl hd', fun htr x => hchi htr _, ?_⟩
      have hx : ∀ x : Coord, ((dn x).1, (dn x).2 - 1) = x := fun x => by simp [dn]
      have hy : ∀ x : Coord, ((rt x).1 - 1, (rt x).2 + 1) = dn x := fun x => by simp [dn, rt]
      refine ⟨fun x => ?_, fun x => ?_, fun x => ?_, fun x => ?_, fun x => ?_, fun x => ?_, fun x => ?_, fun x => ?_, he.eu, he.el, ⟨fun x => (sh (x.1 - 1, x.2 + 1)).2.2.2, fun x => ?_⟩, he.er⟩
      · rw [hC _ _ (by decide) (by decide)]; exact he.lu x
      · rw [hC _ _ (by decide) (by decide)]; exact he.ru x
      · have := (sh (dn x)).2.1; rw [hx] at this; simp only [hy]; exact this
      · have := (sh (dn x)).1; rw [hx] at this; exact this
      · rw [hT _ _ (by decide)]; exact he.tu x
      · rw [hT _ _ (by decide)]; exact he.tl x
      · have := (sh (dn x)).2.2.1; rw [hx] at this; simp only [hy]; exact this
      · rw [hT _ _ (by decide)]; exact he.tr x
      · have := ht.shift x (-1, 1)
        simp only [← sub_eq_add_neg] at this
        show n _ = n _
        rw [← hnv ((st.vts x).1 - 1, (st.vts x).2 + 1), ← hnv (x.1 - 1, x.2 + 1), this]
    | right =>
      have sh : ∀ y : Coord, Has (env'.C (st.vts (y.1 - 1, y.2), (1, 1))) [n (dn y), D.ed y] ∧ Has (env'.C (st.vts (y.1 - 1, y.2), (1, -1))) [D.eu y, n y] ∧
          Has (env'.T (st.vts (y.1 - 1, y.2), (1, 0))) [n y, D.L y * D.L y, n (dn y)] ∧ 0 < n y := by
        intro y
        obtain ⟨a, b, t, a', b', t', e, g1, g2, g3, s1, s2, s3, hpos⟩ := key y
        obtain ⟨a2, b2, t2, e2, -, sa, sb, st'⟩ := absorbRight_ok ht hs he hpf (st.vts y) (vts_vts ht y)
        obtain ⟨rfl, rfl, rfl⟩ : a = a2 ∧ b = b2 ∧ t = t2 := by
          have := e.symm.trans e2; simpa using this
        simp only [Dir.vec, Dir.c1, Dir.c2, sub_zero] at g1 g2 g3
        have r1 : n (dn (st.vts y)) = n (dn y) := by
          rw [← hnv (dn (st.vts y)), ← hnv (dn y)]
          have := ht.shift y (0, 1); simp only [add_zero] at this; exact congrArg n this
        rw [he.ed.2, r1] at sa
        rw [he.eu.2, hnv] at sb
        rw [hs.L.2, r1, hnv] at st'
        exact ⟨⟨a', g1, s1.trans sa⟩, ⟨b', g2, s2.trans sb⟩, ⟨t', g3, s3.trans st'⟩, hpos _ (by rw [st']; simp)⟩
      refine ⟨{ D with er := fun x => n (rt x) }, rfl, rfl, rfl, fun d' hd' => by cases d' <;> first | rfl | exact absurd rfl hd', fun htr x => hchi htr _, ?_⟩
      have hx : ∀ x : Coord, ((rt x).1 - 1, (rt x).2) = x := fun x => by simp [rt]
      refine ⟨fun x => ?_, fun x => ?_, fun x => ?_, fun x => ?_, fun x => ?_, fun x => ?_, fun x => ?_, fun x => ?_, he.eu, he.el, he.ed, ⟨fun x => (sh (rt x)).2.2.2, fun x => ?_⟩⟩
      · rw [hC _ _ (by decide) (by decide)]; exact he.lu x
      · have := (sh (rt x)).2.1; rw [hx] at this; exact this
      · have := (sh (rt x)).1; rw [hx] at this; exact this
      · rw [hC _ _ (by decide) (by decide)]; exact he.ld x
      · rw [hT _ _ (by decide)]; exact he.tu x
      · rw [hT _ _ (by decide)]; exact he.tl x
      · rw [hT _ _ (by decide)]; exact he.td x
      · have := (sh (rt x)).2.2.1; rw [hx] at this; exact this
      · have := ht.shift x (1, 0)
        simp only [add_zero] at this
        show n _ = n _
        rw [← hnv (rt (st.vts x)), ← hnv (rt x)]
        exact congrArg n this

end Verif.Ctm
