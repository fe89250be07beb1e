import Verif.Ctm.ExtendProps
import Verif.Ctm.SweepProps
/-
Properties C64 and C65: the initial environment built from the site tensors.
-/
namespace Verif.Ctm
open Tensor Corner.Spec
variable {K : Type} [RCLike K]

namespace Spec
/-- Direction of leg `i` of a site tensor `A[p,u,l,d,r]`. -/
def legDir : Nat → Coord
  | 1 => (0, -1)
  | 2 => (-1, 0)
  | 3 => (0, 1)
  | 4 => (1, 0)
  | _ => (0, 0)

/-- Projection of the direction of leg `i` on `v`. -/
def along (v : Coord) (i : Nat) : Int := (legDir i).1 * v.1 + (legDir i).2 * v.2

/-- The legs that stay open in the tensor under `(coord, v)`, in the order of the tensor's axes: those not pointing away from `coord`. -/
def openLegs (v : Coord) : List Nat := [1, 2, 3, 4].filter (fun i => along v i ≤ 0)

/-- An open leg is an axis of the environment unless it points back at `coord`. -/
def isEnv (v : Coord) (i : Nat) : Bool := decide ((v.1 ≠ 0 ∧ v.2 ≠ 0) ∨ along v i = 0)

/-- Ket and bra with the given open legs; labels `0..4` are the axes of the ket, `5..9` those of the bra. Legs in `shared` are summed with
equal ket and bra index. -/
def ketBra (shared : List Nat) (A : Tensor K) (σ : Nat → Nat) : K :=
  A.val ((List.range 5).map σ) * star (A.val ((List.range 5).map (fun i => if i ∈ shared then σ i else σ (i + 5))))

/-- The sizes of the legs. -/
def legDim (A : Tensor K) (l : Nat) : Nat := A.shape.getD (l % 5) 0

/-- The tensor under `(coord, v)`, built from site tensor `A`: `F` summed over the labels `L`, divided by the largest modulus, and cut or
padded with zeros to `chi` along the environment axes. -/
def InitTensor (F : (Nat → Nat) → K) (L : List Nat) (chi : Nat) (v : Coord) (A B : Tensor K) : Prop :=
  ∃ a a', IsNetwork (legDim A) a ((openLegs v).map (fun i => [i, i + 5])) L F ∧ Normalised true a a' ∧
    B.shape = (openLegs v).map (fun i => if isEnv v i then chi else A.shape.getD i 0 * A.shape.getD i 0) ∧ Embeds a' B

/-- Periodic: physical index and all outer legs are shared by ket and conjugated bra. -/
def InitPbc (chi : Nat) (v : Coord) (A B : Tensor K) : Prop :=
  InitTensor (ketBra ((List.range 5).filter (· ∉ openLegs v)) A) ((List.range 5).filter (· ∉ openLegs v)) chi v A B

/-- Open: the outer legs of ket and conjugated bra are summed separately. -/
def InitObc (chi : Nat) (v : Coord) (A B : Tensor K) : Prop :=
  InitTensor (ketBra [0] A) (0 :: ([1, 2, 3, 4].filter (· ∉ openLegs v)).flatMap (fun i => [i, i + 5])) chi v A B

/-- As `InitObc`, with the bra not conjugated. -/
def InitObcNoConj (chi : Nat) (v : Coord) (A B : Tensor K) : Prop :=
  InitTensor (fun σ => A.val ((List.range 5).map σ) * A.val ((List.range 5).map (fun i => if i ∈ [0] then σ i else σ (i + 5))))
    (0 :: ([1, 2, 3, 4].filter (· ∉ openLegs v)).flatMap (fun i => [i, i + 5])) chi v A B
end Spec
open Spec

/-- Canonical name of a label of a block. -/
def Block.ren (b : Block) (l : Nat) : Nat := if l ∈ b.ket then b.ket.idxOf l else b.bra.idxOf l + 5

/-- The labels of the block are consistent. -/
def Block.ok (b : Block) : Bool :=
  decide (b.ket.map b.ren = List.range 5) && decide (b.ket.length = 5) && decide ((b.bra.map b.ren).map (· % 5) = List.range 5) &&
  decide (b.out.Nodup ∧ ∀ l ∈ b.out, l ∈ b.ket ++ b.bra) && decide (b.out.map b.ren = b.legs.flatMap (fun l => [l.1, l.1 + 5])) &&
  decide (∀ x ∈ b.ket ++ b.bra, ∀ y ∈ b.ket ++ b.bra, b.ren x = b.ren y → x = y) && decide (∀ l ∈ b.legs, l.1 < 5)

theorem block_net (cj : Bool) {b : Block} (h : b.ok = true) {A : Tensor K} (hA : A.shape.length = 5) :
    ∃ a0 a, einsum [(A, b.ket), (if cj then A.conj else A, b.bra)] b.out = some a0 ∧ view (b.legs.map (fun l => A.size l.1 ^ 2)) a0 = some a ∧
      IsNetwork (legDim A) a (b.legs.map (fun l => [l.1, l.1 + 5])) (((b.ket ++ b.bra).dedup.filter (fun l => l ∉ b.out)).map b.ren)
        (fun σ => A.val ((List.range 5).map σ) * (if cj then star (A.val ((b.bra.map b.ren).map σ)) else A.val ((b.bra.map b.ren).map σ))) := by
  simp only [Block.ok, Bool.and_eq_true, decide_eq_true_eq] at h
  obtain ⟨⟨⟨⟨⟨⟨h1, hl⟩, h2⟩, h3⟩, h4⟩, h5⟩, h6⟩ := h
  set dim : Nat → Nat := fun l => legDim A (b.ren l) with hdim
  have sh5 : (List.range 5).map (fun i => A.shape.getD i 0) = A.shape := by
    match hs : A.shape, hA with
    | [p, q, r, s, t], _ => rfl
  have hk : A.shape = b.ket.map dim := by
    have : b.ket.map dim = (b.ket.map b.ren).map (legDim A) := by rw [List.map_map]; rfl
    rw [this, h1]
    conv_lhs => rw [← sh5]
    rfl
  have hbr : A.shape = b.bra.map dim := by
    have : b.bra.map dim = ((b.bra.map b.ren).map (· % 5)).map (fun i => A.shape.getD i 0) := by rw [List.map_map, List.map_map]; rfl
    rw [this, h2, sh5]
  have qk : Denotes dim A (singles b.ket) [] b.ket (fun σ => A.val (b.ket.map σ)) := by
    have := Denotes.leaf dim A (singles b.ket) (by rw [singles_gdim]; exact hk)
    rw [singles_flatten] at this
    exact this.congr (List.Perm.refl _) (fun _ h => h) (fun σ => by rw [singles_gidx])
  have qb : Denotes dim A (singles b.bra) [] b.bra (fun σ => A.val (b.bra.map σ)) := by
    have := Denotes.leaf dim A (singles b.bra) (by rw [singles_gdim]; exact hbr)
    rw [singles_flatten] at this
    exact this.congr (List.Perm.refl _) (fun _ h => h) (fun σ => by rw [singles_gidx])
  have qb' : Denotes dim (if cj then A.conj else A) (singles b.bra) [] b.bra (fun σ => if cj then star (A.val (b.bra.map σ)) else A.val (b.bra.map σ)) := by
    cases cj
    · simpa using qb
    · simpa using qb.conj
  have hout : decide (b.out.Nodup ∧ ∀ l ∈ b.out, l ∈ b.ket ++ (b.bra ++ [])) = true := by simpa using h3
  obtain ⟨a0, e0, q0⟩ := Denotes.einsum' (OpsNet.cons qk (OpsNet.cons qb' OpsNet.nil)) b.out hout
  simp only [List.append_nil] at q0
  have q1 := q0.rename (dim' := legDim A) b.ren (b.ket ++ b.bra) h5 (fun a _ => rfl) (by rw [singles_flatten]; exact h3.2)
    (fun l hl => List.mem_dedup.1 (List.mem_filter.1 hl).1) (fun l hl => hl)
  obtain ⟨a, e1, q2⟩ := q1.view (b.legs.map (fun l => [l.1, l.1 + 5])) (b.legs.map (fun l => A.size l.1 ^ 2)) (by
      rw [show (singles b.out).map (fun x => x.map b.ren) = singles (b.out.map b.ren) by simp [singles]]
      rw [singles_flatten, h4, List.flatMap]) (by
      rw [List.map_map]
      refine List.map_congr_left (fun l hl => ?_)
      have := h6 l hl
      simp only [Function.comp, gdim, List.map_cons, List.map_nil, List.prod_cons, List.prod_nil, legDim, Tensor.size, pow_two, mul_one]
      rw [Nat.mod_eq_of_lt this, show (l.1 + 5) % 5 = l.1 by omega])
  refine ⟨a0, a, e0, e1, Corner.isNetwork (q2.congr (List.Perm.refl _) (fun _ h => h) (fun σ => ?_))⟩
  simp only [mul_one]
  rw [← h1, List.map_map, List.map_map]
  rfl

theorem slice_assign {chi : Nat} {ls : List (Nat × Bool)} {s : Nat → Nat} {a : Tensor K} (ha : a.shape = ls.map (fun l => s l.1)) :
    let n := ls.map (fun l => if l.2 then min chi (s l.1) else s l.1)
    ∃ a' B, slice n a = some a' ∧ assignBlock n a' (zeros (ls.map (fun l => if l.2 then chi else s l.1))) = some B ∧
      B.shape = ls.map (fun l => if l.2 then chi else s l.1) ∧ Embeds a B := by
  intro n
  have h1 : List.zipWith min n a.shape = n := by
    rw [ha]
    simp only [n]
    clear n ha
    induction ls with
    | nil => rfl
    | cons l ls ih =>
      simp only [List.map_cons, List.zipWith_cons_cons, ih]
      congr 1
      split
      · exact min_eq_left (min_le_right _ _)
      · exact min_self _
  have h2 : List.zipWith min n (ls.map (fun l => if l.2 then chi else s l.1)) = n := by
    simp only [n]
    clear n ha h1
    induction ls with
    | nil => rfl
    | cons l ls ih =>
      simp only [List.map_cons, List.zipWith_cons_cons, ih]
      congr 1
      split
      · exact min_eq_left (min_le_left _ _)
      · exact min_self _
  refine ⟨⟨n, a.val⟩, ⟨ls.map (fun l => if l.2 then chi else s l.1),
    fun idx => if InB n idx then a.val (List.zipWith (fun i s => if s = 1 then 0 else i) idx n) else 0⟩, ?_, ?_, rfl, ?_⟩
  · unfold slice
    rw [if_pos (by simp [n, ha]), h1]
  · unfold assignBlock
    rw [if_pos]
    · simp only [zeros, h2]
    · refine ⟨by simp [n, zeros], ?_⟩
      show broadcasts n (List.zipWith min n (ls.map (fun l => if l.2 then chi else s l.1)))
      rw [h2]
      exact List.forall₂_same.2 (fun _ _ => .inl rfl)
  · intro idx hi
    simp only at hi ⊢
    have hin : InB n idx ↔ InB a.shape idx := by
      rw [ha]
      simp only [n]
      clear n ha h1 h2
      induction ls generalizing idx with
      | nil => rfl
      | cons l ls ih =>
        simp only [List.map_cons] at hi ⊢
        cases hi with
        | cons h3 h4 =>
          simp only [InB, List.forall₂_cons]
          have := ih _ h4
          simp only [InB] at this
          rw [this]
          refine and_congr_left (fun _ => ?_)
          split at h3 <;> rename_i hc <;> simp only [hc, if_true]
          · simp; omega
          · simp
    have hz : ∀ (r idx : List Nat), InB r idx → List.zipWith (fun i s => if s = 1 then 0 else i) idx r = idx := by
      intro r idx hi
      induction hi with
      | nil => rfl
      | @cons i s _ _ h1 _ ih =>
        rw [List.zipWith_cons_cons, ih]
        congr 1
        split <;> omega
    by_cases hc : InB a.shape idx
    · rw [if_pos (hin.2 hc), if_pos hc, hz _ _ (hin.2 hc)]
    · rw [if_neg (fun h => hc (hin.1 h)), if_neg hc]

theorem initBlock_ok (cj : Bool) {b : Block} (h : b.ok = true) {A : Tensor K} (hA : A.shape.length = 5) (chi : Nat) :
    ∃ a, IsNetwork (legDim A) a (b.legs.map (fun l => [l.1, l.1 + 5])) (((b.ket ++ b.bra).dedup.filter (fun l => l ∉ b.out)).map b.ren)
        (fun σ => A.val ((List.range 5).map σ) * (if cj then star (A.val ((b.bra.map b.ren).map σ)) else A.val ((b.bra.map b.ren).map σ))) ∧
      ((initBlock cj chi b A = .error .nan ∧ vecNorm true a = 0) ∨
        ∃ a' B, initBlock cj chi b A = .ok B ∧ Normalised true a a' ∧
          B.shape = b.legs.map (fun l => if l.2 then chi else A.shape.getD l.1 0 * A.shape.getD l.1 0) ∧ Embeds a' B) := by
  obtain ⟨a0, a, e0, e1, hn⟩ := block_net cj h hA
  refine ⟨a, hn, ?_⟩
  have hsh : a.shape = b.legs.map (fun l => A.size l.1 ^ 2) := by
    simp only [view] at e1
    split at e1
    · cases e1; rfl
    · cases e1
  unfold initBlock
  rw [e0]
  simp only [lift, ok_bind]
  rw [e1]
  simp only [ok_bind]
  cases hv : normMax a with
  | error e =>
    left
    refine ⟨?_, ?_⟩
    · cases e with
      | nan => rfl
      | raise => exact absurd hv (normalize_ne_raise _ _)
    · by_contra h0
      simp [normMax, normalize, h0] at hv
  | ok a' =>
    right
    have hN := (normalize_ok hv).1
    obtain ⟨a'', B, e2, e3, hB, hE⟩ := slice_assign (chi := chi) (ls := b.legs) (s := fun i => A.size i ^ 2) (a := a') (hN.shape.trans hsh)
    refine ⟨a', B, ?_, hN, ?_, hE⟩
    · rw [ok_bind]
      rw [e2]
      simp only [ok_bind, e3]
    · rw [hB]
      refine List.map_congr_left (fun l _ => ?_)
      simp only [Tensor.size, pow_two]

/-! ### All tensors -/

theorem mapM_or {α β : Type} {f : α → Except Err β} {R : α → β → Prop} (l : List α) (h : ∀ a ∈ l, f a = .error .nan ∨ ∃ b, f a = .ok b ∧ R a b) :
    l.mapM f = .error .nan ∨ ∃ l', l.mapM f = .ok l' ∧ List.Forall₂ R l l' := by
  induction l with
  | nil => exact .inr ⟨[], rfl, .nil⟩
  | cons a l ih =>
    rw [List.mapM_cons]
    rcases h a (by simp) with e | ⟨b, e, hr⟩
    · left; rw [e]; rfl
    · rw [e, ok_bind]
      rcases ih (fun a ha => h a (by simp [ha])) with e' | ⟨l', e', h'⟩
      · left; rw [e']; rfl
      · right; rw [e']; exact ⟨b :: l', rfl, .cons hr h'⟩

theorem updates_not_mem {κ α : Type} [DecidableEq κ] (l : List (κ × α)) (f : κ → Option α) (k : κ) (h : k ∉ l.map Prod.fst) : updates l f k = f k := by
  induction l generalizing f with
  | nil => rfl
  | cons q l ih =>
    simp only [List.map_cons, List.mem_cons, not_or] at h
    show updates l (Function.update f q.1 (some q.2)) k = f k
    rw [ih _ h.2, Function.update_of_ne h.1]

theorem updates_mem {κ α : Type} [DecidableEq κ] (l : List (κ × α)) (f : κ → Option α) (h : (l.map Prod.fst).Nodup) (q : κ × α) (hq : q ∈ l) :
    updates l f q.1 = some q.2 := by
  induction l generalizing f with
  | nil => simp at hq
  | cons q' l ih =>
    simp only [List.map_cons, List.nodup_cons] at h
    show updates l (Function.update f q'.1 (some q'.2)) q.1 = some q.2
    rcases List.mem_cons.1 hq with rfl | hq
    · rw [updates_not_mem _ _ _ h.1, Function.update_self]
    · exact ih _ h.2 hq

theorem mem_pairs {keys : List Coord} {t : List (Coord × Block)} {c v : Coord} {b : Block} : (c, v, b) ∈ pairs keys t ↔ c ∈ keys ∧ (v, b) ∈ t := by
  simp only [pairs, List.mem_flatMap, List.mem_map, Prod.mk.injEq]
  constructor
  · rintro ⟨x, hx, y, hy, rfl, rfl⟩; exact ⟨hx, hy⟩
  · rintro ⟨h1, h2⟩; exact ⟨c, h1, _, h2, rfl, rfl⟩

theorem pairs_nodup {keys : List Coord} {t : List (Coord × Block)} (hk : keys.Nodup) (ht : (t.map Prod.fst).Nodup) :
    ((pairs keys t).map (fun q => (q.1, q.2.1))).Nodup := by
  have : (pairs keys t).map (fun q => (q.1, q.2.1)) = keys.flatMap (fun c => (t.map Prod.fst).map (fun v => (c, v))) := by
    simp only [pairs, List.map_flatMap, List.map_map, Function.comp_def]
  rw [this]
  exact List.Nodup.product (l₁ := keys) hk ht

/-- One dictionary of the initial environment. -/
theorem initDict {cj : Bool} {st : State K} {chi : Nat} {t : List (Coord × Block)} {R : Coord → Tensor K → Tensor K → Prop} (hk : st.keys.Nodup)
    (htn : (t.map Prod.fst).Nodup)
    (h : ∀ c ∈ st.keys, ∀ v b, (v, b) ∈ t → ∃ A, st.site (c.1 + v.1, c.2 + v.2) = some A ∧
      (initBlock cj chi b A = .error .nan ∨ ∃ B, initBlock cj chi b A = .ok B ∧ R v A B)) :
    (pairs st.keys t).mapM (initEntry cj st chi) = .error .nan ∨
    ∃ l, (pairs st.keys t).mapM (initEntry cj st chi) = .ok l ∧ ∀ f : Coord × Coord → Option (Tensor K), ∀ c ∈ st.keys, ∀ v ∈ t.map Prod.fst,
      ∃ A B, st.site (c.1 + v.1, c.2 + v.2) = some A ∧ updates l f (c, v) = some B ∧ R v A B := by
  rcases mapM_or (f := initEntry cj st chi) (R := fun q e => e.1 = (q.1, q.2.1) ∧ ∃ A, st.site (q.1.1 + q.2.1.1, q.1.2 + q.2.1.2) = some A ∧ R q.2.1 A e.2)
    (pairs st.keys t) (by
      rintro ⟨c, v, b⟩ hq
      obtain ⟨hc, hv⟩ := mem_pairs.1 hq
      obtain ⟨A, e, hb⟩ := h c hc v b hv
      unfold initEntry
      simp only [e, lift, ok_bind]
      rcases hb with hb | ⟨B, hb, hR⟩
      · left; rw [hb]; rfl
      · right; rw [hb]; exact ⟨_, rfl, rfl, A, rfl, hR⟩) with e | ⟨l, e, hl⟩
  · exact .inl e
  · right
    refine ⟨l, e, ?_⟩
    have hkeys : l.map Prod.fst = (pairs st.keys t).map (fun q => (q.1, q.2.1)) := by
      clear e
      generalize pairs st.keys t = ps at hl
      induction hl with
      | nil => rfl
      | cons h1 _ ih => rw [List.map_cons, List.map_cons, ih, h1.1]
    have hnd : (l.map Prod.fst).Nodup := hkeys ▸ pairs_nodup hk htn
    intro f c hc v hv
    obtain ⟨⟨v', b⟩, hb, rfl⟩ := List.mem_map.1 hv
    have hq : (c, v', b) ∈ pairs st.keys t := mem_pairs.2 ⟨hc, hb⟩
    have hex : ∀ q ∈ pairs st.keys t, ∃ e ∈ l, e.1 = (q.1, q.2.1) ∧ ∃ A, st.site (q.1.1 + q.2.1.1, q.1.2 + q.2.1.2) = some A ∧ R q.2.1 A e.2 := by
      clear hq hnd hkeys e
      generalize pairs st.keys t = ps at hl
      induction hl with
      | nil => intro q hq; simp at hq
      | cons h1 _ ih =>
        intro q hq
        rcases List.mem_cons.1 hq with rfl | hq
        · exact ⟨_, by simp, h1⟩
        · obtain ⟨e, he, h⟩ := ih q hq; exact ⟨e, by simp [he], h⟩
    obtain ⟨e', he, h1, A, hA, hR⟩ := hex _ hq
    refine ⟨A, e'.2, hA, ?_, hR⟩
    rw [← updates_mem l f hnd e' he, h1]

/-- All eight tensors of all sites satisfy `R`. -/
def Spec.AllInit (st : State K) (env : Env K) (R : Coord → Tensor K → Tensor K → Prop) : Prop :=
  ∀ c ∈ st.keys, ∀ v, (IsC v → ∃ A B, st.site (c.1 + v.1, c.2 + v.2) = some A ∧ env.C (c, v) = some B ∧ R v A B) ∧
    (IsT v → ∃ A B, st.site (c.1 + v.1, c.2 + v.2) = some A ∧ env.T (c, v) = some B ∧ R v A B)

theorem initFrom_ok {cj : Bool} {st : State K} {env : Env K} {tC tT : List (Coord × Block)} {R : Coord → Tensor K → Tensor K → Prop} (hk : st.keys.Nodup)
    (h1 : tC.map Prod.fst = [(-1, -1), (1, -1), (1, 1), (-1, 1)]) (h2 : tT.map Prod.fst = [(0, -1), (-1, 0), (0, 1), (1, 0)])
    (h : ∀ c ∈ st.keys, ∀ v b, (v, b) ∈ tC ++ tT → ∃ A, st.site (c.1 + v.1, c.2 + v.2) = some A ∧
      (initBlock cj env.chi b A = .error .nan ∨ ∃ B, initBlock cj env.chi b A = .ok B ∧ R v A B)) :
    initFrom cj tC tT st env = .error .nan ∨ ∃ env', initFrom cj tC tT st env = .ok env' ∧ env'.chi = env.chi ∧ AllInit st env' R := by
  unfold initFrom
  rcases initDict (t := tC) hk (by rw [h1]; decide) (fun c hc v b hv => h c hc v b (List.mem_append_left _ hv)) with e | ⟨lC, e, hC⟩
  · left; rw [e]; rfl
  rcases initDict (t := tT) hk (by rw [h2]; decide) (fun c hc v b hv => h c hc v b (List.mem_append_right _ hv)) with e' | ⟨lT, e', hT⟩
  · left; rw [e, ok_bind, e']; rfl
  right
  refine ⟨{ env with C := updates lC env.C, T := updates lT env.T }, ?_, rfl, ?_⟩
  · rw [e, ok_bind, e', ok_bind]; rfl
  · intro c hc v
    refine ⟨fun hv => hC env.C c hc v ?_, fun hv => hT env.T c hc v ?_⟩
    · rw [h1]; rcases hv with rfl | rfl | rfl | rfl <;> simp
    · rw [h2]; rcases hv with rfl | rfl | rfl | rfl <;> simp

theorem pbc_blocks : ∀ q ∈ pbcC ++ pbcT, q.2.ok = true ∧ q.2.legs.map Prod.fst = openLegs q.1 ∧ (∀ l ∈ q.2.legs, l.2 = isEnv q.1 l.1) ∧
    (((q.2.ket ++ q.2.bra).dedup.filter (fun l => l ∉ q.2.out)).map q.2.ren).Perm ((List.range 5).filter (· ∉ openLegs q.1)) ∧
    q.2.bra.map q.2.ren = (List.range 5).map (fun i => if i ∈ (List.range 5).filter (· ∉ openLegs q.1) then i else i + 5) := by
  decide

theorem obc_blocks : ∀ q ∈ obcC ++ obcT, q.2.ok = true ∧ q.2.legs.map Prod.fst = openLegs q.1 ∧ (∀ l ∈ q.2.legs, l.2 = isEnv q.1 l.1) ∧
    (((q.2.ket ++ q.2.bra).dedup.filter (fun l => l ∉ q.2.out)).map q.2.ren).Perm (0 :: ([1, 2, 3, 4].filter (· ∉ openLegs q.1)).flatMap (fun i => [i, i + 5])) ∧
    q.2.bra.map q.2.ren = (List.range 5).map (fun i => if i ∈ [0] then i else i + 5) := by
  decide

theorem isNetwork_congr {dim : Nat → Nat} {T : Tensor K} {O O' : List (List Nat)} {L L' : List Nat} {F F' : (Nat → Nat) → K} (h : IsNetwork dim T O L F)
    (hO : O = O') (hL : L.Perm L') (hF : ∀ σ, F σ = F' σ) : IsNetwork dim T O' L' F' := by
  subst hO
  obtain rfl : F = F' := funext hF
  exact ⟨h.1, fun σ hσ => by rw [h.2 σ hσ, sumOver_perm dim hL]⟩

/-- From a block to the specification. -/
theorem block_init {cj : Bool} {b : Block} {v : Coord} {L sh : List Nat} (hok : b.ok = true) (h1 : b.legs.map Prod.fst = openLegs v)
    (h2 : ∀ l ∈ b.legs, l.2 = isEnv v l.1) (h3 : (((b.ket ++ b.bra).dedup.filter (fun l => l ∉ b.out)).map b.ren).Perm L)
    (h4 : b.bra.map b.ren = (List.range 5).map (fun i => if i ∈ sh then i else i + 5)) {A : Tensor K} (hA : A.shape.length = 5) (chi : Nat)
    {F : (Nat → Nat) → K} (hF : ∀ σ, F σ = A.val ((List.range 5).map σ) * (if cj then star (A.val ((List.range 5).map (fun i => if i ∈ sh then σ i else σ (i + 5))))
      else A.val ((List.range 5).map (fun i => if i ∈ sh then σ i else σ (i + 5))))) :
    (initBlock cj chi b A = .error .nan ∧ ∃ a, vecNorm true a = 0 ∧ IsNetwork (legDim A) a ((openLegs v).map (fun i => [i, i + 5])) L F) ∨
      ∃ B, initBlock cj chi b A = .ok B ∧ InitTensor F L chi v A B := by
  obtain ⟨a, hn, h⟩ := initBlock_ok cj hok hA chi
  have hn' : IsNetwork (legDim A) a ((openLegs v).map (fun i => [i, i + 5])) L F := by
    refine isNetwork_congr hn ?_ h3 (fun σ => ?_)
    · rw [← h1, List.map_map]; rfl
    · rw [hF, h4, List.map_map]
      simp only [Function.comp_def, apply_ite σ]
  rcases h with ⟨e, h0⟩ | ⟨a', B, e, hN, hs, hE⟩
  · exact .inl ⟨e, a, h0, hn'⟩
  · refine .inr ⟨B, e, a, a', hn', hN, ?_, hE⟩
    rw [hs, ← h1, List.map_map]
    refine List.map_congr_left (fun l hl => ?_)
    rw [h2 l hl]; rfl

/-! ### The norm does not vanish -/

theorem vecNorm_zero {a : Tensor K} (h : vecNorm true a = 0) (idx : List Nat) (hi : InB a.shape idx) : a.val idx = 0 := by
  have := le_foldr_max (List.mem_map_of_mem (f := fun i => ‖a.val i‖) (mem_indices.2 hi))
  simp only [vecNorm, if_true] at h
  rw [h] at this
  exact norm_le_zero_iff.1 this

theorem sumOver_nonneg {dim : Nat → Nat} {f : (Nat → Nat) → ℝ} (hf : ∀ σ, 0 ≤ f σ) (L : List Nat) (σ : Nat → Nat) : 0 ≤ sumOver dim L f σ := by
  induction L generalizing σ with
  | nil => exact hf σ
  | cons a L ih => exact Finset.sum_nonneg (fun i _ => ih _)

theorem sumOver_zero {dim : Nat → Nat} {f : (Nat → Nat) → ℝ} (hf : ∀ σ, 0 ≤ f σ) (L : List Nat) (σ : Nat → Nat) (hσ : ∀ l ∈ L, σ l < dim l)
    (h : sumOver dim L f σ = 0) : f σ = 0 := by
  induction L with
  | nil => exact h
  | cons a L ih =>
    simp only [sumOver] at h
    rw [Finset.sum_eq_zero_iff_of_nonneg (fun i _ => sumOver_nonneg hf _ _)] at h
    have := h (σ a) (Finset.mem_range.2 (hσ a (by simp)))
    rw [Function.update_eq_self] at this
    exact ih (fun l hl => hσ l (by simp [hl])) this

theorem sumOver_ketBra {dim : Nat → Nat} (sh : List Nat) (hsh : ∀ i ∈ sh, i < 5) (A : Tensor K) (L : List Nat) (hL : ∀ l ∈ L, l ∈ sh) (σ : Nat → Nat)
    (hσ : ∀ i < 5, i ∉ sh → σ (i + 5) = σ i) :
    sumOver dim L (ketBra sh A) σ = ((sumOver dim L (fun τ => ‖A.val ((List.range 5).map τ)‖ ^ 2) σ : ℝ) : K) := by
  induction L generalizing σ with
  | nil =>
    simp only [sumOver, ketBra]
    rw [show (List.range 5).map (fun i => if i ∈ sh then σ i else σ (i + 5)) = (List.range 5).map σ from List.map_congr_left (fun i hi => by
      split
      · rfl
      · rename_i hc; exact hσ i (List.mem_range.1 hi) hc)]
    rw [RCLike.star_def, RCLike.mul_conj]
    norm_cast
  | cons a L ih =>
    simp only [sumOver]
    push_cast
    refine Finset.sum_congr rfl (fun i _ => ih (fun l hl => hL l (by simp [hl])) _ ?_)
    intro j hj hjs
    have ha := hL a (by simp)
    have := hsh a ha
    rw [Function.update_of_ne (by omega), Function.update_of_ne (by rintro rfl; exact hjs ha)]
    exact hσ j hj hjs

theorem pbc_nonzero {A a : Tensor K} {v : Coord} (hA : A.shape.length = 5) (h0 : vecNorm true a = 0)
    (hn : IsNetwork (legDim A) a ((openLegs v).map (fun i => [i, i + 5])) ((List.range 5).filter (· ∉ openLegs v)) (ketBra ((List.range 5).filter (· ∉ openLegs v)) A))
    (idx : List Nat) (hi : InB A.shape idx) : A.val idx = 0 := by
  have hlen : idx.length = 5 := (List.Forall₂.length_eq hi).trans hA
  set σ : Nat → Nat := fun l => idx.getD (l % 5) 0 with hσ
  have hlt : ∀ l, σ l < legDim A l := by
    intro l
    have h5 : l % 5 < 5 := Nat.mod_lt _ (by norm_num)
    have := List.forall₂_iff_get.1 hi
    have := this.2 (l % 5) (by omega) (by omega)
    simp only [hσ, legDim]
    rw [List.getD_eq_getElem?_getD, List.getD_eq_getElem?_getD, List.getElem?_eq_getElem (by omega), List.getElem?_eq_getElem (by omega)]
    exact this
  have hmap : (List.range 5).map σ = idx := by
    have : ∀ l : List Nat, l.length = 5 → (List.range 5).map (fun i => l.getD (i % 5) 0) = l := by
      intro l hl
      match l, hl with
      | [p, q, r, s, t], _ => rfl
    exact this idx hlen
  have hv := hn.2 σ (fun _ _ l _ => hlt l)
  have hin : InB a.shape (((openLegs v).map (fun i => [i, i + 5])).map (fun g => ravel (g.map (legDim A)) (g.map σ))) := by
    rw [hn.1]
    exact inB_groups (legDim A) σ _ (fun l _ => hlt l)
  rw [vecNorm_zero h0 _ hin, sumOver_ketBra _ (fun i hi => List.mem_range.1 (List.mem_filter.1 hi).1) A _ (fun _ h => h) σ (fun i _ _ => by simp [hσ])] at hv
  have h1 : sumOver (legDim A) ((List.range 5).filter (· ∉ openLegs v)) (fun τ => ‖A.val ((List.range 5).map τ)‖ ^ 2) σ = 0 := by
    exact_mod_cast hv.symm
  have h2 := sumOver_zero (fun τ => by positivity) _ σ (fun l _ => hlt l) h1
  simp only [hmap] at h2
  simpa using h2

/-! ### C64 -/

/-- All environment bonds of size `chi`. -/
def Spec.Dims.flat (D : Spec.Dims) (chi : Nat) : Spec.Dims := { D with eu := fun _ => chi, el := fun _ => chi, ed := fun _ => chi, er := fun _ => chi }

theorem fits_of_init {D : Dims} {st : State K} (ht : Tiling st) (hs : FitsState D st) {env : Env K} {chi : Nat} (hchi : 0 < chi)
    {R : Coord → Tensor K → Tensor K → Prop} (h : AllInit st env R)
    (hR : ∀ v A B, R v A B → B.shape = (openLegs v).map (fun i => if isEnv v i then chi else A.shape.getD i 0 * A.shape.getD i 0)) :
    FitsEnv (D.flat chi) st env := by
  have sh : ∀ (c v : Coord) (f : Coord → Nat), Sizes st f → f ((st.vts c).1 + v.1, (st.vts c).2 + v.2) = f (c.1 + v.1, c.2 + v.2) := by
    intro c v f hf
    rw [← hf.2 ((st.vts c).1 + v.1, _), ht.shift, hf.2]
  have key : ∀ (c v : Coord) A, st.site ((st.vts c).1 + v.1, (st.vts c).2 + v.2) = some A →
      A.shape = [D.p (c.1 + v.1, c.2 + v.2), D.U (c.1 + v.1, c.2 + v.2), D.L (c.1 + v.1, c.2 + v.2), D.U (c.1 + v.1, c.2 + v.2 + 1), D.L (c.1 + v.1 + 1, c.2 + v.2)] := by
    intro c v A hA
    have e : st.site ((st.vts c).1 + v.1, (st.vts c).2 + v.2) = st.site (c.1 + v.1, c.2 + v.2) := by
      unfold State.site; rw [ht.shift]
    obtain ⟨t, e1, e2⟩ := hs.site (c.1 + v.1, c.2 + v.2)
    rw [e, e1] at hA
    cases hA
    exact e2
  have hC : ∀ c v, IsC v → Has (env.C (st.vts c, v)) [chi, chi] := by
    intro c v hv
    obtain ⟨A, B, hA, hB, hr⟩ := ((h (st.vts c) (ht.mem c)) v).1 hv
    refine ⟨B, hB, ?_⟩
    rw [hR _ _ _ hr]
    rcases hv with rfl | rfl | rfl | rfl <;> rfl
  have hT : ∀ c v, IsT v → ∃ A, A.shape = [D.p (c.1 + v.1, c.2 + v.2), D.U (c.1 + v.1, c.2 + v.2), D.L (c.1 + v.1, c.2 + v.2), D.U (c.1 + v.1, c.2 + v.2 + 1), D.L (c.1 + v.1 + 1, c.2 + v.2)] ∧
      Has (env.T (st.vts c, v)) ((openLegs v).map (fun i => if isEnv v i then chi else A.shape.getD i 0 * (A : Tensor K).shape.getD i 0)) := by
    intro c v hv
    obtain ⟨A, B, hA, hB, hr⟩ := ((h (st.vts c) (ht.mem c)) v).2 hv
    exact ⟨A, key c v A hA, B, hB, hR _ _ _ hr⟩
  have sz : Sizes st (fun _ => chi) := ⟨fun _ => hchi, fun _ => rfl⟩
  refine ⟨fun c => hC c _ (.inl rfl), fun c => hC c _ (.inr (.inl rfl)), fun c => hC c _ (.inr (.inr (.inl rfl))), fun c => hC c _ (.inr (.inr (.inr rfl))),
    ?_, ?_, ?_, ?_, sz, sz, sz, sz⟩
  · intro c
    obtain ⟨A, hA, hH⟩ := hT c (0, -1) (.inl rfl)
    rw [hA] at hH
    have e : (c.1 + 0, c.2 + -1 + 1) = c := by ext <;> simp
    have : [chi, D.U (c.1 + 0, c.2 + -1 + 1) * D.U (c.1 + 0, c.2 + -1 + 1), chi] = [chi, D.U c * D.U c, chi] := by rw [e]
    exact this ▸ hH
  · intro c
    obtain ⟨A, hA, hH⟩ := hT c (-1, 0) (.inr (.inl rfl))
    rw [hA] at hH
    have e : (c.1 + -1 + 1, c.2 + 0) = c := by ext <;> simp
    have : [chi, chi, D.L (c.1 + -1 + 1, c.2 + 0) * D.L (c.1 + -1 + 1, c.2 + 0)] = [chi, chi, D.L c * D.L c] := by rw [e]
    exact this ▸ hH
  · intro c
    obtain ⟨A, hA, hH⟩ := hT c (0, 1) (.inr (.inr (.inl rfl)))
    rw [hA] at hH
    have e : (c.1 + 0, c.2 + 1) = dn c := by ext <;> simp [dn]
    have : [D.U (c.1 + 0, c.2 + 1) * D.U (c.1 + 0, c.2 + 1), chi, chi] = [D.U (dn c) * D.U (dn c), chi, chi] := by rw [e]
    exact this ▸ hH
  · intro c
    obtain ⟨A, hA, hH⟩ := hT c (1, 0) (.inr (.inr (.inr rfl)))
    rw [hA] at hH
    have e : (c.1 + 1, c.2 + 0) = rt c := by ext <;> simp [rt]
    have : [chi, D.L (c.1 + 1, c.2 + 0) * D.L (c.1 + 1, c.2 + 0), chi] = [chi, D.L (rt c) * D.L (rt c), chi] := by rw [e]
    exact this ▸ hH

theorem initFrom_ne_nan {cj : Bool} {tC tT : List (Coord × Block)} {st : State K} {env : Env K}
    (h : ∀ c ∈ st.keys, ∀ v b, (v, b) ∈ tC ++ tT → ∃ A, st.site (c.1 + v.1, c.2 + v.2) = some A ∧ ∃ B, initBlock cj env.chi b A = .ok B) :
    initFrom cj tC tT st env ≠ .error .nan := by
  have h3 : ∀ t, (∀ q ∈ t, q ∈ tC ++ tT) → ∃ l, (pairs st.keys t).mapM (initEntry cj st env.chi) = .ok l := by
    intro t htt
    have : ∀ ps : List (Coord × Coord × Block), (∀ q ∈ ps, q ∈ pairs st.keys t) → ∃ l, ps.mapM (initEntry cj st env.chi) = .ok l := by
      intro ps
      induction ps with
      | nil => intro _; exact ⟨[], rfl⟩
      | cons q ps ih =>
        intro hq
        obtain ⟨l, e⟩ := ih (fun q hq' => hq q (by simp [hq']))
        obtain ⟨hc, hv⟩ := mem_pairs.1 (hq q (by simp))
        obtain ⟨A, eA, B, eB⟩ := h _ hc _ _ (htt _ hv)
        have e1 : initEntry cj st env.chi q = .ok ((q.1, q.2.1), B) := by
          unfold initEntry
          simp only [eA, lift, ok_bind, eB]
          rfl
        exact ⟨((q.1, q.2.1), B) :: l, by rw [List.mapM_cons, e1, ok_bind, e]; rfl⟩
    exact this _ (fun _ h => h)
  obtain ⟨lC, eC⟩ := h3 tC (fun q hq => List.mem_append_left _ hq)
  obtain ⟨lT, eT⟩ := h3 tT (fun q hq => List.mem_append_right _ hq)
  intro hn
  simp only [initFrom] at hn
  rw [eC, ok_bind, eT, ok_bind] at hn
  cases hn

/-- The site tensors are not identically zero. -/
def Spec.NonZero (st : State K) : Prop := ∀ c A, st.site c = some A → ∃ idx, InB A.shape idx ∧ A.val idx ≠ 0

/-- **C64**, `"CTMRG"`: on every state of non-zero tensors that fit together, the environment is built without failure. Every tensor is the
normalised contraction of the neighbouring ket with its conjugated bra, cut or zero-padded to `chi`; all bonds match. -/
theorem C64_init {D : Dims} {st : State K} (ht : Tiling st) (hs : FitsState D st) (hz : NonZero st) (env : Env K) (hchi : 0 < env.chi) :
    ∃ env', initEnv .pbc st env = .ok env' ∧ env'.chi = env.chi ∧ AllInit st env' (InitPbc env.chi) ∧ FitsEnv (D.flat env.chi) st env' := by
  have h : initEnv .pbc st env = .error .nan ∨ ∃ env', initEnv .pbc st env = .ok env' ∧ env'.chi = env.chi ∧ AllInit st env' (InitPbc env.chi) := by
    refine initFrom_ok (R := InitPbc env.chi) ht.nodup rfl rfl (fun c _ v b hb => ?_)
    obtain ⟨A, eA, sA⟩ := hs.site (c.1 + v.1, c.2 + v.2)
    have hA : A.shape.length = 5 := by rw [sA]; rfl
    obtain ⟨h1, h2, h3, h4, h5⟩ := pbc_blocks (v, b) hb
    refine ⟨A, eA, ?_⟩
    rcases block_init (cj := true) h1 h2 h3 h4 h5 hA env.chi (F := ketBra ((List.range 5).filter (· ∉ openLegs v)) A) (fun σ => rfl) with ⟨e, -⟩ | h
    · exact .inl e
    · exact .inr h
  rcases h with h | ⟨env', e, hc, hall⟩
  · refine absurd h (initFrom_ne_nan ?_)
    intro c _ v b hb
    obtain ⟨A, eA, sA⟩ := hs.site (c.1 + v.1, c.2 + v.2)
    have hA : A.shape.length = 5 := by rw [sA]; rfl
    obtain ⟨h1, h2, h3, h4, h5⟩ := pbc_blocks (v, b) hb
    refine ⟨A, eA, ?_⟩
    rcases block_init (cj := true) h1 h2 h3 h4 h5 hA env.chi (F := ketBra ((List.range 5).filter (· ∉ openLegs v)) A) (fun σ => rfl) with ⟨-, a, h0, hn⟩ | ⟨B, e, -⟩
    · obtain ⟨idx, hi, hne⟩ := hz _ _ eA
      exact absurd (pbc_nonzero hA h0 hn idx hi) hne
    · exact ⟨B, e⟩
  · refine ⟨env', e, hc, hall, fits_of_init ht hs hchi hall ?_⟩
    rintro v A B ⟨a, a', -, -, h, -⟩
    exact h

/-- **C64**, `"CTMRG"` followed by any sequence of moves (double layer, 4X4 projectors): nothing raises, and without division by a vanishing
norm the result fits again. -/
theorem C64_init_moves {args : Args} (hdl : args.dl = true) (hm : args.m4x4 = true) {svd : Tensor K → Nat → Svd K} (hb : Backend svd) {D : Dims}
    {st : State K} (ht : Tiling st) (hs : FitsState D st) (hz : NonZero st) (env : Env K) (hchi : 0 < env.chi) (ds : List Dir) :
    (initEnv .pbc st env >>= moves args svd st.dl ds) = .error .nan ∨
    ∃ env' D', (initEnv .pbc st env >>= moves args svd st.dl ds) = .ok env' ∧ env'.chi = env.chi ∧ FitsState D' st ∧ FitsEnv D' st env' ∧
      (Truncating svd → ∀ d x, D'.edge d x ≤ env.chi) := by
  obtain ⟨env1, e, hc, -, hf⟩ := C64_init ht hs hz env hchi
  rw [e, ok_bind]
  rcases C61_moves (D := D.flat env.chi) hdl hm hb ht (FitsState.congr hs rfl rfl rfl) hf ds with h | ⟨env', D', h, h1, h2, h3, h4, h5⟩
  · exact .inl h
  · refine .inr ⟨env', D', h, h1.trans hc, h2, h3, fun htr d x => ?_⟩
    by_cases hd : d ∈ ds
    · exact hc ▸ h5 htr d hd x
    · rw [h4 d hd]; cases d <;> exact le_refl _

/-- **C64**, `"CTMRG_OBC"`: unless a contraction vanishes the environment is built and all bonds match. The bra is not conjugated. -/
theorem C64_init_obc {D : Dims} {st : State K} (ht : Tiling st) (hs : FitsState D st) (env : Env K) (hchi : 0 < env.chi) :
    initEnv .obc st env = .error .nan ∨
    ∃ env', initEnv .obc st env = .ok env' ∧ env'.chi = env.chi ∧ AllInit st env' (InitObcNoConj env.chi) ∧ FitsEnv (D.flat env.chi) st env' := by
  have h : initEnv .obc st env = .error .nan ∨ ∃ env', initEnv .obc st env = .ok env' ∧ env'.chi = env.chi ∧ AllInit st env' (InitObcNoConj env.chi) := by
    refine initFrom_ok (R := InitObcNoConj env.chi) ht.nodup rfl rfl (fun c _ v b hb => ?_)
    obtain ⟨A, eA, sA⟩ := hs.site (c.1 + v.1, c.2 + v.2)
    have hA : A.shape.length = 5 := by rw [sA]; rfl
    obtain ⟨h1, h2, h3, h4, h5⟩ := obc_blocks (v, b) hb
    refine ⟨A, eA, ?_⟩
    rcases block_init (cj := false) h1 h2 h3 h4 h5 hA env.chi (F := fun σ => A.val ((List.range 5).map σ) * A.val ((List.range 5).map (fun i => if i ∈ [0] then σ i else σ (i + 5))))
      (fun σ => rfl) with ⟨e, -⟩ | h
    · exact .inl e
    · exact .inr h
  rcases h with h | ⟨env', e, hc, hall⟩
  · exact .inl h
  · refine .inr ⟨env', e, hc, hall, fits_of_init ht hs hchi hall ?_⟩
    rintro v A B ⟨a, a', -, -, h, -⟩
    exact h

/-- **C65** for `"CTMRG_OBC"` with real tensors: ket and conjugated bra. -/
theorem C65_obc_partial {D : Dims} {st : State K} (ht : Tiling st) (hs : FitsState D st) (env : Env K) (hchi : 0 < env.chi)
    (hreal : ∀ c A, st.site c = some A → ∀ idx, star (A.val idx) = A.val idx) {env' : Env K} (h : initEnv .obc st env = .ok env') :
    AllInit st env' (InitObc env.chi) := by
  rcases C64_init_obc ht hs env hchi with e | ⟨env1, e, -, hall, -⟩
  · rw [e] at h; cases h
  · rw [e] at h
    cases h
    have key : ∀ v (A B : Tensor K), (∀ idx, star (A.val idx) = A.val idx) → InitObcNoConj env.chi v A B → InitObc env.chi v A B := by
      rintro v A B hA ⟨a, a', hn, h⟩
      exact ⟨a, a', isNetwork_congr hn rfl (List.Perm.refl _) (fun σ => by simp only [ketBra, hA]), h⟩
    intro c hc v
    obtain ⟨h1, h2⟩ := hall c hc v
    refine ⟨fun hv => ?_, fun hv => ?_⟩
    · obtain ⟨A, B, hA, hB, hr⟩ := h1 hv; exact ⟨A, B, hA, hB, key _ _ _ (hreal _ _ hA) hr⟩
    · obtain ⟨A, B, hA, hB, hr⟩ := h2 hv; exact ⟨A, B, hA, hB, key _ _ _ (hreal _ _ hA) hr⟩

/-! ### C65 refuted for complex tensors -/

/-- One site, all sizes 1, the only entry is `i`. -/
noncomputable def iState : State ℂ :=
  ⟨[(0, 0)], fun c => if c = (0, 0) then some ⟨[1, 1, 1, 1, 1], fun _ => Complex.I⟩ else none, fun _ => (0, 0), 1, 1⟩

theorem sumOver_const {dim : Nat → Nat} (L : List Nat) (hL : ∀ l ∈ L, dim l = 1) (x : K) (σ : Nat → Nat) : sumOver dim L (fun _ => x) σ = x := by
  induction L generalizing σ with
  | nil => rfl
  | cons a L ih =>
    simp only [sumOver, hL a (by simp), Finset.range_one, Finset.sum_singleton]
    exact ih (fun l hl => hL l (by simp [hl])) _

theorem iDim (l : Nat) : legDim (⟨[1, 1, 1, 1, 1], fun _ => Complex.I⟩ : Tensor ℂ) l = 1 := by
  have : l % 5 < 5 := Nat.mod_lt _ (by norm_num)
  simp only [legDim]
  generalize l % 5 = i at this
  match i, this with
  | 0, _ => rfl
  | 1, _ => rfl
  | 2, _ => rfl
  | 3, _ => rfl
  | 4, _ => rfl

/-- **C65** refuted: on a state of complex tensors `"CTMRG_OBC"` succeeds with tensors that are not built from ket and conjugated bra. -/
theorem C65_violated (env : Env ℂ) (hchi : 0 < env.chi) : ∃ env', initEnv .obc iState env = .ok env' ∧ ¬ AllInit iState env' (InitObc env.chi) := by
  have ht : Tiling iState := ⟨fun _ _ => rfl, fun _ => by simp [iState], fun c hc => by simp [iState] at hc; simp [iState, hc], by simp [iState]⟩
  have one : Sizes iState (fun _ => 1) := ⟨fun _ => by norm_num, fun _ => rfl⟩
  have hs : FitsState ⟨fun _ => 1, fun _ => 1, fun _ => 1, fun _ => 1, fun _ => 1, fun _ => 1, fun _ => 1⟩ iState :=
    ⟨fun c => ⟨⟨[1, 1, 1, 1, 1], fun _ => Complex.I⟩, by simp [State.site, iState], rfl⟩, one, one, one⟩
  have hsite : ∀ c A, iState.site c = some A → A = ⟨[1, 1, 1, 1, 1], fun _ => Complex.I⟩ := by
    intro c A h
    simp [State.site, iState] at h
    exact h.symm
  rcases C64_init_obc ht hs env hchi with e | ⟨env', e, -, hall, -⟩
  · refine absurd e (initFrom_ne_nan ?_)
    intro c _ v b hb
    obtain ⟨h1, h2, h3, h4, h5⟩ := obc_blocks (v, b) hb
    refine ⟨⟨[1, 1, 1, 1, 1], fun _ => Complex.I⟩, by simp [State.site, iState], ?_⟩
    rcases block_init (cj := false) (A := (⟨[1, 1, 1, 1, 1], fun _ => Complex.I⟩ : Tensor ℂ)) h1 h2 h3 h4 h5 rfl env.chi (F := fun σ => Complex.I * Complex.I)
      (fun σ => rfl) with ⟨-, a, h0, hn⟩ | ⟨B, e, -⟩
    · exfalso
      have hv := hn.2 (fun _ => 0) (fun _ _ l _ => by rw [iDim]; norm_num)
      have hin : InB a.shape (((openLegs v).map (fun i => [i, i + 5])).map (fun g => ravel (g.map (legDim (⟨[1, 1, 1, 1, 1], fun _ => Complex.I⟩ : Tensor ℂ))) (g.map (fun _ => 0)))) := by
        rw [hn.1]
        exact inB_groups _ (fun _ => 0) _ (fun l _ => by rw [iDim]; norm_num)
      rw [vecNorm_zero h0 _ hin, sumOver_const _ (fun l _ => iDim l)] at hv
      simp at hv
    · exact ⟨B, e⟩
  · refine ⟨env', e, fun hbad => ?_⟩
    obtain ⟨A, B, hA, hB, a, a', hn, hN, hsh, hE⟩ := (hall (0, 0) (by simp [iState]) (-1, -1)).1 (.inl rfl)
    obtain ⟨A2, B2, hA2, hB2, b, b', hn2, hN2, -, hE2⟩ := (hbad (0, 0) (by simp [iState]) (-1, -1)).1 (.inl rfl)
    rw [hB] at hB2
    cases hB2
    obtain rfl := hsite _ _ hA
    obtain rfl := hsite _ _ hA2
    have hidx : ∀ a : Tensor ℂ, a.shape = [1, 1] → InB a.shape [0, 0] := by intro a h; rw [h]; decide
    have sa : a.shape = [1, 1] := hn.1
    have sb : b.shape = [1, 1] := hn2.1
    have hv : a.val [0, 0] = -1 := by
      have := hn.2 (fun _ => 0) (fun _ _ l _ => by rw [iDim]; norm_num)
      have h2 := sumOver_const (dim := legDim (⟨[1, 1, 1, 1, 1], fun _ => Complex.I⟩ : Tensor ℂ))
        (0 :: ([1, 2, 3, 4].filter (· ∉ openLegs (-1, -1))).flatMap (fun i => [i, i + 5])) (fun l _ => iDim l) (Complex.I * Complex.I) (fun _ => 0)
      rw [Complex.I_mul_I] at h2
      refine this.trans (Eq.trans ?_ h2)
      simp only [Complex.I_mul_I]
    have hv2 : b.val [0, 0] = 1 := by
      have := hn2.2 (fun _ => 0) (fun _ _ l _ => by rw [iDim]; norm_num)
      have hc : ketBra [0] (⟨[1, 1, 1, 1, 1], fun _ => Complex.I⟩ : Tensor ℂ) = fun _ => 1 := by
        funext σ
        simp [ketBra]
      rw [hc, sumOver_const _ (fun l _ => iDim l)] at this
      exact this
    have hBi : InB B.shape [0, 0] := by
      rw [hsh]
      exact .cons hchi (.cons hchi .nil)
    have e1 := hE [0, 0] hBi
    have e2 := hE2 [0, 0] hBi
    rw [if_pos (hidx _ (hN.shape.trans sa))] at e1
    rw [if_pos (hidx _ (hN2.shape.trans sb))] at e2
    obtain ⟨s, hs0, hs1⟩ := hN.scale
    obtain ⟨t, ht0, ht1⟩ := hN2.scale
    have f1 := hs1 [0, 0] (hidx _ sa)
    have f2 := ht1 [0, 0] (hidx _ sb)
    rw [← e1, hv] at f1
    rw [← e2, hv2] at f2
    have g1 := congrArg Complex.re f1
    have g2 := congrArg Complex.re f2
    simp at g1 g2
    nlinarith [mul_pos hs0 ht0]

theorem exNonZero {l l' : Nat} (h : 0 < l) (h' : 0 < l') : NonZero (exState (exDims l l')) := by
  intro c A hA
  obtain ⟨t, e, hsh⟩ := (exFitsState h h').site c
  obtain rfl : t = A := by rw [e] at hA; exact Option.some.inj hA
  have hv : ∀ idx, t.val idx = 1 := by
    simp only [State.site, exState, Option.some.injEq] at e
    subst e
    intro idx; rfl
  refine ⟨t.shape.map (fun _ => 0), ?_, by rw [hv]; norm_num⟩
  rw [hsh]
  have hs := exFitsState h h'
  exact .cons (hs.p.1 _) (.cons (hs.U.1 _) (.cons (hs.L.1 _) (.cons (hs.U.1 _) (.cons (hs.L.1 _) .nil))))

example := C64_init (exTiling _) (exFitsState (l := 2) (l' := 5) (by decide) (by decide)) (exNonZero (by decide) (by decide)) (exEnv (exDims 2 5)) (by decide)
example := C64_init_moves (args := ⟨true, true, 0, true, true⟩) rfl rfl exBackend (exTiling _) (exFitsState (l := 2) (l' := 5) (by decide) (by decide))
  (exNonZero (by decide) (by decide)) (exEnv (exDims 2 5)) (by decide) [.up, .left, .up]
example := C64_init_obc (exTiling _) (exFitsState (l := 2) (l' := 5) (by decide) (by decide)) (exEnv (exDims 2 5)) (by decide)

end Verif.Ctm
