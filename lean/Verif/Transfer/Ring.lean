import Verif.Transfer.Spec
import Verif.Tensor.Net
/-
The ring of half-row tensors applied by `get_EH_spec_Ttensor`, for any number of tensors.
-/
namespace Verif.Transfer
open Tensor Spec

/-! ### Contractions with lists of axes of any length -/

theorem merge_eq {n : Nat} {ax k f idx : List Nat} (hl : idx.length = n) (hk : ax.map (fun p => idx.getD p 0) = k) (hf : (freeAxes n ax).map (fun p => idx.getD p 0) = f) :
    merge n ax k f = idx := by
  subst hl hk hf
  unfold merge
  conv_rhs => rw [← range_map_getD idx]
  refine List.map_congr_left (fun p hp => ?_)
  by_cases h : p ∈ ax
  · rw [if_pos h, getD_map_idxOf _ _ _ _ h]
  · rw [if_neg h, getD_map_idxOf _ _ _ _ (mem_freeAxes.2 ⟨List.mem_range.1 hp, h⟩)]

theorem tensordot_val {ax bx : List Nat} {A B : Tensor ℂ} (h : ax.Nodup ∧ bx.Nodup ∧ (∀ p ∈ ax, p < A.shape.length) ∧ (∀ p ∈ bx, p < B.shape.length) ∧
      ax.map (fun p => A.shape.getD p 0) = bx.map (fun p => B.shape.getD p 0)) {fa fb : List Nat} (ha : (freeAxes A.shape.length ax).map (fun p => A.shape.getD p 0) = fa)
    (hb : (freeAxes B.shape.length bx).map (fun p => B.shape.getD p 0) = fb) :
    ∃ R, tensordot ax bx A B = some R ∧ R.shape = fa ++ fb ∧ ∀ i j : List Nat, i.length = fa.length →
      R.val (i ++ j) = sumIdx (ax.map (fun p => A.shape.getD p 0)) (fun k => A.val (merge A.shape.length ax k i) * B.val (merge B.shape.length bx k j)) := by
  subst ha hb
  refine ⟨_, if_pos h, rfl, fun i j hi => ?_⟩
  have e : i.length = (freeAxes A.shape.length ax).length := by simpa using hi
  simp only [← e, List.take_left, List.drop_left]

theorem permute_val {perm : List Nat} {A : Tensor ℂ} (h : perm.length = A.shape.length ∧ perm.Nodup ∧ ∀ p ∈ perm, p < A.shape.length) :
    ∃ R, permute perm A = some R ∧ R.shape = perm.map (fun p => A.shape.getD p 0) ∧ ∀ idx : List Nat, idx.length = A.shape.length →
      R.val (perm.map (fun p => idx.getD p 0)) = A.val idx := by
  refine ⟨_, if_pos h, rfl, fun idx hi => ?_⟩
  show A.val _ = A.val _
  congr 1
  conv_rhs => rw [← range_map_getD idx]
  rw [hi]
  refine List.map_congr_left (fun p hp => ?_)
  refine getD_map_idxOf _ _ _ _ ?_
  have hsub : perm.Subperm (List.range A.shape.length) := List.subperm_of_subset h.2.1 (fun q hq => List.mem_range.2 (h.2.2 q hq))
  have hp2 := hsub.perm_of_length_le (by simp [h.1])
  exact hp2.mem_iff.2 hp

theorem filter_all {p : Nat → Bool} {f : Nat → Nat} {l : List Nat} (h : ∀ i ∈ l, p (f i) = true) : (l.map f).filter p = l.map f := by
  rw [List.filter_eq_self]
  intro a ha
  obtain ⟨i, hi, rfl⟩ := List.mem_map.1 ha
  exact h i hi

theorem map_part (A R S : List Nat) : (List.range R.length).map (fun i => (A ++ (R ++ S)).getD (A.length + i) 0) = R := by
  refine List.ext_getElem (by simp) (fun i h1 h2 => ?_)
  simp [List.getD_eq_getElem?_getD, List.getElem?_append, h2]

theorem free_mid (x : Nat) (R : List Nat) (y : Nat) (S : List Nat) :
    (freeAxes (x :: (R ++ y :: S)).length [0, R.length + 1]).map (fun p => (x :: (R ++ y :: S)).getD p 0) = R ++ S := by
  have hl : (x :: (R ++ y :: S)).length = 1 + (R.length + (1 + S.length)) := by simp; omega
  have e : freeAxes (x :: (R ++ y :: S)).length [0, R.length + 1] = (List.range R.length).map (fun i => 1 + i) ++ (List.range S.length).map (fun i => R.length + 2 + i) := by
    rw [hl, freeAxes, List.range_add, List.range_add, List.range_add]
    simp only [List.map_append, List.filter_append, List.map_map]
    rw [filter_all (l := List.range R.length) (fun i hi => by simp at hi ⊢; omega), filter_all (l := List.range S.length) (fun i hi => by simp at hi ⊢; omega)]
    have : (List.range S.length).map ((fun x => 1 + x) ∘ (fun x => R.length + x) ∘ (fun x => 1 + x)) = (List.range S.length).map (fun i => R.length + 2 + i) :=
      List.map_congr_left (fun i _ => by simp; omega)
    rw [this]
    simp [List.range_succ]
    omega
  rw [e, List.map_append, List.map_map, List.map_map]
  have h1 := map_part [x] R (y :: S)
  have h2 := map_part (x :: (R ++ [y])) S []
  simp only [List.append_nil, List.length_cons, List.length_append, List.length_nil, List.cons_append, List.append_assoc, List.nil_append] at h1 h2
  refine congrArg₂ _ (Eq.trans (List.map_congr_left (fun i _ => ?_)) h1) (Eq.trans (List.map_congr_left (fun i _ => ?_)) h2)
  · simp
  · simp [Nat.add_assoc]

theorem free_end (x : Nat) (R : List Nat) (y z : Nat) :
    (freeAxes (x :: (R ++ [y, z])).length [0, R.length + 1, R.length + 2]).map (fun p => (x :: (R ++ [y, z])).getD p 0) = R := by
  have hl : (x :: (R ++ [y, z])).length = 1 + (R.length + 2) := by simp; omega
  have e : freeAxes (x :: (R ++ [y, z])).length [0, R.length + 1, R.length + 2] = (List.range R.length).map (fun i => 1 + i) := by
    rw [hl, freeAxes, List.range_add, List.range_add]
    simp only [List.map_append, List.filter_append, List.map_map]
    rw [filter_all (l := List.range R.length) (fun i hi => by simp at hi ⊢; omega)]
    simp [List.range_succ]
    omega
  rw [e, List.map_map]
  have h1 := map_part [x] R [y, z]
  simp only [List.length_cons, List.length_nil, List.cons_append, List.nil_append] at h1
  exact Eq.trans (List.map_congr_left (fun i _ => by simp)) h1

theorem free_head (x : Nat) (R : List Nat) : (freeAxes (x :: R).length [0]).map (fun p => (x :: R).getD p 0) = R := by
  have hl : (x :: R).length = 1 + R.length := by simp; omega
  have e : freeAxes (x :: R).length [0] = (List.range R.length).map (fun i => 1 + i) := by
    rw [hl, freeAxes, List.range_add]
    simp only [List.filter_append]
    rw [filter_all (l := List.range R.length) (fun i hi => by simp)]
    simp [List.range_succ]
  rw [e, List.map_map]
  have h1 := map_part [x] R []
  simp only [List.append_nil, List.length_cons, List.length_nil, List.cons_append, List.nil_append] at h1
  exact Eq.trans (List.map_congr_left (fun i _ => by simp)) h1

/-! ### Sums over multi-indices -/

theorem sumIdx_append (a b : List Nat) (f : List Nat → ℂ) : sumIdx (a ++ b) f = sumIdx a (fun i => sumIdx b (fun j => f (i ++ j))) := by
  induction a generalizing f with
  | nil => rfl
  | cons d a ih => simp only [List.cons_append, sumIdx, ih]

theorem sumIdx_congr {a : List Nat} {f g : List Nat → ℂ} (h : ∀ i, InB a i → f i = g i) : sumIdx a f = sumIdx a g := by
  induction a generalizing f g with
  | nil => exact h [] .nil
  | cons d a ih =>
    simp only [sumIdx]
    exact Finset.sum_congr rfl (fun i hi => ih (fun j hj => h _ (.cons (Finset.mem_range.1 hi) hj)))

theorem sumIdx_sum {α : Type} (s : Finset α) (a : List Nat) (f : α → List Nat → ℂ) : sumIdx a (fun i => ∑ x ∈ s, f x i) = ∑ x ∈ s, sumIdx a (f x) := by
  induction a generalizing f with
  | nil => rfl
  | cons d a ih => simp only [sumIdx, ih]; rw [Finset.sum_comm]

theorem mul_sumIdx (a : List Nat) (c : ℂ) (f : List Nat → ℂ) : c * sumIdx a f = sumIdx a (fun i => c * f i) := by
  induction a generalizing f with
  | nil => rfl
  | cons d a ih => simp only [sumIdx, Finset.mul_sum, ih]

/-! ### The ring -/

/-- The entries of a half-row tensor. -/
def ent (t : Tensor ℂ) : Nat → Nat → Nat → Nat → ℂ := fun a b k j => t.val [a, b, k, j]

/-- The open chain of tensors. -/
noncomputable def path (chi : Nat) (ts : List (Nat → Nat → Nat → Nat → ℂ)) (k j : List Nat) : Matrix (Fin chi) (Fin chi) ℂ :=
  (List.zipWith (fun t kj => block chi t kj.1 kj.2) ts (k.zip j)).prod

theorem path_snoc (chi : Nat) (ts : List (Nat → Nat → Nat → Nat → ℂ)) (t : Nat → Nat → Nat → Nat → ℂ) {k j : List Nat} (x y : Nat) (hk : k.length = ts.length) (hj : j.length = ts.length) :
    path chi (ts ++ [t]) (k ++ [x]) (j ++ [y]) = path chi ts k j * block chi t x y := by
  rw [path, path, List.zip_append (by rw [hk, hj]), List.zipWith_append (by simp [hk, hj])]
  simp

/-- The tensor after some steps: open bond, the bonds of the tensors applied (last first), the bonds still to be contracted, the bond of the first tensor. -/
def Inv (chi : Nat) (ts0 : List (Tensor ℂ)) (ads0 adsR : List Nat) (V W : Tensor ℂ) : Prop :=
  W.shape = chi :: (ads0.reverse ++ (adsR ++ [chi])) ∧ ∀ (b b0 : Fin chi) (k js : List Nat), InB ads0 k → InB adsR js →
    W.val (b.1 :: (k.reverse ++ (js ++ [b0.1]))) = sumIdx ads0 (fun j => path chi (ts0.map ent) k j b0 b * V.val (j ++ js))

theorem perm_first (x y z : Nat) (R : List Nat) :
    ([1, 2] ++ (List.range R.length).map (fun i => i + 3) ++ [0]).map (fun p => (x :: y :: z :: R).getD p 0) = y :: z :: (R ++ [x]) := by
  have h1 := map_part [x, y, z] R []
  simp only [List.append_nil, List.length_cons, List.length_nil, List.cons_append, List.nil_append] at h1
  simp only [List.map_append, List.map_cons, List.map_nil, List.map_map]
  have : (List.range R.length).map ((fun p => (x :: y :: z :: R).getD p 0) ∘ fun i => i + 3) = R :=
    Eq.trans (List.map_congr_left (fun i _ => by simp only [Function.comp]; rw [Nat.add_comm])) h1
  rw [this]
  simp

theorem first_ok {chi a : Nat} {ads : List Nat} {t V : Tensor ℂ} (ht : t.shape = [chi, chi, a, a]) (hV : V.shape = a :: ads) :
    ∃ X W, tensordot [3] [0] t V = some X ∧ permute ([1, 2] ++ (List.range ads.length).map (fun i => i + 3) ++ [0]) X = some W ∧ Inv chi [t] [a] ads V W := by
  obtain ⟨X, eX, sX, vX⟩ := tensordot_val (A := t) (B := V) (ax := [3]) (bx := [0]) (fa := [chi, chi, a]) (fb := ads)
    (by simp [ht, hV]) (by rw [ht]; simp [freeAxes, List.range_succ]) (by rw [hV]; exact free_head a ads)
  have hXl : X.shape = chi :: chi :: a :: ads := by rw [sX]; rfl
  obtain ⟨W, eW, sW, vW⟩ := permute_val (A := X) (perm := [1, 2] ++ (List.range ads.length).map (fun i => i + 3) ++ [0]) (by
    rw [hXl]
    refine ⟨by simp, ?_, ?_⟩
    · refine List.Nodup.append (List.Nodup.append (by decide) (List.Nodup.map (fun a b h => by simpa using h) List.nodup_range) ?_) (by simp) ?_
      · intro p hp hq
        simp at hp hq
        obtain ⟨i, _, rfl⟩ := hq
        omega
      · intro p hp hq
        simp at hp hq
        omega
    · intro p hp
      simp at hp ⊢
      omega)
  refine ⟨X, W, eX, eW, ?_, ?_⟩
  · rw [sW, hXl, perm_first]; rfl
  · intro b b0 k js hk hjs
    cases hk with
    | cons hx hk => cases hk with
      | nil =>
        rename_i x
        have h := vW (b0.1 :: b.1 :: x :: js) (by rw [hXl]; simp [hjs.length])
        have hl := hjs.length
        rw [← hl, perm_first] at h
        simp only [List.reverse_cons, List.reverse_nil, List.nil_append, List.cons_append] at h ⊢
        rw [h]
        have h2 := vX [b0.1, b.1, x] js rfl
        simp only [List.cons_append, List.nil_append] at h2
        rw [h2]
        simp only [ht, List.map_cons, List.map_nil, sumIdx]
        simp only [List.getD_cons_succ, List.getD_cons_zero, List.length_cons, List.length_nil]
        refine Finset.sum_congr rfl (fun j _ => ?_)
        have e1 : merge 4 [3] [j] [b0.1, b.1, x] = [b0.1, b.1, x, j] := by simp [merge, freeAxes, List.range_succ]
        have e2 : merge V.shape.length [0] [j] js = j :: js := merge_eq (by rw [hV]; simp [hl]) (by simp) (by
          have := free_head j js
          rw [hV, List.length_cons, ← hl]; simpa using this)
        rw [show (0 + 1 + 1 + 1 + 1) = 4 from rfl, e1, e2]
        simp [path, block, ent]

theorem forall2_snoc {α β : Type} {R : α → β → Prop} {z : α} : ∀ {m : List α} {l : List β}, List.Forall₂ R (m ++ [z]) l → ∃ l0 y, l = l0 ++ [y] ∧ List.Forall₂ R m l0 ∧ R z y
  | [], _, h => by
    cases h with
    | cons hy h => cases h; exact ⟨[], _, rfl, .nil, hy⟩
  | x :: m, _, h => by
    cases h with
    | cons hx h =>
      obtain ⟨l0, y, rfl, h0, hy⟩ := forall2_snoc h
      exact ⟨_ :: l0, y, rfl, .cons hx h0, hy⟩

theorem inB_snoc {ads k : List Nat} {a : Nat} (hk : InB (ads ++ [a]) k) : ∃ k0 x, k = k0 ++ [x] ∧ InB ads k0 ∧ x < a := by
  obtain ⟨k0, x, h, h0, hx⟩ := forall2_snoc hk.flip
  exact ⟨k0, x, h, h0.flip, hx⟩

theorem step_ok {chi a : Nat} {ts0 : List (Tensor ℂ)} {ads0 adsR : List Nat} {t V W : Tensor ℂ} (ht : t.shape = [chi, chi, a, a]) (hl : ads0.length = ts0.length)
    (hW : Inv chi ts0 ads0 (a :: adsR) V W) : ∃ X, tensordot [0, 3] [0, ts0.length + 1] t W = some X ∧ Inv chi (ts0 ++ [t]) (ads0 ++ [a]) adsR V X := by
  have hWs : W.shape = chi :: (ads0.reverse ++ a :: (adsR ++ [chi])) := hW.1
  have hfb := free_mid chi ads0.reverse a (adsR ++ [chi])
  rw [List.length_reverse, hl] at hfb
  obtain ⟨X, eX, sX, vX⟩ := tensordot_val (A := t) (B := W) (ax := [0, 3]) (bx := [0, ts0.length + 1]) (fa := [chi, a]) (fb := ads0.reverse ++ (adsR ++ [chi]))
    (by
      refine ⟨by decide, by simp, by simp [ht], ?_, ?_⟩
      · rw [hWs]; simp [hl]
      · rw [ht, hWs]
        simp [List.getD_eq_getElem?_getD, hl])
    (by rw [ht]; simp [freeAxes, List.range_succ]) (by rw [hWs]; exact hfb)
  refine ⟨X, eX, by rw [sX]; simp, ?_⟩
  intro b b0 k js hk hjs
  obtain ⟨k0, x, rfl, hk0, hx⟩ := inB_snoc hk
  have hlk := hk0.length
  rw [List.reverse_append, List.reverse_singleton, List.singleton_append, List.cons_append]
  have h1 := vX [b.1, x] (k0.reverse ++ (js ++ [b0.1])) rfl
  simp only [List.cons_append, List.nil_append] at h1
  rw [h1]
  simp only [ht, List.map_cons, List.map_nil, sumIdx]
  simp only [List.getD_cons_succ, List.getD_cons_zero, List.length_cons, List.length_nil]
  rw [sumIdx_append]
  have e : ∀ (c : Fin chi) (y : Nat), y < a → t.val (merge (0 + 1 + 1 + 1 + 1) [0, 3] [c.1, y] [b.1, x]) * W.val (merge W.shape.length [0, ts0.length + 1] [c.1, y] (k0.reverse ++ (js ++ [b0.1]))) =
      sumIdx ads0 (fun j => path chi (ts0.map ent) k0 j b0 c * block chi (ent t) x y c b * V.val (j ++ y :: js)) := by
    intro c y hy
    have e1 : merge (0 + 1 + 1 + 1 + 1) [0, 3] [c.1, y] [b.1, x] = [c.1, b.1, x, y] := by simp [merge, freeAxes, List.range_succ]
    have e2 : merge W.shape.length [0, ts0.length + 1] [c.1, y] (k0.reverse ++ (js ++ [b0.1])) = c.1 :: (k0.reverse ++ (y :: js ++ [b0.1])) := by
      refine merge_eq ?_ ?_ ?_
      · rw [hWs]; simp [hlk, hjs.length]
      · simp [List.getD_eq_getElem?_getD, hl, hlk]
      · have := free_mid c.1 k0.reverse y (js ++ [b0.1])
        rw [List.length_reverse, hlk, hl] at this
        rw [hWs]
        simp only [List.length_cons, List.length_append, List.length_reverse, hlk, hjs.length, List.cons_append] at this ⊢
        exact this
    rw [e1, e2, hW.2 c b0 k0 (y :: js) hk0 (.cons hy hjs), mul_sumIdx]
    refine sumIdx_congr (fun j _ => ?_)
    simp only [block, ent]
    ring
  rw [Finset.sum_range, Finset.sum_congr rfl (fun c _ => Finset.sum_congr rfl (fun y hy => e c y (Finset.mem_range.1 hy)))]
  simp only [← sumIdx_sum]
  refine sumIdx_congr (fun j hj => ?_)
  rw [Finset.sum_comm]
  simp only [sumIdx]
  refine Finset.sum_congr rfl (fun y _ => ?_)
  rw [List.map_append, List.map_cons, List.map_nil, path_snoc chi _ _ x y (by simp [hlk, hl]) (by simp [hj.length, hl]), Matrix.mul_apply, Finset.sum_mul]
  refine Finset.sum_congr rfl (fun c _ => ?_)
  rw [List.append_assoc]
  rfl

theorem mvMid_ok {chi : Nat} {V : Tensor ℂ} : ∀ (ts : List (Tensor ℂ)) (ads adsR : List Nat) (ts0 : List (Tensor ℂ)) (ads0 : List Nat) (W : Tensor ℂ),
    List.Forall₂ (fun t a => t.shape = [chi, chi, a, a]) ts ads → ads0.length = ts0.length → Inv chi ts0 ads0 (ads ++ adsR) V W →
    ∃ X, mvMid ts0.length ts W = some X ∧ Inv chi (ts0 ++ ts) (ads0 ++ ads) adsR V X
  | [], ads, adsR, ts0, ads0, W, h, hl, hW => by
    cases h
    exact ⟨W, rfl, by simpa using hW⟩
  | t :: ts, ads, adsR, ts0, ads0, W, h, hl, hW => by
    cases h with
    | cons ht h =>
      rename_i a ads
      obtain ⟨X, eX, hX⟩ := step_ok ht hl hW
      obtain ⟨Y, eY, hY⟩ := mvMid_ok ts ads adsR (ts0 ++ [t]) (ads0 ++ [a]) X h (by simp [hl]) hX
      refine ⟨Y, ?_, by simpa using hY⟩
      simp only [mvMid, eX, Option.bind_eq_bind, Option.bind_some]
      simpa using eY

theorem last_ok {chi a : Nat} {ts0 : List (Tensor ℂ)} {ads0 : List Nat} {t V W : Tensor ℂ} (ht : t.shape = [chi, chi, a, a]) (hl : ads0.length = ts0.length)
    (hW : Inv chi ts0 ads0 [a] V W) : ∃ X Y, tensordot [0, 3, 1] [0, ts0.length + 1, ts0.length + 2] t W = some X ∧ permute (List.range (ts0.length + 1)).reverse X = some Y ∧
      Y.shape = ads0 ++ [a] ∧ ∀ k, InB (ads0 ++ [a]) k → Y.val k = sumIdx (ads0 ++ [a]) (fun j => ring chi ((ts0 ++ [t]).map ent) k j * V.val j) := by
  have hWs : W.shape = chi :: (ads0.reverse ++ [a, chi]) := hW.1
  have hfb := free_end chi ads0.reverse a chi
  rw [List.length_reverse, hl] at hfb
  obtain ⟨X, eX, sX, vX⟩ := tensordot_val (A := t) (B := W) (ax := [0, 3, 1]) (bx := [0, ts0.length + 1, ts0.length + 2]) (fa := [a]) (fb := ads0.reverse)
    (by
      refine ⟨by decide, by simp, by simp [ht], ?_, ?_⟩
      · rw [hWs]; simp [hl]
      · rw [ht, hWs]
        simp [List.getD_eq_getElem?_getD, hl])
    (by rw [ht]; simp [freeAxes, List.range_succ]) (by rw [hWs]; exact hfb)
  have hXl : X.shape.length = ts0.length + 1 := by rw [sX]; simp [hl]
  have hrev : ∀ l : List Nat, l.length = ts0.length + 1 → (List.range (ts0.length + 1)).reverse.map (fun p => l.getD p 0) = l.reverse := by
    intro l h
    rw [List.map_reverse, ← h, range_map_getD]
  obtain ⟨Y, eY, sY, vY⟩ := permute_val (A := X) (perm := (List.range (ts0.length + 1)).reverse) (by
    rw [hXl]
    exact ⟨by simp, List.nodup_reverse.2 List.nodup_range, fun p hp => by simpa using hp⟩)
  refine ⟨X, Y, eX, eY, by rw [sY, hrev _ hXl, sX]; simp, fun k hk => ?_⟩
  obtain ⟨k0, x, rfl, hk0, hx⟩ := inB_snoc hk
  have hlk := hk0.length
  have h0 := vY (x :: k0.reverse) (by rw [hXl]; simp [hlk, hl])
  rw [hrev _ (by simp [hlk, hl]), List.reverse_cons, List.reverse_reverse] at h0
  rw [h0]
  have h1 := vX [x] k0.reverse rfl
  simp only [List.cons_append, List.nil_append] at h1
  rw [h1]
  simp only [ht, List.map_cons, List.map_nil, sumIdx]
  simp only [List.getD_cons_succ, List.getD_cons_zero, List.length_cons, List.length_nil]
  rw [sumIdx_append]
  have e : ∀ (c b0 : Fin chi) (y : Nat), y < a → t.val (merge (0 + 1 + 1 + 1 + 1) [0, 3, 1] [c.1, y, b0.1] [x]) * W.val (merge W.shape.length [0, ts0.length + 1, ts0.length + 2] [c.1, y, b0.1] k0.reverse) =
      sumIdx ads0 (fun j => path chi (ts0.map ent) k0 j b0 c * block chi (ent t) x y c b0 * V.val (j ++ [y])) := by
    intro c b0 y hy
    have e1 : merge (0 + 1 + 1 + 1 + 1) [0, 3, 1] [c.1, y, b0.1] [x] = [c.1, b0.1, x, y] := by simp [merge, freeAxes, List.range_succ, List.idxOf, List.findIdx_cons]
    have e2 : merge W.shape.length [0, ts0.length + 1, ts0.length + 2] [c.1, y, b0.1] k0.reverse = c.1 :: (k0.reverse ++ ([y] ++ [b0.1])) := by
      refine merge_eq ?_ ?_ ?_
      · rw [hWs]; simp [hlk]
      · simp [List.getD_eq_getElem?_getD, hl, hlk]
      · have := free_end c.1 k0.reverse y b0.1
        rw [List.length_reverse, hlk, hl] at this
        rw [hWs]
        simp only [List.length_cons, List.length_append, List.length_reverse, hlk, List.length_nil] at this ⊢
        exact this
    rw [e1, e2, hW.2 c b0 k0 [y] hk0 (.cons hy .nil), mul_sumIdx]
    refine sumIdx_congr (fun j _ => ?_)
    simp only [block, ent]
    ring
  rw [Finset.sum_range, Finset.sum_congr rfl (fun c _ => Finset.sum_congr rfl (fun y hy => (Finset.sum_range _).trans (Finset.sum_congr rfl (fun b0 _ => e c b0 y (Finset.mem_range.1 hy)))))]
  simp only [← sumIdx_sum]
  refine sumIdx_congr (fun j hj => ?_)
  rw [Finset.sum_comm]
  simp only [sumIdx]
  refine Finset.sum_congr rfl (fun y _ => ?_)
  show _ = (path chi _ _ _).trace * _
  rw [List.map_append, List.map_cons, List.map_nil, path_snoc chi _ _ x y (by simp [hlk, hl]) (by simp [hj.length, hl]), Matrix.trace, Finset.sum_mul, Finset.sum_comm]
  refine Finset.sum_congr rfl (fun b0 _ => ?_)
  rw [Matrix.diag_apply, Matrix.mul_apply, Finset.sum_mul]

/-- The contractions of `mv_sigma` apply the ring of tensors. -/
theorem mvSigma_ok {chi : Nat} {ts : List (Tensor ℂ)} {ads : List Nat} {V : Tensor ℂ} (h : List.Forall₂ (fun t a => t.shape = [chi, chi, a, a]) ts ads) (h2 : 2 ≤ ts.length)
    (hV : V.shape = ads) : ∃ R, mvSigma ts V = some R ∧ R.shape = ads ∧ ∀ k, InB ads k → R.val k = sumIdx ads (fun j => ring chi (ts.map ent) k j * V.val j) := by
  obtain ⟨t, t', ts, rfl⟩ : ∃ t t' r, ts = t :: t' :: r := by
    match ts, h2 with
    | t :: t' :: r, _ => exact ⟨t, t', r, rfl⟩
  cases h with
  | cons ht h =>
    rename_i a ads
    obtain ⟨X, W, eX, eW, hW⟩ := first_ok ht hV
    have hne : t' :: ts ≠ [] := by simp
    obtain ⟨m, z, hz⟩ : ∃ m z, t' :: ts = m ++ [z] := by
      rcases List.eq_nil_or_concat (t' :: ts) with h | ⟨m, z, h⟩
      · exact absurd h hne
      · exact ⟨m, z, by simpa using h⟩
    have e1 : (t' :: ts).dropLast = m := by simp [hz]
    have e2 : (t' :: ts).getLast hne = z := by simp [hz]
    have hml : m.length + 1 = ts.length + 1 := by
      have := congrArg List.length hz
      simp at this
      omega
    rw [hz] at h
    obtain ⟨adm, y, rfl, hm, hzs⟩ := forall2_snoc h
    obtain ⟨W2, eW2, hW2⟩ := mvMid_ok m adm [y] [t] [a] W hm rfl hW
    have hlm := hm.length_eq
    obtain ⟨R, Y, eR, eY, sY, vY⟩ := last_ok hzs (by simp [hlm]) hW2
    simp only [List.singleton_append, List.length_cons, hml] at eR eY
    have hads : (adm ++ [y]).length = ts.length + 1 := by simp [← hlm, hml]
    rw [hads] at eW
    refine ⟨Y, ?_, sY, ?_⟩
    · simp only [mvSigma, eX, Option.bind_eq_bind, Option.bind_some, Nat.add_sub_cancel, e1, e2, show ts.length + 2 - 1 = ts.length + 1 from rfl, eW, eW2, eR, eY, show [t].length = 1 from rfl] at eW2 ⊢
      rw [eW2]
      simp only [Option.bind_some, eR, eY]
    · intro k hk
      have := vY k hk
      rw [hz]
      simpa using this

end Verif.Transfer
