import Verif.Ctm.MoveAbsorb
/-
Property C24: what one directional move changes.
-/
namespace Verif.Ctm
open Tensor
set_option linter.unusedSectionVars false
variable {K : Type} [RCLike K]

theorem mapM_ok {α β : Type} {f : α → Except Err β} {l : List α} {r : List β} (h : l.mapM f = .ok r) :
    List.Forall₂ (fun a b => f a = .ok b) l r := by
  induction l generalizing r with
  | nil => simp [pure, Except.pure] at h; subst h; exact .nil
  | cons a l ih =>
    rw [List.mapM_cons] at h
    cases ha : f a with
    | error e => simp [ha, bind, Except.bind] at h
    | ok b =>
      cases hl : l.mapM f with
      | error e => simp [ha, hl, bind, Except.bind] at h
      | ok bs =>
        simp [ha, hl, bind, Except.bind, pure, Except.pure] at h
        subst h
        exact .cons ha (ih hl)

theorem mapM_congr {α β : Type} {f g : α → Except Err β} {l : List α} (h : ∀ a ∈ l, f a = g a) : l.mapM f = l.mapM g := by
  induction l with
  | nil => rfl
  | cons a l ih =>
    rw [List.mapM_cons, List.mapM_cons, h a (by simp), ih (fun b hb => h b (by simp [hb]))]

theorem mapM_error {α β : Type} {f : α → Except Err β} {l : List α} {e : Err} (h : l.mapM f = .error e) : ∃ a ∈ l, f a = .error e := by
  induction l with
  | nil => simp [pure, Except.pure] at h
  | cons a l ih =>
    rw [List.mapM_cons] at h
    cases ha : f a with
    | error e' =>
      simp [ha, bind, Except.bind] at h
      exact ⟨a, by simp, by rw [ha, h]⟩
    | ok b =>
      cases hl : l.mapM f with
      | error e' =>
        simp [ha, hl, bind, Except.bind] at h
        obtain ⟨x, hx, he⟩ := ih (by rw [hl, h])
        exact ⟨x, by simp [hx], he⟩
      | ok bs => simp [ha, hl, bind, Except.bind, pure, Except.pure] at h

theorem forall₂_mem_left {α β : Type} {R : α → β → Prop} {l : List α} {r : List β} (h : List.Forall₂ R l r) {a : α} (ha : a ∈ l) :
    ∃ b ∈ r, R a b := by
  induction h with
  | nil => simp at ha
  | cons h1 _ ih =>
    rcases List.mem_cons.1 ha with rfl | ha
    · exact ⟨_, by simp, h1⟩
    · obtain ⟨b, hb, e⟩ := ih ha; exact ⟨b, by simp [hb], e⟩

theorem mapM_raise {α β : Type} {f : α → Except Err β} {l : List α} (h : ∃ a ∈ l, f a = .error .raise) (hn : ∀ a ∈ l, f a ≠ .error .nan) :
    l.mapM f = .error .raise := by
  cases hl : l.mapM f with
  | ok r =>
    obtain ⟨a, ha, he⟩ := h
    obtain ⟨b, _, hb⟩ := forall₂_mem_left (mapM_ok hl) ha
    rw [he] at hb; cases hb
  | error e =>
    obtain ⟨a, ha, he⟩ := mapM_error hl
    cases e with
    | raise => rfl
    | nan => exact absurd he (hn a ha)

theorem ofList_of_mem {α : Type} {l : List (Coord × α)} (hl : (l.map Prod.fst).Nodup) {c : Coord} {a : α} (h : (c, a) ∈ l) :
    ofList l c = some a := by
  have h' : (c, a) ∈ l.reverse := by simpa using h
  have hn : (l.reverse.map Prod.fst).Nodup := by rw [List.map_reverse]; exact List.nodup_reverse.2 hl
  unfold ofList
  generalize l.reverse = m at h' hn
  induction m with
  | nil => simp at h'
  | cons p m ih =>
    rw [List.map_cons, List.nodup_cons] at hn
    rcases List.mem_cons.1 h' with rfl | hm
    · simp
    · have hne : p.1 ≠ c := fun e => hn.1 (e ▸ List.mem_map_of_mem hm)
      rw [List.find?_cons_of_neg (by simpa using hne)]
      exact ih hm hn.2

theorem map_fst_of_forall₂ {α β : Type} {f : α → Except Err (α × β)} (hf : ∀ a b, f a = .ok b → b.1 = a) {l : List α} {r : List (α × β)}
    (h : List.Forall₂ (fun a b => f a = .ok b) l r) : r.map Prod.fst = l := by
  induction h with
  | nil => rfl
  | cons h1 _ ih => simp [ih, hf _ _ h1]

/-! ### Assignment -/

/-- Where the tensors of `c` go. -/
def target (st : State K) (d : Dir) (c : Coord) : Coord := st.vts (c.1 - d.vec.1, c.2 - d.vec.2)

theorem c1_ne_c2 (d : Dir) : d.c1 ≠ d.c2 := by cases d <;> decide

theorem foldl_frame (st : State K) (d : Dir) (ns : List (Coord × Tensor K × Tensor K × Tensor K)) (env : Env K) :
    (∀ k, (k.2 ≠ d.c1 ∧ k.2 ≠ d.c2 ∨ ∀ n ∈ ns, target st d n.1 ≠ k.1) → (ns.foldl (assign st d) env).C k = env.C k) ∧
    (∀ k, (k.2 ≠ d.vec ∨ ∀ n ∈ ns, target st d n.1 ≠ k.1) → (ns.foldl (assign st d) env).T k = env.T k) ∧
    (ns.foldl (assign st d) env).chi = env.chi := by
  induction ns generalizing env with
  | nil => exact ⟨fun _ _ => rfl, fun _ _ => rfl, rfl⟩
  | cons n ns ih =>
    obtain ⟨h1, h2, h3⟩ := ih (assign st d env n)
    refine ⟨fun k hk => ?_, fun k hk => ?_, h3⟩
    · rw [List.foldl_cons, h1 k (hk.imp id (fun h m hm => h m (by simp [hm])))]
      simp only [assign]
      rw [Function.update_of_ne, Function.update_of_ne]
      all_goals
        rintro rfl
        rcases hk with hk | hk
        · simp at hk
        · exact hk n (by simp) rfl
    · rw [List.foldl_cons, h2 k (hk.imp id (fun h m hm => h m (by simp [hm])))]
      simp only [assign]
      rw [Function.update_of_ne]
      rintro rfl
      rcases hk with hk | hk
      · simp at hk
      · exact hk n (by simp) rfl

theorem foldl_assigned (st : State K) (d : Dir) (ns : List (Coord × Tensor K × Tensor K × Tensor K)) (env : Env K)
    (hn : (ns.map (fun n => target st d n.1)).Nodup) (n : Coord × Tensor K × Tensor K × Tensor K) (hm : n ∈ ns) :
    (ns.foldl (assign st d) env).C (target st d n.1, d.c1) = some n.2.1 ∧
    (ns.foldl (assign st d) env).C (target st d n.1, d.c2) = some n.2.2.1 ∧
    (ns.foldl (assign st d) env).T (target st d n.1, d.vec) = some n.2.2.2 := by
  induction ns generalizing env with
  | nil => simp at hm
  | cons m ns ih =>
    rw [List.map_cons, List.nodup_cons] at hn
    rw [List.foldl_cons]
    rcases List.mem_cons.1 hm with rfl | hm
    · obtain ⟨h1, h2, -⟩ := foldl_frame st d ns (assign st d env n)
      have hf : ∀ x ∈ ns, target st d x.1 ≠ target st d n.1 := fun x hx e => hn.1 (e ▸ List.mem_map_of_mem (f := fun n => target st d n.1) hx)
      refine ⟨?_, ?_, ?_⟩
      · rw [h1 _ (.inr hf)]
        simp only [assign]
        rw [Function.update_of_ne (by simp [c1_ne_c2]), show st.vts (n.1.1 - d.vec.1, n.1.2 - d.vec.2) = target st d n.1 from rfl, Function.update_self]
      · rw [h1 _ (.inr hf)]
        simp only [assign]
        rw [show st.vts (n.1.1 - d.vec.1, n.1.2 - d.vec.2) = target st d n.1 from rfl, Function.update_self]
      · rw [h2 _ (.inr hf)]
        simp only [assign]
        rw [show st.vts (n.1.1 - d.vec.1, n.1.2 - d.vec.2) = target st d n.1 from rfl, Function.update_self]
    · exact ih _ hn.2 hm

open Spec

theorem target_inj {st : State K} (ht : Tiling st) (d : Dir) {c c' : Coord} (hc : c ∈ st.keys) (hc' : c' ∈ st.keys)
    (h : target st d c = target st d c') : c = c' := by
  have e : ∀ x, st.vts x = st.vts ((target st d x).1 + d.vec.1, (target st d x).2 + d.vec.2) := by
    intro x
    have := ht.shift (x.1 - d.vec.1, x.2 - d.vec.2) d.vec
    simp only [sub_add_cancel] at this
    exact this.symm
  rw [← ht.fix c hc, ← ht.fix c' hc', e c, e c', h]

/-- The vertex whose tensors end up at `x`. -/
theorem target_source {st : State K} (ht : Tiling st) (d : Dir) (x : Coord) :
    target st d (st.vts (x.1 + d.vec.1, x.2 + d.vec.2)) = st.vts x := by
  have := ht.shift (x.1 + d.vec.1, x.2 + d.vec.2) (-d.vec.1, -d.vec.2)
  simp only [target]
  simp only [← sub_eq_add_neg, add_sub_cancel_right] at this
  exact this

/-- The projectors of all vertices, from one environment. -/
noncomputable def allProj (args : Args) (svd : Tensor K → Nat → Svd K) (d : Dir) (st : State K) (env : Env K) : Proj K :=
  fun c => if c ∈ st.keys then projectors args svd st env d c else none

theorem ofList_eq {args : Args} {svd : Tensor K → Nat → Svd K} {d : Dir} {st : State K} {env : Env K} (hn : st.keys.Nodup)
    {Ps : List (Coord × Tensor K × Tensor K)}
    (h : st.keys.mapM (projStep args svd d st env) = .ok Ps) :
    ofList Ps = allProj args svd d st env ∧ ∀ c ∈ st.keys, ∃ p, projectors args svd st env d c = some p := by
  have hf : ∀ (c : Coord) (b : Coord × Tensor K × Tensor K),
      projStep args svd d st env c = .ok b →
      b.1 = c ∧ projectors args svd st env d c = some b.2 := by
    intro c b hb
    cases hp : projectors args svd st env d c with
    | none => simp [projStep, hp, lift, bind, Except.bind] at hb
    | some p => simp [projStep, hp, lift, bind, Except.bind, pure, Except.pure] at hb; subst hb; exact ⟨rfl, rfl⟩
  have hall := mapM_ok h
  have hmap : Ps.map Prod.fst = st.keys := map_fst_of_forall₂ (fun a b hb => (hf a b hb).1) hall
  refine ⟨?_, fun c hc => ?_⟩
  · funext c
    unfold allProj
    split
    · rename_i hc
      obtain ⟨b, hb, e⟩ := forall₂_mem_left hall hc
      obtain ⟨rfl, e2⟩ := hf _ _ e
      rw [e2]
      exact ofList_of_mem (hmap ▸ hn) hb
    · rename_i hc
      unfold ofList
      rw [Option.map_eq_none_iff, List.find?_eq_none]
      intro p hp
      simp only [List.mem_reverse] at hp
      simp only [decide_eq_true_eq]
      rintro rfl
      exact hc (hmap ▸ List.mem_map_of_mem hp)
  · obtain ⟨b, hb, e⟩ := forall₂_mem_left hall hc
    exact ⟨_, (hf _ _ e).2⟩

theorem siteStep_ok {args : Args} {d : Dir} {st : State K} {env : Env K} {P : Proj K} {c : Coord} {n : Coord × Tensor K × Tensor K × Tensor K}
    (h : siteStep args d st env P c = .ok n) :
    n.1 = c ∧ ∃ a b t, absorb st env args.dl P d c = some (a, b, t) ∧ normalize args.inf a = .ok n.2.1 ∧ normalize args.inf b = .ok n.2.2.1 ∧
      normalize args.inf t = .ok n.2.2.2 := by
  unfold siteStep at h
  cases hx : absorb st env args.dl P d c with
  | none => simp [hx, lift, bind, Except.bind] at h
  | some x =>
    obtain ⟨a, b, t⟩ := x
    simp only [hx, lift, bind, Except.bind] at h
    cases ha : normalize args.inf a with
    | error e => simp [ha] at h
    | ok a' =>
      cases hb : normalize args.inf b with
      | error e => simp [ha, hb] at h
      | ok b' =>
        cases ht : normalize args.inf t with
        | error e => simp [ha, hb, ht] at h
        | ok t' =>
          simp [ha, hb, ht, pure, Except.pure] at h
          subst h
          exact ⟨rfl, a, b, t, rfl, ha, hb, ht⟩

theorem ctmMove_ok {args : Args} {svd : Tensor K → Nat → Svd K} {d : Dir} {st : State K} {env env' : Env K} (ht : Tiling st)
    (h : ctmMove args svd d st env = .ok env') :
    (∀ c ∈ st.keys, ∃ p, projectors args svd st env d c = some p) ∧
    ∃ ns, List.Forall₂ (fun c n => siteStep args d st env (allProj args svd d st env) c = .ok n) st.keys ns ∧ env' = ns.foldl (assign st d) env := by
  unfold ctmMove newTensors at h
  cases hp : st.keys.mapM (projStep args svd d st env) with
  | error e => simp [hp, bind, Except.bind] at h
  | ok Ps =>
    obtain ⟨hP, hall⟩ := ofList_eq ht.nodup hp
    refine ⟨hall, ?_⟩
    simp only [hp, bind, Except.bind, hP] at h
    cases hm : st.keys.mapM (siteStep args d st env (allProj args svd d st env)) with
    | error e => simp [hm] at h
    | ok ns =>
      simp [hm, pure, Except.pure] at h
      exact ⟨ns, mapM_ok hm, h.symm⟩

end Verif.Ctm
