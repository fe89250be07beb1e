import Verif.Config.Spec
/-
Properties C47 (options reach the right configuration object) and C70 (every attribute has its option).
-/
namespace Verif.Config
set_option linter.unusedSimpArgs false

theorem within_iff {a b : Name} : within a b = true ↔ a <:+: b := by simp [within]

theorem searchKeys_some {x k : Name} (hk : k ∈ keys) (h : k <:+: x) (hu : ∀ k' ∈ keys, k' <:+: x → k' = k) : searchKeys x = some k := by
  unfold searchKeys
  cases hf : keys.find? (fun k => within k x) with
  | none =>
    rw [List.find?_eq_none] at hf
    exact absurd (within_iff.2 h) (hf k hk)
  | some k' =>
    have h1 := List.find?_some hf
    rw [hu k' (List.mem_of_find?_eq_some hf) (within_iff.1 h1)]

theorem searchKeys_none {x : Name} : searchKeys x = none ↔ ∀ k ∈ keys, ¬ k <:+: x := by
  simp [searchKeys, List.find?_eq_none, within]

theorem searchKeys_mem {x k : Name} (h : searchKeys x = some k) : k ∈ keys ∧ k <:+: x :=
  ⟨List.mem_of_find?_eq_some h, within_iff.1 (List.find?_some (p := fun k => within k x) h)⟩

section folds
variable (strip : Name → Name) (k : Name)

/-- The assignments to one group. -/
def assignAll (strip : Name → Name) (k : Name) (l : List (Name × Val)) (c : Conf) : Conf := l.foldl (fun c p => setGroup c k (strip p.1) p.2) c

theorem assignAll_main (l : List (Name × Val)) (c : Conf) : (assignAll strip k l c).main = c.main := by
  induction l generalizing c with
  | nil => rfl
  | cons p l ih => exact (ih _).trans rfl

theorem assignAll_other (l : List (Name × Val)) (c : Conf) (k' a : Name) (h : k' ≠ k ∨ ∀ p ∈ l, strip p.1 ≠ a) :
    (assignAll strip k l c).group k' a = c.group k' a := by
  induction l generalizing c with
  | nil => rfl
  | cons p l ih =>
    refine (ih (setGroup c k (strip p.1) p.2) ?_).trans ?_
    · rcases h with h | h
      · exact Or.inl h
      · exact Or.inr fun q hq => h q (List.mem_cons_of_mem _ hq)
    · simp only [setGroup]
      rw [if_neg]
      rintro ⟨h1, h2⟩
      rcases h with h | h
      · exact h h1
      · exact h p List.mem_cons_self h2.symm

theorem assignAll_self (l : List (Name × Val)) (c : Conf) (p : Name × Val) (hp : p ∈ l) (hu : ∀ q ∈ l, strip q.1 = strip p.1 → q = p) :
    (assignAll strip k l c).group k (strip p.1) = some p.2 := by
  induction l generalizing c with
  | nil => simp at hp
  | cons q l ih =>
    by_cases hl : p ∈ l
    · exact ih _ hl (fun r hr => hu r (List.mem_cons_of_mem _ hr))
    · have hq : p = q := by
        rcases List.mem_cons.1 hp with h | h
        · exact h
        · exact absurd h hl
      subst hq
      refine (assignAll_other strip k l _ k _ (Or.inr fun r hr he => hl ?_)).trans ?_
      · rw [← hu r (List.mem_cons_of_mem _ hr) he]; exact hr
      · simp [setGroup]
end folds

/-- The members of a group. -/
def members (raw : List (Name × Val)) (k : Name) : List (Name × Val) := raw.filter (fun p => searchKeys p.1 = some k)

theorem setGrouped_eq (raw : List (Name × Val)) (c : Conf) :
    setGrouped raw c = keys.foldl (fun c k => assignAll (List.drop (1 + k.length)) k (members raw k) c) c := rfl

theorem grouped_main (ks : List Name) (raw : List (Name × Val)) (c : Conf) :
    (ks.foldl (fun c k => assignAll (List.drop (1 + k.length)) k (members raw k) c) c).main = c.main := by
  induction ks generalizing c with
  | nil => rfl
  | cons k ks ih => exact (ih _).trans (assignAll_main _ _ _ _)

theorem grouped_other (ks : List Name) (raw : List (Name × Val)) (c : Conf) (k a : Name) (h : k ∉ ks ∨ ∀ p ∈ members raw k, p.1.drop (1 + k.length) ≠ a) :
    (ks.foldl (fun c k => assignAll (List.drop (1 + k.length)) k (members raw k) c) c).group k a = c.group k a := by
  induction ks generalizing c with
  | nil => rfl
  | cons k' ks ih =>
    refine (ih _ ?_).trans (assignAll_other _ _ _ _ _ _ ?_)
    · rcases h with h | h
      · exact Or.inl fun hk => h (List.mem_cons_of_mem _ hk)
      · exact Or.inr h
    · by_cases hk : k = k'
      · rcases h with h | h
        · exact absurd (by rw [hk]; exact List.mem_cons_self) h
        · exact Or.inr (by rw [← hk]; exact h)
      · exact Or.inl hk

theorem grouped_self (ks : List Name) (hnd : ks.Nodup) (raw : List (Name × Val)) (c : Conf) (k : Name) (hk : k ∈ ks) (p : Name × Val) (hp : p ∈ members raw k)
    (hu : ∀ q ∈ members raw k, q.1.drop (1 + k.length) = p.1.drop (1 + k.length) → q = p) :
    (ks.foldl (fun c k => assignAll (List.drop (1 + k.length)) k (members raw k) c) c).group k (p.1.drop (1 + k.length)) = some p.2 := by
  induction ks generalizing c with
  | nil => simp at hk
  | cons k' ks ih =>
    rcases List.mem_cons.1 hk with h | h
    · subst h
      exact (grouped_other ks raw _ k _ (Or.inl (List.nodup_cons.1 hnd).1)).trans (assignAll_self _ k _ _ p hp hu)
    · exact ih (List.nodup_cons.1 hnd).2 _ h

theorem mains_group (l : List (Name × Val)) (c : Conf) : (l.foldl (fun c p => setMain c p.1 p.2) c).group = c.group := by
  induction l generalizing c with
  | nil => rfl
  | cons p l ih => exact (ih _).trans rfl

theorem mains_other (l : List (Name × Val)) (c : Conf) (x : Name) (h : ∀ p ∈ l, p.1 ≠ x) : (l.foldl (fun c p => setMain c p.1 p.2) c).main x = c.main x := by
  induction l generalizing c with
  | nil => rfl
  | cons p l ih =>
    refine (ih _ (fun q hq => h q (List.mem_cons_of_mem _ hq))).trans ?_
    simp only [setMain]
    rw [if_neg (fun e => h p List.mem_cons_self e.symm)]

theorem mains_self (l : List (Name × Val)) (c : Conf) (p : Name × Val) (hp : p ∈ l) (hu : ∀ q ∈ l, q.1 = p.1 → q = p) :
    (l.foldl (fun c p => setMain c p.1 p.2) c).main p.1 = some p.2 := by
  induction l generalizing c with
  | nil => simp at hp
  | cons q l ih =>
    by_cases hl : p ∈ l
    · exact ih _ hl (fun r hr => hu r (List.mem_cons_of_mem _ hr))
    · have hq : p = q := by
        rcases List.mem_cons.1 hp with h | h
        · exact h
        · exact absurd h hl
      subst hq
      refine (mains_other l _ _ (fun r hr he => hl ?_)).trans ?_
      · rw [← hu r (List.mem_cons_of_mem _ hr) he]; exact hr
      · simp [setMain]

theorem custom_main (c : Conf) : (custom c).1.main = c.main := by
  unfold custom
  split
  · rfl
  · split
    · dsimp only
      split
      · rfl
      · split <;> rfl
    · rfl

theorem setGroup_ne {c : Conf} {k a k' a' : Name} {v : Val} (h : ¬ (k' = k ∧ a' = a)) : (setGroup c k a v).group k' a' = c.group k' a' := by
  simp only [setGroup]; rw [if_neg h]

theorem custom_group (c : Conf) (k n : Name) (h : ¬ Spec.Derived k n) : (custom c).1.group k n = c.group k n := by
  have h1 : ¬ (k = "GLOBALARGS".toList ∧ n = "torch_dtype".toList) := fun e => h (Or.inl e)
  have h2 : ¬ (k = "CTMARGS".toList ∧ n = "fwd_checkpoint_move".toList) := fun e => h (Or.inr e)
  unfold custom
  split
  · rfl
  · split
    · dsimp only
      split
      · exact setGroup_ne h1
      · split
        · exact (setGroup_ne h2).trans (setGroup_ne h1)
        · exact setGroup_ne h1
    · rfl

theorem keys_nodup : keys.Nodup := by decide

theorem drop_option {k n : Name} : (Spec.option k n).drop (1 + k.length) = n := by
  rw [Spec.option, Nat.add_comm, ← List.drop_drop, List.drop_left]; rfl

theorem infix_option {k n : Name} : k <:+: Spec.option k n := ⟨[], '_' :: n, by simp [Spec.option]⟩

theorem tidy_option {x k : Name} (ht : Spec.Tidy x) (h : searchKeys x = some k) : ∃ n, x = Spec.option k n := by
  obtain ⟨hk, hi⟩ := searchKeys_mem h
  obtain ⟨t, ht'⟩ := (ht.2 k hk hi).1
  exact ⟨t, by rw [← ht', Spec.option]; simp⟩

theorem search_tidy {k n : Name} (hk : k ∈ keys) (ht : Spec.Tidy (Spec.option k n)) : searchKeys (Spec.option k n) = some k :=
  searchKeys_some hk infix_option (ht.2 k hk infix_option).2

/-! ### C47 -/

/-- For any distinct options whose names are tidy: every option `GROUP_n` is assigned to the attribute `n` of that group and to no other attribute, every option without
a group to `main_args` under its own name; whatever is not mentioned keeps its value. This holds also if the call raises in the end because of the dtype. The two derived
attributes are left out. Missing: names that are not tidy, for which the claim fails (`C47_violated`). -/
theorem C47_configure_partial (ns : List (Name × Val)) (hnd : (ns.map Prod.fst).Nodup) (ht : ∀ p ∈ ns, Spec.Tidy p.1) (c : Conf) :
    (∀ k ∈ keys, ∀ n v, ¬ Spec.Derived k n → (Spec.option k n, v) ∈ ns → (configure ns c).1.group k n = some v) ∧
    (∀ k n, ¬ Spec.Derived k n → (k ∉ keys ∨ ∀ v, (Spec.option k n, v) ∉ ns) → (configure ns c).1.group k n = c.group k n) ∧
    (∀ x v, (∀ k ∈ keys, ¬ k <:+: x) → (x, v) ∈ ns → (configure ns c).1.main x = some v) ∧
    (∀ x, ((∃ k ∈ keys, k <:+: x) ∨ ∀ v, (x, v) ∉ ns) → (configure ns c).1.main x = c.main x) := by
  have hraw : rawArgs ns = ns := by
    simp only [rawArgs, List.filter_eq_self]
    intro p hp
    simp only [Bool.not_eq_true', ← Bool.not_eq_true, within_iff]
    exact (ht p hp).1
  have huniq : ∀ p ∈ ns, ∀ q ∈ ns, q.1 = p.1 → q = p := fun p hp q hq h => List.inj_on_of_nodup_map hnd hq hp h
  have hg : ∀ k n, ¬ Spec.Derived k n → (configure ns c).1.group k n = (setGrouped ns c).group k n := by
    intro k n h
    rw [configure, custom_group _ _ _ h, hraw, setMains, mains_group]
  have hm : (configure ns c).1.main = (setMains ns (setGrouped ns c)).main := by
    rw [configure, custom_main, hraw]
  refine ⟨fun k hk n v hd hp => ?_, fun k n hd h => ?_, fun x v hx hp => ?_, fun x h => ?_⟩
  · rw [hg k n hd, setGrouped_eq]
    have hmem : (Spec.option k n, v) ∈ members ns k := by
      simp only [members, List.mem_filter, decide_eq_true_eq]
      exact ⟨hp, search_tidy hk (ht _ hp)⟩
    have := grouped_self keys keys_nodup ns c k hk (Spec.option k n, v) hmem (fun q hq he => ?_)
    · rwa [drop_option] at this
    · simp only [members, List.mem_filter, decide_eq_true_eq] at hq
      obtain ⟨n', hn'⟩ := tidy_option (ht q hq.1) hq.2
      rw [hn', drop_option, drop_option] at he
      exact huniq _ hp _ hq.1 (by rw [hn', he])
  · rw [hg k n hd, setGrouped_eq]
    refine grouped_other keys ns c k n ?_
    rcases h with h | h
    · exact Or.inl h
    · refine Or.inr fun q hq he => ?_
      simp only [members, List.mem_filter, decide_eq_true_eq] at hq
      obtain ⟨n', hn'⟩ := tidy_option (ht q hq.1) hq.2
      rw [hn', drop_option] at he
      exact h q.2 (by rw [← he, ← hn']; exact hq.1)
  · rw [hm, setMains]
    refine mains_self _ _ (x, v) ?_ (fun q hq he => huniq _ hp _ (List.mem_of_mem_filter hq) he)
    simp only [List.mem_filter, decide_eq_true_eq]
    exact ⟨hp, searchKeys_none.2 hx⟩
  · rw [hm, setMains, mains_other, setGrouped_eq, grouped_main]
    intro q hq he
    simp only [List.mem_filter, decide_eq_true_eq] at hq
    rcases h with ⟨k, hk, hi⟩ | h
    · exact searchKeys_none.1 hq.2 k hk (by rw [he]; exact hi)
    · exact h q.2 (by rw [← he]; exact hq.1)

/-- The dtype: `float64` and `complex128` set the torch dtype, everything else raises. -/
theorem C47_dtype (ns : List (Name × Val)) (hnd : (ns.map Prod.fst).Nodup) (ht : ∀ p ∈ ns, Spec.Tidy p.1) (c : Conf) (v w : Val)
    (hv : (Spec.option "GLOBALARGS".toList "dtype".toList, v) ∈ ns) (hw : (Spec.option "CTMARGS".toList "fwd_checkpoint_move".toList, w) ∈ ns) :
    (v = .str "float64".toList → (configure ns c).2 = none ∧ (configure ns c).1.group "GLOBALARGS".toList "torch_dtype".toList = some float64) ∧
    (v = .str "complex128".toList → (configure ns c).2 = none ∧ (configure ns c).1.group "GLOBALARGS".toList "torch_dtype".toList = some complex128) ∧
    (v ≠ .str "float64".toList → v ≠ .str "complex128".toList → (configure ns c).2 = some .notImplemented) := by
  have hraw : rawArgs ns = ns := by
    simp only [rawArgs, List.filter_eq_self]
    intro p hp
    simp only [Bool.not_eq_true', ← Bool.not_eq_true, within_iff]
    exact (ht p hp).1
  have key : ∀ k ∈ keys, ∀ n v, (Spec.option k n, v) ∈ ns → (setMains ns (setGrouped ns c)).group k n = some v := by
    intro k hk n v hp
    have huniq : ∀ p ∈ ns, ∀ q ∈ ns, q.1 = p.1 → q = p := fun p hp q hq h => List.inj_on_of_nodup_map hnd hq hp h
    rw [setMains, mains_group, setGrouped_eq]
    have hmem : (Spec.option k n, v) ∈ members ns k := by
      simp only [members, List.mem_filter, decide_eq_true_eq]
      exact ⟨hp, search_tidy hk (ht _ hp)⟩
    have := grouped_self keys keys_nodup ns c k hk (Spec.option k n, v) hmem (fun q hq he => ?_)
    · rwa [drop_option] at this
    · simp only [members, List.mem_filter, decide_eq_true_eq] at hq
      obtain ⟨n', hn'⟩ := tidy_option (ht q hq.1) hq.2
      rw [hn', drop_option, drop_option] at he
      exact huniq _ hp _ hq.1 (by rw [hn', he])
  have k1 := key _ (by decide) _ _ hv
  have k2 := key _ (by decide) _ _ hw
  obtain ⟨c0, hc0⟩ : ∃ c0, c0 = setMains ns (setGrouped ns c) := ⟨_, rfl⟩
  have hc : configure ns c = custom c0 := by rw [configure, hraw, hc0]
  rw [← hc0] at k1 k2
  have hne : ¬ ("CTMARGS".toList = "GLOBALARGS".toList ∧ "fwd_checkpoint_move".toList = "torch_dtype".toList) := by decide
  have k3 : ∀ t, (setGroup c0 "GLOBALARGS".toList "torch_dtype".toList t).group "CTMARGS".toList "fwd_checkpoint_move".toList = some w := by
    intro t; rw [setGroup_ne hne, k2]
  have hne' : ¬ ("GLOBALARGS".toList = "CTMARGS".toList ∧ "torch_dtype".toList = "fwd_checkpoint_move".toList) := by decide
  have k4 : ∀ t, (setGroup c0 "GLOBALARGS".toList "torch_dtype".toList t).group "GLOBALARGS".toList "torch_dtype".toList = some t := by
    intro t; simp only [setGroup, and_self, if_true]
  rw [hc]
  refine ⟨fun h => ?_, fun h => ?_, fun h1 h2 => ?_⟩
  · subst h
    simp only [custom, k1, true_or, if_true, k3]
    split
    · exact ⟨rfl, (setGroup_ne hne').trans (k4 _)⟩
    · exact ⟨rfl, k4 _⟩
  · subst h
    have : ¬ (Val.str "complex128".toList = Val.str "float64".toList) := by decide
    simp only [custom, k1, or_true, if_true, this, if_false, k3]
    split
    · exact ⟨rfl, (setGroup_ne hne').trans (k4 _)⟩
    · exact ⟨rfl, k4 _⟩
  · simp only [custom, k1, h1, h2, or_self, if_false]

/-- An option of a script whose name contains the name of a group is not stored in `main_args` but in the group, under a mangled name; one with a double underscore is lost. -/
theorem C47_violated (c : Conf) (v w : Val) :
    (configure [("my_CTMARGS_tol".toList, v), ("my__tol".toList, w)] c).1.main "my_CTMARGS_tol".toList = c.main "my_CTMARGS_tol".toList ∧
    (configure [("my_CTMARGS_tol".toList, v), ("my__tol".toList, w)] c).1.group "CTMARGS".toList "GS_tol".toList = some v ∧
    (configure [("my_CTMARGS_tol".toList, v), ("my__tol".toList, w)] c).1.main "my__tol".toList = c.main "my__tol".toList := by
  have hraw : rawArgs [("my_CTMARGS_tol".toList, v), ("my__tol".toList, w)] = [("my_CTMARGS_tol".toList, v)] := rfl
  have hs : searchKeys "my_CTMARGS_tol".toList = some "CTMARGS".toList := by decide
  have hd : ¬ Spec.Derived "CTMARGS".toList "GS_tol".toList := by
    rintro (⟨h, -⟩ | ⟨-, h⟩) <;> revert h <;> decide
  have hm : ∀ x, (configure [("my_CTMARGS_tol".toList, v), ("my__tol".toList, w)] c).1.main x = c.main x := by
    intro x
    rw [configure, custom_main, hraw, setMains, mains_other, setGrouped_eq, grouped_main]
    intro p hp
    simp only [List.filter_cons, hs, List.filter_nil] at hp
    simp at hp
  refine ⟨hm _, ?_, hm _⟩
  rw [configure, custom_group _ _ _ hd, hraw, setMains, mains_group, setGrouped_eq]
  have hmem : ("my_CTMARGS_tol".toList, v) ∈ members [("my_CTMARGS_tol".toList, v)] "CTMARGS".toList := by
    simp only [members, List.mem_filter, List.mem_singleton, hs, decide_true, and_self]
  exact grouped_self keys keys_nodup _ c "CTMARGS".toList (by decide) ("my_CTMARGS_tol".toList, v) hmem (fun q hq _ => by
    simpa using List.mem_of_mem_filter hq)

/-! ### C70 -/

theorem defaults_keep (os : List Opt) (ns : Name → Option Val) (d : Name) (h : ns d ≠ none) : defaults os ns d = ns d := by
  induction os generalizing ns with
  | nil => rfl
  | cons o os ih =>
    by_cases hn : ns o.dest = none
    · have hne : d ≠ o.dest := fun e => h (by rw [e]; exact hn)
      have h1 : setNs ns o.dest o.default d = ns d := by simp [setNs, hne]
      simp only [defaults, hn, if_true]
      rw [ih _ (by rw [h1]; exact h), h1]
    · simp only [defaults, hn, if_false]
      exact ih _ h

theorem defaults_get (os : List Opt) (hnd : (os.map Opt.dest).Nodup) (ns : Name → Option Val) (hns : ∀ o ∈ os, ns o.dest = none) (o : Opt) (ho : o ∈ os) :
    defaults os ns o.dest = some o.default := by
  induction os generalizing ns with
  | nil => simp at ho
  | cons p os ih =>
    obtain ⟨h1, h2⟩ := List.nodup_cons.1 (by simpa using hnd : (p.dest :: os.map Opt.dest).Nodup)
    have hp : ns p.dest = none := hns p List.mem_cons_self
    simp only [defaults, hp, if_true]
    rcases List.mem_cons.1 ho with h | h
    · subst h
      rw [defaults_keep _ _ _ (by simp [setNs])]
      simp [setNs]
    · refine ih h2 _ (fun q hq => ?_) h
      have : q.dest ≠ p.dest := fun e => h1 (by rw [← e]; exact List.mem_map_of_mem hq)
      simp [setNs, this, hns q (List.mem_cons_of_mem _ hq)]

section
variable (conv : Val → Name → Option Val) (opts : List Opt)

theorem process_keep (hd : (opts.map Opt.dest).Nodup) (o : Opt) (ho : o ∈ opts) (argv : List (Name × Option Name))
    (h : ∀ a ∈ argv, a.1 ≠ o.flag) (ns ns' : Name → Option Val) (hp : process conv opts argv ns = .ok ns') : ns' o.dest = ns o.dest := by
  induction argv generalizing ns with
  | nil => simp only [process, Except.ok.injEq] at hp; rw [hp]
  | cons a argv ih =>
    obtain ⟨f, t⟩ := a
    simp only [process] at hp
    split at hp
    · cases hp
    · rename_i q hq
      have hqf : q.flag = f := by simpa using List.find?_some hq
      simp only [bind, Except.bind] at hp
      split at hp
      · cases hp
      · have := ih (fun b hb => h b (List.mem_cons_of_mem _ hb)) _ hp
        rw [this]
        have hne : o.dest ≠ q.dest := fun e => by
          have : q = o := List.inj_on_of_nodup_map hd (List.mem_of_find?_eq_some hq) ho e.symm
          exact h (f, t) List.mem_cons_self (by rw [← hqf, this])
        simp [setNs, hne]

theorem process_dom (argv : List (Name × Option Name)) (ns ns' : Name → Option Val) (hp : process conv opts argv ns = .ok ns') (d : Name) (h : ns d ≠ none) : ns' d ≠ none := by
  induction argv generalizing ns with
  | nil => simp only [process, Except.ok.injEq] at hp; rw [← hp]; exact h
  | cons a argv ih =>
    obtain ⟨f, t⟩ := a
    simp only [process] at hp
    split at hp
    · cases hp
    · simp only [bind, Except.bind] at hp
      split at hp
      · cases hp
      · refine ih _ hp ?_
        simp only [setNs]
        split
        · simp
        · exact h

theorem process_append (a b : List (Name × Option Name)) (ns ns' : Name → Option Val) (hp : process conv opts (a ++ b) ns = .ok ns') :
    ∃ n1, process conv opts a ns = .ok n1 ∧ process conv opts b n1 = .ok ns' := by
  induction a generalizing ns with
  | nil => exact ⟨ns, rfl, hp⟩
  | cons x a ih =>
    obtain ⟨f, t⟩ := x
    simp only [List.cons_append, process] at hp ⊢
    split at hp
    · cases hp
    · simp only [bind, Except.bind] at hp ⊢
      split at hp
      · cases hp
      · exact ih _ hp

theorem process_set (hf : (opts.map Opt.flag).Nodup) (hd : (opts.map Opt.dest).Nodup) (o : Opt) (ho : o ∈ opts) (a b : List (Name × Option Name)) (t : Option Name)
    (h : ∀ x ∈ b, x.1 ≠ o.flag) (ns ns' : Name → Option Val) (hp : process conv opts (a ++ (o.flag, t) :: b) ns = .ok ns') :
    ∃ v, assigned conv o.kind t = .ok v ∧ ns' o.dest = some v := by
  obtain ⟨n1, -, h2⟩ := process_append conv opts a _ ns ns' hp
  have hfind : opts.find? (fun p => p.flag = o.flag) = some o := by
    cases hq : opts.find? (fun p => p.flag = o.flag) with
    | none =>
      rw [List.find?_eq_none] at hq
      exact absurd (decide_eq_true rfl) (hq o ho)
    | some q =>
      have hqf : q.flag = o.flag := by simpa using List.find?_some hq
      rw [List.inj_on_of_nodup_map hf (List.mem_of_find?_eq_some hq) ho hqf]
  simp only [process, hfind, bind, Except.bind] at h2
  split at h2
  · cases h2
  · rename_i v hv
    refine ⟨v, hv, ?_⟩
    rw [process_keep conv opts hd o ho b h _ _ h2]
    simp [setNs]
end

/-- Every attribute has exactly its option: after parsing any accepted command line and configuring, an attribute whose option string is not on the command line
has its present value, and one whose option string is has what the last occurrence stores. For every set of attributes and further options of a script, if no two
options share a destination and all names are tidy. -/
theorem C70_parse_configure (conv : Val → Name → Option Val) (base : List Opt) (cfg : List (Name × List (Name × Val))) (opts : List Opt) (hopts : parser base cfg = .ok opts)
    (hdest : (opts.map Opt.dest).Nodup) (htidy : ∀ o ∈ opts, Spec.Tidy o.dest)
    (argv : List (Name × Option Name)) (ns : List (Name × Val)) (hns : parseArgs conv opts argv = .ok ns) (c : Conf)
    (g : Name) (hg : g ∈ keys) (attrs : List (Name × Val)) (hga : (g, attrs) ∈ cfg) (x : Name) (v : Val) (hx : (x, v) ∈ attrs) (hxu : ¬ "__".toList <:+: x)
    (hnd : ¬ Spec.Derived g x) :
    ((∀ a ∈ argv, a.1 ≠ Spec.optionString g x v) → (configure ns c).1.group g x = some v) ∧
    (∀ a b t, argv = a ++ (Spec.optionString g x v, t) :: b → (∀ y ∈ b, y.1 ≠ Spec.optionString g x v) →
      Spec.stores conv v t ≠ none ∧ (configure ns c).1.group g x = Spec.stores conv v t) := by
  -- the option of the attribute
  have hflags : opts = base ++ cfg.flatMap (fun g => groupOpts g.1 g.2) ++ [special] ∧ (opts.map Opt.flag).Nodup := by
    simp only [parser] at hopts
    split at hopts
    · rename_i h
      cases hopts
      exact ⟨rfl, h⟩
    · cases hopts
  have hspec : Spec.option g x ≠ "CTMARGS_fwd_checkpoint_move".toList := by
    intro e
    apply hnd
    refine Or.inr ?_
    have hlen : g ∈ keys := hg
    simp only [keys, List.mem_cons, List.not_mem_nil, or_false] at hlen
    rcases hlen with rfl | rfl | rfl | rfl
    · exfalso; revert e; simp [Spec.option]
    · exfalso; revert e; simp [Spec.option]
    · refine ⟨rfl, ?_⟩
      have := congrArg (List.drop 8) e
      simpa [Spec.option] using this
    · exfalso; revert e; simp [Spec.option]
  obtain ⟨o, ho, hod, hof, hodef, hok⟩ : ∃ o ∈ opts, o.dest = Spec.option g x ∧ o.flag = Spec.optionString g x v ∧ o.default = v ∧
      ∀ t w, assigned conv o.kind t = .ok w → Spec.stores conv v t = some w := by
    have hmem : ∀ o, o ∈ groupOpts g attrs → o ∈ opts := fun o h => by
      rw [hflags.1]
      simp only [List.mem_append, List.mem_flatMap]
      exact Or.inl (Or.inr ⟨_, hga, h⟩)
    have hfilt : (x, v) ∈ attrs.filter (fun p => !within "__".toList p.1) := by
      simp only [List.mem_filter, Bool.not_eq_true', ← Bool.not_eq_true, within_iff]
      exact ⟨hx, hxu⟩
    have hne : ¬ (g ++ '_' :: x = "CTMARGS_fwd_checkpoint_move".toList) := hspec
    cases v with
    | bool bb =>
      cases bb with
      | false =>
        refine ⟨(⟨g ++ '_' :: x, g ++ '_' :: x, .storeTrue, .bool false⟩ : Opt), hmem _ (List.mem_filterMap.2 ⟨_, hfilt, by simp only [hne, if_false]⟩), rfl, by simp [Spec.optionString], rfl, fun t w h => ?_⟩
        cases t <;> simp [assigned, Spec.stores] at h ⊢
        exact h
      | true =>
        refine ⟨(⟨g ++ '_' :: ("no_".toList ++ x), g ++ '_' :: x, .storeFalse, .bool true⟩ : Opt), hmem _ (List.mem_filterMap.2 ⟨_, hfilt, by simp only [hne, if_false]⟩), rfl, by simp [Spec.optionString], rfl, fun t w h => ?_⟩
        cases t <;> simp [assigned, Spec.stores] at h ⊢
        exact h
    | str s =>
      refine ⟨(⟨g ++ '_' :: x, g ++ '_' :: x, .value (.str s), .str s⟩ : Opt), hmem _ (List.mem_filterMap.2 ⟨_, hfilt, by simp only [hne, if_false]⟩), rfl, by simp [Spec.optionString], rfl, fun t w h => ?_⟩
      cases t with
      | none => simp [assigned] at h
      | some t =>
        simp only [assigned, Spec.stores] at h ⊢
        split at h <;> simp_all
    | other n =>
      refine ⟨(⟨g ++ '_' :: x, g ++ '_' :: x, .value (.other n), .other n⟩ : Opt), hmem _ (List.mem_filterMap.2 ⟨_, hfilt, by simp only [hne, if_false]⟩), rfl, by simp [Spec.optionString], rfl, fun t w h => ?_⟩
      cases t with
      | none => simp [assigned] at h
      | some t =>
        simp only [assigned, Spec.stores] at h ⊢
        split at h <;> simp_all
  -- the namespace
  simp only [parseArgs, bind, Except.bind] at hns
  split at hns
  · cases hns
  rename_i f hproc
  simp only [pure, Except.pure, Except.ok.injEq] at hns
  rw [hdest.dedup] at hns
  have hval : ∀ w, f o.dest = some w → (Spec.option g x, w) ∈ ns := by
    intro w hw
    rw [← hns]
    refine List.mem_filterMap.2 ⟨o.dest, List.mem_map_of_mem ho, ?_⟩
    rw [hw, ← hod]; rfl
  have hfst : (ns.map Prod.fst).Sublist (opts.map Opt.dest) := by
    rw [← hns]
    generalize opts.map Opt.dest = l
    induction l with
    | nil => simp
    | cons d l ih =>
      cases hd : f d with
      | none => simp only [List.filterMap_cons, hd, Option.map_none]; exact ih.cons d
      | some w => simp only [List.filterMap_cons, hd, Option.map_some, List.map_cons]; exact ih.cons₂ d
  have hconf := C47_configure_partial ns (hdest.sublist hfst) (fun p hp => by
    have : p.1 ∈ opts.map Opt.dest := hfst.subset (List.mem_map_of_mem hp)
    obtain ⟨q, hq, hq'⟩ := List.mem_map.1 this
    rw [← hq']; exact htidy q hq) c
  have hdef := defaults_get opts hdest (fun _ => none) (fun _ _ => rfl) o ho
  refine ⟨fun hno => ?_, fun a b t ha hb => ?_⟩
  · refine hconf.1 g hg x v hnd (hval v ?_)
    rw [process_keep conv opts hdest o ho argv (by rw [hof]; exact hno) _ _ hproc, hdef, hodef]
  · rw [ha] at hproc
    rw [← hof] at hproc hb
    obtain ⟨w, hw, hf⟩ := process_set conv opts hflags.2 hdest o ho a b t hb _ _ hproc
    rw [hok t w hw]
    exact ⟨by simp, hconf.1 g hg x w hnd (hval w hf)⟩

/-! ### Hypotheses are met -/

/-- The options of the library: no two with the same string. -/
def allOpts : List Opt := baseOpts ++ attributes.flatMap (fun g => groupOpts g.1 g.2) ++ [special]

set_option maxRecDepth 100000 in
theorem allOpts_flags : (allOpts.map Opt.flag).Nodup := by decide
set_option maxRecDepth 100000 in
theorem allOpts_dests : (allOpts.map Opt.dest).Nodup := by decide
set_option maxRecDepth 100000 in
theorem allOpts_tidy : ∀ o ∈ allOpts, Spec.Tidy o.dest := by decide

theorem allOpts_parser : parser baseOpts attributes = .ok allOpts := by
  simp only [parser]
  exact if_pos allOpts_flags

/-- The library's own options with one flag and one value on the command line. -/
example (conv : Val → Name → Option Val) (ns) (h : parseArgs conv allOpts [("PEPSARGS_no_build_dl".toList, none), ("chi".toList, some "5".toList)] = .ok ns) (c : Conf) :
    (configure ns c).1.group "PEPSARGS".toList "build_dl".toList = some (.bool false) ∧
    (configure ns c).1.group "PEPSARGS".toList "build_dl_open".toList = some (.bool false) := by
  have hg : "PEPSARGS".toList ∈ keys := by decide
  have ha : ("PEPSARGS".toList, [("build_dl".toList, Val.bool true), ("build_dl_open".toList, Val.bool false), ("quasi_gauge_max_iter".toList, Val.other 0), ("quasi_gauge_tol".toList, Val.other 0)]) ∈ attributes := by decide
  constructor
  · exact ((C70_parse_configure conv baseOpts attributes allOpts allOpts_parser allOpts_dests allOpts_tidy _ ns h c _ hg _ ha "build_dl".toList (.bool true) (by decide)
      (by decide) (by rintro (⟨h, -⟩ | ⟨-, h⟩) <;> revert h <;> decide)).2 [] _ none rfl (by decide)).2
  · exact (C70_parse_configure conv baseOpts attributes allOpts allOpts_parser allOpts_dests allOpts_tidy _ ns h c _ hg _ ha "build_dl_open".toList (.bool false) (by decide)
      (by decide) (by rintro (⟨h, -⟩ | ⟨-, h⟩) <;> revert h <;> decide)).1 (by decide)

example (c : Conf) := C47_configure_partial [("CTMARGS_ctm_max_iter".toList, .other 3), ("j1".toList, .other 4)] (by decide) (by decide) c
example (c : Conf) := C47_dtype [("GLOBALARGS_dtype".toList, .str "complex64".toList), ("CTMARGS_fwd_checkpoint_move".toList, .bool false)] (by decide) (by decide) c _ _
  List.mem_cons_self (List.mem_cons_of_mem _ List.mem_cons_self)

end Verif.Config
