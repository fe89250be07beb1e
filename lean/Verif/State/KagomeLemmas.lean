import Verif.State.KagomeSymm
/-
Lemmas about the constructors and methods of Kagome states with point-group symmetry.
-/
namespace Verif.Kagome
open Verif.State
open Verif.Tensor
open Verif.Lattice (Vertex)
open Spec

theorem look_none {κ α : Type} [DecidableEq κ] {d : List (κ × α)} {k : κ} (h : dictFind d k = none) : look d k = .error .raise := by
  simp [look, h]

/-- What the five tensors are. -/
structure FiveOf (ud b : Bool) (es : List (Name × Ten)) (Tu Bc Td Bb Ba : Ten) : Prop where
  tu : dictFind es .Tu = some Tu
  bc : dictFind es .Bc = some Bc
  td : if ud then Td = Tu else dictFind es .Td = some Td
  bb : if b then Bb = Bc else dictFind es .Bb = some Bb
  ba : if b then Ba = Bc else dictFind es .Ba = some Ba

theorem fiveOf_inv {ud b : Bool} {es five : List (Name × Ten)} (h : fiveOf ud b es = .ok five) :
    ∃ Tu Bc Td Bb Ba, FiveOf ud b es Tu Bc Td Bb Ba ∧ five = [(.Tu, Tu), (.Td, Td), (.Bc, Bc), (.Ba, Ba), (.Bb, Bb)] := by
  unfold fiveOf at h
  obtain ⟨Tu, h1, h⟩ := bind_ok.1 h
  obtain ⟨Bc, h2, h⟩ := bind_ok.1 h
  obtain ⟨Td, h3, h⟩ := bind_ok.1 h
  obtain ⟨Ba, h4, h⟩ := bind_ok.1 h
  obtain ⟨Bb, h5, h⟩ := bind_ok.1 h
  have hs : ∀ (c : Bool) (X Y : Ten) (n : Name), unlessSame c X (look es n) = .ok Y → if c then Y = X else dictFind es n = some Y := by
    intro c X Y n hh
    cases c
    · exact look_ok hh
    · exact (Except.ok.inj hh).symm
  exact ⟨Tu, Bc, Td, Bb, Ba, ⟨look_ok h1, look_ok h2, hs _ _ _ _ h3, hs _ _ _ _ h5, hs _ _ _ _ h4⟩, (Except.ok.inj h).symm⟩

theorem fiveOf_ok {ud b : Bool} {es : List (Name × Ten)} {Tu Bc Td Bb Ba : Ten} (h : FiveOf ud b es Tu Bc Td Bb Ba) :
    fiveOf ud b es = .ok [(.Tu, Tu), (.Td, Td), (.Bc, Bc), (.Ba, Ba), (.Bb, Bb)] := by
  obtain ⟨h1, h2, h3, h4, h5⟩ := h
  unfold fiveOf
  rw [look_some h1, look_some h2]
  cases ud <;> cases b <;> simp only [Bool.false_eq_true, if_false, if_true] at h3 h4 h5 ⊢
  · rw [look_some h3, look_some h4, look_some h5]; rfl
  · rw [look_some h3, h4, h5]; rfl
  · rw [look_some h4, look_some h5, h3]; rfl
  · rw [h3, h4, h5]; rfl

theorem five_find {Tu Bc Td Bb Ba : Ten} :
    let d := [(Name.Tu, Tu), (.Td, Td), (.Bc, Bc), (.Ba, Ba), (.Bb, Bb)]
    dictFind d .Tu = some Tu ∧ dictFind d .Td = some Td ∧ dictFind d .Bc = some Bc ∧ dictFind d .Ba = some Ba ∧ dictFind d .Bb = some Bb := by
  refine ⟨rfl, rfl, rfl, rfl, rfl⟩

theorem wrap_five (Tu Bc Td Bb Ba : Ten) :
    wrapSingle ([(Name.Tu, Tu), (.Td, Td), (.Bc, Bc), (.Ba, Ba), (.Bb, Bb)].map (fun f => (Key.name f.1, Item.ten f.2))) =
      [(Key.cell (0, 0), Item.sub [(Name.Tu, Tu), (.Td, Td), (.Bc, Bc), (.Ba, Ba), (.Bb, Bb)])] := rfl

theorem buildAll_single (c : Vertex) (d : List (Name × Ten)) (out : List (Vertex × Ten)) :
    buildAll [(Key.cell c, Item.sub d)] = .ok out ↔ ∃ A, buildSite d = .ok A ∧ out = [(c, A)] := by
  unfold buildAll
  rw [List.mapM_cons, List.mapM_nil]
  constructor
  · intro h
    obtain ⟨x, hx, h⟩ := bind_ok.1 h
    obtain ⟨A, hA, hx⟩ := bind_ok.1 hx
    have hx := Except.ok.inj hx
    subst hx
    exact ⟨A, hA, (Except.ok.inj h).symm⟩
  · rintro ⟨A, hA, rfl⟩
    have : buildOne (Key.cell c, Item.sub d) = .ok (c, A) := by
      show (buildSite d).bind _ = _
      rw [hA]; rfl
    rw [this]; rfl

/-- The geometry of a single site. -/
def oneSite : Vertex → Option Vertex := Lattice.defaultVertexToSite 1 1

theorem mkG_five (Tu Bc Td Bb Ba : Ten) (g : GState) :
    mkG ([(Name.Tu, Tu), (.Td, Td), (.Bc, Bc), (.Ba, Ba), (.Bb, Bb)].map (fun f => (Key.name f.1, Item.ten f.2))) none ([] : List (List Nat)) none none = .ok g ↔
      ∃ A, buildSite [(.Tu, Tu), (.Td, Td), (.Bc, Bc), (.Ba, Ba), (.Bb, Bb)] = .ok A ∧
        g = ⟨[(Key.cell (0, 0), Item.sub [(Name.Tu, Tu), (.Td, Td), (.Bc, Bc), (.Ba, Ba), (.Bb, Bb)])], [((0, 0), A)], 1, 1, oneSite⟩ := by
  unfold mkG
  rw [wrap_five]
  constructor
  · intro h
    obtain ⟨sites, hs, h⟩ := bind_ok.1 h
    obtain ⟨A, hA, rfl⟩ := (buildAll_single _ _ _).1 hs
    exact ⟨A, hA, (Except.ok.inj h).symm⟩
  · rintro ⟨A, hA, rfl⟩
    have := (buildAll_single (0, 0) _ _).2 ⟨A, hA, rfl⟩
    exact bind_ok.2 ⟨_, this, rfl⟩

/-- The tensors a constructor keeps. -/
def kept (ud b : Bool) : Name → Bool
  | .Tu => true
  | .Bc => true
  | .Td => !ud
  | .Ba => !b
  | .Bb => !b

theorem selectP_inv {ud b : Bool} {es es' : List (Name × Ten)} (h : selectP ud b es = .ok es') :
    (es'.map (·.1)).Nodup ∧ (∀ n, dictFind es' n = if kept ud b n then dictFind es n else none) ∧ ∀ n, kept ud b n → n ∈ es'.map (·.1) := by
  unfold selectP at h
  obtain ⟨Tu, h1, h⟩ := bind_ok.1 h
  obtain ⟨Bc, h2, h⟩ := bind_ok.1 h
  obtain ⟨up, hu, h⟩ := bind_ok.1 h
  obtain ⟨bs, hb, h⟩ := bind_ok.1 h
  have h := Except.ok.inj h
  subst h
  have h1 := look_ok h1
  have h2 := look_ok h2
  have hup : (ud = true ∧ up = []) ∨ (ud = false ∧ ∃ Td, dictFind es .Td = some Td ∧ up = [(.Td, Td)]) := by
    cases ud
    · obtain ⟨Td, h3, hu⟩ := bind_ok.1 hu
      exact Or.inr ⟨rfl, Td, look_ok h3, (Except.ok.inj hu).symm⟩
    · exact Or.inl ⟨rfl, (Except.ok.inj hu).symm⟩
  have hbs : (b = true ∧ bs = []) ∨ (b = false ∧ ∃ Ba Bb, dictFind es .Ba = some Ba ∧ dictFind es .Bb = some Bb ∧ bs = [(.Ba, Ba), (.Bb, Bb)]) := by
    cases b
    · obtain ⟨Ba, h4, hb⟩ := bind_ok.1 hb
      obtain ⟨Bb, h5, hb⟩ := bind_ok.1 hb
      exact Or.inr ⟨rfl, Ba, Bb, look_ok h4, look_ok h5, (Except.ok.inj hb).symm⟩
    · exact Or.inl ⟨rfl, (Except.ok.inj hb).symm⟩
  rcases hup with ⟨rfl, rfl⟩ | ⟨rfl, Td, h3, rfl⟩ <;> rcases hbs with ⟨rfl, rfl⟩ | ⟨rfl, Ba, Bb, h4, h5, rfl⟩ <;>
    refine ⟨by simp, ?_, ?_⟩ <;> intro n <;> cases n <;> simp [kept, dictFind] at * <;> simp [*]

theorem selectP_ok {ud b : Bool} {es : List (Name × Ten)} {Tu Bc Td Bb Ba : Ten} (hF : FiveOf ud b es Tu Bc Td Bb Ba) :
    ∃ es', selectP ud b es = .ok es' ∧ FiveOf ud b es' Tu Bc Td Bb Ba := by
  obtain ⟨h1, h2, h3, h4, h5⟩ := hF
  unfold selectP
  rw [look_some h1, look_some h2]
  cases ud <;> cases b <;> simp only [Bool.false_eq_true, if_false, if_true] at h3 h4 h5 ⊢
  · exact ⟨_, by rw [look_some h3, look_some h4, look_some h5]; rfl, rfl, rfl, by simp [dictFind], by simp [dictFind], by simp [dictFind]⟩
  · exact ⟨_, by rw [look_some h3]; rfl, rfl, rfl, by simp [dictFind], h4, h5⟩
  · exact ⟨_, by rw [look_some h4, look_some h5]; rfl, rfl, rfl, h3, by simp [dictFind], by simp [dictFind]⟩
  · exact ⟨_, rfl, rfl, rfl, h3, h4, h5⟩

/-- The invariant of all states with point-group symmetry: one site, whose tensor is the network of the five tensors named by the
flags. -/
structure PInv (s : PState) : Prop where
  ex : ∃ Tu Bc Td Bb Ba A, FiveOf s.symUD s.symB s.elem Tu Bc Td Bb Ba ∧
    s.g.ipess = [(Key.cell (0, 0), Item.sub [(.Tu, Tu), (.Td, Td), (.Bc, Bc), (.Ba, Ba), (.Bb, Bb)])] ∧
    buildSite [(.Tu, Tu), (.Td, Td), (.Bc, Bc), (.Ba, Ba), (.Bb, Bb)] = .ok A ∧ s.g.sites = [((0, 0), A)]

theorem mkP_inv {es : List (Name × Ten)} {ud b : Bool} {pgs : List (Name × Option Irrep)} {sy : Bool} {s : PState}
    (h : mkP es ud b pgs sy = .ok s) :
    PInv s ∧ s.symUD = ud ∧ s.symB = b ∧ s.pgs = pgs ∧ s.g.lX = 1 ∧ s.g.lY = 1 ∧ s.g.vts = oneSite ∧
      ∃ es', selectP ud b es = .ok es' ∧
        (if sy then symmAll pgs es' = .ok s.elem else s.elem = es') := by
  unfold mkP at h
  obtain ⟨es', h1, h⟩ := bind_ok.1 h
  obtain ⟨es2, h2, h⟩ := bind_ok.1 h
  obtain ⟨five, h5, h⟩ := bind_ok.1 h
  obtain ⟨Tu, Bc, Td, Bb, Ba, hF, rfl⟩ := fiveOf_inv h5
  obtain ⟨g, hg, h⟩ := bind_ok.1 h
  obtain ⟨A, hA, rfl⟩ := (mkG_five _ _ _ _ _ _).1 hg
  have h := Except.ok.inj h
  subst h
  refine ⟨⟨Tu, Bc, Td, Bb, Ba, A, hF, rfl, hA, rfl⟩, rfl, rfl, rfl, rfl, rfl, rfl, es', h1, ?_⟩
  cases sy with
  | false => exact (Except.ok.inj h2).symm
  | true => exact h2

theorem mkP_ok {es : List (Name × Ten)} {ud b : Bool} {pgs : List (Name × Option Irrep)} {Tu Bc Td Bb Ba A : Ten}
    (hF : FiveOf ud b es Tu Bc Td Bb Ba) (hA : buildSite [(.Tu, Tu), (.Td, Td), (.Bc, Bc), (.Ba, Ba), (.Bb, Bb)] = .ok A) :
    ∃ s, mkP es ud b pgs false = .ok s ∧ s.g.sites = [((0, 0), A)] := by
  obtain ⟨es', h1, hF'⟩ := selectP_ok hF
  unfold mkP
  rw [h1]
  exact ⟨_, bind_ok.2 ⟨_, rfl, bind_ok.2 ⟨_, rfl, bind_ok.2 ⟨_, fiveOf_ok hF', bind_ok.2 ⟨_, (mkG_five _ _ _ _ _ _).2 ⟨A, hA, rfl⟩, rfl⟩⟩⟩⟩, rfl⟩

theorem rebuildP_inv {s s' : PState} {es : List (Name × Ten)} (h : rebuildP s es = .ok s') :
    PInv s' ∧ s'.symUD = s.symUD ∧ s'.symB = s.symB ∧ s'.pgs = s.pgs ∧ s'.elem = es ∧ s'.g.lX = s.g.lX ∧ s'.g.lY = s.g.lY ∧ s'.g.vts = s.g.vts := by
  unfold rebuildP at h
  obtain ⟨five, h5, h⟩ := bind_ok.1 h
  obtain ⟨Tu, Bc, Td, Bb, Ba, hF, rfl⟩ := fiveOf_inv h5
  obtain ⟨sites, hs, h⟩ := bind_ok.1 h
  obtain ⟨A, hA, rfl⟩ := (buildAll_single _ _ _).1 hs
  have h := Except.ok.inj h
  subst h
  exact ⟨⟨Tu, Bc, Td, Bb, Ba, A, hF, rfl, hA, rfl⟩, rfl, rfl, rfl, rfl, rfl, rfl, rfl⟩

theorem rebuildP_ok {s : PState} {es : List (Name × Ten)} {Tu Bc Td Bb Ba A : Ten}
    (hF : FiveOf s.symUD s.symB es Tu Bc Td Bb Ba) (hA : buildSite [(.Tu, Tu), (.Td, Td), (.Bc, Bc), (.Ba, Ba), (.Bb, Bb)] = .ok A) :
    ∃ s', rebuildP s es = .ok s' ∧ s'.g.sites = [((0, 0), A)] ∧
      s'.g.ipess = [(Key.cell (0, 0), Item.sub [(.Tu, Tu), (.Td, Td), (.Bc, Bc), (.Ba, Ba), (.Bb, Bb)])] := by
  unfold rebuildP
  rw [fiveOf_ok hF]
  refine ⟨_, bind_ok.2 ⟨_, rfl, bind_ok.2 ⟨_, (buildAll_single _ _ _).2 ⟨A, hA, rfl⟩, rfl⟩⟩, rfl, rfl⟩

end Verif.Kagome
