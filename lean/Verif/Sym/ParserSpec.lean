import Verif.Sym.ParserModel
/-
Specification of the files of symmetric tensors: what the text of a list of tensors looks like.
-/
namespace Verif.SymTen.Spec

/-- One tensor as written in a file: text between the tokens is arbitrary. -/
structure Rec where
  g0 : Str
  g1 : Str
  /-- key and text after the colon -/
  entries : List (Str × Str)
  g2 : Str
  /-- text before, texts of the indices, text of the value -/
  elems : List (Str × List Str × Str)
  tail : Str
  g3 : Str

/-- `a, b, c` with a separator. -/
def sepBy (sep : Str) : List Str → Str
  | [] => []
  | [x] => x
  | x :: y :: xs => x ++ sep ++ sepBy sep (y :: xs)

/-- `'key':value`, without the first quote. -/
def entryText (e : Str × Str) : Str := e.1 ++ ['\'', ':'] ++ e.2

/-- `'k1': v1, 'k2': v2`. -/
def metaText (r : Rec) : Str := '\'' :: sepBy [',', ' ', '\''] (r.entries.map entryText)

/-- `((i,j,k),value)`. -/
def elemText (e : Str × List Str × Str) : Str := e.1 ++ ['(', '('] ++ sepBy [','] e.2.1 ++ [')', ','] ++ e.2.2 ++ [')']

/-- `({...}, [...])`. -/
def text (r : Rec) : Str := r.g0 ++ ['('] ++ r.g1 ++ ['{'] ++ metaText r ++ ['}'] ++ r.g2 ++ ['['] ++ (r.elems.flatMap elemText ++ r.tail) ++ [']'] ++ r.g3 ++ [')']

/-- None of the characters occurs. -/
def Avoids (cs : List Char) (s : Str) : Prop := ∀ c ∈ s, c ∉ cs

/-- Parentheses match: the text closes none of those opened before and closes all it opens. -/
inductive Balanced : Str → Prop
  | nil : Balanced []
  | char {c s} : c ≠ '(' → c ≠ ')' → Balanced s → Balanced (c :: s)
  | paren {s t} : Balanced s → Balanced t → Balanced ('(' :: s ++ ')' :: t)

/-- The separator of entries does not occur. -/
def NoSep (s : Str) : Prop := ∀ a b, s ≠ a ++ [',', ' ', '\''] ++ b

/-- The tokens can be told apart. -/
structure Ok (r : Rec) : Prop where
  g0 : Avoids ['('] r.g0
  g1 : Avoids ['{', '[', ')'] r.g1
  g2 : Avoids ['{', '[', ')'] r.g2
  g3 : Avoids ['{', '[', ')'] r.g3
  nonempty : r.entries ≠ []
  braces : ∀ e ∈ r.entries, Avoids ['{', '}'] e.1 ∧ Avoids ['{', '}'] e.2
  colon : ∀ e ∈ r.entries, Avoids [':'] e.1
  sep : ∀ e ∈ r.entries, NoSep (entryText e)
  tail : Avoids ['{', ']', '(', ')'] r.tail
  glue : ∀ e ∈ r.elems, Avoids ['{', ']', '(', ')'] e.1
  inds : ∀ e ∈ r.elems, e.2.1 ≠ [] ∧ ∀ x ∈ e.2.1, Avoids ['{', ']', '(', ')', ','] x
  value : ∀ e ∈ r.elems, Avoids ['{', ']'] e.2.2 ∧ Balanced e.2.2

/-- What is to be read: keys with their values, and the elements. -/
def meaning {K : Type} (int : Str → Option Int) (eval : Str → Option K) (r : Rec) : Option (List (Str × Str) × List (List Int × K)) := do
  let es ← r.elems.mapM (fun e => do
    let i ← e.2.1.mapM int
    let v ← eval e.2.2
    some (i, v))
  some (r.entries.map (fun e => (e.1, strip e.2)), es)

end Verif.SymTen.Spec
