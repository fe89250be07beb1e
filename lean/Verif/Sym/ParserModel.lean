import Verif.Tensor.Core
/-
Model of the parser of files of symmetric tensors: /repo/su2sym/sym_ten_parser.py (and /repo/u1sym/sym_ten_parser.py, which has the same functions).
Strings are lists of characters. `int` and `eval` are parameters that may fail.
-/
namespace Verif.SymTen

abbrev Str := List Char

/-- `str.strip()`, sym_ten_parser.py L9. -/
def strip (s : Str) : Str := ((s.dropWhile Char.isWhitespace).reverse.dropWhile Char.isWhitespace).reverse

/-- `s.split(", '")`, sym_ten_parser.py L5; `acc` is the present piece. -/
def splitMeta : Str → Str → List Str
  | ',' :: ' ' :: '\'' :: cs, acc => acc :: splitMeta cs []
  | c :: cs, acc => splitMeta cs (acc ++ [c])
  | [], acc => [acc]

/-- sym_ten_parser.py L8-L9: one entry of the dictionary; a missing colon is found at -1. -/
def metaEntry (f : Str) : Str × Str :=
  match f.findIdx? (· == ':') with
  | none => (f.take (f.length - 2), strip f)
  | some 0 => (f.dropLast, strip (f.drop 1))
  | some (n + 1) => (f.take n, strip (f.drop (n + 2)))

/-- sym_ten_parser.py L4-L10 `parse_meta`: the entries in the order in which they are assigned. -/
def parseMeta (s : Str) : List (Str × Str) := (splitMeta (s.drop 1) []).map metaEntry

/-- `meta[k]`, sym_ten_parser.py L132: the last assignment counts; `none`: KeyError. -/
def lookup (m : List (Str × Str)) (k : Str) : Option Str := (m.reverse.find? (fun e => decide (e.1 = k))).map (·.2)

/-- `s.find("),")`, sym_ten_parser.py L14. -/
def findEnd : Str → Option Nat
  | ')' :: ',' :: _ => some 0
  | _ :: cs => (findEnd cs).map (· + 1)
  | [] => none

/-- `s.split(",")`, sym_ten_parser.py L15. -/
def splitComma : Str → Str → List Str
  | [], acc => [acc]
  | c :: cs, acc => if c = ',' then acc :: splitComma cs [] else splitComma cs (acc ++ [c])

/-- sym_ten_parser.py L12-L17 `parse_elem`. Simplification: a text without "),", which in Python gives meaningless slices, is an error. -/
def parseElem {K : Type} (int : Str → Option Int) (eval : Str → Option K) (s : Str) : Option (List Int × K) := do
  let n ← findEnd s
  let inds ← (splitComma ((s.take n).drop 1) []).mapM int
  let v ← eval (s.drop (n + 2)).dropLast
  some (inds, v)

/-- State of the loop sym_ten_parser.py L20-L35. -/
structure ES where
  level : Int
  bf : Str
  raw : List Str

/-- One character, sym_ten_parser.py L23-L35. -/
def elemStep (s : ES) (c : Char) : ES :=
  if c = '(' then ⟨s.level + 1, if s.level = 0 then [] else s.bf ++ [c], s.raw⟩
  else if c = ')' then (if s.level - 1 = 0 then ⟨s.level - 1, [], s.raw ++ [s.bf ++ [c]]⟩ else ⟨s.level - 1, s.bf ++ [c], s.raw⟩)
  else ⟨s.level, s.bf ++ [c], s.raw⟩

/-- sym_ten_parser.py L19-L40 `parse_elems`. -/
def parseElems {K : Type} (int : Str → Option Int) (eval : Str → Option K) (s : Str) : Option (List (List Int × K)) :=
  (s.foldl elemStep ⟨0, [], []⟩).raw.mapM (parseElem int eval)

/-- State of the loop sym_ten_parser.py L43-L94; `level`, `meta` and `elem` are 0 or 1. -/
structure PS where
  level : Bool
  inMeta : Bool
  elem : Bool
  bf : Str
  metaT : List Str
  rawT : List Str

/-- One character, sym_ten_parser.py L49-L94. -/
def classStep (s : PS) (c : Char) : PS :=
  if s.level = false ∧ c = '(' then { s with level := true }
  else if s.level = true ∧ c = '{' then { s with inMeta := true, bf := [] }
  else if s.level = true ∧ s.inMeta = true then (if c = '}' then { s with inMeta := false, metaT := s.metaT ++ [s.bf] } else { s with bf := s.bf ++ [c] })
  else if s.level = true ∧ s.elem = false ∧ c = '[' then { s with elem := true, bf := [] }
  else if s.level = true ∧ s.elem = true then (if c = ']' then { s with elem := false, rawT := s.rawT ++ [s.bf] } else { s with bf := s.bf ++ [c] })
  else if s.level = true ∧ c = ')' then { s with level := false }
  else s

/-- sym_ten_parser.py L42-L104 `parse_classification`. -/
def parseClassification {K : Type} (int : Str → Option Int) (eval : Str → Option K) (t : Str) : Option (List (List (Str × Str) × List (List Int × K))) := do
  let s := t.foldl classStep ⟨false, false, false, [], [], []⟩
  let elems ← s.rawT.mapM (parseElems int eval)
  some ((s.metaT.map parseMeta).zip elems)

/-- sym_ten_parser.py L121, L145: an index of an axis of size `n`, negative ones count from the end. -/
def normIdx (n : Nat) (i : Int) : Option Nat := if 0 ≤ i ∧ i < n then some i.toNat else if i < 0 ∧ -(n : Int) ≤ i then some (i + n).toNat else none

/-- sym_ten_parser.py L121, L145: all indices. Simplification: too few indices, which would address a slice, are an error. -/
def normIdxs : List Nat → List Int → Option (List Nat)
  | [], [] => some []
  | n :: ns, i :: is => do
    let k ← normIdx n i
    let ks ← normIdxs ns is
    some (k :: ks)
  | _, _ => none

/-- sym_ten_parser.py L145 `t[e[0]]=e[1]`. -/
def assign {K : Type} (t : Tensor K) (e : List Int × K) : Option (Tensor K) := do
  let k ← normIdxs t.shape e.1
  some ⟨t.shape, fun idx => if idx = k then e.2 else t.val idx⟩

/-- sym_ten_parser.py L139-L146 `fill_from_sparse_coo`. -/
def fill {K : Type} (t : Tensor K) (elems : List (List Int × K)) : Option (Tensor K) := elems.foldlM assign t

/-- The first element is raised by one, sym_ten_parser.py L119; `none`: IndexError for an empty list. -/
def raiseFirst {K : Type} : List (List Int × K) → Option (List (List Int × K))
  | [] => none
  | e :: es => some ((e.1.map (· + 1), e.2) :: es)

/-- sym_ten_parser.py L111-L122 `fill_from_sparse_coo_FIX`. -/
def fillFix {K : Type} (t : Tensor K) (elems : List (List Int × K)) : Option (Tensor K) := do
  let es ← raiseFirst elems
  fill t (es.map (fun e => (e.1.map (· - 1), e.2)))

/-- One turn of the loop sym_ten_parser.py L155-L159 (L131-L135, L166-L170): is the irrep the one asked for? -/
def importOne {K : Type} [Zero K] (dims : List Nat) (pg : Str) (filler : Tensor K → List (List Int × K) → Option (Tensor K))
    (acc : List (List (Str × Str) × Tensor K)) (tc : List (Str × Str) × List (List Int × K)) : Option (List (List (Str × Str) × Tensor K)) := do
  let p ← lookup tc.1 ['p', 'g']
  if pg = p then do
    let t ← filler ⟨dims, fun _ => 0⟩ tc.2
    some (acc ++ [(tc.1, t)])
  else some acc

/-- sym_ten_parser.py L148-L161 `import_sym_tensors` and L163-L172 `import_sym_tensors_generic` with `filler = fill`, L124-L137 `import_sym_tensors_FIX` with `filler = fillFix`.
Line breaks are removed from the text first, L106-L109. -/
def importSym {K : Type} [Zero K] (int : Str → Option Int) (eval : Str → Option K) (dims : List Nat) (pg : Str) (filler : Tensor K → List (List Int × K) → Option (Tensor K)) (data : Str) :
    Option (List (List (Str × Str) × Tensor K)) := do
  let tc ← parseClassification int eval (data.filter (· != '\n'))
  tc.foldlM (importOne dims pg filler) []

end Verif.SymTen
