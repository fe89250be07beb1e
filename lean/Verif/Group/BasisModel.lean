import Verif.Group.PgModel
import Mathlib.Data.Finset.Union
import Mathlib.Data.Fin.VecNotation
import Mathlib.Data.Fintype.Pi
import Mathlib.Tactic.FinCases
import Mathlib.Algebra.Order.Field.Basic
/-
Model of /repo/u1sym/basis.py: the basis of C4v-symmetric (and U(1)-symmetric) on-site tensors, change
of basis of the parameters, conversion of a basis to and from a dictionary.
-/
namespace Verif.SymBasis
variable {K : Type}

/-- The four auxiliary indices (up, left, down, right) of a tensor element: a Python 4-tuple. -/
abbrev T4 := Fin 4 → Nat

/-- basis.py L68-L70 `get_perm`: `tuple([l[x] for x in p])`. Simplification: both arguments are
4-tuples, so that the assertion of L69 always holds. -/
def getPerm (l : T4) (p : Fin 4 → Fin 4) : T4 := fun i => l (p i)

/-- basis.py L73-L81 `gen_A1_`. A Python set is a `Finset`. -/
def genA1 (seed : T4) : Finset T4 :=
  {getPerm seed ![0, 3, 2, 1], getPerm seed ![2, 1, 0, 3], getPerm seed ![3, 0, 1, 2],
    getPerm seed ![1, 2, 3, 0]}

/-- basis.py L84-L95 `gen_c4v_symm_A1` with its default `f_gen`. -/
def genC4v (seed : T4) : Finset T4 :=
  if seed ∉ genA1 seed then genA1 seed ∪ (genA1 seed).biUnion genA1 else genA1 seed

theorem getPerm_twice (s : T4) (p q : Fin 4 → Fin 4) :
    getPerm (getPerm s p) q = getPerm s (fun i => p (q i)) := rfl

/-- The orbit contains its seed (needed for the termination of `genLoop`). -/
theorem seed_mem (s : T4) : s ∈ genC4v s := by
  unfold genC4v
  split
  · refine Finset.mem_union_right _ (Finset.mem_biUnion.2 ⟨getPerm s ![0, 3, 2, 1], ?_, ?_⟩)
    · simp [genA1]
    · have : s = getPerm (getPerm s ![0, 3, 2, 1]) ![0, 3, 2, 1] := by
        funext i
        fin_cases i <;> rfl
      simp only [genA1, Finset.mem_insert]
      exact Or.inl this
  · rename_i h
    exact not_not.1 h

/-- The `while` loop of basis.py L102-L104. -/
def genLoop : List T4 → List (Finset T4)
  | [] => []
  | w :: ws =>
    let o := genC4v w
    o :: genLoop ((w :: ws).filter (· ∉ o))
termination_by work => work.length
decreasing_by
  simp only [List.filter_cons, seed_mem, not_true_eq_false, decide_false, List.length_cons]
  exact Nat.lt_succ_of_le (List.length_filter_le _ _)

/-- basis.py L98-L105 `gen_t`; L101 is `product(range(D), range(D), range(D), (D-1,))`. Only called
with `D ≥ 1`. -/
def genT (D : Nat) : List (Finset T4) :=
  genLoop ((List.range D).flatMap fun a => (List.range D).flatMap fun b => (List.range D).map fun c =>
    ![a, b, c, D - 1])

/-- basis.py L108-L113 `gen_upto_D`. -/
def genUptoD (maxD : Nat) : List (List (Finset T4)) := (List.range' 1 maxD).map genT

/-- basis.py L159-L179 `get_u1_filter`; `none`: a position outside the list of charges (IndexError). -/
def u1Filter (charges : List Int) (total : Int) (dimH : Nat) (s : Nat) (f : T4) : Option Bool := do
  let c ← charges[s]?
  let cs ← [f 0, f 1, f 2, f 3].mapM (fun i => charges[dimH + i]?)
  some (decide (([c] ++ cs).sum = total))

/-- Python `filter(f, l)` with a predicate that may raise. -/
def filterOpt {α : Type} (f : α → Option Bool) : List α → Option (List α)
  | [] => some []
  | a :: as => do
    let b ← f a
    let r ← filterOpt f as
    some (if b then a :: r else r)

/-- basis.py L145-L146: a tensor of zeros with ones at the elements of the orbit. The leading
dimension is the literal 2 of the source; an element outside the array raises (`none`). -/
def unitOn [Zero K] [One K] (maxD s : Nat) (o : Finset T4) : Option (Tensor K) :=
  if s < 2 ∧ ∀ f ∈ o, ∀ i, f i < maxD then
    some ⟨[2, maxD, maxD, maxD, maxD], fun idx => match idx with
      | [s', u, l, d, r] => if s' = s ∧ ![u, l, d, r] ∈ o then 1 else 0
      | _ => 0⟩
  else none

/-- basis.py L116-L156 `get_basis_upto_D` with a filter. `next(iter(x))` is an arbitrary element of the
set `x`, given by `pick`. Simplification: the tensors are collected directly in the lists `basis[d]`
(L132-L147), whose concatenation is returned (L156), so the loop over `d` is outside the one over the
groups. -/
def getBasisUptoD [Zero K] [One K] (pick : Finset T4 → T4) (maxD dimH : Nat)
    (filter : Nat → T4 → Option Bool) : Option (List (Tensor K)) := do
  let basis ← (List.range dimH).mapM fun d => do
    let per ← (genUptoD maxD).mapM fun group => do
      let sel ← filterOpt (fun x => filter d (pick x)) group
      sel.mapM (unitOn maxD d)
    some per.flatten
  some basis.flatten

/-- `np.allclose(x, 0.0)` for one number: absolute tolerance 1e-8. -/
def nearZero [Field K] [LinearOrder K] (x : K) : Prop := |x| ≤ 1 / 100000000

instance [Field K] [LinearOrder K] (x : K) : Decidable (nearZero x) := by
  unfold nearZero; infer_instance

/-- Product of one row of `aa` with a vector, both seen as tensors. -/
def dot [Field K] (shape : List Nat) (A B : Tensor K) : K :=
  ((Tensor.indices shape).map fun idx => A.val idx * B.val idx).sum

/-- basis.py L53-L63: one pass of the loop. The rows stored so far are the first `tot` rows of `aa`;
the remaining rows of `aa` are zero and so are their products. -/
def symStepRow [Field K] [LinearOrder K] (shape : List Nat) (rows : List (Tensor K)) (ix : List Nat) :
    Option (List (Tensor K)) := do
  let t ← Pg.symmA1 ⟨shape, fun idx => if idx = ix then 1 else 0⟩
  some (if (¬ ∀ idx ∈ Tensor.indices shape, nearZero (t.val idx)) ∧
      (∀ r ∈ rows, nearZero (dot shape r t)) then rows ++ [t] else rows)

/-- basis.py L48-L65: the branch without charges. `none`: L65 `reshape(-1, …)` of an empty array. The
flat position `ix` is the multi-index at this position in row-major order. -/
def basisNoU1 [Field K] [LinearOrder K] (d D : Nat) : Option (List (Tensor K)) :=
  if d * D * D * D * D = 0 then none
  else (Tensor.indices [d, D, D, D, D]).foldlM (symStepRow [d, D, D, D, D]) []

/-- basis.py L26-L65 `generate_a_basis`. The stacked result is the list of its blocks; `none`: an
assertion or an exception. -/
def generateABasis [Field K] [LinearOrder K] (pick : Finset T4 → T4) (d D : Nat)
    (charges : Option (List Int) := none) (total : Option Int := some 0) : Option (List (Tensor K)) :=
  match charges, total with
  | some q, some t =>
    if q.length = d + D then do
      let basis ← getBasisUptoD pick D d (u1Filter q t d)
      if basis.length > 0 then some basis else none
    else none
  | _, _ => basisNoU1 d D

/-- `overlaps.nonzero()`, row by row, basis.py L206. -/
def nonzeros [Zero K] [DecidableEq K] (n m : Nat) (M : Nat → Nat → K) : List (Nat × Nat) :=
  (List.range n).flatMap fun x => ((List.range m).filter fun y => M x y ≠ 0).map fun y => (x, y)

/-- `a[j] = v` on a one-dimensional array. -/
def assign (a : List K) (jv : Nat × K) : List K := a.set jv.1 jv.2

/-- basis.py L182-L225 `rebase_params` for bases given as lists of tensors; `p` and `D0` are the
dimensions of the tensors of `basis0`, `D1` the bond dimension of those of `basis`, `noise` the random
vector of L220. The slice `:D` of L205 must leave tensors of equal shape (simplification: NumPy would
in addition broadcast axes of size one). `none`: an assertion or an exception. -/
def rebaseParams [Field K] [DecidableEq K] (params : List K) (p D0 D1 : Nat) (basis0 basis : List (Tensor K))
    (noise : List K) (D : Option Nat := none) : Option (List K) :=
  let D := D.getD D0
  if min D D1 ≠ D0 then none else
  let z : Tensor K := ⟨[], fun _ => 0⟩
  let overlaps := fun x y => dot [p, D0, D0, D0, D0] (basis0.getD x z) (basis.getD y z)
  let permutation := nonzeros basis0.length basis.length overlaps
  if permutation.length ≠ basis0.length then none else
  if params.length ≠ basis0.length then none else
  let norms := basis0.map fun b => dot [p, D0, D0, D0, D0] b b
  let params' := (List.zipWith (· * ·) params norms).zip permutation
    |>.map fun q => (q.2.2, q.1 / overlaps q.2.1 q.2.2)
  some (params'.foldl assign noise)

/-- The dictionary of basis.py L241-L246. -/
structure BDict (K : Type) where
  shape : List Nat
  elements : List ((Nat × Nat) × K)

/-- basis.py L228-L246 `basis_to_dict`: `none`: the reshape of L235 fails for an empty array. The keys of
`dok_array` are the positions of the non-zero entries. -/
def basisToDict [Zero K] [DecidableEq K] (B : Tensor K) : Option (BDict K) :=
  match B.shape with
  | [] => none
  | n :: rest =>
    if n * rest.prod = 0 then none else
    some ⟨n :: rest, (nonzeros n rest.prod fun x j => B.val (x :: Tensor.unravel rest j)).map
      fun k => (k, B.val (k.1 :: Tensor.unravel rest k.2))⟩

/-- basis.py L256-L257: the elements are added to an array of zeros; `none`: index outside the array. -/
def addElem [Add K] (n m : Nat) (a : Nat → Nat → K) (e : (Nat × Nat) × K) : Option (Nat → Nat → K) :=
  if e.1.1 < n ∧ e.1.2 < m then
    some fun x j => if x = e.1.1 ∧ j = e.1.2 then a x j + e.2 else a x j
  else none

/-- `basis.reshape(shape)` of a matrix whose columns are the flattened trailing axes, basis.py L258. -/
def unflatten [Zero K] (rest : List Nat) (a : Nat → Nat → K) : List Nat → K
  | x :: is => a x (Tensor.ravel rest is)
  | [] => 0

/-- basis.py L249-L258 `basis_from_dict`. -/
def basisFromDict [AddZeroClass K] (d : BDict K) : Option (Tensor K) :=
  match d.shape with
  | [] => none
  | n :: rest => do
    let a ← d.elements.foldlM (addElem n rest.prod) (fun _ _ => 0)
    some ⟨n :: rest, unflatten rest a⟩

end Verif.SymBasis
