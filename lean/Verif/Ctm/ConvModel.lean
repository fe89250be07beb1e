import Mathlib.Analysis.SpecialFunctions.Pow.Real
import Mathlib.Data.List.Sort
/-
Model of /repo/ctm/generic/env.py L817-L875 `ctmrg_conv_specC`. The spectra `env.get_spectra()` (L204-L208) are a parameter: a
dictionary from corner keys to finite lists of reals. Logging is not modelled.
-/
namespace Verif.Conv

/-- What `ctmrg_conv_specC` raises: missing key (KeyError) or `max` of an empty list (ValueError). -/
inductive Err | key | value
deriving DecidableEq

/-- A dictionary as its list of items. -/
abbrev Dict (κ : Type) := List (κ × List ℝ)

/-- The argument `p`: `'fro'` or 2, `'inf'` or `float('inf')`, anything else. -/
inductive Norm | fro | inf | other

/-- L843, L860-L862: the history; `conv_crit` is `float('inf')` (`none`) or a number. -/
structure History (κ : Type) where
  spec : List (Dict κ)
  diffs : List (Option (List ℝ))
  crit : List (Option ℝ)

/-- `sum(t**2)`. -/
def sumSq (s : List ℝ) : ℝ := (s.map (· ^ 2)).sum

/-- L834-L840 `_diff_spec`. -/
noncomputable def diffSpec (s1 s2 : List ℝ) : ℝ :=
  if s1.length = s2.length then sumSq (List.zipWith (· - ·) s1 s2)
  else if s1.length < s2.length then sumSq (List.zipWith (· - ·) s1 (s2.take s1.length)) + sumSq (s2.drop s1.length)
  else sumSq (List.zipWith (· - ·) (s1.take s2.length) s2) + sumSq (s1.drop s2.length)

/-- `t.sort(descending=True)[0]`. -/
noncomputable def sortDesc (s : List ℝ) : List ℝ := open Classical in s.insertionSort (· ≥ ·)

/-- L852: the differences, in the order of the new spectrum's keys. -/
noncomputable def diffs {κ : Type} [DecidableEq κ] (new old : Dict κ) : Except Err (List ℝ) :=
  new.mapM (fun q => match old.lookup q.1 with
    | none => .error .key
    | some s => .ok (diffSpec q.2 s))

/-- L854-L858: the criterion. -/
noncomputable def criterion (p : Norm) (ds : List ℝ) : Except Err (Option ℝ) :=
  match p with
  | .fro => .ok (some (Real.sqrt ds.sum))
  | .inf => match ds with
    | [] => .error .value
    | d :: ds => .ok (some (Real.sqrt (ds.foldl max d)))
  | .other => .ok none

/-- L844-L858: differences to the last entry of the history, if there is one, and the criterion. -/
noncomputable def measure {κ : Type} [DecidableEq κ] (p : Norm) (sorted : Dict κ) (h : History κ) : Except Err (Option (List ℝ) × Option ℝ) :=
  match h.spec.getLast? with
  | none => .ok (none, none)
  | some old => do
    let ds ← diffs sorted old
    let crit ← criterion p ds
    return (some ds, crit)

/-- `conv_crit < ctm_conv_tol`. -/
def below (crit : Option ℝ) (tol : ℝ) : Prop := ∃ c, crit = some c ∧ c < tol

/-- L817-L875 `ctmrg_conv_specC` with `ctm_conv_tol`, `ctm_max_iter`; `none` is an empty history. -/
noncomputable def convSpecC {κ : Type} [DecidableEq κ] (p : Norm) (tol : ℝ) (maxIter : Nat) (spec : Dict κ) (history : Option (History κ)) :
    Except Err (Bool × History κ) := do
  let h := history.getD ⟨[], [], []⟩
  let sorted := spec.map (fun q => (q.1, sortDesc q.2))
  let (ds, crit) ← measure p sorted h
  let h' : History κ := ⟨h.spec ++ [sorted], h.diffs ++ [ds], h.crit ++ [crit]⟩
  return (open Classical in decide ((h'.diffs.length > 1 ∧ below crit tol) ∨ h'.diffs.length ≥ maxIter), h')

end Verif.Conv
