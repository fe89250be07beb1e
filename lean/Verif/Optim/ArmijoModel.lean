import Mathlib.Analysis.Real.Sqrt
/-
Model of the derivative-free backtracking search of /repo/optim/lbfgs_modified.py.
Real arithmetic is exact. A division by zero, which in the code yields inf or nan and from there on nan
(a step `nan` gives the loss `nan`, no comparison holds any more, the loop ends), is an explicit exit with
the outcome `fail`.
-/
namespace Verif.Armijo

/-- Return values of `_scalar_search_armijo`: `(True, alpha, phi)`, `(True, None, phi1)` and
`(exception, alpha, None)`. -/
inductive Res
  | ok (alpha v : ℝ)
  | fail
  | err (alpha : ℝ)

/-- Result, final state of the objective, and the steps at which the objective was evaluated, oldest first. -/
structure Out (σ : Type) where
  res : Res
  state : σ
  trials : List ℝ

variable {σ : Type}

/-- lbfgs_modified.py L72-L79: the first non-zero of `alpha2, alpha1, alpha0`. -/
noncomputable def errStep (a2 a1 : Option ℝ) (a0 : ℝ) : ℝ :=
  match a2, a1 with
  | some x, some y => if x ≠ 0 then x else if y ≠ 0 then y else a0
  | none, some y => if y ≠ 0 then y else a0
  | some x, none => if x ≠ 0 then x else a0
  | none, none => a0

/-- lbfgs_modified.py L48-L51: the cubic coefficient; `none` when the division is by zero. -/
noncomputable def coefA (phi0 d a0 a1 f0 f1 : ℝ) : Option ℝ :=
  let factor := a0 ^ 2 * a1 ^ 2 * (a1 - a0)
  if factor = 0 then none
  else some ((a0 ^ 2 * (f1 - phi0 - d * a1) - a1 ^ 2 * (f0 - phi0 - d * a0)) / factor)

/-- lbfgs_modified.py L52-L54. -/
noncomputable def coefB (phi0 d a0 a1 f0 f1 : ℝ) : ℝ :=
  (-a0 ^ 3 * (f1 - phi0 - d * a1) + a1 ^ 3 * (f0 - phi0 - d * a0)) / (a0 ^ 2 * a1 ^ 2 * (a1 - a0))

/-- lbfgs_modified.py L48-L56: the trial step `alpha2`; `none`: division by zero. -/
noncomputable def cubicStep (phi0 d a0 a1 f0 f1 : ℝ) : Option ℝ :=
  match coefA phi0 d a0 a1 f0 f1 with
  | none => none
  | some a =>
    if a = 0 then none
    else
      let b := coefB phi0 d a0 a1 f0 f1
      some ((-b + Real.sqrt |b ^ 2 - 3 * a * d|) / (3 * a))

/-- lbfgs_modified.py L47-L71: `while alpha1 > amin`. `fuel` bounds the iterations; `none`: out of fuel. -/
noncomputable def loop (phi : ℝ → σ → Option ℝ × σ) (phi0 d c1 amin : ℝ) :
    Nat → ℝ → ℝ → ℝ → ℝ → σ → List ℝ → Option (Out σ)
  | 0, _, a1, _, _, s, tr => if a1 > amin then none else some ⟨.fail, s, tr⟩
  | n + 1, a0, a1, f0, f1, s, tr =>
    if a1 > amin then
      match cubicStep phi0 d a0 a1 f0 f1 with
      | none => some ⟨.fail, s, tr⟩
      | some a2 =>
        match phi a2 s with
        | (none, s') => some ⟨.err (errStep (some a2) (some a1) a0), s', tr ++ [a2]⟩
        | (some f2, s') =>
          if f2 ≤ phi0 + c1 * a2 * d then some ⟨.ok a2 f2, s', tr ++ [a2]⟩
          else
            loop phi phi0 d c1 amin n a1
              (if a1 - a2 > a1 / 2 ∨ 1 - a2 / a1 < 96 / 100 then a1 / 2 else a2) f1 f2 s' (tr ++ [a2])
    else some ⟨.fail, s, tr⟩

/-- lbfgs_modified.py L13-L82 `_scalar_search_armijo`. `phi` is the objective, a state transformer that may
raise `NoFixedPointError` (`none`). -/
noncomputable def search (phi : ℝ → σ → Option ℝ × σ) (phi0 d c1 a0 amin : ℝ) (fuel : Nat) (s : σ) : Option (Out σ) :=
  match phi a0 s with
  | (none, s') => some ⟨.err (errStep none none a0), s', [a0]⟩
  | (some f0, s') =>
    if f0 ≤ phi0 + c1 * a0 * d then some ⟨.ok a0 f0, s', [a0]⟩
    else if f0 - phi0 - d * a0 = 0 then some ⟨.fail, s', [a0]⟩
    else
      let a1 := -d * a0 ^ 2 / 2 / (f0 - phi0 - d * a0)
      match phi a1 s' with
      | (none, s'') => some ⟨.err (errStep none (some a1) a0), s'', [a0, a1]⟩
      | (some f1, s'') =>
        if f1 ≤ phi0 + c1 * a1 * d then some ⟨.ok a1 f1, s'', [a0, a1]⟩
        else loop phi phi0 d c1 amin fuel a0 a1 f0 f1 s'' [a0, a1]

end Verif.Armijo
