import Mathlib.Analysis.Complex.Basic
import Mathlib.LinearAlgebra.Matrix.Trace
import Mathlib.LinearAlgebra.Matrix.Notation
import Mathlib.LinearAlgebra.Matrix.ConjTranspose
import Mathlib.Analysis.Real.Sqrt
/-
Model of /repo/groups/su3.py: the operators of the defining representation of su(3) and its Casimir operators. Complex dtype; devices are not modelled.
-/
namespace Verif.Su3
open Matrix

/-- Operators of the representation; rows are the results. -/
abbrev Op := Matrix (Fin 3) (Fin 3) ℂ

/-- L194-L200 `tz`. -/
noncomputable def TZ : Op := !![1/2, 0, 0; 0, -(1/2), 0; 0, 0, 0]
/-- L201-L208 `y`. -/
noncomputable def Y : Op := !![1/3, 0, 0; 0, 1/3, 0; 0, 0, -(2/3)]
/-- L209-L214 `tp`. -/
def TP : Op := !![0, 1, 0; 0, 0, 0; 0, 0, 0]
/-- L215-L220 `tm`. -/
def TM : Op := !![0, 0, 0; 1, 0, 0; 0, 0, 0]
/-- L221-L226 `vp`. -/
def VP : Op := !![0, 0, 1; 0, 0, 0; 0, 0, 0]
/-- L227-L232 `vm`. -/
def VM : Op := !![0, 0, 0; 0, 0, 0; 1, 0, 0]
/-- L233-L238 `up`. -/
def UP : Op := !![0, 0, 0; 0, 0, 1; 0, 0, 0]
/-- L239-L244 `um`. -/
def UM : Op := !![0, 0, 0; 0, 0, 0; 0, 1, 0]

/-- L110-L128 `Cartan_Weyl`. -/
noncomputable def cartanWeyl : Fin 8 → Op := ![TP, TM, TZ, VP, VM, UP, UM, Y]

/-- L130-L147 `J_Gell_Mann`; the square root is exact. -/
noncomputable def gellMann : Fin 8 → Op :=
  ![TP + TM, -Complex.I • (TP - TM), (2 : ℂ) • TZ, VP + VM, -Complex.I • (VP - VM), UP + UM, -Complex.I • (UP - UM), ((Real.sqrt 3 : ℝ) : ℂ) • Y]

/-- L149-L160 `C1`, entry `[i,a,j,b]`. -/
noncomputable def C1 (i a j b : Fin 3) : ℂ :=
  TZ i j * TZ a b + 3 / 4 * (Y i j * Y a b) + 1 / 2 * (TP i j * TM a b + TM i j * TP a b + VP i j * VM a b + VM i j * VP a b + UP i j * UM a b + UM i j * UP a b)

/-- L168-L176 the generators `Fs` of `C2`. -/
noncomputable def Fs : Fin 8 → Op :=
  ![(1/2 : ℂ) • (TP + TM), (-(1/2) * Complex.I) • (TP - TM), TZ, (1/2 : ℂ) • (VP + VM), (-(1/2) * Complex.I) • (VP - VM), (1/2 : ℂ) • (UP + UM), (-(1/2) * Complex.I) • (UP - UM),
    (((Real.sqrt 3 / 2 : ℝ)) : ℂ) • Y]

/-- L182: the factor `d`. -/
noncomputable def dFactor (i j k : Fin 8) : ℂ := 2 * Matrix.trace ((Fs i * Fs j + Fs j * Fs i) * Fs k)

/-- L162-L185 `C2`, entry `[i,j,k,a,b,c]`. -/
noncomputable def C2 (i j k a b c : Fin 3) : ℂ := ∑ x, ∑ y, ∑ z, dFactor x y z * (Fs x i a * Fs y j b * Fs z k c)

end Verif.Su3
