import Mathlib.Data.Complex.Basic
import Mathlib.Analysis.Real.Sqrt
import Mathlib.Data.Matrix.Mul
/-
Model of /repo/groups/su2.py: the spin matrices, the exchange operator and the rotation.
Numbers are exact complex numbers; for a real dtype the imaginary parts are zero.
-/
namespace Verif.Su2
open Complex

/-- Two-index operator, row index = bra/out, column index = ket/in, as returned by `get_op`. -/
abbrev Op (m : Nat) := Matrix (Fin m) (Fin m) ℂ

/-- su2.py L124-L125: `-0.5 * (-(m - 1) + i*2)`. -/
noncomputable def szEntry (m i : Nat) : ℝ := -(1/2) * (-((m : ℝ) - 1) + i * 2)

/-- su2.py L145-L147. -/
noncomputable def spEntry (m i : Nat) : ℝ :=
  Real.sqrt ((1/2) * ((m : ℝ) - 1) * ((1/2) * ((m : ℝ) - 1) + 1) -
    (-(1/2) * ((m : ℝ) - 1) + i) * (-(1/2) * ((m : ℝ) - 1) + i + 1))

/-- su2.py L167-L169. -/
noncomputable def smEntry (m i : Nat) : ℝ :=
  Real.sqrt ((1/2) * ((m : ℝ) - 1) * ((1/2) * ((m : ℝ) - 1) + 1) -
    (-(1/2) * ((m : ℝ) - 1) + i) * (-(1/2) * ((m : ℝ) - 1) + i - 1))

/-- su2.py L112-L173 `get_op`. The loops write `res[i,i]`, `res[i,i+1]` for `i < m-1` and
`res[i,i-1]` for `1 ≤ i < m`; all other entries stay zero. `none`: unsupported name (L172). -/
noncomputable def getOp (op : String) (m : Nat) : Option (Op m) :=
  match op with
  | "I" => some (Matrix.of fun i j => if i = j then 1 else 0)
  | "sz" => some (Matrix.of fun i j => if i = j then (szEntry m i : ℂ) else 0)
  | "sp" => some (Matrix.of fun i j => if i.val < m - 1 ∧ j.val = i.val + 1 then (spEntry m i : ℂ) else 0)
  | "sm" => some (Matrix.of fun i j => if 1 ≤ i.val ∧ j.val = i.val - 1 then (smEntry m i : ℂ) else 0)
  | _ => none

/-- The operators of the class `SU2`, su2.py L31-L69; the names are all supported, see `getOp`. -/
noncomputable def SZ (m : Nat) : Op m := Matrix.of fun i j => if i = j then (szEntry m i : ℂ) else 0
noncomputable def SP (m : Nat) : Op m :=
  Matrix.of fun i j => if i.val < m - 1 ∧ j.val = i.val + 1 then (spEntry m i : ℂ) else 0
noncomputable def SM (m : Nat) : Op m :=
  Matrix.of fun i j => if 1 ≤ i.val ∧ j.val = i.val - 1 then (smEntry m i : ℂ) else 0
theorem getOp_names (m : Nat) : getOp "sz" m = some (SZ m) ∧ getOp "sp" m = some (SP m) ∧
    getOp "sm" m = some (SM m) := ⟨rfl, rfl, rfl⟩

/-- su2.py L71-L77 `SY` (complex dtype). -/
noncomputable def SY (m : Nat) : Op m := Matrix.of fun i j => -(1/2) * I * (SP m i j - SM m i j)

/-- su2.py L82-L91 `S`: the component 1 is the x-component. Complex dtype. -/
noncomputable def Svec (m : Nat) : Fin 3 → Op m
  | 0 => SZ m
  | 1 => Matrix.of fun i j => (1/2) * (SP m i j + SM m i j)
  | 2 => Matrix.of fun i j => -(1/2) * I * (SP m i j - SM m i j)

/-- su2.py L94-L110 `SS`: `einsum('ij,ab->iajb', ...)`, entry `[i,a,j,b]`. -/
noncomputable def SS (m : Nat) (xyz : ℂ × ℂ × ℂ) (i a j b : Fin m) : ℂ :=
  xyz.1 * (SZ m i j * SZ m a b) + (1/2) * xyz.2.1 * (SP m i j * SM m a b)
    + (1/2) * xyz.2.2 * (SM m i j * SP m a b)

/-- su2.py L175-L179 `get_rot_op`. -/
def rotOp (m : Nat) : Op m := Matrix.of fun i j => if j.val = m - 1 - i.val then (-1) ^ i.val else 0

/-- models/j1j2.py L19-L25 `_conjugate_op`: `einsum('ki,kl,lj->ij', R, op, R)` on even `r`. -/
def conjugateOp {m : Nat} (op : Op m) (r : Int) : Op m :=
  if r % 2 = 0 then Matrix.of fun i j => ∑ k, ∑ l, rotOp m k i * op k l * rotOp m l j else op

/-- models/j1j2.py L116 and L117: `einsum('ki,kjcb,ca->ijab', R, SS, R)`. -/
def rotFirst {m : Nat} (O : Fin m → Fin m → Fin m → Fin m → ℂ) (i j a b : Fin m) : ℂ :=
  ∑ k, ∑ c, rotOp m k i * O k j c b * rotOp m c a

end Verif.Su2
