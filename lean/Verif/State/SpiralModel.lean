import Verif.Group.Su2Model
import Verif.Lattice.Model
import Mathlib.Analysis.Normed.Algebra.MatrixExponential
import Mathlib.Analysis.SpecialFunctions.Exponential
/-
Model of `gen_3site`, /repo/ipeps/ipeps_1s_Q.py L156-L163. Numbers are exact; `torch.linalg.matrix_exp` is the matrix exponential.
-/
namespace Verif.Spiral
open Verif.Su2
open Verif.Lattice (Vertex)
variable {m : Nat} {ι : Type}

/-- A site tensor: physical index and the four auxiliary ones together. -/
abbrev Site (m : Nat) (ι : Type) := Fin m → ι → ℂ

/-- ipeps_1s_Q.py L159: `matrix_exp((math.pi*q)*(SP-SM))`. -/
noncomputable def rotR (m : Nat) (q : ℝ) : Op m := NormedSpace.exp (((Real.pi * q : ℝ) : ℂ) • (SP m - SM m))

/-- ipeps_1s_Q.py L161: `einsum('sp,puldr->suldr', R, A)`. -/
def applyL (R : Op m) (A : Site m ι) : Site m ι := fun s i => ∑ p, R s p * A p i

/-- ipeps_1s_Q.py L162: `einsum('ps,puldr->suldr', R, A)`. -/
def applyR (R : Op m) (A : Site m ι) : Site m ι := fun s i => ∑ p, R p s * A p i

/-- The dictionary ipeps_1s_Q.py L160-L162. -/
noncomputable def sites (q : ℝ) (A : Site m ι) : List (Vertex × Site m ι) := [((0, 0), A), ((1, 0), applyL (rotR m q) A), ((2, 0), applyR (rotR m q) A)]

/-- The tiling ipeps_1s_Q.py L163. -/
def tiling (c : Vertex) : Vertex := ((c.1 % 3 - c.2) % 3, 0)

/-- The site of the generated state at a vertex (`IPEPS.site`); `none`: KeyError. -/
noncomputable def siteAt (q : ℝ) (A : Site m ι) (c : Vertex) : Option (Site m ι) := ((sites q A).find? (fun e => decide (e.1 = tiling c))).map (·.2)

/-- The cell ipeps_1s_Q.py L163. -/
def cell : Int × Int := (3, 3)

end Verif.Spiral
