import Verif.State.BondModel
import Mathlib.Analysis.RCLike.Basic
import Mathlib.Data.Fintype.Pi
import Mathlib.Data.NNReal.Basic
import Mathlib.Algebra.BigOperators.Pi
/-
Model of `IPEPS_WEIGHTED.gauge`, /repo/ipeps/ipeps.py L672-L761.
Dictionaries are functions of their keys together with the list of keys; `vertexToSite` is total. Matrices are
functions of two indices, their sizes are those of the bonds. `torch.linalg.eigh` and `torch.linalg.svd` are
parameters. Exact arithmetic; square roots of negative numbers and divisions by zero (NaN) are not modelled.
-/
namespace Verif.Gauge
open Verif.Lattice (Vertex)
open Verif.State (Mat)
variable {K : Type} [RCLike K]

/-- The four directions in the order of `dxy_w_to_ind`, ipeps.py L677. -/
inductive Dir
  | up | left | down | right
  deriving DecidableEq

instance : Fintype Dir := ⟨{.up, .left, .down, .right}, fun d => by cases d <;> decide⟩

/-- ipeps.py L677: the direction vectors. -/
def Dir.delta : Dir → Int × Int
  | .up => (0, -1) | .left => (-1, 0) | .down => (0, 1) | .right => (1, 0)

/-- ipeps.py L675 `neg_`. -/
def Dir.neg : Dir → Dir
  | .up => .down | .left => .right | .down => .up | .right => .left

/-- A key `(coord, dxy)` of the dictionary of weights. -/
abbrev Key := Vertex × Dir

/-- What does not change: the keys of `sites`, the tiling, the sizes of physical and auxiliary indices. -/
structure Cell where
  keys : List Vertex
  vts : Vertex → Vertex
  phys : Vertex → Nat
  dim : Vertex → Dir → Nat

/-- ipeps.py L676, L717: `w_rid`, the other end of the bond. -/
def Cell.rev (g : Cell) (k : Key) : Key :=
  (g.vts (k.1.1 + k.2.delta.1, k.1.2 + k.2.delta.2), k.2.neg)

/-- All values of the auxiliary indices of a site. -/
def Cell.legs (g : Cell) (c : Vertex) : Finset (Dir → Nat) := Fintype.piFinset (fun d => Finset.range (g.dim c d))

/-- Sites `A[s,u,l,d,r]` and weights; weights are real. -/
structure Weighted (K : Type) where
  site : Vertex → Nat → (Dir → Nat) → K
  wt : Key → Mat ℝ

/-- `t.abs().max()` of a site. -/
noncomputable def siteMax (g : Cell) (A : Nat → (Dir → Nat) → K) (c : Vertex) : ℝ :=
  ((Finset.range (g.phys c) ×ˢ g.legs c).sup (fun x => ‖A x.1 x.2‖₊) : NNReal)

/-- `a.abs().max()` of a square matrix. -/
noncomputable def matMax (n : Nat) (a : Mat K) : ℝ :=
  ((Finset.range n ×ˢ Finset.range n).sup (fun x => ‖a x.1 x.2‖₊) : NNReal)

/-- ipeps.py L680-L695: the site with its conjugate, all legs but one joined through the element-wise squares of the weights. -/
noncomputable def gram (g : Cell) (st : Weighted K) (k : Key) : Mat K := fun x y =>
  ∑ s ∈ Finset.range (g.phys (g.vts k.1)), ∑ i ∈ g.legs (g.vts k.1), ∑ j ∈ g.legs (g.vts k.1),
    if i k.2 = x ∧ j k.2 = y then
      st.site (g.vts k.1) s i * star (st.site (g.vts k.1) s j) *
        ∏ e ∈ Finset.univ.erase k.2, (((st.wt (g.vts k.1, e) (i e) (j e)) ^ 2 : ℝ) : K)
    else 0

/-- The result of `torch.linalg.eigh`: eigenvalues in ascending order, eigenvectors in columns. -/
abbrev Eigh (K : Type) := Nat → Mat K → (Nat → ℝ) × Mat K

/-- The result of `torch.linalg.svd`: `U`, `S`, `Vh`. -/
abbrev Svd (K : Type) := Nat → Mat K → Mat K × (Nat → ℝ) × Mat K

/-- ipeps.py L701: the matrix given to `eigh`, `-a/a.abs().max()`. -/
noncomputable def eigArg (g : Cell) (st : Weighted K) (k : Key) : Mat K := fun x y =>
  -(gram g st k x y / ((matMax (g.dim (g.vts k.1) k.2) (gram g st k) : ℝ) : K))

/-- ipeps.py L701-L702: the eigenvalues `D` after the change of sign, and `U`. -/
noncomputable def spec (g : Cell) (eig : Eigh K) (st : Weighted K) (k : Key) : (Nat → ℝ) × Mat K :=
  (fun i => -(eig (g.dim (g.vts k.1) k.2) (eigArg g st k)).1 i, (eig (g.dim (g.vts k.1) k.2) (eigArg g st k)).2)

/-- ipeps.py L703: `X= U*D.sqrt()`. -/
noncomputable def gX (g : Cell) (eig : Eigh K) (st : Weighted K) (k : Key) : Mat K := fun x i =>
  (spec g eig st k).2 x i * ((Real.sqrt ((spec g eig st k).1 i) : ℝ) : K)

/-- ipeps.py L704-L705: `D_invsqrt`, zero where `D/D[0]<1.0e-14`. -/
noncomputable def invSqrt (D : Nat → ℝ) (i : Nat) : ℝ := if D i / D 0 < 1 / 10 ^ 14 then 0 else 1 / Real.sqrt (D i)

/-- ipeps.py L706: `Xinv= (U*D_invsqrt).t().conj()`. -/
noncomputable def gXinv (g : Cell) (eig : Eigh K) (st : Weighted K) (k : Key) : Mat K := fun i x =>
  star ((spec g eig st k).2 x i * ((invSqrt (spec g eig st k).1 i : ℝ) : K))

/-- ipeps.py L729-L730: `X[w_id].t() @ weights[w_id] @ X[w_rid]`. -/
noncomputable def bondMat (g : Cell) (eig : Eigh K) (st : Weighted K) (k : Key) : Mat K := fun x y =>
  ∑ a ∈ Finset.range (g.dim k.1 k.2), ∑ b ∈ Finset.range (g.dim k.1 k.2),
    gX g eig st k a x * ((st.wt k a b : ℝ) : K) * gX g eig st (g.rev k) b y

/-- The dictionaries `new_weights` and `Us` of ipeps.py L711; they have the same keys. -/
abbrev Bonds (K : Type) := Key → Option (Mat ℝ × Mat K)

/-- ipeps.py L716-L734: one turn of the loop over bonds. -/
noncomputable def bondStep (g : Cell) (eig : Eigh K) (svd : Svd K) (st : Weighted K) (b : Bonds K) (k : Key) : Bonds K :=
  if (b k).isNone && (b (g.rev k)).isNone then
    let usv := svd (g.dim k.1 k.2) (bondMat g eig st k)
    let S : Mat ℝ := fun x y => if x = y then usv.2.1 x else 0
    Function.update (Function.update b k (some (S, fun x y => usv.1 y x))) (g.rev k) (some (S, usv.2.2))
  else b

/-- The keys in the order of the loops ipeps.py L712-L713. -/
def Cell.bonds (g : Cell) : List Key := g.keys.flatMap (fun c => [Dir.up, Dir.left, Dir.down, Dir.right].map (fun d => (c, d)))

/-- ipeps.py L711-L734: all bonds. -/
noncomputable def allBonds (g : Cell) (eig : Eigh K) (svd : Svd K) (st : Weighted K) : Bonds K :=
  g.bonds.foldl (bondStep g eig svd st) (fun _ => none)

/-- ipeps.py L741: `Us[(coord,d)]@Xs[(coord,d)][1]`. -/
noncomputable def change (g : Cell) (eig : Eigh K) (st : Weighted K) (U : Mat K) (k : Key) : Mat K := fun x y =>
  ∑ z ∈ Finset.range (g.dim k.1 k.2), U x z * gXinv g eig st k z y

/-- The matrix stored in `Us`. -/
def usOf (b : Bonds K) (k : Key) : Mat K := ((b k).map (·.2)).getD (fun _ _ => 0)

/-- The matrix stored in `new_weights`. -/
def wtOf (b : Bonds K) (k : Key) : Mat ℝ := ((b k).map (·.1)).getD (fun _ _ => 0)

/-- ipeps.py L737-L742: `einsum('smnop,um,ln,do,rp->suldr', ...)`. -/
noncomputable def newSite (g : Cell) (eig : Eigh K) (st : Weighted K) (b : Bonds K) (c : Vertex) (s : Nat) (i : Dir → Nat) : K :=
  ∑ m ∈ g.legs c, st.site (g.vts c) s m * ∏ d, change g eig st (usOf b (c, d)) (c, d) (i d) (m d)

/-- ipeps.py L709-L745 `_update_weights_and_sites`. `none`: sizes of a bond do not match or a key is missing. -/
noncomputable def round (g : Cell) (eig : Eigh K) (svd : Svd K) (st : Weighted K) : Option (Weighted K) :=
  open Classical in
  if (∀ c ∈ g.keys, ∀ d, g.dim c d = g.dim (g.rev (c, d)).1 d.neg) ∧ (∀ c ∈ g.keys, ∀ d, (allBonds g eig svd st (c, d)).isSome) then
    some ⟨newSite g eig st (allBonds g eig svd st), wtOf (allBonds g eig svd st)⟩
  else none

/-- ipeps.py L755-L756: the mean distance between the diagonals of old and new weights. -/
noncomputable def distW (g : Cell) (w' w : Key → Mat ℝ) : ℝ :=
  (g.bonds.map (fun k => Real.sqrt (∑ x ∈ Finset.range (g.dim k.1 k.2), (w' k x x - w k x x) ^ 2))).sum / g.keys.length

/-- ipeps.py L749-L757: the loop; `n` is the number of rounds that are still allowed. -/
noncomputable def loop (g : Cell) (eig : Eigh K) (svd : Svd K) (tol : ℝ) : Nat → Weighted K → Option (Weighted K)
  | 0, st => some st
  | n + 1, st => do
    let st' ← round g eig svd st
    if tol < distW g st'.wt st.wt then loop g eig svd tol n st' else some st'

/-- ipeps.py L748: `t/t.abs().max()`. -/
noncomputable def scaled (g : Cell) (st : Weighted K) : Weighted K :=
  ⟨fun c s i => st.site c s i / ((siteMax g (st.site c) c : ℝ) : K), st.wt⟩

/-- ipeps.py L672-L761 `gauge`; the list of distances has one entry before the first round. -/
noncomputable def gauge (g : Cell) (eig : Eigh K) (svd : Svd K) (tol : ℝ) (maxIter : Nat) (st : Weighted K) : Option (Weighted K) :=
  loop g eig svd tol (maxIter - 1) (scaled g st)

end Verif.Gauge
