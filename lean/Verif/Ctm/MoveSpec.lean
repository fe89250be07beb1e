import Verif.Ctm.MoveModel
/-
Specification of a lattice tiling and of an environment whose tensors fit together.
-/
namespace Verif.Ctm.Spec
variable {K : Type} [RCLike K]

/-- The map to the unit cell is that of a tiling: equivalent vertices have equivalent neighbours, the keys of `sites` are the
representatives. -/
structure Tiling (st : State K) : Prop where
  shift : ∀ c v : Coord, st.vts ((st.vts c).1 + v.1, (st.vts c).2 + v.2) = st.vts (c.1 + v.1, c.2 + v.2)
  mem : ∀ c, st.vts c ∈ st.keys
  fix : ∀ c ∈ st.keys, st.vts c = c
  nodup : st.keys.Nodup

/-- Sizes of all bonds. `U c`, `L c`: the bonds of the ket above and left of vertex `c`; `p c`: its physical index. `eu c`,
`ed c`: the bonds of the upper and lower environment row to the left of `c`; `el c`, `er c`: those of the left and right
environment column above `c`. -/
structure Dims where
  p : Coord → Nat
  U : Coord → Nat
  L : Coord → Nat
  eu : Coord → Nat
  el : Coord → Nat
  ed : Coord → Nat
  er : Coord → Nat

/-- The vertex below and the vertex to the right. -/
def dn (c : Coord) : Coord := (c.1, c.2 + 1)
def rt (c : Coord) : Coord := (c.1 + 1, c.2)

/-- The dictionary entry exists and has the given shape. -/
def Has (o : Option (Tensor K)) (sh : List Nat) : Prop := ∃ t, o = some t ∧ t.shape = sh

/-- Sizes are positive and the same for equivalent vertices. -/
def Sizes (st : State K) (f : Coord → Nat) : Prop := (∀ c, 0 < f c) ∧ ∀ c, f (st.vts c) = f c

/-- The sites of the state fit together: bond below = upper bond of the site below, and so on. -/
structure FitsState (D : Dims) (st : State K) : Prop where
  site : ∀ c, Has (st.site c) [D.p c, D.U c, D.L c, D.U (dn c), D.L (rt c)]
  p : Sizes st D.p
  U : Sizes st D.U
  L : Sizes st D.L

/-- All corners and half-row/column tensors are present and all bonds match (index order of env.py L57-L71). -/
structure FitsEnv (D : Dims) (st : State K) (env : Env K) : Prop where
  lu : ∀ c, Has (env.C (st.vts c, (-1, -1))) [D.el c, D.eu c]
  ru : ∀ c, Has (env.C (st.vts c, (1, -1))) [D.eu (rt c), D.er c]
  rd : ∀ c, Has (env.C (st.vts c, (1, 1))) [D.er (dn c), D.ed (rt c)]
  ld : ∀ c, Has (env.C (st.vts c, (-1, 1))) [D.el (dn c), D.ed c]
  tu : ∀ c, Has (env.T (st.vts c, (0, -1))) [D.eu c, D.U c * D.U c, D.eu (rt c)]
  tl : ∀ c, Has (env.T (st.vts c, (-1, 0))) [D.el c, D.el (dn c), D.L c * D.L c]
  td : ∀ c, Has (env.T (st.vts c, (0, 1))) [D.U (dn c) * D.U (dn c), D.ed c, D.ed (rt c)]
  tr : ∀ c, Has (env.T (st.vts c, (1, 0))) [D.er c, D.L (rt c) * D.L (rt c), D.er (dn c)]
  eu : Sizes st D.eu
  el : Sizes st D.el
  ed : Sizes st D.ed
  er : Sizes st D.er

/-- Shapes of the results of a decomposition backend: `k >= 1` values. -/
def Backend (svd : Tensor K → Nat → Svd K) : Prop :=
  ∀ M chi m n, M.shape = [m, n] → 0 < m → 0 < n → ∃ k, 0 < k ∧ (svd M chi).U.shape = [m, k] ∧ (svd M chi).S.length = k ∧ (svd M chi).V.shape = [n, k]

/-- The backend keeps at most `chi` values. -/
def Truncating (svd : Tensor K → Nat → Svd K) : Prop := ∀ M chi, (svd M chi).S.length ≤ chi

/-- The environment bonds parallel to the edge of direction `d`. -/
def Dims.edge (D : Dims) : Dir → Coord → Nat
  | .up => D.eu
  | .left => D.el
  | .down => D.ed
  | .right => D.er

/-- `B` is `A` divided by a positive number, with largest entry of modulus 1 (`inf`) or squared moduli summing to 1. -/
structure Normalised (inf : Bool) (A B : Tensor K) : Prop where
  shape : B.shape = A.shape
  scale : ∃ s : ℝ, 0 < s ∧ ∀ idx, Tensor.InB A.shape idx → B.val idx * (s : K) = A.val idx
  unitInf : inf = true → (∀ idx, Tensor.InB A.shape idx → ‖B.val idx‖ ≤ 1) ∧ ∃ idx, Tensor.InB A.shape idx ∧ ‖B.val idx‖ = 1
  unit2 : inf = false → ((Tensor.indices A.shape).map (fun idx => ‖B.val idx‖ ^ 2)).sum = 1

/-- The two corners and the half-row tensor replaced by a move: those adjacent to the edge of direction `d`. -/
def Replaced (d : Dir) (v : Coord) : Prop :=
  match d with
  | .up => v = (-1, -1) ∨ v = (0, -1) ∨ v = (1, -1)
  | .left => v = (-1, -1) ∨ v = (-1, 0) ∨ v = (-1, 1)
  | .down => v = (-1, 1) ∨ v = (0, 1) ∨ v = (1, 1)
  | .right => v = (1, -1) ∨ v = (1, 0) ∨ v = (1, 1)

end Verif.Ctm.Spec
