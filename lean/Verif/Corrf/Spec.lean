import Verif.Ctm.MoveSpec
import Verif.Corrf.Model
/-
Specification of correlation functions: a strip of sites between two edges of the environment. An operator `o` is given by its matrix elements
`o s' s`, row (bra) index first, so that `o` acts on the ket: `sum_{s,s'} conj(a[s']) o[s',s] a[s]`.
-/
namespace Verif.Corrf.Spec
open Ctm Ctm.Spec
variable {K : Type} [RCLike K]

/-- The tensors around every vertex: corners, half-row/column tensors, on-site tensor. -/
structure Tensors (K : Type) where
  lu : Coord → Tensor K
  ru : Coord → Tensor K
  rd : Coord → Tensor K
  ld : Coord → Tensor K
  tu : Coord → Tensor K
  tl : Coord → Tensor K
  td : Coord → Tensor K
  tr : Coord → Tensor K
  a : Coord → Tensor K

/-- `N` are the tensors stored in the state and its environment. -/
structure Reads (st : State K) (env : Env K) (N : Tensors K) : Prop where
  lu : ∀ c, env.C (st.vts c, (-1, -1)) = some (N.lu c)
  ru : ∀ c, env.C (st.vts c, (1, -1)) = some (N.ru c)
  rd : ∀ c, env.C (st.vts c, (1, 1)) = some (N.rd c)
  ld : ∀ c, env.C (st.vts c, (-1, 1)) = some (N.ld c)
  tu : ∀ c, env.T (st.vts c, (0, -1)) = some (N.tu c)
  tl : ∀ c, env.T (st.vts c, (-1, 0)) = some (N.tl c)
  td : ∀ c, env.T (st.vts c, (0, 1)) = some (N.td c)
  tr : ∀ c, env.T (st.vts c, (1, 0)) = some (N.tr c)
  a : ∀ c, st.sites (st.vts c) = some (N.a c)

/-- The vertex `n` steps from `c` in direction `d`. -/
def ahead (d : Dir) (c : Coord) (n : Nat) : Coord := (c.1 + n * d.vec.1, c.2 + n * d.vec.2)

/-- Matrix elements of an operator, row first. -/
abbrev Op (K : Type) := Nat → Nat → K

def one : Op K := fun i j => if i = j then 1 else 0

/-- The matrix with a single one in row `i` and column `j`. -/
def unit (i j : Nat) : Op K := fun k l => if k = i ∧ l = j then 1 else 0

/-- The operator stored in a tensor of rank two, `op[s',s]`, and its transpose. -/
def ofTensor (t : Tensor K) : Op K := fun i j => t.val [i, j]
def transposed (t : Tensor K) : Op K := fun i j => t.val [j, i]

/-- Bra and ket of a site with operator `o` in between. The four double-layer indices are pairs (ket, bra), ket first. -/
def layer (a : Tensor K) (o : Op K) (u l d r : Nat) : K :=
  ∑ s' ∈ Finset.range (a.size 0), ∑ s ∈ Finset.range (a.size 0),
    star (a.val [s', u % a.size 1, l % a.size 2, d % a.size 3, r % a.size 4]) * o s' s *
      a.val [s, u / a.size 1, l / a.size 2, d / a.size 3, r / a.size 4]

/-- The part of a strip on one side of a cut: one index of the upper (left) environment row, one double-layer index, one index of the lower
(right) environment row. -/
abbrev Vec (K : Type) := Nat → Nat → Nat → K

/-- Sizes of the bonds between a site and the one before it, moving in direction `d`. -/
def cut (D : Dims) (d : Dir) (c : Coord) : Nat × Nat × Nat :=
  match d with
  | .right => (D.eu c, D.L c * D.L c, D.ed c)
  | .left => (D.eu (rt c), D.L (rt c) * D.L (rt c), D.ed (rt c))
  | .down => (D.el c, D.U c * D.U c, D.er c)
  | .up => (D.el (dn c), D.U (dn c) * D.U (dn c), D.er (dn c))

/-- Sizes of the other two bonds of the site: to the upper and lower, or left and right, environment. -/
def sides (D : Dims) (d : Dir) (c : Coord) : Nat × Nat :=
  match d with
  | .right | .left => (D.U c * D.U c, D.U (dn c) * D.U (dn c))
  | .down | .up => (D.L c * D.L c, D.L (rt c) * D.L (rt c))

/-- Upper (left) half-row tensor: before, towards the site, after. -/
def first (N : Tensors K) (d : Dir) (c : Coord) (x m x' : Nat) : K :=
  match d with
  | .right => (N.tu c).val [x, m, x']
  | .left => (N.tu c).val [x', m, x]
  | .down => (N.tl c).val [x, x', m]
  | .up => (N.tl c).val [x', x, m]

/-- Lower (right) half-row tensor: before, towards the site, after. -/
def second (N : Tensors K) (d : Dir) (c : Coord) (z n z' : Nat) : K :=
  match d with
  | .right => (N.td c).val [n, z, z']
  | .left => (N.td c).val [n, z', z]
  | .down => (N.tr c).val [z, n, z']
  | .up => (N.tr c).val [z', n, z]

/-- The site with an operator: before, towards `first`, towards `second`, after. -/
def middle (N : Tensors K) (d : Dir) (c : Coord) (o : Op K) (y m n y' : Nat) : K :=
  match d with
  | .right => layer (N.a c) o m y n y'
  | .left => layer (N.a c) o m y' n y
  | .down => layer (N.a c) o y m y' n
  | .up => layer (N.a c) o y' m y n

/-- One more site with operator `o`. -/
def step (N : Tensors K) (D : Dims) (d : Dir) (c : Coord) (o : Op K) (E : Vec K) : Vec K := fun x' y' z' =>
  ∑ x ∈ Finset.range (cut D d c).1, ∑ y ∈ Finset.range (cut D d c).2.1, ∑ z ∈ Finset.range (cut D d c).2.2,
    ∑ m ∈ Finset.range (sides D d c).1, ∑ n ∈ Finset.range (sides D d c).2,
      E x y z * first N d c x m x' * middle N d c o y m n y' * second N d c z n z'

/-- The environment beyond vertex `c` in direction `d`. -/
def edge (N : Tensors K) (D : Dims) (d : Dir) (c : Coord) : Vec K := fun x y z =>
  match d with
  | .up => ∑ p ∈ Finset.range (D.eu c), ∑ q ∈ Finset.range (D.eu (rt c)), (N.lu c).val [x, p] * (N.tu c).val [p, y, q] * (N.ru c).val [q, z]
  | .left => ∑ p ∈ Finset.range (D.el c), ∑ q ∈ Finset.range (D.el (dn c)), (N.lu c).val [p, x] * (N.tl c).val [p, q, y] * (N.ld c).val [q, z]
  | .down => ∑ p ∈ Finset.range (D.ed c), ∑ q ∈ Finset.range (D.ed (rt c)), (N.ld c).val [x, p] * (N.td c).val [y, p, q] * (N.rd c).val [z, q]
  | .right => ∑ p ∈ Finset.range (D.er c), ∑ q ∈ Finset.range (D.er (dn c)), (N.ru c).val [x, p] * (N.tr c).val [p, y, q] * (N.rd c).val [q, z]

/-- Dot product over a cut. -/
def dot (s : Nat × Nat × Nat) (E F : Vec K) : K :=
  ∑ x ∈ Finset.range s.1, ∑ y ∈ Finset.range s.2.1, ∑ z ∈ Finset.range s.2.2, E x y z * F x y z

/-- The sites `c`, `c + d`, ... with the given operators. -/
def grow (N : Tensors K) (D : Dims) (d : Dir) : Coord → List (Op K) → Vec K → Vec K
  | _, [], E => E
  | c, o :: os, E => grow N D d (ahead d c 1) os (step N D d c o E)

/-- The whole strip: the environment before `c`, the sites `c`, `c + d`, ... with the operators `os`, the environment after the last one. -/
def network (N : Tensors K) (D : Dims) (d : Dir) (c : Coord) (os : List (Op K)) : K :=
  dot (cut D d (ahead d c os.length)) (grow N D d c os (edge N D (rev d) c)) (edge N D d (ahead d c (os.length - 1)))

/-- The normalisation: `n` sites without operators. -/
def norm (N : Tensors K) (D : Dims) (d : Dir) (c : Coord) (n : Nat) : K := network N D d c (List.replicate n one)

/-- `o1` at `c` and `o2` at distance `r + 1`. -/
def twoPoint (N : Tensors K) (D : Dims) (d : Dir) (c : Coord) (o1 o2 : Op K) (r : Nat) : K :=
  network N D d c (o1 :: List.replicate r one ++ [o2])

/-- Matrix elements of a two-site operator: `o s1' s2' s1 s2`, rows (bra) first. -/
abbrev Op2 (K : Type) := Nat → Nat → Nat → Nat → K

/-- The operator stored in a tensor of rank four with the rows and columns exchanged. -/
def transposed2 (t : Tensor K) : Op2 K := fun s1' s2' s1 s2 => t.val [s1, s2, s1', s2']

/-- Two more sites, `c` and `c + d`, with a two-site operator `o`: the sum over its matrix elements of the strip with single-entry operators. -/
def step2 (N : Tensors K) (D : Dims) (d : Dir) (c : Coord) (o : Op2 K) (E : Vec K) : Vec K := fun x y z =>
  ∑ s1' ∈ Finset.range (D.p c), ∑ s1 ∈ Finset.range (D.p c), ∑ s2' ∈ Finset.range (D.p (ahead d c 1)), ∑ s2 ∈ Finset.range (D.p (ahead d c 1)),
    o s1' s2' s1 s2 * step N D d (ahead d c 1) (unit s2' s2) (step N D d c (unit s1' s1) E) x y z

/-- The matrix `M` of size `m` is the product of the factors returned for it. -/
structure Factors (m : Nat) (M : Tensor K) (r : Svd K) : Prop where
  U : r.U.shape = [m, m]
  S : r.S.length = m
  V : r.V.shape = [m, m]
  prod : ∀ i < m, ∀ j < m, M.val [i, j] = ∑ q ∈ Finset.range m, r.U.val [i, q] * ((r.S.getD q 0 : ℝ) : K) * star (r.V.val [j, q])

/-- A singular value decomposition: moreover the columns of `U` and of `V` are orthonormal and the values are not negative. -/
structure IsSvd (m : Nat) (M : Tensor K) (r : Svd K) : Prop extends Factors m M r where
  nonneg : ∀ s ∈ r.S, 0 ≤ s
  orthoU : ∀ q < m, ∀ q' < m, ∑ i ∈ Finset.range m, star (r.U.val [i, q]) * r.U.val [i, q'] = if q = q' then 1 else 0
  orthoV : ∀ q < m, ∀ q' < m, ∑ i ∈ Finset.range m, star (r.V.val [i, q]) * r.V.val [i, q'] = if q = q' then 1 else 0

/-- The operator `op[s1,s2,s1',s2']` as a matrix from the second site to the first: row `(s1,s1')`, column `(s2,s2')`. -/
def acrossMatrix (p : Nat) (op : Tensor K) : Tensor K := ⟨[p ^ 2, p ^ 2], fun idx =>
  op.val [idx.getD 0 0 / p, idx.getD 1 0 / p, idx.getD 0 0 % p, idx.getD 1 0 % p]⟩

/-! ### Strips of two rows -/

/-- The site below `c` (strips growing to the right or left) or to its right (down, up). -/
def beside (d : Dir) (c : Coord) : Coord :=
  match d with
  | .right | .left => dn c
  | .down | .up => rt c

/-- The part of a strip of two rows on one side of a cut. -/
abbrev Vec4 (K : Type) := Nat → Nat → Nat → Nat → K

/-- Sizes of the bonds between the two sites and those before them. -/
def cut2 (D : Dims) (d : Dir) (c : Coord) : Nat × Nat × Nat × Nat := ((cut D d c).1, (cut D d c).2.1, (cut D d (beside d c)).2.1, (cut D d (beside d c)).2.2)

/-- The sites `c` and `beside d c` with operators `o` and `o'`; `k` is the bond between them. -/
def wide (N : Tensors K) (D : Dims) (d : Dir) (c : Coord) (o o' : Op K) (E : Vec4 K) : Vec4 K := fun x' y' w' z' =>
  ∑ x ∈ Finset.range (cut2 D d c).1, ∑ y ∈ Finset.range (cut2 D d c).2.1, ∑ w ∈ Finset.range (cut2 D d c).2.2.1, ∑ z ∈ Finset.range (cut2 D d c).2.2.2,
    ∑ m ∈ Finset.range (sides D d c).1, ∑ k ∈ Finset.range (sides D d c).2, ∑ n ∈ Finset.range (sides D d (beside d c)).2,
      E x y w z * first N d c x m x' * middle N d c o y m k y' * middle N d (beside d c) o' w k n w' * second N d (beside d c) z n z'

/-- The environment beyond `c` and `beside d c` in direction `d`. -/
def edge2 (N : Tensors K) (D : Dims) (d : Dir) (c : Coord) : Vec4 K := fun x y w z =>
  match d with
  | .up => ∑ p ∈ Finset.range (D.eu c), ∑ q ∈ Finset.range (D.eu (rt c)), ∑ r ∈ Finset.range (D.eu (rt (rt c))),
      (N.lu c).val [x, p] * (N.tu c).val [p, y, q] * (N.tu (rt c)).val [q, w, r] * (N.ru (rt c)).val [r, z]
  | .left => ∑ p ∈ Finset.range (D.el c), ∑ q ∈ Finset.range (D.el (dn c)), ∑ r ∈ Finset.range (D.el (dn (dn c))),
      (N.lu c).val [p, x] * (N.tl c).val [p, q, y] * (N.tl (dn c)).val [q, r, w] * (N.ld (dn c)).val [r, z]
  | .down => ∑ p ∈ Finset.range (D.ed c), ∑ q ∈ Finset.range (D.ed (rt c)), ∑ r ∈ Finset.range (D.ed (rt (rt c))),
      (N.ld c).val [x, p] * (N.td c).val [y, p, q] * (N.td (rt c)).val [w, q, r] * (N.rd (rt c)).val [z, r]
  | .right => ∑ p ∈ Finset.range (D.er c), ∑ q ∈ Finset.range (D.er (dn c)), ∑ r ∈ Finset.range (D.er (dn (dn c))),
      (N.ru c).val [x, p] * (N.tr c).val [p, y, q] * (N.tr (dn c)).val [q, w, r] * (N.rd (dn c)).val [r, z]

/-- Dot product over a cut. -/
def dot2 (s : Nat × Nat × Nat × Nat) (E F : Vec4 K) : K :=
  ∑ x ∈ Finset.range s.1, ∑ y ∈ Finset.range s.2.1, ∑ w ∈ Finset.range s.2.2.1, ∑ z ∈ Finset.range s.2.2.2, E x y w z * F x y w z

/-- The two sites with a two-site operator. -/
def wide2 (N : Tensors K) (D : Dims) (d : Dir) (c : Coord) (o : Op2 K) (E : Vec4 K) : Vec4 K := fun x y w z =>
  ∑ s1' ∈ Finset.range (D.p c), ∑ s1 ∈ Finset.range (D.p c), ∑ s2' ∈ Finset.range (D.p (beside d c)), ∑ s2 ∈ Finset.range (D.p (beside d c)),
    o s1' s2' s1 s2 * wide N D d c (unit s1' s1) (unit s2' s2) E x y w z

/-- The operator stored in a tensor of rank four, `op[s1',s2',s1,s2]`. -/
def ofTensor2 (t : Tensor K) : Op2 K := fun s1' s2' s1 s2 => t.val [s1', s2', s1, s2]

/-- The strip of two sites, one after the other, with a two-site operator. -/
def pairNetwork (N : Tensors K) (D : Dims) (d : Dir) (c : Coord) (o : Op2 K) : K :=
  dot (cut D d (ahead d c 2)) (step2 N D d c o (edge N D (rev d) c)) (edge N D d (ahead d c 1))

/-- The strip of two sites, one beside the other, with a two-site operator. -/
def wideNetwork (N : Tensors K) (D : Dims) (d : Dir) (c : Coord) (o : Op2 K) : K :=
  dot2 (cut2 D d (ahead d c 1)) (wide2 N D d c o (edge2 N D (rev d) c)) (edge2 N D d c)

/-- The same without an operator. -/
def wideNorm (N : Tensors K) (D : Dims) (d : Dir) (c : Coord) : K :=
  dot2 (cut2 D d (ahead d c 1)) (wide N D d c one one (edge2 N D (rev d) c)) (edge2 N D d c)

/-- The factors the backend returns for the matrix of `op` are square, with one singular value per column. -/
def Shaped (svd : Tensor K → Nat → Svd K) (p : Nat) (op : Tensor K) : Prop :=
  ∀ M, M.shape = [p ^ 2, p ^ 2] → (∀ i < p ^ 2, ∀ j < p ^ 2, M.val [i, j] = (acrossMatrix p op).val [i, j]) →
    (svd M (p ^ 2)).U.shape = [p ^ 2, p ^ 2] ∧ (svd M (p ^ 2)).S.length = p ^ 2 ∧ (svd M (p ^ 2)).V.shape = [p ^ 2, p ^ 2]

/-- The backend's decomposition of the matrix of `op` has the matrix as its product. -/
def Factorises (svd : Tensor K → Nat → Svd K) (p : Nat) (op : Tensor K) : Prop :=
  ∀ M, M.shape = [p ^ 2, p ^ 2] → (∀ i < p ^ 2, ∀ j < p ^ 2, M.val [i, j] = (acrossMatrix p op).val [i, j]) → Factors (p ^ 2) M (svd M (p ^ 2))

/-- The backend's decomposition of the matrix of `op` is a singular value decomposition. -/
def Decomposes (svd : Tensor K → Nat → Svd K) (p : Nat) (op : Tensor K) : Prop :=
  ∀ M, M.shape = [p ^ 2, p ^ 2] → (∀ i < p ^ 2, ∀ j < p ^ 2, M.val [i, j] = (acrossMatrix p op).val [i, j]) → IsSvd (p ^ 2) M (svd M (p ^ 2))

/-- The matrix of `op` is `t` times an isometry. -/
def Isometric (p : Nat) (op : Tensor K) (t : ℝ) : Prop :=
  ∀ j < p ^ 2, ∀ j' < p ^ 2, ∑ i ∈ Finset.range (p ^ 2), star ((acrossMatrix p op).val [i, j]) * (acrossMatrix p op).val [i, j'] = if j = j' then ((t ^ 2 : ℝ) : K) else 0

/-- A two-site operator `o1` on `c`, `c + d` and another one `o2` behind `r` further sites. -/
def pairTwoPoint (N : Tensors K) (D : Dims) (d : Dir) (c : Coord) (o1 o2 : Op2 K) (r : Nat) : K :=
  dot (cut D d (ahead d c (r + 4))) (step2 N D d (ahead d c (r + 2)) o2 (grow N D d (ahead d c 2) (List.replicate r one) (step2 N D d c o1 (edge N D (rev d) c))))
    (edge N D d (ahead d c (r + 3)))

/-- `n` pairs of sites side by side without operators, from `c` on. -/
def wideGrow (N : Tensors K) (D : Dims) (d : Dir) : Coord → Nat → Vec4 K → Vec4 K
  | _, 0, E => E
  | c, n + 1, E => wideGrow N D d (ahead d c 1) n (wide N D d c one one E)

/-- The strip of two rows and `n` columns without operators. -/
def wideNorms (N : Tensors K) (D : Dims) (d : Dir) (c : Coord) (n : Nat) : K :=
  dot2 (cut2 D d (ahead d c n)) (wideGrow N D d c n (edge2 N D (rev d) c)) (edge2 N D d (ahead d c (n - 1)))

/-- The strip of two rows with `o1` on the first pair and `o2` on the pair at distance `r + 1`. -/
def wideTwoPoint (N : Tensors K) (D : Dims) (d : Dir) (c : Coord) (o1 o2 : Op2 K) (r : Nat) : K :=
  dot2 (cut2 D d (ahead d c (r + 2))) (wide2 N D d (ahead d c (r + 1)) o2 (wideGrow N D d (ahead d c 1) r (wide2 N D d c o1 (edge2 N D (rev d) c))))
    (edge2 N D d (ahead d c (r + 1)))

/-- `o` is the product of the backend's factors of the matrix of `op`, without the singular values. -/
def Flattened (svd : Tensor K → Nat → Svd K) (p : Nat) (op : Tensor K) (o : Op2 K) : Prop :=
  ∀ M, M.shape = [p ^ 2, p ^ 2] → (∀ i < p ^ 2, ∀ j < p ^ 2, M.val [i, j] = (acrossMatrix p op).val [i, j]) →
    ∀ s1' < p, ∀ s1 < p, ∀ s2' < p, ∀ s2 < p, o s1' s2' s1 s2 =
      ∑ q ∈ Finset.range (p ^ 2), (svd M (p ^ 2)).U.val [s1 * p + s1', q] * star ((svd M (p ^ 2)).V.val [s2 * p + s2', q])

end Verif.Corrf.Spec
