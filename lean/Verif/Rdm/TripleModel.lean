import Verif.Rdm.Model
/-
Model of the expectation values of three-site matrix-product operators, /repo/ctm/generic/rdm.py: `eval_mpo_rdm1x3_oe` (L1789-L1883) and
`eval_mpo_rdm3x1_oe` (L1885-L1960). `contract_with_unroll` is `einsum`, whatever `unroll` is; device moves are left out.
-/
namespace Verif.Rdm
open Tensor Ctm
variable {K : Type} [RCLike K]

/-- Environment and sites of three vertices in a row, named as in L1833-L1851; `x` is the second column, `z` the third (`2x` in the source). -/
structure Row3 (K : Type) where
  C1 : Tensor K
  C2 : Tensor K
  C3 : Tensor K
  C4 : Tensor K
  T1 : Tensor K
  T1x : Tensor K
  T1z : Tensor K
  T2 : Tensor K
  T3 : Tensor K
  T3x : Tensor K
  T3z : Tensor K
  T4 : Tensor K
  a : Tensor K
  ax : Tensor K
  az : Tensor K

/-- L1833-L1851. -/
def row3 (st : State K) (env : Env K) (c : Coord) : Option (Row3 K) := do
  let x := (c.1 + 1, c.2)
  let z := (c.1 + 2, c.2)
  let a ← st.site c
  let ax ← st.site x
  let az ← st.site z
  let C1 ← env.C (st.vts c, (-1, -1))
  let C2 ← env.C (st.vts z, (1, -1))
  let C3 ← env.C (st.vts z, (1, 1))
  let C4 ← env.C (st.vts c, (-1, 1))
  let T1 ← env.T (st.vts c, (0, -1))
  let T1x ← env.T (st.vts x, (0, -1))
  let T1z ← env.T (st.vts z, (0, -1))
  let T2 ← env.T (st.vts z, (1, 0))
  let T3 ← env.T (st.vts c, (0, 1))
  let T3x ← env.T (st.vts x, (0, 1))
  let T3z ← env.T (st.vts z, (0, 1))
  let T4 ← env.T (st.vts c, (-1, 0))
  return ⟨C1, C2, C3, C4, T1, T1x, T1z, T2, T3, T3x, T3z, T4, a, ax, az⟩

/-- L1857-L1864: the pairs (ket, bra) are split. -/
def Row3.split (e : Row3 K) : Option (Row3 K) := do
  let T1 ← view [e.T1.size 0, e.a.size 1, e.a.size 1, e.T1.size 2] e.T1
  let T1x ← view [e.T1x.size 0, e.ax.size 1, e.ax.size 1, e.T1x.size 2] e.T1x
  let T1z ← view [e.T1z.size 0, e.az.size 1, e.az.size 1, e.T1z.size 2] e.T1z
  let T2 ← view [e.T2.size 0, e.az.size 4, e.az.size 4, e.T2.size 2] e.T2
  let T3 ← view [e.a.size 3, e.a.size 3, e.T3.size 1, e.T3.size 2] e.T3
  let T3x ← view [e.ax.size 3, e.ax.size 3, e.T3x.size 1, e.T3x.size 2] e.T3x
  let T3z ← view [e.az.size 3, e.az.size 3, e.T3z.size 1, e.T3z.size 2] e.T3z
  let T4 ← view [e.T4.size 0, e.T4.size 1, e.a.size 2, e.a.size 2] e.T4
  return { e with T1 := T1, T1x := T1x, T1z := T1z, T2 := T2, T3 := T3, T3x := T3x, T3z := T3z, T4 := T4 }

/-- L1866-L1871. The upper index of the third ket carries the label 9 of the bra. -/
def Row3.operands (t : Row3 K) (m0 m1 m2 : Tensor K) : List (Tensor K × List Nat) :=
  [(t.C1, [0, 1]), (t.T1, [1, 2, 3, 4]), (t.T1x, [4, 5, 6, 7]), (t.T1z, [7, 8, 9, 10]), (t.C2, [10, 11]),
    (t.T4, [0, 26, 12, 16]), (t.a, [100, 2, 12, 20, 13]), (t.a.conj, [101, 3, 16, 21, 17]),
    (t.ax, [102, 5, 13, 22, 14]), (t.ax.conj, [103, 6, 17, 23, 18]),
    (t.az, [104, 9, 14, 24, 15]), (t.az.conj, [105, 9, 18, 25, 19]), (t.T2, [11, 15, 19, 27]),
    (t.C4, [26, 28]), (t.T3, [20, 21, 28, 29]), (t.T3x, [22, 23, 29, 30]), (t.T3z, [24, 25, 30, 31]), (t.C3, [27, 31]),
    (m0, [300, 100, 200, 101]), (m1, [200, 102, 201, 103]), (m2, [201, 104, 302, 105])]

/-- L1789-L1883 `eval_mpo_rdm1x3_oe`. -/
def evalMpo1x3 (st : State K) (env : Env K) (c : Coord) (mpo : List (Tensor K)) : Option (Tensor K) := do
  match mpo with
  | [m0, m1, m2] =>
    let e ← row3 st env c
    let t ← e.split
    einsum (t.operands m0 m1 m2) []
  | _ => none

/-- Environment and sites of three vertices in a column, L1909-L1924; `y` is the second row, `z` the third (`2y` in the source). -/
structure Col3 (K : Type) where
  C1 : Tensor K
  C2 : Tensor K
  C3 : Tensor K
  C4 : Tensor K
  T1 : Tensor K
  T2 : Tensor K
  T2y : Tensor K
  T2z : Tensor K
  T3 : Tensor K
  T4 : Tensor K
  T4y : Tensor K
  T4z : Tensor K
  a : Tensor K
  ay : Tensor K
  az : Tensor K

/-- L1909-L1924. -/
def col3 (st : State K) (env : Env K) (c : Coord) : Option (Col3 K) := do
  let y := (c.1, c.2 + 1)
  let z := (c.1, c.2 + 2)
  let a ← st.site c
  let ay ← st.site y
  let az ← st.site z
  let C1 ← env.C (st.vts c, (-1, -1))
  let C2 ← env.C (st.vts c, (1, -1))
  let C3 ← env.C (st.vts z, (1, 1))
  let C4 ← env.C (st.vts z, (-1, 1))
  let T1 ← env.T (st.vts c, (0, -1))
  let T2 ← env.T (st.vts c, (1, 0))
  let T2y ← env.T (st.vts y, (1, 0))
  let T2z ← env.T (st.vts z, (1, 0))
  let T3 ← env.T (st.vts z, (0, 1))
  let T4 ← env.T (st.vts c, (-1, 0))
  let T4y ← env.T (st.vts y, (-1, 0))
  let T4z ← env.T (st.vts z, (-1, 0))
  return ⟨C1, C2, C3, C4, T1, T2, T2y, T2z, T3, T4, T4y, T4z, a, ay, az⟩

/-- L1929-L1936. The third right tensor is split by the right bond of the second site. -/
def Col3.split (e : Col3 K) : Option (Col3 K) := do
  let T1 ← view [e.T1.size 0, e.a.size 1, e.a.size 1, e.T1.size 2] e.T1
  let T2 ← view [e.T2.size 0, e.a.size 4, e.a.size 4, e.T2.size 2] e.T2
  let T2y ← view [e.T2y.size 0, e.ay.size 4, e.ay.size 4, e.T2y.size 2] e.T2y
  let T2z ← view [e.T2z.size 0, e.ay.size 4, e.ay.size 4, e.T2z.size 2] e.T2z
  let T3 ← view [e.az.size 3, e.az.size 3, e.T3.size 1, e.T3.size 2] e.T3
  let T4 ← view [e.T4.size 0, e.T4.size 1, e.a.size 2, e.a.size 2] e.T4
  let T4y ← view [e.T4y.size 0, e.T4y.size 1, e.ay.size 2, e.ay.size 2] e.T4y
  let T4z ← view [e.T4z.size 0, e.T4z.size 1, e.az.size 2, e.az.size 2] e.T4z
  return { e with T1 := T1, T2 := T2, T2y := T2y, T2z := T2z, T3 := T3, T4 := T4, T4y := T4y, T4z := T4z }

/-- L1938-L1942. -/
def Col3.operands (t : Col3 K) (m0 m1 m2 : Tensor K) : List (Tensor K × List Nat) :=
  [(t.C1, [0, 1]), (t.T1, [1, 2, 5, 9]), (t.C2, [9, 8]),
    (t.T4, [0, 24, 3, 6]), (t.a, [100, 2, 3, 25, 10]), (t.a.conj, [101, 5, 6, 26, 11]), (m0, [300, 100, 200, 101]), (t.T2, [8, 10, 11, 27]),
    (t.T4y, [24, 30, 14, 17]), (t.ay, [102, 25, 14, 28, 22]), (t.ay.conj, [103, 26, 17, 29, 23]), (m1, [200, 102, 201, 103]), (t.T2y, [27, 22, 23, 31]),
    (t.T4z, [30, 39, 32, 35]), (t.az, [104, 28, 32, 37, 34]), (t.az.conj, [105, 29, 35, 38, 36]), (m2, [201, 104, 301, 105]), (t.T2z, [31, 34, 36, 40]),
    (t.C4, [39, 41]), (t.T3, [37, 38, 41, 42]), (t.C3, [40, 42])]

/-- L1885-L1960 `eval_mpo_rdm3x1_oe`; a list of another length than 3 is left out (no assertion in the source). -/
def evalMpo3x1 (st : State K) (env : Env K) (c : Coord) (mpo : List (Tensor K)) : Option (Tensor K) := do
  match mpo with
  | [m0, m1, m2] =>
    let e ← col3 st env c
    let t ← e.split
    einsum (t.operands m0 m1 m2) []
  | _ => none

end Verif.Rdm
