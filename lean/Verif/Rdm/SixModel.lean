import Verif.Rdm.PlaqModel
/-
Model of the density matrices on patches of six sites, /repo/ctm/generic/rdm_looped.py: `rdm2x3_loop_oe` (L509-L651), `rdm2x3_loop_oe_semimanual` (L652-L768),
`rdm3x2_loop_oe_semimanual` (L1214-L1339), `rdm3x2_loop_oe` (L1341-L1493). `contract_with_unroll` is `einsum`, whatever `unroll` is. Lower precision (`dtype`) and devices are
not modelled.
-/
namespace Verif.Rdm
open Tensor Ctm
variable {K : Type} [RCLike K]

/-- L571, L1411: the labels `I`. -/
def physLabels6 (os : List Nat) : List Nat :=
  (List.range 6).flatMap (fun x => if x ∈ os then [100 + 2 * x, 100 + 2 * x + 1] else [100 + 2 * x, 100 + 2 * x])

/-- A Python set of small integers is iterated in increasing order. -/
def siteSet6 (os : List Nat) : List Nat := (List.range 6).filter (· ∈ os)

/-- L572, L677-L678: `I_out`, and the parts of it at the sites `sub`. -/
def outLabels6 (os sub : List Nat) : List Nat :=
  ((siteSet6 os).filter (· ∈ sub)).map (fun x => 100 + 2 * x) ++ ((siteSet6 os).filter (· ∈ sub)).map (fun x => 100 + 2 * x + 1)

/-- L569-L570, L672-L673, L1239-L1240, L1409-L1410: the assertions. -/
def checked6 (os : List Nat) : Bool := os.Nodup ∧ ∀ x ∈ os, x < 6

/-- The environment of the patch `s0 s1 s2` over `s3 s4 s5`, named as in L578-L598 with `z` for `2x`. -/
structure Env23 (K : Type) where
  C1 : Tensor K
  C2 : Tensor K
  C3 : Tensor K
  C4 : Tensor K
  T1 : Tensor K
  T4 : Tensor K
  T3y : Tensor K
  T4y : Tensor K
  T3xy : Tensor K
  T2zy : Tensor K
  T3zy : Tensor K
  T1z : Tensor K
  T2z : Tensor K
  T1x : Tensor K

/-- The site tensors. -/
structure Sites23 (K : Type) where
  a : Tensor K
  ax : Tensor K
  az : Tensor K
  ay : Tensor K
  axy : Tensor K
  azy : Tensor K

/-- L578-L598, L681-L705. -/
def fetch23 (st : State K) (env : Env K) (c : Coord) : Option (Env23 K × Sites23 K) := do
  let a ← st.site c
  let ax ← st.site (c.1 + 1, c.2)
  let az ← st.site (c.1 + 2, c.2)
  let ay ← st.site (c.1, c.2 + 1)
  let axy ← st.site (c.1 + 1, c.2 + 1)
  let azy ← st.site (c.1 + 2, c.2 + 1)
  let C1 ← env.C (st.vts c, (-1, -1))
  let C2 ← env.C (st.vts (c.1 + 2, c.2), (1, -1))
  let C3 ← env.C (st.vts (c.1 + 2, c.2 + 1), (1, 1))
  let C4 ← env.C (st.vts (c.1, c.2 + 1), (-1, 1))
  let T1 ← env.T (st.vts c, (0, -1))
  let T4 ← env.T (st.vts c, (-1, 0))
  let T3y ← env.T (st.vts (c.1, c.2 + 1), (0, 1))
  let T4y ← env.T (st.vts (c.1, c.2 + 1), (-1, 0))
  let T3xy ← env.T (st.vts (c.1 + 1, c.2 + 1), (0, 1))
  let T2zy ← env.T (st.vts (c.1 + 2, c.2 + 1), (1, 0))
  let T3zy ← env.T (st.vts (c.1 + 2, c.2 + 1), (0, 1))
  let T1z ← env.T (st.vts (c.1 + 2, c.2), (0, -1))
  let T2z ← env.T (st.vts (c.1 + 2, c.2), (1, 0))
  let T1x ← env.T (st.vts (c.1 + 1, c.2), (0, -1))
  return (⟨C1, C2, C3, C4, T1, T4, T3y, T4y, T3xy, T2zy, T3zy, T1z, T2z, T1x⟩, ⟨a, ax, az, ay, axy, azy⟩)

/-- L608-L617: the environment tensors with the pairs (ket, bra) split. -/
def Env23.split (e : Env23 K) (s : Sites23 K) : Option (Env23 K) := do
  let T1 ← view [e.T1.size 0, s.a.size 1, s.a.size 1, e.T1.size 2] e.T1
  let T1x ← view [e.T1x.size 0, s.ax.size 1, s.ax.size 1, e.T1x.size 2] e.T1x
  let T1z ← view [e.T1z.size 0, s.az.size 1, s.az.size 1, e.T1z.size 2] e.T1z
  let T2z ← view [e.T2z.size 0, s.az.size 4, s.az.size 4, e.T2z.size 2] e.T2z
  let T2zy ← view [e.T2zy.size 0, s.azy.size 4, s.azy.size 4, e.T2zy.size 2] e.T2zy
  let T3y ← view [s.ay.size 3, s.ay.size 3, e.T3y.size 1, e.T3y.size 2] e.T3y
  let T3xy ← view [s.axy.size 3, s.axy.size 3, e.T3xy.size 1, e.T3xy.size 2] e.T3xy
  let T3zy ← view [s.azy.size 3, s.azy.size 3, e.T3zy.size 1, e.T3zy.size 2] e.T3zy
  let T4 ← view [e.T4.size 0, e.T4.size 1, s.a.size 2, s.a.size 2] e.T4
  let T4y ← view [e.T4y.size 0, e.T4y.size 1, s.ay.size 2, s.ay.size 2] e.T4y
  return ⟨e.C1, e.C2, e.C3, e.C4, T1, T4, T3y, T4y, T3xy, T2zy, T3zy, T1z, T2z, T1x⟩

/-- L619-L624: the operands and their labels; `i` are the twelve physical labels. -/
def Env23.operands (t : Env23 K) (s : Sites23 K) (i : Nat → Nat) : List (Tensor K × List Nat) :=
  [(t.C1, [0, 1]), (t.T1, [1, 2, 5, 44]), (t.T4, [0, 15, 3, 6]), (s.a, [i 0, 2, 3, 16, 45]),
    (s.a.conj, [i 1, 5, 6, 17, 46]), (t.T4y, [15, 8, 9, 12]), (t.C4, [8, 7]), (t.T3y, [10, 13, 7, 19]),
    (s.ay, [i 6, 16, 9, 10, 20]), (s.ay.conj, [i 7, 17, 12, 13, 22]), (t.T3xy, [21, 23, 19, 51]), (s.axy, [i 8, 47, 20, 21, 49]),
    (s.axy.conj, [i 9, 48, 22, 23, 50]), (t.T1z, [39, 26, 28, 24]), (t.C2, [24, 25]), (t.T2z, [25, 27, 29, 36]),
    (s.az, [i 4, 26, 41, 37, 27]), (s.az.conj, [i 5, 28, 43, 38, 29]), (t.T2zy, [36, 33, 35, 31]), (t.C3, [31, 30]),
    (t.T3zy, [32, 34, 51, 30]), (s.azy, [i 10, 37, 49, 32, 33]), (s.azy.conj, [i 11, 38, 50, 34, 35]), (t.T1x, [44, 40, 42, 39]),
    (s.ax, [i 2, 40, 45, 47, 41]), (s.ax.conj, [i 3, 42, 46, 48, 43])]

/-- L714-L717. -/
def Env23.first (t : Env23 K) (s : Sites23 K) (i : Nat → Nat) : List (Tensor K × List Nat) :=
  [(t.C1, [0, 1]), (t.T1, [1, 2, 5, 44]), (t.T4, [0, 15, 3, 6]), (s.a, [i 0, 2, 3, 16, 45]),
    (s.a.conj, [i 1, 5, 6, 17, 46]), (t.T4y, [15, 8, 9, 12]), (t.C4, [8, 7]), (t.T3y, [10, 13, 7, 19]),
    (s.ay, [i 6, 16, 9, 10, 20]), (s.ay.conj, [i 7, 17, 12, 13, 22])]

/-- L727-L730. -/
def Env23.second (t : Env23 K) (s : Sites23 K) (i : Nat → Nat) : List (Tensor K × List Nat) :=
  [(t.T1z, [39, 26, 28, 24]), (t.C2, [24, 25]), (t.T2z, [25, 27, 29, 36]), (s.az, [i 4, 26, 41, 37, 27]),
    (s.az.conj, [i 5, 28, 43, 38, 29]), (t.T2zy, [36, 33, 35, 31]), (t.C3, [31, 30]), (t.T3zy, [32, 34, 51, 30]),
    (s.azy, [i 10, 37, 49, 32, 33]), (s.azy.conj, [i 11, 38, 50, 34, 35])]

/-- L740-L744: the operands between the two halves. -/
def Env23.middle (t : Env23 K) (s : Sites23 K) (i : Nat → Nat) : List (Tensor K × List Nat) :=
  [(t.T3xy, [21, 23, 19, 51]), (s.axy, [i 8, 47, 20, 21, 49]), (s.axy.conj, [i 9, 48, 22, 23, 50]), (t.T1x, [44, 40, 42, 39]),
    (s.ax, [i 2, 40, 45, 47, 41]), (s.ax.conj, [i 3, 42, 46, 48, 43])]

/-- The contraction of L509-L651 `rdm2x3_loop_oe`. -/
def oe23 (e : Env23 K) (s : Sites23 K) (os : List Nat) : Option (Tensor K) := do
  let t ← e.split s
  einsum (t.operands s ((physLabels6 os).getD · 0)) (outLabels6 os [0, 1, 2, 3, 4, 5])

/-- The contraction of L652-L768 `rdm2x3_loop_oe_semimanual`. -/
def semi23 (e : Env23 K) (s : Sites23 K) (os : List Nat) : Option (Tensor K) := do
  let t ← e.split s
  let i := ((physLabels6 os).getD · 0)
  let l ← einsum (t.first s i) ([44, 45, 46, 20, 22, 19] ++ outLabels6 os [0, 3])
  let r ← einsum (t.second s i) ([39, 41, 43, 49, 50, 51] ++ outLabels6 os [2, 5])
  einsum ((l, [44, 45, 46, 20, 22, 19] ++ outLabels6 os [0, 3]) :: (t.middle s i ++ [(r, [39, 41, 43, 49, 50, 51] ++ outLabels6 os [2, 5])])) (outLabels6 os [0, 1, 2, 3, 4, 5])

/-- L509-L651 `rdm2x3_loop_oe`. -/
noncomputable def rdm2x3 (eigh : Tensor K → List ℝ × Tensor K) (spd : Bool) (st : State K) (env : Env K) (c : Coord) (os : List Nat) : Except Err (Tensor K) := do
  if checked6 os then
    let x ← lift (do
      let (e, s) ← fetch23 st env c
      oe23 e s os)
    symRdm eigh spd x
  else .error .raise

/-- L652-L768 `rdm2x3_loop_oe_semimanual`. -/
noncomputable def rdm2x3Semi (eigh : Tensor K → List ℝ × Tensor K) (spd : Bool) (st : State K) (env : Env K) (c : Coord) (os : List Nat) : Except Err (Tensor K) := do
  if checked6 os then
    let x ← lift (do
      let (e, s) ← fetch23 st env c
      semi23 e s os)
    symRdm eigh spd x
  else .error .raise

/-- The environment of the patch `s0 s3` over `s1 s4` over `s2 s5`, named as in L1416-L1437 with `w` for `2y`. -/
structure Env32 (K : Type) where
  C1 : Tensor K
  C2 : Tensor K
  C3 : Tensor K
  C4 : Tensor K
  T1 : Tensor K
  T4 : Tensor K
  T4y : Tensor K
  T4w : Tensor K
  T1x : Tensor K
  T2x : Tensor K
  T2xy : Tensor K
  T2xw : Tensor K
  T3xw : Tensor K
  T3w : Tensor K

/-- The site tensors. -/
structure Sites32 (K : Type) where
  a : Tensor K
  ay : Tensor K
  aw : Tensor K
  ax : Tensor K
  axy : Tensor K
  axw : Tensor K

/-- L1416-L1437, L1248-L1273. -/
def fetch32 (st : State K) (env : Env K) (c : Coord) : Option (Env32 K × Sites32 K) := do
  let a ← st.site c
  let ay ← st.site (c.1, c.2 + 1)
  let aw ← st.site (c.1, c.2 + 2)
  let ax ← st.site (c.1 + 1, c.2)
  let axy ← st.site (c.1 + 1, c.2 + 1)
  let axw ← st.site (c.1 + 1, c.2 + 2)
  let C1 ← env.C (st.vts c, (-1, -1))
  let C2 ← env.C (st.vts (c.1 + 1, c.2), (1, -1))
  let C3 ← env.C (st.vts (c.1 + 1, c.2 + 2), (1, 1))
  let C4 ← env.C (st.vts (c.1, c.2 + 2), (-1, 1))
  let T1 ← env.T (st.vts c, (0, -1))
  let T4 ← env.T (st.vts c, (-1, 0))
  let T4y ← env.T (st.vts (c.1, c.2 + 1), (-1, 0))
  let T4w ← env.T (st.vts (c.1, c.2 + 2), (-1, 0))
  let T1x ← env.T (st.vts (c.1 + 1, c.2), (0, -1))
  let T2x ← env.T (st.vts (c.1 + 1, c.2), (1, 0))
  let T2xy ← env.T (st.vts (c.1 + 1, c.2 + 1), (1, 0))
  let T2xw ← env.T (st.vts (c.1 + 1, c.2 + 2), (1, 0))
  let T3xw ← env.T (st.vts (c.1 + 1, c.2 + 2), (0, 1))
  let T3w ← env.T (st.vts (c.1, c.2 + 2), (0, 1))
  return (⟨C1, C2, C3, C4, T1, T4, T4y, T4w, T1x, T2x, T2xy, T2xw, T3xw, T3w⟩, ⟨a, ay, aw, ax, axy, axw⟩)

/-- L1448-L1457: the environment tensors with the pairs (ket, bra) split. -/
def Env32.split (e : Env32 K) (s : Sites32 K) : Option (Env32 K) := do
  let T1 ← view [e.T1.size 0, s.a.size 1, s.a.size 1, e.T1.size 2] e.T1
  let T1x ← view [e.T1x.size 0, s.ax.size 1, s.ax.size 1, e.T1x.size 2] e.T1x
  let T2x ← view [e.T2x.size 0, s.ax.size 4, s.ax.size 4, e.T2x.size 2] e.T2x
  let T2xy ← view [e.T2xy.size 0, s.axy.size 4, s.axy.size 4, e.T2xy.size 2] e.T2xy
  let T2xw ← view [e.T2xw.size 0, s.axw.size 4, s.axw.size 4, e.T2xw.size 2] e.T2xw
  let T3w ← view [s.aw.size 3, s.aw.size 3, e.T3w.size 1, e.T3w.size 2] e.T3w
  let T3xw ← view [s.axw.size 3, s.axw.size 3, e.T3xw.size 1, e.T3xw.size 2] e.T3xw
  let T4 ← view [e.T4.size 0, e.T4.size 1, s.a.size 2, s.a.size 2] e.T4
  let T4y ← view [e.T4y.size 0, e.T4y.size 1, s.ay.size 2, s.ay.size 2] e.T4y
  let T4w ← view [e.T4w.size 0, e.T4w.size 1, s.aw.size 2, s.aw.size 2] e.T4w
  return ⟨e.C1, e.C2, e.C3, e.C4, T1, T4, T4y, T4w, T1x, T2x, T2xy, T2xw, T3xw, T3w⟩

/-- L1459-L1464: the operands and their labels; `i` are the twelve physical labels. -/
def Env32.operands (t : Env32 K) (s : Sites32 K) (i : Nat → Nat) : List (Tensor K × List Nat) :=
  [(t.C1, [0, 1]), (t.T1, [1, 2, 5, 13]), (t.T4, [0, 18, 3, 6]), (s.a, [i 0, 2, 3, 19, 14]),
    (s.a.conj, [i 1, 5, 6, 20, 15]), (t.T1x, [13, 9, 11, 7]), (t.C2, [7, 8]), (t.T2x, [8, 10, 12, 87]),
    (s.ax, [i 6, 9, 14, 85, 10]), (s.ax.conj, [i 7, 11, 15, 86, 12]), (t.T4y, [18, 80, 16, 17]), (s.ay, [i 2, 19, 16, 81, 83]),
    (s.ay.conj, [i 3, 20, 17, 82, 84]), (t.T2xy, [87, 55, 56, 57]), (s.axy, [i 8, 85, 83, 58, 55]), (s.axy.conj, [i 9, 86, 84, 59, 56]),
    (t.T3xw, [42, 44, 52, 40]), (t.C3, [41, 40]), (t.T2xw, [57, 43, 45, 41]), (s.axw, [i 10, 58, 53, 42, 43]),
    (s.axw.conj, [i 11, 59, 54, 44, 45]), (t.T4w, [80, 47, 48, 50]), (t.C4, [47, 46]), (t.T3w, [49, 51, 46, 52]),
    (s.aw, [i 4, 81, 48, 49, 53]), (s.aw.conj, [i 5, 82, 50, 51, 54])]

/-- L1288-L1291. -/
def Env32.first (t : Env32 K) (s : Sites32 K) (i : Nat → Nat) : List (Tensor K × List Nat) :=
  [(t.C1, [0, 1]), (t.T1, [1, 2, 5, 13]), (t.T4, [0, 18, 3, 6]), (s.a, [i 0, 2, 3, 19, 14]),
    (s.a.conj, [i 1, 5, 6, 20, 15]), (t.T1x, [13, 9, 11, 7]), (t.C2, [7, 8]), (t.T2x, [8, 10, 12, 87]),
    (s.ax, [i 6, 9, 14, 85, 10]), (s.ax.conj, [i 7, 11, 15, 86, 12])]

/-- L1302-L1305. -/
def Env32.second (t : Env32 K) (s : Sites32 K) (i : Nat → Nat) : List (Tensor K × List Nat) :=
  [(t.T3xw, [42, 44, 52, 40]), (t.C3, [41, 40]), (t.T2xw, [57, 43, 45, 41]), (s.axw, [i 10, 58, 53, 42, 43]),
    (s.axw.conj, [i 11, 59, 54, 44, 45]), (t.T4w, [80, 47, 48, 50]), (t.C4, [47, 46]), (t.T3w, [49, 51, 46, 52]),
    (s.aw, [i 4, 81, 48, 49, 53]), (s.aw.conj, [i 5, 82, 50, 51, 54])]

/-- L1316-L1320: the operands between the two halves. -/
def Env32.middle (t : Env32 K) (s : Sites32 K) (i : Nat → Nat) : List (Tensor K × List Nat) :=
  [(t.T4y, [18, 80, 16, 17]), (s.ay, [i 2, 19, 16, 81, 83]), (s.ay.conj, [i 3, 20, 17, 82, 84]), (t.T2xy, [87, 55, 56, 57]),
    (s.axy, [i 8, 85, 83, 58, 55]), (s.axy.conj, [i 9, 86, 84, 59, 56])]

/-- The contraction of L1341-L1493 `rdm3x2_loop_oe`. -/
def oe32 (e : Env32 K) (s : Sites32 K) (os : List Nat) : Option (Tensor K) := do
  let t ← e.split s
  einsum (t.operands s ((physLabels6 os).getD · 0)) (outLabels6 os [0, 1, 2, 3, 4, 5])

/-- The contraction of L1214-L1339 `rdm3x2_loop_oe_semimanual`. -/
def semi32 (e : Env32 K) (s : Sites32 K) (os : List Nat) : Option (Tensor K) := do
  let t ← e.split s
  let i := ((physLabels6 os).getD · 0)
  let l ← einsum (t.first s i) ([18, 19, 20, 85, 86, 87] ++ outLabels6 os [0, 3])
  let r ← einsum (t.second s i) ([80, 81, 82, 58, 59, 57] ++ outLabels6 os [2, 5])
  einsum ((l, [18, 19, 20, 85, 86, 87] ++ outLabels6 os [0, 3]) :: (t.middle s i ++ [(r, [80, 81, 82, 58, 59, 57] ++ outLabels6 os [2, 5])])) (outLabels6 os [0, 1, 2, 3, 4, 5])

/-- L1341-L1493 `rdm3x2_loop_oe`. -/
noncomputable def rdm3x2 (eigh : Tensor K → List ℝ × Tensor K) (spd : Bool) (st : State K) (env : Env K) (c : Coord) (os : List Nat) : Except Err (Tensor K) := do
  if checked6 os then
    let x ← lift (do
      let (e, s) ← fetch32 st env c
      oe32 e s os)
    symRdm eigh spd x
  else .error .raise

/-- L1214-L1339 `rdm3x2_loop_oe_semimanual`. -/
noncomputable def rdm3x2Semi (eigh : Tensor K → List ℝ × Tensor K) (spd : Bool) (st : State K) (env : Env K) (c : Coord) (os : List Nat) : Except Err (Tensor K) := do
  if checked6 os then
    let x ← lift (do
      let (e, s) ← fetch32 st env c
      semi32 e s os)
    symRdm eigh spd x
  else .error .raise

end Verif.Rdm
