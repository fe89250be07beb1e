import Verif.Rdm.SixModel
import Verif.Rdm.PlaqSpec
import Verif.Ctm.CornerSpec
import Verif.Ctm.MoveSpec
/-
Specification of the networks on patches of six sites, with the labels of the drawings rdm_looped.py L550-L567 and L1384-L1407: `100 + 2 x` is the physical index of the ket of
site `x` and `101 + 2 x` that of the bra if it is open.
-/
namespace Verif.Rdm
open Tensor Ctm Ctm.Spec
variable {K : Type} [RCLike K]

/-- The sites of the patch that are not in `os`. -/
def Spec.closed6 (os : List Nat) : List Nat := (List.range 6).filter (· ∉ os)

/-- The sites of the patch that are in `os`. -/
def Spec.open6 (os : List Nat) : List Nat := (List.range 6).filter (· ∈ os)

/-- Shapes of the tensors of the network. -/
structure Spec.Fits23 (dim : Nat → Nat) (e : Env23 K) (s : Sites23 K) : Prop where
  C1 : e.C1.shape = [dim 0, dim 1]
  T1 : e.T1.shape = [dim 1, dim 2 * dim 5, dim 44]
  T4 : e.T4.shape = [dim 0, dim 15, dim 3 * dim 6]
  T4y : e.T4y.shape = [dim 15, dim 8, dim 9 * dim 12]
  C4 : e.C4.shape = [dim 8, dim 7]
  T3y : e.T3y.shape = [dim 10 * dim 13, dim 7, dim 19]
  T3xy : e.T3xy.shape = [dim 21 * dim 23, dim 19, dim 51]
  T1z : e.T1z.shape = [dim 39, dim 26 * dim 28, dim 24]
  C2 : e.C2.shape = [dim 24, dim 25]
  T2z : e.T2z.shape = [dim 25, dim 27 * dim 29, dim 36]
  T2zy : e.T2zy.shape = [dim 36, dim 33 * dim 35, dim 31]
  C3 : e.C3.shape = [dim 31, dim 30]
  T3zy : e.T3zy.shape = [dim 32 * dim 34, dim 51, dim 30]
  T1x : e.T1x.shape = [dim 44, dim 40 * dim 42, dim 39]
  a : s.a.shape = [dim 100, dim 2, dim 3, dim 16, dim 45]
  a0 : dim 101 = dim 100
  a1 : dim 5 = dim 2
  a2 : dim 6 = dim 3
  a3 : dim 17 = dim 16
  a4 : dim 46 = dim 45
  ax : s.ax.shape = [dim 102, dim 40, dim 45, dim 47, dim 41]
  ax0 : dim 103 = dim 102
  ax1 : dim 42 = dim 40
  ax2 : dim 46 = dim 45
  ax3 : dim 48 = dim 47
  ax4 : dim 43 = dim 41
  az : s.az.shape = [dim 104, dim 26, dim 41, dim 37, dim 27]
  az0 : dim 105 = dim 104
  az1 : dim 28 = dim 26
  az2 : dim 43 = dim 41
  az3 : dim 38 = dim 37
  az4 : dim 29 = dim 27
  ay : s.ay.shape = [dim 106, dim 16, dim 9, dim 10, dim 20]
  ay0 : dim 107 = dim 106
  ay1 : dim 17 = dim 16
  ay2 : dim 12 = dim 9
  ay3 : dim 13 = dim 10
  ay4 : dim 22 = dim 20
  axy : s.axy.shape = [dim 108, dim 47, dim 20, dim 21, dim 49]
  axy0 : dim 109 = dim 108
  axy1 : dim 48 = dim 47
  axy2 : dim 22 = dim 20
  axy3 : dim 23 = dim 21
  axy4 : dim 50 = dim 49
  azy : s.azy.shape = [dim 110, dim 37, dim 49, dim 32, dim 33]
  azy0 : dim 111 = dim 110
  azy1 : dim 38 = dim 37
  azy2 : dim 50 = dim 49
  azy3 : dim 34 = dim 32
  azy4 : dim 35 = dim 33

/-- The product of all tensors of the patch `s0 s1 s2` over `s3 s4 s5`; `q x` is the physical label of the bra of site `x`. -/
def Spec.rho23 (dim : Nat → Nat) (e : Env23 K) (s : Sites23 K) (q : Nat → Nat) (σ : Nat → Nat) : K :=
  e.C1.val [σ 0, σ 1] * e.T1.val [σ 1, Corner.Spec.fused dim σ 2 5, σ 44] * e.T4.val [σ 0, σ 15, Corner.Spec.fused dim σ 3 6] * e.T4y.val [σ 15, σ 8, Corner.Spec.fused dim σ 9 12] * e.C4.val [σ 8, σ 7] * e.T3y.val [Corner.Spec.fused dim σ 10 13, σ 7, σ 19] * e.T3xy.val [Corner.Spec.fused dim σ 21 23, σ 19, σ 51] * e.T1z.val [σ 39, Corner.Spec.fused dim σ 26 28, σ 24] * e.C2.val [σ 24, σ 25] * e.T2z.val [σ 25, Corner.Spec.fused dim σ 27 29, σ 36] * e.T2zy.val [σ 36, Corner.Spec.fused dim σ 33 35, σ 31] * e.C3.val [σ 31, σ 30] * e.T3zy.val [Corner.Spec.fused dim σ 32 34, σ 51, σ 30] * e.T1x.val [σ 44, Corner.Spec.fused dim σ 40 42, σ 39] *
    (s.a.val [σ 100, σ 2, σ 3, σ 16, σ 45] * star (s.a.val [σ (q 0), σ 5, σ 6, σ 17, σ 46])) *
    (s.ax.val [σ 102, σ 40, σ 45, σ 47, σ 41] * star (s.ax.val [σ (q 1), σ 42, σ 46, σ 48, σ 43])) *
    (s.az.val [σ 104, σ 26, σ 41, σ 37, σ 27] * star (s.az.val [σ (q 2), σ 28, σ 43, σ 38, σ 29])) *
    (s.ay.val [σ 106, σ 16, σ 9, σ 10, σ 20] * star (s.ay.val [σ (q 3), σ 17, σ 12, σ 13, σ 22])) *
    (s.axy.val [σ 108, σ 47, σ 20, σ 21, σ 49] * star (s.axy.val [σ (q 4), σ 48, σ 22, σ 23, σ 50])) *
    (s.azy.val [σ 110, σ 37, σ 49, σ 32, σ 33] * star (s.azy.val [σ (q 5), σ 38, σ 50, σ 34, σ 35]))

/-- All labels but the physical ones. -/
def Spec.inner23 : List Nat := [0, 1, 2, 3, 5, 6, 7, 8, 9, 10, 12, 13, 15, 16, 17, 19, 20, 21, 22, 23, 24, 25, 26, 27, 28, 29, 30, 31, 32, 33, 34, 35, 36, 37, 38, 39, 40, 41, 42, 43, 44, 45, 46, 47, 48, 49, 50, 51]

/-- The environment tensors around the patch with upper left vertex `c`, and its site tensors. -/
structure Spec.Around23 (st : State K) (env : Env K) (c : Coord) (e : Env23 K) (s : Sites23 K) : Prop where
  C1 : env.C (st.vts (c), (-1, -1)) = some e.C1
  C2 : env.C (st.vts (rt (rt c)), (1, -1)) = some e.C2
  C3 : env.C (st.vts (rt (rt (dn c))), (1, 1)) = some e.C3
  C4 : env.C (st.vts (dn c), (-1, 1)) = some e.C4
  T1 : env.T (st.vts (c), (0, -1)) = some e.T1
  T4 : env.T (st.vts (c), (-1, 0)) = some e.T4
  T3y : env.T (st.vts (dn c), (0, 1)) = some e.T3y
  T4y : env.T (st.vts (dn c), (-1, 0)) = some e.T4y
  T3xy : env.T (st.vts (rt (dn c)), (0, 1)) = some e.T3xy
  T2zy : env.T (st.vts (rt (rt (dn c))), (1, 0)) = some e.T2zy
  T3zy : env.T (st.vts (rt (rt (dn c))), (0, 1)) = some e.T3zy
  T1z : env.T (st.vts (rt (rt c)), (0, -1)) = some e.T1z
  T2z : env.T (st.vts (rt (rt c)), (1, 0)) = some e.T2z
  T1x : env.T (st.vts (rt c), (0, -1)) = some e.T1x
  a : st.sites (st.vts (c)) = some s.a
  ax : st.sites (st.vts (rt c)) = some s.ax
  az : st.sites (st.vts (rt (rt c))) = some s.az
  ay : st.sites (st.vts (dn c)) = some s.ay
  axy : st.sites (st.vts (rt (dn c))) = some s.axy
  azy : st.sites (st.vts (rt (rt (dn c)))) = some s.azy

/-- The vertices of the sites of the patch. -/
def Spec.vert23 (c : Coord) (x : Nat) : Coord := [c, rt c, rt (rt c), dn c, rt (dn c), rt (rt (dn c))].getD x c

/-- Sizes of the labels. -/
def Spec.dims23 (D : Dims) (c : Coord) (l : Nat) : Nat :=
  if 100 ≤ l then D.p (vert23 c ((l - 100) / 2)) else
  let x := rt c
  let y := dn c
  let z := rt (rt c)
  let xy := rt (dn c)
  let zy := rt (rt (dn c))
  [D.el c, D.eu c, D.U c, D.L c, 0, D.U c, D.L c, D.ed y, D.el (dn y), D.L y, D.U (dn y), 0, D.L y, D.U (dn y), 0, D.el y, D.U y, D.U y, 0, D.ed xy, D.L xy, D.U (dn xy), D.L xy, D.U (dn xy), D.eu (rt z), D.er z, D.U z, D.L (rt z), D.U z, D.L (rt z), D.ed (rt zy), D.er (dn zy), D.U (dn zy), D.L (rt zy), D.U (dn zy), D.L (rt zy), D.er zy, D.U zy, D.U zy, D.eu z, D.U x, D.L z, D.U x, D.L z, D.eu x, D.L x, D.L x, D.U xy, D.U xy, D.L zy, D.L zy, D.ed zy].getD l 0

/-- `rho` is the un-normalised density matrix of the sites `os` of the patch at `c`: the network of the patch with the physical indices of these sites open. Its axes are the kets of
the open sites in increasing order, then their bras. -/
def Spec.IsPatch23 (D : Dims) (st : State K) (env : Env K) (c : Coord) (os : List Nat) (rho : Tensor K) : Prop :=
  ∃ e s, Around23 st env c e s ∧ Corner.Spec.IsNetwork (dims23 D c) rho ((open6 os).map (fun x => [100 + 2 * x]) ++ (open6 os).map (fun x => [100 + 2 * x + 1]))
    ((closed6 os).map (fun x => 100 + 2 * x) ++ inner23) (rho23 (dims23 D c) e s (bra os))

/-- Shapes of the tensors of the network. -/
structure Spec.Fits32 (dim : Nat → Nat) (e : Env32 K) (s : Sites32 K) : Prop where
  C1 : e.C1.shape = [dim 0, dim 1]
  T1 : e.T1.shape = [dim 1, dim 2 * dim 5, dim 13]
  T4 : e.T4.shape = [dim 0, dim 18, dim 3 * dim 6]
  T1x : e.T1x.shape = [dim 13, dim 9 * dim 11, dim 7]
  C2 : e.C2.shape = [dim 7, dim 8]
  T2x : e.T2x.shape = [dim 8, dim 10 * dim 12, dim 87]
  T4y : e.T4y.shape = [dim 18, dim 80, dim 16 * dim 17]
  T2xy : e.T2xy.shape = [dim 87, dim 55 * dim 56, dim 57]
  T3xw : e.T3xw.shape = [dim 42 * dim 44, dim 52, dim 40]
  C3 : e.C3.shape = [dim 41, dim 40]
  T2xw : e.T2xw.shape = [dim 57, dim 43 * dim 45, dim 41]
  T4w : e.T4w.shape = [dim 80, dim 47, dim 48 * dim 50]
  C4 : e.C4.shape = [dim 47, dim 46]
  T3w : e.T3w.shape = [dim 49 * dim 51, dim 46, dim 52]
  a : s.a.shape = [dim 100, dim 2, dim 3, dim 19, dim 14]
  a0 : dim 101 = dim 100
  a1 : dim 5 = dim 2
  a2 : dim 6 = dim 3
  a3 : dim 20 = dim 19
  a4 : dim 15 = dim 14
  ay : s.ay.shape = [dim 102, dim 19, dim 16, dim 81, dim 83]
  ay0 : dim 103 = dim 102
  ay1 : dim 20 = dim 19
  ay2 : dim 17 = dim 16
  ay3 : dim 82 = dim 81
  ay4 : dim 84 = dim 83
  aw : s.aw.shape = [dim 104, dim 81, dim 48, dim 49, dim 53]
  aw0 : dim 105 = dim 104
  aw1 : dim 82 = dim 81
  aw2 : dim 50 = dim 48
  aw3 : dim 51 = dim 49
  aw4 : dim 54 = dim 53
  ax : s.ax.shape = [dim 106, dim 9, dim 14, dim 85, dim 10]
  ax0 : dim 107 = dim 106
  ax1 : dim 11 = dim 9
  ax2 : dim 15 = dim 14
  ax3 : dim 86 = dim 85
  ax4 : dim 12 = dim 10
  axy : s.axy.shape = [dim 108, dim 85, dim 83, dim 58, dim 55]
  axy0 : dim 109 = dim 108
  axy1 : dim 86 = dim 85
  axy2 : dim 84 = dim 83
  axy3 : dim 59 = dim 58
  axy4 : dim 56 = dim 55
  axw : s.axw.shape = [dim 110, dim 58, dim 53, dim 42, dim 43]
  axw0 : dim 111 = dim 110
  axw1 : dim 59 = dim 58
  axw2 : dim 54 = dim 53
  axw3 : dim 44 = dim 42
  axw4 : dim 45 = dim 43

/-- The product of all tensors of the patch `s0 s3` over `s1 s4` over `s2 s5`; `q x` is the physical label of the bra of site `x`. -/
def Spec.rho32 (dim : Nat → Nat) (e : Env32 K) (s : Sites32 K) (q : Nat → Nat) (σ : Nat → Nat) : K :=
  e.C1.val [σ 0, σ 1] * e.T1.val [σ 1, Corner.Spec.fused dim σ 2 5, σ 13] * e.T4.val [σ 0, σ 18, Corner.Spec.fused dim σ 3 6] * e.T1x.val [σ 13, Corner.Spec.fused dim σ 9 11, σ 7] * e.C2.val [σ 7, σ 8] * e.T2x.val [σ 8, Corner.Spec.fused dim σ 10 12, σ 87] * e.T4y.val [σ 18, σ 80, Corner.Spec.fused dim σ 16 17] * e.T2xy.val [σ 87, Corner.Spec.fused dim σ 55 56, σ 57] * e.T3xw.val [Corner.Spec.fused dim σ 42 44, σ 52, σ 40] * e.C3.val [σ 41, σ 40] * e.T2xw.val [σ 57, Corner.Spec.fused dim σ 43 45, σ 41] * e.T4w.val [σ 80, σ 47, Corner.Spec.fused dim σ 48 50] * e.C4.val [σ 47, σ 46] * e.T3w.val [Corner.Spec.fused dim σ 49 51, σ 46, σ 52] *
    (s.a.val [σ 100, σ 2, σ 3, σ 19, σ 14] * star (s.a.val [σ (q 0), σ 5, σ 6, σ 20, σ 15])) *
    (s.ay.val [σ 102, σ 19, σ 16, σ 81, σ 83] * star (s.ay.val [σ (q 1), σ 20, σ 17, σ 82, σ 84])) *
    (s.aw.val [σ 104, σ 81, σ 48, σ 49, σ 53] * star (s.aw.val [σ (q 2), σ 82, σ 50, σ 51, σ 54])) *
    (s.ax.val [σ 106, σ 9, σ 14, σ 85, σ 10] * star (s.ax.val [σ (q 3), σ 11, σ 15, σ 86, σ 12])) *
    (s.axy.val [σ 108, σ 85, σ 83, σ 58, σ 55] * star (s.axy.val [σ (q 4), σ 86, σ 84, σ 59, σ 56])) *
    (s.axw.val [σ 110, σ 58, σ 53, σ 42, σ 43] * star (s.axw.val [σ (q 5), σ 59, σ 54, σ 44, σ 45]))

/-- All labels but the physical ones. -/
def Spec.inner32 : List Nat := [0, 1, 2, 3, 5, 6, 7, 8, 9, 10, 11, 12, 13, 14, 15, 16, 17, 18, 19, 20, 40, 41, 42, 43, 44, 45, 46, 47, 48, 49, 50, 51, 52, 53, 54, 55, 56, 57, 58, 59, 80, 81, 82, 83, 84, 85, 86, 87]

/-- The environment tensors around the patch with upper left vertex `c`, and its site tensors. -/
structure Spec.Around32 (st : State K) (env : Env K) (c : Coord) (e : Env32 K) (s : Sites32 K) : Prop where
  C1 : env.C (st.vts (c), (-1, -1)) = some e.C1
  C2 : env.C (st.vts (rt c), (1, -1)) = some e.C2
  C3 : env.C (st.vts (rt (dn (dn c))), (1, 1)) = some e.C3
  C4 : env.C (st.vts (dn (dn c)), (-1, 1)) = some e.C4
  T1 : env.T (st.vts (c), (0, -1)) = some e.T1
  T4 : env.T (st.vts (c), (-1, 0)) = some e.T4
  T4y : env.T (st.vts (dn c), (-1, 0)) = some e.T4y
  T4w : env.T (st.vts (dn (dn c)), (-1, 0)) = some e.T4w
  T1x : env.T (st.vts (rt c), (0, -1)) = some e.T1x
  T2x : env.T (st.vts (rt c), (1, 0)) = some e.T2x
  T2xy : env.T (st.vts (rt (dn c)), (1, 0)) = some e.T2xy
  T2xw : env.T (st.vts (rt (dn (dn c))), (1, 0)) = some e.T2xw
  T3xw : env.T (st.vts (rt (dn (dn c))), (0, 1)) = some e.T3xw
  T3w : env.T (st.vts (dn (dn c)), (0, 1)) = some e.T3w
  a : st.sites (st.vts (c)) = some s.a
  ay : st.sites (st.vts (dn c)) = some s.ay
  aw : st.sites (st.vts (dn (dn c))) = some s.aw
  ax : st.sites (st.vts (rt c)) = some s.ax
  axy : st.sites (st.vts (rt (dn c))) = some s.axy
  axw : st.sites (st.vts (rt (dn (dn c)))) = some s.axw

/-- The vertices of the sites of the patch. -/
def Spec.vert32 (c : Coord) (x : Nat) : Coord := [c, dn c, dn (dn c), rt c, rt (dn c), rt (dn (dn c))].getD x c

/-- Sizes of the labels. -/
def Spec.dims32 (D : Dims) (c : Coord) (l : Nat) : Nat :=
  if 100 ≤ l then D.p (vert32 c ((l - 100) / 2)) else
  let x := rt c
  let y := dn c
  let w := dn (dn c)
  let xy := rt (dn c)
  let xw := rt (dn (dn c))
  [D.el c, D.eu c, D.U c, D.L c, 0, D.U c, D.L c, D.eu (rt x), D.er x, D.U x, D.L (rt x), D.U x, D.L (rt x), D.eu x, D.L x, D.L x, D.L y, D.L y, D.el y, D.U y, D.U y, 0, 0, 0, 0, 0, 0, 0, 0, 0, 0, 0, 0, 0, 0, 0, 0, 0, 0, 0, D.ed (rt xw), D.er (dn xw), D.U (dn xw), D.L (rt xw), D.U (dn xw), D.L (rt xw), D.ed w, D.el (dn w), D.L w, D.U (dn w), D.L w, D.U (dn w), D.ed xw, D.L xw, D.L xw, D.L (rt xy), D.L (rt xy), D.er xw, D.U xw, D.U xw, 0, 0, 0, 0, 0, 0, 0, 0, 0, 0, 0, 0, 0, 0, 0, 0, 0, 0, 0, 0, D.el w, D.U w, D.U w, D.L xy, D.L xy, D.U xy, D.U xy, D.er xy].getD l 0

/-- `rho` is the un-normalised density matrix of the sites `os` of the patch at `c`: the network of the patch with the physical indices of these sites open. Its axes are the kets of
the open sites in increasing order, then their bras. -/
def Spec.IsPatch32 (D : Dims) (st : State K) (env : Env K) (c : Coord) (os : List Nat) (rho : Tensor K) : Prop :=
  ∃ e s, Around32 st env c e s ∧ Corner.Spec.IsNetwork (dims32 D c) rho ((open6 os).map (fun x => [100 + 2 * x]) ++ (open6 os).map (fun x => [100 + 2 * x + 1]))
    ((closed6 os).map (fun x => 100 + 2 * x) ++ inner32) (rho32 (dims32 D c) e s (bra os))

end Verif.Rdm
