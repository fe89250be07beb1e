import Verif.State.IOModel
import Mathlib.Algebra.BigOperators.Ring.Finset
/-
Model of bond operations of /repo/ipeps/ipeps.py: `extend_bond_dim` and `IPEPS_WEIGHTED`.
-/
namespace Verif.State
open Verif.Lattice (Vertex)
variable {K : Type}

/-! ### extend_bond_dim, ipeps.py L443-L465 -/

/-- Body of the loop L456-L464 for one site tensor. `none`: the ValueError of L460.
A tensor that is not of rank 5 is also an error here (IndexError or shape mismatch at L463). -/
def extendSite [Zero K] (d : Nat) (X : Tensor K) : Option (Tensor K) :=
  match X.shape with
  | [p, a, b, c, e] =>
    if a ≤ d ∧ b ≤ d ∧ c ≤ d ∧ e ≤ d then
      some ⟨[p, d, d, d, d], fun idx => if Tensor.InB X.shape idx then X.val idx else 0⟩
    else none
  | _ => none

/-- The loop L455-L464. It works on the caller's dictionary: the first component is the
dictionary after the call, the second tells whether the call returned (true) or raised. -/
def extendBondDim [Zero K] (d : Nat) : List (Vertex × Tensor K) → List (Vertex × Tensor K) × Bool
  | [] => ([], true)
  | (c, X) :: rest =>
    match extendSite d X with
    | none => ((c, X) :: rest, false)
    | some Y => let r := extendBondDim d rest; ((c, Y) :: r.1, r.2)

/-! ### IPEPS_WEIGHTED, ipeps.py L543-L670 -/

/-- `dict.get`. -/
def dictFind {κ α : Type} [DecidableEq κ] (d : List (κ × α)) (k : κ) : Option α :=
  (d.find? (fun e => decide (e.1 = k))).map (·.2)

/-- A key of the weight dictionary: site coordinate and direction vector. -/
abbrev WKey := Vertex × (Int × Int)

/-- The four directions in the order of `dxy_w_to_ind`, L598. -/
def dirs : List (Int × Int) := [(0, -1), (-1, 0), (0, 1), (1, 0)]

/-- `dxy_w_to_ind`, L598: axis of the site tensor for each direction. -/
def dirAxis (d : Int × Int) : Nat :=
  if d = (0, -1) then 1 else if d = (-1, 0) then 2 else if d = (0, 1) then 3 else 4

/-- `self.site(c).size(dxy_w_to_ind[d])`, L608-L609, for the sites dictionary (`site` maps through
the tiling first; at these places the coordinate is already a representative or is mapped by
`genOne`). `none`: KeyError or a tensor without that axis. -/
def siteDim (sites : List (Vertex × Tensor K)) (c : Vertex) (d : Int × Int) : Option Nat :=
  (dictFind sites c).bind (fun A => A.shape[dirAxis d]?)

/-- Body of the loops L600-L613. `vts` is the tiling, `dim s d` the size of axis `d` of the tensor
at site `s`. A weight is represented by its object identity (a fresh number) and its size.
`none`: KeyError or the AssertionError "Bond dims do not match". -/
def genOne (vts : Vertex → Option Vertex) (dim : Vertex → Int × Int → Option Nat)
    (ws : List (WKey × (Nat × Nat))) (k : WKey) : Option (List (WKey × (Nat × Nat))) := do
  let s ← vts (k.1.1 + k.2.1, k.1.2 + k.2.2)
  let rk : WKey := (s, (-k.2.1, -k.2.2))
  if (dictFind ws k).isNone && (dictFind ws rk).isNone then do
    let s0 ← vts k.1
    let s1 ← vts rk.1
    let d0 ← dim s0 k.2
    let d1 ← dim s1 rk.2
    if d0 = d1 then some (dictSet rk (ws.length, d0) (dictSet k (ws.length, d0) ws)) else none
  else some ws

/-- `generate_weights`, L589-L614. Object identities: each creation adds two entries, so the
current dictionary length is a fresh number. -/
def generateWeights (vts : Vertex → Option Vertex) (dim : Vertex → Int × Int → Option Nat)
    (keys : List Vertex) : Option (List (WKey × (Nat × Nat))) :=
  (keys.flatMap (fun c => dirs.map (fun d => (c, d)))).foldlM (genOne vts dim) []

/-- `weight`, L658-L670. -/
def weight (vts : Vertex → Option Vertex) (ws : List (WKey × (Nat × Nat))) (k : WKey) :
    Option (Nat × Nat) :=
  if k.2 ∈ dirs then (vts k.1).bind (fun s => dictFind ws (s, k.2)) else none

/-- A weight matrix by its entries. -/
abbrev Mat (K : Type) := Nat → Nat → K

/-- `absorb_weights` for one site, L637-L648: `einsum('smnop,um,ln,do,rp->suldr', A, √Wu, ...)`
where `rt` is the element-wise square root. -/
def absorbSite [CommSemiring K] (rt : K → K) (A : Tensor K) (Wu Wl Wd Wr : Mat K) : Option (Tensor K) :=
  match A.shape with
  | [p, a, b, c, e] =>
    some ⟨[p, a, b, c, e], fun idx => match idx with
      | [s, u, l, d, r] =>
        ∑ m ∈ Finset.range a, ∑ n ∈ Finset.range b, ∑ o ∈ Finset.range c, ∑ q ∈ Finset.range e,
          A.val [s, m, n, o, q] * rt (Wu u m) * rt (Wl l n) * rt (Wd d o) * rt (Wr r q)
      | _ => 0⟩
  | _ => none

/-- `absorb_weights` for the whole state, L636-L648. `heap` gives the current matrix of each weight
object. `none`: a lookup fails. -/
def absorbWeights [CommSemiring K] (rt : K → K) (vts : Vertex → Option Vertex)
    (ws : List (WKey × (Nat × Nat))) (heap : Nat → Mat K) (sites : List (Vertex × Tensor K)) :
    Option (List (Vertex × Tensor K)) :=
  sites.mapM (fun e => do
    let s ← vts e.1
    let A ← dictFind sites s
    let wu ← weight vts ws (e.1, (0, -1))
    let wl ← weight vts ws (e.1, (-1, 0))
    let wd ← weight vts ws (e.1, (0, 1))
    let wr ← weight vts ws (e.1, (1, 0))
    let A' ← absorbSite rt A (heap wu.1) (heap wl.1) (heap wd.1) (heap wr.1)
    some (e.1, A'))

end Verif.State
