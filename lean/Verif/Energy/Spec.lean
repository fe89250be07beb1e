import Verif.Energy.Model
import Verif.Corrf.Spec
/-
Specification of the energies: spin-1/2 matrices, expectation values of operators in a density matrix of four sites

    0 1
    2 3

and the Hamiltonians of the documentation, j1j2.py L66-L89 and ising.py L23-L55. Operators are given by matrix elements, row (bra) first. A
density matrix has the ket indices first, so that the expectation value of `O` is `sum rho[s,t] O[t,s]`.
-/
namespace Verif.Energy.Spec
open Tensor Ctm

/-- The spin matrices. -/
noncomputable def sz (i j : Nat) : ℂ := if i = j then (if i = 0 then 1 / 2 else -1 / 2) else 0
noncomputable def sx (i j : Nat) : ℂ := if i = j then 0 else 1 / 2
noncomputable def sy (i j : Nat) : ℂ := if i < j then -Complex.I / 2 else if j < i then Complex.I / 2 else 0

/-- `delta Sz Sz + Sx Sx + Sy Sy`. -/
noncomputable def heis (delta : ℝ) (a b a' b' : Nat) : ℂ := delta * (sz a a' * sz b b') + sx a a' * sx b b' + sy a a' * sy b b'

/-- `h . S` with `h = [h^z, h^x, h^y]`. -/
noncomputable def field (h : Fin 3 → ℝ) (a a' : Nat) : ℂ := h 0 * sz a a' + h 1 * sx a a' + h 2 * sy a a'

/-- The field with its component along y reversed. -/
def flipY (h : Fin 3 → ℝ) : Fin 3 → ℝ
  | 0 => h 0
  | 1 => h 1
  | 2 => -h 2

/-- The operator `O` on site `m` of the plaquette and the identity on the others. -/
def onSite (m : Nat) (O : Nat → Nat → ℂ) (t s : List Nat) : ℂ :=
  if ∀ k ∈ ([0, 1, 2, 3] : List Nat), k ≠ m → t.getD k 0 = s.getD k 0 then O (t.getD m 0) (s.getD m 0) else 0

/-- The operator `O` on the sites `m` and `n` of the plaquette and the identity on the others. -/
def onBond (m n : Nat) (O : Nat → Nat → Nat → Nat → ℂ) (t s : List Nat) : ℂ :=
  if ∀ k ∈ ([0, 1, 2, 3] : List Nat), k ≠ m → k ≠ n → t.getD k 0 = s.getD k 0 then O (t.getD m 0) (t.getD n 0) (s.getD m 0) (s.getD n 0) else 0

/-- The operator that moves the spin of every site of the plaquette to the next site in clockwise order `0, 1, 3, 2`. -/
def clockwise (t s : List Nat) : ℂ :=
  if t.getD 1 0 = s.getD 0 0 ∧ t.getD 3 0 = s.getD 1 0 ∧ t.getD 2 0 = s.getD 3 0 ∧ t.getD 0 0 = s.getD 2 0 then 1 else 0

/-- `i (P - P^-1)`; the inverse of a permutation matrix is its transpose. -/
def chirality (t s : List Nat) : ℂ := Complex.I * (clockwise t s - clockwise s t)

/-- `sigma^z_0 sigma^z_1 sigma^z_2 sigma^z_3` with `sigma^z = 2 S^z`. -/
noncomputable def fourZ (t s : List Nat) : ℂ :=
  (2 * sz (t.getD 0 0) (s.getD 0 0)) * (2 * sz (t.getD 1 0) (s.getD 1 0)) * (2 * sz (t.getD 2 0) (s.getD 2 0)) * (2 * sz (t.getD 3 0) (s.getD 3 0))

/-- `Tr(rho O)`. -/
def expect (r : Tensor ℂ) (O : List Nat → List Nat → ℂ) : ℂ :=
  sumIdx [2, 2, 2, 2] (fun s => sumIdx [2, 2, 2, 2] (fun t => r.val (s ++ t) * O t s))

/-- The density matrices of all plaquettes agree on the bonds they share: the lower bond of a plaquette is the upper bond of the plaquette below,
the right bond is the left bond of the plaquette to the right. -/
structure Consistent (st : State ℂ) (r : Coord → Tensor ℂ) : Prop where
  down : ∀ c ∈ st.keys, ∀ O, expect (r c) (onBond 2 3 O) = expect (r (st.vts (c.1, c.2 + 1))) (onBond 0 1 O)
  right : ∀ c ∈ st.keys, ∀ O, expect (r c) (onBond 1 3 O) = expect (r (st.vts (c.1 + 1, c.2))) (onBond 0 2 O)

/-- The checkerboard is compatible with the tiling. -/
def Bipartite (st : State ℂ) : Prop := ∀ c : Coord, ((st.vts c).1 + (st.vts c).2) % 2 = (c.1 + c.2) % 2

/-- All terms of the Hamiltonian that belong to one site: the bonds to the right and down, the two diagonal bonds of the plaquette, the
chirality of the plaquette and the fields. `r` is the density matrix of the plaquette whose upper left site is `c`. -/
noncomputable def siteEnergy (m : J1J2) (c : Coord) (r : Tensor ℂ) : ℂ :=
  m.j1 * (expect r (onBond 0 1 (heis m.deltaZz)) + expect r (onBond 0 2 (heis m.deltaZz)))
    + m.j2 * (expect r (onBond 0 3 (heis 1)) + expect r (onBond 1 2 (heis 1)))
    + m.lmbd * expect r chirality
    - (if (c.1 + c.2) % 2 = 0 then 1 else -1) * m.hzStag * expect r (onSite 0 sz)
    + expect r (onSite 0 (field m.hUni))

/-- The energy per site of the cell without third neighbours. -/
noncomputable def energy (m : J1J2) (st : State ℂ) (r : Coord → Tensor ℂ) : ℂ := (st.keys.map (fun c => siteEnergy m c (r c))).sum / (st.keys.length : ℂ)

/-- The raising and lowering operators. -/
noncomputable def sp (i j : Nat) : ℂ := if i = 0 ∧ j = 1 then 1 else 0
noncomputable def sm (i j : Nat) : ℂ := if i = 1 ∧ j = 0 then 1 else 0

/-- `S.S` of the sites `c` and `c + 2 d`: `Sz Sz + (S+ S- + S- S+)/2`. -/
noncomputable def exchange (N : Corrf.Spec.Tensors ℂ) (D : Ctm.Spec.Dims) (d : Dir) (c : Coord) : ℂ :=
  (Corrf.Spec.twoPoint N D d c sz sz 1 + 1 / 2 * (Corrf.Spec.twoPoint N D d c sp sm 1 + Corrf.Spec.twoPoint N D d c sm sp 1)) / Corrf.Spec.norm N D d c 3

/-- The third-neighbour bonds of one site: two sites to the right and two sites down. -/
noncomputable def third (N : Corrf.Spec.Tensors ℂ) (D : Ctm.Spec.Dims) (c : Coord) : ℂ := exchange N D .right c + exchange N D .down c

/-- The average of the third-neighbour bonds over the cell. -/
noncomputable def thirdEnergy (N : Corrf.Spec.Tensors ℂ) (D : Ctm.Spec.Dims) (st : State ℂ) : ℂ := (st.keys.map (third N D)).sum / (st.keys.length : ℂ)

/-- The terms of the Ising model per site: `-sum 4 Sz Sz + q sum 16 Sz Sz Sz Sz - hx sum 2 Sx`. -/
noncomputable def isingSite (hx q : ℝ) (r : Tensor ℂ) : ℂ :=
  - (expect r (onBond 0 1 (fun a b a' b' => 4 * (sz a a' * sz b b'))) + expect r (onBond 0 2 (fun a b a' b' => 4 * (sz a a' * sz b b'))))
    + q * expect r fourZ - hx * expect r (onSite 0 (fun a a' => 2 * sx a a'))

end Verif.Energy.Spec
