import Verif.State.LcModel
import Verif.Group.PgSpec
import Mathlib.Data.Complex.Basic
/-
Independent specification for states built as linear combinations of elementary tensors.
-/
namespace Verif.Lc
open Verif.State
open Verif.Lattice (Vertex)
variable {R : Type}

/-- Auxiliary axis `k` of `Y` holds what auxiliary axis `aux[k]` of `X` holds; `[0, 1, 2, 3]` means equal tensors. -/
def Spec.Relabelled (aux : List Nat) (p D : Nat) (X Y : Tensor (R × R)) : Prop :=
  X.shape = [p, D, D, D, D] ∧ Y.shape = [p, D, D, D, D] ∧
  ∀ (s : Nat) (a : Nat → Nat), s < p → (∀ k, k < 4 → a k < D) → Y.val (s :: aux.map a) = X.val [s, a 0, a 1, a 2, a 3]

/-- Two elementary tensors with the same meta data and dtype, equal up to the relabelling of the auxiliary axes. -/
def Spec.ElemRel (aux : List Nat) (p D : Nat) (e e' : Elem R) : Prop :=
  e'.pg = e.pg ∧ e'.info = e.info ∧ e'.t.cplx = e.t.cplx ∧ Spec.Relabelled aux p D e.t.t e'.t.t

/-- The same for sites at the same coordinate. -/
def Spec.SiteRel (aux : List Nat) (p D : Nat) (e e' : Vertex × CTensor R) : Prop :=
  e'.1 = e.1 ∧ e'.2.cplx = e.2.cplx ∧ Spec.Relabelled aux p D e.2.t e'.2.t

/-- Equal entries at the same coordinate. -/
def Spec.Equal (e e' : Vertex × CTensor R) : Prop := e'.1 = e.1 ∧ e'.2.cplx = e.2.cplx ∧ e.2.t.Same e'.2.t

/-- All elementary tensors have physical dimension `p` and four auxiliary axes of dimension `D`. -/
def Spec.Square (p D : Nat) (st : LState R) : Prop := ∀ e ∈ st.elems, e.t.t.shape = [p, D, D, D, D]

/-- Elementary tensors and coefficients are real, as the class documents. -/
structure Spec.Real [Zero R] (st : LState R) : Prop where
  elems  : ∀ e ∈ st.elems, e.t.cplx = false ∧ ∀ idx, (e.t.t.val idx).2 = 0
  coeffs : ∀ e ∈ st.coeffs, e.2.cplx = false ∧ ∀ idx, (e.2.t.val idx).2 = 0

/-- The contribution of an elementary tensor to the documented sum: `e` itself for `A_1`, `i e` for `A_2`. -/
def Spec.weighted [Neg R] (e : Elem R) (idx : List Nat) : R × R :=
  if e.pg = some ['A', '_', '2'] then (-(e.t.t.val idx).2, (e.t.t.val idx).1) else e.t.t.val idx

/-- The documented linear combination: the `k`-th coefficient times the `k`-th elementary tensor, summed (product of complex numbers). -/
def Spec.combination [CommRing R] (elems : List (Elem R)) (c : Nat → R × R) (idx : List Nat) : R × R :=
  ∑ k : Fin elems.length, ((c k).1 * (Spec.weighted elems[k] idx).1 - (c k).2 * (Spec.weighted elems[k] idx).2,
    (c k).1 * (Spec.weighted elems[k] idx).2 + (c k).2 * (Spec.weighted elems[k] idx).1)

/-- Real and imaginary part of a tensor. -/
def Spec.re (X : Tensor (R × R)) : Tensor R := ⟨X.shape, fun i => (X.val i).1⟩
def Spec.im (X : Tensor (R × R)) : Tensor R := ⟨X.shape, fun i => (X.val i).2⟩

/-- An elementary tensor is a real representative of the irrep it claims. -/
def Spec.Representative [CommRing R] (p D : Nat) (e : Elem R) : Prop :=
  (∀ idx, (e.t.t.val idx).2 = 0) ∧
  ((e.pg = some ['A', '_', '1'] ∧ Pg.Spec.Transforms Pg.Spec.chA1 p D (Spec.re e.t.t)) ∨
   (e.pg = some ['A', '_', '2'] ∧ Pg.Spec.Transforms Pg.Spec.chA2 p D (Spec.re e.t.t)))

/-- The tensor of complex numbers that a tensor of pairs stands for. -/
noncomputable def Spec.toComplex (X : Tensor (ℝ × ℝ)) : Tensor ℂ := ⟨X.shape, fun i => ⟨(X.val i).1, (X.val i).2⟩⟩

/-- The sites are those built from the current coefficients and elementary tensors, and the recorded irreps are those of the elementary tensors. -/
def Spec.Consistent [CommRing R] (st : LState R) : Prop :=
  pgIrreps st.elems = some st.irreps ∧ buildSites st.irreps st.elems st.coeffs = some st.sites

/-- Every state a program can reach: construction, reading a file, restoring a checkpoint, adding noise, copying. -/
inductive Spec.Reachable [CommRing R] (F : NumFmt R) : LState R → Prop
  | construct {es cs st} : mk es cs = some st → Reachable F st
  | read {j aux st} : readLc F j aux = some st → Reachable F st
  | restore {st ck st'} : Reachable F st → loadCheckpoint st ck = some st' → Reachable F st'
  | noise {st pert scale st'} : Reachable F st → addNoise pert scale st = some st' → Reachable F st'
  | copy {st st'} : Reachable F st → clone st = some st' → Reachable F st'

end Verif.Lc
