import Verif.State.LcBpModel
import Verif.State.LcSpec
/-
Independent specification for bipartite states with matrices on the auxiliary indices of the second site.
-/
namespace Verif.LcBp
open Verif.State Verif.Lc
open Verif.Lattice (Vertex)
variable {R : Type}

/-- The complex number a pair stands for. -/
noncomputable def Spec.z (x : ℝ × ℝ) : ℂ := ⟨x.1, x.2⟩

/-- The matrix on the bonds: the `k`-th coefficient times the `k`-th bond tensor, summed. -/
noncomputable def Spec.matrix (bond : List (Elem ℝ)) (c : Nat → ℝ × ℝ) (i j : Nat) : ℂ :=
  ∑ k : Fin bond.length, Spec.z (c k) * Spec.z (bond[k].t.t.val [i, j])

/-- The tensor `A` with the matrix `b` attached to each of its four auxiliary indices. -/
noncomputable def Spec.dressed (D : Nat) (b : Nat → Nat → ℂ) (A : List Nat → ℂ) (s : Nat) (f : Fin 4 → Nat) : ℂ :=
  ∑ h : Fin 4 → Fin D, (∏ i, b (f i) (h i)) * A [s, h 0, h 1, h 2, h 3]

/-- The sites are those built from the current coefficients and elementary tensors, the recorded irreps are those of the elementary tensors, and the tiling is
the one of the class. -/
structure Spec.Consistent [CommRing R] (st : BState R) : Prop where
  irreps : pgIrreps st.site = some st.irreps
  sites : buildSites st.irreps st.site st.bond st.cSite st.cBond = some st.sites
  tiling : ∀ v, st.vts v = some (latticeToSite v)
  cell : st.lX = 2 ∧ st.lY = 1

/-- Every state a program can reach: construction, reading a file, restoring a checkpoint, moving to a device, adding noise, copying. -/
inductive Spec.Reachable [CommRing R] (F : NumFmt R) : BState R → Prop
  | construct {es eb cs cb st} : mk es eb cs cb = some st → Reachable F st
  | read {j aux st} : readBp F j aux = some st → Reachable F st
  | restore {st ck st'} : Reachable F st → loadCheckpoint st ck = some st' → Reachable F st'
  | move {st dev st'} : Reachable F st → moveTo dev st = some st' → Reachable F st'
  | noise {st ps pb ss sb st'} : Reachable F st → addNoise ps pb ss sb st = some st' → Reachable F st'
  | copy {st st'} : Reachable F st → clone st = some st' → Reachable F st'

/-- Elementary tensors and coefficients are real, as the class documents. -/
structure Spec.Real [Zero R] (st : BState R) : Prop where
  site : ∀ e ∈ st.site, e.t.cplx = false ∧ ∀ idx, (e.t.t.val idx).2 = 0
  bond : ∀ e ∈ st.bond, e.t.cplx = false ∧ ∀ idx, (e.t.t.val idx).2 = 0
  cSite : st.cSite.cplx = false ∧ ∀ idx, (st.cSite.t.val idx).2 = 0
  cBond : st.cBond.cplx = false ∧ ∀ idx, (st.cBond.t.val idx).2 = 0

/-- Site tensors have physical dimension `p` and four auxiliary axes of dimension `D`; bond tensors are square matrices of that dimension. -/
structure Spec.Square (p D : Nat) (st : BState R) : Prop where
  site : ∀ e ∈ st.site, e.t.t.shape = [p, D, D, D, D]
  bond : ∀ e ∈ st.bond, e.t.t.shape = [D, D]

/-- The same meta data, dtype and entries. -/
def Spec.SameElem (e e' : Elem R) : Prop := e'.pg = e.pg ∧ e'.info = e.info ∧ e'.t.cplx = e.t.cplx ∧ e.t.t.Same e'.t.t

/-- The same dtype and entries. -/
def Spec.SameT (X Y : CTensor R) : Prop := Y.cplx = X.cplx ∧ X.t.Same Y.t

end Verif.LcBp
