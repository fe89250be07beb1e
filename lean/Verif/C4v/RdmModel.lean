import Verif.C4v.Model
import Verif.Rdm.Model
/-
Model of the reduced density matrices of one-site C4v symmetric states, /repo/ctm/one_site_c4v/rdm_c4v.py. `a` is the site tensor, the first (and only) one of
`state.sites`. `_sym_pos_def_rdm` is the function of ctm/generic/rdm.py, modelled in `Rdm/Model`. Devices and logging are not modelled.
-/
namespace Verif.C4v
open Tensor Ctm Rdm
variable {K : Type} [RCLike K]

/-- L13-L93 `_get_open_C2x2_LU_sl`. -/
def openSl (C T a : Tensor K) : Option (Tensor K) := do
  let x ← tensordot [1] [1] C T
  let x ← tensordot [0] [0] x T
  let x ← view [x.size 0, a.size 1, a.size 1, x.size 2, a.size 2, a.size 2] x
  let x ← tensordot [1, 4] [1, 2] x a
  let x ← tensordot [1, 3] [1, 2] x a.conj
  let y ← permute [1, 3, 6, 0, 4, 7, 2, 5] x
  view [x.size 1 * a.size 3 ^ 2, x.size 0 * a.size 4 ^ 2, a.size 0, a.size 0] y

/-- L95-L136 `_get_open_C2x2_LU_dl`. -/
def openDl (C T a : Tensor K) : Option (Tensor K) := do
  let A ← dlOpen a
  let x ← tensordot [1] [1] C T
  let x ← tensordot [0] [0] x T
  let x ← tensordot [1, 3] [0, 1] x A
  let y ← permute [1, 2, 0, 3, 4, 5] x
  view [T.size 1 * A.size 2, T.size 1 * A.size 3, a.size 0, a.size 0] y

/-- `f_c2x2` of the low-memory variants: `openSl` or `openDl`. -/
def openC (sl : Bool) (C T a : Tensor K) : Option (Tensor K) := if sl then openSl C T a else openDl C T a

/-- L1233, L1401: `torch.einsum('abii->ab',C2x2)`. -/
def closeC (x : Tensor K) : Option (Tensor K) := einsum [(x, [0, 1, 2, 2])] [0, 1]

/-- L1204-L1277 `_rdm2x2_NN_lowmem` before the symmetrisation. -/
def rawNN (sl : Bool) (a C T : Tensor K) : Option (Tensor K) := do
  let x ← openC sl C T a
  let c ← closeC x
  let x ← view [T.size 1 * a.size 2 ^ 2, T.size 1 * a.size 3 ^ 2, a.size 0 ^ 2] x
  let r ← tensordot [1] [0] c x
  let r ← tensordot [1] [0] c r
  let r ← tensordot [0, 1] [1, 0] x r
  let r ← view [a.size 0, a.size 0, a.size 0, a.size 0] r
  permute [0, 2, 1, 3] r

/-- L1117-L1283 `rdm2x2_NN_lowmem`, `rdm2x2_NN_lowmem_sl`. -/
noncomputable def rdmNN (eigh : Tensor K → List ℝ × Tensor K) (sl spd : Bool) (a : Tensor K) (env : C4v.Env K) : Except Err (Tensor K) := do
  symRdm eigh spd (← lift (rawNN sl a env.C env.T))

/-- L1373-L1437 `_rdm2x2_NNN_lowmem` before the symmetrisation. -/
def rawNNN (sl : Bool) (a C T : Tensor K) : Option (Tensor K) := do
  let x ← openC sl C T a
  let c ← closeC x
  let x ← view [T.size 1 * a.size 2 ^ 2, T.size 1 * a.size 3 ^ 2, a.size 0 ^ 2] x
  let x ← tensordot [1] [0] c x
  let r ← tensordot [0, 1] [1, 0] x x
  let r ← view [a.size 0, a.size 0, a.size 0, a.size 0] r
  permute [0, 2, 1, 3] r

/-- L1286-L1443 `rdm2x2_NNN_lowmem`, `rdm2x2_NNN_lowmem_sl`. -/
noncomputable def rdmNNN (eigh : Tensor K → List ℝ × Tensor K) (sl spd : Bool) (a : Tensor K) (env : C4v.Env K) : Except Err (Tensor K) := do
  symRdm eigh spd (← lift (rawNNN sl a env.C env.T))

/-- L1485-L1539 of `rdm2x2`: the contraction. -/
def raw2x2 (a C T : Tensor K) : Option (Tensor K) := do
  let x ← openDl C T a
  let u ← tensordot [1] [0] x x
  let u ← permute [0, 3, 1, 2, 4, 5] u
  let r ← tensordot [0, 1] [1, 0] u u
  permute [0, 2, 6, 4, 1, 3, 7, 5] r

/-- L1446-L1545 `rdm2x2`. -/
noncomputable def rdm2x2 (eigh : Tensor K → List ℝ × Tensor K) (spd : Bool) (a : Tensor K) (env : C4v.Env K) : Except Err (Tensor K) := do
  symRdm eigh spd (← lift (raw2x2 a env.C env.T))

/-- L199-L207, L299-L306: the edge `C T C`. -/
def ctc (C T : Tensor K) : Option (Tensor K) := do
  let x ← tensordot [0] [0] C T
  tensordot [1] [0] x C

/-- L168-L259 of `rdm1x1`: the contraction. -/
def raw1Dl (a C T : Tensor K) : Option (Tensor K) := do
  let e ← ctc C T
  let r ← tensordot [2] [0] e T
  let A ← dlOpen a
  let r ← tensordot [1, 3] [1, 2] r A
  let r ← tensordot [1, 2] [0, 2] T r
  tensordot [0, 1, 2] [2, 0, 1] r e

/-- L266-L386 of `rdm1x1_sl`: the contraction. -/
def raw1Sl (a C T : Tensor K) : Option (Tensor K) := do
  let e ← ctc C T
  let r ← tensordot [2] [0] e T
  let r ← view [r.size 0, a.size 2, a.size 2, r.size 2, a.size 3, a.size 3] r
  let r ← tensordot [1, 4] [2, 3] r a
  let r ← tensordot [1, 3] [2, 3] r a.conj
  let y ← permute [0, 1, 3, 6, 4, 7, 2, 5] r
  let r ← view [r.size 0, r.size 1, a.size 1 ^ 2, a.size 4 ^ 2, a.size 0, a.size 0] y
  let r ← tensordot [0, 2] [0, 2] T r
  tensordot [0, 1, 2] [2, 0, 1] r e

/-- L168-L391 `rdm1x1`, `rdm1x1_sl`. -/
noncomputable def rdm1x1 (eigh : Tensor K → List ℝ × Tensor K) (sl spd : Bool) (a : Tensor K) (env : C4v.Env K) : Except Err (Tensor K) := do
  symRdm eigh spd (← lift (if sl then raw1Sl a env.C env.T else raw1Dl a env.C env.T))

/-- L456-L504 of `rdm2x1` and L732-L779 of `rdm3x1`: the left half. -/
def halfDl (a C T : Tensor K) : Option (Tensor K) := do
  let A ← dlOpen a
  let x ← tensordot [1] [1] C T
  let x ← tensordot [0] [0] x T
  let x ← tensordot [1, 3] [0, 1] x A
  let x ← permute [1, 2, 0, 3, 4, 5] x
  let y ← tensordot [1] [0] C T
  tensordot [0, 2] [0, 1] y x

/-- L588-L637 of `rdm2x1_sl`. -/
def halfSl (a C T : Tensor K) : Option (Tensor K) := do
  let x ← tensordot [1] [1] C T
  let x ← tensordot [0] [0] x T
  let x ← view [x.size 0, a.size 1, a.size 1, x.size 2, a.size 2, a.size 2] x
  let x ← tensordot [1, 4] [1, 2] x a
  let x ← tensordot [1, 3] [1, 2] x a.conj
  let y ← permute [1, 3, 6, 0, 4, 7, 2, 5] x
  let x ← view [x.size 1, a.size 3 ^ 2, x.size 0, a.size 4 ^ 2, a.size 0, a.size 0] y
  let y ← tensordot [1] [0] C T
  tensordot [0, 2] [0, 1] y x

/-- L394-L522, L530-L658: `rdm2x1`, `rdm2x1_sl` before the symmetrisation. -/
def raw2x1 (sl : Bool) (a C T : Tensor K) : Option (Tensor K) := do
  let h ← if sl then halfSl a C T else halfDl a C T
  let r ← tensordot [0, 1, 2] [1, 0, 2] h h
  permute [0, 2, 1, 3] r

/-- L394-L664 `rdm2x1`, `rdm2x1_sl`. -/
noncomputable def rdm2x1 (eigh : Tensor K → List ℝ × Tensor K) (sl spd : Bool) (a : Tensor K) (env : C4v.Env K) : Except Err (Tensor K) := do
  symRdm eigh spd (← lift (raw2x1 sl a env.C env.T))

/-- L667-L821 of `rdm3x1`. -/
def raw3Dl (a C T : Tensor K) : Option (Tensor K) := do
  let Ao ← dlOpen a
  let A ← einsum [(Ao, [0, 1, 2, 3, 4, 4])] [0, 1, 2, 3]
  let h ← halfDl a C T
  let r ← tensordot [0] [0] T h
  let r ← tensordot [1, 2] [3, 1] A r
  let r ← tensordot [1, 2] [3, 0] T r
  let r ← tensordot [0, 1, 2] [0, 2, 1] r h
  permute [0, 2, 1, 3] r

/-- L887-L936 of `rdm3x1_sl`: as `halfSl`, but the two layers of the horizontal index stay apart (L917-L918). -/
def halfSplit (a C T : Tensor K) : Option (Tensor K) := do
  let x ← tensordot [1] [1] C T
  let x ← tensordot [0] [0] x T
  let x ← view [x.size 0, a.size 1, a.size 1, x.size 2, a.size 2, a.size 2] x
  let x ← tensordot [1, 4] [1, 2] x a
  let x ← tensordot [1, 3] [1, 2] x a.conj
  let y ← permute [1, 3, 6, 0, 4, 7, 2, 5] x
  let x ← view [x.size 1, a.size 3 ^ 2, x.size 0, a.size 4, a.size 4, a.size 0, a.size 0] y
  let y ← tensordot [1] [0] C T
  tensordot [0, 2] [0, 1] y x

/-- L829-L1005 of `rdm3x1_sl`. -/
def raw3Sl (a C T : Tensor K) : Option (Tensor K) := do
  let h ← halfSplit a C T
  let T ← view [T.size 0, T.size 1, a.size 1, a.size 1] T
  let r ← tensordot [0] [0] T h
  let r ← tensordot [2, 3] [5, 2] a.conj r
  let r ← tensordot [0, 2, 3] [0, 6, 4] a r
  let r ← tensordot [1, 2, 3] [5, 0, 2] T r
  let r ← tensordot [0, 1, 2, 3] [0, 2, 3, 1] r h
  permute [0, 2, 1, 3] r

/-- L667-L1011 `rdm3x1`, `rdm3x1_sl`. -/
noncomputable def rdm3x1 (eigh : Tensor K → List ℝ × Tensor K) (sl spd : Bool) (a : Tensor K) (env : C4v.Env K) : Except Err (Tensor K) := do
  symRdm eigh spd (← lift (if sl then raw3Sl a env.C env.T else raw3Dl a env.C env.T))

end Verif.C4v
