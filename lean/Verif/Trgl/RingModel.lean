import Verif.Trgl.NnnModel
import Verif.Models.PlaqModel
/-
Model of the terms of /repo/models/spin_triangular.py with the interaction on rhombi: `get_h` (L460-L495), `eval_j1j2j4jX_per_site_legacy` (L265-L349, `compressed <= 0`, `unroll` a
non-empty dictionary), `energy_per_site` (L505-L616) for `j4 != 0` and `unroll=True`.
-/
namespace Verif.Trgl
open Tensor Ctm Rdm Models

/-- L470 `SSSS`: `einsum('ijab,klcd->ijklabcd', SS, SS)`. -/
noncomputable def ssss (p : Nat) : Option (Tensor ℂ) := einsum [(ssP p, [0, 1, 4, 5]), (ssP p, [2, 3, 6, 7])] [0, 1, 2, 3, 4, 5, 6, 7]

/-- L479 `h_p`. -/
noncomputable def hRing (p : Nat) : Option (Tensor ℂ) := do
  let x ← ssss p
  let y ← permute [0, 3, 2, 1, 4, 7, 6, 5] x
  let z ← permute [0, 2, 1, 3, 4, 6, 5, 7] x
  return lin (List.replicate 8 p) [(1, x), (1, y), (-1, z)]

/-- L469, L483-L485 `h_nn_only`. -/
noncomputable def hSides (p : Nat) : Option (Tensor ℂ) := do
  let x ← pairOpP p (ssP p)
  let y ← permute [0, 3, 2, 1, 4, 7, 6, 5] x
  let z ← permute [2, 3, 0, 1, 6, 7, 4, 5] x
  let w ← permute [2, 0, 1, 3, 6, 4, 5, 7] x
  return lin (List.replicate 8 p) [(1, x), (1, y), (1, z), (1, w)]

/-- L293-L295, L324-L325: `einsum(rdm, [0,10,12,14,1,11,13,15], A, [2,10], A, [3,11], B, [4,12], B, [5,13], C, [6,14], C, [7,15], [0,2,4,6,1,3,5,7])`. -/
def rot123 (p : Nat) (r : Tensor ℂ) (A B C : Su2.Op p) : Option (Tensor ℂ) :=
  einsum [(r, [0, 10, 12, 14, 1, 11, 13, 15]), (opP p A, [2, 10]), (opP p A, [3, 11]), (opP p B, [4, 12]), (opP p B, [5, 13]), (opP p C, [6, 14]), (opP p C, [7, 15])]
    [0, 2, 4, 6, 1, 3, 5, 7]

/-- L338-L340: `einsum(rdm, [0,10,4,12,1,11,5,13], A, [2,10], A, [3,11], C, [6,12], C, [7,13], [0,2,4,6,1,3,5,7])`. -/
def rot13 (p : Nat) (r : Tensor ℂ) (A C : Su2.Op p) : Option (Tensor ℂ) :=
  einsum [(r, [0, 10, 4, 12, 1, 11, 5, 13]), (opP p A, [2, 10]), (opP p A, [3, 11]), (opP p C, [6, 12]), (opP p C, [7, 13])] [0, 2, 4, 6, 1, 3, 5, 7]

/-- L296, L298, L326, L328, L341, L343: `einsum('ijklabcd,abcdijkl', rdm, op)`. -/
def all4 (r op : Tensor ℂ) : Option ℂ := do return (← einsum [(r, [0, 1, 2, 3, 4, 5, 6, 7]), (op, [4, 5, 6, 7, 0, 1, 2, 3])] []).val []
/-- L297, L327, L342: `einsum('ibkdabcd,acik', rdm, op)`. -/
def long2 (r op : Tensor ℂ) : Option ℂ := do return (← einsum [(r, [0, 1, 2, 3, 4, 1, 6, 3]), (op, [4, 6, 0, 2])] []).val []
/-- L301, L329: `einsum('ijclabcd,abdijl', rdm, op)`. -/
def tri013 (r op : Tensor ℂ) : Option ℂ := do return (← einsum [(r, [0, 1, 6, 3, 4, 5, 6, 7]), (op, [4, 5, 7, 0, 1, 3])] []).val []
/-- L302, L330: `einsum('ajklabcd,bcdjkl', rdm, op)`. -/
def tri123 (r op : Tensor ℂ) : Option ℂ := do return (← einsum [(r, [4, 1, 2, 3, 4, 5, 6, 7]), (op, [5, 6, 7, 1, 2, 3])] []).val []
/-- L346: `einsum('ijclabcd,adbilj', rdm, op)`. -/
def tri031 (r op : Tensor ℂ) : Option ℂ := do return (← einsum [(r, [0, 1, 6, 3, 4, 5, 6, 7]), (op, [4, 7, 5, 0, 3, 1])] []).val []
/-- L347: `einsum('ajklabcd,bdcjlk', rdm, op)`. -/
def tri132 (r op : Tensor ℂ) : Option ℂ := do return (← einsum [(r, [4, 1, 2, 3, 4, 5, 6, 7]), (op, [5, 7, 6, 1, 3, 2])] []).val []

/-- The four sums of `eval_j1j2j4jX_per_site_legacy`. -/
structure Terms where
  nn : ℂ
  nnn : ℂ
  chi : ℂ
  p : ℂ

/-- The operators `h_nn_only`, `SS`, `h_chi`, `h_p`. -/
structure RingOps where
  nn : Tensor ℂ
  ss : Tensor ℂ
  chi : Tensor ℂ
  p : Tensor ℂ

/-- L460-L495. -/
noncomputable def ringOps (p : Nat) : Option RingOps := do
  let nn ← hSides p
  let chi ← KagomeRdm.tripleT p
  let h ← hRing p
  return ⟨nn, ssP p, chi, h⟩

/-- L293-L302, L324-L330: the terms of the rhombi with two horizontal or two vertical sides; the axes of the density matrix are in the order `s0 s1 s2 s3`. -/
noncomputable def slanted (p : Nat) (o : RingOps) (r : Tensor ℂ) (A B C : Su2.Op p) : Option Terms := do
  let r ← rot123 p r A B C
  let nn ← all4 r o.nn
  let nnn ← long2 r o.ss
  let e ← all4 r o.p
  let x ← tri013 r o.chi
  let y ← tri123 r o.chi
  return ⟨nn, nnn, x + y, e⟩

/-- L338-L347: the terms of the plaquette. -/
noncomputable def upright (p : Nat) (o : RingOps) (r : Tensor ℂ) (A C : Su2.Op p) : Option Terms := do
  let r ← rot13 p r A C
  let nn ← all4 r o.nn
  let nnn ← long2 r o.ss
  let e ← all4 r o.p
  let x ← tri031 r o.chi
  let y ← tri132 r o.chi
  return ⟨nn, nnn, x + y, e⟩

/-- L265-L349 `eval_j1j2j4jX_per_site_legacy`. -/
noncomputable def ringPerSite (eigh : Tensor ℂ → List ℝ × Tensor ℂ) (p : Nat) (o : RingOps) (st : State ℂ) (env : Env ℂ) (R Rinv : Su2.Op p) (c : Coord) : Except Err Terms := do
  let r ← rdm2x3 eigh false st env c [1, 2, 3, 4]
  let r ← lift (permute [2, 3, 1, 0, 6, 7, 5, 4] r)
  let a ← lift (slanted p o r R (R * R * R) (R * R))
  let s ← rdm3x2 eigh false st env c [1, 2, 3, 4]
  let s ← lift (permute [1, 3, 2, 0, 5, 7, 6, 4] s)
  let b ← lift (slanted p o s (R * R) (R * R * R) R)
  let t ← rdm2x2 eigh false st env c [0, 1, 2, 3]
  let t ← lift (permute [0, 1, 3, 2, 4, 5, 7, 6] t)
  let d ← lift (upright p o t R Rinv)
  return ⟨(a.nn + b.nn + d.nn) / 4, a.nnn + b.nnn + d.nnn, (a.chi + b.chi + d.chi) / 3, a.p + b.p + d.p⟩

/-- L568-L579: the loop over the cell. -/
noncomputable def cellRing (eigh : Tensor ℂ → List ℝ × Tensor ℂ) (p : Nat) (o : RingOps) (R Rinv : Su2.Op p) (st : State ℂ) (env : Env ℂ) : Except Err Terms :=
  st.keys.foldlM (fun e c => do
    let z ← ringPerSite eigh p o st env R Rinv c
    return ⟨e.nn + z.nn, e.nnn + z.nnn, e.chi + z.chi, e.p + z.p⟩) ⟨0, 0, 0, 0⟩

open Classical in
/-- L505-L616 `energy_per_site` for all couplings. -/
noncomputable def energyJ4 (eigh : Tensor ℂ → List ℝ × Tensor ℂ) (m : Couplings) (j2 j4 : ℝ) (q : ℝ × ℝ) (st : State ℂ) (env : Env ℂ) : Except Err ℝ :=
  if j4 ≠ 0 ∧ m.diag ≠ 1 then .error .raise
  else if j4 ≠ 0 then do
    let o ← lift (ringOps m.p)
    let e ← cellRing eigh m.p o (rotation m.p q.1) (rotation m.p q.1).conjTranspose st env
    if st.keys = [] then .error .raise
    else .ok (((m.j1 : ℂ) * (e.nn + m.diag * 0) + j2 * e.nnn + j4 * e.p + m.jchi * e.chi) / (st.keys.length : ℂ)).re
  else energyJ2 eigh m j2 q st env

end Verif.Trgl
