import Verif.Rdm.SixModel
/-
Model of the density matrices of four-site rhombi, /repo/ctm/generic/rdm_looped.py: `rdm2x3_loop_trglringex_manual` (L339-L507) and `rdm3x2_loop_trglringex_manual` (L1029-L1211).
Checkpointing (`checkpoint_unrolled`) changes no values and is not modelled.
-/
namespace Verif.Rdm
open Tensor Ctm
variable {K : Type} [RCLike K]

/-- `a[:,...,i,...,:]` with the integer `i` at axis `p`; an index out of range raises. -/
def select (p i : Nat) (A : Tensor K) : Option (Tensor K) :=
  if p < A.shape.length ∧ i < A.size p then some ⟨A.shape.eraseIdx p, fun idx => A.val (idx.insertIdx p i)⟩ else none

/-- L438-L440, L490-L498: the loop over `i_ip in range(D**2)` with `i, ip = i_ip // D, i_ip % D`, which fills the last axis of `rdm_acc`, and the sum over this axis. `rdm_acc` has the
shape `sh` and one more axis. Simplification: an assignment of a tensor of another shape raises, also where torch would broadcast axes of size one. -/
def loopSum (sh : List Nat) (D : Nat) (body : Nat → Nat → Option (Tensor K)) : Option (Tensor K) := do
  let ts ← (List.range (D * D)).mapM (fun n => do
    let t ← body (n / D) (n % D)
    if t.shape = sh then some t else none)
  return ⟨sh, fun idx => (ts.map (fun t => t.val idx)).sum⟩

/-- L442-L488 `_loop_body`. -/
def body23 (lu ru t10 t1n1 a10 a1n1 : Tensor K) (i ip : Nat) : Option (Tensor K) := do
  let x ← select 1 i a10
  let y ← select 1 ip a10
  let ta ← einsum [(t10, [0, 1, 2, 3]), (x, [8, 4, 0, 5]), (y.conj, [9, 6, 1, 7])] [2, 4, 6, 3, 5, 7, 8, 9]
  let ta ← einsum [(lu, [0, 1, 2, 3, 4, 5, 6, 7]), (ta, [3, 4, 5, 8, 9, 10, 11, 12])] [0, 1, 2, 6, 7, 8, 9, 10, 11, 12]
  let x ← select 3 i a1n1
  let y ← select 3 ip a1n1
  let tb ← einsum [(t1n1, [0, 1, 2, 3]), (x, [8, 1, 4, 5]), (y.conj, [9, 2, 6, 7])] [0, 4, 6, 3, 5, 7, 8, 9]
  let tb ← einsum [(ru, [0, 1, 2, 3, 4, 5, 6, 7]), (tb, [10, 11, 12, 0, 1, 2, 8, 9])] [10, 11, 12, 8, 9, 3, 4, 5, 6, 7]
  einsum [(ta, [0, 1, 2, 3, 4, 5, 6, 7, 8, 9]), (tb, [0, 1, 2, 12, 13, 10, 11, 5, 6, 7])] [3, 4, 8, 9, 10, 11, 12, 13]

/-- L382-L505 of `rdm2x3_loop_trglringex_manual`: the density matrix before symmetrisation. -/
def manual23 (st : State K) (env : Env K) (c : Coord) : Option (Tensor K) := do
  let lu ← cornerLU st env false (st.vts (c.1, c.2 - 1))
  let ld ← cornerLD st env true c
  let lu ← tensordot [0] [0] lu ld
  let k10 := st.vts (c.1 + 1, c.2)
  let a10 ← st.site k10
  let t10 ← env.T (k10, (0, 1))
  let t10 ← view [a10.size 3, a10.size 3, t10.size 1, t10.size 2] t10
  let k1n1 := st.vts (c.1 + 1, c.2 - 1)
  let a1n1 ← st.site k1n1
  let t1n1 ← env.T (k1n1, (0, -1))
  let t1n1 ← view [t1n1.size 0, a1n1.size 1, a1n1.size 1, t1n1.size 2] t1n1
  let a ← st.site c
  let lu ← view [t1n1.size 0, a1n1.size 2, a1n1.size 2, t10.size 2, a10.size 2, a10.size 2, a.size 0, a.size 0] lu
  let k2n1 := st.vts (c.1 + 2, c.2 - 1)
  let a2n1 ← st.site k2n1
  let ru ← cornerRU st env true k2n1
  let rd ← cornerRD st env false (st.vts (c.1 + 2, c.2))
  let ru ← tensordot [1] [0] ru rd
  let ru ← view [t1n1.size 3, a1n1.size 4, a1n1.size 4, a2n1.size 0, a2n1.size 0, t10.size 3, a10.size 4, a10.size 4] ru
  let rdm ← loopSum (List.replicate 8 (a.size 0)) (a10.size 1) (body23 lu ru t10 t1n1 a10 a1n1)
  permute [0, 2, 4, 6, 1, 3, 5, 7] rdm

/-- L339-L507 `rdm2x3_loop_trglringex_manual`. -/
noncomputable def rdm23Manual (eigh : Tensor K → List ℝ × Tensor K) (spd : Bool) (st : State K) (env : Env K) (c : Coord) : Except Err (Tensor K) := do
  symRdm eigh spd (← lift (manual23 st env c))

/-- L1147-L1192 `_loop_body`. -/
def body32 (lu rd t0n1 t1n1 a0n1 a1n1 : Tensor K) (i ip : Nat) : Option (Tensor K) := do
  let x ← select 4 i a0n1
  let y ← select 4 ip a0n1
  let ta ← einsum [(t0n1, [0, 1, 2, 3]), (x, [8, 4, 2, 5]), (y.conj, [9, 6, 3, 7])] [0, 4, 6, 1, 5, 7, 8, 9]
  let ta ← einsum [(rd, [0, 1, 2, 3, 4, 5, 6, 7]), (ta, [10, 11, 12, 3, 4, 5, 8, 9])] [0, 1, 2, 6, 7, 10, 11, 12, 8, 9]
  let x ← select 2 i a1n1
  let y ← select 2 ip a1n1
  let tb ← einsum [(t1n1, [0, 1, 2, 3]), (x, [8, 4, 5, 1]), (y.conj, [9, 6, 7, 2])] [0, 4, 6, 3, 5, 7, 8, 9]
  let tb ← einsum [(lu, [0, 1, 2, 3, 4, 5, 6, 7]), (tb, [3, 4, 5, 10, 11, 12, 8, 9])] [0, 1, 2, 6, 7, 10, 11, 12, 8, 9]
  einsum [(tb, [0, 1, 2, 6, 7, 10, 11, 12, 8, 9]), (ta, [10, 11, 12, 3, 4, 0, 1, 2, 13, 14])] [3, 4, 8, 9, 6, 7, 13, 14]

/-- L1078-L1209 of `rdm3x2_loop_trglringex_manual`: the density matrix before symmetrisation. -/
def manual32 (st : State K) (env : Env K) (c : Coord) : Option (Tensor K) := do
  let k1n1 := st.vts (c.1 + 1, c.2 - 1)
  let a1n1 ← st.site k1n1
  let t1n1 ← env.T (k1n1, (1, 0))
  let t1n1 ← view [t1n1.size 0, a1n1.size 4, a1n1.size 4, t1n1.size 2] t1n1
  let k0n1 := st.vts (c.1, c.2 - 1)
  let a0n1 ← st.site k0n1
  let t0n1 ← env.T (k0n1, (-1, 0))
  let t0n1 ← view [t0n1.size 0, t0n1.size 1, a0n1.size 2, a0n1.size 2] t0n1
  let lu ← cornerLU st env false (st.vts (c.1, c.2 - 2))
  let ru ← cornerRU st env true (st.vts (c.1 + 1, c.2 - 2))
  let lu ← tensordot [1] [0] lu ru
  let lu ← view [t0n1.size 0, a0n1.size 1, a0n1.size 1, t1n1.size 0, a1n1.size 1, a1n1.size 1, lu.size 2, lu.size 3] lu
  let ld ← cornerLD st env true c
  let rd ← cornerRD st env false (st.vts (c.1 + 1, c.2))
  let rd ← tensordot [1] [1] rd ld
  let rd ← view [t1n1.size 3, a1n1.size 3, a1n1.size 3, t0n1.size 1, a0n1.size 3, a0n1.size 3, rd.size 2, rd.size 3] rd
  let a ← st.site c
  let rdm ← loopSum (List.replicate 8 (a.size 0)) (a0n1.size 4) (body32 lu rd t0n1 t1n1 a0n1 a1n1)
  permute [0, 2, 4, 6, 1, 3, 5, 7] rdm

/-- L1029-L1211 `rdm3x2_loop_trglringex_manual`. -/
noncomputable def rdm32Manual (eigh : Tensor K → List ℝ × Tensor K) (spd : Bool) (st : State K) (env : Env K) (c : Coord) : Except Err (Tensor K) := do
  symRdm eigh spd (← lift (manual32 st env c))

end Verif.Rdm
