import Verif.Rdm.Model
/-
Model of the density matrices on a 2x2 plaquette, /repo/ctm/generic/rdm.py: `rdm2x2` (L1306-L1360, L1362-L1592 `rdm2x2_legacy`,
L1594-L1675 `rdm2x2_oe`), `rdm2x2_NNN_11` (L962-L1048), `rdm2x2_NNN_1n1` (L1051-L1152 legacy, L1154-L1238 oe) and `eval_mpo_rdm2x2_oe`
(L1677-L1786). `contract_with_unroll` is `einsum`, whatever `unroll` is.
-/
namespace Verif.Rdm
open Tensor Ctm
variable {K : Type} [RCLike K]

/-- The environment of a plaquette, named as in L1633-L1646: `x` is the right column, `y` the lower row. -/
structure PlaqEnv (K : Type) where
  C1 : Tensor K
  C2 : Tensor K
  C3 : Tensor K
  C4 : Tensor K
  T1 : Tensor K
  T4 : Tensor K
  T1x : Tensor K
  T2x : Tensor K
  T2xy : Tensor K
  T3xy : Tensor K
  T3y : Tensor K
  T4y : Tensor K

/-- The site tensors of a plaquette, L1629-L1632. -/
structure PlaqSites (K : Type) where
  a : Tensor K
  ax : Tensor K
  ay : Tensor K
  axy : Tensor K

/-- L1629-L1646, also L1201-L1219 with the names of `rdm2x2_NNN_1n1` for `c = coord+(0,-1)`. -/
def plaq (st : State K) (env : Env K) (c : Coord) : Option (PlaqEnv K × PlaqSites K) := do
  let x := (c.1 + 1, c.2)
  let y := (c.1, c.2 + 1)
  let xy := (c.1 + 1, c.2 + 1)
  let a ← st.site c
  let ax ← st.site x
  let ay ← st.site y
  let axy ← st.site xy
  let C1 ← env.C (st.vts c, (-1, -1))
  let C2 ← env.C (st.vts x, (1, -1))
  let C3 ← env.C (st.vts xy, (1, 1))
  let C4 ← env.C (st.vts y, (-1, 1))
  let T1 ← env.T (st.vts c, (0, -1))
  let T4 ← env.T (st.vts c, (-1, 0))
  let T1x ← env.T (st.vts x, (0, -1))
  let T2x ← env.T (st.vts x, (1, 0))
  let T2xy ← env.T (st.vts xy, (1, 0))
  let T3xy ← env.T (st.vts xy, (0, 1))
  let T3y ← env.T (st.vts y, (0, 1))
  let T4y ← env.T (st.vts y, (-1, 0))
  return (⟨C1, C2, C3, C4, T1, T4, T1x, T2x, T2xy, T3xy, T3y, T4y⟩, ⟨a, ax, ay, axy⟩)

/-- L1652-L1659: the environment tensors with the pairs (ket, bra) split. -/
def PlaqEnv.split (e : PlaqEnv K) (s : PlaqSites K) : Option (PlaqEnv K) := do
  let T1 ← view [e.T1.size 0, s.a.size 1, s.a.size 1, e.T1.size 2] e.T1
  let T1x ← view [e.T1x.size 0, s.ax.size 1, s.ax.size 1, e.T1x.size 2] e.T1x
  let T2xy ← view [e.T2xy.size 0, s.axy.size 4, s.axy.size 4, e.T2xy.size 2] e.T2xy
  let T2x ← view [e.T2x.size 0, s.ax.size 4, s.ax.size 4, e.T2x.size 2] e.T2x
  let T3xy ← view [s.axy.size 3, s.axy.size 3, e.T3xy.size 1, e.T3xy.size 2] e.T3xy
  let T3y ← view [s.ay.size 3, s.ay.size 3, e.T3y.size 1, e.T3y.size 2] e.T3y
  let T4 ← view [e.T4.size 0, e.T4.size 1, s.a.size 2, s.a.size 2] e.T4
  let T4y ← view [e.T4y.size 0, e.T4y.size 1, s.ay.size 2, s.ay.size 2] e.T4y
  return ⟨e.C1, e.C2, e.C3, e.C4, T1, T4, T1x, T2x, T2xy, T3xy, T3y, T4y⟩

/-- L1661-L1664: the operands and their labels; `i` are the eight physical labels. -/
def PlaqEnv.operands (t : PlaqEnv K) (s : PlaqSites K) (i : Nat → Nat) : List (Tensor K × List Nat) :=
  [(t.C1, [0, 1]), (t.T1, [1, 2, 5, 36]), (t.T4, [0, 15, 3, 6]), (s.a, [i 0, 2, 3, 16, 37]), (s.a.conj, [i 1, 5, 6, 17, 38]),
    (t.T4y, [15, 8, 9, 12]), (t.C4, [8, 7]), (t.T3y, [10, 13, 7, 41]), (s.ay, [i 4, 16, 9, 10, 39]), (s.ay.conj, [i 5, 17, 12, 13, 40]),
    (t.T1x, [36, 20, 23, 18]), (t.C2, [18, 19]), (t.T2x, [19, 21, 24, 33]), (s.ax, [i 2, 20, 37, 34, 21]), (s.ax.conj, [i 3, 23, 38, 35, 24]),
    (t.T2xy, [33, 28, 31, 26]), (t.C3, [26, 27]), (t.T3xy, [29, 32, 41, 27]), (s.axy, [i 6, 34, 39, 29, 28]), (s.axy.conj, [i 7, 35, 40, 32, 31])]

/-- L1622-L1623: the labels `I`. -/
def physLabels (os : List Nat) : List Nat :=
  (List.range 4).flatMap (fun x => if x ∈ os then [100 + 2 * x, 100 + 2 * x + 1] else [100 + 2 * x, 100 + 2 * x])

/-- A Python set of small integers is iterated in increasing order. -/
def siteSet (os : List Nat) : List Nat := (List.range 4).filter (· ∈ os)

/-- L1624: `I_out`. -/
def outLabels (os : List Nat) : List Nat := (siteSet os).map (fun x => 100 + 2 * x) ++ (siteSet os).map (fun x => 100 + 2 * x + 1)

/-- L1652-L1672 of `rdm2x2_oe`: the contraction. -/
def oe2x2 (e : PlaqEnv K) (s : PlaqSites K) (os : List Nat) : Option (Tensor K) := do
  let t ← e.split s
  einsum (t.operands s ((physLabels os).getD · 0)) (outLabels os)

/-- L1594-L1675 `rdm2x2_oe`, with the assertions L1620-L1621. -/
noncomputable def rdm2x2 (eigh : Tensor K → List ℝ × Tensor K) (spd : Bool) (st : State K) (env : Env K) (c : Coord) (os : List Nat) : Except Err (Tensor K) := do
  if os.Nodup ∧ ∀ x ∈ os, x < 4 then
    let x ← lift (do
      let (e, s) ← plaq st env c
      oe2x2 e s os)
    symRdm eigh spd x
  else .error .raise

/-- L1677-L1786 `eval_mpo_rdm2x2_oe`: not normalised. -/
def evalMpo2x2 (st : State K) (env : Env K) (c : Coord) (mpo : List (Tensor K)) : Option (Tensor K) := do
  match mpo with
  | [m0, m1, m2, m3] =>
    let (e, s) ← plaq st env c
    let t ← e.split s
    einsum (t.operands s (100 + ·) ++ [(m0, [300, 100, 200, 101]), (m1, [200, 102, 201, 103]), (m2, [201, 104, 202, 105]), (m3, [202, 106, 301, 107])]) []
  | _ => none

/-- ctm_components.py L269-L320 `c2x2_LU` in the modes `sl` and `sl-open`. -/
def cornerLU (st : State K) (env : Env K) (op : Bool) (k : Coord) : Option (Tensor K) := do
  Corner.luSl (← env.C (st.vts k, (-1, -1))) (← env.T (st.vts k, (0, -1))) (← env.T (st.vts k, (-1, 0))) (← st.site k) op

/-- ctm_components.py L437-L485 `c2x2_RU`. -/
def cornerRU (st : State K) (env : Env K) (op : Bool) (k : Coord) : Option (Tensor K) := do
  Corner.ruSl (← env.C (st.vts k, (1, -1))) (← env.T (st.vts k, (1, 0))) (← env.T (st.vts k, (0, -1))) (← st.site k) op

/-- ctm_components.py L589-L637 `c2x2_RD`. -/
def cornerRD (st : State K) (env : Env K) (op : Bool) (k : Coord) : Option (Tensor K) := do
  Corner.rdSl (← env.C (st.vts k, (1, 1))) (← env.T (st.vts k, (0, 1))) (← env.T (st.vts k, (1, 0))) (← st.site k) op

/-- ctm_components.py L736-L784 `c2x2_LD`. -/
def cornerLD (st : State K) (env : Env K) (op : Bool) (k : Coord) : Option (Tensor K) := do
  Corner.ldSl (← env.C (st.vts k, (-1, 1))) (← env.T (st.vts k, (-1, 0))) (← env.T (st.vts k, (0, 1))) (← st.site k) op

/-- L997-L1042 of `rdm2x2_NNN_11`. -/
def raw11 (st : State K) (env : Env K) (c : Coord) : Option (Tensor K) := do
  let lu ← cornerLU st env true c
  let ru ← cornerRU st env false (st.vts (c.1 + 1, c.2))
  let x ← tensordot [1] [0] lu ru
  let up ← permute [0, 3, 1, 2] x
  let rd ← cornerRD st env true (st.vts (c.1 + 1, c.2 + 1))
  let ld ← cornerLD st env false (st.vts (c.1, c.2 + 1))
  let lo ← tensordot [1] [1] ld rd
  let x ← tensordot [0, 1] [0, 1] up lo
  permute [0, 2, 1, 3] x

/-- L962-L1048 `rdm2x2_NNN_11`. -/
noncomputable def rdm11 (eigh : Tensor K → List ℝ × Tensor K) (spd : Bool) (st : State K) (env : Env K) (c : Coord) : Except Err (Tensor K) := do
  symRdm eigh spd (← lift (raw11 st env c))

/-- L1103-L1147 of `rdm2x2_NNN_1n1_legacy`. -/
def raw1n1 (st : State K) (env : Env K) (c : Coord) : Option (Tensor K) := do
  let lu ← cornerLU st env false (st.vts (c.1, c.2 - 1))
  let ru ← cornerRU st env true (st.vts (c.1 + 1, c.2 - 1))
  let up ← tensordot [1] [0] lu ru
  let rd ← cornerRD st env false (st.vts (c.1 + 1, c.2))
  let ld ← cornerLD st env true c
  let x ← tensordot [1] [1] ld rd
  let lo ← permute [0, 3, 1, 2] x
  let x ← tensordot [0, 1] [0, 1] lo up
  permute [0, 2, 1, 3] x

/-- L1101-L1152 `rdm2x2_NNN_1n1_legacy`. -/
noncomputable def rdm1n1Legacy (eigh : Tensor K → List ℝ × Tensor K) (spd : Bool) (st : State K) (env : Env K) (c : Coord) : Except Err (Tensor K) := do
  symRdm eigh spd (← lift (raw1n1 st env c))

/-- L1154-L1273 `rdm2x2_NNN_1n1_oe`: the network of the plaquette with upper left corner `coord+(0,-1)` and other physical labels. The
labels of the closed sites are `4` (upper left) and `30` (lower right). -/
noncomputable def rdm1n1 (eigh : Tensor K → List ℝ × Tensor K) (spd : Bool) (st : State K) (env : Env K) (c : Coord) : Except Err (Tensor K) := do
  let x ← lift (do
    let (e, s) ← plaq st env (c.1, c.2 - 1)
    let t ← e.split s
    einsum (t.operands s ([4, 4, 22, 25, 11, 14, 30, 30].getD · 0)) [11, 22, 14, 25])
  symRdm eigh spd x

/-- L1362-L1592 `rdm2x2_legacy` without symmetrisation. Each corner is built from its own double-layer tensor. -/
def legacy2x2 (e : PlaqEnv K) (s : PlaqSites K) : Option (Tensor K) := do
  let A ← dlOpen s.a
  let x ← tensordot [1] [0] e.C1 e.T1
  let x ← tensordot [0] [0] x e.T4
  let x ← tensordot [0, 3] [0, 1] x A
  let x ← permute [1, 2, 0, 3, 4, 5] x
  let lu ← view [e.T4.size 1 * A.size 2, e.T1.size 2 * A.size 3, s.a.size 0, s.a.size 0] x
  let B ← dlOpen s.ax
  let x ← tensordot [1] [0] e.C2 e.T2x
  let x ← tensordot [0] [2] x e.T1x
  let x ← tensordot [0, 3] [3, 0] x B
  let x ← permute [1, 2, 0, 3, 4, 5] x
  let ru ← view [e.T1x.size 0 * B.size 1, e.T2x.size 2 * B.size 2, s.ax.size 0, s.ax.size 0] x
  let x ← tensordot [1] [0] lu ru
  let up ← permute [0, 3, 1, 2, 4, 5] x
  let D ← dlOpen s.axy
  let x ← tensordot [1] [2] e.C3 e.T3xy
  let x ← tensordot [0] [2] x e.T2xy
  let x ← tensordot [0, 3] [2, 3] x D
  let x ← permute [1, 2, 0, 3, 4, 5] x
  let rd ← view [e.T2xy.size 0 * D.size 0, e.T3xy.size 1 * D.size 1, s.axy.size 0, s.axy.size 0] x
  let E ← dlOpen s.ay
  let x ← tensordot [0] [1] e.C4 e.T4y
  let x ← tensordot [0] [1] x e.T3y
  let x ← tensordot [1, 2] [1, 2] x E
  let x ← permute [0, 2, 1, 3, 4, 5] x
  let ld ← view [e.T4y.size 0 * E.size 0, e.T3y.size 2 * E.size 3, s.ay.size 0, s.ay.size 0] x
  let x ← tensordot [1] [1] ld rd
  let lo ← permute [0, 3, 1, 2, 4, 5] x
  let x ← tensordot [0, 1] [0, 1] up lo
  permute [0, 2, 4, 6, 1, 3, 5, 7] x

/-- L1362-L1592 `rdm2x2_legacy`. -/
noncomputable def rdm2x2Legacy (eigh : Tensor K → List ℝ × Tensor K) (spd : Bool) (st : State K) (env : Env K) (c : Coord) : Except Err (Tensor K) := do
  let x ← lift (do
    let (e, s) ← plaq st env c
    legacy2x2 e s)
  symRdm eigh spd x

end Verif.Rdm
