import Verif.Kagome.HamModel
/-
Model of /repo/models/spin_half_kagome.py: `obs_ops` (L111-L125), `P_dn`, `P_up` (L229-L243) and `eval_obs` (L268-L357). Complex dtype. A key `f"{label}({c[0]},{c[1]})"` of
the dictionary is modelled by the pair of the label and the coordinate.
-/
namespace Verif.KagomeRdm
open Tensor Ctm Rdm

/-- L66: `torch.eye(phys_dim**3)`. -/
def id3 (p : Nat) : Tensor ℂ := ⟨[p ^ 3, p ^ 3], fun idx => if idx.getD 0 0 = idx.getD 1 0 then 1 else 0⟩

/-- L111-L125: the operator on spin 0, 1 or 2. -/
def obsOp (p : Nat) (o : Su2.Op p) : Fin 3 → Option (Tensor ℂ)
  | 0 => siteId p o
  | 1 => do permute [2, 0, 1, 5, 3, 4] (← siteId p o)
  | 2 => do permute [1, 2, 0, 4, 5, 3] (← siteId p o)

/-- L312: a quotient; a vanishing norm gives values that are not finite. -/
noncomputable def ratio (v norm : ℂ) : Except Err ℂ := open Classical in if norm = 0 then .error .nan else .ok (v / norm)

/-- L310-L313: one value; `norm` is `norm_wf_1x1`. -/
noncomputable def obsVal (p : Nat) (st : State ℂ) (env : Env ℂ) (c : Coord) (norm : ℂ) (o : Su2.Op p) (x : Fin 3) : Except Err ℂ := do
  let v ← lift (do trace1x1 st env c (← view [p ^ 3, p ^ 3] (← obsOp p o x)))
  ratio v norm

/-- L306-L319: the on-site observables of one site, in the order of the dictionary (L114-L125: `sz`, `sp`, `sm` of spin 0, then of spins 1 and 2; then `m2`). -/
noncomputable def onsite (p : Nat) (st : State ℂ) (env : Env ℂ) (c : Coord) : Except Err (List ((String × Coord) × ℂ)) := do
  let norm ← lift (trace1x1 st env c (id3 p))
  let z0 ← obsVal p st env c norm (Su2.SZ p) 0
  let p0 ← obsVal p st env c norm (Su2.SP p) 0
  let m0 ← obsVal p st env c norm (Su2.SM p) 0
  let z1 ← obsVal p st env c norm (Su2.SZ p) 1
  let p1 ← obsVal p st env c norm (Su2.SP p) 1
  let m1 ← obsVal p st env c norm (Su2.SM p) 1
  let z2 ← obsVal p st env c norm (Su2.SZ p) 2
  let p2 ← obsVal p st env c norm (Su2.SP p) 2
  let m2 ← obsVal p st env c norm (Su2.SM p) 2
  return [(("sz_0", c), z0), (("sp_0", c), p0), (("sm_0", c), m0), (("sz_1", c), z1), (("sp_1", c), p1), (("sm_1", c), m1), (("sz_2", c), z2), (("sp_2", c), p2), (("sm_2", c), m2),
    (("m2_0", c), z0 * z0 + p0 * m0), (("m2_1", c), z1 * z1 + p1 * m1), (("m2_2", c), z2 * z2 + p2 * m2)]

/-- L323-L345: the correlations of nearest neighbours for one site. -/
noncomputable def bonds (eigh : Tensor ℂ → List ℝ × Tensor ℂ) (m : Couplings) (st : State ℂ) (env : Env ℂ) (c : Coord) : Except Err (List ((String × Coord) × ℂ)) := do
  let s01 ← lift (ssnnId m)
  let d01 ← dnTriangle st env c s01
  let s12 ← lift (permute [2, 1, 0, 5, 4, 3] s01)
  let d12 ← dnTriangle st env c s12
  let s02 ← lift (permute [0, 2, 1, 3, 5, 4] s01)
  let d02 ← dnTriangle st env c s02
  let r ← rdmUp eigh false st env c
  let u01 ← lift (full6 r s01)
  let u12 ← lift (full6 r s12)
  let u02 ← lift (full6 r s02)
  return [(("SS_dn_01", c), d01.1), (("SS_dn_12", c), d12.1), (("SS_dn_02", c), d02.1), (("SS_up_01", c), u01), (("SS_up_12", c), u12), (("SS_up_02", c), u02)]

/-- L133-L155, L189-L203 and L212-L222: the energy of one down triangle; with `cast` its real part. -/
noncomputable def oneDn (cast : Bool) (h : Tensor ℂ) (st : State ℂ) (env : Env ℂ) (c : Coord) : Except Err ((String × Coord) × ℂ) := do
  let q ← dnTriangle st env c h
  return (("e_t_dn", c), if cast then (q.1.re : ℂ) else q.1)

/-- L180-L210: the energy of one up triangle. -/
noncomputable def oneUp (eigh : Tensor ℂ → List ℝ × Tensor ℂ) (cast : Bool) (h : Tensor ℂ) (st : State ℂ) (env : Env ℂ) (c : Coord) : Except Err ((String × Coord) × ℂ) := do
  let r ← rdmUp eigh false st env c
  let v ← lift (full6 r h)
  return (("e_t_up", c), if cast then (v.re : ℂ) else v)

/-- L268-L353 `eval_obs`. With `disp_corre_len` the name `eval_corr_lengths` is read before its definition (L355, after the `return`), an UnboundLocalError. -/
noncomputable def evalObs (eigh : Tensor ℂ → List ℝ × Tensor ℂ) (cast corrLen : Bool) (m : Couplings) (st : State ℂ) (env : Env ℂ) : Except Err (List ((String × Coord) × ℂ)) := do
  let h ← lift (hTriangle m)
  let e1 ← st.keys.mapM (oneDn cast h st env)
  let e2 ← st.keys.mapM (oneUp eigh cast h st env)
  let o ← st.keys.mapM (onsite m.p st env)
  let s ← st.keys.mapM (bonds eigh m st env)
  if corrLen then .error .raise
  return e1 ++ e2 ++ o.flatten ++ s.flatten

/-- L236-L243 `P_up`: values and norms. -/
noncomputable def pUp (eigh : Tensor ℂ → List ℝ × Tensor ℂ) (p : Nat) (st : State ℂ) (env : Env ℂ) : Except Err (List (Coord × ℂ × ℂ)) :=
  st.keys.mapM fun c => do
    let r ← rdmUp eigh false st env c
    let n ← lift (norm6 r)
    let v ← lift (full6 r (permT p))
    return (c, v, n)

/-- L229-L234 `P_dn`: the operator is passed as `operator`, which `rdm2x2_dn_triangle_with_operator` swallows in `**kwargs`; its parameter `op` is missing, a TypeError. -/
def pDn (st : State ℂ) (_env : Env ℂ) : Except Err (List (Coord × ℂ × ℝ)) := st.keys.mapM fun _ => .error .raise

end Verif.KagomeRdm
