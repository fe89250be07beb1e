import Verif.Tensor.Ops
/-
Model of /repo/oe_ext/oe_ext.py: `contract_with_unroll` (L513-L599) with the `torch` backend, `_contract_with_unroll_oe` (L601-L693) and the
admissibility check of `_preprocess_interleaved_to_expr_and_shapes` (L45-L50). Labels are natural numbers. The contraction path, devices, logging and
`torch.utils.checkpoint` (which calls the function again in the backward pass) do not change values and are left out; so are dtypes and sizes zero.
`none` is a raised exception.
-/
namespace Verif.Oe
open Tensor
variable {K : Type} [CommRing K]

/-- L632 `ui_map`. -/
def uiMap (unroll vals : List Nat) (l : Nat) : Option Nat := (unroll.zip vals).lookup l

/-- Completes an index of a narrowed tensor to one of the tensor itself. -/
def expand (u : Nat → Option Nat) : List Nat → List Nat → List Nat
  | [], _ => []
  | l :: ls, idx =>
    match u l with
    | some v => v :: expand u ls idx
    | none => idx.headD 0 :: expand u ls idx.tail

/-- L652-L655 and L663-L666 `t[tuple(ui_map[i] if i in unroll else slice(None) for i in ig)]`. -/
def narrow (unroll : List Nat) (u : Nat → Option Nat) (t : Tensor K) (ig : List Nat) : Tensor K :=
  ⟨((ig.zip t.shape).filter (fun q => q.1 ∉ unroll)).map Prod.snd, fun idx => t.val (expand u ig idx)⟩

/-- L550-L552 and L555-L557: the constants, by position. -/
def constants (ops : List (Tensor K × List Nat)) (unroll : List Nat) : List (Option (Tensor K)) :=
  ops.map (fun p => if p.2.any (· ∈ unroll) then none else some p.1)

/-- The operands of opt_einsum's `ContractExpression` with constants when it is called with the variable ones. -/
def callExpr : List (Option (Tensor K)) → List (Tensor K) → List (Tensor K)
  | [], _ => []
  | some t :: cs, vs => t :: callExpr cs vs
  | none :: cs, v :: vs => v :: callExpr cs vs
  | none :: _, [] => []

/-- L61-L69: the subscripts stripped of the unrolled labels. -/
def strip (unroll ig : List Nat) : List Nat := ig.filter (· ∉ unroll)

/-- L649-L673: one turn of the loop. -/
def body (ck : Bool) (ops : List (Tensor K × List Nat)) (out unroll vals : List Nat) : Option (Tensor K) :=
  let u := uiMap unroll vals
  let ts := if ck then ops.map (fun p => narrow unroll u p.1 p.2)
    else callExpr (constants ops unroll) ((ops.filter (fun p => p.2.any (· ∈ unroll))).map (fun p => narrow unroll u p.1 p.2))
  einsum (ts.zip (ops.map (fun p => strip unroll p.2))) (strip unroll out)

/-- `partials[pat]= X` for a tuple of integers and `slice(None)`. -/
def assign (pat : List (Option Nat)) (X : Tensor K) (f : List Nat → K) (idx : List Nat) : K :=
  if (pat.zip idx).all (fun q => q.1 = none ∨ q.1 = some q.2) then X.val (((pat.zip idx).filter (fun q => q.1 = none)).map Prod.snd) else f idx

/-- L621-L625 `i_to_s`: the last operand with the label wins. -/
def sizeOf (ops : List (Tensor K × List Nat)) (l : Nat) : Option Nat := (labelDims ops).reverse.lookup l

/-- L627-L693: the buffer, the loop over the unrolled values and the final contraction. `g` is what `torch.empty` contains, `b` the loop body. -/
def unrollLoop (g : List Nat → K) (b : List Nat → Option (Tensor K)) (ops : List (Tensor K × List Nat)) (out unroll : List Nat) : Option (Tensor K) := do
  let shapeOut ← out.mapM (sizeOf ops)
  let contracted := unroll.filter (· ∉ out)
  let shapeC ← contracted.mapM (sizeOf ops)
  let sizes ← unroll.mapM (sizeOf ops)
  let f ← (indices sizes).foldlM (fun f vals => do
    let X ← b vals
    return assign (out.map (uiMap unroll vals) ++ contracted.map (uiMap unroll vals)) X f) g
  einsum [(⟨shapeOut ++ shapeC, f⟩, out ++ contracted)] out

/-- L513-L599. -/
def contractWithUnroll (g : List Nat → K) (ck : Bool) (ops : List (Tensor K × List Nat)) (out unroll : List Nat) : Option (Tensor K) :=
  if unroll = [] then einsum ops out
  else if unroll.any (fun u => ((ops.map Prod.snd ++ [out]).filter (fun ig => u ∈ ig)).length < 2) then none
  else unrollLoop g (body ck ops out unroll) ops out unroll

/-- L1021-L1031: the loop body of the older routine. -/
def legacyBody (ops : List (Tensor K × List Nat)) (out unroll vals : List Nat) : Option (Tensor K) :=
  einsum (ops.map (fun p => (if p.2.any (· ∈ unroll) then narrow unroll (uiMap unroll vals) p.1 p.2 else p.1, strip unroll p.2))) (strip unroll out)

/-- L983-L1042 `contract_with_unroll_legacy`; its loop is that of L627-L693. -/
def contractLegacy (g : List Nat → K) (ops : List (Tensor K × List Nat)) (out unroll : List Nat) : Option (Tensor K) :=
  if unroll = [] then einsum ops out else unrollLoop g (legacyBody ops out unroll) ops out unroll

end Verif.Oe
