import Verif.Config.Model
/-
What options mean: names with and without a prefix.
-/
namespace Verif.Config.Spec
open Config

/-- `GROUP_name`. -/
def option (k n : Name) : Name := k ++ '_' :: n

/-- No double underscore, and the name of a group occurs at most as the prefix before the first underscore. -/
def Tidy (x : Name) : Prop :=
  ¬ "__".toList <:+: x ∧ ∀ k ∈ keys, k <:+: x → (k ++ ['_']) <+: x ∧ ∀ k' ∈ keys, k' <:+: x → k' = k

instance (x : Name) : Decidable (Tidy x) := by unfold Tidy; infer_instance

/-- The two attributes that `configure` derives or converts. -/
def Derived (k n : Name) : Prop :=
  (k = "GLOBALARGS".toList ∧ n = "torch_dtype".toList) ∨ (k = "CTMARGS".toList ∧ n = "fwd_checkpoint_move".toList)

/-- The option string that changes an attribute with the present value `v`: boolean attributes which are true have `no_` in it. -/
def optionString (g x : Name) (v : Val) : Name :=
  if v = .bool true then g ++ '_' :: ("no_".toList ++ x) else g ++ '_' :: x

/-- What giving the option (with the text `arg`) stores: booleans are flipped and take no text, other values are converted. -/
def stores (conv : Val → Name → Option Val) (v : Val) (arg : Option Name) : Option Val :=
  match v, arg with
  | .bool b, none => some (.bool (!b))
  | .bool _, some _ => none
  | v, some s => conv v s
  | _, none => none

end Verif.Config.Spec
