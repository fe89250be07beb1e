import Mathlib.Data.List.Infix
import Mathlib.Data.List.Dedup
/-
Model of /repo/config.py: `get_args_parser`, `configure` and the part of argparse they use. Strings are lists of characters.
-/
namespace Verif.Config

abbrev Name := List Char

/-- Values of options and attributes: booleans, strings, anything else (numbers, lists, types). -/
inductive Val where
  | bool (b : Bool)
  | str (s : Name)
  | other (n : Nat)
  deriving DecidableEq

/-- The configuration objects: attributes of `global_args`, `peps_args`, `ctm_args`, `opt_args` by class name, and of `main_args`. -/
structure Conf where
  group : Name → Name → Option Val
  main : Name → Option Val

/-- L82-L83 `keys=[type(c).__name__ for c in configs]`. -/
def keys : List Name := ["GLOBALARGS".toList, "PEPSARGS".toList, "CTMARGS".toList, "OPTARGS".toList]

/-- `a in b` for strings. -/
def within (a b : Name) : Bool := decide (a <:+: b)

/-- L90-L93 `_search_keys`. -/
def searchKeys (x : Name) : Option Name := keys.find? (fun k => within k x)

/-- `setattr(conf_dict[k], a, v)`. -/
def setGroup (c : Conf) (k a : Name) (v : Val) : Conf :=
  { c with group := fun k' a' => if k' = k ∧ a' = a then some v else c.group k' a' }

/-- `setattr(main_args, a, v)`. -/
def setMain (c : Conf) (a : Name) (v : Val) : Conf :=
  { c with main := fun a' => if a' = a then some v else c.main a' }

/-- L86-L87 `raw_args`: names with a double underscore are left out. Values that are callable (also left out) are not representable; `dir` lists every name once. -/
def rawArgs (ns : List (Name × Val)) : List (Name × Val) := ns.filter (fun p => !within "__".toList p.1)

/-- L95-L106: grouping and assignment of the options with a prefix. The prefix and one more character are cut off. -/
def setGrouped (raw : List (Name × Val)) (c : Conf) : Conf :=
  keys.foldl (fun c k => (raw.filter (fun p => searchKeys p.1 = some k)).foldl (fun c p => setGroup c k (p.1.drop (1 + k.length)) p.2) c) c

/-- L108-L110: the other options. -/
def setMains (raw : List (Name × Val)) (c : Conf) : Conf :=
  (raw.filter (fun p => searchKeys p.1 = none)).foldl (fun c p => setMain c p.1 p.2) c

inductive Err where
  | notImplemented
  | attribute
  | conflict
  | usage
  deriving DecidableEq

/-- The two torch dtypes. -/
def float64 : Val := .other 64
def complex128 : Val := .other 128

/-- L112-L121: the custom handling. The assignments made before stay in force if it raises. -/
def custom (c : Conf) : Conf × Option Err :=
  match c.group "GLOBALARGS".toList "dtype".toList with
  | none => (c, some .attribute)
  | some v =>
    if v = .str "float64".toList ∨ v = .str "complex128".toList then
      let c := setGroup c "GLOBALARGS".toList "torch_dtype".toList (if v = .str "float64".toList then float64 else complex128)
      match c.group "CTMARGS".toList "fwd_checkpoint_move".toList with
      | none => (c, some .attribute)
      | some w =>
        if w = .str "True".toList ∨ w = .str "true".toList then (setGroup c "CTMARGS".toList "fwd_checkpoint_move".toList (.bool true), none) else (c, none)
    else (c, some .notImplemented)

/-- L81-L129 `configure`, without the set-up of logging. -/
def configure (ns : List (Name × Val)) (c : Conf) : Conf × Option Err := custom (setMains (rawArgs ns) (setGrouped (rawArgs ns) c))

/-! ### The parser -/

/-- What an option does: L62 `store_true`, L65 `store_false`, L67 a value converted by the type of the default, L69-L76 `_storeTrueOrString`. -/
inductive Kind where
  | storeTrue
  | storeFalse
  | value (sample : Val)
  | trueOrString

structure Opt where
  /-- the option string without the leading dashes -/
  flag : Name
  dest : Name
  kind : Kind
  default : Val

/-- L56-L67: the options for the attributes of one configuration object. -/
def groupOpts (g : Name) (attrs : List (Name × Val)) : List Opt :=
  (attrs.filter (fun p => !within "__".toList p.1)).filterMap (fun p =>
    let full := g ++ '_' :: p.1
    if full = "CTMARGS_fwd_checkpoint_move".toList then none
    else match p.2 with
    | .bool false => some ⟨full, full, .storeTrue, .bool false⟩
    | .bool true => some ⟨g ++ '_' :: ("no_".toList ++ p.1), full, .storeFalse, .bool true⟩
    | v => some ⟨full, full, .value v, v⟩)

/-- L69-L76. -/
def special : Opt := ⟨"CTMARGS_fwd_checkpoint_move".toList, "CTMARGS_fwd_checkpoint_move".toList, .trueOrString, .bool false⟩

/-- L36-L78 `get_args_parser`, `base` the options of L38-L49 and those a script adds. argparse raises if two options have the same string. -/
def parser (base : List Opt) (cfg : List (Name × List (Name × Val))) : Except Err (List Opt) :=
  let opts := base ++ cfg.flatMap (fun g => groupOpts g.1 g.2) ++ [special]
  if (opts.map Opt.flag).Nodup then .ok opts else .error .conflict

/-- Lower case of ASCII letters, for L30. -/
def lower (s : Name) : Name := s.map Char.toLower

/-- L24-L33 and the actions of argparse: the value an option assigns. `conv v s` is the type of `v` applied to the string `s`. -/
def assigned (conv : Val → Name → Option Val) (k : Kind) (arg : Option Name) : Except Err Val :=
  match k, arg with
  | .storeTrue, none => .ok (.bool true)
  | .storeFalse, none => .ok (.bool false)
  | .value v, some s => match conv v s with
    | some w => .ok w
    | none => .error .usage
  | .trueOrString, none => .ok (.bool true)
  | .trueOrString, some s => .ok (if lower s = "true".toList then .bool true else if lower s = "false".toList then .bool false else .str s)
  | _, _ => .error .usage

/-- The namespace as a function, before and after the arguments. -/
def setNs (ns : Name → Option Val) (d : Name) (v : Val) : Name → Option Val := fun x => if x = d then some v else ns x

/-- Defaults: `setattr` for every destination not yet present. -/
def defaults : List Opt → (Name → Option Val) → (Name → Option Val)
  | [], ns => ns
  | o :: os, ns => defaults os (if ns o.dest = none then setNs ns o.dest o.default else ns)

/-- The arguments in order; `argv` pairs every option string with its value, if any. -/
def process (conv : Val → Name → Option Val) (opts : List Opt) : List (Name × Option Name) → (Name → Option Val) → Except Err (Name → Option Val)
  | [], ns => .ok ns
  | (f, a) :: argv, ns =>
    match opts.find? (fun o => o.flag = f) with
    | none => .error .usage
    | some o => do
      let v ← assigned conv o.kind a
      process conv opts argv (setNs ns o.dest v)

/-- `parse_args`: the names and values of the namespace. -/
def parseArgs (conv : Val → Name → Option Val) (opts : List Opt) (argv : List (Name × Option Name)) : Except Err (List (Name × Val)) := do
  let ns ← process conv opts argv (defaults opts (fun _ => none))
  return (opts.map Opt.dest).dedup.filterMap (fun d => (ns d).map (fun v => (d, v)))

/-! ### The attributes of the configuration objects -/

/-- L215-L244, L367-L409 and L481-L500: the attributes set by the constructors, in the order of `dir`; numbers, lists and types are `other`. -/
def attributes : List (Name × List (Name × Val)) := [
  ("GLOBALARGS".toList, [("cuda_mem_profile".toList, .bool false), ("device".toList, .str "cpu".toList), ("dtype".toList, .str "float64".toList), ("oe_backend".toList, .str "torch".toList), ("oe_cuquantum_slicing".toList, .bool false), ("offload_to_gpu".toList, .str "None".toList), ("tensor_io_format".toList, .str "legacy".toList), ("torch_dtype".toList, .other 0), ("verbosity_oe".toList, .other 0)]),
  ("PEPSARGS".toList, [("build_dl".toList, .bool true), ("build_dl_open".toList, .bool false), ("quasi_gauge_max_iter".toList, .other 0), ("quasi_gauge_tol".toList, .other 0)]),
  ("CTMARGS".toList, [("ad_decomp_reg".toList, .other 0), ("conv_check_cpu".toList, .bool false), ("ctm_absorb_normalization".toList, .str "inf".toList), ("ctm_conv_tol".toList, .other 0), ("ctm_env_init_type".toList, .str "CTMRG".toList), ("ctm_force_dl".toList, .bool false), ("ctm_logging".toList, .bool false), ("ctm_max_iter".toList, .other 0), ("ctm_move_sequence".toList, .other 0), ("ctm_warmup_iter".toList, .other 0), ("dtype_rdm".toList, .str "DEFAULT".toList), ("fpcm_fpt_tol".toList, .other 0), ("fpcm_freq".toList, .other 0), ("fpcm_init_iter".toList, .other 0), ("fpcm_isogauge_tol".toList, .other 0), ("fwd_checkpoint_absorb".toList, .bool false), ("fwd_checkpoint_c2x2".toList, .bool false), ("fwd_checkpoint_halves".toList, .bool false), ("fwd_checkpoint_loop_rdm".toList, .bool false), ("fwd_checkpoint_move".toList, .bool false), ("fwd_checkpoint_projectors".toList, .bool false), ("fwd_svds_thresh".toList, .other 0), ("projector_eps_multiplet".toList, .other 0), ("projector_full_matrices".toList, .bool true), ("projector_method".toList, .str "4X4".toList), ("projector_multiplet_abstol".toList, .other 0), ("projector_propack_extra_states".toList, .other 0), ("projector_rsvd_niter".toList, .other 0), ("projector_svd_method".toList, .str "DEFAULT".toList), ("projector_svd_reltol".toList, .other 0), ("projector_svd_reltol_block".toList, .other 0), ("randomize_ctm_move_sequence".toList, .bool false), ("verbosity_ctm_convergence".toList, .other 0), ("verbosity_ctm_move".toList, .other 0), ("verbosity_fpcm_move".toList, .other 0), ("verbosity_initialization".toList, .other 0), ("verbosity_projectors".toList, .other 0), ("verbosity_rdm".toList, .other 0), ("warmup_projector_svd_method".toList, .str "DEFAULT".toList)]),
  ("OPTARGS".toList, [("dampening".toList, .other 0), ("env_sens_regauge".toList, .bool false), ("env_sens_scale".toList, .other 0), ("fd_ctm_reinit".toList, .bool true), ("fd_eps".toList, .other 0), ("history_size".toList, .other 0), ("line_search".toList, .str "default".toList), ("line_search_ctm_reinit".toList, .bool true), ("line_search_svd_method".toList, .str "DEFAULT".toList), ("line_search_tol".toList, .other 0), ("lr".toList, .other 0), ("max_iter_per_epoch".toList, .other 0), ("momentum".toList, .other 0), ("opt_ctm_reinit".toList, .bool true), ("opt_log_grad".toList, .bool false), ("opt_logging".toList, .bool true), ("tolerance_change".toList, .other 0), ("tolerance_grad".toList, .other 0), ("verbosity_opt_epoch".toList, .other 0)])]

/-- L38-L49. -/
def baseOpts : List Opt := [
  ⟨"omp_cores".toList, "omp_cores".toList, .value (.other 0), .other 0⟩,
  ⟨"pattern".toList, "pattern".toList, .value (.other 0), .other 0⟩,
  ⟨"instate".toList, "instate".toList, .value (.other 0), .other 0⟩,
  ⟨"instate_noise".toList, "instate_noise".toList, .value (.other 0), .other 0⟩,
  ⟨"ipeps_init_type".toList, "ipeps_init_type".toList, .value (.other 0), .other 0⟩,
  ⟨"out_prefix".toList, "out_prefix".toList, .value (.other 0), .other 0⟩,
  ⟨"bond_dim".toList, "bond_dim".toList, .value (.other 0), .other 0⟩,
  ⟨"chi".toList, "chi".toList, .value (.other 0), .other 0⟩,
  ⟨"opt_max_iter".toList, "opt_max_iter".toList, .value (.other 0), .other 0⟩,
  ⟨"opt_resume".toList, "opt_resume".toList, .value (.other 0), .other 0⟩,
  ⟨"opt_resume_override_params".toList, "opt_resume_override_params".toList, .storeTrue, .bool false⟩,
  ⟨"seed".toList, "seed".toList, .value (.other 0), .other 0⟩]

end Verif.Config
