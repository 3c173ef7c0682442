import Verif.Model.Method
import Verif.Model.Conversion

/-!
# Declaring merge methods (sd_mecha/extensions/merge_methods.py:39-212, 448-524; sd_mecha/conversion.py:34-45)

What `Parameter(...)`, `Return(...)` and the decorator check.  `inspect.getfullargspec` and `typing.get_type_hints` are trusted to describe the function;
annotations such as `Optional[...]` around a parameter, which are looked through (:438-440), are left out.
-/
namespace Verif.Declare
open Method

/-- The types an annotation may have -/
inductive Iface where
  /-- `torch.Tensor` -/
  | tensor
  /-- `str`, `int`, `float`, `bool`, `None` -/
  | literal
  /-- `StateDict[...]` -/
  | stateDict
  | typeVar
  | other
  deriving DecidableEq, Repr

/-- The argument `merge_space` of `Parameter`; a single space is a list of one. -/
inductive RawSpace where
  | none
  | names (l : List Str)
  | symbol (id : ℕ) (l : List Str)
  deriving DecidableEq, Repr

def structural : Str := "structural".toList

/-- merge_methods.py:79-83, 125-129: a config given by its identifier.  `structural` is not registered under its identifier; given as an object it
is rejected. -/
def checkConfig (configs : List Str) (config : Option Str) : Except Err (Option Str) :=
  match config with
  | none => .ok none
  | some c => if c ∉ configs then .error .value else if c = structural then .error .value else .ok (some c)

/-- `Parameter(interface, merge_space, model_config)` (merge_methods.py:44-87), with the registered spaces and configs -/
def parameter (spaces configs : List Str) (iface : Iface) (space : RawSpace) (config : Option Str) : Except Err Param :=
  if iface = .other then .error .type
  else do
    let sp ← match space with
      | .none => .ok none
      | .names l => if l.all (fun s => decide (s ∈ spaces)) then .ok (some (Space.set l.dedup)) else .error .value
      | .symbol id l => .ok (some (Space.symbol (.sym id) l))
    let c ← checkConfig configs config
    .ok ⟨sp, c, decide (iface = .literal)⟩

/-- `Return(interface, merge_space, model_config)` (merge_methods.py:95-133); a `RetSpace.space` is a name. -/
def return_ (spaces configs : List Str) (iface : Iface) (space : RetSpace) (config : Option Str) : Except Err (RetSpace × Option Str) :=
  if iface = .other ∨ iface = .stateDict then .error .type
  else do
    let sp ← match space with
      | .space s => if s ∈ spaces then .ok (.space s) else .error .value
      | sp => .ok sp
    let c ← checkConfig configs config
    .ok (sp, c)

variable {α : Type}

/-- A python function with its annotations; `none` is an annotation that is missing or is not made by `Parameter(...)` or `Return(...)`. -/
structure Decl (α : Type) where
  args : List (Str × Option Param)
  vararg : Option (Str × Option Param)
  kwonly : Dict Str (Option Param)
  defaults : List α
  kwdefaults : Dict Str α
  ret : Option (RetSpace × Option Str)

/-- `__get_parameter_data` for each parameter (merge_methods.py:436-450) -/
def hints : List (Str × Option Param) → Except Err (List (Str × Param))
  | [] => .ok []
  | (_, none) :: _ => .error .type
  | (k, some p) :: l => do .ok ((k, p) :: (← hints l))

/-- `get_params` (merge_methods.py:427-434); the part of the signature about the result is filled in by `declare`. -/
def Decl.params (d : Decl α) : Except Err (Sig α) := do
  let args ← hints d.args
  let vararg ← match d.vararg with
    | none => .ok none
    | some (_, none) => .error .type
    | some (k, some p) => .ok (some (k, p))
  let kwonly ← hints d.kwonly
  .ok ⟨args, vararg, kwonly, d.defaults, d.kwdefaults, .none, none⟩

/-- The loop of merge_methods.py:190-199 over `params.as_dict()` -/
def defaultsFit (s : Sig α) : Bool :=
  (s.inputSpaces.asDict none).all fun p =>
    let isDefault := match p.1 with
      | .pos i => decide (s.args.length - s.defaults.length ≤ i ∧ i < s.args.length)
      | .name k => decide (k ∈ s.kwdefaults.keys)
    !isDefault || p.2.eqv (.set [paramSpace])

/-- `bool(param.merge_space)`: the empty set is false. -/
def declared (p : Param) : Bool :=
  match p.space with
  | some (.set l) => !l.isEmpty
  | some (.symbol _ _) => true
  | none => false

/-- `__validate_f` once the annotations of the parameters are read (merge_methods.py:190-212) -/
def check (d : Decl α) (s : Sig α) : Except Err (Sig α) :=
  if !defaultsFit s then .error .type
  else do
    let explicit := (s.inputConfigs.asDict none).all fun p => p.2.isSome
    let inferred ←
      if explicit then
        match d.ret with
        | none => .error .type
        | some r => do
          .ok (← { s with retConfig := r.2 }.returnConfig (s.inputConfigs.argsVarargs none) s.inputConfigs.kwargs).isSome
      else .ok true
    if !inferred then .error .type
    else
      match d.ret with
      | none => .error .type
      | some r =>
        match r.1 with
        | .symbol _ =>
          if !((s.params.asDict none).any fun p => declared p.2) then .error .runtime
          else .ok { s with retSpace := r.1, retConfig := r.2 }
        | _ => .ok { s with retSpace := r.1, retConfig := r.2 }

/-- `MergeMethod(fn, identifier)` (merge_methods.py:171-212) -/
def declare (d : Decl α) : Except Err (Sig α) := do
  let s ← d.params
  check d s

/-! ## Conversions -/

/-- What `validate_config_conversion` asserts (merge_methods.py:518-524).  In line 522 `configs.args` is a list, which is never `None`. -/
def validConversion (s : Sig α) : Bool :=
  let names : FunctionArgs Str := ⟨s.args.map (·.1), s.vararg.map (·.1), s.kwonly.map fun p => (p.1, p.1)⟩
  let argsVarargs := if names.args.isEmpty then names.argsVarargs none else names.args
  decide (argsVarargs.length = 1) &&
    (!s.inputConfigs.args.isEmpty || ((s.inputConfigs.argsVarargs none)[0]?).any fun c => c.isSome)

/-- One round of the loop over the registered conversions (conversion.py:38-42): `get_return_config` without the variadic parameter, then the attributes
`identifier` of the config of the first parameter and of the result -/
def converter (name : Str) (s : Sig α) : Except Err Conversion.Converter := do
  let r ← s.returnConfig s.inputConfigs.args s.inputConfigs.kwargs
  match s.inputConfigs.args with
  | [] => .error .index
  | none :: _ => .error .attribute
  | some src :: _ =>
    match r with
    | none => .error .attribute
    | some tgt => .ok ⟨name, src, tgt⟩

/-- The loop (conversion.py:37-45) as far as it can fail -/
def converters : List (Str × Sig α) → Except Err (List Conversion.Converter)
  | [] => .ok []
  | (k, s) :: l => do
    let c ← converter k s
    .ok (c :: (← converters l))

end Verif.Declare
