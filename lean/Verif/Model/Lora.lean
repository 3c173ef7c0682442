import Verif.Model.Registered
import Verif.Model.Whole

/-!
# Merging a LoRA into a model (examples/lora_merge.py)

`add_difference(base, convert(lora, base), alpha=x)`: the functions of the methods as programs that ask their state dicts for keys.  Arithmetic on
tensors is a parameter (`Verif/Model/Lycoris.lean` has it).
-/
namespace Verif.Lora
open Method Recipe Config Eval Program Whole Shipped
variable {F V : Type}

/-- The characters of a string as numbers -/
def codes (s : Str) : Text := s.map Char.toNat

/-- The name of the module of a key (extensions/builtin/lycoris.py:26-32): the part of the first LoRA key before the dot.  `s` is the state in which
registration has ended: all conversions read the variable `lyco_config` it holds. -/
def moduleOf (s : Lycoris.State) (key : Str) : Option Str :=
  match s.lycoConfig with
  | none => none
  | some c =>
    match Lycoris.toKeys c.pre [(codes key, true)] with
    | [] => none
    | k :: _ => some (str ((Text.split k).headD []))

/-- The function of a conversion from a LoRA to its base model (lycoris.py:21-32) with `compose_lora_up_down` (lycoris.py:35-41); `compose` is what it
computes from the three tensors (lycoris.py:42-55).  Simplified: the error for values that are no tensors. -/
def loraSource (s : Lycoris.State) (compose : V → V → V → Except Err V) : Source F V where
  types := ⟨[.sd .tensor], none, []⟩
  body args _ key :=
    match args with
    | [.sd _] =>
      match moduleOf s key with
      | none => .done (.error .stateDictKey)
      | some m => .ask (.pos 0) (m ++ ".alpha".toList) fun
        | .error e => .done (.error e)
        | .ok alpha => .ask (.pos 0) (m ++ ".lora_down.weight".toList) fun
          | .error e => .done (.error e)
          | .ok down => .ask (.pos 0) (m ++ ".lora_up.weight".toList) fun
            | .error e => .done (.error e)
            | .ok up =>
              match alpha, down, up with
              | .tensor alpha, .tensor down, .tensor up => .done ((compose alpha down up).map RVal.tensor)
              | _, _, _ => .done (.error .type)
    | _ => .done (.error .type)

/-- Its signature (lycoris.py:21-25) -/
def loraSig (cl c : Str) : Sig (Val F) :=
  ⟨[("lora".toList, ⟨some (.set [weight]), some cl, false⟩)], none, [], [], [], .space "delta".toList, some c⟩

/-- `add_difference` (extensions/builtin/merge_methods/__init__.py:67-77); `addcmul a b alpha` is `a.addcmul(b, alpha)`.  Simplified: as above -/
def addSource (addcmul : V → V → V → Except Err V) : Source F V where
  types := ⟨[.sd .tensor, .sd .tensor, .val .tensor], none, []⟩
  body args _ key :=
    match args with
    | [.sd _, .sd _, .val alpha] => .ask (.pos 1) key fun
      | .error e => .done (.error e)
      | .ok b => .ask (.pos 0) key fun
        | .error e => .done (.error e)
        | .ok a =>
          match a, b, alpha with
          | .tensor a, .tensor b, .tensor alpha => .done ((addcmul a b alpha).map RVal.tensor)
          | _, _, _ => .done (.error .type)
    | _ => .done (.error .type)

def nAdd : Str := "add_difference".toList

/-- Its signature; `one` is `1.0` (__init__.py:68-73). -/
def addSig (one : F) : Sig (Val F) :=
  ⟨[("a".toList, ⟨some (.set [weight]), none, false⟩), ("b".toList, ⟨some (.set ["delta".toList]), none, false⟩), ("alpha".toList, plain)], none, [], [.float one], [],
    .space weight, none⟩

/-! ## Exact arithmetic -/

/-- A tensor: one number, or a weight -/
inductive Tens (K : Type)
  | scalar (x : K)
  | weight (w : Lycoris.Weight K)

/-- `compose_lora_up_down` after the reads (lycoris.py:42-55) -/
def composeExact {K : Type} [Field K] : Tens K → Tens K → Tens K → Except Err (Tens K)
  | .scalar alpha, .weight down, .weight up =>
    match Lycoris.compose alpha down up with
    | some w => .ok (.weight w)
    | none => .error .runtime
  | _, _, _ => .error .runtime

/-- `a.addcmul(b, alpha)` for weights of one shape (merge_methods/__init__.py:77); broadcasts are left out. -/
def addcmulExact {K : Type} [Field K] : Tens K → Tens K → Tens K → Except Err (Tens K)
  | .weight a, .weight b, .scalar alpha =>
    if a.linear = b.linear ∧ a.out = b.out ∧ a.inp = b.inp ∧ a.kh = b.kh ∧ a.kw = b.kw then
      .ok (.weight { a with at' := fun o i y x => a.at' o i y x + b.at' o i y x * alpha })
    else .error .runtime
  | _, _, _ => .error .runtime

end Verif.Lora
