import Verif.Model.Mem
import Verif.Model.Region
import Verif.Model.Readme

/-!
# Builtin methods on tensors in memory (sd_mecha/extensions/builtin/merge_methods/__init__.py)
-/
namespace Verif.Mem
open Method Recipe Config Eval Program
variable {F V : Type}

/-- `cast` (__init__.py:819-834), see `Whole.castSource`.  `.to` returns the tensor itself if `same`: its dtype and device are those asked for. -/
def castSourceH (same : Option Str → Option Str → V → Bool) (move : Option Str → Option Str → V → Except Err V) : HSource F V where
  types := ⟨[.val .tensor, .val .str, .val .str], none, []⟩
  body args _ _ :=
    match args with
    | [.val a, .val device, .val dtype] =>
      match deviceArg device, dtypeArg dtype with
      | .error e, _ => .done (.error e)
      | _, .error e => .done (.error e)
      | .ok d, .ok t =>
        match a with
        | .tensor r => .read r fun x =>
          if same d t x then .done (.ok (.tensor r))
          else match move d t x with
            | .ok y => .new y fun q => .done (.ok (.tensor q))
            | .error e => .done (.error e)
        | _ => .done (.error .attribute)
    | _ => .done (.error .type)

/-- `fallback` (__init__.py:806-816), see `Whole.fallbackSource`. -/
def fallbackSourceH : HSource F V where
  types := ⟨[.sd .typeVar, .sd .typeVar], none, []⟩
  body args _ key :=
    match args with
    | [.sd _, .sd _] => .ask (.pos 0) key fun
      | .ok v => .done (.ok v)
      | .error .stateDictKey => .ask (.pos 1) key .done
      | .error e => .done (.error e)
    | _ => .done (.error .type)

/-- `weighted_sum` (__init__.py:17-31), see `Readme.weightedSource`. -/
def weightedSourceH (T : Readme.Torch) : HSource F StreamOut.Tensor where
  types := ⟨[.sd .tensor, .sd .tensor, .val .tensor], none, []⟩
  body args _ key :=
    match args with
    | [.sd _, .sd _, .val (.tensor r)] => .read r fun alpha =>
      match Readme.allClose T Readme.zero alpha with
      | .error e => .done (.error e)
      | .ok true => .ask (.pos 0) key .done
      | .ok false =>
        match Readme.allClose T Ieee.one alpha with
        | .error e => .done (.error e)
        | .ok true => .ask (.pos 1) key .done
        | .ok false => .ask (.pos 0) key fun
          | .ok (.tensor a) => .ask (.pos 1) key fun
            | .ok (.tensor b) => .read a fun x => .read b fun y =>
              match Readme.mix T x y alpha with
              | .ok z => .new z fun q => .done (.ok (.tensor q))
              | .error e => .done (.error e)
            | .ok _ => .done (.error .type)
            | .error e => .done (.error e)
          | .ok _ => .done (.error .type)
          | .error e => .done (.error e)
    | _ => .done (.error .type)

/-- `tensor_sum(a, b, width, offset)` on values: what the tensor that `Region.tensorSum` returns then holds (__init__.py:142-160) -/
def tensorSumSource {R : Type} : Source ℚ (Region.Tensor R) where
  types := ⟨[.val .tensor, .val .tensor, .val .float, .val .float], none, []⟩
  body args _ _ :=
    match args with
    | [.val (.tensor x), .val (.tensor y), .val (.float w), .val (.float o)] =>
      match Region.tensorSum (fun r => if r = 0 then x else y) 0 1 w o with
      | some (σ, r) => .done (.ok (.tensor (σ r)))
      | none => .done (.error .runtime)
    | _ => .done (.error .type)

/-- `tensor_sum` (__init__.py:142-160): one of the arguments is overwritten in part and returned. -/
def tensorSumSourceH {R : Type} : HSource ℚ (Region.Tensor R) where
  types := ⟨[.val .tensor, .val .tensor, .val .float, .val .float], none, []⟩
  body args _ _ :=
    match args with
    | [.val (.tensor a), .val (.tensor b), .val (.float w), .val (.float o)] => .read a fun x => .read b fun y =>
      match x, y with
      | .scalar _, .scalar _ => .done (.ok (.tensor (if 1 / 2 < w then b else a)))
      | .rows xs, .rows ys =>
        if xs.length = ys.length then
          match Region.ratioToRegion w o xs.length with
          | (s, e, true) => .write b (.rows (Region.copyRows ys xs s e)) (.done (.ok (.tensor b)))
          | (s, e, false) => .write a (.rows (Region.copyRows xs ys s e)) (.done (.ok (.tensor a)))
        else .done (.error .runtime)
      | _, _ => .done (.error .runtime)
    | _ => .done (.error .type)

/-- `multiply_quotient(a, b, c, alpha)` (__init__.py:277-296) on values: `scaled` is what lines 284-291 make of `alpha`, `power` lines 293-296. -/
def multiplySource (scaled power : V → V → V → V → Except Err V) : Source F V where
  types := ⟨[.val .tensor, .val .tensor, .val .tensor, .val .tensor], none, []⟩
  body args _ _ :=
    match args with
    | [.val (.tensor a), .val (.tensor b), .val (.tensor c), .val (.tensor alpha)] =>
      match scaled a b c alpha with
      | .error e => .done (.error e)
      | .ok alpha => .done ((power a b c alpha).map RVal.tensor)
    | _ => .done (.error .type)

/-- `multiply_quotient` (__init__.py:277-296): `alpha *= ...` overwrites the argument, the result is a new tensor. -/
def multiplySourceH (scaled power : V → V → V → V → Except Err V) : HSource F V where
  types := ⟨[.val .tensor, .val .tensor, .val .tensor, .val .tensor], none, []⟩
  body args _ _ :=
    match args with
    | [.val (.tensor a), .val (.tensor b), .val (.tensor c), .val (.tensor alpha)] =>
      .read a fun x => .read b fun y => .read c fun z => .read alpha fun u =>
      match scaled x y z u with
      | .error e => .done (.error e)
      | .ok u => .write alpha u (.read alpha fun u =>
        match power x y z u with
        | .error e => .done (.error e)
        | .ok v => .new v fun q => .done (.ok (.tensor q)))
    | _ => .done (.error .type)

end Verif.Mem
