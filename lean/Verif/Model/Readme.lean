import Verif.Model.Ieee
import Verif.Model.Whole

/-!
# The first example of the README (README.md:6-17): `merge(weighted_sum(a, b, alpha=x), output=...)`

`weighted_sum` (sd_mecha/extensions/builtin/merge_methods/__init__.py:17-36) on tensors of bytes.  PyTorch's arithmetic is IEEE 754: each operation is
rounded once.  What it does for other dtypes and shapes than those of a merge in float64 is left open.
-/
namespace Verif.Readme
open Method Recipe Config Eval Program Ieee Whole
open StreamOut (Tensor)
variable {F : Type}

/-- Arithmetic in float64 -/
def fadd (x y : FV) : FV := decode double (encode double (add x y))
def fmul (x y : FV) : FV := decode double (encode double (mul x y))

/-- `1e-08` and `1e-05`, the default tolerances of `torch.allclose` -/
def atol : FV := decode double 0x3E45798EE2308C3A
def rtol : FV := decode double 0x3EE4F8B588E368F1

def zero : FV := .fin false 0 0

/-- The bits without sign; larger numbers have larger ones, NaNs the largest. -/
def size (v : FV) : ℕ := encode double v % double.signBit

def abs : FV → FV
  | .fin _ m e => .fin false m e
  | .inf _ => .inf false
  | .nan => .nan

/-- `torch.isclose(x, y)`: `|x - y| <= atol + |rtol * y|` for finite differences -/
def isClose (x y : FV) : Bool :=
  decide (size (add x (neg y)) < double.infCode ∧ size (add x (neg y)) ≤ size (add atol (abs (fmul rtol y))))

/-- What PyTorch does in cases that are left open -/
structure Torch where
  /-- `allclose(alpha, full_like(alpha, y))` -/
  close : FV → Tensor → Except Err Bool
  /-- `(1-alpha)*a + alpha*b` -/
  mix : Tensor → Tensor → Tensor → Except Err Tensor
  /-- casts to other dtypes -/
  other : DType → Tensor → Tensor

/-- `torch.allclose(alpha, torch.zeros_like(alpha))` and `torch.ones_like` (__init__.py:26-29) -/
def allClose (T : Torch) (y : FV) (alpha : Tensor) : Except Err Bool :=
  if alpha.dtype = .f64 then .ok ((entries alpha).all fun n => isClose (read .f64 n) y) else T.close y alpha

/-- `(1-alpha)*a + alpha*b` for numbers (__init__.py:34-35) -/
def mixed (alpha a b : FV) : FV := fadd (fmul (fadd one (neg alpha)) a) (fmul alpha b)

/-- `weighted_sum_impl` (__init__.py:34-35) -/
def mix (T : Torch) (a b alpha : Tensor) : Except Err Tensor :=
  match entries alpha with
  | [x] =>
    if a.dtype = .f64 ∧ b.dtype = .f64 ∧ alpha.dtype = .f64 ∧ alpha.shape = [] ∧ a.shape = b.shape then
      .ok (ofEntries .f64 a.shape (List.zipWith (fun m n => encode double (mixed (read .f64 x) (read .f64 m) (read .f64 n))) (entries a) (entries b)))
    else T.mix a b alpha
  | _ => T.mix a b alpha

/-- `weighted_sum` (__init__.py:17-31) -/
def weightedSource (T : Torch) : Source F Tensor where
  types := ⟨[.sd .tensor, .sd .tensor, .val .tensor], none, []⟩
  body args _ key :=
    match args with
    | [.sd _, .sd _, .val (.tensor alpha)] =>
      match allClose T zero alpha with
      | .error e => .done (.error e)
      | .ok true => .ask (.pos 0) key .done
      | .ok false =>
        match allClose T one alpha with
        | .error e => .done (.error e)
        | .ok true => .ask (.pos 1) key .done
        | .ok false => .ask (.pos 0) key fun
          | .ok (.tensor a) => .ask (.pos 1) key fun
            | .ok (.tensor b) => .done ((mix T a b alpha).map RVal.tensor)
            | .ok _ => .done (.error .type)
            | .error e => .done (.error e)
          | .ok _ => .done (.error .type)
          | .error e => .done (.error e)
    | _ => .done (.error .type)

def nWeighted : Str := "weighted_sum".toList

/-- Its signature; `half` is `0.5` (__init__.py:18-23). -/
def weightedSig (half : F) : Sig (Val F) :=
  ⟨[("a".toList, plain), ("b".toList, plain), ("alpha".toList, plain)], none, [], [.float half], [], .none, none⟩

/-- The options of `merge` if none is given (merging.py:95-126) -/
def defaults : Options F :=
  ⟨none, some "cpu".toList, some "float64".toList, some "cpu".toList, some "float16".toList, true, true⟩

/-- The number a python float is turned into: `torch.tensor(x, dtype=torch.float32)` (merging.py:663-666), then cast to float64 -/
def alphaTensor (v : FV) : Tensor := ofEntries .f32 [] [encode single v]

end Verif.Readme
