import Verif.Model.Readme
import Verif.Model.Lora
import Verif.Model.Wrappers

/-!
# Recipes of `weighted_sum`, `n_average`, `add_difference` and `subtract` in float64 (sd_mecha/extensions/builtin/merge_methods/__init__.py:17-42, 67-85)

As in `Verif/Model/Readme.lean`: tensors are bytes, each operation of PyTorch is rounded once.  What it does for other dtypes and shapes than those of a
merge in float64 is left open.
-/
namespace Verif.Linear
open Method Recipe Config Eval Program Ieee Whole Readme
open StreamOut (Tensor)
variable {F : Type}

/-- What PyTorch does: `torch` as for `weighted_sum`; `addcmul a b alpha` for float64 numbers; `mean shape i` for the float64 numbers at index `i` of stacked
tensors; `addOther`, `subOther` and `meanOther` in the cases left open -/
structure Arith where
  torch : Torch
  addcmul : FV → FV → FV → FV
  mean : List ℕ → ℕ → List FV → FV
  addOther : Tensor → Tensor → Tensor → Except Err Tensor
  subOther : Tensor → Tensor → Except Err Tensor
  meanOther : List Tensor → Except Err Tensor

/-- `a + b * alpha` rounded after each operation, or with a fused multiply-add: both occur, depending on how PyTorch was built. -/
def Arith.Fma (A : Arith) : Prop :=
  ∀ a b alpha, A.addcmul a b alpha = fadd a (fmul b alpha) ∨ A.addcmul a b alpha = decode double (encode double (add a (mul b alpha)))

/-- `a_val.addcmul(b_val, alpha)` (__init__.py:77) -/
def addcmul (A : Arith) (a b alpha : Tensor) : Except Err Tensor :=
  match entries alpha with
  | [x] =>
    if a.dtype = .f64 ∧ b.dtype = .f64 ∧ alpha.dtype = .f64 ∧ alpha.shape = [] ∧ a.shape = b.shape then
      .ok (ofEntries .f64 a.shape (List.zipWith (fun m n => encode double (A.addcmul (read .f64 m) (read .f64 n) (read .f64 x))) (entries a) (entries b)))
    else A.addOther a b alpha
  | _ => A.addOther a b alpha

/-- `a - b` (__init__.py:85) -/
def minus (A : Arith) (a b : Tensor) : Except Err Tensor :=
  if a.dtype = .f64 ∧ b.dtype = .f64 ∧ a.shape = b.shape then
    .ok (ofEntries .f64 a.shape (List.zipWith (fun m n => encode double (fadd (read .f64 m) (neg (read .f64 n)))) (entries a) (entries b)))
  else A.subOther a b

/-- `subtract` (__init__.py:80-85) -/
def subSource (A : Arith) : Source F Tensor where
  types := ⟨[.val .tensor, .val .tensor], none, []⟩
  body args _ _ :=
    match args with
    | [.val (.tensor a), .val (.tensor b)] => .done ((minus A a b).map RVal.tensor)
    | _ => .done (.error .type)

def nAverage : Str := "n_average".toList

/-- `n_average(*models)` (__init__.py:38-41) -/
def averageSig : Sig (Val F) := ⟨[], some ("models".toList, plain), [], [], [], .none, none⟩

/-- `torch.mean(torch.stack(models), dim=0)` (__init__.py:42): `stack` raises on an empty list and on different shapes. -/
def average (A : Arith) : List Tensor → Except Err Tensor
  | [] => .error .runtime
  | t :: ts =>
    if (t :: ts).all fun u => decide (u.dtype = .f64 ∧ u.shape = t.shape) then
      .ok (ofEntries .f64 t.shape ((List.range (numel t.shape)).map fun i =>
        encode double (A.mean t.shape i ((t :: ts).map fun u => read .f64 ((entries u).getD i 0)))))
    else A.meanOther (t :: ts)

/-- The arguments, where all are tensors -/
def tensorArgs : List (Program.Shape F Tensor) → Option (List Tensor)
  | [] => some []
  | .val (.tensor t) :: l => (tensorArgs l).map (t :: ·)
  | _ => none

/-- `n_average` (__init__.py:38-42) -/
def averageSource (A : Arith) : Source F Tensor where
  types := ⟨[], some (.val .tensor), []⟩
  body args _ _ :=
    match tensorArgs args with
    | some ts => .done ((average A ts).map RVal.tensor)
    | none => .done (.error .type)

end Verif.Linear
