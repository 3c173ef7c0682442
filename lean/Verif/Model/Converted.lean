import Verif.Model.Convert
import Verif.Model.Lora
import Verif.Model.Readme
import Verif.Model.Strided

/-!
# Converting a checkpoint: `merge(convert(model, config), output=...)`

The conversions of sd_mecha/extensions/builtin/model_configs/convert_*.py as programs that ask the state dict they convert for keys.  Which keys these
are, and what is made of the tensors, says `Verif/Model/Convert.lean`.
-/
namespace Verif.Converted
open Method Recipe Config Eval Program Whole Shipped Convert
open StreamOut (Tensor)
open Lora (codes)
variable {F V : Type}

/-- The shape of `torch.atleast_2d(t)` -/
def atLeast2 : List ℕ → List ℕ
  | [] => [1, 1]
  | [n] => [1, n]
  | shape => shape

/-- `torch.vstack(ts)` of contiguous tensors (convert_sdxl_kohya_to_original.py:46-49).  Simplified: tensors of different dtypes are rejected; in a merge
that casts its inputs there are none. -/
def vstack (ts : List Tensor) : Except Err Tensor :=
  match ts with
  | [] => .error .runtime
  | t :: _ =>
    if ts.all fun u => u.dtype == t.dtype && (atLeast2 u.shape).tail == (atLeast2 t.shape).tail then
      .ok ⟨t.dtype, (ts.map fun u => (atLeast2 u.shape).headD 0).sum :: (atLeast2 t.shape).tail, ts.flatMap (·.bytes)⟩
    else .error .runtime

/-- `reshape_weight_for_sd(w)` (convert_huggingface_sd_vae_to_original.py:34-39) -/
def asConv (t : Tensor) : Tensor := if t.shape.length ≠ 1 then { t with shape := t.shape ++ [1, 1] } else t

/-- `res.T` (convert_sdxl_kohya_to_original.py:53-54).  A tensor here is what the writer sees of it: the storage, which `.T` does not touch, and the
shape.  `to` keeps the order of the elements in the storage (`Strided.View` in `Verif/Props/Converted.lean`). -/
def flip (t : Tensor) : Tensor := { t with shape := t.shape.reverse }

/-- What a conversion makes of the tensors it reads -/
def make : Convert.Conv → List Tensor → Except Err Tensor
  | .read _, [t] => .ok t
  | .transposed _, [t] => .ok (flip t)
  | .stacked _, ts => vstack ts
  | .conv1x1 _, [t] => .ok (asConv t)
  | _, _ => .error .type

/-- Reading keys in order, then `next` -/
def askAll : List Str → List Tensor → (List Tensor → Except Err Tensor) → Fn F Tensor
  | [], ts, next => .done ((next ts).map RVal.tensor)
  | k :: ks, ts, next => .ask (.pos 0) k fun
    | .ok (.tensor t) => askAll ks (ts ++ [t]) next
    | .ok _ => .done (.error .type)
    | .error e => .done (.error e)

/-- The keys a conversion reads, in order -/
def asked : Convert.Conv → List Text
  | .read k | .transposed k | .conv1x1 k => [k]
  | .stacked ks => ks

/-- The function of a conversion: convert_sd1_kohya_to_original.py:18-31, convert_sdxl_kohya_to_original.py:16-60,
convert_sdxl_diffusers_unet_to_original.py:18-40, convert_flux.py:8-25; `f` says what it reads for a key. -/
def convSource (f : Text → Option Convert.Conv) : Source F Tensor where
  types := ⟨[.sd .tensor], none, []⟩
  body args _ key :=
    match args with
    | [.sd _] =>
      match f (codes key) with
      | none => .done (.error .stateDictKey)
      | some c => askAll ((asked c).map str) [] (make c)
    | _ => .done (.error .type)

/-- Its signature; `name` is what its parameter is called. -/
def convSig (name src tgt : Str) : Sig (Val F) := ⟨[(name, ⟨none, some src, false⟩)], none, [], [], [], .none, some tgt⟩

end Verif.Converted
