import Verif.Model.Float
import Verif.Model.StreamOut

/-!
# Floating point numbers as bits, and casts of tensors

PyTorch is not part of /repo.  `tensor.to(dtype)` (sd_mecha/extensions/builtin/merge_methods/__init__.py:819-834) and its arithmetic are modelled as
IEEE 754 has them: one rounding to nearest, ties to even, per operation.  All NaNs that are made are the same.
-/
namespace Verif.Ieee
open Float
open StreamOut (Tensor)

/-- A binary format: bits of the exponent, bits of the mantissa -/
structure Fmt where
  ew : ℕ
  mw : ℕ
  deriving DecidableEq, Repr

def half : Fmt := ⟨5, 10⟩
def brain : Fmt := ⟨8, 7⟩
def single : Fmt := ⟨8, 23⟩
def double : Fmt := ⟨11, 52⟩
def e5m2 : Fmt := ⟨5, 2⟩
/-- Without infinities: see `read` -/
def e4m3 : Fmt := ⟨4, 3⟩

namespace Fmt
def bias (f : Fmt) : ℤ := 2 ^ (f.ew - 1) - 1
/-- Significant bits -/
def p (f : Fmt) : ℕ := f.mw + 1
/-- The exponent of the least positive number -/
def emin (f : Fmt) : ℤ := 1 - f.bias - f.mw
/-- Finite numbers are below `2^emax` -/
def emax (f : Fmt) : ℤ := f.bias + 1
/-- The bits of infinity -/
def infCode (f : Fmt) : ℕ := (2 ^ f.ew - 1) * 2 ^ f.mw
def signBit (f : Fmt) : ℕ := 2 ^ (f.ew + f.mw)
end Fmt

/-- A number; finite ones are `m * 2^e` with a sign -/
inductive FV where
  | fin (neg : Bool) (m : ℕ) (e : ℤ)
  | inf (neg : Bool)
  | nan
  deriving DecidableEq, Repr

/-- What some bits without sign stand for: the numerator, and its exponent -/
def mag (f : Fmt) (c : ℕ) : ℕ := if c < 2 ^ f.mw then c else 2 ^ f.mw + c % 2 ^ f.mw
def expo (f : Fmt) (c : ℕ) : ℤ := ((c / 2 ^ f.mw - 1 : ℕ) : ℤ) + f.emin

/-- The number some bits stand for -/
def decode (f : Fmt) (n : ℕ) : FV :=
  let neg := decide (f.signBit ≤ n)
  let c := n % f.signBit
  if f.infCode < c then .nan
  else if c = f.infCode then .inf neg
  else .fin neg (mag f c) (expo f c)

/-- The bits of `m * 2^e`, rounded.  The unit of the last place is `2^u`; a carry moves on to the next exponent by itself. -/
def code (f : Fmt) (m : ℕ) (e : ℤ) : ℕ :=
  if m = 0 then 0
  else
    let u := max (e + bits m - f.p) f.emin
    let k : ℤ := if u ≤ e then m * 2 ^ (e - u).toNat else rne m (u - e).toNat
    (u - f.emin).toNat * 2 ^ f.mw + k.toNat

def sign (f : Fmt) (neg : Bool) : ℕ := if neg then f.signBit else 0

/-- The bits of a number, rounded -/
def encode (f : Fmt) : FV → ℕ
  | .nan => f.infCode + 2 ^ (f.mw - 1)
  | .inf neg => sign f neg + f.infCode
  | .fin neg m e => sign f neg + min (code f m e) f.infCode

/-! ### Arithmetic -/

def signed (neg : Bool) (m : ℕ) : ℤ := if neg then -m else m

/-- A sum before it is rounded.  A zero sum is negative if both are. -/
def add : FV → FV → FV
  | .nan, _ | _, .nan => .nan
  | .inf s, .inf t => if s = t then .inf s else .nan
  | .inf s, _ => .inf s
  | _, .inf t => .inf t
  | .fin s m e, .fin t n g =>
    let u := min e g
    let k := signed s m * 2 ^ (e - u).toNat + signed t n * 2 ^ (g - u).toNat
    .fin (if k = 0 then s && t else decide (k < 0)) k.natAbs u

def neg : FV → FV
  | .nan => .nan
  | .inf s => .inf !s
  | .fin s m e => .fin (!s) m e

/-- A product before it is rounded -/
def mul : FV → FV → FV
  | .nan, _ | _, .nan => .nan
  | .inf s, .inf t => .inf (s != t)
  | .inf s, .fin t n _ => if n = 0 then .nan else .inf (s != t)
  | .fin s m _, .inf t => if m = 0 then .nan else .inf (s != t)
  | .fin s m e, .fin t n g => .fin (s != t) (m * n) (e + g)

def one : FV := .fin false 1 0

/-! ### Tensors -/

/-- The format of a dtype, for those of IEEE 754 -/
def fmt : DType → Option Fmt
  | .f64 => some double
  | .f32 => some single
  | .f16 => some half
  | .bf16 => some brain
  | .f8e5m2 => some e5m2
  | _ => none

/-- A whole number as it is -/
def ofInt (i : ℤ) : FV := .fin (decide (i < 0)) i.natAbs 0

/-- Two's complement with `w` bits -/
def toInt (w n : ℕ) : ℤ := if n < 2 ^ (w - 1) then n else n - 2 ^ w

/-- The number an entry of a tensor stands for -/
def read : DType → ℕ → FV
  | .f64, n => decode double n
  | .f32, n => decode single n
  | .f16, n => decode half n
  | .bf16, n => decode brain n
  | .f8e5m2, n => decode e5m2 n
  | .f8e4m3, n => if n % 128 = 127 then .nan else .fin (decide (128 ≤ n)) (mag e4m3 (n % 128)) (expo e4m3 (n % 128))
  | .i64, n => ofInt (toInt 64 n)
  | .i32, n => ofInt (toInt 32 n)
  | .i16, n => ofInt (toInt 16 n)
  | .i8, n => ofInt (toInt 8 n)
  | .bool, n => ofInt (if n = 0 then 0 else 1)
  | .u64, n | .u32, n | .u16, n | .u8, n => ofInt n

/-- The first `c` pieces of `w` bytes -/
def pieces (w : ℕ) : ℕ → Bytes → List Bytes
  | 0, _ => []
  | c + 1, b => b.take w :: pieces w c (b.drop w)

/-- `n` as `w` bytes, the lowest first -/
def le : ℕ → ℕ → Bytes
  | 0, _ => []
  | w + 1, n => UInt8.ofNat (n % 256) :: le w (n / 256)

/-- The entries of a tensor, in row-major order -/
def entries (t : Tensor) : List ℕ := (pieces t.dtype.size (numel t.shape) t.bytes).map unle64

def ofEntries (d : DType) (shape : List ℕ) (l : List ℕ) : Tensor := ⟨d, shape, l.flatMap (le d.size)⟩

/-- `t.to(dtype)`.  `other` is what it does for integers and `float8_e4m3fn`, which is left out. -/
def cast (other : DType → Tensor → Tensor) (d : DType) (t : Tensor) : Tensor :=
  if t.dtype = d then t
  else
    match fmt d with
    | some f => ofEntries d t.shape ((entries t).map fun n => encode f (read t.dtype n))
    | none => other d t

/-- The names that `cast` knows (merge_methods/__init__.py:837-871) -/
def dtypeOf (s : Method.Str) : Option DType :=
  [("float64", DType.f64), ("int64", .i64), ("float32", .f32), ("int32", .i32), ("float16", .f16), ("bfloat16", .bf16), ("int16", .i16),
    ("float8_e4m3fn", .f8e4m3), ("float8_e5m2", .f8e5m2), ("int8", .i8), ("bool", .bool), ("uint64", .u64), ("uint32", .u32), ("uint16", .u16),
    ("uint8", .u8)].findSome? fun p => if p.1.toList = s then some p.2 else none

/-- `a.to(device, dtype)` (merge_methods/__init__.py:819-834) on a machine whose only device is the cpu -/
def move (other : DType → Tensor → Tensor) (device dtype : Option Method.Str) (t : Tensor) : Except Err Tensor :=
  if device = none ∨ device = some "cpu".toList then
    match dtype with
    | none => .ok t
    | some s =>
      match dtypeOf s with
      | some d => .ok (cast other d t)
      | none => .error .value
  else .error .runtime

end Verif.Ieee
