import Verif.Py.Json
import Verif.Py.Err

/-!
# Bytes, dtypes and safetensors headers
-/
namespace Verif

abbrev Bytes := List UInt8

/-- `b[start:start+len]` -/
def slice (b : Bytes) (start len : ℕ) : Bytes := (b.drop start).take len

/-- `struct.pack('<Q', n)` for `n < 2^64` (streaming.py:329) -/
def le64 (n : ℕ) : Bytes := (List.range 8).map fun i => UInt8.ofNat (n / 256 ^ i % 256)

/-- `struct.unpack('<Q', b)[0]` for eight bytes (streaming.py:132) -/
def unle64 (b : Bytes) : ℕ := b.foldr (fun x a => x.toNat + 256 * a) 0

/-- The dtypes of `DTYPE_MAPPING` (streaming.py:369-388).  `hasattr(torch, "uint8")` is always true, so
the unsigned types are included. -/
inductive DType where
  | f64 | i64 | f32 | i32 | f16 | bf16 | i16 | i8 | f8e4m3 | f8e5m2 | bool | u64 | u32 | u16 | u8
  deriving DecidableEq, Repr

namespace DType
/-- `DTYPE_REVERSE_MAPPING[dtype][0]` (streaming.py:369-390) -/
def name : DType → List Char
  | f64 => "F64".toList | i64 => "I64".toList | f32 => "F32".toList | i32 => "I32".toList
  | f16 => "F16".toList | bf16 => "BF16".toList | i16 => "I16".toList | i8 => "I8".toList
  | f8e4m3 => "F8_E4M3".toList | f8e5m2 => "F8_E5M2".toList | bool => "BOOL".toList
  | u64 => "U64".toList | u32 => "U32".toList | u16 => "U16".toList | u8 => "U8".toList

/-- `DTYPE_REVERSE_MAPPING[dtype][1]` (streaming.py:369-390) -/
def size : DType → ℕ
  | f64 => 8 | i64 => 8 | f32 => 4 | i32 => 4 | f16 => 2 | bf16 => 2 | i16 => 2 | i8 => 1
  | f8e4m3 => 1 | f8e5m2 => 1 | bool => 1 | u64 => 8 | u32 => 4 | u16 => 2 | u8 => 1

def all : List DType :=
  [f64, i64, f32, i32, f16, bf16, i16, i8, f8e4m3, f8e5m2, bool, u64, u32, u16, u8]

/-- `DTYPE_MAPPING[name][0]`, `none` for a `KeyError` (streaming.py:369-388) -/
def ofName (s : List Char) : Option DType := all.find? fun d => d.name == s
end DType

/-- `shape.numel()` -/
def numel (shape : List ℕ) : ℕ := shape.foldr (· * ·) 1

/-- One tensor entry of a header: `{"dtype":…, "shape":…, "data_offsets":[start, stop]}`. -/
structure Entry where
  dtype : DType
  shape : List ℕ
  start : ℕ
  stop : ℕ
  deriving DecidableEq, Repr

abbrev Key := List Char

/-- Values of the header dict: `__metadata__` maps to a dict of strings, tensors to entries. -/
inductive HVal where
  | metadata (fields : Dict Key (List Char))
  | tensor (e : Entry)
  deriving DecidableEq, Repr

abbrev Header := Dict Key HVal

def metadataKey : Key := "__metadata__".toList

/-- Json form of an entry in the order written by `__setitem__`/`_flush_buffer` (streaming.py:229-233). -/
def Entry.toJson (e : Entry) : Json :=
  .obj [("dtype".toList, .str e.dtype.name), ("shape".toList, .arr (e.shape.map .num)),
    ("data_offsets".toList, .arr [.num e.start, .num e.stop])]

/-- Json form of an entry in the order of `safetensors_header_value` (streaming.py:37-41). -/
def Entry.toJsonDummy (e : Entry) : Json :=
  .obj [("shape".toList, .arr (e.shape.map .num)), ("dtype".toList, .str e.dtype.name),
    ("data_offsets".toList, .arr [.num e.start, .num e.stop])]

def HVal.toJson : HVal → Json
  | .metadata fs => .obj (fs.map fun p => (p.1, .str p.2))
  | .tensor e => e.toJson

/-- ASCII text to bytes (`.encode('utf-8')` on ASCII). -/
def asciiBytes (cs : List Char) : Bytes := cs.map fun c => UInt8.ofNat c.toNat

/-- `.decode('utf-8')` on ASCII bytes; other bytes are rejected in the model (simplification: python
accepts UTF-8, but `json.dumps` never produces it). -/
def asciiChars (b : Bytes) : Option (List Char) :=
  if b.all (· < 128) then some (b.map fun x => Char.ofNat x.toNat) else none

/-- `json.dumps(header, separators=(',', ':')).encode('utf-8')` (streaming.py:297) -/
def encHeader (h : Header) : Bytes :=
  asciiBytes (Json.obj (h.map fun p => (p.1, p.2.toJson))).enc

def isSpace (c : Char) : Bool := c = ' ' || c = '\n' || c = '\t' || c = '\r'

/-- `s.strip()` -/
def strip (cs : List Char) : List Char := ((cs.dropWhile isSpace).reverse.dropWhile isSpace).reverse

def Json.asNat? : Json → Option ℕ
  | .num n => some n
  | _ => none
def Json.asStr? : Json → Option (List Char)
  | .str s => some s
  | _ => none

/-- A parsed entry: `tensor_info['dtype']`, `['shape']`, `['data_offsets']` (streaming.py:153-157).
Simplification: a missing or ill-typed attribute is an error on opening, python raises on first access. -/
def entryOfJson (l : List (List Char × Json)) : Option HVal :=
  let d := Dict.ofList l
  match d.get? "dtype".toList, d.get? "shape".toList, d.get? "data_offsets".toList with
  | some (.str dt), some (.arr sh), some (.arr [.num a, .num b]) => do
    let dt ← DType.ofName dt
    let sh ← sh.mapM Json.asNat?
    return .tensor ⟨dt, sh, a, b⟩
  | _, _, _ => none

def metadataOfJson (l : List (List Char × Json)) : Option HVal := do
  let fs ← (Dict.ofList l).mapM fun p => do return (p.1, ← p.2.asStr?)
  return .metadata fs

def hvalOfJson (k : Key) : Json → Option HVal
  | .obj l => if k = metadataKey then (metadataOfJson l).or (entryOfJson l) else entryOfJson l
  | _ => none

/-- `json.loads(header.decode('utf-8').strip())` (streaming.py:133-134) -/
def decHeader (b : Bytes) : Option Header := do
  let cs ← asciiChars b
  match Json.parse (strip cs) with
  | some (.obj l) => (Dict.ofList l).mapM fun p => do return (p.1, ← hvalOfJson p.1 p.2)
  | _ => none

end Verif
