import Verif.Model.Header
import Mathlib.Data.Nat.Digits.Defs

/-!
# Specification: the safetensors format

Independent of the tables and codecs of the model: widths and names of dtypes, the length field, and the text of
a header, written out literally.
-/
namespace Verif.Safetensors

/-- Bytes per element, from the number in the dtype's name. -/
def width : DType → ℕ
  | .f64 | .i64 | .u64 => 64 / 8
  | .f32 | .i32 | .u32 => 32 / 8
  | .f16 | .bf16 | .i16 | .u16 => 16 / 8
  | .f8e4m3 | .f8e5m2 | .i8 | .u8 => 8 / 8
  | .bool => 1

/-- Names of dtypes in the format. -/
def dname : DType → String
  | .bool => "BOOL" | .u8 => "U8" | .i8 => "I8" | .f8e5m2 => "F8_E5M2" | .f8e4m3 => "F8_E4M3"
  | .i16 => "I16" | .u16 => "U16" | .f16 => "F16" | .bf16 => "BF16"
  | .i32 => "I32" | .u32 => "U32" | .f32 => "F32" | .f64 => "F64" | .i64 => "I64" | .u64 => "U64"

/-- Value of a little-endian number. -/
def littleEndian (b : Bytes) : ℕ := Nat.ofDigits 256 (b.map UInt8.toNat)

/-- Items separated by commas. -/
def commas (l : List (List Char)) : List Char := (l.intersperse [',']).flatten

/-- Text of one tensor entry, for instance `"a":{"dtype":"F16","shape":[2,3],"data_offsets":[0,12]}`. -/
def entryText (k : Key) (e : Entry) : List Char :=
  Json.encStr k ++ ":{\"dtype\":\"".toList ++ (dname e.dtype).toList ++ "\",\"shape\":[".toList ++
    commas (e.shape.map digits) ++ "],\"data_offsets\":[".toList ++ digits e.start ++ ",".toList ++
    digits e.stop ++ "]}".toList

/-- Text of the item of one name; `__metadata__` maps names to strings. -/
def itemText (k : Key) : HVal → List Char
  | .tensor e => entryText k e
  | .metadata fs => Json.encStr k ++ ":{".toList ++
      commas (fs.map fun p => Json.encStr p.1 ++ ":".toList ++ Json.encStr p.2) ++ "}".toList

/-- Text of a header. -/
def headerText (h : Header) : List Char :=
  "{".toList ++ commas (h.map fun p => itemText p.1 p.2) ++ "}".toList

/-- The bytes of a file: length of the header text (padding included), text, blanks, data. -/
structure IsFile (file : Bytes) (h : Header) (pad : ℕ) (data : Bytes) : Prop where
  length : littleEndian (file.take 8) = (headerText h).length + pad
  content : file.drop 8 = asciiBytes (headerText h) ++ List.replicate pad 32 ++ data
  eight : 8 ≤ file.length

end Verif.Safetensors
