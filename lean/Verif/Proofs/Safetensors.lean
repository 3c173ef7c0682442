import Verif.Spec.Safetensors
import Verif.Proofs.Header

namespace Verif.Safetensors

theorem size_eq (d : DType) : d.size = width d := by cases d <;> rfl

theorem name_eq (d : DType) : d.name = (dname d).toList := by cases d <;> rfl

theorem unle64_eq (b : Bytes) : unle64 b = littleEndian b := by
  unfold unle64 littleEndian
  induction b with
  | nil => rfl
  | cons x b ih => simp [Nat.ofDigits_cons, ih]

theorem joinSep_eq (l : List (List Char)) : Json.joinSep ',' l = commas l := by
  induction l with
  | nil => rfl
  | cons x l ih =>
    cases l with
    | nil => simp [Json.joinSep, commas]
    | cons y l =>
      simp only [Json.joinSep, ih, commas]
      simp [List.intersperse]

theorem encList_num (l : List ℕ) : Json.encList (l.map .num) = l.map digits := by
  induction l with
  | nil => rfl
  | cons x l ih => simp [Json.encList, Json.enc, ih]

theorem encFields_str (l : List (List Char × List Char)) :
    Json.encFields (l.map fun p => (p.1, Json.str p.2)) =
      l.map fun p => Json.encStr p.1 ++ ":".toList ++ Json.encStr p.2 := by
  induction l with
  | nil => rfl
  | cons x l ih => simp [Json.encFields, Json.enc, ih]

theorem encStr_name (d : DType) : Json.encStr d.name = "\"".toList ++ (dname d).toList ++ "\"".toList := by
  cases d <;> decide

theorem itemText_eq (k : Key) (v : HVal) : Json.encStr k ++ ':' :: v.toJson.enc = itemText k v := by
  cases v with
  | metadata fs =>
    simp [HVal.toJson, Json.enc, encFields_str, joinSep_eq, itemText]
  | tensor e =>
    simp only [HVal.toJson, Entry.toJson, Json.enc, Json.encFields, Json.encList, joinSep_eq, itemText, entryText,
      encStr_name, encList_num]
    have h1 : Json.encStr "dtype".toList = "\"dtype\"".toList := by decide
    have h2 : Json.encStr "shape".toList = "\"shape\"".toList := by decide
    have h3 : Json.encStr "data_offsets".toList = "\"data_offsets\"".toList := by decide
    rw [h1, h2, h3]
    simp [commas]

theorem encHeader_eq (h : Header) : encHeader h = asciiBytes (headerText h) := by
  unfold encHeader headerText
  congr 1
  simp only [Json.enc, joinSep_eq]
  have : Json.encFields (h.map fun p => (p.1, p.2.toJson)) = h.map fun p => itemText p.1 p.2 := by
    induction h with
    | nil => rfl
    | cons p h ih => simp [Json.encFields, itemText_eq, ih]
  rw [this]; simp

end Verif.Safetensors
