import Verif.Proofs.Json
import Verif.Model.Header

namespace Verif
open Json

theorem uint8_ofNat_toNat {n : ℕ} (h : n < 256) : (UInt8.ofNat n).toNat = n := by
  simp [UInt8.toNat_ofNat']; omega

theorem asciiChars_asciiBytes (cs : List Char) (h : ∀ c ∈ cs, Printable c) :
    asciiChars (asciiBytes cs) = some cs := by
  unfold asciiChars asciiBytes
  have h1 : (cs.map fun c => UInt8.ofNat c.toNat).all (· < 128) = true := by
    rw [List.all_eq_true]
    intro x hx
    obtain ⟨c, hc, rfl⟩ := List.mem_map.1 hx
    have := h c hc
    unfold Printable at this
    have h2 : (UInt8.ofNat c.toNat) < 128 := by
      rw [UInt8.lt_iff_toNat_lt, uint8_ofNat_toNat (by omega)]
      show c.toNat < 128
      omega
    simpa using h2
  rw [if_pos h1]
  congr 1
  rw [List.map_map]
  conv => rhs; rw [← List.map_id cs]
  apply List.map_congr_left
  intro c hc
  have := h c hc
  unfold Printable at this
  simp only [Function.comp, id]
  rw [uint8_ofNat_toNat (by omega), Char.ofNat_toNat]

theorem asciiBytes_length (cs : List Char) : (asciiBytes cs).length = cs.length := by simp [asciiBytes]

theorem asciiBytes_append (a b : List Char) : asciiBytes (a ++ b) = asciiBytes a ++ asciiBytes b := by
  simp [asciiBytes]

theorem asciiBytes_spaces (n : ℕ) : asciiBytes (List.replicate n ' ') = List.replicate n 32 := by
  simp [asciiBytes]

theorem dropWhile_spaces (n : ℕ) (l : List Char) :
    (List.replicate n ' ' ++ l).dropWhile isSpace = l.dropWhile isSpace := by
  induction n with
  | zero => simp
  | succ n ih => simp [List.replicate_succ, isSpace] at ih ⊢; exact ih

/-- Stripping trailing blanks of a text that starts and ends with a non-blank. -/
theorem strip_padded (c d : Char) (mid : List Char) (n : ℕ) (hc : isSpace c = false) (hd : isSpace d = false) :
    strip (c :: (mid ++ [d]) ++ List.replicate n ' ') = c :: (mid ++ [d]) := by
  unfold strip
  have h1 : (c :: (mid ++ [d]) ++ List.replicate n ' ').dropWhile isSpace =
      c :: (mid ++ [d]) ++ List.replicate n ' ' := by
    simp [hc]
  rw [h1]
  have h2 : (c :: (mid ++ [d]) ++ List.replicate n ' ').reverse =
      List.replicate n ' ' ++ (d :: (mid.reverse ++ [c])) := by
    simp
  rw [h2, dropWhile_spaces]
  simp [hd]

/-- Header values as the code writes them: metadata only under its own key, with distinct fields. -/
def WFHeader (h : Header) : Prop :=
  h.keys.Nodup ∧ ∀ k fs, (k, HVal.metadata fs) ∈ h → k = metadataKey ∧ fs.keys.Nodup

theorem ofName_name (d : DType) : DType.ofName d.name = some d := by
  cases d <;> decide

theorem mapM_asNat (l : List ℕ) : (l.map Json.num).mapM Json.asNat? = some l := by
  induction l with
  | nil => rfl
  | cons n l ih => simp [List.mapM_cons, Json.asNat?, ih]

theorem entryOfJson_toJson (e : Entry) :
    entryOfJson [("dtype".toList, .str e.dtype.name), ("shape".toList, .arr (e.shape.map .num)),
    ("data_offsets".toList, .arr [.num e.start, .num e.stop])] = some (.tensor e) := by
  unfold entryOfJson
  have h1 : Dict.ofList [("dtype".toList, Json.str e.dtype.name), ("shape".toList, .arr (e.shape.map .num)),
    ("data_offsets".toList, .arr [.num e.start, .num e.stop])] = _ := Dict.ofList_of_nodup (by
      simp only [Dict.keys, List.map_cons, List.map_nil]; decide)
  rw [h1]
  have a1 : Dict.get? [("dtype".toList, Json.str e.dtype.name), ("shape".toList, .arr (e.shape.map .num)),
    ("data_offsets".toList, .arr [.num e.start, .num e.stop])] "dtype".toList = some (.str e.dtype.name) := rfl
  have a2 : Dict.get? [("dtype".toList, Json.str e.dtype.name), ("shape".toList, .arr (e.shape.map .num)),
    ("data_offsets".toList, .arr [.num e.start, .num e.stop])] "shape".toList = some (.arr (e.shape.map .num)) := rfl
  have a3 : Dict.get? [("dtype".toList, Json.str e.dtype.name), ("shape".toList, .arr (e.shape.map .num)),
    ("data_offsets".toList, .arr [.num e.start, .num e.stop])] "data_offsets".toList = some (.arr [.num e.start, .num e.stop]) := rfl
  simp only [a1, a2, a3, ofName_name, mapM_asNat, bind, Option.bind, pure]

theorem mapM_fields (l : List (List Char × List Char)) :
    ((l.map fun p => (p.1, Json.str p.2)).mapM fun p => do return (p.1, ← p.2.asStr?) :
      Option (List (List Char × List Char))) = some l := by
  induction l with
  | nil => rfl
  | cons p l ih =>
    have : (Json.str p.2).asStr? = some p.2 := rfl
    simp only [bind, Option.bind, pure] at ih ⊢
    simp only [List.map_cons, List.mapM_cons, this, bind, Option.bind, pure, ih]

theorem hvalOfJson_toJson (k : Key) (v : HVal) (h : ∀ fs, v = .metadata fs → k = metadataKey ∧ fs.keys.Nodup) :
    hvalOfJson k v.toJson = some v := by
  cases v with
  | metadata fs =>
    obtain ⟨h1, h2⟩ := h fs rfl
    have hnd : Dict.keys (fs.map fun p => (p.1, Json.str p.2) : Dict Key Json) |>.Nodup := by
      simpa [Dict.keys, Function.comp_def] using h2
    have := mapM_fields fs
    simp only [bind, Option.bind, pure] at this
    simp only [HVal.toJson, hvalOfJson, h1, if_true, metadataOfJson, Dict.ofList_of_nodup hnd, bind,
      Option.bind, pure, this, Option.some_or]
  | tensor e =>
    have h2 := entryOfJson_toJson e
    by_cases hk : k = metadataKey
    · have hm : metadataOfJson [("dtype".toList, .str e.dtype.name), ("shape".toList, .arr (e.shape.map .num)),
        ("data_offsets".toList, .arr [.num e.start, .num e.stop])] = none := by
        unfold metadataOfJson
        rw [Dict.ofList_of_nodup (by simp only [Dict.keys, List.map_cons, List.map_nil]; decide)]
        simp [List.mapM_cons, Json.asStr?]
      simp only [HVal.toJson, Entry.toJson, hvalOfJson, hk, if_true, hm, h2, Option.none_or]
    · simp only [HVal.toJson, Entry.toJson, hvalOfJson, hk, if_false, h2]

theorem mapM_hval (h : Header) (hw : ∀ k fs, (k, HVal.metadata fs) ∈ h → k = metadataKey ∧ fs.keys.Nodup) :
    ((h.map fun p => (p.1, p.2.toJson)).mapM fun p => do return (p.1, ← hvalOfJson p.1 p.2) : Option Header)
      = some h := by
  induction h with
  | nil => rfl
  | cons p h ih =>
    obtain ⟨k, v⟩ := p
    have h1 := hvalOfJson_toJson k v (fun fs hv => hw k fs (by simp [hv]))
    have h2 := ih (fun k fs hm => hw k fs (by simp [hm]))
    simp only [bind, Option.bind, pure] at h2
    simp only [List.map_cons, List.mapM_cons, h1, bind, Option.bind, pure, h2]

/-- Reading back a header padded with blanks. -/
theorem decHeader_encHeader (h : Header) (hw : WFHeader h) (n : ℕ) :
    decHeader (encHeader h ++ List.replicate n 32) = some h := by
  unfold decHeader encHeader
  rw [← asciiBytes_spaces, ← asciiBytes_append, asciiChars_asciiBytes]
  · simp only [bind, Option.bind]
    have hs : strip ((Json.obj (h.map fun p => (p.1, p.2.toJson))).enc ++ List.replicate n ' ')
        = (Json.obj (h.map fun p => (p.1, p.2.toJson))).enc := by
      simp only [enc]
      exact strip_padded _ _ _ _ (by decide) (by decide)
    rw [hs, parse_enc]
    have hnd : Dict.keys (h.map fun p => (p.1, p.2.toJson) : Dict Key Json) |>.Nodup := by
      simpa [Dict.keys, Function.comp_def] using hw.1
    have := mapM_hval h hw.2
    simp only [bind, Option.bind, pure] at this
    simp only [Dict.ofList_of_nodup hnd, pure, this]
  · intro c hc
    rcases List.mem_append.1 hc with hc | hc
    · exact enc_printable _ c hc
    · rw [List.mem_replicate] at hc
      rw [hc.2]; unfold Printable; decide

theorem le64_length (n : ℕ) : (le64 n).length = 8 := by simp [le64]

theorem unle64_le64 (n : ℕ) (h : n < 2 ^ 64) : unle64 (le64 n) = n := by
  have hr : List.range 8 = [0, 1, 2, 3, 4, 5, 6, 7] := by decide
  unfold unle64 le64
  rw [hr]
  simp only [List.map_cons, List.map_nil, List.foldr_cons, List.foldr_nil]
  rw [uint8_ofNat_toNat (by omega), uint8_ofNat_toNat (by omega), uint8_ofNat_toNat (by omega),
    uint8_ofNat_toNat (by omega), uint8_ofNat_toNat (by omega), uint8_ofNat_toNat (by omega),
    uint8_ofNat_toNat (by omega), uint8_ofNat_toNat (by omega)]
  norm_num at *
  omega

end Verif
