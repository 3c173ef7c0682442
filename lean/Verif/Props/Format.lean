import Verif.Props.StreamOut

/-!
# The file format: what the reader accepts and what the writer produces (C01, C05, C06)

`Safetensors.IsFile` (Verif/Spec/Safetensors.lean) spells the format out literally; it shares no tables or codecs
with the model.
-/
namespace Verif
open Safetensors

/-- **C01, C04 (the format is understood).** Every file in the format (any names, any entries, any padding, any
data) opens, and the opened file describes exactly the tensors of its header. -/
theorem C01_format (file : Bytes) (h : Header) (pad : ℕ) (data : Bytes) (hf : IsFile file h pad data)
    (hnd : h.keys.Nodup) (hmeta : ∀ k fs, (k, HVal.metadata fs) ∈ h → k = metadataKey ∧ fs.keys.Nodup)
    (bs cap : ℕ) :
    ∃ s0, StreamIn.open_ file bs cap = .ok s0 ∧ s0.headerSize = (headerText h).length + pad ∧
      (∀ k v, s0.header.get? k = some v ↔ (k, v) ∈ h) ∧
      ∀ e : Entry, StreamIn.Spec.bytesOf file s0.headerSize e = (data.drop e.start).take (e.stop - e.start) := by
  have hlen : (asciiBytes (headerText h) ++ List.replicate pad 32).length = (headerText h).length + pad := by
    simp [asciiBytes_length]
  have hs : slice file 8 ((headerText h).length + pad) = asciiBytes (headerText h) ++ List.replicate pad 32 := by
    unfold slice
    rw [hf.content, List.take_append_of_le_length (by omega), List.take_of_length_le (by omega)]
  have hd : decHeader (slice file 8 ((headerText h).length + pad)) = some h := by
    rw [hs, ← encHeader_eq]; exact decHeader_encHeader h ⟨hnd, hmeta⟩ pad
  have h8 : ¬ (file.take 8).length < 8 := by have := hf.eight; simp; omega
  have hperm : (StreamIn.sortBy StreamIn.sortKey h).Perm h := StreamIn.sortBy_perm _ _
  have hnd0 : Dict.keys (StreamIn.sortBy StreamIn.sortKey h) |>.Nodup := (hperm.map _).nodup_iff.2 hnd
  refine ⟨⟨file, bs, cap, (headerText h).length + pad, StreamIn.sortBy StreamIn.sortKey h, [[]], 0,
    8 + ((headerText h).length + pad)⟩, ?_, rfl, ?_, ?_⟩
  · have : StreamIn.readHeader file = .ok ((headerText h).length + pad, StreamIn.sortBy StreamIn.sortKey h) := by
      unfold StreamIn.readHeader
      simp only [h8, if_false, unle64_eq, hf.length, hd]
    simp [StreamIn.open_, this, bind, Except.bind, pure, Except.pure]
  · intro k v
    show Dict.get? (StreamIn.sortBy StreamIn.sortKey h) k = some v ↔ _
    rw [Dict.get?_eq_some_iff hnd0, hperm.mem_iff]
  · intro e
    unfold StreamIn.Spec.bytesOf StreamIn.Spec.first
    have : file.drop (8 + ((headerText h).length + pad) + e.start) = data.drop e.start := by
      rw [Nat.add_assoc, ← List.drop_drop, hf.content, ← List.drop_drop, ← hlen, List.drop_left]
    simp only [this]

/-- The header of the example file of C01 in the order of its text. -/
def exFormat : Header := [(['b'], .tensor StreamIn.exB), (['a'], .tensor StreamIn.exA)]

example : IsFile StreamIn.exFile exFormat 0 [1, 2, 3, 4, 5] := ⟨by decide +kernel, by decide +kernel, by decide +kernel⟩

example : ∃ s0, StreamIn.open_ StreamIn.exFile 2 7 = .ok s0 ∧ s0.header.get? ['a'] = some (.tensor ⟨.u8, [3], 0, 3⟩) := by
  obtain ⟨s0, h1, _, h2, _⟩ := C01_format StreamIn.exFile exFormat 0 [1, 2, 3, 4, 5]
    ⟨by decide +kernel, by decide +kernel, by decide +kernel⟩ (by decide)
    (by intro k fs h; simp [exFormat] at h) 2 7
  exact ⟨s0, h1, (h2 _ _).2 (by decide)⟩

open StreamOut StreamOut.Spec in
/-- **C06 (the format is produced).** Every successfully closed output is a file in the format: the length field,
the header's text, blanks, and then the stored tensors' bytes, in an order of the calls. -/
theorem C06_format (declared : Dict Key Meta) (recipe : Option (List Char)) (minBuf cap : ℕ)
    (as : List Action) (s : StreamOut.State) (file : Bytes)
    (hrun : StreamOut.run (init declared recipe minBuf cap) as = some s) (hq : Quiescent s)
    (hc : Complete declared recipe minBuf cap (stored as)) (hclose : close s = .ok file) :
    ∃ (h : Header) (pad : ℕ) (order : List (Key × StreamOut.Tensor)), order.Perm (stored as) ∧
      IsFile file h pad (order.flatMap fun p => p.2.bytes) ∧ h.keys.Nodup ∧
      ∀ k, k ∈ h.keys ↔ k = metadataKey ∨ k ∈ (stored as).map (·.1) := by
  obtain ⟨Lg, h, hb, F⟩ := file_facts hrun hq hc hclose
  obtain ⟨pad, hpad⟩ := F.text
  have hl : hb.length = (headerText h).length + pad := by rw [hpad]; simp [asciiBytes_length]
  refine ⟨h, pad, Lg, F.perm.symm, ⟨?_, ?_, ?_⟩, F.nodup, ?_⟩
  · rw [← unle64_eq, F.size, hl]
  · have h1 := le64_length hb.length
    rw [F.file, List.append_assoc, List.drop_append_of_le_length (by omega), List.drop_of_length_le (by omega), ← hpad]
    rfl
  · rw [F.length]; omega
  · intro k
    constructor
    · intro hk
      by_cases hm : k ∈ (stored as).map (·.1)
      · exact Or.inr hm
      · left
        have h1 := F.keep k (fun hx => hm ((F.perm.map _).mem_iff.2 hx))
        rw [← Dict.get?_isSome_iff, h1, Dict.get?_isSome_iff] at hk
        simpa [initHeader, Dict.keys] using hk
    · rintro (rfl | hk)
      · exact F.hold
      · exact F.cov k ((F.perm.map _).mem_iff.1 hk)

open StreamOut in
example := C06_format exDeclared none 4 1000 exActions _ _ exRun exQuiet exComplete exClose

end Verif
