import Verif.Proofs.StreamOut
import Verif.Proofs.Header
import Verif.Props.StreamIn

/-!
# The finished output file
-/
namespace Verif.StreamOut
open Spec

structure FileFacts (recipe : Option (List Char)) (hist : Log) (file : Bytes) (Lg : Log) (h : Header) (hb : Bytes) :
    Prop where
  perm : hist.Perm Lg
  file : file = le64 hb.length ++ hb ++ bytesOf Lg
  small : hb.length < 2 ^ 64
  dec : decHeader hb = some h
  text : ∃ pad, hb = asciiBytes (Safetensors.headerText h) ++ List.replicate pad 32
  nodup : h.keys.Nodup
  mem : ∀ k v, (k, v) ∈ h → (k, v) ∈ initHeader recipe ∨ ∃ e, v = .tensor e ∧ (k, e) ∈ entriesFrom 0 Lg
  cov : ∀ k ∈ Lg.map (·.1), k ∈ h.keys
  hold : metadataKey ∈ h.keys
  keep : ∀ k, k ∉ Lg.map (·.1) → h.get? k = (initHeader recipe).get? k

theorem exists_bound (cap : ℕ) (l : Log) (h : ∀ p ∈ l, p.2.bytes.length ≤ cap) :
    ∃ b, b ≤ cap ∧ ∀ p ∈ l, p.2.bytes.length ≤ b := ⟨cap, le_refl _, h⟩

theorem flat_wf {declared recipe minBuf cap} {s : State} {Lg : Log}
    (hF : Flat (init declared recipe minBuf cap) s Lg) : WFHeader s.header := by
  refine ⟨hF.hnd, ?_⟩
  intro k fs hm
  rcases hF.hmem k _ hm with h | ⟨e, h, _⟩
  · simp only [init, initHeader, List.mem_singleton, Prod.mk.injEq, HVal.metadata.injEq] at h
    obtain ⟨rfl, rfl⟩ := h
    refine ⟨rfl, ?_⟩
    split <;> simp [Dict.keys]
  · cases h

theorem run_flat {declared recipe minBuf cap} {as : List Action} {s : State}
    (hrun : run (init declared recipe minBuf cap) as = some s) (hq : Quiescent s)
    (hc : Complete declared recipe minBuf cap (stored as)) :
    ∃ Lg, (stored as).Perm Lg ∧
      Flat (init declared recipe minBuf cap) ((s.threads.map (·.2)).foldl flushClose s) Lg := by
  have hcap : max (init declared recipe minBuf cap).minBuf cap ≤ (init declared recipe minBuf cap).cap := by
    have := hc.buffer; simp only [init]; omega
  obtain ⟨Lg, loc, hI⟩ := run_inv hcap as hc.tensor (init_inv declared recipe minBuf cap cap) hrun
  obtain ⟨Lg', h1, h2⟩ := close_flat hI hq hcap
  exact ⟨Lg', by simpa using h1, h2⟩

theorem flat_facts {declared recipe minBuf cap} {s1 : State} {file : Bytes} {Lg : Log}
    (hF : Flat (init declared recipe minBuf cap) s1 Lg) (hc8 : 8 ≤ cap) (hch : reservedSize declared recipe ≤ cap)
    (hclose : finishFile s1 = .ok file) : ∃ h hb, FileFacts recipe Lg file Lg h hb := by
  have hmh : s1.maxHeader = reservedSize declared recipe := hF.maxHeader
  have hmb : s1.minBuf = minBuf := hF.minBuf
  have hmh0 : (init declared recipe minBuf cap).maxHeader = reservedSize declared recipe := rfl
  have hmb0 : (init declared recipe minBuf cap).minBuf = minBuf := rfl
  have hcp0 : (init declared recipe minBuf cap).cap = cap := rfl
  have h64 : max (reservedSize declared recipe) (encHeader s1.header).length < 2 ^ 64 := by
    by_contra hcon
    unfold finishFile at hclose
    simp only [hmh, hmb] at hclose
    rw [if_pos (by omega)] at hclose
    cases hclose
  have hmode : (reservedSize declared recipe < (encHeader s1.header).length ∧ 0 < minBuf) ∨
      ((encHeader s1.header).length ≤ reservedSize declared recipe ∧ 8 ≤ cap ∧ reservedSize declared recipe ≤ cap) := by
    rcases Nat.lt_or_ge (reservedSize declared recipe) (encHeader s1.header).length with h | h
    · left
      refine ⟨h, ?_⟩
      by_contra hcon
      unfold finishFile at hclose
      simp only [hmh, hmb] at hclose
      rw [if_neg (by omega), if_pos h, if_pos (by omega)] at hclose
      cases hclose
    · exact Or.inr ⟨h, hc8, hch⟩
  have hfin := finishFile_spec hF (by rw [hmh0]; exact h64) (by rw [hmh0, hmb0, hcp0]; exact hmode)
  rw [hclose, hmh0] at hfin
  simp only [Except.ok.injEq] at hfin
  refine ⟨s1.header, encHeader s1.header ++
    List.replicate (reservedSize declared recipe - (encHeader s1.header).length) 32, List.Perm.refl _, ?_, ?_, ?_,
    ⟨_, by rw [← Safetensors.encHeader_eq]⟩, hF.hnd, hF.hmem,
    hF.hcov, hF.hold _ (by simp [init, initHeader, Dict.keys]), hF.hkeep⟩
  · have : (encHeader s1.header ++
      List.replicate (reservedSize declared recipe - (encHeader s1.header).length) 32).length =
      max (reservedSize declared recipe) (encHeader s1.header).length := by
      simp only [List.length_append, List.length_replicate]; omega
    rw [this, hfin]; simp
  · simp only [List.length_append, List.length_replicate]; omega
  · exact decHeader_encHeader _ (flat_wf hF) _

theorem file_facts {declared recipe minBuf cap} {as : List Action} {s : State} {file : Bytes}
    (hrun : run (init declared recipe minBuf cap) as = some s) (hq : Quiescent s)
    (hc : Complete declared recipe minBuf cap (stored as)) (hclose : close s = .ok file) :
    ∃ Lg h hb, FileFacts recipe (stored as) file Lg h hb := by
  obtain ⟨Lg, hp, hF⟩ := run_flat hrun hq hc
  obtain ⟨h, hb, F⟩ := flat_facts hF hc.eight hc.header hclose
  exact ⟨Lg, h, hb, hp, F.file, F.small, F.dec, F.text, F.nodup, F.mem, F.cov, F.hold, F.keep⟩

/-- With a positive buffer size `close` fails only if the header is longer than 64 bits can say. -/
theorem close_ok_of_pos {declared recipe minBuf cap} {as : List Action} {s : State}
    (hrun : run (init declared recipe minBuf cap) as = some s) (hq : Quiescent s)
    (hc : Complete declared recipe minBuf cap (stored as)) (hm : 0 < minBuf) :
    (∃ file, close s = .ok file) ∨ close s = .error .struct := by
  obtain ⟨Lg, hp, hF⟩ := run_flat hrun hq hc
  have hmb : ((s.threads.map (·.2)).foldl flushClose s).minBuf = minBuf := hF.minBuf
  unfold close finishFile
  simp only [hmb]
  split_ifs
  · exact Or.inr rfl
  · omega
  · exact Or.inl ⟨_, rfl⟩
  · exact Or.inl ⟨_, rfl⟩

namespace FileFacts
variable {recipe : Option (List Char)} {hist : Log} {file : Bytes} {Lg : Log} {h : Header} {hb : Bytes}

theorem take8 (F : FileFacts recipe hist file Lg h hb) : file.take 8 = le64 hb.length := by
  have := le64_length hb.length
  rw [F.file, List.append_assoc, List.take_append_of_le_length (by omega), List.take_of_length_le (by omega)]

theorem size (F : FileFacts recipe hist file Lg h hb) : unle64 (file.take 8) = hb.length := by
  rw [F.take8, unle64_le64 _ F.small]

theorem header (F : FileFacts recipe hist file Lg h hb) : slice file 8 hb.length = hb := by
  have := le64_length hb.length
  unfold slice
  conv_lhs => rw [F.file, List.append_assoc]
  have : (le64 hb.length ++ (hb ++ bytesOf Lg)).drop 8 = hb ++ bytesOf Lg := by
    rw [List.drop_append_of_le_length (by omega), List.drop_of_length_le (by omega)]; rfl
  rw [this]
  simp

theorem data (F : FileFacts recipe hist file Lg h hb) : file.drop (8 + hb.length) = bytesOf Lg := by
  have := le64_length hb.length
  rw [F.file]
  have e : 8 + hb.length = (le64 hb.length ++ hb).length := by simp [this]
  rw [e, List.drop_left]

theorem length (F : FileFacts recipe hist file Lg h hb) : file.length = 8 + hb.length + (bytesOf Lg).length := by
  have := le64_length hb.length
  rw [F.file]; simp only [List.length_append, this]

/-- An entry of the header is the place of one of the stored tensors. -/
theorem entry (F : FileFacts recipe hist file Lg h hb) {k : Key} {e : Entry} (hk : h.get? k = some (.tensor e)) :
    (k, e) ∈ entriesFrom 0 Lg := by
  rcases F.mem k _ (Dict.mem_of_get? hk) with h1 | ⟨e', h1, h2⟩
  · simp [initHeader] at h1
  · cases h1; exact h2

theorem stored_of_entry (F : FileFacts recipe hist file Lg h hb) {k : Key} {e : Entry}
    (hk : h.get? k = some (.tensor e)) :
    ∃ t, (k, t) ∈ hist ∧ e.dtype = t.dtype ∧ e.shape = t.shape ∧ e.start ≤ e.stop ∧
      e.stop - e.start = t.bytes.length ∧ StreamIn.Spec.last hb.length e ≤ file.length ∧
      StreamIn.Spec.bytesOf file hb.length e = t.bytes := by
  obtain ⟨A, t, B, hL, rfl⟩ := mem_entriesFrom (F.entry hk)
  refine ⟨t, F.perm.mem_iff.2 (by simp [hL]), rfl, rfl, by simp, by simp, ?_, ?_⟩
  · simp only [StreamIn.Spec.last]
    rw [F.length, hL]; simp only [bytesOf_append, bytesOf_cons, List.length_append]; omega
  · unfold StreamIn.Spec.bytesOf StreamIn.Spec.first
    simp only [Nat.zero_add, Nat.add_sub_cancel_left]
    rw [← List.drop_drop, F.data, hL]
    exact slice_bytesOf A B k t

theorem get_stored (F : FileFacts recipe hist file Lg h hb) {k : Key} (hk : k ∈ hist.map (·.1)) :
    ∃ e, h.get? k = some (.tensor e) ∨ (k = metadataKey ∧ h.get? k = (initHeader recipe).get? k) := by
  have hk' : k ∈ Lg.map (·.1) := (F.perm.map _).mem_iff.1 hk
  have hin := F.cov k hk'
  cases hg : h.get? k with
  | none => exact absurd hin ((Dict.get?_eq_none_iff _ _).1 hg)
  | some v =>
    rcases F.mem k v (Dict.mem_of_get? hg) with h1 | ⟨e', rfl, h2⟩
    · simp only [initHeader, List.mem_singleton, Prod.mk.injEq] at h1
      obtain ⟨rfl, rfl⟩ := h1
      exact ⟨⟨.f64, [], 0, 0⟩, Or.inr ⟨rfl, by simp [initHeader, Dict.get?]⟩⟩
    · exact ⟨e', Or.inl rfl⟩

/-- The file opens. -/
theorem opens (F : FileFacts recipe hist file Lg h hb) (bs cap : ℕ) :
    ∃ s0, StreamIn.open_ file bs cap = .ok s0 ∧ s0.headerSize = hb.length ∧
      s0.header = StreamIn.sortBy StreamIn.sortKey h := by
  have h8 : ¬ (le64 hb.length).length < 8 := by rw [le64_length]; omega
  have : StreamIn.readHeader file = .ok (hb.length, StreamIn.sortBy StreamIn.sortKey h) := by
    unfold StreamIn.readHeader
    simp only
    rw [F.take8, if_neg h8, unle64_le64 _ F.small, F.header, F.dec]
  exact ⟨_, by simp only [StreamIn.open_, this, bind, Except.bind, pure, Except.pure]; rfl, rfl, rfl⟩

/-- A file with these facts reads back what was stored under distinct names. -/
theorem readback (F : FileFacts recipe hist file Lg h hb)
    (hdistinct : (hist.map (·.1)).Nodup) (hmeta : metadataKey ∉ hist.map (·.1))
    (hwf : ∀ p ∈ hist, Tensor.WF p.2)
    (bs rcap : ℕ) (hbs : bs ≤ rcap) (hrc : ∀ p ∈ hist, p.2.bytes.length ≤ rcap) :
    ∃ s0, StreamIn.open_ file bs rcap = .ok s0 ∧
      (∀ k, k ∈ StreamIn.keys s0 ↔ k ∈ hist.map (·.1)) ∧
      s0.header.get? metadataKey = some (.metadata (match recipe with
        | some r => [("mecha_recipe".toList, r)] | none => [])) ∧
      ∀ p ∈ hist, ∀ history : List Key, ∃ s1 v,
        StreamIn.getItem (StreamIn.run s0 (history.map .load)).st p.1 = (s1, .ok v) ∧
        v.dtype = p.2.dtype ∧ v.shape = p.2.shape ∧ s1.read v = p.2.bytes := by
  obtain ⟨s0, ho, hsz, hhd⟩ := F.opens bs rcap
  have hp : s0.header.Perm h := by rw [hhd]; exact StreamIn.sortBy_perm _ _
  have hkp : s0.header.keys.Perm h.keys := hp.map _
  have hnd0 : s0.header.keys.Nodup := hkp.nodup_iff.2 F.nodup
  have hget : ∀ k v, s0.header.get? k = some v ↔ h.get? k = some v := by
    intro k v
    rw [Dict.get?_eq_some_iff hnd0, Dict.get?_eq_some_iff F.nodup, hp.mem_iff]
  have hkL : ∀ k, k ∈ (hist).map (·.1) ↔ k ∈ Lg.map (·.1) := fun k => (F.perm.map _).mem_iff
  have huniq : ∀ k t t', (k, t) ∈ hist → (k, t') ∈ hist → t = t' := by
    intro k t t' h1 h2
    have hd : Dict.keys (hist) |>.Nodup := hdistinct
    have := (Dict.get?_of_mem hd h1).symm.trans (Dict.get?_of_mem hd h2)
    simpa using this
  have hvalid : StreamIn.Spec.ValidHeader file s0.headerSize s0.header := by
    intro k e hk
    rw [hget] at hk
    obtain ⟨t, h1, h2, h3, h4, h5, h6, h7⟩ := F.stored_of_entry hk
    refine ⟨h4, by rw [hsz]; exact h6, ?_⟩
    rw [h5, h2, h3]; exact hwf _ h1
  have hcapE : ∀ k e, s0.header.get? k = some (.tensor e) → e.stop - e.start ≤ rcap := by
    intro k e hk
    rw [hget] at hk
    obtain ⟨t, h1, h2, h3, h4, h5, h6, h7⟩ := F.stored_of_entry hk
    rw [h5]; exact hrc _ h1
  refine ⟨s0, ho, ?_, ?_, ?_⟩
  · intro k
    simp only [StreamIn.keys, List.mem_filter, hkp.mem_iff, decide_eq_true_eq]
    constructor
    · rintro ⟨h1, h2⟩
      by_contra hcon
      have := F.keep k (fun hx => hcon ((hkL k).2 hx))
      have hn : (initHeader recipe).get? k = none := by
        rw [Dict.get?_eq_none_iff]; simp [initHeader, Dict.keys, h2]
      rw [hn, Dict.get?_eq_none_iff] at this
      exact this h1
    · intro hk
      refine ⟨F.cov k ((hkL k).1 hk), ?_⟩
      rintro rfl; exact hmeta hk
  · rw [hget, F.keep _ (fun hx => hmeta ((hkL _).2 hx))]
    simp only [initHeader, Dict.get?, if_true]
    rfl
  · rintro ⟨k, t⟩ hkt history
    have hne : k ≠ metadataKey := by
      rintro rfl; exact hmeta (List.mem_map.2 ⟨_, hkt, rfl⟩)
    obtain ⟨e, he⟩ := F.get_stored (k := k) (List.mem_map.2 ⟨_, hkt, rfl⟩)
    have he : h.get? k = some (.tensor e) := by
      rcases he with he | ⟨h1, _⟩
      · exact he
      · exact absurd h1 hne
    obtain ⟨t', h1, h2, h3, h4, h5, h6, h7⟩ := F.stored_of_entry he
    have ht := huniq k t t' hkt h1
    subst ht
    obtain ⟨s1, v, r1, r2, r3, r4⟩ := StreamIn.C01_read_exact file bs rcap s0 ho hvalid hbs hcapE history k e
      ((hget _ _).2 he) hne
    exact ⟨s1, v, r1, by rw [r2, h2], by rw [r3, h3], by rw [r4, hsz, h7]⟩

end FileFacts

end Verif.StreamOut
