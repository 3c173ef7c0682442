import Verif.Proofs.StreamIn

/-!
# Properties of reading safetensors files (C01–C04, reading part of C11)

`open_`, `getItem`, `keys`, `len`, `run` are the model (Verif/Model/StreamIn.lean);
`bytesOf`, `ValidHeader`, `Covers` the specification (Verif/Spec/StreamIn.lean).
-/
namespace Verif.StreamIn
open Spec

/-! ## A concrete file used in the examples: tensors `a` = [1,2,3] and `b` = [4,5] (uint8). -/

def exHeaderText : List Char :=
  "{\"b\":{\"dtype\":\"U8\",\"shape\":[2],\"data_offsets\":[3,5]},\"a\":{\"dtype\":\"U8\",\"shape\":[3],\"data_offsets\":[0,3]}}".toList

def exFile : Bytes := le64 exHeaderText.length ++ asciiBytes exHeaderText ++ [1, 2, 3, 4, 5]

def exA : Entry := ⟨.u8, [3], 0, 3⟩
def exB : Entry := ⟨.u8, [2], 3, 5⟩

/-- The opened example file with buffer size `bs` and transfer limit `cap`. -/
def exState (bs cap : ℕ) : State :=
  { file := exFile, defaultBufferSize := bs, cap := cap, headerSize := 105,
    header := [(['a'], .tensor exA), (['b'], .tensor exB)], heap := [[]], buf := 0, bufStart := 113 }

theorem exOpen (bs cap : ℕ) : open_ exFile bs cap = .ok (exState bs cap) := by
  have : readHeader exFile = .ok (105, [(['a'], .tensor exA), (['b'], .tensor exB)]) := by decide +kernel
  simp [open_, this, exState, bind, Except.bind, pure, Except.pure]

theorem exHeader_get (k : Key) (e : Entry) (bs cap : ℕ) (h : (exState bs cap).header.get? k = some (.tensor e)) :
    (k = ['a'] ∧ e = exA) ∨ (k = ['b'] ∧ e = exB) := by
  have h : Dict.get? [(['a'], HVal.tensor exA), (['b'], HVal.tensor exB)] k = some (.tensor e) := h
  unfold Dict.get? at h
  split at h
  · left; simp at h; exact ⟨by simp [*], h.symm⟩
  · unfold Dict.get? at h
    split at h
    · right; simp at h; exact ⟨by simp [*], h.symm⟩
    · simp at h

theorem exValid (bs cap : ℕ) : ValidHeader exFile 105 (exState bs cap).header := by
  intro k e h
  rcases exHeader_get k e bs cap h with ⟨_, rfl⟩ | ⟨_, rfl⟩
  · exact ⟨by decide, by decide +kernel, by decide⟩
  · exact ⟨by decide, by decide +kernel, by decide⟩

theorem exCap (bs cap : ℕ) (h : 3 ≤ cap) (k e) (hk : (exState bs cap).header.get? k = some (.tensor e)) :
    e.stop - e.start ≤ cap := by
  rcases exHeader_get k e bs cap hk with ⟨_, rfl⟩ | ⟨_, rfl⟩ <;> simp [exA, exB] <;> omega

theorem pair_of_snd {α β : Type} (p : α × β) (b : β) (h : p.2 = b) : p = (p.1, b) := by rw [← h]

/-! ## C01 -/

/-- **C01.** After any history of reads, reading a listed tensor yields its dtype, its shape and exactly the
bytes the file stores for it, whatever the buffer size.  (Transfers of one OS call are assumed complete;
see C11 for what happens otherwise.) -/
theorem C01_read_exact (file : Bytes) (bs cap : ℕ) (s0 : State) (hopen : open_ file bs cap = .ok s0)
    (hvalid : ValidHeader file s0.headerSize s0.header)
    (hcap : bs ≤ cap) (hcap' : ∀ k e, s0.header.get? k = some (.tensor e) → e.stop - e.start ≤ cap)
    (history : List Key) (k : Key) (e : Entry) (hk : s0.header.get? k = some (.tensor e))
    (hm : k ≠ metadataKey) :
    ∃ s v, getItem (run s0 (history.map .load)).st k = (s, .ok v) ∧
      v.dtype = e.dtype ∧ v.shape = e.shape ∧ s.read v = bytesOf file s0.headerSize e := by
  obtain ⟨hf, hb, hc, _⟩ := open_fields hopen
  have hv : ValidHeader s0.file s0.headerSize s0.header := by rw [hf]; exact hvalid
  have hcok : CapOk s0 := ⟨by omega, by rw [hc]; exact hcap'⟩
  obtain ⟨G, hG⟩ := run_inv hopen hv hcok (history.map .load)
  obtain ⟨s, v, h1, h2, h3, h4, h5⟩ := load_bytes hG hv hcok hk hm
  refine ⟨s, v, h1, h2, h3, ?_⟩
  have hval := hv k e hk
  apply List.ext_getElem?
  intro j
  unfold bytesOf
  rw [List.getElem?_take, List.getElem?_drop]
  split
  · rename_i hj
    rcases h5 j hj with h | ⟨m, i, d, _, _, hw, _⟩
    · rw [h, hf]
    · exfalso
      rw [List.getElem?_map] at hw
      cases hh : history[m]? <;> simp [hh] at hw
  · exact List.getElem?_eq_none (by omega)

example : ∃ s v, getItem (run (exState 1 100) ([['b'], ['a'], ['b']].map .load)).st ['a'] = (s, .ok v) ∧
    v.dtype = .u8 ∧ v.shape = [3] ∧ s.read v = [1, 2, 3] := by
  have h := C01_read_exact exFile 1 100 _ (exOpen 1 100) (exValid 1 100) (by decide)
    (exCap 1 100 (by decide)) [['b'], ['a'], ['b']] ['a'] exA rfl (by decide)
  have e : bytesOf exFile (exState 1 100).headerSize exA = [1, 2, 3] := by decide +kernel
  rwa [e] at h

/-! ## C02 -/

/-- **C02.** A tensor already handed out keeps its value while any further tensors are read. -/
theorem C02_views_stable (file : Bytes) (bs cap : ℕ) (s0 : State) (hopen : open_ file bs cap = .ok s0)
    (hvalid : ValidHeader file s0.headerSize s0.header)
    (hcap : bs ≤ cap) (hcap' : ∀ k e, s0.header.get? k = some (.tensor e) → e.stop - e.start ≤ cap)
    (before : List Op) (i : ℕ) (v : View) (hv : (run s0 before).outs[i]? = some (some (.ok v)))
    (later : List Key) :
    (run s0 (before ++ later.map .load)).st.read v = (run s0 before).st.read v := by
  obtain ⟨hf, hb, hc, _⟩ := open_fields hopen
  have hv' : ValidHeader s0.file s0.headerSize s0.header := by rw [hf]; exact hvalid
  have hcok : CapOk s0 := ⟨by omega, by rw [hc]; exact hcap'⟩
  obtain ⟨G, hG⟩ := run_inv hopen hv' hcok before
  obtain ⟨k, e, h1, h2, _⟩ := hG.views i v hv
  apply run_read_stable hopen hv' hcok hv h1 h2
  intro j i d k e hw
  exfalso
  rw [List.getElem?_map] at hw
  cases hh : later[j]? <;> simp [hh] at hw

example (v : View) (hv : (run (exState 2 100) [.load ['b'], .load ['a']]).outs[0]? = some (some (.ok v))) :
    (run (exState 2 100) ([.load ['b'], .load ['a']] ++ [['a'], ['b']].map .load)).st.read v =
    (run (exState 2 100) [.load ['b'], .load ['a']]).st.read v :=
  C02_views_stable exFile 2 100 _ (exOpen 2 100) (exValid 2 100) (by decide) (exCap 2 100 (by decide)) _ 0 v hv _

example : ∃ v, (run (exState 2 100) [.load ['b'], .load ['a']]).outs[0]? = some (some (.ok v)) ∧
    (run (exState 2 100) [.load ['b'], .load ['a']]).st.read v = [4, 5] :=
  ⟨⟨.u8, [2], 1, 0, 2⟩, by decide +kernel, by decide +kernel⟩

/-! ## C03 -/

/-- **C03 is false of the code**: reading `a`, overwriting that tensor in place, and reading `a` again yields
the overwritten bytes and not those of the file (buffer size 10, every transfer complete). -/
theorem C03_inplace_false :
    ∃ (file : Bytes) (bs cap : ℕ) (s0 : State) (k : Key) (e : Entry) (d : Bytes),
      open_ file bs cap = .ok s0 ∧ ValidHeader file s0.headerSize s0.header ∧ bs ≤ cap ∧
      (∀ k e, s0.header.get? k = some (.tensor e) → e.stop - e.start ≤ cap) ∧
      s0.header.get? k = some (.tensor e) ∧ k ≠ metadataKey ∧
      ∃ s v, getItem (run s0 [.load k, .write 0 d]).st k = (s, .ok v) ∧
        s.read v = d ∧ s.read v ≠ bytesOf file s0.headerSize e := by
  refine ⟨exFile, 10, 100, exState 10 100, ['a'], exA, [9, 9, 9], exOpen 10 100, exValid 10 100, by decide,
    exCap 10 100 (by decide), rfl, by decide, ?_⟩
  exact ⟨(getItem (run (exState 10 100) [.load ['a'], .write 0 [9, 9, 9]]).st ['a']).1, ⟨.u8, [3], 1, 0, 3⟩,
    pair_of_snd _ _ (by decide +kernel), by decide +kernel, by decide +kernel⟩

/-- **C03 (the part that holds).** Whatever is written in place to tensors of *other* entries (entries that
share no byte of the file with `e`), reading `k` yields the file's bytes.
Missing: writes to tensors read earlier for the same bytes (see `C03_inplace_false`). -/
theorem C03_inplace_other_entries_partial (file : Bytes) (bs cap : ℕ) (s0 : State)
    (hopen : open_ file bs cap = .ok s0)
    (hvalid : ValidHeader file s0.headerSize s0.header)
    (hcap : bs ≤ cap) (hcap' : ∀ k e, s0.header.get? k = some (.tensor e) → e.stop - e.start ≤ cap)
    (history : List Op) (k : Key) (e : Entry) (hk : s0.header.get? k = some (.tensor e))
    (hm : k ≠ metadataKey)
    (hother : ∀ (i : ℕ) d k' e', Op.write i d ∈ history → history[i]? = some (.load k') →
      s0.header.get? k' = some (.tensor e') →
      ∀ p, ¬ (Covers s0.headerSize e' p ∧ Covers s0.headerSize e p)) :
    ∃ s v, getItem (run s0 history).st k = (s, .ok v) ∧
      v.dtype = e.dtype ∧ v.shape = e.shape ∧ s.read v = bytesOf file s0.headerSize e := by
  obtain ⟨hf, hb, hc, _⟩ := open_fields hopen
  have hv : ValidHeader s0.file s0.headerSize s0.header := by rw [hf]; exact hvalid
  have hcok : CapOk s0 := ⟨by omega, by rw [hc]; exact hcap'⟩
  obtain ⟨G, hG⟩ := run_inv hopen hv hcok history
  obtain ⟨s, v, h1, h2, h3, h4, h5⟩ := load_bytes hG hv hcok hk hm
  refine ⟨s, v, h1, h2, h3, ?_⟩
  have hval := hv k e hk
  apply List.ext_getElem?
  intro j
  unfold bytesOf
  rw [List.getElem?_take, List.getElem?_drop]
  split
  · rename_i hj
    rcases h5 j hj with h | ⟨m, i, d, k', e', hw, hlt, hl, hk', hcov⟩
    · rw [h, hf]
    · exfalso
      apply hother i d k' e' (List.mem_of_getElem? hw) hl hk' _ ⟨hcov, ?_⟩
      have := hval.ordered
      simp only [Covers, first, last]; omega
  · exact List.getElem?_eq_none (by omega)

example : ∃ s v, getItem (run (exState 10 100) [.load ['b'], .write 0 [7, 7]]).st ['a'] = (s, .ok v) ∧
    v.dtype = .u8 ∧ v.shape = [3] ∧ s.read v = bytesOf exFile 105 exA :=
  C03_inplace_other_entries_partial exFile 10 100 _ (exOpen 10 100) (exValid 10 100) (by decide)
    (exCap 10 100 (by decide)) _ ['a'] exA rfl (by decide) (by
      intro i d k' e' hw hl hk' p hp
      simp at hw
      obtain ⟨rfl, rfl⟩ := hw
      simp at hl
      subst hl
      have : e' = exB := by
        rcases exHeader_get _ _ _ _ hk' with ⟨h, _⟩ | ⟨_, h⟩
        · simp at h
        · exact h
      subst this
      simp only [Covers, first, last, exA, exB] at hp
      omega)

/-! ## C04 -/

theorem mapM_keys {α β : Type} (f : Key → α → Option β) (l : List (Key × α)) (h : Dict Key β)
    (hm : (l.mapM fun p => do return (p.1, ← f p.1 p.2) : Option (List (Key × β))) = some h) :
    h.map (·.1) = l.map (·.1) := by
  induction l generalizing h with
  | nil => simp at hm; subst hm; rfl
  | cons p l ih =>
    rw [List.mapM_cons] at hm
    cases hf : f p.1 p.2 with
    | none => simp [hf, bind, Option.bind] at hm
    | some b =>
      cases ht : (l.mapM fun p => do return (p.1, ← f p.1 p.2) : Option (List (Key × β))) with
      | none => simp [bind, Option.bind] at ht; simp [hf, ht, bind, Option.bind, pure] at hm
      | some t =>
        have := ih t ht
        simp [bind, Option.bind, pure] at ht
        simp [hf, ht, bind, Option.bind, pure] at hm
        subst hm
        simp [this]

theorem decHeader_nodup {b : Bytes} {h : Header} (hd : decHeader b = some h) : h.keys.Nodup := by
  unfold decHeader at hd
  cases hc : asciiChars b with
  | none => simp [hc] at hd
  | some cs =>
    simp only [hc, bind, Option.bind] at hd
    split at hd
    · rename_i l _
      have := mapM_keys hvalOfJson (Dict.ofList l) h (by simpa [bind, Option.bind] using hd)
      simp only [Dict.keys, this]
      exact Dict.nodup_ofList l
    · cases hd

/-- Only `StateDictKeyError`s of `getItem` come from the key check. -/
theorem loadTensor_not_missing (s : State) (e : Entry) : (loadTensor s e).2 ≠ .error .stateDictKey := by
  unfold loadTensor
  simp only
  split_ifs <;> simp

/-- **C04.** For every file that opens, with `h` the mapping its header text describes:
iteration lists the names of `h` other than `__metadata__`, each exactly once, in increasing data offset;
`len` is the number listed; and at any point of any history indexing raises `StateDictKeyError` exactly for
names that are not listed. -/
theorem C04_listing (file : Bytes) (bs cap : ℕ) (s0 : State) (hopen : open_ file bs cap = .ok s0) :
    ∃ h : Header, decHeader ((file.drop 8).take (Safetensors.littleEndian (file.take 8))) = some h ∧
      (keys s0).Nodup ∧
      (∀ k, k ∈ keys s0 ↔ k ∈ h.keys ∧ k ≠ metadataKey) ∧
      (keys s0).Pairwise (fun k k' => ∀ e e', h.get? k = some (.tensor e) → h.get? k' = some (.tensor e') →
        e.start ≤ e'.start) ∧
      (∀ k, s0.header.get? k = h.get? k) ∧
      len s0 = (keys s0).length ∧
      ∀ (history : List Op) (k : Key),
        (getItem (run s0 history).st k).2 = .error .stateDictKey ↔
          (k ∉ keys s0 ∨ ∃ fs, h.get? k = some (.metadata fs)) := by
  obtain ⟨_, _, _, _, _, _, hr⟩ := open_fields hopen
  unfold readHeader at hr
  simp only at hr
  split at hr
  · cases hr
  · split at hr
    · cases hr
    · rename_i h hdec
      simp only [Except.ok.injEq, Prod.mk.injEq] at hr
      obtain ⟨hr1, hr2⟩ := hr
      have hnd := decHeader_nodup hdec
      have hdec' : decHeader ((file.drop 8).take (Safetensors.littleEndian (file.take 8))) = some h := by
        rw [← Safetensors.unle64_eq]; exact hdec
      have hperm : s0.header.Perm h := by rw [← hr2]; exact sortBy_perm _ _
      have hkp : s0.header.keys.Perm h.keys := hperm.map _
      have hnd0 : s0.header.keys.Nodup := hkp.nodup_iff.2 hnd
      have hget : ∀ k, s0.header.get? k = h.get? k := by
        intro k
        cases hk : h.get? k with
        | none =>
          rw [Dict.get?_eq_none_iff] at hk ⊢
          rwa [hkp.mem_iff]
        | some v =>
          rw [Dict.get?_eq_some_iff hnd] at hk
          rw [Dict.get?_eq_some_iff hnd0]
          exact hperm.mem_iff.2 hk
      have hkeys : keys s0 = (s0.header.filter (fun p => p.1 ≠ metadataKey)).map (·.1) := by
        simp only [keys, Dict.keys, List.filter_map]; rfl
      have hmem : ∀ k, k ∈ keys s0 ↔ k ∈ h.keys ∧ k ≠ metadataKey := by
        intro k
        simp only [keys, List.mem_filter, hkp.mem_iff, decide_eq_true_eq]
      refine ⟨h, hdec', hnd0.filter _, hmem, ?_, hget, ?_, ?_⟩
      · rw [hkeys, List.pairwise_map]
        have hs : s0.header.Pairwise (fun a b => sortKey a ≤ sortKey b) := by rw [← hr2]; exact sortBy_sorted _ _
        refine List.Pairwise.imp_of_mem ?_ (hs.filter (fun p => p.1 ≠ metadataKey))
        rintro ⟨k, v⟩ ⟨k', v'⟩ h1 h2 hle e e' he he'
        rw [← hget, (Dict.get?_eq_some_iff hnd0).2 (List.mem_of_mem_filter h1), Option.some.injEq] at he
        rw [← hget, (Dict.get?_eq_some_iff hnd0).2 (List.mem_of_mem_filter h2), Option.some.injEq] at he'
        subst he he'
        exact hle
      · unfold len keys
        have hlen : s0.header.length = s0.header.keys.length := by simp [Dict.keys]
        rw [hlen]
        generalize s0.header.keys = L at hnd0
        induction L with
        | nil => simp
        | cons a L ih =>
          rw [List.nodup_cons] at hnd0
          have ih := ih hnd0.2
          by_cases ha : a = metadataKey
          · subst ha
            have : metadataKey ∉ L := hnd0.1
            have hf : L.filter (fun x => decide (x ≠ metadataKey)) = L := by
              rw [List.filter_eq_self]
              intro x hx
              simp only [decide_eq_true_eq]
              rintro rfl; exact this hx
            simp only [List.mem_cons, true_or, if_true, List.length_cons, List.filter_cons, ne_eq,
              not_true_eq_false, decide_false, Bool.false_eq_true, if_false] at hf ⊢
            rw [hf]; omega
          · have ha' : ¬ metadataKey = a := fun h => ha h.symm
            simp only [List.mem_cons, ha', false_or, List.length_cons, List.filter_cons, ne_eq, ha,
              not_false_eq_true, decide_true, if_true]
            rw [← ih]
            split
            · rename_i hin
              have := List.length_pos_of_mem hin
              omega
            · omega
      · intro history k
        have hhead : (run s0 history).st.header = s0.header := by
          induction history using List.reverseRecOn with
          | nil => rfl
          | append_singleton l op ih =>
            rw [run_snoc]
            cases op with
            | load k' =>
              simp only [step]
              rw [← ih]
              unfold getItem
              split
              · rfl
              · rfl
              · split_ifs
                · rfl
                · unfold loadTensor ensureBuffer
                  simp only
                  split_ifs <;> rfl
            | write i d =>
              simp only [step]
              split
              · split
                · simpa [poke] using ih
                · exact ih
              · exact ih
        have hkm : k ∉ keys s0 ↔ h.get? k = none ∨ k = metadataKey := by
          rw [hmem, Dict.get?_eq_none_iff]; tauto
        rw [hkm]
        unfold getItem
        rw [hhead, hget]
        cases hk : h.get? k with
        | none => simp
        | some x =>
          cases x with
          | metadata fs => simp
          | tensor e =>
            by_cases hmk : k = metadataKey
            · simp [hmk]
            · simp [hmk, loadTensor_not_missing]

example : keys (exState 4 9) = [['a'], ['b']] ∧ len (exState 4 9) = 2 := by decide
example := C04_listing exFile 4 9 _ (exOpen 4 9)

/-! ## C11 (reading) -/

/-- **C11 is false of the code when reading**: if one OS call transfers fewer bytes than the tensor is long,
the tensor returned differs from what the file holds (the return value of `readinto` is ignored). -/
theorem C11_short_read_false :
    ∃ (file : Bytes) (bs cap : ℕ) (s0 : State) (k : Key) (e : Entry), 0 < cap ∧
      open_ file bs cap = .ok s0 ∧ ValidHeader file s0.headerSize s0.header ∧
      s0.header.get? k = some (.tensor e) ∧ k ≠ metadataKey ∧
      ∃ s v, getItem s0 k = (s, .ok v) ∧ s.read v ≠ bytesOf file s0.headerSize e :=
  ⟨exFile, 3, 2, exState 3 2, ['a'], exA, by decide, exOpen 3 2, exValid 3 2, rfl, by decide,
    (getItem (exState 3 2) ['a']).1, ⟨.u8, [3], 1, 0, 3⟩, pair_of_snd _ _ (by decide +kernel), by decide +kernel⟩

end Verif.StreamIn
