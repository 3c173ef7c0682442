import Verif.Proofs.StreamOutMore

/-!
# Properties of writing safetensors files (C05–C09, writing part of C11)

`init`, `run`, `close` are the model (Verif/Model/StreamOut.lean): any number of threads store tensors, an
execution is any interleaving of their atomic steps.  Reading back uses the reader of C01
(Verif/Model/StreamIn.lean).  `stored`, `Quiescent`, `Complete`, `Tiles` are the specification.
-/
namespace Verif.StreamOut
open Spec

/-! ## A concrete execution: two threads, buffers of four bytes, a flush that interleaves -/

def exT (bs : Bytes) : Tensor := ⟨.u8, [bs.length], bs⟩

/-- Thread 1 stores `a` and `c`, thread 2 stores `b`; storing `c` overflows thread 1's buffer, and thread 2
runs between thread 1's flush and its header update. -/
def exActions : List Action :=
  [.begin 1 ['a'] (exT [1, 2, 3]), .begin 1 ['c'] (exT [7, 8]), .begin 2 ['b'] (exT [4, 5, 6, 9, 9]),
   .locked 1, .locked 2, .finish 2, .finish 1]

def exDeclared : Dict Key Meta :=
  [(['a'], ⟨some [3], some .u8⟩), (['b'], ⟨some [5], some .u8⟩), (['c'], ⟨some [2], some .u8⟩)]

/-- State after `exActions`; `d` are the declared tensors. -/
def exFinal (d : Dict Key Meta) : State := (run (init d none 4 1000) exActions).getD (init d none 4 1000)

theorem exRun : run (init exDeclared none 4 1000) exActions = some (exFinal exDeclared) := by decide +kernel
theorem exRun' : run (init [] none 4 1000) exActions = some (exFinal []) := by decide +kernel

theorem exQuiet : Quiescent (exFinal exDeclared) := by unfold Quiescent; decide +kernel
theorem exQuiet' : Quiescent (exFinal []) := by unfold Quiescent; decide +kernel

theorem exComplete : Complete exDeclared none 4 1000 (stored exActions) :=
  ⟨by decide, by decide +kernel, by decide, by decide +kernel⟩
theorem exComplete' : Complete [] none 4 1000 (stored exActions) :=
  ⟨by decide, by decide +kernel, by decide, by decide +kernel⟩

def exOutFile (d : Dict Key Meta) : Bytes := match close (exFinal d) with | .ok f => f | .error _ => []

theorem exClose : close (exFinal exDeclared) = .ok (exOutFile exDeclared) := by decide +kernel
theorem exClose' : close (exFinal []) = .ok (exOutFile []) := by decide +kernel

/-! ## C05 -/

/-- **C05.** After any execution in which threads stored tensors under distinct names (none of them
`__metadata__`) and every thread finished, the closed file opens; it lists exactly the stored names; and each
of them, after any history of reads and with any reading buffer size, reads back with the dtype, shape and
bytes that were stored.  The embedded recipe is kept. -/
theorem C05_readback (declared : Dict Key Meta) (recipe : Option (List Char)) (minBuf cap : ℕ)
    (as : List Action) (s : State) (file : Bytes)
    (hrun : run (init declared recipe minBuf cap) as = some s) (hq : Quiescent s)
    (hc : Complete declared recipe minBuf cap (stored as)) (hclose : close s = .ok file)
    (hdistinct : ((stored as).map (·.1)).Nodup) (hmeta : metadataKey ∉ (stored as).map (·.1))
    (hwf : ∀ p ∈ stored as, Tensor.WF p.2)
    (bs rcap : ℕ) (hbs : bs ≤ rcap) (hrc : ∀ p ∈ stored as, p.2.bytes.length ≤ rcap) :
    ∃ s0, StreamIn.open_ file bs rcap = .ok s0 ∧
      (∀ k, k ∈ StreamIn.keys s0 ↔ k ∈ (stored as).map (·.1)) ∧
      s0.header.get? metadataKey = some (.metadata (match recipe with
        | some r => [("mecha_recipe".toList, r)] | none => [])) ∧
      ∀ p ∈ stored as, ∀ history : List Key, ∃ s1 v,
        StreamIn.getItem (StreamIn.run s0 (history.map .load)).st p.1 = (s1, .ok v) ∧
        v.dtype = p.2.dtype ∧ v.shape = p.2.shape ∧ s1.read v = p.2.bytes := by
  obtain ⟨Lg, h, hb, F⟩ := file_facts hrun hq hc hclose
  exact F.readback hdistinct hmeta hwf bs rcap hbs hrc

/-- **C05, when names repeat.** If a name is stored several times, the file opens and reading the name yields
the dtype, shape and bytes of *one* of the tensors stored under it (never a mixture, never another tensor). -/
theorem C05_repeated_names (declared : Dict Key Meta) (recipe : Option (List Char)) (minBuf cap : ℕ)
    (as : List Action) (s : State) (file : Bytes)
    (hrun : run (init declared recipe minBuf cap) as = some s) (hq : Quiescent s)
    (hc : Complete declared recipe minBuf cap (stored as)) (hclose : close s = .ok file)
    (hmeta : metadataKey ∉ (stored as).map (·.1)) (hwf : ∀ p ∈ stored as, Tensor.WF p.2)
    (bs rcap : ℕ) (hbs : bs ≤ rcap) (hrc : ∀ p ∈ stored as, p.2.bytes.length ≤ rcap) :
    ∃ s0, StreamIn.open_ file bs rcap = .ok s0 ∧
      ∀ k ∈ (stored as).map (·.1), ∀ history : List Key, ∃ t s1 v, (k, t) ∈ stored as ∧
        StreamIn.getItem (StreamIn.run s0 (history.map .load)).st k = (s1, .ok v) ∧
        v.dtype = t.dtype ∧ v.shape = t.shape ∧ s1.read v = t.bytes := by
  obtain ⟨Lg, h, hb, F⟩ := file_facts hrun hq hc hclose
  obtain ⟨s0, ho, hsz, hhd⟩ := F.opens bs rcap
  have hp : s0.header.Perm h := by rw [hhd]; exact StreamIn.sortBy_perm _ _
  have hnd0 : s0.header.keys.Nodup := (hp.map _).nodup_iff.2 F.nodup
  have hget : ∀ k v, s0.header.get? k = some v ↔ h.get? k = some v := by
    intro k v
    rw [Dict.get?_eq_some_iff hnd0, Dict.get?_eq_some_iff F.nodup, hp.mem_iff]
  have hvalid : StreamIn.Spec.ValidHeader file s0.headerSize s0.header := by
    intro k e hk
    rw [hget] at hk
    obtain ⟨t, h1, h2, h3, h4, h5, h6, h7⟩ := F.stored_of_entry hk
    refine ⟨h4, by rw [hsz]; exact h6, ?_⟩
    rw [h5, h2, h3]; exact hwf _ h1
  have hcapE : ∀ k e, s0.header.get? k = some (.tensor e) → e.stop - e.start ≤ rcap := by
    intro k e hk
    rw [hget] at hk
    obtain ⟨t, h1, h2, h3, h4, h5, h6, h7⟩ := F.stored_of_entry hk
    rw [h5]; exact hrc _ h1
  refine ⟨s0, ho, ?_⟩
  intro k hk history
  have hne : k ≠ metadataKey := by rintro rfl; exact hmeta hk
  obtain ⟨e, he⟩ := F.get_stored hk
  have he : h.get? k = some (.tensor e) := by
    rcases he with he | ⟨h1, _⟩
    · exact he
    · exact absurd h1 hne
  obtain ⟨t, h1, h2, h3, h4, h5, h6, h7⟩ := F.stored_of_entry he
  obtain ⟨s1, v, r1, r2, r3, r4⟩ := StreamIn.C01_read_exact file bs rcap s0 ho hvalid hbs hcapE history k e
    ((hget _ _).2 he) hne
  exact ⟨t, s1, v, h1, r1, by rw [r2, h2], by rw [r3, h3], by rw [r4, hsz, h7]⟩

/-- Closing succeeds, for a positive buffer size, unless the header's length needs more than 64 bits. -/
theorem C05_close_succeeds (declared : Dict Key Meta) (recipe : Option (List Char)) (minBuf cap : ℕ)
    (as : List Action) (s : State)
    (hrun : run (init declared recipe minBuf cap) as = some s) (hq : Quiescent s)
    (hc : Complete declared recipe minBuf cap (stored as)) (hm : 0 < minBuf) :
    (∃ file, close s = .ok file) ∨ close s = .error .struct := close_ok_of_pos hrun hq hc hm

example := C05_readback exDeclared none 4 1000 exActions _ _ exRun exQuiet exComplete exClose
  (by decide) (by decide) (by decide) 2 100 (by decide) (by decide)

/-- The same name stored by two threads. -/
example : ∃ s file, run (init [] none 4 1000) [.begin 1 ['a'] (exT [1]), .begin 2 ['a'] (exT [2, 3])] = some s ∧
    Quiescent s ∧ Complete [] none 4 1000 (stored [.begin 1 ['a'] (exT [1]), .begin 2 ['a'] (exT [2, 3])]) ∧
    close s = .ok file := by
  refine ⟨(run (init [] none 4 1000) [.begin 1 ['a'] (exT [1]), .begin 2 ['a'] (exT [2, 3])]).getD (init [] none 4 1000),
    match close ((run (init [] none 4 1000) [.begin 1 ['a'] (exT [1]), .begin 2 ['a'] (exT [2, 3])]).getD
      (init [] none 4 1000)) with | .ok f => f | .error _ => [], by decide +kernel, ?_,
    ⟨by decide, by decide +kernel, by decide, by decide +kernel⟩, by decide +kernel⟩
  unfold Quiescent; decide +kernel

/-! ## C06 -/

/-- **C06.** The ranges of different names do not overlap, they end inside the file, and if the stored names
are distinct the ranges tile the data section. -/
theorem C06_layout (declared : Dict Key Meta) (recipe : Option (List Char)) (minBuf cap : ℕ)
    (as : List Action) (s : State) (file : Bytes)
    (hrun : run (init declared recipe minBuf cap) as = some s) (hq : Quiescent s)
    (hc : Complete declared recipe minBuf cap (stored as)) (hclose : close s = .ok file) :
    ∃ n h, n = Safetensors.littleEndian (file.take 8) ∧ decHeader ((file.drop 8).take n) = some h ∧ 8 + n ≤ file.length ∧
      (∀ k k' e e', k ≠ k' → h.get? k = some (.tensor e) → h.get? k' = some (.tensor e') →
        e.stop ≤ e'.start ∨ e'.stop ≤ e.start) ∧
      (∀ k e, h.get? k = some (.tensor e) → e.start ≤ e.stop ∧ 8 + n + e.stop ≤ file.length) ∧
      (((stored as).map (·.1)).Nodup → metadataKey ∉ (stored as).map (·.1) →
        Tiles (entries h) (file.length - (8 + n))) := by
  obtain ⟨Lg, h, hb, F⟩ := file_facts hrun hq hc hclose
  refine ⟨hb.length, h, (Safetensors.unle64_eq _ ▸ F.size).symm, ?_, ?_, ?_, ?_, ?_⟩
  · have := F.header; unfold slice at this; rw [this]; exact F.dec
  · rw [F.length]; omega
  · intro k k' e e' hne h1 h2
    have := pairwise_or (entriesFrom_pairwise 0 Lg) (F.entry h1) (F.entry h2) (by
      intro hcon; simp only [Prod.mk.injEq] at hcon; exact hne hcon.1)
    exact this
  · intro k e hk
    obtain ⟨t, h1, h2, h3, h4, h5, h6, h7⟩ := F.stored_of_entry hk
    exact ⟨h4, h6⟩
  · intro hd hm
    have hdL : (Lg.map (·.1)).Nodup := (F.perm.map _).nodup_iff.1 hd
    have hmL : metadataKey ∉ Lg.map (·.1) := fun hx => hm ((F.perm.map _).mem_iff.2 hx)
    have hperm := header_perm F.nodup F.mem F.cov F.keep hdL hmL
    have he := entries_perm hperm
    rw [entries_init, entries_tensors] at he
    refine ⟨_, he.symm, ?_⟩
    have := entriesFrom_chain 0 Lg
    rw [F.length]
    simpa using this

example := C06_layout exDeclared none 4 1000 exActions _ _ exRun exQuiet exComplete exClose

/-! ## C07 -/

/-- **C07.** If every stored tensor was announced with its shape and dtype (any subset may be stored, in any
order and interleaving), `close` succeeds for every buffer size, zero included, and the header occupies exactly
the space reserved when the output was created, so that no data is moved. -/
theorem C07_reserve_suffices (declared : Dict Key Meta) (recipe : Option (List Char)) (minBuf cap : ℕ)
    (as : List Action) (s : State)
    (hrun : run (init declared recipe minBuf cap) as = some s) (hq : Quiescent s)
    (hc : Complete declared recipe minBuf cap (stored as))
    (hdnd : declared.keys.Nodup) (hdm : metadataKey ∉ declared.keys)
    (h64 : reservedSize declared recipe < 2 ^ 64)
    (hdistinct : ((stored as).map (·.1)).Nodup)
    (hwf : ∀ p ∈ stored as, Tensor.WF p.2)
    (hdecl : ∀ p ∈ stored as, declared.get? p.1 = some ⟨some p.2.shape, some p.2.dtype⟩) :
    ∃ file, close s = .ok file ∧ Safetensors.littleEndian (file.take 8) = reservedSize declared recipe := by
  obtain ⟨Lg, hp, hF⟩ := run_flat hrun hq hc
  have hkeys : ∀ k ∈ (stored as).map (·.1), k ∈ declared.keys := by
    intro k hk
    obtain ⟨p, h1, rfl⟩ := List.mem_map.1 hk
    rw [← Dict.get?_isSome_iff, hdecl p h1]; rfl
  have hdL : (Lg.map (·.1)).Nodup := (hp.map _).nodup_iff.1 hdistinct
  have hmL : metadataKey ∉ Lg.map (·.1) := fun hx => hdm (hkeys _ ((hp.map _).mem_iff.2 hx))
  have hperm := header_perm (recipe := recipe) hF.hnd hF.hmem hF.hcov hF.hkeep hdL hmL
  have hfit := header_fits hperm hdnd hdm hdL (fun p h => hwf p (hp.mem_iff.2 h)) (fun p h => hdecl p (hp.mem_iff.2 h))
  have h1 : (init declared recipe minBuf cap).maxHeader = reservedSize declared recipe := rfl
  have hfin := finishFile_spec hF (by rw [h1]; omega) (Or.inr ⟨by rw [h1]; exact hfit, hc.eight, by
    rw [h1]; exact hc.header⟩)
  refine ⟨_, hfin, ?_⟩
  rw [h1]
  have hmax : max (reservedSize declared recipe) (encHeader ((s.threads.map (·.2)).foldl flushClose s).header).length
      = reservedSize declared recipe := by omega
  rw [hmax, List.append_assoc, List.append_assoc, List.take_append_of_le_length (by rw [le64_length]),
    List.take_of_length_le (by rw [le64_length]), ← Safetensors.unle64_eq, unle64_le64 _ h64]

example : ∃ file, close (exFinal exDeclared) = .ok file ∧ Safetensors.littleEndian (file.take 8) = reservedSize exDeclared none :=
  C07_reserve_suffices exDeclared none 4 1000 exActions _ exRun exQuiet exComplete (by decide) (by decide)
    (by decide +kernel) (by decide) (by decide) (by decide)

/-- Announcing is necessary: with nothing announced the header does not fit and data is moved. -/
example : ∃ file, close (exFinal []) = .ok file ∧ reservedSize [] none < Safetensors.littleEndian (file.take 8) :=
  ⟨_, exClose', by decide +kernel⟩

/-! ## C08 -/

/-- **C08 (the move).** For every data section, chunk size and growth of the header, moving chunk by chunk from
the end leaves exactly the data behind the enlarged header. -/
theorem C08_relocation (m off ds : ℕ) (hm : 0 < m) (D c : Bytes) (hl : c.length = ds + D.length)
    (hD : c.drop ds = D) :
    (moveLoop m off ds (truncate c (ds + off + D.length)) (ds + D.length)).drop (ds + off) = D ∧
    (moveLoop m off ds (truncate c (ds + off + D.length)) (ds + D.length)).length = ds + off + D.length := by
  have ht : truncate c (ds + off + D.length) = c ++ List.replicate off 0 := by
    unfold truncate
    rw [List.take_of_length_le (by omega)]
    congr 2; omega
  rw [ht]
  obtain ⟨m1, m2⟩ := moveLoop_spec m off ds hm D (ds + D.length) (c ++ List.replicate off 0)
    (by simp; omega) (le_refl _)
    (by
      intro i hi
      rw [List.getElem?_append_left (by omega), ← hD, List.getElem?_drop])
    (by
      intro i hi
      rw [List.getElem?_eq_none (by simp; omega), List.getElem?_eq_none (by omega)])
  refine ⟨?_, m1⟩
  apply List.ext_getElem?
  intro i
  rw [List.getElem?_drop]; exact m2 i

/-- **C08.** If the header turns out longer than the reserved space and the buffer size is positive, `close`
still succeeds (unless 64 bits are too few), the header grows, and every tensor reads back exactly. -/
theorem C08_moved_readback (declared : Dict Key Meta) (recipe : Option (List Char)) (minBuf cap : ℕ)
    (as : List Action) (s : State) (file : Bytes)
    (hrun : run (init declared recipe minBuf cap) as = some s) (hq : Quiescent s)
    (hc : Complete declared recipe minBuf cap (stored as)) (hclose : close s = .ok file)
    (_hmoved : reservedSize declared recipe < Safetensors.littleEndian (file.take 8))
    (hdistinct : ((stored as).map (·.1)).Nodup) (hmeta : metadataKey ∉ (stored as).map (·.1))
    (hwf : ∀ p ∈ stored as, Tensor.WF p.2)
    (bs rcap : ℕ) (hbs : bs ≤ rcap) (hrc : ∀ p ∈ stored as, p.2.bytes.length ≤ rcap) :
    ∃ s0, StreamIn.open_ file bs rcap = .ok s0 ∧
      ∀ p ∈ stored as, ∃ s1 v, StreamIn.getItem s0 p.1 = (s1, .ok v) ∧
        v.dtype = p.2.dtype ∧ v.shape = p.2.shape ∧ s1.read v = p.2.bytes := by
  obtain ⟨s0, h1, _, _, h2⟩ := C05_readback declared recipe minBuf cap as s file hrun hq hc hclose hdistinct hmeta hwf
    bs rcap hbs hrc
  exact ⟨s0, h1, fun p hp => h2 p hp []⟩

example := C08_moved_readback [] none 4 1000 exActions _ _ exRun' exQuiet' exComplete' exClose' (by decide +kernel)
  (by decide) (by decide) (by decide) 2 100 (by decide) (by decide)

/-- **C08 (buffer size zero).** With a buffer size of zero `close` raises `ValueError` whenever data would have
to be moved; the finished header is never written. -/
theorem C08_zero_buffer (declared : Dict Key Meta) (recipe : Option (List Char)) (cap : ℕ)
    (as : List Action) (s : State)
    (hrun : run (init declared recipe 0 cap) as = some s) (hq : Quiescent s)
    (hc : Complete declared recipe 0 cap (stored as))
    (hlong : reservedSize declared recipe < (encHeader ((s.threads.map (·.2)).foldl flushClose s).header).length)
    (h64 : (encHeader ((s.threads.map (·.2)).foldl flushClose s).header).length < 2 ^ 64) :
    close s = .error .value := by
  obtain ⟨Lg, hp, hF⟩ := run_flat hrun hq hc
  have h1 : ((s.threads.map (·.2)).foldl flushClose s).maxHeader = reservedSize declared recipe := hF.maxHeader
  have h2 : ((s.threads.map (·.2)).foldl flushClose s).minBuf = 0 := hF.minBuf
  unfold close finishFile
  simp only [h1, h2]
  rw [if_neg (by omega), if_pos hlong, if_pos trivial]

example : close ((run (init [] none 0 1000) [.begin 1 ['a'] (exT [1]), .locked 1, .finish 1]).getD
    (init [] none 0 1000)) = .error .value := by decide +kernel

/-! ## C09 -/

/-- **C09.** At any point of any execution (also of an unfinished one, and whatever other threads do) a
thread's buffer is at most as large as the minimum size or the largest tensor *that thread* stored so far, and
the used part never exceeds it. -/
theorem C09_buffer_bound (declared : Dict Key Meta) (recipe : Option (List Char)) (minBuf cap : ℕ)
    (as : List Action) (s : State) (hrun : run (init declared recipe minBuf cap) as = some s)
    (tid : ℕ) (ts : TState) (hts : s.threads.get? tid = some ts)
    (b : ℕ) (hb : ∀ p ∈ storedBy tid as, p.2.bytes.length ≤ b) :
    ts.used ≤ ts.buffer.length ∧ ts.buffer.length ≤ max minBuf b ∧ minBuf ≤ ts.buffer.length := by
  obtain ⟨h1, h2⟩ := run_binv as hrun hb (by intro ts h; simp [init] at h)
  have := h2 ts hts
  rw [h1] at this
  exact ⟨this.used, this.le, this.minLe⟩

example (ts : TState) (h : (exFinal exDeclared).threads.get? 1 = some ts) : ts.buffer.length ≤ max 4 3 :=
  (C09_buffer_bound exDeclared none 4 1000 exActions _ exRun 1 ts h 3 (by decide)).2.1
example : ∃ ts, (exFinal exDeclared).threads.get? 2 = some ts ∧ ts.buffer.length = 5 :=
  ⟨((exFinal exDeclared).threads.get? 2).getD ⟨[], 0, [], .idle⟩, by decide +kernel, by decide +kernel⟩

/-! ## C11 (writing) -/

/-- **C11 is false of the code when writing**: if one OS call transfers fewer bytes than the buffer holds, the
closed file opens but yields other bytes than were stored (the return value of `write` is ignored). -/
theorem C11_short_write_false :
    ∃ (declared : Dict Key Meta) (minBuf cap : ℕ) (as : List Action) (s : State) (file : Bytes) (k : Key) (t : Tensor),
      0 < cap ∧ run (init declared none minBuf cap) as = some s ∧ Quiescent s ∧ close s = .ok file ∧
      stored as = [(k, t)] ∧ Tensor.WF t ∧
      ∃ s0 s1 v, StreamIn.open_ file 1000 1000 = .ok s0 ∧ StreamIn.getItem s0 k = (s1, .ok v) ∧
        s1.read v ≠ t.bytes := by
  let t : Tensor := exT (List.replicate 100 1)
  let d : Dict Key Meta := [(['a'], ⟨some [100], some .u8⟩)]
  let s : State := (run (init d none 100 90) [.begin 1 ['a'] t]).getD (init d none 100 90)
  let file : Bytes := match close s with | .ok f => f | .error _ => []
  let s0 : StreamIn.State := match StreamIn.open_ file 1000 1000 with | .ok x => x | .error _ => StreamIn.exState 0 0
  refine ⟨d, 100, 90, [.begin 1 ['a'] t], s, file, ['a'], t, by decide, by decide +kernel,
    by unfold Quiescent; decide +kernel, by decide +kernel, rfl, by decide +kernel, s0,
    (StreamIn.getItem s0 ['a']).1, ⟨.u8, [100], 1, 0, 100⟩, ?_, StreamIn.pair_of_snd _ _ (by decide +kernel),
    by decide +kernel⟩
  have : ∃ x, StreamIn.open_ file 1000 1000 = .ok x := by
    cases h : StreamIn.open_ file 1000 1000 with
    | ok x => exact ⟨x, rfl⟩
    | error e =>
      exfalso
      have : (match StreamIn.open_ file 1000 1000 with | .ok _ => true | .error _ => false) = true := by decide +kernel
      rw [h] at this; cases this
  obtain ⟨x, hx⟩ := this
  show _ = Except.ok s0
  simp only [s0, hx]

end Verif.StreamOut
