import Verif.Proofs.StreamOutMore
import Verif.Proofs.Ieee
import Verif.Proofs.Safetensors
import Verif.Spec.Reproducible

/-!
# Executions of one thread
-/
namespace Verif.Reproducible
open StreamOut StreamOut.Spec Spec

/-- Entries as header values -/
def tensors (l : List (Key × Entry)) : Header := l.map fun p => (p.1, .tensor p.2)

theorem tensors_keys (l : List (Key × Entry)) : Dict.keys (tensors l) = l.map (·.1) := by
  simp [tensors, Dict.keys, Function.comp_def]

theorem places_eq (off : ℕ) (l : Log) : places off l = tensors (entriesFrom off l) := by
  induction l generalizing off with
  | nil => rfl
  | cons p l ih => obtain ⟨k, t⟩ := p; simp only [places, entriesFrom, tensors, List.map_cons]; rw [ih]; rfl

theorem header_eq (recipe : Option (List Char)) (l : Log) : header recipe l = initHeader recipe ++ tensors (entriesFrom 0 l) := by
  cases recipe <;> simp [header, initHeader, places_eq]

theorem globalSub_eq {off : ℕ} {l : Log} (h : (l.map (·.1)).Nodup) :
    globalSub off (Dict.ofList (entriesFrom 0 l)) = tensors (entriesFrom off l) := by
  have hk : Dict.keys (entriesFrom 0 l) = l.map (·.1) := entriesFrom_keys 0 l
  rw [Dict.ofList_of_nodup (by rw [hk]; exact h)]
  have := entriesFrom_shift off l 0
  rw [Nat.zero_add] at this
  rw [← this]
  simp [globalSub, tensors, Function.comp_def]

theorem update_eq {recipe : Option (List Char)} {A l : Log} (h : ((A ++ l).map (·.1)).Nodup) (hm : metadataKey ∉ (A ++ l).map (·.1)) :
    Dict.update (initHeader recipe ++ tensors (entriesFrom 0 A)) (globalSub (bytesOf A).length (Dict.ofList (entriesFrom 0 l))) =
      initHeader recipe ++ tensors (entriesFrom 0 (A ++ l)) := by
  rw [List.map_append] at h hm
  obtain ⟨h1, h2, h3⟩ := List.nodup_append.1 h
  rw [globalSub_eq h2, Dict.update_of_disjoint]
  · rw [entriesFrom_append, Nat.zero_add]
    simp [tensors]
  · rw [tensors_keys, entriesFrom_keys]; exact h2
  · intro k hk
    rw [tensors_keys, entriesFrom_keys] at hk
    have e : Dict.keys (initHeader recipe ++ tensors (entriesFrom 0 A)) = metadataKey :: A.map (·.1) := by
      simp only [Dict.keys, List.map_append]
      have := tensors_keys (entriesFrom 0 A)
      rw [entriesFrom_keys] at this
      simp only [Dict.keys] at this
      rw [this]; simp [initHeader]
    rw [e]
    simp only [List.mem_cons, not_or]
    refine ⟨?_, fun hk' => h3 k hk' k hk rfl⟩
    rintro rfl
    exact hm (List.mem_append.2 (Or.inr hk))

/-- What holds while one thread stores: the log is in storing order and the header is the log's, up to a flush under way. -/
structure Serial (recipe : Option (List Char)) (s0 : State) (bound tid : ℕ) (hist : Log) (s : State) (Lg A : Log) : Prop where
  minBuf : s.minBuf = s0.minBuf
  maxHeader : s.maxHeader = s0.maxHeader
  cap : s.cap = s0.cap
  flushed : s.flushedSize = (bytesOf Lg).length
  pos : s.file.pos = 8 + s0.maxHeader + (bytesOf Lg).length
  content : s.file.content = if bytesOf Lg = [] then [] else List.replicate (8 + s0.maxHeader) 0 ++ bytesOf Lg
  header : s.header = initHeader recipe ++ tensors (entriesFrom 0 A)
  thr : (s.threads = [] ∧ hist = [] ∧ Lg = [] ∧ A = []) ∨ ∃ ts l, s.threads = [(tid, ts)] ∧ TInv s0.minBuf bound Lg ts l ∧
    hist = Lg ++ localOf ts l ∧ ((∀ off k t, ts.pc ≠ .flushed off k t) → A = Lg) ∧
    (∀ off k t, ts.pc = .flushed off k t → Lg = A ++ l ∧ off = (bytesOf A).length)

theorem get_one (tid : ℕ) (ts : TState) : Dict.get? [(tid, ts)] tid = some ts := by simp [Dict.get?]

theorem set_one (tid : ℕ) (ts ts' : TState) : Dict.set [(tid, ts)] tid ts' = [(tid, ts')] := by simp [Dict.set]

variable {recipe : Option (List Char)} {s0 : State} {bound tid : ℕ} {hist : Log} {s s' : State} {Lg A : Log}

theorem Serial.begin (h : Serial recipe s0 bound tid hist s Lg A) {k : Key} {t : Tensor} (ht : t.bytes.length ≤ bound)
    (hstep : step s (.begin tid k t) = some s') : ∃ Lg A, Serial recipe s0 bound tid (hist ++ [(k, t)]) s' Lg A := by
  have base : ∃ l, TInv s0.minBuf bound Lg ((s.threads.get? tid).getD ⟨List.replicate s.minBuf 0, 0, [], .idle⟩) l ∧
      (((s.threads.get? tid).getD ⟨List.replicate s.minBuf 0, 0, [], .idle⟩).pc = .idle → hist = Lg ++ l ∧ A = Lg) ∧
      ∀ ts', s.threads.set tid ts' = [(tid, ts')] := by
    rcases h.thr with ⟨h1, h2, h3, h4⟩ | ⟨ts, l, h1, h2, h3, h4, h5⟩
    · refine ⟨[], ?_, ?_, ?_⟩
      · rw [h1, h.minBuf]
        constructor <;> simp [entriesFrom, Dict.ofList]
      · intro _; rw [h2, h3, h4]; simp
      · intro ts'; rw [h1]; rfl
    · refine ⟨l, ?_, ?_, ?_⟩
      · rw [h1, get_one]; exact h2
      · rw [h1, get_one]
        intro hp
        have hp : ts.pc = .idle := hp
        rw [localOf_idle hp] at h3
        exact ⟨h3, h4 (by simp [hp])⟩
      · intro ts'; rw [h1, set_one]
  obtain ⟨l, hT, hidle, hset⟩ := base
  simp only [step] at hstep
  generalize (s.threads.get? tid).getD ⟨List.replicate s.minBuf 0, 0, [], .idle⟩ = ts at hT hidle hstep
  split at hstep
  swap
  · cases hstep
  rename_i hpc
  obtain ⟨h1, h2⟩ := hidle hpc
  obtain ⟨hb1, hb2, hb3⟩ := hT.buf (by simp [hpc])
  simp only [Option.some.injEq] at hstep
  subst hstep
  refine ⟨Lg, A, h.minBuf, h.maxHeader, h.cap, h.flushed, h.pos, h.content, h.header, Or.inr ?_⟩
  by_cases hf : t.bytes.length > ts.buffer.length - ts.used
  · rw [if_pos hf]
    refine ⟨_, l, hset _, ⟨hT.minLe, hT.leBound, hT.sub, fun _ => ⟨hb1, hb2, hb3⟩, by simp, ?_⟩, ?_, fun _ => h2, by simp⟩
    · intro k' t' hw
      simp at hw
      rw [← hw.2]; exact ht
    · simp [localOf, h1]
  · rw [if_neg hf]
    refine ⟨_, l ++ [(k, t)], hset _, store_spec k t hT.minLe hT.leBound hT.sub hb1 hb3 (by omega), ?_, fun _ => h2, by simp [store]⟩
    simp [localOf, store, h1]

theorem Serial.locked (h : Serial recipe s0 bound tid hist s Lg A) (hcap : max s0.minBuf bound ≤ s0.cap)
    (hstep : step s (.locked tid) = some s') : ∃ Lg A, Serial recipe s0 bound tid hist s' Lg A := by
  rcases h.thr with ⟨h1, h2, h3, h4⟩ | ⟨ts, l, h1, hT, h3, h4, h5⟩
  · simp [step, h1] at hstep
  · simp only [step] at hstep
    rw [h1, get_one] at hstep
    simp only at hstep
    split at hstep
    swap
    · cases hstep
    rename_i k t hpc
    simp only [Option.some.injEq] at hstep
    subst hstep
    have hA := h4 (by simp [hpc])
    obtain ⟨hb1, hb2, hb3⟩ := hT.buf (by simp [hpc])
    have hlen : (ts.buffer.take ts.used).length ≤ s.cap := by
      rw [h.cap]
      have := hT.leBound
      simp; omega
    refine ⟨Lg ++ l, A, h.minBuf, h.maxHeader, h.cap, ?_, ?_, ?_, h.header, Or.inr ⟨_, l, set_one _ _ _, ?_, ?_, ?_, ?_⟩⟩
    · simp [h.flushed, hb1]
    · simp only [rawWrite_spec _ _ _ hlen]
      simp only [h.pos, hb3, bytesOf_append, List.length_append]; omega
    · simp only [rawWrite_spec _ _ _ hlen]
      simp only [h.pos, h.content, hb3]
      rw [writeAt_end, bytesOf_append]
    · refine ⟨hT.minLe, hT.leBound, hT.sub, ?_, ?_, by simp⟩
      · intro hn; exact absurd rfl (hn _ _ _)
      · intro off k' t' hp
        simp only [PC.flushed.injEq] at hp
        exact ⟨rfl, by rw [← hp.2.2]; exact hT.wl k t hpc, Lg, [], by simp, by rw [← hp.1, h.flushed]⟩
    · rw [h3]; simp [localOf, hpc]
    · intro hn; exact absurd rfl (hn _ _ _)
    · intro off k' t' hp
      simp only [PC.flushed.injEq] at hp
      rw [hA]
      exact ⟨rfl, by rw [← hp.1, h.flushed]⟩

theorem Serial.finish (h : Serial recipe s0 bound tid hist s Lg A) (hnd : (hist.map (·.1)).Nodup) (hm : metadataKey ∉ hist.map (·.1))
    (hstep : step s (.finish tid) = some s') : ∃ Lg A, Serial recipe s0 bound tid hist s' Lg A := by
  rcases h.thr with ⟨h1, h2, h3, h4⟩ | ⟨ts, l, h1, hT, h3, h4, h5⟩
  · simp [step, h1] at hstep
  · simp only [step] at hstep
    rw [h1, get_one] at hstep
    simp only at hstep
    split at hstep
    swap
    · cases hstep
    rename_i off k t hpc
    simp only [Option.some.injEq] at hstep
    subst hstep
    obtain ⟨hLg, hoff⟩ := h5 off k t hpc
    obtain ⟨hu, htb, -⟩ := hT.fl off k t hpc
    have hT' : TInv s0.minBuf bound Lg
        (store { ts with buffer := resized s.minBuf ts.buffer t.bytes.length, sub := [] } k t) ([] ++ [(k, t)]) := by
      apply store_spec
      · simp only [resized_length, h.minBuf]; omega
      · simp only [resized_length, h.minBuf]; omega
      · simp [entriesFrom, Dict.ofList]
      · simp [hu]
      · simp [hu]
      · simp only [resized_length, hu]; omega
    have hh : hist.map (·.1) = Lg.map (·.1) ++ (localOf ts l).map (·.1) := by rw [h3]; simp
    refine ⟨Lg, Lg, h.minBuf, h.maxHeader, h.cap, h.flushed, h.pos, h.content, ?_, Or.inr ⟨_, _, set_one _ _ _, hT', ?_, fun _ => rfl, ?_⟩⟩
    · simp only
      rw [h.header, hT.sub, hoff, hLg]
      apply update_eq
      · rw [← hLg]; rw [hh] at hnd; exact (List.nodup_append.1 hnd).1
      · rw [← hLg]; rw [hh] at hm; exact fun hx => hm (List.mem_append.2 (Or.inl hx))
    · rw [h3]; simp [localOf, hpc, store]
    · simp [store]

theorem Serial.run (hcap : max s0.minBuf bound ≤ s0.cap) (as : List Action) (hb : ∀ p ∈ stored as, p.2.bytes.length ≤ bound)
    (ht : ∀ a ∈ as, threadOf a = tid) {hist : Log} {s : State} {Lg A : Log} (h : Serial recipe s0 bound tid hist s Lg A)
    (hnd : ((hist ++ stored as).map (·.1)).Nodup) (hm : metadataKey ∉ (hist ++ stored as).map (·.1)) (hrun : run s as = some s') :
    ∃ Lg A, Serial recipe s0 bound tid (hist ++ stored as) s' Lg A := by
  induction as generalizing hist s Lg A with
  | nil => simp [StreamOut.run] at hrun; subst hrun; simp only [stored, List.append_nil]; exact ⟨Lg, A, h⟩
  | cons a as ih =>
    simp only [StreamOut.run] at hrun
    cases hs : step s a with
    | none => rw [hs] at hrun; cases hrun
    | some s1 =>
      rw [hs] at hrun
      simp only [Option.bind_some] at hrun
      have hta := ht a (by simp)
      have htas : ∀ a ∈ as, threadOf a = tid := fun a ha => ht a (by simp [ha])
      cases a with
      | begin tid k t =>
        have : tid = _ := hta
        subst this
        obtain ⟨Lg', A', h'⟩ := h.begin (hb (k, t) (by simp [stored])) hs
        have := ih (fun p hp => hb p (by simp [stored, hp])) htas h' (by simpa [stored] using hnd) (by simpa [stored] using hm) hrun
        simpa [stored] using this
      | locked tid =>
        have : tid = _ := hta
        subst this
        obtain ⟨Lg', A', h'⟩ := h.locked hcap hs
        exact ih (fun p hp => hb p (by simpa [stored] using hp)) htas h' hnd hm hrun
      | finish tid =>
        have : tid = _ := hta
        subst this
        obtain ⟨Lg', A', h'⟩ := h.finish (by
          rw [List.map_append] at hnd
          exact (List.nodup_append.1 hnd).1) (by
          rw [List.map_append] at hm
          exact fun hx => hm (List.mem_append.2 (Or.inl hx))) hs
        exact ih (fun p hp => hb p (by simpa [stored] using hp)) htas h' hnd hm hrun

/-- The state is that of a log, with the header of the log. -/
theorem flat_of {Lg : Log} (hs0 : s0.header = initHeader recipe) (h1 : s.minBuf = s0.minBuf) (h2 : s.maxHeader = s0.maxHeader) (h3 : s.cap = s0.cap)
    (h4 : s.flushedSize = (bytesOf Lg).length) (h5 : s.file.pos = 8 + s0.maxHeader + (bytesOf Lg).length)
    (h6 : s.file.content = if bytesOf Lg = [] then [] else List.replicate (8 + s0.maxHeader) 0 ++ bytesOf Lg)
    (h7 : s.header = initHeader recipe ++ tensors (entriesFrom 0 Lg))
    (hnd : (Lg.map (·.1)).Nodup) (hm : metadataKey ∉ Lg.map (·.1)) : Flat s0 s Lg := by
  have hk : Dict.keys s.header = metadataKey :: Lg.map (·.1) := by
    have := tensors_keys (entriesFrom 0 Lg)
    rw [entriesFrom_keys] at this
    rw [h7]
    simp only [Dict.keys, List.map_append] at this ⊢
    rw [this]; simp [initHeader]
  refine ⟨h1, h2, h3, h4, h5, h6, ?_, ?_, ?_, ?_, ?_⟩
  · rw [hk]; exact List.nodup_cons.2 ⟨hm, hnd⟩
  · intro k v hv
    rw [h7] at hv
    rcases List.mem_append.1 hv with hv | hv
    · left; rw [hs0]; exact hv
    · right
      obtain ⟨p, hp, he⟩ := List.mem_map.1 hv
      cases he
      exact ⟨_, rfl, hp⟩
  · intro k hk'
    rw [hs0] at hk'
    rw [hk]
    simp [initHeader, Dict.keys] at hk'
    simp [hk']
  · intro k hk'
    rw [hk]; exact List.mem_cons_of_mem _ hk'
  · intro k hk'
    rw [h7, hs0, Dict.get?_append]
    have : Dict.get? (tensors (entriesFrom 0 Lg)) k = none := by
      rw [Dict.get?_eq_none_iff, tensors_keys, entriesFrom_keys]; exact hk'
    rw [this, Option.or_none]

/-- After the flush of `close` everything is in the file in the order of storing. -/
theorem serial_flat {declared : Dict Key Meta} {minBuf cap : ℕ} {as : List Action} {s : State}
    (hrun : run (init declared recipe minBuf cap) as = some s) (hq : Quiescent s)
    (hc : Complete declared recipe minBuf cap (stored as)) (hone : OneThread as)
    (hnd : ((stored as).map (·.1)).Nodup) (hm : metadataKey ∉ (stored as).map (·.1)) :
    Flat (init declared recipe minBuf cap) ((s.threads.map (·.2)).foldl flushClose s) (stored as) ∧
    ((s.threads.map (·.2)).foldl flushClose s).header = header recipe (stored as) := by
  obtain ⟨tid, ht⟩ := hone
  have hcap : max (init declared recipe minBuf cap).minBuf cap ≤ (init declared recipe minBuf cap).cap := by
    have := hc.buffer; simp only [init]; omega
  have hstart : Serial recipe (init declared recipe minBuf cap) cap tid [] (init declared recipe minBuf cap) [] [] := by
    refine ⟨rfl, rfl, rfl, rfl, rfl, rfl, ?_, Or.inl ⟨rfl, rfl, rfl, rfl⟩⟩
    simp [init, tensors, entriesFrom]
  obtain ⟨Lg, A, h⟩ := hstart.run hcap as hc.tensor ht (by simpa using hnd) (by simpa using hm) hrun
  simp only [List.nil_append] at h
  rcases h.thr with ⟨h1, h2, h3, h4⟩ | ⟨ts, l, h1, hT, h3, h4, h5⟩
  · subst h3 h4
    rw [h1]
    simp only [List.map_nil, List.foldl_nil]
    rw [h2]
    exact ⟨flat_of rfl h.minBuf h.maxHeader h.cap h.flushed h.pos h.content h.header (by simp) (by simp), by rw [h.header, header_eq]⟩
  · rw [h1]
    simp only [List.map_cons, List.map_nil, List.foldl_cons, List.foldl_nil]
    have hidle : ts.pc = .idle := hq (tid, ts) (by rw [h1]; simp)
    rw [localOf_idle hidle] at h3
    obtain rfl := h4 (by simp [hidle])
    obtain ⟨hb1, hb2, hb3⟩ := hT.buf (by simp [hidle])
    have hlen : (ts.buffer.take ts.used).length ≤ s.cap := by
      rw [h.cap]
      have := hT.leBound
      simp at hcap ⊢; omega
    have hh : (flushClose s ts).header = initHeader recipe ++ tensors (entriesFrom 0 (A ++ l)) := by
      simp only [flushClose]
      rw [h.header, hT.sub, h.flushed]
      exact update_eq (by rw [← h3]; exact hnd) (by rw [← h3]; exact hm)
    rw [h3]
    refine ⟨flat_of (recipe := recipe) rfl h.minBuf h.maxHeader h.cap ?_ ?_ ?_ hh (by rw [← h3]; exact hnd) (by rw [← h3]; exact hm), ?_⟩
    · simp [flushClose, h.flushed, hb1]
    · simp only [flushClose, rawWrite_spec _ _ _ hlen]
      simp only [h.pos, hb3, bytesOf_append, List.length_append]; omega
    · simp only [flushClose, rawWrite_spec _ _ _ hlen]
      simp only [h.pos, h.content, hb3]
      rw [writeAt_end, bytesOf_append]
    · rw [hh, header_eq]

/-- What a successful `close` writes, in terms of the log. -/
theorem close_eq {declared : Dict Key Meta} {minBuf cap : ℕ} {s1 : State} {file : Bytes} {Lg : Log}
    (hF : Flat (init declared recipe minBuf cap) s1 Lg) (hc8 : 8 ≤ cap) (hch : reservedSize declared recipe ≤ cap)
    (hclose : finishFile s1 = .ok file) :
    max (reservedSize declared recipe) (encHeader s1.header).length < 2 ^ 64 ∧
    file = le64 (max (reservedSize declared recipe) (encHeader s1.header).length) ++ encHeader s1.header ++
      List.replicate (reservedSize declared recipe - (encHeader s1.header).length) 32 ++ bytesOf Lg := by
  have hmh : s1.maxHeader = reservedSize declared recipe := hF.maxHeader
  have hmb : s1.minBuf = minBuf := hF.minBuf
  have hmh0 : (init declared recipe minBuf cap).maxHeader = reservedSize declared recipe := rfl
  have hmb0 : (init declared recipe minBuf cap).minBuf = minBuf := rfl
  have hcp0 : (init declared recipe minBuf cap).cap = cap := rfl
  have h64 : max (reservedSize declared recipe) (encHeader s1.header).length < 2 ^ 64 := by
    by_contra hcon
    unfold finishFile at hclose
    simp only [hmh, hmb] at hclose
    rw [if_pos (by omega)] at hclose
    cases hclose
  have hmode : (reservedSize declared recipe < (encHeader s1.header).length ∧ 0 < minBuf) ∨
      ((encHeader s1.header).length ≤ reservedSize declared recipe ∧ 8 ≤ cap ∧ reservedSize declared recipe ≤ cap) := by
    rcases Nat.lt_or_ge (reservedSize declared recipe) (encHeader s1.header).length with h | h
    · left
      refine ⟨h, ?_⟩
      by_contra hcon
      unfold finishFile at hclose
      simp only [hmh, hmb] at hclose
      rw [if_neg (by omega), if_pos h, if_pos (by omega)] at hclose
      cases hclose
    · exact Or.inr ⟨h, hc8, hch⟩
  have hfin := finishFile_spec hF (by rw [hmh0]; exact h64) (by rw [hmh0, hmb0, hcp0]; exact hmode)
  rw [hclose, hmh0] at hfin
  exact ⟨h64, Except.ok.inj hfin⟩

/-- A file is determined by its parts. -/
theorem isFile_unique {file file' : Bytes} {h : Header} {pad : ℕ} {data : Bytes} (h1 : Safetensors.IsFile file h pad data)
    (h2 : Safetensors.IsFile file' h pad data) : file = file' := by
  have ht : file.take 8 = file'.take 8 := by
    have e : unle64 (file.take 8) = unle64 (file'.take 8) := by
      rw [Safetensors.unle64_eq, Safetensors.unle64_eq, h1.length, h2.length]
    have l1 : (file.take 8).length = 8 := by simp [h1.eight]
    have l2 : (file'.take 8).length = 8 := by simp [h2.eight]
    have a := Ieee.le_unle (file.take 8)
    have b := Ieee.le_unle (file'.take 8)
    rw [l1] at a
    rw [l2] at b
    rw [← a, ← b, e]
  rw [← List.take_append_drop 8 file, ← List.take_append_drop 8 file', ht, h1.content, h2.content]

end Verif.Reproducible
