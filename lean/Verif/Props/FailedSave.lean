import Verif.Proofs.FailedSave
import Verif.Props.Merge

/-!
# What a failing merge leaves at the output path (C96)

`Holds file ts` says that the file opens, lists exactly the names of `ts` and reads each back as stored; `Corrupt file k t` that it opens
and reads `k` without complaint as something other than `t`.
-/
namespace Verif.FailedSave
open StreamOut StreamOut.Spec Spec

/-! ## Without threads -/

/-- **C96 (threads=0).**  A merge without worker threads that raises leaves a file that opens, lists exactly those keys before the failing
one that have a value, and reads each of them back as computed. -/
theorem C96_sequential {F : Type} (job : Method.Str → Except Err (Eval.RVal F Tensor)) (keys : List Method.Str)
    (hk : keys.Nodup) (hmeta : metadataKey ∉ keys) (stores : List (Method.Str × Tensor)) (e : Err)
    (h : Merge.sequential (Merge.fileJob job) keys = (stores, .raised e))
    (declared : Dict Key Meta) (recipe : Option (List Char)) (minBuf cap : ℕ) (as : List Action) (s : State) (file : Bytes)
    (hrun : run (init declared recipe minBuf cap) as = some s) (hq : Quiescent s) (hstores : stored as = stores)
    (hc : Complete declared recipe minBuf cap (stored as)) (hclose : close s = .ok file)
    (hwf : ∀ k t, k ∈ keys → job k = .ok (.tensor t) → Tensor.WF t)
    (bs rcap : ℕ) (hbs : bs ≤ rcap) (hrc : ∀ k t, k ∈ keys → job k = .ok (.tensor t) → t.bytes.length ≤ rcap) :
    ∃ pre k post, keys = pre ++ k :: post ∧ Merge.fileJob job k = .error e ∧ e ≠ .stateDictKey ∧
      ∃ s0, StreamIn.open_ file bs rcap = .ok s0 ∧
        (∀ x, x ∈ StreamIn.keys s0 ↔ x ∈ pre ∧ ∃ t, job x = .ok (.tensor t)) ∧
        ∀ x t, x ∈ pre → job x = .ok (.tensor t) → ∀ history : List Key, ∃ s1 v,
          StreamIn.getItem (StreamIn.run s0 (history.map .load)).st x = (s1, .ok v) ∧
          v.dtype = t.dtype ∧ v.shape = t.shape ∧ s1.read v = t.bytes := by
  have hfile : ∀ k t, Merge.fileJob job k = .ok t ↔ job k = .ok (.tensor t) := by
    intro k t
    unfold Merge.fileJob
    split <;> simp_all
  -- the assignments are those of the keys before the failing one
  have hseq : ∀ (keys : List Method.Str) (stores : List (Method.Str × Tensor)),
      Merge.sequential (Merge.fileJob job) keys = (stores, .raised e) →
      ∃ pre k post, keys = pre ++ k :: post ∧ Merge.fileJob job k = .error e ∧ e ≠ .stateDictKey ∧
        (∀ x t, (x, t) ∈ stores ↔ x ∈ pre ∧ Merge.fileJob job x = .ok t) ∧
        (stores.map (·.1)).Sublist pre := by
    intro keys
    induction keys with
    | nil => intro stores h; simp [Merge.sequential] at h
    | cons k keys ih =>
      intro stores h
      unfold Merge.sequential at h
      cases hj : Merge.fileJob job k with
      | ok t =>
        rw [hj] at h
        simp only [Merge.track, Prod.mk.injEq] at h
        obtain ⟨h1, h2⟩ := h
        obtain ⟨pre, k', post, e1, e2, e3, e4, e5⟩ := ih (Merge.sequential (Merge.fileJob job) keys).1 (by rw [← h2])
        refine ⟨k :: pre, k', post, by rw [e1]; rfl, e2, e3, ?_, ?_⟩
        · intro x t'
          rw [← h1]
          simp only [List.mem_cons, Prod.mk.injEq, e4]
          constructor
          · rintro (⟨rfl, rfl⟩ | ⟨h, h'⟩)
            · exact ⟨Or.inl rfl, hj⟩
            · exact ⟨Or.inr h, h'⟩
          · rintro ⟨rfl | h, h'⟩
            · rw [hj] at h'
              exact Or.inl ⟨rfl, (Except.ok.inj h').symm⟩
            · exact Or.inr ⟨h, h'⟩
        · rw [← h1]
          exact e5.cons_cons k
      | error e' =>
        by_cases hs : e' = .stateDictKey
        · subst hs
          rw [hj] at h
          simp only [Merge.track] at h
          obtain ⟨pre, k', post, e1, e2, e3, e4, e5⟩ := ih stores h
          refine ⟨k :: pre, k', post, by rw [e1]; rfl, e2, e3, ?_, e5.cons k⟩
          intro x t'
          rw [e4, List.mem_cons]
          constructor
          · rintro ⟨h, h'⟩
            exact ⟨Or.inr h, h'⟩
          · rintro ⟨rfl | h, h'⟩
            · rw [hj] at h'; cases h'
            · exact ⟨h, h'⟩
        · have ht : Merge.track (V := Tensor) (.error e') = (none, some e') := by
            unfold Merge.track
            split
            · rename_i heq; cases heq
            · rename_i heq; cases heq; exact absurd rfl hs
            · rename_i heq; cases heq; rfl
          rw [hj, ht] at h
          simp only [Prod.mk.injEq, Merge.Outcome.raised.injEq] at h
          obtain ⟨rfl, rfl⟩ := h
          exact ⟨[], k, keys, rfl, hj, hs, by simp, .slnil⟩
  obtain ⟨pre, k, post, e1, e2, e3, e4, e5⟩ := hseq keys stores h
  refine ⟨pre, k, post, e1, e2, e3, ?_⟩
  have hpre : ∀ x ∈ pre, x ∈ keys := fun x hx => by rw [e1]; simp [hx]
  have hsub : ∀ x, x ∈ (stored as).map (·.1) → x ∈ pre := by
    rw [hstores]; exact fun x hx => e5.subset hx
  have hmem : ∀ p ∈ stored as, p.1 ∈ keys ∧ job p.1 = .ok (.tensor p.2) := by
    rintro ⟨x, t⟩ hp
    rw [hstores, e4, hfile] at hp
    exact ⟨hpre x hp.1, hp.2⟩
  obtain ⟨s0, h1, h2, _, h4⟩ := C05_readback declared recipe minBuf cap as s file hrun hq hc hclose
    (by
      rw [hstores]
      have : pre.Nodup := by rw [e1] at hk; exact (List.nodup_append.1 hk).1
      exact this.sublist e5)
    (fun hm => hmeta (hpre _ (hsub _ hm))) (fun p hp => hwf p.1 p.2 (hmem p hp).1 (hmem p hp).2) bs rcap hbs
    (fun p hp => hrc p.1 p.2 (hmem p hp).1 (hmem p hp).2)
  refine ⟨s0, h1, fun x => (h2 x).trans ?_, ?_⟩
  · rw [hstores, List.mem_map]
    constructor
    · rintro ⟨⟨x', t⟩, hp, rfl⟩
      rw [e4, hfile] at hp
      exact ⟨hp.1, t, hp.2⟩
    · rintro ⟨hx, t, ht⟩
      exact ⟨(x, t), (e4 x t).2 ⟨hx, (hfile x t).2 ht⟩, rfl⟩
  · intro x t hx ht history
    exact h4 (x, t) (by rw [hstores, e4, hfile]; exact ⟨hx, ht⟩) history

/-! ## With threads -/

/-- The main thread raises while a worker is still running a key. -/
theorem C96_running :
    ∃ (job : Method.Str → Except Err ℕ) (keys : List Method.Str) (s : Merge.State ℕ),
      Merge.Spec.Steps 2 job (Merge.init keys) s ∧ s.raising = some (.other 3) ∧ s.running ≠ [] := by
  refine ⟨Merge.exJob, ["boom".toList, "a".toList],
    ⟨[], [], ["a".toList], [("boom".toList, some (.other 3))], [], some (.other 3)⟩, ?_, rfl, by decide⟩
  have s1 := (Merge.Spec.Steps.refl (n := 2) (job := Merge.exJob) (Merge.init ["boom".toList, "a".toList])).step (.submit _ _ _ rfl)
  have s2 := s1.step (.submit _ _ _ rfl)
  have s4 := s2.step (.start _ _ _ rfl (by decide))
  have s5 := s4.step (.start _ _ _ rfl (by decide))
  have s6 := s5.step (.finish _ "boom".toList (by decide))
  exact s6.step (.fail _ "boom".toList (.other 3) rfl rfl (by decide))

/-- **C96 (partial).**  If the workers stand still while the output is closed, and none of them stands between flushing its buffer and
listing it in the header, the file opens, lists exactly what was stored completely (what a thread waiting for the lock was about to store
is missing) and reads it back.  Missing: workers that go on during `close`; see the negations below. -/
theorem C96_closed_partial (declared : Dict Key Meta) (recipe : Option (List Char)) (minBuf cap : ℕ) (as : List Action) (s : State)
    (hrun : run (init declared recipe minBuf cap) as = some s) (hl : Listed s)
    (hc : Complete declared recipe minBuf cap (stored as))
    (acts : List CAction) (ha : ∀ a ∈ acts, a = .main) (out : State) (file : Bytes)
    (hclose : crun (startClose s) acts = some ⟨out, .closed (.ok file)⟩)
    (hdistinct : ((stored as).map (·.1)).Nodup) (hmeta : metadataKey ∉ (stored as).map (·.1))
    (hwf : ∀ p ∈ stored as, Tensor.WF p.2)
    (bs rcap : ℕ) (hbs : bs ≤ rcap) (hrc : ∀ p ∈ stored as, p.2.bytes.length ≤ rcap) :
    Holds file ((stored as).filter fun p => p ∉ waiting s) bs rcap := by
  have hcl : close s = .ok file := (alone (threads_nodup hrun hc) ha hclose).symm
  obtain ⟨Lg, h, hb, hp, F⟩ := listed_facts hrun hl hc hcl
  have hkp := hp.map (·.1)
  rw [List.map_append] at hkp
  have hnd : (Lg.map (·.1) ++ (waiting s).map (·.1)).Nodup := hkp.nodup_iff.1 hdistinct
  have hd := (List.nodup_append.1 hnd).2.2
  have hmemL : ∀ p, p ∈ (stored as).filter (fun p => p ∉ waiting s) ↔ p ∈ Lg := by
    intro p
    rw [List.mem_filter, hp.mem_iff, List.mem_append]
    simp only [decide_eq_true_eq]
    constructor
    · rintro ⟨h | h, h'⟩
      · exact h
      · exact absurd h h'
    · intro h
      exact ⟨Or.inl h, fun hw => hd p.1 (List.mem_map.2 ⟨p, h, rfl⟩) p.1 (List.mem_map.2 ⟨p, hw, rfl⟩) rfl⟩
  have hst : ∀ p ∈ Lg, p ∈ stored as := fun p hx => hp.mem_iff.2 (List.mem_append_left _ hx)
  obtain ⟨s0, h1, h2, _, h4⟩ := F.readback (List.nodup_append.1 hnd).1
    (fun hm => hmeta (hkp.mem_iff.2 (List.mem_append_left _ hm)))
    (fun p hx => hwf p (hst p hx)) bs rcap hbs (fun p hx => hrc p (hst p hx))
  refine ⟨s0, h1, fun k => (h2 k).trans ?_, fun p hx => h4 p ((hmemL p).1 hx)⟩
  simp only [List.mem_map, hmemL]

/-- An execution of `close` in which only the main thread runs exists, so the hypothesis above can be met: `close` runs to its end. -/
theorem C96_close_ends (s : State) (hnd : s.threads.keys.Nodup) :
    ∃ acts out, (∀ a ∈ acts, a = CAction.main) ∧ crun (startClose s) acts = some ⟨out, .closed (close s)⟩ := by
  have key : ∀ (rest : List ℕ) (c : State), (∀ t ∈ rest, ∃ ts, c.threads.get? t = some ts) →
      ∃ acts out r, (∀ a ∈ acts, a = CAction.main) ∧
        crun ⟨c, .next c.threads.length rest⟩ acts = some ⟨out, .closed r⟩ := by
    intro rest
    induction rest with
    | nil =>
      intro c _
      exact ⟨[.main], c, finishFile c, by simp, by simp [crun, cstep, mainStep]⟩
    | cons tid rest ih =>
      intro c hin
      obtain ⟨ts, hts⟩ := hin tid (by simp)
      -- the state after the three steps of this thread
      have hlen : ∀ x y : TState, ((c.threads.set tid x).set tid y).length = c.threads.length := by
        intro x y
        rw [length_set (Dict.get?_set_self c.threads tid x), length_set hts]
      obtain ⟨acts, out, r, h1, h2⟩ := ih
        { c with
          file := rawWrite c.cap c.file (ts.buffer.take ts.used)
          flushedSize := c.flushedSize + ts.used
          header := c.header.update (globalSub c.flushedSize ts.sub)
          threads := (c.threads.set tid { ts with used := 0 }).set tid ⟨[], 0, [], ts.pc⟩ }
        (by
          intro t ht
          by_cases he : tid = t
          · subst he; exact ⟨_, Dict.get?_set_self _ _ _⟩
          · obtain ⟨x, hx⟩ := hin t (by simp [ht])
            exact ⟨x, by rw [Dict.get?_set_ne _ _ he, Dict.get?_set_ne _ _ he, hx]⟩)
      refine ⟨.main :: .main :: .main :: acts, out, r, ?_, ?_⟩
      · intro a ha
        simp only [List.mem_cons] at ha
        rcases ha with rfl | rfl | rfl | ha
        · rfl
        · rfl
        · rfl
        · exact h1 a ha
      · rw [hlen] at h2
        simp only [crun, cstep, mainStep, hts, Option.bind_some, ne_eq, not_true_eq_false, if_false,
          Dict.get?_set_self]
        exact h2
  obtain ⟨acts, out, r, h1, h2⟩ := key s.threads.keys s (by
    intro t ht
    obtain ⟨p, hp, rfl⟩ := List.mem_map.1 ht
    exact ⟨p.2, (Dict.get?_eq_some_iff hnd).2 hp⟩)
  refine ⟨acts, out, h1, ?_⟩
  rw [← alone hnd h1 h2]
  exact h2

/-- Thread 2 has stored `b`; thread 1 has stored `a` and waits for the lock with `c`. -/
def exWait : List Action :=
  [.begin 1 ['a'] (exT [1, 2, 3]), .begin 1 ['c'] (exT [7, 8]), .begin 2 ['b'] (exT [4, 5, 6])]

def exWaitS : State := (run (init exDeclared none 4 1000) exWait).getD (init exDeclared none 4 1000)

example : ∃ acts out file, (∀ a ∈ acts, a = CAction.main) ∧
    crun (startClose exWaitS) acts = some ⟨out, .closed (.ok file)⟩ ∧
    Holds file [(['a'], exT [1, 2, 3]), (['b'], exT [4, 5, 6])] 2 100 := by
  have hrun : run (init exDeclared none 4 1000) exWait = some exWaitS := by decide +kernel
  have hc : Complete exDeclared none 4 1000 (stored exWait) := ⟨by decide, by decide +kernel, by decide, by decide +kernel⟩
  obtain ⟨acts, out, h1, h2⟩ := C96_close_ends exWaitS (threads_nodup hrun hc)
  have hf : close exWaitS = .ok (match close exWaitS with | .ok f => f | .error _ => []) := by decide +kernel
  rw [hf] at h2
  have hl : Listed exWaitS := by
    have : exWaitS.threads.map (fun p => p.2.pc) = [.waitLock ['c'] (exT [7, 8]), .idle] := by decide +kernel
    intro p hp off k t h
    have hm : p.2.pc ∈ exWaitS.threads.map (fun p => p.2.pc) := List.mem_map.2 ⟨p, hp, rfl⟩
    rw [this, h] at hm
    simp at hm
  have := C96_closed_partial exDeclared none 4 1000 exWait exWaitS hrun hl hc acts h1 out _ h2 (by decide) (by decide) (by decide)
    2 100 (by decide) (by decide)
  have hw : (stored exWait).filter (fun p => p ∉ waiting exWaitS) = [(['a'], exT [1, 2, 3]), (['b'], exT [4, 5, 6])] := by
    decide +kernel
  rw [hw] at this
  exact ⟨acts, out, _, h1, h2, this⟩

/-! ## Where it goes wrong -/

/-- The file a finished `close` left behind -/
def fileOf (c : Option CState) : Bytes :=
  match c with
  | some ⟨_, .closed (.ok f)⟩ => f
  | _ => []

/-- Decidable form of `Corrupt` -/
theorem corrupt_of {file : Bytes} {k : Key} {t : Tensor} {v : StreamIn.View} {s0 : StreamIn.State}
    (h1 : StreamIn.open_ file 1000 1000 = .ok s0) (h2 : (StreamIn.getItem s0 k).2 = .ok v)
    (h3 : (StreamIn.getItem s0 k).1.read v ≠ t.bytes) : Corrupt file k t :=
  ⟨s0, _, v, h1, StreamIn.pair_of_snd _ _ h2, h3⟩

def openedOf (file : Bytes) : StreamIn.State :=
  match StreamIn.open_ file 1000 1000 with
  | .ok x => x
  | .error _ => StreamIn.exState 0 0

theorem opens_of {file : Bytes} (h : (match StreamIn.open_ file 1000 1000 with | .ok _ => true | .error _ => false) = true) :
    StreamIn.open_ file 1000 1000 = .ok (openedOf file) := by
  unfold openedOf
  cases ho : StreamIn.open_ file 1000 1000 with
  | ok x => rfl
  | error e => rw [ho] at h; cases h

/-- Thread 1 has flushed `a` to make room for `c` and is about to list it in the header; thread 2 has stored `b`. -/
def exFlush : List Action := exWait ++ [.locked 1]

def exFlushS : State := (run (init exDeclared none 4 1000) exFlush).getD (init exDeclared none 4 1000)

/-- **C96 is false of the code (1)**: a worker stands between flushing its buffer and listing it in the header.  Even if the workers do not
move during `close`, the file opens and `a`, which was stored completely, reads as the bytes of `b`. -/
theorem C96_flush_false :
    ∃ (declared : Dict Key Meta) (minBuf cap : ℕ) (as : List Action) (s out : State) (acts : List CAction) (file : Bytes),
      Complete declared none minBuf cap (stored as) ∧ run (init declared none minBuf cap) as = some s ∧
      (∀ a ∈ acts, a = .main) ∧ crun (startClose s) acts = some ⟨out, .closed (.ok file)⟩ ∧
      stored as = [(['a'], exT [1, 2, 3]), (['c'], exT [7, 8]), (['b'], exT [4, 5, 6])] ∧
      Corrupt file ['a'] (exT [1, 2, 3]) := by
  refine ⟨exDeclared, 4, 1000, exFlush, exFlushS, ((crun (startClose exFlushS) (List.replicate 7 .main)).getD (startClose exFlushS)).out,
    List.replicate 7 .main, fileOf (crun (startClose exFlushS) (List.replicate 7 .main)),
    ⟨by decide, by decide +kernel, by decide, by decide +kernel⟩, by decide +kernel, by decide, by decide +kernel, by decide,
    corrupt_of (v := ⟨.u8, [3], 1, 0, 3⟩) (opens_of (by decide +kernel)) (by decide +kernel) (by decide +kernel)⟩

/-- Thread 1 stores `a`, thread 2 stores `b`. -/
def exIdle : List Action := [.begin 1 ['a'] (exT [1, 2]), .begin 2 ['b'] (exT [4, 5, 6])]

def exIdleS : State := (run (init exDeclared none 4 1000) exIdle).getD (init exDeclared none 4 1000)

/-- `close` writes the buffer of thread 1; before it reads how much that was, thread 1 stores `c`. -/
def exLate : List CAction := .main :: .begin 1 ['c'] (exT [7, 8]) :: List.replicate 6 .main

/-- **C96 is false of the code (2)**: all workers are outside of `out[key] = value` when `close` begins, and one of them stores another
tensor while it runs.  The file opens, and reads the late tensor `c` as bytes of `b`. -/
theorem C96_late_false :
    ∃ (declared : Dict Key Meta) (minBuf cap : ℕ) (as : List Action) (s out : State) (acts : List CAction) (file : Bytes),
      Complete declared none minBuf cap (stored as) ∧ run (init declared none minBuf cap) as = some s ∧ Quiescent s ∧
      crun (startClose s) acts = some ⟨out, .closed (.ok file)⟩ ∧
      acts.filter (· ≠ .main) = [.begin 1 ['c'] (exT [7, 8])] ∧ Corrupt file ['c'] (exT [7, 8]) := by
  refine ⟨exDeclared, 4, 1000, exIdle, exIdleS, ((crun (startClose exIdleS) exLate).getD (startClose exIdleS)).out,
    exLate, fileOf (crun (startClose exIdleS) exLate),
    ⟨by decide, by decide +kernel, by decide, by decide +kernel⟩, by decide +kernel, by unfold Quiescent; decide +kernel,
    by decide +kernel, by decide,
    corrupt_of (v := ⟨.u8, [2], 1, 0, 2⟩) (opens_of (by decide +kernel)) (by decide +kernel) (by decide +kernel)⟩

/-- … and `b`, stored before `close` began, is listed beyond the end of the file. -/
theorem C96_late_beyond_false :
    ∃ (s : State) (acts : List CAction) (out : State) (file : Bytes) (s0 : StreamIn.State) (e : Entry),
      run (init exDeclared none 4 1000) exIdle = some s ∧ Quiescent s ∧
      crun (startClose s) acts = some ⟨out, .closed (.ok file)⟩ ∧ StreamIn.open_ file 1000 1000 = .ok s0 ∧
      s0.header.get? ['b'] = some (.tensor e) ∧ file.length < 8 + s0.headerSize + e.stop := by
  refine ⟨exIdleS, exLate, ((crun (startClose exIdleS) exLate).getD (startClose exIdleS)).out,
    fileOf (crun (startClose exIdleS) exLate), openedOf (fileOf (crun (startClose exIdleS) exLate)), ⟨.u8, [3], 4, 7⟩,
    by decide +kernel, by unfold Quiescent; decide +kernel, by decide +kernel, opens_of (by decide +kernel), by decide +kernel,
    by decide +kernel⟩

/-- **C96 is false of the code (3)**: a worker stores its first tensor while `close` runs.  `close` raises `RuntimeError` (the dict changed
its size), which replaces the error of the failing key, and the header is never written. -/
theorem C96_error_false :
    ∃ (declared : Dict Key Meta) (minBuf cap : ℕ) (as : List Action) (s out : State) (acts : List CAction),
      Complete declared none minBuf cap (stored as) ∧ run (init declared none minBuf cap) as = some s ∧ Quiescent s ∧
      crun (startClose s) acts = some ⟨out, .closed (.error .runtime)⟩ ∧
      acts.filter (· ≠ .main) = [.begin 3 ['c'] (exT [7, 8])] ∧
      ∃ e, StreamIn.open_ out.file.content 1000 1000 = .error e := by
  refine ⟨exDeclared, 4, 1000, exIdle, exIdleS,
    ((crun (startClose exIdleS) [.main, .begin 3 ['c'] (exT [7, 8]), .main, .main, .main]).getD (startClose exIdleS)).out,
    [.main, .begin 3 ['c'] (exT [7, 8]), .main, .main, .main],
    ⟨by decide, by decide +kernel, by decide, by decide +kernel⟩, by decide +kernel, by unfold Quiescent; decide +kernel,
    by decide +kernel, by decide, .value, ?_⟩
  have h : StreamIn.readHeader ((crun (startClose exIdleS) [.main, .begin 3 ['c'] (exT [7, 8]), .main, .main, .main]).getD
      (startClose exIdleS)).out.file.content = .error .value := by decide +kernel
  simp only [StreamIn.open_, h]
  rfl

/-- A failing merge without threads: `a` is stored, `x` is missing, `boom` fails, `b` is not reached. -/
def exFailJob (k : Method.Str) : Except Err (Eval.RVal ℕ Tensor) :=
  if k = "a".toList then .ok (.tensor (exT [1, 2, 3])) else if k = "b".toList then .ok (.tensor (exT [4, 5]))
  else if k = "boom".toList then .error (.other 3) else .error .stateDictKey

example : ∃ pre k post, ["x".toList, "a".toList, "boom".toList, "b".toList] = pre ++ k :: post ∧
    Merge.fileJob exFailJob k = .error (.other 3) := by
  have hf : close ((run (init exDeclared none 4 1000) [.begin 1 "a".toList (exT [1, 2, 3])]).getD (init exDeclared none 4 1000)) =
      .ok (match close ((run (init exDeclared none 4 1000) [.begin 1 "a".toList (exT [1, 2, 3])]).getD (init exDeclared none 4 1000)) with
        | .ok f => f | .error _ => []) := by decide +kernel
  have ht : ∀ k t, exFailJob k = .ok (.tensor t) → t = exT [1, 2, 3] ∨ t = exT [4, 5] := by
    intro k t h
    unfold exFailJob at h
    split_ifs at h <;> simp_all
  obtain ⟨pre, k, post, h1, h2, _⟩ := C96_sequential exFailJob ["x".toList, "a".toList, "boom".toList, "b".toList] (by decide) (by decide)
    [("a".toList, exT [1, 2, 3])] (.other 3) (by decide +kernel) exDeclared none 4 1000 [.begin 1 "a".toList (exT [1, 2, 3])] _ _
    (by decide +kernel) (by unfold Quiescent; decide +kernel) rfl ⟨by decide, by decide +kernel, by decide, by decide +kernel⟩ hf
    (by rintro k t - h; rcases ht k t h with rfl | rfl <;> decide) 2 100 (by decide)
    (by rintro k t - h; rcases ht k t h with rfl | rfl <;> decide)
  exact ⟨pre, k, post, h1, h2⟩

end Verif.FailedSave
