import Verif.Proofs.Reproducible
import Verif.Props.StreamOut
import Verif.Props.Whole

/-!
# Merging again gives the same file (C111)

`StreamOut.run`, `close` are the writer (Verif/Model/StreamOut.lean), `Saves` a call of `merge` that wrote a file (C99).  `IsFileOf` is the
one file of a list of tensors, `OneThread` says that all steps are taken by one thread (Verif/Spec/Reproducible.lean).
-/
namespace Verif.Reproducible
open StreamOut StreamOut.Spec Spec

/-- **C111 (the writer).**  The bytes that one thread leaves depend on nothing but what was announced, the recipe, and the tensors in the order of
storing: whatever the size of the buffer, they are the header with the tensors in that order, blanks, and the tensors one behind the other. -/
theorem C111_writer (declared : Dict Key Meta) (recipe : Option (List Char)) :
    ∃ reserved, ∀ (minBuf cap : ℕ) (as : List Action) (s : State) (file : Bytes),
      run (init declared recipe minBuf cap) as = some s → Quiescent s → Complete declared recipe minBuf cap (stored as) → OneThread as →
      ((stored as).map (·.1)).Nodup → metadataKey ∉ (stored as).map (·.1) → close s = .ok file →
      IsFileOf reserved recipe (stored as) file := by
  refine ⟨reservedSize declared recipe, fun minBuf cap as s file hrun hq hc hone hnd hm hclose => ?_⟩
  obtain ⟨hF, hh⟩ := serial_flat hrun hq hc hone hnd hm
  obtain ⟨h64, he⟩ := close_eq hF hc.eight hc.header hclose
  rw [hh] at h64 he
  have hlen : (encHeader (header recipe (stored as))).length = (Safetensors.headerText (header recipe (stored as))).length := by
    rw [Safetensors.encHeader_eq]; simp [asciiBytes]
  rw [hlen] at h64 he
  rw [Safetensors.encHeader_eq] at he
  rw [he]
  have hl := le64_length (max (reservedSize declared recipe) (Safetensors.headerText (header recipe (stored as))).length)
  refine ⟨?_, ?_, ?_⟩
  · rw [List.append_assoc, List.append_assoc, List.take_append_of_le_length (by omega), List.take_of_length_le (by omega),
      ← Safetensors.unle64_eq, unle64_le64 _ h64]
    omega
  · rw [List.append_assoc, List.append_assoc, List.drop_append_of_le_length (by omega), List.drop_of_length_le (by omega)]
    simp [bytesOf]
  · simp only [List.length_append, hl]; omega

/-- **C111 (the writer).**  Two threads that store the same tensors in the same order, one in each of two executions, leave the same bytes. -/
theorem C111_same (declared : Dict Key Meta) (recipe : Option (List Char)) (minBuf minBuf' cap cap' : ℕ) (as as' : List Action) (s s' : State)
    (file file' : Bytes) (hrun : run (init declared recipe minBuf cap) as = some s) (hrun' : run (init declared recipe minBuf' cap') as' = some s')
    (hq : Quiescent s) (hq' : Quiescent s') (hc : Complete declared recipe minBuf cap (stored as))
    (hc' : Complete declared recipe minBuf' cap' (stored as')) (hone : OneThread as) (hone' : OneThread as')
    (hnd : ((stored as).map (·.1)).Nodup) (hm : metadataKey ∉ (stored as).map (·.1)) (heq : stored as' = stored as)
    (hclose : close s = .ok file) (hclose' : close s' = .ok file') : file = file' := by
  obtain ⟨reserved, h⟩ := C111_writer declared recipe
  have h1 := h minBuf cap as s file hrun hq hc hone hnd hm hclose
  have h2 := h minBuf' cap' as' s' file' hrun' hq' hc' hone' (by rw [heq]; exact hnd) (by rw [heq]; exact hm) hclose'
  rw [heq] at h2
  exact isFile_unique h1 h2

/-- **C111 (the size).**  With any number of threads, files of the same announced tensors have the same length and a header of the same length. -/
theorem C111_size (declared : Dict Key Meta) (recipe : Option (List Char)) (minBuf minBuf' cap cap' : ℕ) (as as' : List Action) (s s' : State)
    (file file' : Bytes) (hrun : run (init declared recipe minBuf cap) as = some s) (hrun' : run (init declared recipe minBuf' cap') as' = some s')
    (hq : Quiescent s) (hq' : Quiescent s') (hc : Complete declared recipe minBuf cap (stored as))
    (hc' : Complete declared recipe minBuf' cap' (stored as')) (hdnd : declared.keys.Nodup) (hdm : metadataKey ∉ declared.keys)
    (hnd : ((stored as).map (·.1)).Nodup) (hwf : ∀ p ∈ stored as, Tensor.WF p.2)
    (hdecl : ∀ p ∈ stored as, declared.get? p.1 = some ⟨some p.2.shape, some p.2.dtype⟩) (hperm : (stored as').Perm (stored as))
    (hclose : close s = .ok file) (hclose' : close s' = .ok file') :
    file.length = file'.length ∧ file.take 8 = file'.take 8 := by
  have key : ∀ (minBuf cap : ℕ) (bs : List Action) (s : State) (file : Bytes), run (init declared recipe minBuf cap) bs = some s → Quiescent s →
      Complete declared recipe minBuf cap (stored bs) → (stored bs).Perm (stored as) → close s = .ok file →
      file.length = 8 + reservedSize declared recipe + (bytesOf (stored as)).length ∧ file.take 8 = le64 (reservedSize declared recipe) := by
    intro minBuf cap bs s file hrun hq hc hp hclose
    obtain ⟨Lg, hpL, hF⟩ := run_flat hrun hq hc
    have hL : (stored as).Perm Lg := hp.symm.trans hpL
    obtain ⟨h64, he⟩ := close_eq hF hc.eight hc.header hclose
    have hkeys : ∀ k ∈ (stored as).map (·.1), k ∈ declared.keys := by
      intro k hk
      obtain ⟨p, h1, rfl⟩ := List.mem_map.1 hk
      rw [← Dict.get?_isSome_iff, hdecl p h1]; rfl
    have hdL : (Lg.map (·.1)).Nodup := (hL.map _).nodup_iff.1 hnd
    have hmL : metadataKey ∉ Lg.map (·.1) := fun hx => hdm (hkeys _ ((hL.map _).mem_iff.2 hx))
    have hfit := header_fits (header_perm (recipe := recipe) hF.hnd hF.hmem hF.hcov hF.hkeep hdL hmL) hdnd hdm hdL
      (fun p h => hwf p (hL.mem_iff.2 h)) (fun p h => hdecl p (hL.mem_iff.2 h))
    have hb : (bytesOf Lg).length = (bytesOf (stored as)).length := by
      unfold bytesOf; exact (hL.flatMap_right _).length_eq.symm
    have hl := le64_length (max (reservedSize declared recipe) (encHeader ((s.threads.map (·.2)).foldl flushClose s).header).length)
    have hmax : max (reservedSize declared recipe) (encHeader ((s.threads.map (·.2)).foldl flushClose s).header).length
        = reservedSize declared recipe := by omega
    rw [hmax] at he hl
    rw [he]
    refine ⟨?_, ?_⟩
    · simp only [List.length_append, List.length_replicate, hl, hb]; omega
    · rw [List.append_assoc, List.append_assoc, List.take_append_of_le_length (by omega), List.take_of_length_le (by omega)]
  obtain ⟨a1, a2⟩ := key minBuf cap as s file hrun hq hc (List.Perm.refl _) hclose
  obtain ⟨b1, b2⟩ := key minBuf' cap' as' s' file' hrun' hq' hc' hperm hclose'
  exact ⟨by rw [a1, b1], by rw [a2, b2]⟩

/-- One thread stores what the two of `exActions` store. -/
def exSerial : List Action := [.begin 3 ['b'] (exT [4, 5, 6, 9, 9]), .begin 3 ['a'] (exT [1, 2, 3]), .begin 3 ['c'] (exT [7, 8])]

def exSerialState : State := (run (init exDeclared none 64 900) exSerial).getD (init exDeclared none 64 900)

def exSerialFile : Bytes := match close exSerialState with | .ok f => f | .error _ => []

example : exSerialFile.length = (exOutFile exDeclared).length ∧ exSerialFile.take 8 = (exOutFile exDeclared).take 8 :=
  C111_size exDeclared none 64 4 900 1000 exSerial exActions exSerialState _ _ _ (by decide +kernel) exRun
    (by unfold Quiescent; decide +kernel) exQuiet ⟨by decide, by decide +kernel, by decide, by decide +kernel⟩ exComplete (by decide) (by decide)
    (by decide) (by decide) (by decide) (by decide) (by decide +kernel) exClose

/-- The same with a buffer of six bytes, which is flushed once. -/
def exSmall : List Action :=
  [.begin 9 ['b'] (exT [4, 5, 6, 9, 9]), .begin 9 ['a'] (exT [1, 2, 3]), .locked 9, .finish 9, .begin 9 ['c'] (exT [7, 8])]

def exSmallState : State := (run (init exDeclared none 6 800) exSmall).getD (init exDeclared none 6 800)

def exSmallFile : Bytes := match close exSmallState with | .ok f => f | .error _ => []

example : exSmallFile = exSerialFile :=
  C111_same exDeclared none 6 64 800 900 exSmall exSerial exSmallState exSerialState _ _ (by decide +kernel) (by decide +kernel)
    (by unfold Quiescent; decide +kernel) (by unfold Quiescent; decide +kernel) ⟨by decide, by decide +kernel, by decide, by decide +kernel⟩
    ⟨by decide, by decide +kernel, by decide, by decide +kernel⟩ ⟨9, by decide⟩ ⟨3, by decide⟩ (by decide) (by decide) (by decide) (by decide +kernel) (by decide +kernel)

end Verif.Reproducible

namespace Verif.Merge
open Method Spec
variable {V : Type}

/-- While nothing was raised, one worker takes the keys in their order. -/
theorem one_in_order {keys : List Str} {job : Str → Except Err V} {s : State V} (h : Steps 1 job (init keys) s) :
    s.running.length ≤ 1 ∧ (s.raising = none → ∃ fin, fin ++ s.running ++ s.queue ++ s.toSubmit = keys ∧ s.stores = fin.filterMap (storeOf job)) := by
  generalize hs0 : init keys = s0 at h
  induction h with
  | refl =>
    subst hs0
    exact ⟨by simp [init], fun _ => ⟨[], by simp [init], rfl⟩⟩
  | step h h' ih =>
    obtain ⟨ih1, ih2⟩ := ih
    cases h' with
    | submit k ks hk =>
      refine ⟨ih1, fun hr => ?_⟩
      obtain ⟨fin, h1, h2⟩ := ih2 hr
      exact ⟨fin, by rw [hk] at h1; simpa using h1, h2⟩
    | start k q hk hn =>
      refine ⟨by rw [List.length_append, List.length_singleton]; omega, fun hr => ?_⟩
      obtain ⟨fin, h1, h2⟩ := ih2 hr
      exact ⟨fin, by rw [hk] at h1; simpa using h1, h2⟩
    | finish k hk =>
      rename_i t
      have hrun : t.running = [k] := by
        cases ht : t.running with
        | nil => rw [ht] at hk; cases hk
        | cons a l =>
          rw [ht] at ih1 hk
          have : l = [] := by
            rw [← List.length_eq_zero_iff]; simp only [List.length_cons] at ih1; omega
          subst this
          simp at hk
          rw [hk]
      refine ⟨by simp [hrun], fun hr => ?_⟩
      obtain ⟨fin, h1, h2⟩ := ih2 hr
      refine ⟨fin ++ [k], ?_, ?_⟩
      · rw [← h1, hrun]; simp
      · simp only [List.filterMap_append, storeOf, List.filterMap_cons, List.filterMap_nil]
        cases ht : (track (job k)).1 with
        | none => simp [h2]
        | some v => simp [h2]
    | see k h1 h2 h => exact ⟨ih1, ih2⟩
    | fail k e h1 h2 h => exact ⟨ih1, fun hr => by cases hr⟩
    | cancel k h1 h =>
      refine ⟨ih1, fun hr => ?_⟩
      have hr : _ = none := hr
      rw [hr] at h1; cases h1

/-- Assignments of a merge in one thread, of a pool or not, are made in the order of the keys. -/
theorem stores_in_order {n : ℕ} (hn : n ≤ 1) {job : Str → Except Err V} {keys : List Str} {stores : List (Str × V)}
    (h : Runs n job keys stores .returned) : stores = keys.filterMap (storeOf job) := by
  match n, hn, h with
  | 0, _, h =>
    have h : sequential job keys = (stores, .returned) := h
    clear * - h
    induction keys generalizing stores with
    | nil => simp [sequential] at h; subst h; rfl
    | cons k ks ih =>
      unfold sequential at h
      split at h
      · cases (Prod.mk.inj h).2
      · rename_i v ht
        have := ih (stores := (sequential job ks).1) (Prod.ext rfl (Prod.mk.inj h).2)
        rw [← (Prod.mk.inj h).1, this]
        simp [storeOf, ht]
      · rename_i ht
        rw [ih h]
        simp [storeOf, ht]
  | 1, _, h =>
    obtain ⟨s, hs, ho, rfl⟩ := h
    obtain ⟨_, h2⟩ := one_in_order hs
    obtain ⟨a, b, c, d⟩ := over_cases ho
    rcases d with ⟨_, d, _⟩ | ⟨e, d, _⟩
    · obtain ⟨fin, h3, h4⟩ := h2 d
      rw [a, b, c] at h3
      simp at h3
      rw [h4, h3]
    · cases d

end Verif.Merge

namespace Verif.Reproducible
open Method Recipe Config Eval Program Program.Spec Threads Threads.Spec Whole Spec
open StreamOut (Tensor)
variable {F : Type}

/-- What a worker computes for a key, when it writes to a file -/
theorem file_outcome (P : PWorld F Tensor) (r : Val F) (opened : Str → Option StreamIn.State) :
    outcome opened (fileProgram P r) = Merge.fileJob (eval (world P (stored opened)) r) := by
  funext k
  unfold outcome fileProgram Merge.fileJob
  rw [value_bind, program_value]
  cases eval (world P (stored opened)) r k with
  | error e => rfl
  | ok v => cases v <;> rfl

/-- **C111.**  The assignments of a merge without threads or with one are those of the keys of the recipe's config in their order. -/
theorem C111_order (P : PWorld F Tensor) (r : Val F) (opened : Str → Option StreamIn.State) (hop : Opened opened) (keys : List Str)
    (hk : keys.Nodup) (n : ℕ) (hn : n ≤ 1) (stores : List (Str × Tensor)) (h : Runs n (fileProgram P r) opened keys stores .returned) :
    stores = keys.filterMap fun k => match eval (world P (Threads.Spec.stored opened)) r k with | .ok (.tensor t) => some (k, t) | _ => none := by
  have : Merge.Spec.Runs n (Merge.fileJob (eval (world P (Threads.Spec.stored opened)) r)) keys stores .returned := by
    cases n with
    | zero =>
      have h : sequential (fileProgram P r) opened keys = (stores, .returned) := h
      rw [sequential_value hop keys (loaded_start opened), file_outcome] at h
      exact h
    | succ n =>
      obtain ⟨jobs, s, h1, h2, h3⟩ := h
      have := (inv_steps hk hop h1).2
      rw [file_outcome] at this
      exact ⟨s.base, this, h2, h3⟩
  rw [Merge.stores_in_order hn this]
  congr 1
  funext k
  unfold Merge.storeOf Merge.fileJob
  cases eval (world P (Threads.Spec.stored opened)) r k with
  | error e => cases e <;> rfl
  | ok v => cases v <;> rfl

/-- **C111 (merges).**  Merge the same recipe with the same options twice, without threads or with one, from input files that store the same
tensors: the two files written are equal byte by byte.  Buffer sizes, how the input files are laid out, and whether the one thread is the calling
thread make no difference.  (The thread that computes the tensors writes them, one after the other.) -/
theorem C111_merge (P : PWorld F Tensor) (N : Serialize.Num F) (o : Options F) (opened opened' : Str → Option StreamIn.State)
    (hop : Opened opened) (hop' : Opened opened') (hsame : ∀ p k, stored opened' p k = stored opened p k) (recipe : Val F) (n n' : ℕ)
    (hn : n ≤ 1) (hn' : n' ≤ 1) (file file' : Bytes) (m : Saves P N o opened recipe n file) (m' : Saves P N o opened' recipe n' file')
    (hone : OneThread m.actions) (hone' : OneThread m'.actions) (hw : StreamOut.Spec.stored m.actions = m.stores)
    (hw' : StreamOut.Spec.stored m'.actions = m'.stores) (hdecl : m'.declared = m.declared) (hmeta : metadataKey ∉ m.keys) :
    file = file' := by
  have hs : stored opened' = stored opened := by funext p k; exact hsame p k
  have ho : (m'.original, m'.merged) = (m.original, m.merged) := Except.ok.inj (m'.prepared.symm.trans m.prepared)
  obtain ⟨ho1, ho2⟩ := Prod.mk.inj ho
  have hk : m'.keys = m.keys := by
    have h1 := m'.planned
    rw [hs, ho2] at h1
    exact Except.ok.inj (h1.symm.trans m.planned)
  have ht : m'.text = m.text := by
    have h1 := m'.serialized
    rw [ho1] at h1
    exact Except.ok.inj (h1.symm.trans m.serialized)
  obtain ⟨_, cfg, _, p3⟩ := plan_ok m.planned
  have hnd : m.keys.Nodup := by rw [p3]; exact Merge.targetKeys_nodup _ _
  have s1 := C111_order P m.merged opened hop m.keys hnd n hn m.stores m.ran
  have s2 := C111_order P m'.merged opened' hop' m'.keys (by rw [hk]; exact hnd) n' hn' m'.stores m'.ran
  rw [hk, ho2, hs] at s2
  have hst : m'.stores = m.stores := s2.trans s1.symm
  have hkeys : m.stores.map (·.1) = m.keys.filter fun k => match eval (world P (stored opened)) m.merged k with | .ok (.tensor _) => true | _ => false := by
    rw [s1]
    clear * -
    induction m.keys with
    | nil => rfl
    | cons k ks ih =>
      rw [List.filterMap_cons, List.filter_cons]
      cases he : eval (world P (stored opened)) m.merged k with
      | error e => simpa using ih
      | ok v => cases v <;> simpa using ih
  have r' := m'.wrote
  have c' := m'.complete
  rw [hdecl, ht] at r' c'
  refine C111_same m.declared m.text m.minBuf m'.minBuf m.cap m'.cap m.actions m'.actions m.writer m'.writer file file' m.wrote r' m.quiet m'.quiet
    m.complete c' hone hone' ?_ ?_ (by rw [hw, hw', hst]) m.closed m'.closed
  · rw [hw, hkeys]; exact hnd.filter _
  · rw [hw, hkeys]; exact fun h => hmeta (List.mem_filter.1 h).1

/-! ## Examples: the merge of C99, with one thread and without -/

namespace Ex
open Whole.Ex

/-- The same file `f` read with a buffer of seven bytes. -/
def opened' (p : Str) : Option StreamIn.State := if p = "f".toList then some (StreamIn.exState 7 1000) else none

theorem opened'_ok : Opened opened' := by
  intro p s h
  unfold opened' at h
  split_ifs at h
  cases h
  exact ⟨StreamIn.exFile, 7, 1000, StreamIn.exOpen 7 1000, StreamIn.exValid 7 1000, by decide, StreamIn.exCap 7 1000 (by decide)⟩

theorem same (p k : Str) : stored opened' p k = stored Threads.Ex.opened p k := by
  unfold stored opened' Threads.Ex.opened
  split_ifs <;> rfl

/-- In the order of the config -/
def stores1 : List (Str × Tensor) := [("a".toList, StreamOut.exT [1, 2, 2]), ("c".toList, StreamOut.exT [2]), ("b".toList, StreamOut.exT [2, 0])]

theorem ran0 : Runs 0 (fileProgram P merged) Threads.Ex.opened keys stores1 .returned := by
  show sequential (fileProgram P merged) Threads.Ex.opened keys = (stores1, .returned)
  decide +kernel

def moves1 : List Threads.Ex.Move :=
  [.submit, .submit, .start] ++ List.replicate 10 (.job "a".toList) ++ [.submit, .start] ++ List.replicate 2 (.job "c".toList) ++ [.start, .job "b".toList] ++ keys.map .see

theorem ran1 : Runs 1 (fileProgram P merged) opened' keys stores1 .returned := by
  have h : (Threads.Ex.driveAll 1 (fileProgram P merged) (Threads.init keys opened' Threads.Ex.none_) moves1).map
      (fun t => (t.base.over, t.base.stores)) = some (some .returned, stores1) := by decide +kernel
  obtain ⟨t, ht, he⟩ := Option.map_eq_some_iff.1 h
  exact ⟨_, t, Threads.Ex.driveAll_steps moves1 (.refl _) ht, (Prod.mk.inj he).1, (Prod.mk.inj he).2⟩

/-- A buffer of two bytes: `a` does not fit, nor does `b` after `c`. -/
def actions0 : List StreamOut.Action :=
  [.begin 0 "a".toList (StreamOut.exT [1, 2, 2]), .locked 0, .finish 0, .begin 0 "c".toList (StreamOut.exT [2]), .locked 0, .finish 0,
   .begin 0 "b".toList (StreamOut.exT [2, 0]), .locked 0, .finish 0]

/-- A buffer of 100 bytes -/
def actions1 : List StreamOut.Action :=
  [.begin 5 "a".toList (StreamOut.exT [1, 2, 2]), .begin 5 "c".toList (StreamOut.exT [2]), .begin 5 "b".toList (StreamOut.exT [2, 0])]

def writerOf (b : ℕ) (as : List StreamOut.Action) : StreamOut.State :=
  (StreamOut.run (StreamOut.init declared (some text) b 10000) as).getD (StreamOut.init declared (some text) b 10000)

def fileOf (b : ℕ) (as : List StreamOut.Action) : Bytes := match StreamOut.close (writerOf b as) with | .ok f => f | .error _ => []

def saves0 : Saves P Serialize.Ex.num o Threads.Ex.opened recipe 0 (fileOf 2 actions0) where
  original := recipe
  merged := merged
  keys := keys
  stores := stores1
  prepared := prepared
  planned := planned
  ran := ran0
  text := some text
  declared := declared
  minBuf := 2
  cap := 10000
  actions := actions0
  writer := writerOf 2 actions0
  serialized := by decide +kernel
  wrote := by decide +kernel
  quiet := by unfold StreamOut.Spec.Quiescent; decide +kernel
  assigned := by decide +kernel
  complete := ⟨by decide, by decide +kernel, by decide, by decide +kernel⟩
  closed := by decide +kernel

def saves1 : Saves P Serialize.Ex.num o opened' recipe 1 (fileOf 100 actions1) where
  original := recipe
  merged := merged
  keys := keys
  stores := stores1
  prepared := prepared
  planned := by
    have : stored opened' = stored Threads.Ex.opened := by funext p k; exact same p k
    rw [this]; exact planned
  ran := ran1
  text := some text
  declared := declared
  minBuf := 100
  cap := 10000
  actions := actions1
  writer := writerOf 100 actions1
  serialized := by decide +kernel
  wrote := by decide +kernel
  quiet := by unfold StreamOut.Spec.Quiescent; decide +kernel
  assigned := by decide +kernel
  complete := ⟨by decide, by decide +kernel, by decide, by decide +kernel⟩
  closed := by decide +kernel

example : fileOf 2 actions0 = fileOf 100 actions1 :=
  C111_merge P Serialize.Ex.num o Threads.Ex.opened opened' Threads.Ex.opened_ok opened'_ok same recipe 0 1 (by decide) (by decide) _ _ saves0 saves1
    ⟨0, by decide⟩ ⟨5, by decide⟩ (by decide) (by decide) rfl (by decide)

example : ∃ reserved, IsFileOf reserved (some text) stores1 (fileOf 2 actions0) := by
  obtain ⟨r, h⟩ := C111_writer declared (some text)
  exact ⟨r, h 2 10000 actions0 _ _ saves0.wrote saves0.quiet saves0.complete ⟨0, by decide⟩ (by decide) (by decide) saves0.closed⟩

/-- The two threads of C99's example write in another order: `b` is stored by the thread that stored `a`. -/
def actions2 : List StreamOut.Action :=
  [.begin 1 "c".toList (StreamOut.exT [2]), .begin 2 "a".toList (StreamOut.exT [1, 2, 2]), .locked 2, .finish 2, .begin 2 "b".toList (StreamOut.exT [2, 0]), .locked 2, .finish 2]

def saves2 : Saves P Serialize.Ex.num o Threads.Ex.opened recipe 2 (fileOf 2 actions2) where
  original := recipe
  merged := merged
  keys := keys
  stores := Whole.Ex.stores
  prepared := prepared
  planned := planned
  ran := ran
  text := some text
  declared := declared
  minBuf := 2
  cap := 10000
  actions := actions2
  writer := writerOf 2 actions2
  serialized := by decide +kernel
  wrote := by decide +kernel
  quiet := by unfold StreamOut.Spec.Quiescent; decide +kernel
  assigned := by decide +kernel
  complete := ⟨by decide, by decide +kernel, by decide, by decide +kernel⟩
  closed := by decide +kernel

end Ex

/-- With two threads, as by default, the same call can write different files: same recipe, options, inputs and buffer size, and even the same order
of assignments.  (They differ in the order of the tensors only: C99, `C111_size`.) -/
theorem C111_threads_false :
    ¬ ∀ (P : PWorld (Option Int) Tensor) (N : Serialize.Num (Option Int)) (o : Options (Option Int)) (opened : Str → Option StreamIn.State)
      (recipe : Val (Option Int)) (file file' : Bytes) (m : Saves P N o opened recipe 2 file) (m' : Saves P N o opened recipe 2 file'), Opened opened →
      m.minBuf = m'.minBuf → m.cap = m'.cap → m.declared = m'.declared → m.stores = m'.stores →
      StreamOut.Spec.stored m.actions = m.stores → StreamOut.Spec.stored m'.actions = m'.stores → file = file' := by
  intro h
  have := h Whole.Ex.P Serialize.Ex.num Whole.Ex.o Threads.Ex.opened Whole.Ex.recipe _ _ Whole.Ex.saves Ex.saves2 Threads.Ex.opened_ok rfl rfl rfl rfl
    (by decide) (by decide)
  have hne : Whole.Ex.file ≠ Ex.fileOf 2 Ex.actions2 := by decide +kernel
  exact hne this

end Verif.Reproducible
