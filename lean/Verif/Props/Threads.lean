import Verif.Proofs.Threads
import Verif.Props.Merge

/-!
# Merging from files with several threads (C98)

`Runs n start opened keys stores o`: a merge of the keys with `n` threads, each key computed by the program `start key`, can end with
outcome `o` after the assignments `stores`; threads interleave at every statement of a load.  `program P r` is the program of a recipe and
`stored opened` says what the files store.
-/
namespace Verif.Threads
open Method Recipe Config Eval Program Program.Spec Spec
open StreamOut (Tensor)
variable {F V : Type}

/-- **C98.**  However the threads interleave, a merge from files makes the assignments, and ends with the outcome, of a merge in which each
key has the value that evaluation of the recipe gives on what the files store.  (What these are, see C29 and C30.) -/
theorem C98_threads (P : PWorld F Tensor) (r : Val F) (opened : Str → Option StreamIn.State) (hop : Opened opened) (keys : List Str)
    (hk : keys.Nodup) (n : ℕ) (stores : List (Str × RVal F Tensor)) (o : Merge.Outcome)
    (h : Runs n (program P r) opened keys stores o) :
    Merge.Spec.Runs n (eval (world P (stored opened)) r) keys stores o := by
  have hout : outcome opened (program P r) = eval (world P (stored opened)) r := by
    funext k; exact program_value (stored opened) P r k
  cases n with
  | zero =>
    have h : sequential (program P r) opened keys = (stores, o) := h
    rw [sequential_value hop keys (loaded_start opened), hout] at h
    exact h
  | succ n =>
    obtain ⟨jobs, s, h1, h2, h3⟩ := h
    have := (inv_steps hk hop h1).2
    rw [hout] at this
    exact ⟨s.base, this, h2, h3⟩

/-- **C98.**  At any moment of any execution, every tensor that was loaded from a file so far holds what the file stores, also while other
threads are in the middle of loads from the same file. -/
theorem C98_tensors (P : PWorld F Tensor) (r : Val F) (opened : Str → Option StreamIn.State) (hop : Opened opened) (keys : List Str)
    (hk : keys.Nodup) (n : ℕ) (jobs : Str → Job (RVal F Tensor)) (s : TState (RVal F Tensor))
    (h : Steps n (program P r) (init keys opened jobs) s) (p : Str) (key : Key) (v : StreamIn.View) (hv : (p, key, v) ∈ s.handed) :
    ∃ fs s0 e, s.files p = some fs ∧ opened p = some s0 ∧ s0.header.get? key = some (.tensor e) ∧
      (⟨v.dtype, v.shape, fs.st.read v⟩ : Tensor) = Overwrite.Spec.tensorAt s0.file s0.headerSize e := by
  obtain ⟨⟨hist, hI⟩, _⟩ := inv_steps hk hop h
  obtain ⟨s0, e, h1, h2, h3, h4⟩ := hI.views p key v hv
  obtain ⟨fs, a, b, c⟩ := hI.file p s0 h1
  refine ⟨fs, s0, e, a, h1, h2, ?_⟩
  have hpre : (now s0 (hist p)).heap <+: fs.st.heap := by
    cases hl : fs.lock with
    | none => rw [b hl]; exact List.prefix_rfl
    | some k =>
      obtain ⟨_, _, _, e', _, _, _, _, hm⟩ := c k hl
      exact hm.heap
  rw [StreamIn.read_of_prefix hpre v h3]
  exact h4

/-- **C98.**  Threads never block each other for good: an execution can continue until it is over, and it has at most nine steps for each
load besides the `4 * number of keys + 1` of `C29_terminates`. -/
theorem C98_ends (P : PWorld F Tensor) (r : Val F) (opened : Str → Option StreamIn.State) (hop : Opened opened) (keys : List Str)
    (hk : keys.Nodup) (n : ℕ) (hn : 0 < n) (jobs : Str → Job (RVal F Tensor)) :
    (∀ s, Steps n (program P r) (init keys opened jobs) s → s.base.over = none → ∃ t, Step n (program P r) s t) ∧
    ¬ ∃ f : ℕ → TState (RVal F Tensor), f 0 = init keys opened jobs ∧
      ∀ i, i ≤ 4 * keys.length + 1 + (keys.map fun k => 9 * loads (stored opened) (program P r k)).sum → Step n (program P r) (f i) (f (i + 1)) := by
  refine ⟨fun s hs ho => progress hk hop hn hs ho, ?_⟩
  rintro ⟨f, h0, hs⟩
  generalize hB : 4 * keys.length + 1 + (keys.map fun k => 9 * loads (stored opened) (program P r k)).sum = B at hs
  have hle : ∀ i, i ≤ B + 1 → Steps n (program P r) (init keys opened jobs) (f i) ∧ measure opened (program P r) (f i) + i ≤ B := by
    intro i
    induction i with
    | zero =>
      intro _
      rw [h0]
      refine ⟨.refl _, ?_⟩
      rw [← hB]
      simp [measure, init, Merge.init, Merge.left]
    | succ i ih =>
      intro hi
      obtain ⟨h1, h2⟩ := ih (by omega)
      have h3 := hs i (by omega)
      obtain ⟨⟨hist, hI⟩, _⟩ := inv_steps hk hop h1
      have := measure_step hI hop h3
      exact ⟨h1.step h3, by omega⟩
  have := (hle (B + 1) (Nat.le_refl _)).2
  omega

/-- What is assigned to a file: what is not a tensor has no `untyped_storage` (streaming.py:212-235, 337-339), see `Merge.fileJob`. -/
def fileProgram (P : PWorld F Tensor) (r : Val F) (k : Str) : Prog Tensor (Except Err Tensor) :=
  (program P r k).bind fun
    | .ok (.tensor t) => .ret (.ok t)
    | .ok _ => .ret (.error .attribute)
    | .error e => .ret (.error e)

/-- **C98** from files to a file: any recipe, any number of threads, any interleaving of their loads and any of their writes.  If the merge
returns, the file opens, lists exactly the keys for which the recipe has a value on what the files store, and each reads back as it. -/
theorem C98_file (P : PWorld F Tensor) (r : Val F) (opened : Str → Option StreamIn.State) (hop : Opened opened) (keys : List Str)
    (hk : keys.Nodup) (hmeta : metadataKey ∉ keys) (n : ℕ) (stores : List (Str × Tensor))
    (h : Runs n (fileProgram P r) opened keys stores .returned)
    (declared : Dict Key StreamOut.Meta) (recipe : Option (List Char)) (minBuf cap : ℕ) (as : List StreamOut.Action) (w : StreamOut.State)
    (file : Bytes) (hrun : StreamOut.run (StreamOut.init declared recipe minBuf cap) as = some w) (hq : StreamOut.Spec.Quiescent w)
    (hstores : (StreamOut.Spec.stored as).Perm stores)
    (hc : StreamOut.Spec.Complete declared recipe minBuf cap (StreamOut.Spec.stored as)) (hclose : StreamOut.close w = .ok file)
    (hwf : ∀ k t, k ∈ keys → eval (world P (stored opened)) r k = .ok (.tensor t) → StreamOut.Spec.Tensor.WF t)
    (bs rcap : ℕ) (hbs : bs ≤ rcap) (hrc : ∀ k t, k ∈ keys → eval (world P (stored opened)) r k = .ok (.tensor t) → t.bytes.length ≤ rcap) :
    ∃ s0, StreamIn.open_ file bs rcap = .ok s0 ∧
      (∀ k, k ∈ StreamIn.keys s0 ↔ k ∈ keys ∧ ∃ t, eval (world P (stored opened)) r k = .ok (.tensor t)) ∧
      s0.header.get? metadataKey = some (.metadata (recipe.map fun text => ("mecha_recipe".toList, text)).toList) ∧
      ∀ k t, k ∈ keys → eval (world P (stored opened)) r k = .ok (.tensor t) → ∀ history : List Key, ∃ s1 v,
        StreamIn.getItem (StreamIn.run s0 (history.map .load)).st k = (s1, .ok v) ∧
        v.dtype = t.dtype ∧ v.shape = t.shape ∧ s1.read v = t.bytes := by
  have hout : outcome opened (fileProgram P r) = Merge.fileJob (eval (world P (stored opened)) r) := by
    funext k
    unfold outcome fileProgram Merge.fileJob
    rw [value_bind, program_value]
    cases eval (world P (stored opened)) r k with
    | error e => rfl
    | ok v => cases v <;> rfl
  refine Merge.C67_file (eval (world P (stored opened)) r) keys hk hmeta n stores ?_ declared recipe minBuf cap as w file hrun hq hstores hc
    hclose hwf bs rcap hbs hrc
  cases n with
  | zero =>
    have h : sequential (fileProgram P r) opened keys = (stores, .returned) := h
    rw [sequential_value hop keys (loaded_start opened), hout] at h
    exact h
  | succ n =>
    obtain ⟨jobs, s, h1, h2, h3⟩ := h
    have := (inv_steps hk hop h1).2
    rw [hout] at this
    exact ⟨s.base, this, h2, h3⟩

/-! ## An execution

The model `f` holds `a` = [1,2,3] and `b` = [4,5].  The recipe joins each tensor with the tensor that `f` has for the key `b`: for `a` that
is [1,2,3,4,5], for `b` it is [4,5,4,5].  Two threads interleave statement by statement. -/

namespace Ex

/-- `join(a, b)`: the bytes of both -/
def join : Source ℕ Tensor where
  types := ⟨[.val .tensor, .val .tensor], none, []⟩
  body args _ _ :=
    match args with
    | [.val (.tensor a), .val (.tensor b)] => .done (.ok (.tensor ⟨a.dtype, [a.bytes.length + b.bytes.length], a.bytes ++ b.bytes⟩))
    | _ => .done (.error .type)

/-- `always_b(sd)`: `sd["b"]` -/
def alwaysB : Source ℕ Tensor where
  types := ⟨[.sd .tensor], none, []⟩
  body _ _ _ := .ask (.pos 0) "b".toList .done

def cfg : ModelConfig := ⟨"t-c".toList, [("main".toList, [("a".toList, ⟨none, none, [], false⟩), ("b".toList, ⟨none, none, [], false⟩)])]⟩

def P : PWorld ℕ Tensor where
  env := ⟨[("join".toList, ⟨[("a".toList, plain), ("b".toList, plain)], none, [], [], [], .none, none⟩),
    ("always_b".toList, ⟨[("a".toList, plain)], none, [], [], [], .none, none⟩)], ["t-c".toList], allSpaces, id⟩
  conv := ⟨fun _ => .error .value, fun _ => .error .value, fun _ => .error .type⟩
  tensors := fun _ => ⟨.u8, [0], []⟩
  configs c := if c = "t-c".toList then some cfg else none
  source m := if m = "join".toList then join else alwaysB

def f : Val ℕ := .model "f".toList (some "t-c".toList) (some "weight".toList)

def r : Val ℕ := .merge "join".toList [f, .merge "always_b".toList [f] []] []

def opened (p : Str) : Option StreamIn.State := if p = "f".toList then some (StreamIn.exState 2 1000) else none

theorem opened_ok : Opened opened := by
  intro p s h
  unfold opened at h
  split_ifs at h
  cases h
  exact ⟨StreamIn.exFile, 2, 1000, StreamIn.exOpen 2 1000, StreamIn.exValid 2 1000, by decide, StreamIn.exCap 2 1000 (by decide)⟩

/-- Choices of a schedule -/
inductive Move where
  | submit | start
  | job (k : Str)
  | see (k : Str)

/-- The step that a choice makes, if it is possible -/
def drive (n : ℕ) (start : Str → Prog Tensor (Except Err V)) (s : TState V) : Move → Option (TState V)
  | .submit => match s.base.toSubmit with
    | [] => none
    | k :: ks => some { s with base := { s.base with toSubmit := ks, queue := s.base.queue ++ [k] } }
  | .start => match s.base.queue with
    | [] => none
    | k :: q => if s.base.running.length < n then some { s with
        base := { s.base with queue := q, running := s.base.running ++ [k] }
        jobs := setJob s.jobs k ⟨start k, .idle⟩ } else none
  | .see k => if s.base.toSubmit = [] ∧ s.base.raising = none ∧ (k, none) ∈ s.base.done then
      some { s with base := { s.base with done := s.base.done.erase (k, none) } } else none
  | .job k => if k ∈ s.base.running then
      match (s.jobs k).prog with
      | .ret r => some { s with
          base := { s.base with
            running := s.base.running.erase k
            done := s.base.done ++ [(k, (Merge.track r).2)]
            stores := match (Merge.track r).1 with | some v => s.base.stores ++ [(k, v)] | none => s.base.stores } }
      | .load p key next =>
        match s.files p with
        | none => some { s with jobs := setJob s.jobs k ⟨next (.error .type), .idle⟩ }
        | some fs =>
          match loadStep k key fs (s.jobs k).pc with
          | none => none
          | some (fs', .go pc) => some { s with jobs := setJob s.jobs k ⟨(s.jobs k).prog, pc⟩, files := setFile s.files p fs' }
          | some (fs', .made v pc) => some { s with
              jobs := setJob s.jobs k ⟨(s.jobs k).prog, pc⟩, files := setFile s.files p fs', handed := s.handed ++ [(p, key, v)] }
          | some (fs', .answer r) => some { s with jobs := setJob s.jobs k ⟨next r, .idle⟩, files := setFile s.files p fs' }
      else none

theorem drive_step {n : ℕ} {start : Str → Prog Tensor (Except Err V)} {s t : TState V} {m : Move} (h : drive n start s m = some t) :
    Step n start s t := by
  cases m with
  | submit =>
    simp only [drive] at h
    split at h
    · cases h
    · rename_i k ks hk
      rw [← Option.some.inj h]
      exact .submit s k ks hk
  | start =>
    simp only [drive] at h
    split at h
    · cases h
    · rename_i k ks hk
      split_ifs at h with hn
      rw [← Option.some.inj h]
      exact .start s k ks hk hn
  | see k =>
    simp only [drive] at h
    split_ifs at h with hn
    rw [← Option.some.inj h]
    exact .see s k hn.1 hn.2.1 hn.2.2
  | job k =>
    simp only [drive] at h
    split_ifs at h with hk
    split at h
    · rename_i r hp
      rw [← Option.some.inj h]
      exact .finish s k r hk hp
    · rename_i p key next hp
      split at h
      · rename_i hf
        rw [← Option.some.inj h]
        exact .closed s k p key next hk hp hf
      · rename_i fs hf
        split at h
        · cases h
        · rename_i fs' pc hl
          rw [← Option.some.inj h]
          exact .goes s k p key next fs fs' pc hk hp hf hl
        · rename_i fs' v pc hl
          rw [← Option.some.inj h]
          exact .makes s k p key next fs fs' v pc hk hp hf hl
        · rename_i fs' r hl
          rw [← Option.some.inj h]
          exact .answers s k p key next fs fs' r hk hp hf hl

def driveAll (n : ℕ) (start : Str → Prog Tensor (Except Err V)) : TState V → List Move → Option (TState V)
  | s, [] => some s
  | s, m :: ms => (drive n start s m).bind fun t => driveAll n start t ms

theorem driveAll_steps {n : ℕ} {start : Str → Prog Tensor (Except Err V)} {s0 : TState V} (ms : List Move) :
    ∀ {s t : TState V}, Steps n start s0 s → driveAll n start s ms = some t → Steps n start s0 t := by
  induction ms with
  | nil => intro s t hs h; rw [← Option.some.inj h]; exact hs
  | cons m ms ih =>
    intro s t hs h
    simp only [driveAll] at h
    cases hd : drive n start s m with
    | none => rw [hd] at h; cases h
    | some u =>
      rw [hd] at h
      exact ih (hs.step (drive_step hd)) h

def a : Move := .job "a".toList
def b : Move := .job "b".toList

/-- `a` holds the lock when `b` starts; then they go on in turns, whenever they are not kept waiting. -/
def mixed : List Move :=
  [.submit, .start, a, a, a, a, a, .submit, .start, b, a, a, a, a, b, a, b, b, b, a, b]

def moves : List Move :=
  mixed ++ [a, a, a, a, a, a, a, b, a, b, b, b, b, b, b, b, b, .see "b".toList, .see "a".toList]

def none_ {V : Type} : Str → Job V := fun _ => ⟨.ret (.error .type), .idle⟩

def keys : List Str := ["a".toList, "b".toList]

def start : TState (RVal ℕ Tensor) := init keys opened none_

def fileStart : TState Tensor := init keys opened none_

theorem keys_nodup : keys.Nodup := by decide

theorem steps (ms : List Move) (t : TState (RVal ℕ Tensor)) (h : driveAll 2 (program P r) start ms = some t) :
    Steps 2 (program P r) (init keys opened none_) t := driveAll_steps ms (.refl _) h

def stores : List (Str × Tensor) := [("a".toList, StreamOut.exT [1, 2, 3, 4, 5]), ("b".toList, StreamOut.exT [4, 5, 4, 5])]

theorem runs : Runs 2 (program P r) opened keys (stores.map fun q => (q.1, .tensor q.2)) .returned := by
  have h : (driveAll 2 (program P r) start moves).map (fun t => (t.base.over, t.base.stores)) =
      some (some .returned, stores.map fun q => (q.1, .tensor q.2)) := by decide +kernel
  obtain ⟨t, ht, he⟩ := Option.map_eq_some_iff.1 h
  exact ⟨_, t, steps moves t ht, (Prod.mk.inj he).1, (Prod.mk.inj he).2⟩

theorem file_runs : Runs 2 (fileProgram P r) opened keys stores .returned := by
  have h : (driveAll 2 (fileProgram P r) fileStart moves).map (fun t => (t.base.over, t.base.stores)) = some (some .returned, stores) := by
    decide +kernel
  obtain ⟨t, ht, he⟩ := Option.map_eq_some_iff.1 h
  exact ⟨_, t, driveAll_steps moves (.refl _) ht, (Prod.mk.inj he).1, (Prod.mk.inj he).2⟩

example : Merge.Spec.Runs 2 (eval (world P (Spec.stored opened)) r) keys (stores.map fun q => (q.1, .tensor q.2)) .returned :=
  C98_threads P r opened opened_ok keys keys_nodup 2 _ _ runs

/-- In the middle of the schedule: both jobs run, and one tensor was loaded by each. -/
example : ∃ t, Steps 2 (program P r) (init keys opened none_) t ∧ t.base.running = keys ∧ t.handed.length = 2 ∧
    ∀ p key v, (p, key, v) ∈ t.handed → ∃ fs s0 e, t.files p = some fs ∧ opened p = some s0 ∧ s0.header.get? key = some (.tensor e) ∧
      (⟨v.dtype, v.shape, fs.st.read v⟩ : Tensor) = Overwrite.Spec.tensorAt s0.file s0.headerSize e := by
  have h : (driveAll 2 (program P r) start mixed).map (fun t => (t.base.running, t.handed.length)) = some (keys, 2) := by decide +kernel
  obtain ⟨t, ht, he⟩ := Option.map_eq_some_iff.1 h
  have hs := steps mixed t ht
  exact ⟨t, hs, (Prod.mk.inj he).1, (Prod.mk.inj he).2, fun p key v => C98_tensors P r opened opened_ok keys keys_nodup 2 _ t hs p key v⟩

/-- The bound for this recipe: four loads in all -/
example : ¬ ∃ f : ℕ → TState (RVal ℕ Tensor), f 0 = init keys opened none_ ∧ ∀ i, i ≤ 45 → Step 2 (program P r) (f i) (f (i + 1)) := by
  have h := (C98_ends P r opened opened_ok keys keys_nodup 2 (by decide) none_).2
  have hb : 4 * keys.length + 1 + (keys.map fun k => 9 * loads (Spec.stored opened) (program P r k)).sum = 45 := by decide +kernel
  rwa [hb] at h

/-! The file: thread 2 finishes `b` while thread 1 is storing `a`. -/

def actions : List StreamOut.Action :=
  [.begin 1 "a".toList (StreamOut.exT [1, 2, 3, 4, 5]), .begin 2 "b".toList (StreamOut.exT [4, 5, 4, 5]), .locked 1, .finish 1]

def declared : Dict Key StreamOut.Meta := [("a".toList, ⟨some [5], some .u8⟩), ("b".toList, ⟨some [4], some .u8⟩)]

def final : StreamOut.State := (StreamOut.run (StreamOut.init declared none 4 1000) actions).getD (StreamOut.init declared none 4 1000)

def outFile : Bytes := match StreamOut.close final with | .ok f => f | .error _ => []

theorem values (k : Str) (hk : k ∈ keys) :
    eval (world P (Spec.stored opened)) r k = .ok (.tensor (if k = "a".toList then StreamOut.exT [1, 2, 3, 4, 5] else StreamOut.exT [4, 5, 4, 5])) := by
  rw [← program_value]
  rcases List.mem_cons.1 hk with rfl | hk
  · decide +kernel
  · rw [List.mem_singleton.1 hk]
    decide +kernel

example : ∃ s0, StreamIn.open_ outFile 2 1000 = .ok s0 ∧ "a".toList ∈ StreamIn.keys s0 ∧ ∃ s1 v,
    StreamIn.getItem s0 "a".toList = (s1, .ok v) ∧ s1.read v = [1, 2, 3, 4, 5] := by
  obtain ⟨s0, h1, h2, _, h3⟩ := C98_file P r opened opened_ok keys keys_nodup (by decide) 2 stores file_runs declared none 4 1000 actions final
    outFile (by decide +kernel) (by unfold StreamOut.Spec.Quiescent; decide +kernel) (by decide +kernel)
    ⟨by decide, by decide +kernel, by decide, by decide +kernel⟩ (by decide +kernel)
    (fun k t hk h => by
      rw [values k hk] at h
      obtain rfl := RVal.tensor.inj (Except.ok.inj h)
      split_ifs <;> decide)
    2 1000 (by decide)
    (fun k t hk h => by
      rw [values k hk] at h
      obtain rfl := RVal.tensor.inj (Except.ok.inj h)
      split_ifs <;> decide)
  obtain ⟨s1, v, g1, _, _, g2⟩ := h3 "a".toList _ (by decide) (values _ (by decide)) []
  exact ⟨s0, h1, (h2 _).2 ⟨by decide, _, values _ (by decide)⟩, s1, v, g1, g2⟩

end Ex

end Verif.Threads
