import Verif.Props.Reproducible

/-!
# The recipe in a merged file makes the file again (C112)

`Saves` is a call of `merge` that wrote a file (C99); `StreamIn.open_` reads the header of a file (C01); `deserialize` reads a recipe (C13).
-/
namespace Verif.Remake
open Method Recipe Config Eval Program Program.Spec Threads Threads.Spec Whole Reproducible Reproducible.Spec
open StreamOut (Tensor)
variable {F : Type}

/-- A node is what `valueToNode` makes of it. -/
theorem valueToNode_node {E : Env F} {v r : Val F} (h : valueToNode E v = .ok r) (hn : r.isNode = true) : valueToNode E r = .ok r := by
  cases r <;> first | rfl | cases hn

/-- A call on the recipe that `merge` wrote is a call on the recipe that was given. -/
theorem prepare_original {E : Env F} {o : Options F} {recipe original r : Val F} (h : prepare E o recipe = .ok (original, r))
    (hn : original.isNode = true) : prepare E o original = .ok (original, r) := by
  have hv := prepare_node h
  unfold prepare at h ⊢
  rw [hv] at h
  rw [valueToNode_node hv hn]
  exact h

/-- **C112.**  For a recipe of the class of C13, the header of the file holds a text that reads back as the recipe, and whoever merges it, with the same
options and inputs, without threads or with one thread like the first time, gets the same file byte by byte. -/
theorem C112_again_partial (P : PWorld F Tensor) (N : Serialize.Num F) (o : Options F) (opened : Str → Option StreamIn.State) (hop : Opened opened)
    (recipe : Val F) (n : ℕ) (hn : n ≤ 1) (file : Bytes) (m : Saves P N o opened recipe n file) (hone : OneThread m.actions)
    (hw : StreamOut.Spec.stored m.actions = m.stores) (hmeta : metadataKey ∉ m.keys)
    (hrt : ∀ r, valueToNode P.env recipe = .ok r → Serialize.Spec.RT N P.env r ∧ r.isNode = true) (bs rcap : ℕ) :
    ∃ s0 text r, StreamIn.open_ file bs rcap = .ok s0 ∧ s0.header.get? metadataKey = some (.metadata [("mecha_recipe".toList, text)]) ∧
      Serialize.deserialize N P.env text = .ok r ∧
      ∀ (opened' : Str → Option StreamIn.State) (n' : ℕ) (file' : Bytes) (m' : Saves P N o opened' r n' file'), Opened opened' →
        (∀ p k, stored opened' p k = stored opened p k) → n' ≤ 1 → OneThread m'.actions → StreamOut.Spec.stored m'.actions = m'.stores →
        m'.declared = m.declared → file' = file := by
  obtain ⟨hr1, hr2⟩ := hrt _ (prepare_node m.prepared)
  obtain ⟨text, t1, t2⟩ := Serialize.C13_roundtrip_partial N P.env m.original hr1 hr2
  have htext : m.text = some text := by
    have := m.serialized
    unfold recipeText at this
    rw [t1] at this
    exact (Except.ok.inj this).symm
  obtain ⟨Lg, h, hb, FF⟩ := StreamOut.file_facts m.wrote m.quiet m.complete m.closed
  obtain ⟨s0, o1, o2, o3⟩ := FF.opens bs rcap
  have hkeys : metadataKey ∉ (StreamOut.Spec.stored m.actions).map (·.1) := by
    rw [hw]
    obtain ⟨_, cfg, _, p3⟩ := plan_ok m.planned
    have s1 := C111_order P m.merged opened hop m.keys (by rw [p3]; exact Merge.targetKeys_nodup _ _) n hn m.stores m.ran
    rw [s1]
    intro hx
    obtain ⟨q, hq, he⟩ := List.mem_map.1 hx
    obtain ⟨k, hk, hk'⟩ := List.mem_filterMap.1 hq
    have : q.1 = k := by
      split at hk'
      · rw [← Option.some.inj hk']
      · cases hk'
    exact hmeta (by rw [← he, this]; exact hk)
  have hget : s0.header.get? metadataKey = some (.metadata [("mecha_recipe".toList, text)]) := by
    have hp : s0.header.Perm h := by rw [o3]; exact StreamIn.sortBy_perm _ _
    have hnd0 : s0.header.keys.Nodup := (hp.map _).nodup_iff.2 FF.nodup
    rw [Dict.get?_eq_some_iff hnd0, hp.mem_iff, ← Dict.get?_eq_some_iff FF.nodup,
      FF.keep _ (fun hx => hkeys ((FF.perm.map _).mem_iff.2 hx)), htext]
    simp [StreamOut.initHeader, Dict.get?]
  refine ⟨s0, text, m.original, o1, hget, t2, ?_⟩
  intro opened' n' file' m' hop' hsame hn' hone' hw' hdecl
  let m'' : Saves P N o opened m.original n file := { m with prepared := prepare_original m.prepared hr2 }
  exact (C111_merge P N o opened opened' hop hop' hsame m.original n n' hn hn' file file' m'' m' hone hone' hw hw' hdecl hmeta).symm

/-- **C112.**  With any numbers of threads, both times, the file made again opens as the first one does, lists the same keys, and gives the same dtype,
shape and bytes for each. -/
theorem C112_threads (P : PWorld F Tensor) (N : Serialize.Num F) (o : Options F) (opened opened' : Str → Option StreamIn.State) (hop : Opened opened)
    (hop' : Opened opened') (hsame : ∀ p k, stored opened' p k = stored opened p k) (recipe : Val F) (n n' : ℕ) (file file' : Bytes)
    (m : Saves P N o opened recipe n file) (m' : Saves P N o opened' recipe n' file') (hmeta : metadataKey ∉ m.keys)
    (hwf : ∀ p ∈ m.stores, StreamOut.Spec.Tensor.WF p.2) (bs bs' rcap : ℕ) (hbs : bs ≤ rcap) (hbs' : bs' ≤ rcap)
    (hrc : ∀ p ∈ m.stores, p.2.bytes.length ≤ rcap) :
    ∃ s0 s0', StreamIn.open_ file bs rcap = .ok s0 ∧ StreamIn.open_ file' bs' rcap = .ok s0' ∧
      (∀ k, k ∈ StreamIn.keys s0 ↔ k ∈ StreamIn.keys s0') ∧ s0.header.get? metadataKey = s0'.header.get? metadataKey ∧
      ∀ k ∈ StreamIn.keys s0, ∀ history history' : List Key, ∃ s1 v s1' v',
        StreamIn.getItem (StreamIn.run s0 (history.map .load)).st k = (s1, .ok v) ∧
        StreamIn.getItem (StreamIn.run s0' (history'.map .load)).st k = (s1', .ok v') ∧
        v.dtype = v'.dtype ∧ v.shape = v'.shape ∧ s1.read v = s1'.read v' := by
  have hs : stored opened' = stored opened := by funext p k; exact hsame p k
  have ho : (m'.original, m'.merged) = (m.original, m.merged) := Except.ok.inj (m'.prepared.symm.trans m.prepared)
  obtain ⟨ho1, ho2⟩ := Prod.mk.inj ho
  have hk : m'.keys = m.keys := by
    have h1 := m'.planned
    rw [hs, ho2] at h1
    exact Except.ok.inj (h1.symm.trans m.planned)
  have ht : m'.text = m.text := by
    have h1 := m'.serialized
    rw [ho1] at h1
    exact Except.ok.inj (h1.symm.trans m.serialized)
  obtain ⟨_, cfg, _, p3⟩ := plan_ok m.planned
  have hnd : m.keys.Nodup := by rw [p3]; exact Merge.targetKeys_nodup _ _
  -- what is stored
  have hmem : ∀ k t, k ∈ m.keys → eval (world P (stored opened)) m.merged k = .ok (.tensor t) → (k, t) ∈ m.stores := by
    intro k t hkk he
    have hr : Merge.Spec.Runs n (Merge.fileJob (eval (world P (stored opened)) m.merged)) m.keys m.stores .returned := by
      have h := m.ran
      cases n with
      | zero =>
        have h : sequential (fileProgram P m.merged) opened m.keys = (m.stores, .returned) := h
        rw [sequential_value hop m.keys (loaded_start opened), file_outcome] at h
        exact h
      | succ n =>
        obtain ⟨jobs, s, h1, h2, h3⟩ := h
        have := (inv_steps hnd hop h1).2
        rw [file_outcome] at this
        exact ⟨s.base, this, h2, h3⟩
    obtain ⟨fin, can, q1, q2, q3, _⟩ := Merge.runs_facts hr
    rw [(q3 rfl).1, List.append_nil] at q1
    rw [q2]
    exact List.mem_filterMap.2 ⟨k, q1.mem_iff.2 hkk, by simp [Merge.storeOf, Merge.fileJob, he, Merge.track]⟩
  obtain ⟨s0, a1, a2, a3, a4⟩ := C98_file P m.merged opened hop m.keys hnd hmeta n m.stores m.ran m.declared m.text m.minBuf m.cap m.actions m.writer
    file m.wrote m.quiet m.assigned m.complete m.closed (fun k t hkk he => hwf _ (hmem k t hkk he)) bs rcap hbs
    (fun k t hkk he => hrc _ (hmem k t hkk he))
  have ran' := m'.ran
  rw [ho2, hk] at ran'
  obtain ⟨s0', b1, b2, b3, b4⟩ := C98_file P m.merged opened' hop' m.keys hnd hmeta n' m'.stores ran' m'.declared m'.text m'.minBuf m'.cap m'.actions
    m'.writer file' m'.wrote m'.quiet m'.assigned m'.complete m'.closed (fun k t hkk he => hwf _ (hmem k t hkk (by rw [← hs]; exact he))) bs' rcap hbs'
    (fun k t hkk he => hrc _ (hmem k t hkk (by rw [← hs]; exact he)))
  rw [hs] at b2 b4
  refine ⟨s0, s0', a1, b1, fun k => by rw [a2, b2], by rw [a3, b3, ht], ?_⟩
  intro k hkk history history'
  obtain ⟨k1, t, k2⟩ := (a2 k).1 hkk
  obtain ⟨s1, v, c1, c2, c3, c4⟩ := a4 k t k1 k2 history
  obtain ⟨s1', v', d1, d2, d3, d4⟩ := b4 k t k1 k2 history'
  exact ⟨s1, v, s1', v', c1, d1, by rw [c2, d2], by rw [c3, d3], by rw [c4, d4]⟩

/-- A recipe that cannot be written, because it holds tensors, leaves no trace in the header, and the merge goes on. -/
theorem C112_memory_false (P : PWorld F Tensor) (N : Serialize.Num F) (o : Options F) (opened : Str → Option StreamIn.State)
    (recipe : Val F) (n : ℕ) (file : Bytes) (m : Saves P N o opened recipe n file) (hser : Serialize.serialize N m.original = .error .type)
    (hmeta : metadataKey ∉ m.stores.map (·.1)) (bs rcap : ℕ) :
    ∃ s0, StreamIn.open_ file bs rcap = .ok s0 ∧ s0.header.get? metadataKey = some (.metadata []) := by
  have htext : m.text = none := by
    have := m.serialized
    unfold recipeText at this
    rw [hser] at this
    exact (Except.ok.inj this).symm
  obtain ⟨Lg, h, hb, FF⟩ := StreamOut.file_facts m.wrote m.quiet m.complete m.closed
  obtain ⟨s0, o1, o2, o3⟩ := FF.opens bs rcap
  refine ⟨s0, o1, ?_⟩
  have hp : s0.header.Perm h := by rw [o3]; exact StreamIn.sortBy_perm _ _
  have hnd0 : s0.header.keys.Nodup := (hp.map _).nodup_iff.2 FF.nodup
  rw [Dict.get?_eq_some_iff hnd0, hp.mem_iff, ← Dict.get?_eq_some_iff FF.nodup,
    FF.keep _ (fun hx => hmeta ((m.assigned.map _).mem_iff.1 ((FF.perm.map _).mem_iff.2 hx))), htext]
  simp [StreamOut.initHeader, Dict.get?]

/-! ## Examples: the merge of C99 -/

namespace Ex
open Whole.Ex

theorem rt : Serialize.Spec.RT Serialize.Ex.num P.env recipe := by
  unfold recipe Serialize.Spec.RT
  refine ⟨by decide, by decide, by decide, by decide, ?_, by simp [Serialize.Spec.RTKA], by decide +kernel⟩
  rw [Serialize.RTL_cons, Serialize.RTL_cons]
  refine ⟨⟨?_, trivial⟩, ⟨?_, by show '=' ∉ "main".toList; decide⟩, by simp [Serialize.Spec.RTL]⟩
  · unfold f Serialize.Spec.raw Serialize.Spec.RT
    refine ⟨by decide, by decide, rfl, ?_, _, rfl, by decide, by decide⟩
    intro x hx; cases hx; decide
  · unfold Serialize.Spec.raw Serialize.Spec.RT; decide

example := C112_again_partial P Serialize.Ex.num o Threads.Ex.opened Threads.Ex.opened_ok recipe 0 (by decide) _ Reproducible.Ex.saves0 ⟨0, by decide⟩
  (by decide) (by decide) (fun r h => by cases h; exact ⟨rt, rfl⟩) 3 1000

example := C112_threads P Serialize.Ex.num o Threads.Ex.opened Reproducible.Ex.opened' Threads.Ex.opened_ok Reproducible.Ex.opened'_ok
  Reproducible.Ex.same recipe 2 1 _ _ saves Reproducible.Ex.saves1 (by decide) (by decide) 1 20 1000 (by decide) (by decide) (by decide)

/-- The same call without fallback model -/
def oBare : Options (Option Int) := { o with fallback := none }

/-- The same call without merge dtype -/
def oWide : Options (Option Int) := { o with mergeDtype := none }

def mergedOf (o : Options (Option Int)) (recipe : Val (Option Int)) : Val (Option Int) := match prepare P.env o recipe with | .ok p => p.2 | .error _ => .none

def storesBare : List (Str × Tensor) := [("a".toList, StreamOut.exT [1, 2, 2])]

def storesWide : List (Str × Tensor) := [("a".toList, StreamOut.exT [1, 2, 3]), ("c".toList, StreamOut.exT [7]), ("b".toList, StreamOut.exT [9, 0])]

def serial (l : List (Str × Tensor)) : List StreamOut.Action := l.map fun p => .begin 0 p.1 p.2

def savesBare : Saves P Serialize.Ex.num oBare Threads.Ex.opened recipe 0 (Reproducible.Ex.fileOf 100 (serial storesBare)) where
  original := recipe
  merged := mergedOf oBare recipe
  keys := keys
  stores := storesBare
  prepared := by decide +kernel
  planned := by decide +kernel
  ran := by
    show sequential (fileProgram P (mergedOf oBare recipe)) Threads.Ex.opened keys = (storesBare, .returned)
    decide +kernel
  text := some text
  declared := declared
  minBuf := 100
  cap := 10000
  actions := serial storesBare
  writer := Reproducible.Ex.writerOf 100 (serial storesBare)
  serialized := by decide +kernel
  wrote := by decide +kernel
  quiet := by unfold StreamOut.Spec.Quiescent; decide +kernel
  assigned := by decide +kernel
  complete := ⟨by decide, by decide +kernel, by decide, by decide +kernel⟩
  closed := by decide +kernel

def savesWide : Saves P Serialize.Ex.num oWide Threads.Ex.opened recipe 0 (Reproducible.Ex.fileOf 100 (serial storesWide)) where
  original := recipe
  merged := mergedOf oWide recipe
  keys := keys
  stores := storesWide
  prepared := by decide +kernel
  planned := by decide +kernel
  ran := by
    show sequential (fileProgram P (mergedOf oWide recipe)) Threads.Ex.opened keys = (storesWide, .returned)
    decide +kernel
  text := some text
  declared := declared
  minBuf := 100
  cap := 10000
  actions := serial storesWide
  writer := Reproducible.Ex.writerOf 100 (serial storesWide)
  serialized := by decide +kernel
  wrote := by decide +kernel
  quiet := by unfold StreamOut.Spec.Quiescent; decide +kernel
  assigned := by decide +kernel
  complete := ⟨by decide, by decide +kernel, by decide, by decide +kernel⟩
  closed := by decide +kernel

/-- A state dict in memory as the recipe -/
def dictRecipe : Val (Option Int) := .lit (.dict [("b".toList, .tensor 0)]) (some "t-c".toList) "weight".toList

def storesDict : List (Str × Tensor) := [("b".toList, StreamOut.exT [2, 0])]

def writerD : StreamOut.State :=
  (StreamOut.run (StreamOut.init declared none 100 10000) (serial storesDict)).getD (StreamOut.init declared none 100 10000)

def fileD : Bytes := match StreamOut.close writerD with | .ok f => f | .error _ => []

def savesDict : Saves P Serialize.Ex.num oBare Threads.Ex.opened dictRecipe 0 fileD where
  original := dictRecipe
  merged := mergedOf oBare dictRecipe
  keys := keys
  stores := storesDict
  prepared := by decide +kernel
  planned := by decide +kernel
  ran := by
    show sequential (fileProgram P (mergedOf oBare dictRecipe)) Threads.Ex.opened keys = (storesDict, .returned)
    decide +kernel
  text := none
  declared := declared
  minBuf := 100
  cap := 10000
  actions := serial storesDict
  writer := writerD
  serialized := by decide +kernel
  wrote := by decide +kernel
  quiet := by unfold StreamOut.Spec.Quiescent; decide +kernel
  assigned := by decide +kernel
  complete := ⟨by decide, by decide +kernel, by decide, by decide +kernel⟩
  closed := by decide +kernel

example := C112_memory_false P Serialize.Ex.num oBare Threads.Ex.opened dictRecipe 0 fileD savesDict (by decide +kernel) (by decide) 3 1000

end Ex

/-- The options are not in the file: the header has the same recipe with and without fallback model, and with and without merge dtype, although the
tensors differ.  So the recipe read from the header does not make the file again unless the options are known from elsewhere. -/
theorem C112_options_false :
    ∃ (P : PWorld (Option Int) Tensor) (N : Serialize.Num (Option Int)) (o : Options (Option Int)) (opened : Str → Option StreamIn.State)
      (recipe : Val (Option Int)) (file bare wide : Bytes) (m : Saves P N o opened recipe 0 file)
      (m1 : Saves P N { o with fallback := none } opened recipe 0 bare) (m2 : Saves P N { o with mergeDtype := none } opened recipe 0 wide),
      (∃ text, m.text = some text ∧ m1.text = some text ∧ m2.text = some text) ∧ m1.stores.map (·.1) ≠ m.stores.map (·.1) ∧
      m2.stores.map (·.1) = m.stores.map (·.1) ∧ m2.stores ≠ m.stores ∧ bare ≠ file ∧ wide ≠ file :=
  ⟨Whole.Ex.P, Serialize.Ex.num, Whole.Ex.o, Threads.Ex.opened, Whole.Ex.recipe, _, _, _, Reproducible.Ex.saves0, Ex.savesBare, Ex.savesWide,
    ⟨_, rfl, rfl, rfl⟩, by decide, by decide, by decide, by decide +kernel, by decide +kernel⟩

end Verif.Remake
