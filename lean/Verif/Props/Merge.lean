import Verif.Proofs.Merge
import Verif.Props.Eval
import Verif.Props.StreamOut

/-!
# Merging all keys: C29, C30

`job` is what merging one key gives, for a recipe `eval W r` (see `C30_recipe`).  `Runs n job keys stores o` says that a merge of the
keys with `n` threads can end with outcome `o` after the assignments `stores` to the output.
-/
namespace Verif.Merge
open Method Spec
variable {V : Type}

/-! ## An execution with two threads: `b` overtakes `a`, `c` is missing -/

def exJob (k : Str) : Except Err ℕ :=
  if k = "a".toList then .ok 1 else if k = "b".toList then .ok 2 else if k = "boom".toList then .error (.other 3) else .error .stateDictKey

theorem exRun : Runs 2 exJob ["a".toList, "b".toList, "c".toList] [("b".toList, 2), ("a".toList, 1)] .returned := by
  refine ⟨⟨[], [], [], [], [("b".toList, 2), ("a".toList, 1)], none⟩, ?_, rfl, rfl⟩
  have s1 := (Steps.refl (n := 2) (job := exJob) (init ["a".toList, "b".toList, "c".toList])).step (.submit _ _ _ rfl)
  have s2 := s1.step (.submit _ _ _ rfl)
  have s3 := s2.step (.start _ _ _ rfl (by decide))
  have s4 := s3.step (.start _ _ _ rfl (by decide))
  have s5 := s4.step (.finish _ "b".toList (by decide))
  have s6 := s5.step (.submit _ _ _ rfl)
  have s7 := s6.step (.see _ "b".toList rfl rfl (by decide))
  have s8 := s7.step (.finish _ "a".toList (by decide))
  have s9 := s8.step (.start _ _ _ rfl (by decide))
  have s10 := s9.step (.finish _ "c".toList (by decide))
  have s11 := s10.step (.see _ "c".toList rfl rfl (by decide))
  exact s11.step (.see _ "a".toList rfl rfl (by decide))

/-- The failing key is seen while another one is running and a third is cancelled. -/
theorem exRaise : Runs 2 exJob ["boom".toList, "a".toList, "b".toList] [("a".toList, 1)] (.raised (.other 3)) := by
  refine ⟨⟨[], [], [], [("boom".toList, some (.other 3)), ("a".toList, none)], [("a".toList, 1)], some (.other 3)⟩, ?_, rfl, rfl⟩
  have s1 := (Steps.refl (n := 2) (job := exJob) (init ["boom".toList, "a".toList, "b".toList])).step (.submit _ _ _ rfl)
  have s2 := s1.step (.submit _ _ _ rfl)
  have s3 := s2.step (.submit _ _ _ rfl)
  have s4 := s3.step (.start _ _ _ rfl (by decide))
  have s5 := s4.step (.start _ _ _ rfl (by decide))
  have s6 := s5.step (.finish _ "boom".toList (by decide))
  have s7 := s6.step (.fail _ "boom".toList (.other 3) rfl rfl (by decide))
  have s8 := s7.step (.cancel _ "b".toList rfl (by decide))
  exact s8.step (.finish _ "a".toList (by decide))

/-! ## C29 -/

/-- **C29.**  Two merges of the same keys, each with any number of threads (also none) and any schedule: if one returns, both do,
and the outputs hold the same values. -/
theorem C29_schedule (job : Str → Except Err V) (keys : List Str) (hk : keys.Nodup) (n n' : ℕ) (stores stores' : List (Str × V)) (o o' : Outcome)
    (h : Runs n job keys stores o) (h' : Runs n' job keys stores' o') :
    (o = .returned ↔ o' = .returned) ∧
    (o = .returned → ∀ out k, (finalOutput out stores).get? k = (finalOutput out stores').get? k) := by
  obtain ⟨fin, can, p1, p2, p3, p4⟩ := runs_facts h
  obtain ⟨fin', can', q1, q2, q3, q4⟩ := runs_facts h'
  have hiff : o = .returned ↔ o' = .returned := by
    constructor
    · intro ho
      cases ho' : o' with
      | returned => rfl
      | raised e =>
        obtain ⟨k, hk, ht⟩ := q4 e ho'
        rw [(p3 ho).2 k hk] at ht; cases ht
    · intro ho
      cases ho' : o with
      | returned => rfl
      | raised e =>
        obtain ⟨k, hk, ht⟩ := p4 e ho'
        rw [(q3 ho).2 k hk] at ht; cases ht
  refine ⟨hiff, ?_⟩
  intro ho out k
  rw [(p3 ho).1, List.append_nil] at p1
  rw [(q3 (hiff.1 ho)).1, List.append_nil] at q1
  rw [p2, q2, get?_final (p1.nodup_iff.2 hk), get?_final (q1.nodup_iff.2 hk)]
  simp only [p1.mem_iff, q1.mem_iff]

/-- **C29.**  Every execution ends: it can always continue until it is over (so no deadlock), and there are at most
`4 * number of keys + 1` steps. -/
theorem C29_terminates (job : Str → Except Err V) (keys : List Str) (n : ℕ) (hn : 0 < n) :
    (∀ s, Steps n job (init keys) s → s.over = none → ∃ t, Step n job s t) ∧
    ¬ ∃ f : ℕ → State V, f 0 = init keys ∧ ∀ i, i ≤ 4 * keys.length + 1 → Step n job (f i) (f (i + 1)) := by
  refine ⟨fun s _ h => progress hn h, ?_⟩
  rintro ⟨f, h0, hs⟩
  have hle : ∀ i, i ≤ 4 * keys.length + 2 → left (f i) + i ≤ 4 * keys.length + 1 := by
    intro i
    induction i with
    | zero => intro _; rw [h0]; simp [left, init]
    | succ i ih =>
      intro hi
      have h1 := ih (by omega)
      have h2 := left_step (hs i (by omega))
      omega
  have := hle (4 * keys.length + 2) (Nat.le_refl _)
  omega

example : Runs 0 exJob ["a".toList, "b".toList, "c".toList] [("a".toList, 1), ("b".toList, 2)] .returned := by
  show sequential exJob _ = _
  decide

/-! ## C30 -/

/-- **C30.**  If the merge returns, the output holds exactly the value of each key that has one; keys that raise a missing-key error are
skipped (what the output held there before stays), and other entries of the output are untouched. -/
theorem C30_returned (job : Str → Except Err V) (keys : List Str) (hk : keys.Nodup) (n : ℕ) (stores : List (Str × V))
    (h : Runs n job keys stores .returned) (out : Dict Str V) (k : Str) :
    (finalOutput out stores).get? k = expected job keys out k ∧ (k ∈ keys → ∀ e, job k = .error e → e = .stateDictKey) := by
  obtain ⟨fin, can, p1, p2, p3, _⟩ := runs_facts h
  obtain ⟨h1, h2⟩ := p3 rfl
  rw [h1, List.append_nil] at p1
  refine ⟨?_, fun hk' => track_none_iff.1 (h2 k hk')⟩
  rw [p2, get?_final (p1.nodup_iff.2 hk)]
  simp only [p1.mem_iff]
  rfl

/-- **C30.**  If the merge raises `e`, some key failed with exactly that error, which is not a missing key; and every entry of the output is
either as before or the right value. -/
theorem C30_raised (job : Str → Except Err V) (keys : List Str) (hk : keys.Nodup) (n : ℕ) (stores : List (Str × V)) (e : Err)
    (h : Runs n job keys stores (.raised e)) :
    (∃ k ∈ keys, Broken job k e) ∧
    ∀ out k, (finalOutput out stores).get? k = out.get? k ∨ (finalOutput out stores).get? k = expected job keys out k := by
  obtain ⟨fin, can, p1, p2, _, p4⟩ := runs_facts h
  obtain ⟨k, hk', ht⟩ := p4 e rfl
  refine ⟨⟨k, hk', track_some_iff.1 ht⟩, ?_⟩
  intro out k'
  have hfin : fin.Nodup := (List.nodup_append.1 (p1.nodup_iff.2 hk)).1
  rw [p2, get?_final hfin]
  by_cases hm : k' ∈ fin
  · right
    have : k' ∈ keys := p1.mem_iff.1 (List.mem_append_left _ hm)
    rw [if_pos hm, expected, if_pos this]; rfl
  · left; rw [if_neg hm]

/-- **C30.**  If some key fails with an error other than a missing key, the merge raises. -/
theorem C30_raises (job : Str → Except Err V) (keys : List Str) (n : ℕ) (stores : List (Str × V)) (o : Outcome)
    (h : Runs n job keys stores o) (hb : ∃ k ∈ keys, ∃ e, Broken job k e) : ∃ e', o = .raised e' := by
  obtain ⟨fin, can, _, _, p3, _⟩ := runs_facts h
  cases o with
  | raised e => exact ⟨e, rfl⟩
  | returned =>
    obtain ⟨k, hk, e, he⟩ := hb
    have := (p3 rfl).2 k hk
    rw [track_some_iff.2 he] at this
    cases this

theorem mem_metadata_keys (cfg : Config.ModelConfig) (k : Str) :
    k ∈ cfg.metadata.keys ↔ ∃ p ∈ cfg.components, k ∈ Dict.keys p.2 := by
  unfold Config.ModelConfig.metadata
  rw [Dict.mem_keys_ofList]
  simp only [List.mem_map, List.mem_flatMap, Dict.keys]
  constructor
  · rintro ⟨a, ⟨p, hp, q, hq, rfl⟩, rfl⟩
    exact ⟨p, hp, q, hq, rfl⟩
  · rintro ⟨p, hp, q, hq, rfl⟩
    exact ⟨_, ⟨p, hp, q, hq, rfl⟩, rfl⟩

theorem targetKeys_nodup (cfg : Config.ModelConfig) (omitEma : Bool) : (targetKeys cfg omitEma).Nodup := by
  have h : cfg.metadata.keys.Nodup := Dict.nodup_ofList _
  unfold targetKeys
  split
  · exact h.filter _
  · exact h

theorem mem_targetKeys (cfg : Config.ModelConfig) (omitEma : Bool) (k : Str) :
    k ∈ targetKeys cfg omitEma ↔ (∃ p ∈ cfg.components, k ∈ Dict.keys p.2) ∧
      ¬ (omitEma = true ∧ ∃ ema, cfg.components.get? "ema".toList = some ema ∧ k ∈ Dict.keys ema) := by
  unfold targetKeys
  split
  · rename_i ema he
    rw [List.mem_filter, mem_metadata_keys, he]
    simp
  · rename_i hne
    rw [mem_metadata_keys]
    constructor
    · intro h
      refine ⟨h, ?_⟩
      rintro ⟨ho, ema, he, _⟩
      exact hne ema ho he
    · exact fun h => h.1

/-- **C30** for a recipe: merging `r`, whose config is `cfg`, into an empty output gives exactly the keys of the config (without the ema
component if asked) that `r` has a value for. -/
theorem C30_recipe {F T : Type} (W : Eval.World F T) (r : Recipe.Val F) (cfg : Config.ModelConfig) (hcfg : Eval.configOf W r = .ok (some cfg))
    (omitEma : Bool) (keys : List Str) (hkeys : recipeKeys W r omitEma = .ok keys)
    (n : ℕ) (stores : List (Str × Eval.RVal F T)) (h : Runs n (Eval.eval W r) keys stores .returned) (k : Str) (v : Eval.RVal F T) :
    (finalOutput [] stores).get? k = some v ↔
      (∃ p ∈ cfg.components, k ∈ Dict.keys p.2) ∧ ¬ (omitEma = true ∧ ∃ ema, cfg.components.get? "ema".toList = some ema ∧ k ∈ Dict.keys ema) ∧
        Eval.eval W r k = .ok v := by
  unfold recipeKeys at hkeys
  rw [hcfg] at hkeys
  cases hkeys
  rw [(C30_returned _ _ (targetKeys_nodup cfg omitEma) n stores h [] k).1, ← and_assoc, ← mem_targetKeys]
  unfold expected
  split_ifs with hk
  · cases Eval.eval W r k with
    | ok v' => simp [hk]
    | error e => simp
  · simp [hk]

example : recipeKeys Eval.Ex.W Eval.Ex.g true = .ok ["k1".toList, "k2".toList] ∧
    Runs 0 (Eval.eval Eval.Ex.W Eval.Ex.g) ["k1".toList, "k2".toList] [("k2".toList, .tensor 7)] .returned := by
  refine ⟨by decide +kernel, ?_⟩
  show sequential _ _ = _
  decide +kernel

/-! ## C67 -/

/-- Assigning to a file: what is not a tensor has no `untyped_storage` (streaming.py:212-235, 337-339). -/
def fileJob {F : Type} (job : Str → Except Err (Eval.RVal F StreamOut.Tensor)) (k : Str) : Except Err StreamOut.Tensor :=
  match job k with
  | .ok (.tensor t) => .ok t
  | .ok _ => .error .attribute
  | .error e => .error e

/-- **C67.**  A merge to a file, with any number of threads and any interleaving of their writes to the file (`as`; it performs the assignments of
the merge), that returns: the file opens, lists exactly the keys that have a value, and each reads back as the tensor that was computed. -/
theorem C67_file {F : Type} (job : Str → Except Err (Eval.RVal F StreamOut.Tensor)) (keys : List Str) (hk : keys.Nodup)
    (hmeta : metadataKey ∉ keys) (n : ℕ) (stores : List (Str × StreamOut.Tensor)) (h : Runs n (fileJob job) keys stores .returned)
    (declared : Dict Key StreamOut.Meta) (recipe : Option (List Char)) (minBuf cap : ℕ) (as : List StreamOut.Action) (s : StreamOut.State)
    (file : Bytes) (hrun : StreamOut.run (StreamOut.init declared recipe minBuf cap) as = some s) (hq : StreamOut.Spec.Quiescent s)
    (hstores : (StreamOut.Spec.stored as).Perm stores)
    (hc : StreamOut.Spec.Complete declared recipe minBuf cap (StreamOut.Spec.stored as)) (hclose : StreamOut.close s = .ok file)
    (hwf : ∀ k t, k ∈ keys → job k = .ok (.tensor t) → StreamOut.Spec.Tensor.WF t)
    (bs rcap : ℕ) (hbs : bs ≤ rcap) (hrc : ∀ k t, k ∈ keys → job k = .ok (.tensor t) → t.bytes.length ≤ rcap) :
    ∃ s0, StreamIn.open_ file bs rcap = .ok s0 ∧
      (∀ k, k ∈ StreamIn.keys s0 ↔ k ∈ keys ∧ ∃ t, job k = .ok (.tensor t)) ∧
      s0.header.get? metadataKey = some (.metadata (recipe.map fun text => ("mecha_recipe".toList, text)).toList) ∧
      ∀ k t, k ∈ keys → job k = .ok (.tensor t) → ∀ history : List Key, ∃ s1 v,
        StreamIn.getItem (StreamIn.run s0 (history.map .load)).st k = (s1, .ok v) ∧
        v.dtype = t.dtype ∧ v.shape = t.shape ∧ s1.read v = t.bytes := by
  obtain ⟨fin, can, p1, p2, p3, _⟩ := runs_facts h
  rw [(p3 rfl).1, List.append_nil] at p1
  have hfile : ∀ k t, fileJob job k = .ok t ↔ job k = .ok (.tensor t) := by
    intro k t
    unfold fileJob
    split <;> simp_all
  have hmem : ∀ k t, (k, t) ∈ StreamOut.Spec.stored as ↔ k ∈ keys ∧ job k = .ok (.tensor t) := by
    intro k t
    rw [hstores.mem_iff, p2, List.mem_filterMap, ← hfile]
    constructor
    · rintro ⟨k', hk', he⟩
      unfold storeOf at he
      cases ht : (track (fileJob job k')).1 with
      | none => rw [ht] at he; cases he
      | some v =>
        rw [ht] at he
        simp only [Option.map_some, Option.some.injEq, Prod.mk.injEq] at he
        obtain ⟨rfl, rfl⟩ := he
        exact ⟨p1.mem_iff.1 hk', track_fst_iff.1 ht⟩
    · rintro ⟨hk', he⟩
      exact ⟨k, p1.mem_iff.2 hk', by rw [storeOf, track_fst_iff.2 he]; rfl⟩
  have hdistinct : ((StreamOut.Spec.stored as).map (·.1)).Nodup := by
    rw [(hstores.map _).nodup_iff, p2]
    have := stores_keys (fileJob job) fin
    unfold Dict.keys at this
    rw [this]
    exact (p1.nodup_iff.2 hk).filter _
  have hkeys : ∀ k, k ∈ (StreamOut.Spec.stored as).map (·.1) ↔ k ∈ keys ∧ ∃ t, job k = .ok (.tensor t) := by
    intro k
    rw [List.mem_map]
    constructor
    · rintro ⟨⟨k', t⟩, h1, rfl⟩
      obtain ⟨h2, h3⟩ := (hmem k' t).1 h1
      exact ⟨h2, t, h3⟩
    · rintro ⟨h2, t, h3⟩
      exact ⟨(k, t), (hmem k t).2 ⟨h2, h3⟩, rfl⟩
  obtain ⟨s0, h1, h2, h3, h4⟩ := StreamOut.C05_readback declared recipe minBuf cap as s file hrun hq hc hclose hdistinct
    (fun hm => hmeta ((hkeys _).1 hm).1) (fun p hp => hwf p.1 p.2 ((hmem p.1 p.2).1 hp).1 ((hmem p.1 p.2).1 hp).2) bs rcap hbs
    (fun p hp => hrc p.1 p.2 ((hmem p.1 p.2).1 hp).1 ((hmem p.1 p.2).1 hp).2)
  refine ⟨s0, h1, fun k => (h2 k).trans (hkeys k), by rw [h3]; cases recipe <;> rfl, ?_⟩
  intro k t hk' he history
  exact h4 (k, t) ((hmem k t).2 ⟨hk', he⟩) history

def exFileJob (k : Str) : Except Err (Eval.RVal ℕ StreamOut.Tensor) :=
  if k = "a".toList then .ok (.tensor (StreamOut.exT [1, 2, 3])) else if k = "b".toList then .ok (.tensor (StreamOut.exT [4, 5, 6, 9, 9]))
  else if k = "c".toList then .ok (.tensor (StreamOut.exT [7, 8])) else .error .stateDictKey

example : Runs 0 (fileJob exFileJob) ["c".toList, "b".toList, "z".toList, "a".toList]
      [("c".toList, StreamOut.exT [7, 8]), ("b".toList, StreamOut.exT [4, 5, 6, 9, 9]), ("a".toList, StreamOut.exT [1, 2, 3])] .returned ∧
    (StreamOut.Spec.stored StreamOut.exActions).Perm
      [("c".toList, StreamOut.exT [7, 8]), ("b".toList, StreamOut.exT [4, 5, 6, 9, 9]), ("a".toList, StreamOut.exT [1, 2, 3])] := by
  refine ⟨?_, by decide +kernel⟩
  show sequential _ _ = _
  decide +kernel

end Verif.Merge
