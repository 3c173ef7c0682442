import Verif.Proofs.History
import Verif.Props.Inputs

/-!
# C39, C40
-/
namespace Verif.Inputs
open Method Config Infer Spec

/-! ## Examples -/
namespace Ex

def tensor (shape : List ℕ) : Tree := .raw (some ⟨some shape, none⟩)
def d0 : List (Str × Tree) := [("p".toList, tensor [2]), ("q".toList, tensor [3]), ("r".toList, tensor [2])]
def d1 : List (Str × Tree) := [("q".toList, tensor [2, 2]), ("p".toList, tensor [1])]
def d2 : List (Str × Tree) := [("q".toList, tensor [1]), ("p".toList, tensor [2]), ("s".toList, tensor [2])]
/-- Three state dicts of unknown architecture, the first used twice -/
def u : Tree := .merge [(none, .dict 0 d0), (none, .dict 1 d1), (none, .merge [(none, .dict 0 d0), (none, .dict 2 d2)])]
/-- A config with two keys -/
def cfgV : RegCfg := ⟨⟨"z-a".toList, [("c".toList, [("x".toList, ⟨some [2], none, [], false⟩), ("v".toList, ⟨some [2], none, [], false⟩)])]⟩, true⟩
/-- Node 0 has a config. -/
def sA : St := { s with config := fun i => if i = 0 then some (.reg cfgA) else none }
/-- What a merge sees of its keys: names and shapes -/
def seen (id : ℕ) (s : St) : Except Err (Option (List (Str × Option (List ℕ)))) :=
  match view s id with
  | some (.ok d) => .ok (some (d.map fun p => (p.1, p.2.shape)))
  | some (.error e) => .error e
  | none => .ok none

end Ex

/-- **C39.**  State dicts in memory of unknown architecture: during the merge each of them has, as keys, those that are in all of them, each with the
metadata of an input where the tensor is largest.

Partial: as long as some key is common to the inputs before the last; the other inputs have a config.  Without this it is false: see
`C39_empty_false`, `C39_nested_false`, `C39_files_fail`. -/
theorem C39_intersection_partial (E : Env) (t : Tree) (s s1 : St) (hp : Plain t)
    (hmodels : ∀ p ∈ models t, ∃ c, s.config p.1 = some (.reg c))
    (hdicts : ∀ d ∈ dicts t, (∃ c, s.config d.1 = some (.reg c)) ∨
      (s.config d.1 = none ∧ StateDict d.2 ∧ Small E.registry (d.2.map (·.1)) ∧ Unknown E.registry d.2))
    (hsame : ∀ d ∈ dicts t, ∀ e ∈ dicts t, d.1 = e.1 → d.2 = e.2)
    (hcommon : ∀ pre post, unknowns s.config (dicts t) = pre ++ post → pre ≠ [] → post ≠ [] → ∃ k, Common pre k)
    (h : (withInputs E t .ok s).2 = .ok s1) :
    ∀ x ∈ unknowns s.config (dicts t), ∃ d, view s1 x.1 = some (.ok d) ∧ d.keys.Nodup ∧
      (∀ k, k ∈ d.keys ↔ Common (unknowns s.config (dicts t)) k) ∧
      ∀ k m, d.get? k = some m → ∃ y ∈ unknowns s.config (dicts t), ∃ shape dtype, Has y.2 k shape dtype ∧ m = .key ⟨some shape, dtype, [], true⟩ ∧
        ∀ z ∈ unknowns s.config (dicts t), ∀ shape' dtype', Has z.2 k shape' dtype' → shape'.prod ≤ shape.prod := by
  obtain ⟨s0, hs0⟩ : ∃ s0 : St, s0 = { s with cache := [], structs := upd s.structs E.ref [] } := ⟨_, rfl⟩
  have hcfg0 : s0.config = s.config := by rw [hs0]
  rw [(C36_closed E t Except.ok s hp).2.2, ← hs0] at h
  have hseen0 : Seen E.ref s.config (unknowns s.config []) s0 := by
    refine ⟨?_, ?_⟩
    · have : s0.structs E.ref = [] := by rw [hs0]; simp [upd]
      rw [this]
      refine ⟨⟨by simp [Dict.keys], by simp [Dict.get?]⟩, fun _ => rfl, fun h => absurd rfl h, by simp [Dict.get?]⟩
    · intro id
      rw [hcfg0]
      simp [unknowns]
  cases hload : load E none t s0 with
  | mk s' r =>
    rw [hload] at h
    cases r with
    | error e => cases h
    | ok u =>
      simp only [Except.ok.injEq] at h
      subst h
      have hfin := load_seen (ms := models t) (ds := dicts t) (cfg := s.config) ⟨hmodels, hdicts, hsame, hcommon⟩ none t s0 s' u [] [] (by simp)
        (fun _ h => h) hseen0 hload
      rw [List.nil_append] at hfin
      intro x hx
      have hne : unknowns s.config (dicts t) ≠ [] := List.ne_nil_of_mem hx
      refine ⟨s'.structs E.ref, ?_, hfin.inter.tensors.1, hfin.inter.keys hne, ?_⟩
      · unfold view
        rw [hfin.config, if_pos (List.mem_map.2 ⟨x, hx, rfl⟩)]
        rfl
      · intro k m hm
        obtain ⟨⟨y, hy, shape, dtype, hh, hmm⟩, hmax⟩ := hfin.inter.largest k m hm
        refine ⟨y, hy, shape, dtype, hh, hmm, ?_⟩
        intro z hz shape' dtype' hz'
        have := hmax z hz shape' dtype' hz'
        rw [hmm] at this
        exact this

example : (withInputs Ex.E Ex.u (Ex.seen 1) Ex.s).2 = .ok (some [("p".toList, some [2]), ("q".toList, some [2, 2])]) := by decide +kernel
example : ∀ d ∈ dicts Ex.u, Ex.s.config d.1 = none ∧ StateDict d.2 ∧ Small Ex.E.registry (d.2.map (·.1)) ∧ Unknown Ex.E.registry d.2 := by
  intro d hd
  have hd' : d = (0, Ex.d0) ∨ d = (1, Ex.d1) ∨ d = (2, Ex.d2) := by
    simp [Ex.u, dicts, dictsC, Ex.d0, Ex.d1, Ex.d2, dictsE, Ex.tensor] at hd
    simp only [Ex.d0, Ex.d1, Ex.d2, Ex.tensor]
    tauto
  refine ⟨rfl, ?_, ?_, ?_⟩
  · rcases hd' with rfl | rfl | rfl <;> refine ⟨by decide +kernel, ?_⟩ <;> simp [Ex.d0, Ex.d1, Ex.d2, Ex.tensor]
  · rcases hd' with rfl | rfl | rfl <;> unfold Small <;> decide +kernel
  · rcases hd' with rfl | rfl | rfl <;> unfold Unknown Infer.Spec.Enough <;> decide +kernel
example : ∀ d ∈ dicts Ex.u, ∀ e ∈ dicts Ex.u, d.1 = e.1 → d.2 = e.2 := by
  intro d hd e he
  simp [Ex.u, dicts, dictsC, Ex.d0, Ex.d1, Ex.d2, dictsE, Ex.tensor] at hd he
  rcases hd with rfl | rfl | rfl | rfl <;> rcases he with rfl | rfl | rfl | rfl <;> simp

example : ∀ d ∈ dicts Ex.u, "p".toList ∈ d.2.map (·.1) := by
  simp [Ex.u, dicts, dictsC, Ex.d0, Ex.d1, Ex.d2, dictsE, Ex.tensor]

/-- Two inputs without a common key, then a third: the merge considers the keys of the third. -/
theorem C39_empty_false : ∃ (E : Env) (t : Tree) (s : St), Plain t ∧
    (∀ d ∈ dicts t, s.config d.1 = none ∧ StateDict d.2) ∧
    (withInputs E t (Ex.seen 0) s).2 = .ok (some [("q".toList, some [2])]) ∧ ¬ Common (dicts t) "q".toList := by
  refine ⟨Ex.E, .merge [(none, .dict 0 [("p".toList, Ex.tensor [2])]), (none, .dict 1 [("r".toList, Ex.tensor [2])]),
    (none, .dict 2 [("q".toList, Ex.tensor [2])])], Ex.s, ?_, ?_, by decide +kernel, ?_⟩
  · simp [Plain, PlainC, RawE, Tree.isNode, Ex.tensor]
  · simp [dicts, dictsC, dictsE, Ex.tensor, Ex.s, StateDict]
  · simp [dicts, dictsC, dictsE, Ex.tensor, Common]

/-- A dict of two nodes with the same key: the dict itself counts as an input without keys, so nothing is merged. -/
theorem C39_nested_false : ∃ (E : Env) (t : Tree) (s : St), Plain t ∧ (withInputs E t (Ex.seen 0) s).2 = .ok (some []) ∧
    t = .dict 0 [("a".toList, .dict 1 [("p".toList, Ex.tensor [2])]), ("b".toList, .dict 2 [("p".toList, Ex.tensor [2])])] := by
  refine ⟨Ex.E, _, Ex.s, ?_, ?_, rfl⟩
  · simp [Plain, PlainE, RawE, Tree.isNode, Ex.tensor]
  · decide +kernel

/-- A file of unknown architecture, with a key: the merge raises `AttributeError` if extra keys are to be omitted, which is the default. -/
theorem C39_files_fail {α : Type} (E : Env) (id : ℕ) (path : Str) (s : St) (data : Dict Str TensorMeta) (body : St → Except Err α)
    (hsd : s.sd id = none) (hcfg : s.config id = none) (hf : E.fs.formats (search E.fs E.dirs path) = 1)
    (ho : E.fs.open (search E.fs E.dirs path) = .ok (.ok data)) (hne : data ≠ []) (hstrip : E.strip = true)
    (hsm : Small E.registry data.keys) (hun : ∀ c ∈ E.registry, ¬ Infer.Spec.Enough data.keys c.config) (hnd : data.keys.Nodup) :
    (withInputs E (.model id path) body s).2 = .error .attribute := by
  rw [(C36_closed E _ body s (by simp [Plain])).2.2]
  obtain ⟨s0, hs0⟩ : ∃ s0 : St, s0 = { s with cache := [], structs := upd s.structs E.ref [] } := ⟨_, rfl⟩
  rw [← hs0]
  have h1 : s0.sd id = none := by rw [hs0]; exact hsd
  have h2 : s0.cache = [] := by rw [hs0]
  have h3 : s0.structs E.ref = [] := by rw [hs0]; simp [upd]
  have h4 : s0.config id = none := by rw [hs0]; exact hcfg
  have hkeys : Dict.keys (data.map fun p => (p.1, Meta.tensor p.2)) = data.keys := by simp [Dict.keys]
  have hnd' : (Dict.keys (data.map fun p => (p.1, Meta.tensor p.2))).Nodup := by rw [hkeys]; exact hnd
  suffices hl : (load E none (.model id path) s0).2 = .error .attribute by
    cases hh : load E none (.model id path) s0 with
    | mk s' r => rw [hh] at hl; simp only at hl; rw [hl]
  rw [load]
  unfold loadDict
  simp only [h1, h2, Dict.get?, List.find?_nil, Option.map_none, hf, if_true, ho]
  simp only [metadataOf, St.setSd, List.length_append, List.getElem?_concat_length, if_true]
  unfold finishLoad
  rw [Dict.ofList_of_nodup hnd']
  simp only [h4]
  unfold determine
  rw [hkeys, inferred_unknown hsm hun]
  simp only [reduceCtorEq, if_false, h3]
  unfold intersect
  simp only [if_true]
  have hupd : Dict.update [] (data.map fun p => (p.1, Meta.tensor p.2)) = data.map fun p => (p.1, Meta.tensor p.2) := Dict.ofList_of_nodup hnd'
  rw [hupd]
  unfold checkConfig keysOf
  simp only [St.setConfig, upd, if_true, hstrip, true_or, true_and]
  rw [if_pos]
  obtain ⟨p, hp⟩ := List.exists_mem_of_ne_nil data hne
  exact ⟨_, List.mem_map.2 ⟨p, hp, rfl⟩, rfl⟩

example : (withInputs { Ex.E with registry := [Ex.cfgB] } (.model 0 "a".toList) (fun _ => .ok ()) Ex.s).2 = .error .attribute := by decide +kernel

/-! ## C40 -/

theorem run_kept : ∀ (hist : List (Env × Tree)) (s : St) (id : ℕ), (∀ h ∈ hist, Plain h.2) →
    (∀ h ∈ hist, id ∈ ids h.2 → ∃ c, s.config id = some (.reg c)) → (run hist s).config id = s.config id
  | [], s, id, _, _ => rfl
  | (E, t) :: hist, s, id, hp, hs => by
    rw [run]
    have hf := withInputs_frame E t (fun _ => (.ok () : Except Err Unit)) s
    have hstep : (withInputs E t (fun _ => (.ok () : Except Err Unit)) s).1.config id = s.config id := by
      by_cases hid : id ∈ ids t
      · obtain ⟨c, hc⟩ := hs (E, t) (by simp) hid
        rw [hc]; exact hf.reg id c hc
      · exact hf.outside id hid
    rw [run_kept hist _ id (fun h hh => hp h (by simp [hh])) (fun h hh hid => by rw [hstep]; exact hs h (by simp [hh]) hid)]
    exact hstep

theorem run_sd : ∀ (hist : List (Env × Tree)) (s : St) (id : ℕ), (∀ h ∈ hist, Plain h.2) → s.sd id = none → (run hist s).sd id = none
  | [], s, id, _, h => h
  | (E, t) :: hist, s, id, hp, h => by
    rw [run]
    exact run_sd hist _ id (fun h hh => hp h (by simp [hh])) (withInputs_sd E t _ s (hp (E, t) (by simp)) id h)

/-- **C40.**  If the nodes a recipe shares with recipes merged before have a registered config, then merging it has the same result and sees the
same keys and files as without them.

Partial: without the condition it is false, see `C40_false` and `C40_param_false`. -/
theorem C40_history_partial (hist : List (Env × Tree)) (E : Env) (t : Tree) (s : St) (hhist : ∀ h ∈ hist, Plain h.2) (hp : Plain t)
    (hsd : ∀ p ∈ models t, s.sd p.1 = none) (hstruct : ∀ id ∈ ids t, ∀ r, s.config id ≠ some (.struct r))
    (hshared : ∀ h ∈ hist, ∀ id ∈ ids h.2, id ∈ ids t → ∃ c, s.config id = some (.reg c)) :
    (withInputs E t (fun s1 => .ok (observe t s1)) (run hist s)).2 = (withInputs E t (fun s1 => .ok (observe t s1)) s).2 := by
  obtain ⟨s', hs'⟩ : ∃ s' : St, s' = run hist s := ⟨_, rfl⟩
  rw [← hs']
  have hcfg : ∀ id ∈ ids t, s.config id = s'.config id := by
    intro id hid
    rw [hs']
    exact (run_kept hist s id hhist fun h hh hi => hshared h hh id hi hid).symm
  have hsd' : ∀ p ∈ models t, s'.sd p.1 = none := fun p hpm => by rw [hs']; exact run_sd hist s p.1 hhist (hsd p hpm)
  rw [(C36_closed E t _ s hp).2.2, (C36_closed E t _ s' hp).2.2]
  obtain ⟨a, ha⟩ : ∃ a : St, a = { s with cache := [], structs := upd s.structs E.ref [] } := ⟨_, rfl⟩
  obtain ⟨a', ha'⟩ : ∃ a' : St, a' = { s' with cache := [], structs := upd s'.structs E.ref [] } := ⟨_, rfl⟩
  rw [← ha, ← ha']
  have h0 : Alike (ids t) ((models t).map (·.1)) s.files s'.files E.ref a a' := by
    rw [ha, ha']
    refine ⟨⟨[], by simp, by simp⟩, hcfg, fun id hid r hr => absurd hr (hstruct id hid r), ?_, fun k => ⟨none, rfl, rfl⟩, by simp [upd]⟩
    intro id hid
    obtain ⟨p, hpm, rfl⟩ := List.mem_map.1 hid
    exact ⟨none, hsd p hpm, hsd' p hpm⟩
  obtain ⟨h1, h2⟩ := load_alike none t a a' (fun _ h => h) (fun p hpm => List.mem_map.2 ⟨p, hpm, rfl⟩) h0
  cases hl : load E none t a with
  | mk b r =>
    cases hl' : load E none t a' with
    | mk b' r' =>
      rw [hl, hl'] at h1 h2
      simp only at h1 h2
      subst h2
      cases r with
      | error e => rfl
      | ok u =>
        simp only [Except.ok.injEq]
        unfold observe
        rw [Prod.mk.injEq]
        constructor
        · refine List.map_congr_left fun id hid => ?_
          unfold view
          rw [h1.config id hid]
          cases hc : b'.config id with
          | none => rfl
          | some c =>
            cases c with
            | reg c => rfl
            | infer => rfl
            | struct r =>
              have := h1.own id hid r (by rw [h1.config id hid, hc])
              subst this
              exact (congrArg some (congrArg Except.ok h1.structs)).symm
        · refine List.map_congr_left fun p hpm => ?_
          obtain ⟨o, ho, ho'⟩ := h1.sd p.1 (List.mem_map.2 ⟨p, hpm, rfl⟩)
          obtain ⟨new, hn, hn'⟩ := h1.files
          rw [ho, ho']
          cases o with
          | none => rfl
          | some o =>
            simp only [Option.map_some, Option.bind_some]
            rw [hn, hn', List.getElem?_append_right (by omega), List.getElem?_append_right (by omega)]
            simp only [Nat.add_sub_cancel_left]

example : ∀ h ∈ [({ Ex.E with ref := 1 }, Tree.merge [(none, .dict 0 Ex.d0), (none, .dict 1 Ex.d1)])], ∀ id ∈ ids h.2,
    id ∈ ids (.merge [(none, .dict 0 Ex.d0), (none, .dict 2 Ex.d2)]) → ∃ c, Ex.sA.config id = some (.reg c) := by
  simp [ids, models, modelsC, dicts, dictsC, Ex.d0, Ex.d1, Ex.d2, Ex.tensor, modelsE, dictsE, Ex.sA]
  omega

/-- Merging a state dict alone after it was merged with another one: only the keys common to both are considered. -/
theorem C40_false : ∃ (E E' : Env) (t t' : Tree) (s : St), Plain t ∧ Plain t' ∧ E.ref ≠ E'.ref ∧
    (withInputs E t (Ex.seen 0) s).2 = .ok (some [("p".toList, some [2]), ("q".toList, some [3])]) ∧
    (withInputs E t (Ex.seen 0) (run [(E', t')] s)).2 = .ok (some [("p".toList, some [2])]) := by
  refine ⟨Ex.E, { Ex.E with ref := 1 }, .dict 0 [("p".toList, Ex.tensor [2]), ("q".toList, Ex.tensor [3])],
    .merge [(none, .dict 0 [("p".toList, Ex.tensor [2]), ("q".toList, Ex.tensor [3])]), (none, .dict 1 [("p".toList, Ex.tensor [2])])], Ex.s,
    ?_, ?_, by decide +kernel, by decide +kernel, by decide +kernel⟩
  · simp [Plain, RawE, Tree.isNode, Ex.tensor]
  · simp [Plain, PlainC, RawE, Tree.isNode, Ex.tensor]

/-- The config that was inferred for a node where a method wanted another one stays when that method is gone. -/
theorem C40_param_false : ∃ (E E' : Env) (t t' : Tree) (s : St), Plain t ∧ Plain t' ∧ E.ref ≠ E'.ref ∧
    (withInputs E t (fun s1 => .ok (s1.config 0)) s).2 = .ok (some (.reg Ex.cfgV)) ∧
    (withInputs E t (fun s1 => .ok (s1.config 0)) (run [(E', t')] s)).2 = .ok (some (.reg Ex.cfgB)) := by
  refine ⟨{ Ex.E with registry := [Ex.cfgV, Ex.cfgB] }, { Ex.E with registry := [Ex.cfgV, Ex.cfgB], ref := 1 }, .dict 0 [("x".toList, Ex.tensor [2]), ("v".toList, Ex.tensor [2]), ("w".toList, Ex.tensor [3])],
    .merge [(some Ex.cfgB, .dict 0 [("x".toList, Ex.tensor [2]), ("v".toList, Ex.tensor [2]), ("w".toList, Ex.tensor [3])])], Ex.s,
    ?_, ?_, by decide +kernel, by decide +kernel, by decide +kernel⟩
  · simp [Plain, RawE, Tree.isNode, Ex.tensor]
  · simp [Plain, PlainC, RawE, Tree.isNode, Ex.tensor]

end Verif.Inputs
