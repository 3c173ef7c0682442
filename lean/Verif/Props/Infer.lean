import Verif.Proofs.Infer
import Verif.Props.Registry

/-!
# C41, C42
-/
namespace Verif.Infer
open Method Config Float Spec

theorem mem_configKeys (c : ModelConfig) (k : Str) : k ∈ configKeys c ↔ Known c k := by
  unfold configKeys Known
  rw [Registry.aliases_map, List.mem_append, List.flatMap_map]
  simp only [Dict.keys, List.mem_map, List.mem_flatMap]
  constructor
  · rintro (⟨p, hp, rfl⟩ | ⟨p, hp, hk⟩)
    · exact ⟨p, hp, .inl rfl⟩
    · exact ⟨p, hp, .inr hk⟩
  · rintro ⟨p, hp, rfl | hk⟩
    · exact .inl ⟨p, hp, rfl⟩
    · exact .inr ⟨p, hp, hk⟩

theorem length_dedup (sd : List Str) : sd.dedup.length = sd.toFinset.card := rfl

theorem length_matched (sd : List Str) (c : ModelConfig) : (matched sd c).length = count sd c := by
  unfold matched count
  rw [← List.toFinset_card_of_nodup ((List.nodup_dedup sd).filter _)]
  congr 1
  ext k
  simp [mem_configKeys]

theorem count_le (sd : List Str) (c : ModelConfig) : count sd c ≤ sd.toFinset.card := Finset.card_filter_le _ _

/-- Sizes below `2^40`, up to which the comparisons of floats were shown to be exact -/
def Small (L : List RegCfg) (sd : List Str) : Prop := sd.length < 2 ^ 40 ∧ ∀ c ∈ L, c.config.keys.length < 2 ^ 40

theorem small_card {L : List RegCfg} {sd : List Str} (h : Small L sd) : sd.toFinset.card < 2 ^ 40 :=
  lt_of_le_of_lt (List.toFinset_card_le sd) h.1

theorem scan_cons {sd : List Str} {c : RegCfg} {cs : List RegCfg} (h : Small (c :: cs) sd) :
    scan sd (c :: cs) =
      if Enough sd c.config then
        if c.hashable then
          match (if Stops sd c.config then .ok [] else scan sd cs : Except Err (List (RegCfg × ℕ))) with
          | .ok l => .ok ((c, count sd c.config) :: l)
          | .error e => .error e
        else .error .type
      else scan sd cs := by
  have h1 : geMul (matched sd c.config).length sd.dedup.length tenth = true ↔ Enough sd c.config := by
    rw [geMul_tenth (by rw [length_dedup]; exact small_card h), length_matched, length_dedup]; rfl
  have h2 : ((matched sd c.config).length = sd.dedup.length ∧ geMul (matched sd c.config).length c.config.keys.length nine = true) ↔ Stops sd c.config := by
    rw [geMul_nine (h.2 c (by simp)), length_matched, length_dedup]; rfl
  rw [scan]
  simp only [h1, h2]
  rw [length_matched]
  by_cases he : Enough sd c.config
  · rw [if_pos he, if_pos he]
    by_cases hs : Stops sd c.config
    · simp only [if_pos hs]
    · simp only [if_neg hs]; cases scan sd cs <;> rfl
  · have hs : ¬ Stops sd c.config := fun hs => he (by unfold Enough; rw [hs.1]; omega)
    rw [if_neg he, if_neg he, if_neg hs]

theorem examined_cons (sd : List Str) (c d : RegCfg) (cs : List RegCfg) :
    Examined (c :: cs) sd d ↔ d = c ∨ (¬ Stops sd c.config ∧ Examined cs sd d) := by
  unfold Examined
  constructor
  · rintro ⟨pre, post, h, h'⟩
    cases pre with
    | nil => simp only [List.nil_append, List.cons.injEq] at h; exact .inl h.1.symm
    | cons p pre =>
      simp only [List.cons_append, List.cons.injEq] at h
      right
      refine ⟨?_, pre, post, h.2, fun d hd => h' d (by simp [hd])⟩
      rw [h.1]; exact h' p (by simp)
  · rintro (rfl | ⟨h1, pre, post, h2, h3⟩)
    · exact ⟨[], cs, rfl, by simp⟩
    · refine ⟨c :: pre, post, by rw [h2]; rfl, ?_⟩
      intro d hd
      rcases List.mem_cons.1 hd with rfl | hd
      · exact h1
      · exact h3 d hd

theorem examined_nil (sd : List Str) (d : RegCfg) : ¬ Examined [] sd d := by
  rintro ⟨pre, post, h, _⟩
  simp at h

theorem small_tail {sd : List Str} {c : RegCfg} {cs : List RegCfg} (h : Small (c :: cs) sd) : Small cs sd :=
  ⟨h.1, fun d hd => h.2 d (by simp [hd])⟩

theorem scan_spec {sd : List Str} {L : List RegCfg} (h : Small L sd) :
    (∀ l, scan sd L = .ok l → (∀ c m, (c, m) ∈ l ↔ Examined L sd c ∧ Enough sd c.config ∧ m = count sd c.config) ∧
      ∀ c, Examined L sd c → Enough sd c.config → c.hashable = true) ∧
    (∀ e, scan sd L = .error e → e = .type ∧ ∃ c, Examined L sd c ∧ Enough sd c.config ∧ c.hashable = false) := by
  induction L with
  | nil =>
    refine ⟨?_, ?_⟩
    · intro l hl
      simp only [scan, Except.ok.injEq] at hl
      subst hl
      simp [examined_nil]
    · intro e he; simp [scan] at he
  | cons c cs ih =>
    obtain ⟨ih1, ih2⟩ := ih (small_tail h)
    rw [scan_cons h]
    by_cases he : Enough sd c.config
    · rw [if_pos he]
      by_cases hh : c.hashable = true
      · rw [if_pos hh]
        by_cases hs : Stops sd c.config
        · rw [if_pos hs]
          refine ⟨?_, by simp⟩
          intro l hl
          simp only [Except.ok.injEq] at hl
          subst hl
          simp only [examined_cons, hs, not_true_eq_false, false_and, or_false]
          refine ⟨?_, ?_⟩
          · intro d m
            simp only [List.mem_singleton, Prod.mk.injEq]
            constructor
            · rintro ⟨rfl, rfl⟩; exact ⟨rfl, he, rfl⟩
            · rintro ⟨rfl, _, rfl⟩; exact ⟨rfl, rfl⟩
          · rintro d rfl _; exact hh
        · rw [if_neg hs]
          cases hsc : scan sd cs with
          | error e =>
            obtain ⟨h1, d, h2, h3, h4⟩ := ih2 e hsc
            refine ⟨by simp, ?_⟩
            intro e' he'
            simp only [Except.error.injEq] at he'
            subst he'
            exact ⟨h1, d, (examined_cons _ _ _ _).2 (.inr ⟨hs, h2⟩), h3, h4⟩
          | ok l =>
            obtain ⟨h1, h2⟩ := ih1 l hsc
            refine ⟨?_, by simp⟩
            intro l' hl'
            simp only [Except.ok.injEq] at hl'
            subst hl'
            refine ⟨?_, ?_⟩
            · intro d m
              rw [List.mem_cons, h1, examined_cons, Prod.mk.injEq]
              constructor
              · rintro (⟨rfl, rfl⟩ | ⟨h3, h4, h5⟩)
                · exact ⟨.inl rfl, he, rfl⟩
                · exact ⟨.inr ⟨hs, h3⟩, h4, h5⟩
              · rintro ⟨rfl | ⟨_, h3⟩, h4, h5⟩
                · exact .inl ⟨rfl, h5⟩
                · exact .inr ⟨h3, h4, h5⟩
            · intro d hd hde
              rcases (examined_cons _ _ _ _).1 hd with rfl | ⟨_, hd⟩
              · exact hh
              · exact h2 d hd hde
      · rw [if_neg hh]
        refine ⟨by simp, ?_⟩
        intro e he'
        simp only [Except.error.injEq] at he'
        exact ⟨he'.symm, c, (examined_cons _ _ _ _).2 (.inl rfl), he, by simpa using hh⟩
    · have hs : ¬ Stops sd c.config := fun hs => he (by unfold Enough; rw [hs.1]; omega)
      rw [if_neg he]
      refine ⟨?_, ?_⟩
      · intro l hl
        obtain ⟨h1, h2⟩ := ih1 l hl
        refine ⟨?_, ?_⟩
        · intro d m
          rw [h1, examined_cons]
          constructor
          · rintro ⟨h3, h4⟩; exact ⟨.inr ⟨hs, h3⟩, h4⟩
          · rintro ⟨rfl | ⟨_, h3⟩, h4⟩
            · exact absurd h4.1 he
            · exact ⟨h3, h4⟩
        · intro d hd hde
          rcases (examined_cons _ _ _ _).1 hd with rfl | ⟨_, hd⟩
          · exact absurd hde he
          · exact h2 d hd hde
      · intro e he'
        obtain ⟨h1, d, h2, h3⟩ := ih2 e he'
        exact ⟨h1, d, (examined_cons _ _ _ _).2 (.inr ⟨hs, h2⟩), h3⟩

/-- The groups before they are stripped of their numbers -/
def groups (l : List (RegCfg × ℕ)) : List (List (RegCfg × ℕ)) := (l.map (·.2)).dedup.map fun a => l.filter fun p => p.2 = a

theorem mem_groups {l : List (RegCfg × ℕ)} {g : List (RegCfg × ℕ)} (h : g ∈ groups l) :
    g ≠ [] ∧ ∀ p, p ∈ g ↔ p ∈ l ∧ p.2 = affinity g := by
  unfold groups at h
  obtain ⟨a, ha, rfl⟩ := List.mem_map.1 h
  rw [List.mem_dedup, List.mem_map] at ha
  obtain ⟨p, hp, rfl⟩ := ha
  have hne : l.filter (fun q => decide (q.2 = p.2)) ≠ [] := List.ne_nil_of_mem (a := p) (by simp [hp])
  have haff : affinity (l.filter fun q => decide (q.2 = p.2)) = p.2 := by
    cases hq : l.filter (fun q => decide (q.2 = p.2)) with
    | nil => exact absurd hq hne
    | cons q qs =>
      have : q ∈ l.filter (fun q => decide (q.2 = p.2)) := by rw [hq]; simp
      exact of_decide_eq_true (List.mem_filter.1 this).2
  refine ⟨hne, fun q => ?_⟩
  rw [haff]
  simp

theorem groups_affinity (l : List (RegCfg × ℕ)) : (groups l).map affinity = (l.map (·.2)).dedup := by
  unfold groups
  rw [List.map_map]
  conv_rhs => rw [← List.map_id (l.map (·.2)).dedup]
  apply List.map_congr_left
  intro a ha
  have hg : l.filter (fun p => decide (p.2 = a)) ∈ groups l := List.mem_map.2 ⟨a, ha, rfl⟩
  obtain ⟨hne, hm⟩ := mem_groups hg
  obtain ⟨p, hp⟩ := List.exists_mem_of_ne_nil _ hne
  have h1 := ((hm p).1 hp).2
  have h2 := (List.mem_filter.1 hp).2
  simp only [decide_eq_true_eq] at h2
  simp only [Function.comp, id]
  rw [← h1, h2]

/-- **C41.**  The groups come by decreasing number of matched keys; each group has exactly the configs looked at that match this number of
keys, and at least a tenth of the keys of the state dict. -/
theorem C41_groups {L : List RegCfg} {sd : List Str} (hsmall : Small L sd) {gs : List (List RegCfg)} (h : infer L sd = .ok gs) :
    ∃ counts : List ℕ, counts.Pairwise (· > ·) ∧
      List.Forall₂ (fun n g => g ≠ [] ∧ ∀ c, c ∈ g ↔ Examined L sd c ∧ Enough sd c.config ∧ count sd c.config = n) counts gs ∧
      ∀ c, Examined L sd c → Enough sd c.config → count sd c.config ∈ counts := by
  unfold infer at h
  cases hs : scan sd L with
  | error e => rw [hs] at h; cases h
  | ok l =>
    rw [hs] at h
    simp only [Except.ok.injEq] at h
    obtain ⟨h1, _⟩ := (scan_spec hsmall).1 l hs
    obtain ⟨sorted, hsorted⟩ : ∃ s, s = (groups l).insertionSort fun g h => affinity h ≤ affinity g := ⟨_, rfl⟩
    have hgs : gs = sorted.map fun g => g.map (·.1) := by rw [← h, hsorted]; rfl
    have hperm : sorted.Perm (groups l) := by rw [hsorted]; exact List.perm_insertionSort _ _
    have hpw : sorted.Pairwise fun g h => affinity h ≤ affinity g := by
      rw [hsorted]
      haveI : Std.Total (fun g h : List (RegCfg × ℕ) => affinity h ≤ affinity g) := ⟨fun a b => by omega⟩
      haveI : IsTrans _ (fun g h : List (RegCfg × ℕ) => affinity h ≤ affinity g) := ⟨fun a b c h1 h2 => le_trans h2 h1⟩
      exact List.pairwise_insertionSort _ _
    have hnd : (sorted.map affinity).Nodup := by
      rw [(hperm.map affinity).nodup_iff, groups_affinity]
      exact List.nodup_dedup _
    refine ⟨sorted.map affinity, ?_, ?_, ?_⟩
    · rw [List.pairwise_map]
      have hnd' : sorted.Pairwise fun g h => affinity g ≠ affinity h := List.pairwise_map.1 hnd
      exact (hpw.and hnd').imp (by rintro a b ⟨h1, h2⟩; omega)
    · rw [hgs, List.forall₂_map_left_iff, List.forall₂_map_right_iff, List.forall₂_same]
      intro g hg
      obtain ⟨hne, hm⟩ := mem_groups (hperm.mem_iff.1 hg)
      refine ⟨by simpa using hne, fun c => ?_⟩
      rw [List.mem_map]
      constructor
      · rintro ⟨⟨d, m⟩, hp, rfl⟩
        obtain ⟨h2, h3⟩ := (hm _).1 hp
        obtain ⟨h4, h5, h6⟩ := (h1 d m).1 h2
        exact ⟨h4, h5, by rw [← h3]; exact h6.symm⟩
      · rintro ⟨h2, h3, h4⟩
        exact ⟨(c, count sd c.config), (hm _).2 ⟨(h1 _ _).2 ⟨h2, h3, rfl⟩, h4⟩, rfl⟩
    · intro c h2 h3
      rw [(hperm.map affinity).mem_iff, groups_affinity, List.mem_dedup, List.mem_map]
      exact ⟨(c, count sd c.config), (h1 _ _).2 ⟨h2, h3, rfl⟩, rfl⟩

/-- **C41.**  Stopping the search early loses no better config: the configs of the first group match most keys among *all* registered
configs; without any group no registered config matches a tenth of the keys. -/
theorem C41_best {L : List RegCfg} {sd : List Str} (hsmall : Small L sd) {gs : List (List RegCfg)} (h : infer L sd = .ok gs) :
    (∀ g gs', gs = g :: gs' → ∀ c ∈ g, c ∈ L ∧ ∀ d ∈ L, count sd d.config ≤ count sd c.config) ∧
    (gs = [] → ∀ d ∈ L, ¬ Enough sd d.config) := by
  obtain ⟨counts, hpw, hf, hall⟩ := C41_groups hsmall h
  -- a config that was not looked at comes after one that stops the search
  have hnot : ∀ d ∈ L, Examined L sd d ∨ ∃ e, Examined L sd e ∧ Stops sd e.config := by
    clear hsmall h hf hall
    induction L with
    | nil => simp
    | cons c cs ih =>
      intro d hd
      rcases List.mem_cons.1 hd with rfl | hd
      · exact .inl ((examined_cons _ _ _ _).2 (.inl rfl))
      · by_cases hs : Stops sd c.config
        · exact .inr ⟨c, (examined_cons _ _ _ _).2 (.inl rfl), hs⟩
        · rcases ih d hd with h | ⟨e, h, h'⟩
          · exact .inl ((examined_cons _ _ _ _).2 (.inr ⟨hs, h⟩))
          · exact .inr ⟨e, (examined_cons _ _ _ _).2 (.inr ⟨hs, h⟩), h'⟩
  have hstop : ∀ e : RegCfg, Stops sd e.config → Enough sd e.config := fun e hs => by unfold Enough; rw [hs.1]; omega
  refine ⟨?_, ?_⟩
  · rintro g gs' rfl c hc
    cases hf with
    | cons h1 hrest =>
      rename_i n ns
      obtain ⟨h2, h3, h4⟩ := (h1.2 c).1 hc
      have hmax : ∀ d, Examined L sd d → Enough sd d.config → count sd d.config ≤ n := by
        intro d hd hd'
        rcases List.mem_cons.1 (hall d hd hd') with h | h
        · omega
        · exact le_of_lt ((List.pairwise_cons.1 hpw).1 _ h)
      refine ⟨?_, ?_⟩
      · obtain ⟨pre, post, rfl, _⟩ := h2; simp
      · intro d hd
        rw [h4]
        rcases hnot d hd with h | ⟨e, h, h'⟩
        · by_cases hd' : Enough sd d.config
          · exact hmax d h hd'
          · unfold Enough at hd' h3; omega
        · have := hmax e h (hstop e h')
          rw [h'.1] at this
          exact le_trans (count_le _ _) this
  · rintro rfl d hd hd'
    cases hf
    rcases hnot d hd with h | ⟨e, h, h'⟩
    · simpa using hall d h hd'
    · simpa using hall e h (hstop e h')

/-- **C41.**  Inference fails exactly if a config that matches enough keys was registered as an object that is not hashable
(`ModelConfigImpl`). -/
theorem C41_hashable {L : List RegCfg} {sd : List Str} (hsmall : Small L sd) :
    infer L sd = .error .type ↔ ∃ c, Examined L sd c ∧ Enough sd c.config ∧ c.hashable = false := by
  unfold infer
  obtain ⟨h1, h2⟩ := scan_spec hsmall
  cases hs : scan sd L with
  | error e =>
    obtain ⟨h3, h4⟩ := h2 e hs
    subst h3
    exact ⟨fun _ => h4, fun _ => rfl⟩
  | ok l =>
    simp only [reduceCtorEq, false_iff, not_exists, not_and]
    intro c hc hc' hh
    rw [(h1 l hs).2 c hc hc'] at hh
    cases hh

namespace Ex

def key (k : String) (aliases : List String) (optional : Bool) : Str × KeyMeta := (k.toList, ⟨none, none, aliases.map (·.toList), optional⟩)
def a : RegCfg := ⟨⟨"z-a".toList, [("c".toList, [key "x" [] false, key "y" ["w"] false])]⟩, true⟩
def b : RegCfg := ⟨⟨"y-b".toList, [("c".toList, [key "x" [] false])]⟩, true⟩
def c : RegCfg := ⟨⟨"x-c".toList, [("c".toList, [key "x" [] false, key "w" [] true, key "v" [] true])]⟩, true⟩

end Ex

example : infer [Ex.a, Ex.b, Ex.c] ["x".toList, "w".toList, "u".toList] = .ok [[Ex.a, Ex.c], [Ex.b]] := by decide +kernel
/-- The search stops at the first config, which hides that the last one matches as well. -/
example : infer [Ex.a, Ex.b, Ex.c] ["x".toList, "w".toList] = .ok [[Ex.a]] := by decide +kernel
example : Small [Ex.a, Ex.b, Ex.c] ["x".toList, "w".toList, "u".toList] := by
  refine ⟨by norm_num, ?_⟩
  simp only [List.forall_mem_cons]
  exact ⟨by decide +kernel, by decide +kernel, by decide +kernel, by simp⟩

/-- **C42.**  The check raises exactly if it is asked for and a key that is not optional is missing under its name and all aliases. -/
theorem C42_check (sd : List Str) (c : ModelConfig) (checkMandatory : Bool) :
    (check sd c checkMandatory = .error .runtime ↔ checkMandatory = true ∧ ∃ p ∈ c.keys, p.2.optional = false ∧ ¬ Present sd p.1 p.2) ∧
    (check sd c checkMandatory = .ok () ↔ ¬ (checkMandatory = true ∧ ∃ p ∈ c.keys, p.2.optional = false ∧ ¬ Present sd p.1 p.2)) := by
  have h : missing sd c.keys ≠ [] ↔ ∃ p ∈ c.keys, p.2.optional = false ∧ ¬ Present sd p.1 p.2 := by
    have hstep : ∀ p : Str × KeyMeta, ((if p.2.optional then none
        else let k := match p.2.aliases.find? (· ∈ sd) with | some a => a | none => p.1
          if k ∈ sd then none else some k : Option Str).isSome = true) ↔ p.2.optional = false ∧ ¬ Present sd p.1 p.2 := by
      intro p
      unfold Present
      cases ho : p.2.optional with
      | true => simp
      | false =>
        cases hf : p.2.aliases.find? (· ∈ sd) with
        | some a =>
          have h1 := List.find?_some hf
          have h2 := List.mem_of_find?_eq_some hf
          simp only [decide_eq_true_eq] at h1
          simp only [Bool.false_eq_true, if_false, h1, if_true, Option.isSome_none, true_and, false_iff, not_not]
          exact .inr ⟨a, h2, h1⟩
        | none =>
          rw [List.find?_eq_none] at hf
          simp only [decide_eq_true_eq] at hf
          by_cases hk : p.1 ∈ sd
          · simp [hk]
          · simpa [hk] using hf
    unfold missing
    rw [Ne, List.filterMap_eq_nil_iff]
    push Not
    constructor
    · rintro ⟨p, hp, h⟩
      exact ⟨p, hp, (hstep p).1 (Option.isSome_iff_ne_none.2 h)⟩
    · rintro ⟨p, hp, h⟩
      exact ⟨p, hp, Option.isSome_iff_ne_none.1 ((hstep p).2 h)⟩
  rw [← h]
  unfold check
  cases checkMandatory <;> by_cases hm : missing sd c.keys = [] <;> simp [hm]

example : check ["w".toList] Ex.a.config true = .error .runtime ∧ check ["w".toList, "x".toList] Ex.a.config true = .ok () := by
  decide +kernel

end Verif.Infer
