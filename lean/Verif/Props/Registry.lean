import Verif.Spec.Registry
import Mathlib.Tactic.Common
import Mathlib.Data.List.Lex
import Mathlib.Data.List.Induction
import Mathlib.Tactic.IntervalCases

/-!
# Registries, identifiers, config views: C38, C43, C44, C45
-/
namespace Verif.Registry
open Method Config Spec

/-! ## C43 -/

section
variable {C : Type}

structure RegInv (ops : List (Reg C)) (R : Configs C) : Prop where
  get : ∀ id, (R.base.get? id).or (R.aux.get? id) = first ops id
  disj : ∀ id, id ∈ R.base.keys → id ∉ R.aux.keys
  nbase : R.base.keys.Nodup
  naux : R.aux.keys.Nodup

theorem first_append (ops : List (Reg C)) (o : Reg C) (id : Str) :
    first (ops ++ [o]) id = (first ops id).or (if o.id = id then some o.obj else none) := by
  unfold first
  rw [List.find?_append]
  cases List.find? (fun o => decide (o.id = id)) ops with
  | some x => rfl
  | none =>
    by_cases h : o.id = id <;> simp [h, List.find?]

theorem known_iff {ops : List (Reg C)} {R : Configs C} (h : RegInv ops R) (id : Str) :
    (id ∈ R.base.keys ∨ id ∈ R.aux.keys) ↔ (first ops id).isSome := by
  rw [← h.get id, ← Dict.get?_isSome_iff, ← Dict.get?_isSome_iff]
  cases R.base.get? id <;> simp

theorem inv_register {ops : List (Reg C)} {R : Configs C} (h : RegInv ops R) (o : Reg C) :
    RegInv (ops ++ [o]) (register o.aux R o.id o.obj).1 := by
  unfold register
  by_cases hk : o.id ∈ R.base.keys ∨ o.id ∈ R.aux.keys
  · rw [if_pos hk]
    refine ⟨?_, h.disj, h.nbase, h.naux⟩
    intro id
    rw [first_append, h.get]
    by_cases hid : o.id = id
    · subst hid
      obtain ⟨x, hx⟩ := Option.isSome_iff_exists.1 ((known_iff h _).1 hk)
      rw [hx]; rfl
    · rw [if_neg hid]; cases first ops id <;> rfl
  · rw [if_neg hk]
    push Not at hk
    have hb := (Dict.get?_eq_none_iff R.base o.id).2 hk.1
    have ha := (Dict.get?_eq_none_iff R.aux o.id).2 hk.2
    have hf : first ops o.id = none := by rw [← h.get, hb, ha]; rfl
    by_cases hx : o.aux = true
    · rw [if_pos hx]
      refine ⟨?_, ?_, h.nbase, Dict.nodup_set h.naux _ _⟩
      · intro id
        simp only
        rw [first_append, Dict.get?_set, ← h.get]
        by_cases hid : o.id = id
        · subst hid; simp [hb, ha]
        · simp [hid]
      · intro id h1
        rw [Dict.mem_keys_set]
        push Not
        exact ⟨fun h2 => hk.1 (h2 ▸ h1), h.disj id h1⟩
    · rw [if_neg hx]
      refine ⟨?_, ?_, Dict.nodup_set h.nbase _ _, h.naux⟩
      · intro id
        simp only
        rw [first_append, Dict.get?_set, ← h.get]
        by_cases hid : o.id = id
        · subst hid; simp [hb, ha]
        · simp [hid]
      · intro id h1
        simp only [Dict.mem_keys_set] at h1
        rcases h1 with h1 | h1
        · subst h1; exact hk.2
        · exact h.disj id h1

theorem inv_after (ops : List (Reg C)) : RegInv ops (after ops) := by
  induction ops using List.reverseRecOn with
  | nil => exact ⟨fun _ => rfl, by simp [after, Dict.keys], by simp [after, Dict.keys], by simp [after, Dict.keys]⟩
  | append_singleton ops o ih =>
    have := inv_register ih o
    unfold after at *
    rw [List.foldl_append]
    exact this

/-- **C43.**  After any sequence of registrations of configs: an identifier resolves to the object first registered under it, in
either registry; registering a used identifier raises and changes nothing; registering a new one succeeds. -/
theorem C43_configs (ops : List (Reg C)) (infer : C) :
    (∀ id, resolve infer (after ops) id =
      match first ops id with | some c => .ok c | none => if id = "infer".toList then .ok infer else .error .value) ∧
    (∀ aux id c, (first ops id).isSome → register aux (after ops) id c = (after ops, .error .value)) ∧
    (∀ aux id c, first ops id = none → (register aux (after ops) id c).2 = .ok ()) := by
  have h := inv_after ops
  refine ⟨?_, ?_, ?_⟩
  · intro id
    unfold resolve
    rw [← h.get]
    cases (after ops).base.get? id with
    | some c => rfl
    | none => cases (after ops).aux.get? id <;> rfl
  · intro aux id c hs
    unfold register
    rw [if_pos ((known_iff h id).2 hs)]
  · intro aux id c hs
    unfold register
    rw [if_neg (by rw [known_iff h id, hs]; simp)]
    split_ifs <;> rfl

example : resolve 0 (after [⟨false, "a-b".toList, 1⟩, ⟨true, "a-b".toList, 2⟩, ⟨true, "c-d".toList, 3⟩]) "a-b".toList = .ok 1 := by decide +kernel

theorem strLe_iff (s t : Str) : strLe s t = true ↔ ¬ codes t < codes s := by
  induction s generalizing t with
  | nil => simp [strLe, codes]
  | cons a s ih =>
    cases t with
    | nil => simp [strLe, codes]
    | cons b t =>
      have hlt : codes (b :: t) < codes (a :: s) ↔ b.toNat < a.toNat ∨ b.toNat = a.toNat ∧ codes t < codes s := by
        unfold codes
        rw [List.map_cons, List.map_cons, List.cons_lt_cons_iff]
      rw [hlt]
      unfold strLe
      split_ifs with h1 h2
      · simp; omega
      · simp; omega
      · rw [ih]
        have : b.toNat = a.toNat := by omega
        simp [this]

theorem codes_inj {s t : Str} (h : codes s = codes t) : s = t := by
  unfold codes at h
  refine List.map_injective_iff.2 ?_ h
  intro a b hab
  exact Char.ext (UInt32.toNat_inj.1 hab)

/-- **C43.**  `get_all` lists exactly the configs that identifiers resolve to, each once, by decreasing identifier. -/
theorem C43_all (ops : List (Reg C)) :
    (∀ id c, (id, c) ∈ getAll (after ops) ↔ first ops id = some c) ∧
    (getAll (after ops)).Pairwise fun p q => codes q.1 < codes p.1 := by
  have h := inv_after ops
  have hperm := List.mergeSort_perm ((after ops).base ++ (after ops).aux) fun p q => strLe q.1 p.1
  constructor
  · intro id c
    unfold getAll
    rw [hperm.mem_iff, List.mem_append, ← h.get]
    rw [← Dict.get?_eq_some_iff h.nbase, ← Dict.get?_eq_some_iff h.naux]
    constructor
    · rintro (h1 | h1)
      · rw [h1]; rfl
      · have : id ∉ (after ops).base.keys := fun h2 => h.disj id h2 ((Dict.get?_isSome_iff _ _).1 (by rw [h1]; rfl))
        rw [(Dict.get?_eq_none_iff _ _).2 this, h1]; rfl
    · intro h1
      cases hb : (after ops).base.get? id with
      | some x => rw [hb] at h1; left; exact h1
      | none => rw [hb] at h1; right; exact h1
  · have hsorted : (getAll (after ops)).Pairwise fun p q => strLe q.1 p.1 = true := by
      unfold getAll
      apply List.pairwise_mergeSort
      · intro a b c h1 h2
        rw [strLe_iff] at *
        exact fun h3 => h1 (lt_of_lt_of_le h3 (le_of_not_gt h2)) |>.elim
      · intro a b
        rw [Bool.or_eq_true, strLe_iff, strLe_iff]
        rcases lt_trichotomy (codes a.1) (codes b.1) with h1 | h1 | h1
        · right; exact fun h2 => lt_asymm h1 h2
        · left; rw [h1]; exact lt_irrefl _
        · left; exact fun h2 => lt_asymm h1 h2
    have hnodup : ((getAll (after ops)).map (·.1)).Nodup := by
      have h1 : ((after ops).base ++ (after ops).aux).map (·.1) = (after ops).base.keys ++ (after ops).aux.keys := by
        rw [List.map_append]; rfl
      unfold getAll
      rw [(hperm.map _).nodup_iff, h1, List.nodup_append']
      exact ⟨h.nbase, h.naux, fun id h2 h3 => h.disj id h2 h3⟩
    have hne := List.pairwise_map.1 hnodup
    refine (hsorted.and hne).imp ?_
    rintro p q ⟨h1, h2⟩
    rw [strLe_iff] at h1
    exact lt_of_le_of_ne (le_of_not_gt h1) fun h3 => h2 (codes_inj h3).symm

end


section
variable {V : Type}

theorem firstNew_append (ops : List (Str × V)) (o : Str × V) (id : Str) :
    firstNew (ops ++ [o]) id = (firstNew ops id).or (if o.1 = id then some o.2 else none) := by
  unfold firstNew
  rw [List.find?_append]
  cases List.find? (fun o => decide (o.1 = id)) ops with
  | some x => rfl
  | none =>
    by_cases h : o.1 = id <;> simp [h, List.find?]

theorem get?_afterNew (ops : List (Str × V)) (id : Str) : (afterNew ops).get? id = firstNew ops id := by
  induction ops using List.reverseRecOn generalizing id with
  | nil => rfl
  | append_singleton ops o ih =>
    have hstep : afterNew (ops ++ [o]) = (registerNew (afterNew ops) o.1 o.2).1 := by
      unfold afterNew; rw [List.foldl_append]; rfl
    rw [hstep, firstNew_append]
    unfold registerNew
    by_cases hk : o.1 ∈ (afterNew ops).keys
    · rw [if_pos hk, ih]
      by_cases hid : o.1 = id
      · subst hid
        obtain ⟨x, hx⟩ := Option.isSome_iff_exists.1 ((Dict.get?_isSome_iff _ _).2 hk)
        rw [ih] at hx; rw [hx]; simp
      · rw [if_neg hid]; cases firstNew ops id <;> rfl
    · have hn := (Dict.get?_eq_none_iff _ _).2 hk
      rw [if_neg hk]
      simp only
      rw [Dict.get?_set, ih]
      by_cases hid : o.1 = id
      · subst hid; rw [ih] at hn; simp [hn]
      · simp [hid]

/-- **C43.**  The same for merge spaces and model formats. -/
theorem C43_spaces_formats (ops : List (Str × V)) :
    (∀ id, lookup (afterNew ops) id = match firstNew ops id with | some v => .ok v | none => .error .value) ∧
    (∀ id v, (firstNew ops id).isSome → registerNew (afterNew ops) id v = (afterNew ops, .error .value)) ∧
    (∀ id v, firstNew ops id = none → (registerNew (afterNew ops) id v).2 = .ok ()) := by
  have hmem : ∀ id, id ∈ (afterNew ops).keys ↔ (firstNew ops id).isSome := by
    intro id; rw [← Dict.get?_isSome_iff, get?_afterNew]
  refine ⟨?_, ?_, ?_⟩
  · intro id; unfold lookup; rw [get?_afterNew]; cases firstNew ops id <;> rfl
  · intro id v h; unfold registerNew; rw [if_pos ((hmem id).2 h)]
  · intro id v h; unfold registerNew; rw [if_neg (by rw [hmem, h]; simp)]

example : registerNew (afterNew [("weight".toList, 0), ("delta".toList, 1)]) "delta".toList 5 =
    ([("weight".toList, 0), ("delta".toList, 1)], .error .value) := by decide +kernel
end

section
variable {M : Type}

/-- **C43.**  A merge method name resolves to the method last registered under it; registering never fails for a used name. -/
theorem C43_methods (valid : M → Bool) (ops : List (Def M)) (id : Str) :
    lookup (afterDefs valid ops).methods id = match last ops id with | some m => .ok m | none => .error .value := by
  have hget : (afterDefs valid ops).methods.get? id = last ops id := by
    induction ops using List.reverseRecOn with
    | nil => rfl
    | append_singleton ops o ih =>
      have hstep : afterDefs valid (ops ++ [o]) = (registerMethod valid o.register o.isConversion (afterDefs valid ops) o.id o.method).1 := by
        unfold afterDefs; rw [List.foldl_append]; rfl
      have hlast : last (ops ++ [o]) id = if o.register = true ∧ o.id = id then some o.method else last ops id := by
        unfold last
        rw [List.reverse_append, List.reverse_singleton, List.singleton_append, List.find?_cons]
        by_cases h1 : o.register = true <;> by_cases h2 : o.id = id <;> simp [h1, h2]
      rw [hstep, hlast]
      unfold registerMethod
      by_cases h1 : o.register = true
      · have : ∀ R : Methods M, R.methods = (afterDefs valid ops).methods.set o.id o.method →
            R.methods.get? id = if o.register = true ∧ o.id = id then some o.method else last ops id := by
          intro R hR
          rw [hR, Dict.get?_set, ih]
          by_cases h2 : o.id = id <;> simp [h1, h2]
        apply this
        rw [if_pos h1]
        by_cases h2 : o.isConversion = true
        · rw [if_pos h2]; by_cases h3 : valid o.method = true
          · rw [if_pos h3]
          · rw [if_neg h3]
        · rw [if_neg h2]
      · have h2 : ¬ (o.register = true ∧ o.id = id) := fun h => h1 h.1
        rw [if_neg h1, if_neg h2]
        by_cases h2 : o.isConversion = true
        · rw [if_pos h2]; exact ih
        · rw [if_neg h2]; exact ih
  unfold lookup
  rw [hget]
  cases last ops id <;> rfl

/-- A converter replaced by a method of the same name that is not a converter is still used by `convert`. -/
theorem C43_stale_converter_false : ∃ (valid : ℕ → Bool) (ops : List (Def ℕ)) (id : Str),
    lookup (afterDefs valid ops).methods id = .ok 2 ∧ (afterDefs valid ops).converters = [(id, 1)] :=
  ⟨fun _ => true, [⟨true, true, "c".toList, 1⟩, ⟨true, false, "c".toList, 2⟩], "c".toList, by decide +kernel, by decide +kernel⟩

/-- A converter that is rejected stays registered as a method. -/
theorem C43_rejected_converter_false : ∃ (valid : ℕ → Bool) (id : Str),
    (registerMethod valid true true ⟨[], []⟩ id 1).2 = .error (.other 0) ∧
      lookup (registerMethod valid true true ⟨[], []⟩ id 1).1.methods id = .ok 1 :=
  ⟨fun _ => false, "c".toList, by decide +kernel, by decide +kernel⟩
end

/-! ## C44 -/

theorem idChar_small : ∀ n < 128, idChar (Char.ofNat n) = true ↔ Char.ofNat n ∈ "abcdefghijklmnopqrstuvwxyz0123456789._+".toList := by
  decide +kernel

theorem allowed_small : ∀ c ∈ "abcdefghijklmnopqrstuvwxyz0123456789._+".toList, c.toNat < 128 := by decide +kernel

theorem idChar_iff (c : Char) : idChar c = true ↔ Allowed c := by
  unfold Allowed
  by_cases h : c.toNat < 128
  · have := idChar_small c.toNat h
    rwa [Char.ofNat_toNat] at this
  · constructor
    · intro h1
      exfalso
      unfold idChar at h1
      simp only [Bool.or_eq_true, Bool.and_eq_true, decide_eq_true_eq, beq_iff_eq] at h1
      rcases h1 with (((h1 | h1) | h1) | h1) | h1
      · have : 'z'.toNat = 122 := rfl
        omega
      · have : '9'.toNat = 57 := rfl
        omega
      all_goals (subst h1; exact h (by decide))
    · intro h1
      exact absurd (allowed_small c h1) h

theorem plus_matches {p : Char → Bool} (s : Str) : Rx.Matches (.plus (.cls p)) s ↔ s ≠ [] ∧ ∀ c ∈ s, p c = true := by
  constructor
  · intro h
    generalize hr : Rx.plus (.cls p) = r at h
    induction h with
    | cls => cases hr
    | seq => cases hr
    | one h _ =>
      cases hr
      cases h with | cls h => simpa using h
    | more h h' _ ih =>
      cases hr
      cases h with | cls h =>
      have := ih rfl
      simp only [ne_eq, List.cons_append, List.nil_append, reduceCtorEq, not_false_eq_true, List.mem_cons, forall_eq_or_imp, true_and]
      exact ⟨h, this.2⟩
  · rintro ⟨h1, h2⟩
    induction s with
    | nil => exact absurd rfl h1
    | cons c s ih =>
      have hc : Rx.Matches (.cls p) [c] := .cls (h2 c (by simp))
      by_cases hs : s = []
      · subst hs; exact .one hc
      · exact Rx.Matches.more hc (ih hs fun c hc => h2 c (by simp [hc]))

theorem splitDash_part {a b : Str} (ha : '-' ∉ a) (hb : '-' ∉ b) : splitDash (a ++ '-' :: b) = [a, b] := by
  have hb' : splitDash b = [b] := by
    induction b with
    | nil => rfl
    | cons c b ih =>
      simp only [List.mem_cons, not_or] at hb
      rw [splitDash, if_neg (Ne.symm hb.1), ih hb.2]
  induction a with
  | nil => simp [splitDash, hb']
  | cons c a ih =>
    simp only [List.mem_cons, not_or] at ha
    rw [List.cons_append, splitDash, if_neg (Ne.symm ha.1), ih ha.2]

theorem part_no_dash {a : Str} (h : Part a) : '-' ∉ a := fun hm => by
  have : ¬ Allowed '-' := by unfold Allowed; decide
  exact this (h.2 _ hm)

/-- **C44.**  Accepted identifiers are exactly `<architecture>-<implementation>` with both parts nonempty and made of allowed
characters, and the accessors return these parts. -/
theorem C44_identifier (s : Str) :
    (idRx.Matches s ↔ ∃ a b, s = a ++ '-' :: b ∧ Part a ∧ Part b) ∧
    (∀ a b, s = a ++ '-' :: b → Part a → Part b → architecture s = .ok a ∧ implementation s = .ok b) := by
  constructor
  · unfold idRx
    constructor
    · intro h
      cases h with | seq h1 h2 =>
      cases h2 with | seq h3 h4 =>
      cases h3 with | cls h3 =>
      rw [plus_matches] at h1 h4
      refine ⟨_, _, ?_, ⟨h1.1, fun c hc => (idChar_iff c).1 (h1.2 c hc)⟩, ⟨h4.1, fun c hc => (idChar_iff c).1 (h4.2 c hc)⟩⟩
      rw [beq_iff_eq] at h3
      rw [h3]; rfl
    · rintro ⟨a, b, rfl, ha, hb⟩
      have h1 : Rx.Matches (.plus (.cls idChar)) a := (plus_matches a).2 ⟨ha.1, fun c hc => (idChar_iff c).2 (ha.2 c hc)⟩
      have h2 : Rx.Matches (.plus (.cls idChar)) b := (plus_matches b).2 ⟨hb.1, fun c hc => (idChar_iff c).2 (hb.2 c hc)⟩
      exact .seq h1 (.seq (s := ['-']) (.cls rfl) h2)
  · rintro a b rfl ha hb
    unfold architecture implementation
    rw [splitDash_part (part_no_dash ha) (part_no_dash hb)]
    exact ⟨rfl, rfl⟩

/-- **C44.**  The parts determine the identifier and are determined by it. -/
theorem C44_unique (a b a' b' : Str) (ha : Part a) (hb : Part b) (ha' : Part a') (hb' : Part b') (h : a ++ '-' :: b = a' ++ '-' :: b') :
    a = a' ∧ b = b' := by
  have h1 := splitDash_part (part_no_dash ha) (part_no_dash hb)
  rw [h, splitDash_part (part_no_dash ha') (part_no_dash hb')] at h1
  simp only [List.cons.injEq, and_true] at h1
  exact ⟨h1.1.symm, h1.2.symm⟩

example : Part "flux_dev".toList ∧ Part "flux".toList ∧ ¬ Part "Flux".toList := by
  refine ⟨⟨by decide, ?_⟩, ⟨by decide, ?_⟩, fun h => ?_⟩
  · unfold Allowed; decide
  · unfold Allowed; decide
  · have := h.2 'F' (by decide); unfold Allowed at this; revert this; decide

/-! ## C45 -/

theorem set_map {κ α β : Type} [DecidableEq κ] (f : α → β) (d : Dict κ α) (k : κ) (v : α) :
    (Dict.set d k v).map (fun p => (p.1, f p.2)) = Dict.set (d.map fun p => (p.1, f p.2)) k (f v) := by
  induction d with
  | nil => rfl
  | cons p d ih =>
    obtain ⟨k', w⟩ := p
    simp only [Dict.set, List.map_cons]
    split_ifs
    · simp
    · simp [ih]

theorem update_map {κ α β : Type} [DecidableEq κ] (f : α → β) (d e : Dict κ α) :
    (Dict.update d e).map (fun p => (p.1, f p.2)) = Dict.update (d.map fun p => (p.1, f p.2)) (e.map fun p => (p.1, f p.2)) := by
  unfold Dict.update
  induction e generalizing d with
  | nil => rfl
  | cons p e ih => rw [List.foldl_cons, ih, List.map_cons, List.foldl_cons, set_map]

theorem metadata_map (c : ModelConfig) : c.metadata = c.keys.map fun p => (p.1, p.2.metadata) := by
  unfold ModelConfig.metadata ModelConfig.keys Dict.ofList
  rw [update_map, List.map_flatMap]; rfl

theorem aliases_map (c : ModelConfig) : c.aliases = c.keys.map fun p => (p.1, p.2.aliases) := by
  unfold ModelConfig.aliases ModelConfig.keys Dict.ofList
  rw [update_map, List.map_flatMap]; rfl

/-- Caches hold what would be computed. -/
def Coherent (s : Cached) : Prop :=
  (s.keys = none ∨ s.keys = some s.config.keys) ∧ (s.metadata = none ∨ s.metadata = some s.config.metadata) ∧
    (s.aliases = none ∨ s.aliases = some s.config.aliases)

theorem coherent_calls {s : Cached} (h : Coherent s) (v : View) : Coherent (v.call s) ∧ (v.call s).config = s.config := by
  obtain ⟨h1, h2, h3⟩ := h
  cases v with
  | keys =>
    unfold View.call callKeys
    rcases h1 with h1 | h1
    · rw [h1]; exact ⟨⟨.inr rfl, h2, h3⟩, rfl⟩
    · simp only [h1]; exact ⟨⟨.inr h1, h2, h3⟩, trivial⟩
  | metadata =>
    unfold View.call callMetadata
    rcases h2 with h2 | h2
    · rw [h2]; exact ⟨⟨h1, .inr rfl, h3⟩, rfl⟩
    · simp only [h2]; exact ⟨⟨h1, .inr h2, h3⟩, trivial⟩
  | aliases =>
    unfold View.call callAliases
    rcases h3 with h3 | h3
    · rw [h3]; exact ⟨⟨h1, h2, .inr rfl⟩, rfl⟩
    · simp only [h3]; exact ⟨⟨h1, h2, .inr h3⟩, trivial⟩

theorem coherent_views {s : Cached} (h : Coherent s) :
    (callKeys s).2 = s.config.keys ∧ (callMetadata s).2 = s.config.metadata ∧ (callAliases s).2 = s.config.aliases := by
  obtain ⟨h1, h2, h3⟩ := h
  unfold callKeys callMetadata callAliases
  refine ⟨?_, ?_, ?_⟩
  · rcases h1 with h1 | h1 <;> rw [h1]
  · rcases h2 with h2 | h2 <;> rw [h2]
  · rcases h3 with h3 | h3 <;> rw [h3]

theorem structural_keys {keys : Dict Str KeyMeta} (hk : keys.keys.Nodup) : (structural keys).keys = keys := by
  unfold structural ModelConfig.keys
  rw [List.flatMap_cons, List.flatMap_nil, List.append_nil, Dict.ofList_of_nodup hk]

/-- **C45.**  Whatever was called on a config before, its three views list the same keys in the same order, each once, and describe
the same key data: that of the last component that has the key.  `s` is a fresh config, or a structural one, whose keys are given.
Partial: no merge with `omit_ema` took place in between, which breaks it (`C45_ema_false`). -/
theorem C45_views_partial (c : ModelConfig) (s : Cached) (hs : s = fresh c ∨ ∃ keys : Dict Str KeyMeta, keys.keys.Nodup ∧ c = structural keys ∧ s = ⟨c, some keys, none, none⟩)
    (calls : List View) :
    (callMetadata (calls.foldl View.call s)).2 = (callKeys (calls.foldl View.call s)).2.map (fun p => (p.1, ⟨p.2.shape, p.2.dtype⟩)) ∧
    (callAliases (calls.foldl View.call s)).2 = (callKeys (calls.foldl View.call s)).2.map (fun p => (p.1, p.2.aliases)) ∧
    (callKeys (calls.foldl View.call s)).2.keys.Nodup ∧
    (∀ k, k ∈ (callKeys (calls.foldl View.call s)).2.keys ↔ ∃ p ∈ c.components, k ∈ Dict.keys p.2) ∧
    (∀ k pre name comp post km, c.components = pre ++ (name, comp) :: post → (Dict.keys comp).Nodup → (k, km) ∈ comp →
      (∀ p ∈ post, k ∉ Dict.keys p.2) → (callKeys (calls.foldl View.call s)).2.get? k = some km) := by
  have h0 : Coherent s ∧ s.config = c := by
    rcases hs with h | ⟨keys, hk, h, h'⟩
    · rw [h]; exact ⟨⟨.inl rfl, .inl rfl, .inl rfl⟩, rfl⟩
    · rw [h']
      refine ⟨⟨.inr ?_, .inl rfl, .inl rfl⟩, rfl⟩
      rw [h]
      rw [structural_keys hk]
  have h1 : ∀ calls : List View, Coherent (calls.foldl View.call s) ∧ (calls.foldl View.call s).config = c := by
    intro calls
    induction calls using List.reverseRecOn with
    | nil => exact h0
    | append_singleton calls v ih =>
      rw [List.foldl_append]
      have := coherent_calls ih.1 v
      exact ⟨this.1, this.2.trans ih.2⟩
  obtain ⟨h2, h3⟩ := h1 calls
  obtain ⟨e1, e2, e3⟩ := coherent_views h2
  rw [e1, e2, e3, h3]
  refine ⟨metadata_map c, aliases_map c, Dict.nodup_ofList _, ?_, ?_⟩
  · intro k
    unfold ModelConfig.keys
    rw [Dict.mem_keys_ofList]
    simp only [List.mem_map, List.mem_flatMap, Dict.keys]
    constructor
    · rintro ⟨q, ⟨p, hp, hq⟩, rfl⟩; exact ⟨p, hp, q, hq, rfl⟩
    · rintro ⟨p, hp, q, hq, rfl⟩; exact ⟨q, ⟨p, hp, hq⟩, rfl⟩
  · intro k pre name comp post km hc hn hm hpost
    unfold ModelConfig.keys Dict.ofList
    rw [hc, List.flatMap_append, List.flatMap_cons, Dict.update_append, Dict.update_append]
    have hrest : ∀ (d e : Dict Str KeyMeta), k ∉ Dict.keys e → (Dict.update d e).get? k = d.get? k := by
      intro d e
      unfold Dict.update
      induction e generalizing d with
      | nil => intro _; rfl
      | cons p e ih =>
        intro he
        simp only [Dict.keys, List.map_cons, List.mem_cons, not_or] at he
        rw [List.foldl_cons, ih _ he.2, Dict.get?_set_ne _ _ (Ne.symm he.1)]
    rw [hrest]
    · rw [Dict.get?_update _ hn, Dict.get?_of_mem hn hm]; rfl
    · simp only [Dict.keys, List.mem_map, List.mem_flatMap, not_exists, not_and]
      rintro q ⟨p, hp, hq⟩ rfl
      exact hpost p hp (List.mem_map.2 ⟨q, hq, rfl⟩)

/-- Two components share a key: the later one wins, the position of the first is kept. -/
example : (callKeys ([View.metadata, .keys, .aliases].foldl View.call (fresh ⟨"a-b".toList, [("x".toList, [("k".toList, ⟨some [1], none, [], false⟩), ("l".toList, ⟨none, none, [], true⟩)]),
    ("y".toList, [("k".toList, ⟨some [2], none, ["m".toList], true⟩)])]⟩))).2 =
    [("k".toList, ⟨some [2], none, ["m".toList], true⟩), ("l".toList, ⟨none, none, [], true⟩)] := by decide +kernel

/-! ## C38 -/
namespace Ex

def cfg : ModelConfig :=
  ⟨"t-c".toList, [("unet".toList, [("k1".toList, ⟨some [2], some "float16".toList, [], false⟩)]),
    ("ema".toList, [("e1".toList, ⟨some [2], some "float16".toList, [], true⟩)])]⟩

end Ex

example : Ex.cfg.keys.keys = ["k1".toList, "e1".toList] := by decide +kernel

/-- The keys a merge leaves in the config's cache. -/
def cacheKeys (c : ModelConfig) (h : List MergeCall) : Dict Str TensorMeta :=
  c.metadata.filter fun p => ¬ (h.any (fun m => m.omitExtra && m.omitEma) = true ∧ p.1 ∈ emaKeys c)

theorem afterMerges_state (c : ModelConfig) (h : List MergeCall) :
    (afterMerges c h).config = c ∧ (callMetadata (afterMerges c h)).2 = cacheKeys c h := by
  induction h using List.reverseRecOn with
  | nil =>
    refine ⟨rfl, ?_⟩
    simp only [afterMerges, List.foldl_nil, fresh, callMetadata, cacheKeys, List.any_nil]
    exact (List.filter_eq_self.2 (by simp)).symm
  | append_singleton h m ih =>
    obtain ⟨h1, h2⟩ := ih
    have hstep : afterMerges c (h ++ [m]) = (mergeKeys (afterMerges c h) m.omitExtra m.omitEma m.extra).1 := by
      unfold afterMerges; rw [List.foldl_append]; rfl
    have hcfg : (callMetadata (afterMerges c h)).1.config = c := by
      unfold callMetadata
      cases (afterMerges c h).metadata <;> exact h1
    rw [hstep]
    unfold mergeKeys
    cases hx : m.omitExtra with
    | false =>
      simp only [Bool.false_eq_true, if_false]
      have hc : ∀ s, (callAliases s).1.config = s.config ∧ (callAliases s).1.metadata = s.metadata := by
        intro s; unfold callAliases; cases s.aliases <;> exact ⟨rfl, rfl⟩
      refine ⟨(hc _).1.trans hcfg, ?_⟩
      have hm : (callMetadata (callAliases (callMetadata (afterMerges c h)).1).1).2 = (callMetadata (afterMerges c h)).2 := by
        have : ∀ s, (callMetadata (callAliases (callMetadata s).1).1).2 = (callMetadata s).2 := by
          rintro ⟨c, k, m, a⟩
          cases m <;> cases a <;> rfl
        exact this _
      rw [hm, h2]
      unfold cacheKeys
      simp [hx]
    | true =>
      simp only [if_true]
      refine ⟨hcfg, ?_⟩
      have hcall : ∀ (s : Cached) (d : Dict Str TensorMeta), (callMetadata { s with metadata := some d }).2 = d := fun _ _ => rfl
      rw [hcall, h2, hcfg]
      unfold cacheKeys
      rw [List.filter_filter]
      congr 1
      funext p
      unfold emaKeys
      simp only [List.any_append, List.any_cons, List.any_nil, Bool.or_false, hx, Bool.true_and, Bool.or_eq_true]
      cases c.components.get? "ema".toList with
      | none => simp
      | some e =>
        cases hy : m.omitEma with
        | false => simp
        | true => by_cases hp : p.1 ∈ Dict.keys e <;> simp [hp]

/-- **C38, as it is.**  The keys a merge considers: with `omit_extra_keys`, the keys of the config in order, without the ema keys if this
merge or *any earlier merge with `omit_extra_keys`* in the process was told to omit them. -/
theorem C38_history (c : ModelConfig) (h : List MergeCall) (omitEma : Bool) (extra : Dict Str TensorMeta) :
    (mergeKeys (afterMerges c h) true omitEma extra).2 =
      c.keys.keys.filter fun k => ¬ ((omitEma = true ∨ ∃ m ∈ h, m.omitExtra = true ∧ m.omitEma = true) ∧ k ∈ emaKeys c) := by
  obtain ⟨h1, h2⟩ := afterMerges_state c h
  have hcfg : (callMetadata (afterMerges c h)).1.config = c := by
    unfold callMetadata
    cases (afterMerges c h).metadata <;> exact h1
  unfold mergeKeys
  simp only [if_true]
  rw [h2, hcfg]
  unfold cacheKeys
  rw [List.filter_filter, metadata_map]
  unfold Dict.keys
  rw [List.filter_map, List.filter_map, List.map_map]
  have hmap : ((fun x : Str × TensorMeta => x.1) ∘ fun p : Str × KeyMeta => (p.1, p.2.metadata)) = fun p => p.1 := rfl
  rw [hmap]
  congr 1
  apply List.filter_congr
  intro p _
  simp only [Function.comp, List.any_eq_true, Bool.and_eq_true]
  unfold emaKeys
  cases c.components.get? "ema".toList with
  | none => simp
  | some e =>
    have hp' : (∀ x, (p.1, x) ∉ e) ↔ p.1 ∉ Dict.keys e := by simp [Dict.keys]
    by_cases hp : p.1 ∈ Dict.keys e
    · cases omitEma
      · simp [hp]
      · simp [hp]; exact fun h => absurd hp (hp'.1 h)
    · cases omitEma
      · simp [hp]
      · simp [hp]; exact hp'.2 hp

/-- **C38, the part that holds.**  With `omit_ema` (the default with `omit_extra_keys`) the keys considered do not depend on earlier merges. -/
theorem C38_omit_partial (c : ModelConfig) (h : List MergeCall) (extra extra' : Dict Str TensorMeta) :
    (mergeKeys (afterMerges c h) true true extra).2 = (mergeKeys (fresh c) true true extra').2 := by
  have h0 : fresh c = afterMerges c [] := rfl
  rw [h0, C38_history, C38_history]
  simp

/-- A merge with default options makes all later merges in the process drop the ema keys, even those that ask for them. -/
theorem C38_ema_false : ∃ (c : ModelConfig) (h : List MergeCall),
    (mergeKeys (fresh c) true false []).2 = ["k1".toList, "e1".toList] ∧ (mergeKeys (afterMerges c h) true false []).2 = ["k1".toList] :=
  ⟨Ex.cfg, [⟨true, true, []⟩], by decide +kernel, by decide +kernel⟩

example : (mergeKeys (afterMerges Ex.cfg [⟨false, true, []⟩, ⟨true, false, []⟩]) true false []).2 = ["k1".toList, "e1".toList] := by
  decide +kernel

/-- After such a merge the views of the config disagree. -/
theorem C45_ema_false : ∃ (c : ModelConfig) (h : List MergeCall),
    (callMetadata (afterMerges c h)).2.keys ≠ (callKeys (afterMerges c h)).2.keys :=
  ⟨Ex.cfg, [⟨true, true, []⟩], by decide +kernel⟩

end Verif.Registry
