import Mathlib.Tactic.Common
import Mathlib.Data.List.Basic

/-!
# Python dictionaries

Python's `dict` (and `OrderedDict`, as used in sd_mecha) keeps insertion order, and assigning to an
existing key keeps its position.  It is modelled as an association list.
-/
namespace Verif

/-- An insertion-ordered mapping (python `dict`). -/
abbrev Dict (κ ν : Type _) := List (κ × ν)

namespace Dict
universe u v
variable {κ : Type u} {ν : Type v} [DecidableEq κ]

/-- `d.get(k)` -/
def get? : Dict κ ν → κ → Option ν
  | [], _ => none
  | (k', v) :: d, k => if k' = k then some v else get? d k

/-- `d[k] = v` -/
def set : Dict κ ν → κ → ν → Dict κ ν
  | [], k, v => [(k, v)]
  | (k', v') :: d, k, v => if k' = k then (k', v) :: d else (k', v') :: set d k v

/-- `d.keys()` -/
def keys (d : Dict κ ν) : List κ := d.map (·.1)

/-- `d.update(e)` -/
def update (d e : Dict κ ν) : Dict κ ν := e.foldl (fun d p => d.set p.1 p.2) d

/-- `del d[k]` / `d.pop(k)` for a key that may be absent -/
def erase (d : Dict κ ν) (k : κ) : Dict κ ν := d.filter (fun p => p.1 ≠ k)

/-- `dict(pairs)` -/
def ofList (l : List (κ × ν)) : Dict κ ν := update [] l

@[simp] theorem get?_nil (k : κ) : get? ([] : Dict κ ν) k = none := rfl

theorem get?_set (d : Dict κ ν) (k k' : κ) (v : ν) :
    (d.set k v).get? k' = if k = k' then some v else d.get? k' := by
  induction d with
  | nil => simp [set, get?]
  | cons p d ih =>
    obtain ⟨a, b⟩ := p
    by_cases h : a = k
    · subst h
      by_cases h' : a = k' <;> simp [set, get?, h']
    · simp only [set, h, if_false, get?, ih]
      by_cases h' : a = k'
      · subst h'; simp [Ne.symm h]
      · simp [h']

@[simp] theorem get?_set_self (d : Dict κ ν) (k : κ) (v : ν) : (d.set k v).get? k = some v := by
  simp [get?_set]

theorem get?_set_ne (d : Dict κ ν) {k k' : κ} (v : ν) (h : k ≠ k') :
    (d.set k v).get? k' = d.get? k' := by
  simp [get?_set, h]

theorem get?_eq_none_iff (d : Dict κ ν) (k : κ) : d.get? k = none ↔ k ∉ d.keys := by
  induction d with
  | nil => simp [keys]
  | cons p d ih =>
    obtain ⟨a, b⟩ := p
    by_cases h : a = k
    · simp [get?, keys, h]
    · simp only [get?, h, if_false, ih, keys, List.map_cons, List.mem_cons, not_or]
      constructor
      · intro h2; exact ⟨fun e => h e.symm, h2⟩
      · intro h2; exact h2.2

theorem get?_isSome_iff (d : Dict κ ν) (k : κ) : (d.get? k).isSome ↔ k ∈ d.keys := by
  cases h : d.get? k with
  | none => simpa using (get?_eq_none_iff d k).1 h
  | some v =>
    simp only [Option.isSome_some, true_iff]
    apply Classical.byContradiction
    intro hn
    rw [(get?_eq_none_iff d k).2 hn] at h
    cases h

theorem mem_of_get? {d : Dict κ ν} {k : κ} {v : ν} (h : d.get? k = some v) : (k, v) ∈ d := by
  induction d with
  | nil => simp [get?] at h
  | cons p d ih =>
    obtain ⟨a, b⟩ := p
    by_cases hk : a = k
    · simp [get?, hk] at h; subst h; subst hk; simp
    · simp [get?, hk] at h; exact List.mem_cons_of_mem _ (ih h)

theorem get?_of_mem {d : Dict κ ν} (hd : d.keys.Nodup) {k : κ} {v : ν} (h : (k, v) ∈ d) :
    d.get? k = some v := by
  induction d with
  | nil => simp at h
  | cons p d ih =>
    obtain ⟨a, b⟩ := p
    simp only [keys, List.map_cons, List.nodup_cons] at hd
    rcases List.mem_cons.1 h with h | h
    · cases h; simp [get?]
    · have hne : a ≠ k := by
        rintro rfl
        exact hd.1 (List.mem_map.2 ⟨_, h, rfl⟩)
      simp only [get?, hne, if_false]
      exact ih hd.2 h

theorem get?_eq_some_iff {d : Dict κ ν} (hd : d.keys.Nodup) {k : κ} {v : ν} :
    d.get? k = some v ↔ (k, v) ∈ d := ⟨mem_of_get?, get?_of_mem hd⟩

theorem keys_set (d : Dict κ ν) (k : κ) (v : ν) :
    (d.set k v).keys = if k ∈ d.keys then d.keys else d.keys ++ [k] := by
  induction d with
  | nil => simp [set, keys]
  | cons p d ih =>
    obtain ⟨a, b⟩ := p
    by_cases h : a = k
    · simp [set, keys, h]
    · have h' : ¬ k = a := fun e => h e.symm
      simp only [keys] at ih
      simp only [set, h, if_false, keys, List.map_cons, List.mem_cons, ih]
      by_cases hk : k ∈ List.map (fun x => x.1) d <;> simp [hk, h']

theorem set_of_not_mem (d : Dict κ ν) (k : κ) (v : ν) (h : k ∉ d.keys) : d.set k v = d ++ [(k, v)] := by
  induction d with
  | nil => simp [set]
  | cons p d ih =>
    obtain ⟨a, b⟩ := p
    simp only [keys, List.map_cons, List.mem_cons, not_or] at h
    simp [set, Ne.symm h.1, ih h.2]

theorem mem_keys_set (d : Dict κ ν) (k k' : κ) (v : ν) :
    k' ∈ (d.set k v).keys ↔ k' = k ∨ k' ∈ d.keys := by
  rw [keys_set]
  split
  · rename_i h
    constructor
    · exact Or.inr
    · rintro (rfl | h'); exacts [h, h']
  · simp [or_comm]

theorem nodup_set {d : Dict κ ν} (hd : d.keys.Nodup) (k : κ) (v : ν) : (d.set k v).keys.Nodup := by
  rw [keys_set]
  split
  · exact hd
  · rename_i h
    rw [List.nodup_append]
    refine ⟨hd, by simp, ?_⟩
    intro a ha b hb
    simp at hb; subst hb
    rintro rfl; exact h ha

@[simp] theorem update_nil (d : Dict κ ν) : d.update [] = d := rfl
@[simp] theorem update_cons (d e : Dict κ ν) (p) : d.update (p :: e) = (d.set p.1 p.2).update e := rfl

theorem update_append (d e f : Dict κ ν) : d.update (e ++ f) = (d.update e).update f := by
  simp [update, List.foldl_append]

theorem mem_keys_update (d e : Dict κ ν) (k : κ) : k ∈ (d.update e).keys ↔ k ∈ d.keys ∨ k ∈ e.keys := by
  induction e generalizing d with
  | nil => simp [keys]
  | cons p e ih =>
    rw [update_cons, ih, mem_keys_set]
    simp only [keys, List.map_cons, List.mem_cons]
    constructor
    · rintro ((h | h) | h) <;> simp [h]
    · rintro (h | h | h) <;> simp [h]

theorem nodup_update {d : Dict κ ν} (hd : d.keys.Nodup) (e : Dict κ ν) : (d.update e).keys.Nodup := by
  induction e generalizing d with
  | nil => exact hd
  | cons p e ih => exact ih (nodup_set hd _ _)

/-- With distinct keys in `e`, `update` takes the value of `e` where there is one. -/
theorem get?_update (d : Dict κ ν) {e : Dict κ ν} (he : e.keys.Nodup) (k : κ) :
    (d.update e).get? k = (e.get? k).or (d.get? k) := by
  induction e generalizing d with
  | nil => simp
  | cons p e ih =>
    obtain ⟨a, b⟩ := p
    simp only [keys, List.map_cons, List.nodup_cons] at he
    rw [update_cons, ih _ he.2, get?_set]
    by_cases h : a = k
    · subst h
      have : get? e a = none := (get?_eq_none_iff e a).2 he.1
      simp [get?, this]
    · simp [get?, h]

theorem update_of_disjoint (d : Dict κ ν) {e : Dict κ ν} (he : e.keys.Nodup)
    (h : ∀ k ∈ e.keys, k ∉ d.keys) : d.update e = d ++ e := by
  induction e generalizing d with
  | nil => simp
  | cons p e ih =>
    obtain ⟨a, b⟩ := p
    simp only [keys, List.map_cons, List.nodup_cons, List.mem_cons, forall_eq_or_imp] at he h
    rw [update_cons, set_of_not_mem _ _ _ h.1, ih _ he.2]
    · simp
    · intro k hk
      simp only [keys, List.map_append, List.map_cons, List.map_nil, List.mem_append,
        List.mem_singleton, not_or]
      refine ⟨h.2 k hk, ?_⟩
      rintro rfl
      exact he.1 hk

theorem ofList_of_nodup {l : Dict κ ν} (h : l.keys.Nodup) : ofList l = l := by
  have := update_of_disjoint ([] : Dict κ ν) h (by simp [keys])
  simpa [ofList] using this

theorem nodup_ofList (l : List (κ × ν)) : (ofList l).keys.Nodup := nodup_update (by simp [keys]) l

theorem get?_erase (d : Dict κ ν) (k k' : κ) : (d.erase k).get? k' = if k = k' then none else d.get? k' := by
  induction d with
  | nil => simp [erase]
  | cons p d ih =>
    obtain ⟨a, b⟩ := p
    by_cases h : a = k
    · subst h
      have : erase ((a, b) :: d) a = erase d a := by simp [erase]
      rw [this, ih]
      by_cases h' : a = k' <;> simp [get?, h']
    · have : erase ((a, b) :: d) k = (a, b) :: erase d k := by simp [erase, h]
      rw [this]
      simp only [get?, ih]
      by_cases h' : a = k'
      · subst h'; simp [Ne.symm h]
      · simp [h']

theorem get?_append (d e : Dict κ ν) (k : κ) : get? (d ++ e) k = (d.get? k).or (e.get? k) := by
  induction d with
  | nil => simp
  | cons p d ih =>
    obtain ⟨a, b⟩ := p
    by_cases h : a = k <;> simp [get?, h, ih]

end Dict
end Verif

namespace Verif.Dict
universe u v
variable {κ : Type u} {ν : Type v} [DecidableEq κ]

theorem mem_set {d : Dict κ ν} {k : κ} {v : ν} {p : κ × ν} (h : p ∈ d.set k v) : p = (k, v) ∨ p ∈ d := by
  induction d with
  | nil => simp [set] at h; exact Or.inl h
  | cons q d ih =>
    obtain ⟨a, b⟩ := q
    unfold set at h
    split at h
    · rename_i hk
      rcases List.mem_cons.1 h with h | h
      · left; rw [h, hk]
      · right; exact List.mem_cons_of_mem _ h
    · rcases List.mem_cons.1 h with h | h
      · right; simp [h]
      · rcases ih h with h | h
        · exact Or.inl h
        · exact Or.inr (List.mem_cons_of_mem _ h)

theorem mem_update {d e : Dict κ ν} {p : κ × ν} (h : p ∈ d.update e) : p ∈ e ∨ p ∈ d := by
  induction e generalizing d with
  | nil => exact Or.inr h
  | cons q e ih =>
    rw [update_cons] at h
    rcases ih h with h | h
    · exact Or.inl (List.mem_cons_of_mem _ h)
    · rcases mem_set h with h | h
      · left; simp [h]
      · exact Or.inr h

theorem mem_ofList {l : List (κ × ν)} {p : κ × ν} (h : p ∈ ofList l) : p ∈ l := by
  rcases mem_update h with h | h
  · exact h
  · simp at h

theorem mem_keys_ofList (l : List (κ × ν)) (k : κ) : k ∈ (ofList l).keys ↔ k ∈ l.map (·.1) := by
  unfold ofList
  rw [mem_keys_update]
  simp [keys]

theorem ofList_append_singleton (l : List (κ × ν)) (k : κ) (v : ν) :
    ofList (l ++ [(k, v)]) = (ofList l).set k v := by
  simp [ofList, update_append]

theorem erase_of_not_mem (d : Dict κ ν) (k : κ) (h : k ∉ d.keys) : d.erase k = d := by
  unfold erase
  rw [List.filter_eq_self]
  intro p hp
  simp only [ne_eq, decide_eq_true_eq]
  rintro rfl
  exact h (List.mem_map.2 ⟨p, hp, rfl⟩)

theorem erase_set (d : Dict κ ν) (k : κ) (v : ν) : (d.set k v).erase k = d.erase k := by
  induction d with
  | nil => simp [set, erase]
  | cons q d ih =>
    obtain ⟨a, b⟩ := q
    by_cases h : a = k
    · simp [set, erase, h]
    · simp only [set, h, if_false]
      simp only [erase, List.filter_cons, ne_eq, h, not_false_eq_true, decide_true, if_true] at ih ⊢
      rw [ih]

theorem perm_erase {d : Dict κ ν} (hd : d.keys.Nodup) {k : κ} {v : ν} (h : d.get? k = some v) :
    d.Perm ((k, v) :: d.erase k) := by
  induction d with
  | nil => simp at h
  | cons q d ih =>
    obtain ⟨a, b⟩ := q
    simp only [keys, List.map_cons, List.nodup_cons] at hd
    by_cases hk : a = k
    · subst hk
      simp [get?] at h
      subst h
      have : erase ((a, b) :: d) a = d := by
        have h0 := erase_of_not_mem d a hd.1
        have h1 : erase ((a, b) :: d) a = erase d a := by simp [erase]
        rw [h1, h0]
      rw [this]
    · simp only [get?, hk, if_false] at h
      have : erase ((a, b) :: d) k = (a, b) :: erase d k := by simp [erase, hk]
      rw [this]
      exact ((ih hd.2 h).cons _).trans (List.Perm.swap _ _ _)

end Verif.Dict
