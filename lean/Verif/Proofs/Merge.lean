import Verif.Spec.Merge
import Mathlib.Data.List.Perm.Basic
import Mathlib.Data.List.Nodup
import Mathlib.Data.List.Perm.Subperm

/-!
# Invariant of merges
-/
namespace Verif.Merge
open Method Spec
variable {V : Type}

/-- The assignment made by a finished key -/
def storeOf (job : Str → Except Err V) (k : Str) : Option (Str × V) := (track (job k)).1.map fun v => (k, v)

structure Inv (keys : List Str) (job : Str → Except Err V) (s : State V) (fin cancelled : List Str) : Prop where
  perm : (s.toSubmit ++ s.queue ++ s.running ++ fin ++ cancelled).Perm keys
  stores : s.stores = fin.filterMap (storeOf job)
  done : ∀ k o, (k, o) ∈ s.done → k ∈ fin ∧ o = (track (job k)).2
  unseen : ∀ k ∈ fin, ∀ e, (track (job k)).2 = some e → (k, some e) ∈ s.done
  quiet : s.raising = none → cancelled = []
  raised : ∀ e, s.raising = some e → ∃ k ∈ fin, (track (job k)).2 = some e

theorem inv_init (keys : List Str) (job : Str → Except Err V) : Inv keys job (init keys) [] [] := by
  constructor <;> simp [init]

theorem perm_move {α : Type} [BEq α] [LawfulBEq α] {a b c d e : List α} {k : α} (h : k ∈ c) :
    (a ++ b ++ c.erase k ++ (d ++ [k]) ++ e).Perm (a ++ b ++ c ++ d ++ e) := by
  refine List.Perm.append_right e ?_
  rw [List.append_assoc (a ++ b), List.append_assoc (a ++ b)]
  refine List.Perm.append_left (a ++ b) ?_
  rw [← List.append_assoc]
  have h1 : (c.erase k ++ d ++ [k]).Perm (k :: (c.erase k ++ d)) := List.perm_append_singleton k _
  have h2 : (k :: (c.erase k ++ d)).Perm (c ++ d) := by
    rw [← List.cons_append]
    exact (List.perm_cons_erase h).symm.append_right d
  exact h1.trans h2

theorem inv_step {keys : List Str} {n : ℕ} {job : Str → Except Err V} {s t : State V} {fin can : List Str}
    (h : Inv keys job s fin can) (hs : Step n job s t) : ∃ fin' can', Inv keys job t fin' can' := by
  cases hs with
  | submit k ks hk =>
    refine ⟨fin, can, ?_, h.stores, h.done, h.unseen, h.quiet, h.raised⟩
    refine List.Perm.trans ?_ h.perm
    rw [hk]
    refine List.Perm.append_right _ (List.Perm.append_right _ (List.Perm.append_right _ ?_))
    simp only
    rw [← List.append_assoc]
    exact List.perm_append_singleton k _
  | start k q hk hn =>
    refine ⟨fin, can, ?_, h.stores, h.done, h.unseen, h.quiet, h.raised⟩
    refine List.Perm.trans ?_ h.perm
    rw [hk]
    refine List.Perm.append_right _ (List.Perm.append_right _ ?_)
    simp only
    rw [List.append_assoc, List.append_assoc]
    refine List.Perm.append_left _ ?_
    rw [← List.append_assoc]
    exact List.perm_append_singleton k _
  | finish k hk =>
    refine ⟨fin ++ [k], can, ?_, ?_, ?_, ?_, h.quiet, ?_⟩
    · exact (perm_move hk).trans h.perm
    · simp only [List.filterMap_append, ← h.stores]
      cases ht : (track (job k)).1 with
      | none => simp [storeOf, ht]
      | some v => simp [storeOf, ht]
    · intro k' o hm
      rcases List.mem_append.1 hm with hm | hm
      · obtain ⟨h1, h2⟩ := h.done k' o hm
        exact ⟨List.mem_append_left _ h1, h2⟩
      · simp only [List.mem_singleton, Prod.mk.injEq] at hm
        obtain ⟨rfl, rfl⟩ := hm
        exact ⟨by simp, rfl⟩
    · intro k' hk' e he
      rcases List.mem_append.1 hk' with hk' | hk'
      · exact List.mem_append_left _ (h.unseen k' hk' e he)
      · simp only [List.mem_singleton] at hk'
        subst hk'
        refine List.mem_append_right _ ?_
        simp [he]
    · intro e he
      obtain ⟨k', h1, h2⟩ := h.raised e he
      exact ⟨k', List.mem_append_left _ h1, h2⟩
  | see k h1 h2 hk =>
    refine ⟨fin, can, h.perm, h.stores, ?_, ?_, h.quiet, h.raised⟩
    · intro k' o hm
      exact h.done k' o (List.mem_of_mem_erase hm)
    · intro k' hk' e he
      exact (List.mem_erase_of_ne (by simp)).2 (h.unseen k' hk' e he)
  | fail k e h1 h2 hk =>
    refine ⟨fin, can, h.perm, h.stores, h.done, h.unseen, ?_, ?_⟩
    · intro hr; simp at hr
    · intro e' he
      obtain ⟨h3, h4⟩ := h.done k _ hk
      simp only [Option.some.injEq] at he
      subst he
      exact ⟨k, h3, h4.symm⟩
  | cancel k h1 hk =>
    refine ⟨fin, can ++ [k], ?_, h.stores, h.done, h.unseen, ?_, h.raised⟩
    · refine List.Perm.trans ?_ h.perm
      have : (s.toSubmit ++ s.queue.erase k ++ s.running ++ fin ++ (can ++ [k])).Perm (s.toSubmit ++ (k :: s.queue.erase k) ++ s.running ++ fin ++ can) := by
        rw [← List.append_assoc]
        refine (List.perm_append_singleton k _).trans ?_
        rw [← List.cons_append, ← List.cons_append, ← List.cons_append]
        refine List.Perm.append_right _ (List.Perm.append_right _ (List.Perm.append_right _ ?_))
        exact List.perm_middle.symm
      refine this.trans ?_
      refine List.Perm.append_right _ (List.Perm.append_right _ (List.Perm.append_right _ (List.Perm.append_left _ ?_)))
      exact (List.perm_cons_erase hk).symm
    · intro hr
      simp only at hr
      rw [hr] at h1
      simp at h1

theorem inv_steps {keys : List Str} {n : ℕ} {job : Str → Except Err V} {s : State V} (h : Steps n job (init keys) s) :
    ∃ fin can, Inv keys job s fin can := by
  obtain ⟨s0, hs0⟩ : ∃ s0 : State V, s0 = init keys := ⟨_, rfl⟩
  rw [← hs0] at h
  induction h with
  | refl => subst hs0; exact ⟨[], [], inv_init keys job⟩
  | step _ h' ih =>
    obtain ⟨fin, can, hi⟩ := ih
    exact inv_step hi h'

theorem track_none_iff {r : Except Err V} : (track r).2 = none ↔ ∀ e, r = .error e → e = .stateDictKey := by
  unfold track
  split
  · simp
  · simp
  · rename_i e hne
    simp only [reduceCtorEq, Except.error.injEq, false_iff]
    intro h
    exact hne (h e rfl)

theorem track_some_iff {r : Except Err V} {e : Err} : (track r).2 = some e ↔ r = .error e ∧ e ≠ .stateDictKey := by
  unfold track
  split
  · simp
  · simp only [reduceCtorEq, Except.error.injEq, false_iff, not_and, not_not]; exact fun h => h.symm
  · rename_i e' hne
    simp only [Option.some.injEq, Except.error.injEq]
    constructor
    · rintro rfl; exact ⟨rfl, fun h => hne h⟩
    · exact fun h => h.1

theorem track_fst_iff {r : Except Err V} {v : V} : (track r).1 = some v ↔ r = .ok v := by
  unfold track
  split <;> simp

theorem over_cases {s : State V} {o : Outcome} (h : s.over = some o) :
    s.toSubmit = [] ∧ s.queue = [] ∧ s.running = [] ∧
      ((o = .returned ∧ s.raising = none ∧ s.done = []) ∨ ∃ e, o = .raised e ∧ s.raising = some e) := by
  unfold State.over at h
  by_cases h1 : s.toSubmit = [] ∧ s.queue = [] ∧ s.running = []
  swap
  · rw [if_neg h1] at h; cases h
  rw [if_pos h1] at h
  refine ⟨h1.1, h1.2.1, h1.2.2, ?_⟩
  cases hr : s.raising with
  | some e => rw [hr] at h; simp only [Option.some.injEq] at h; right; exact ⟨e, h.symm, rfl⟩
  | none =>
    rw [hr] at h
    simp only at h
    split_ifs at h with h2
    left
    simp only [Option.some.injEq] at h
    exact ⟨h.symm, rfl, h2⟩

/-- What a complete run has done, whatever the number of threads -/
theorem runs_facts {n : ℕ} {job : Str → Except Err V} {keys : List Str} {stores : List (Str × V)} {o : Outcome} (h : Runs n job keys stores o) :
    ∃ fin can, (fin ++ can).Perm keys ∧ stores = fin.filterMap (storeOf job) ∧
      (o = .returned → can = [] ∧ ∀ k ∈ keys, (track (job k)).2 = none) ∧
      (∀ e, o = .raised e → ∃ k ∈ keys, (track (job k)).2 = some e) := by
  cases n with
  | zero =>
    have h : sequential job keys = (stores, o) := h
    clear * - h
    induction keys generalizing stores o with
    | nil =>
      simp only [sequential, Prod.mk.injEq] at h
      obtain ⟨rfl, rfl⟩ := h
      exact ⟨[], [], by simp, rfl, by simp, by simp⟩
    | cons k ks ih =>
      unfold sequential at h
      split at h
      · rename_i x e ht
        simp only [Prod.mk.injEq] at h
        obtain ⟨rfl, rfl⟩ := h
        refine ⟨[], k :: ks, by simp, by simp, by simp, ?_⟩
        intro e' he'
        cases he'
        exact ⟨k, by simp, by rw [ht]⟩
      · rename_i v ht
        simp only [Prod.mk.injEq] at h
        obtain ⟨fin, can, h1, h2, h3, h4⟩ := ih (stores := (sequential job ks).1) (o := (sequential job ks).2) rfl
        refine ⟨k :: fin, can, by simpa using h1, ?_, ?_, ?_⟩
        · rw [← h.1, h2]; simp [storeOf, ht]
        · intro ho
          obtain ⟨h5, h6⟩ := h3 (h.2.trans ho)
          exact ⟨h5, by intro k' hk'; rcases List.mem_cons.1 hk' with rfl | hk'; · rw [ht]
                        · exact h6 k' hk'⟩
        · intro e he
          obtain ⟨k', h5, h6⟩ := h4 e (h.2.trans he)
          exact ⟨k', by simp [h5], h6⟩
      · rename_i ht
        obtain ⟨fin, can, h1, h2, h3, h4⟩ := ih h
        refine ⟨k :: fin, can, by simpa using h1, ?_, ?_, ?_⟩
        · rw [h2]; simp [storeOf, ht]
        · intro ho
          obtain ⟨h5, h6⟩ := h3 ho
          exact ⟨h5, by intro k' hk'; rcases List.mem_cons.1 hk' with rfl | hk'; · rw [ht]
                        · exact h6 k' hk'⟩
        · intro e he
          obtain ⟨k', h5, h6⟩ := h4 e he
          exact ⟨k', by simp [h5], h6⟩
  | succ n =>
    obtain ⟨s, hs, ho, rfl⟩ := h
    obtain ⟨fin, can, hi⟩ := inv_steps hs
    obtain ⟨h1, h2, h3, h4⟩ := over_cases ho
    have hp := hi.perm
    rw [h1, h2, h3] at hp
    simp only [List.append_nil, List.nil_append] at hp
    refine ⟨fin, can, hp, hi.stores, ?_, ?_⟩
    · intro hret
      rcases h4 with ⟨_, h5, h6⟩ | ⟨e, h5, _⟩
      · have hcan := hi.quiet h5
        refine ⟨hcan, ?_⟩
        intro k hk
        rw [hcan, List.append_nil] at hp
        cases ht : (track (job k)).2 with
        | none => rfl
        | some e =>
          have := hi.unseen k (hp.mem_iff.2 hk) e ht
          rw [h6] at this
          simp at this
      · rw [hret] at h5; cases h5
    · intro e he
      rcases h4 with ⟨h5, _⟩ | ⟨e', h5, h6⟩
      · rw [he] at h5; cases h5
      · rw [he] at h5
        cases h5
        obtain ⟨k, hk, ht⟩ := hi.raised e h6
        exact ⟨k, hp.mem_iff.1 (List.mem_append_left _ hk), ht⟩

theorem stores_keys (job : Str → Except Err V) (l : List Str) : Dict.keys (l.filterMap (storeOf job)) = l.filter fun k => (track (job k)).1.isSome := by
  induction l with
  | nil => rfl
  | cons k l ih =>
    cases ht : (track (job k)).1 with
    | none => simp only [List.filterMap_cons, storeOf, ht, Option.map_none, List.filter_cons]; simpa using ih
    | some v =>
      simp only [List.filterMap_cons, storeOf, ht, Option.map_some, List.filter_cons, Dict.keys, List.map_cons, Option.isSome_some, if_true]
      congr 1

theorem get?_stores {job : Str → Except Err V} {l : List Str} (hl : l.Nodup) (k : Str) :
    Dict.get? (l.filterMap (storeOf job)) k = if k ∈ l then (track (job k)).1 else none := by
  have hnd : (Dict.keys (l.filterMap (storeOf job))).Nodup := by rw [stores_keys]; exact hl.filter _
  split_ifs with hk
  · cases ht : (track (job k)).1 with
    | none =>
      rw [Dict.get?_eq_none_iff, stores_keys]
      simp [ht]
    | some v =>
      rw [Dict.get?_eq_some_iff hnd, List.mem_filterMap]
      exact ⟨k, hk, by simp [storeOf, ht]⟩
  · rw [Dict.get?_eq_none_iff, stores_keys]
    simp [hk]

theorem get?_final {job : Str → Except Err V} {l : List Str} (hl : l.Nodup) (out : Dict Str V) (k : Str) :
    (finalOutput out (l.filterMap (storeOf job))).get? k = if k ∈ l then (match job k with | .ok v => some v | .error _ => out.get? k) else out.get? k := by
  have hnd : (Dict.keys (l.filterMap (storeOf job))).Nodup := by rw [stores_keys]; exact hl.filter _
  unfold finalOutput
  rw [Dict.get?_update _ hnd, get?_stores hl]
  split_ifs
  · unfold track
    cases job k with
    | ok v => rfl
    | error e => cases e <;> rfl
  · rfl

/-! ### Progress and termination -/

/-- Work left -/
def left (s : State V) : ℕ :=
  4 * s.toSubmit.length + 3 * s.queue.length + 2 * s.running.length + s.done.length + (if s.raising = none then 1 else 0)

theorem left_step {n : ℕ} {job : Str → Except Err V} {s t : State V} (h : Step n job s t) : left t < left s := by
  cases h with
  | submit k ks hk => unfold left; simp only [hk, List.length_cons, List.length_append, List.length_nil]; omega
  | start k q hk hn => unfold left; simp only [hk, List.length_cons, List.length_append, List.length_nil]; omega
  | finish k hk =>
    have := List.length_erase_of_mem hk
    have := List.length_pos_of_mem hk
    unfold left; simp only [List.length_append, List.length_cons, List.length_nil]; omega
  | see k h1 h2 hk =>
    have := List.length_erase_of_mem hk
    have := List.length_pos_of_mem hk
    unfold left; simp only; omega
  | fail k e h1 h2 hk => unfold left; simp [h2]
  | cancel k h1 hk =>
    have := List.length_erase_of_mem hk
    have := List.length_pos_of_mem hk
    unfold left; simp only; omega

theorem progress {n : ℕ} (hn : 0 < n) {job : Str → Except Err V} {s : State V} (h : s.over = none) : ∃ t, Step n job s t := by
  cases hts : s.toSubmit with
  | cons k ks => exact ⟨_, .submit s k ks hts⟩
  | nil =>
    cases hr : s.running with
    | cons k r => exact ⟨_, .finish s k (by rw [hr]; simp)⟩
    | nil =>
      cases hq : s.queue with
      | cons k q => exact ⟨_, .start s k q hq (by rw [hr]; exact hn)⟩
      | nil =>
        unfold State.over at h
        rw [if_pos ⟨hts, hq, hr⟩] at h
        cases hra : s.raising with
        | some e => rw [hra] at h; simp at h
        | none =>
          rw [hra] at h
          simp only [ite_eq_right_iff, reduceCtorEq, imp_false] at h
          cases hd : s.done with
          | nil => exact absurd hd h
          | cons p d =>
            obtain ⟨k, o⟩ := p
            cases o with
            | none => exact ⟨_, .see s k hts hra (by rw [hd]; simp)⟩
            | some e => exact ⟨_, .fail s k e hts hra (by rw [hd]; simp)⟩

end Verif.Merge
