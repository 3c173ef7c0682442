import Verif.Proofs.Reserve

namespace Verif.StreamOut
open Spec

theorem entriesFrom_start_ge (off : ℕ) (l : Log) : ∀ p ∈ entriesFrom off l, off ≤ p.2.start := by
  induction l generalizing off with
  | nil => simp [entriesFrom]
  | cons q l ih =>
    obtain ⟨k, t⟩ := q
    intro p hp
    simp only [entriesFrom, List.mem_cons] at hp
    rcases hp with rfl | hp
    · exact le_refl _
    · exact le_trans (by omega) (ih _ p hp)

theorem entriesFrom_pairwise (off : ℕ) (l : Log) :
    (entriesFrom off l).Pairwise fun p q => p.2.stop ≤ q.2.start := by
  induction l generalizing off with
  | nil => simp [entriesFrom]
  | cons q l ih =>
    obtain ⟨k, t⟩ := q
    simp only [entriesFrom, List.pairwise_cons]
    exact ⟨fun p hp => entriesFrom_start_ge _ l p hp, ih _⟩

theorem entriesFrom_chain (off : ℕ) (l : Log) :
    Chain off ((entriesFrom off l).map (·.2)) (off + (bytesOf l).length) := by
  induction l generalizing off with
  | nil => simp [entriesFrom, Chain]
  | cons q l ih =>
    obtain ⟨k, t⟩ := q
    simp only [entriesFrom, List.map_cons, Chain, bytesOf_cons, List.length_append]
    refine ⟨trivial, by omega, ?_⟩
    have := ih (off + t.bytes.length)
    rwa [Nat.add_assoc] at this

theorem pairwise_or {α : Type} {R : α → α → Prop} {l : List α} (h : l.Pairwise R) {a b : α} (ha : a ∈ l) (hb : b ∈ l)
    (hne : a ≠ b) : R a b ∨ R b a := by
  induction l with
  | nil => simp at ha
  | cons x l ih =>
    rw [List.pairwise_cons] at h
    rcases List.mem_cons.1 ha with ha' | ha' <;> rcases List.mem_cons.1 hb with hb' | hb'
    · exact absurd (ha'.trans hb'.symm) hne
    · rw [ha']; exact Or.inl (h.1 _ hb')
    · rw [hb']; exact Or.inr (h.1 _ ha')
    · exact ih h.2 ha' hb'

theorem entries_perm {h h' : Header} (hp : h.Perm h') : (entries h).Perm (entries h') := hp.filterMap _

theorem entries_tensors (l : List (Key × Entry)) :
    entries (l.map fun p => (p.1, HVal.tensor p.2)) = l.map (·.2) := by
  induction l with
  | nil => rfl
  | cons p l ih =>
    have : entries ((p :: l).map fun p => (p.1, HVal.tensor p.2)) =
      p.2 :: entries (l.map fun p => (p.1, HVal.tensor p.2)) := by simp [entries]
    rw [this, ih]; rfl

theorem entries_init (recipe : Option (List Char)) (l : Header) : entries (initHeader recipe ++ l) = entries l := by
  simp [entries, initHeader]

/-! ## Buffer bound -/

structure BInv (minBuf b : ℕ) (ts : TState) : Prop where
  minLe : minBuf ≤ ts.buffer.length
  le : ts.buffer.length ≤ max minBuf b
  used : ts.used ≤ ts.buffer.length
  wl : ∀ k t, ts.pc = .waitLock k t → t.bytes.length ≤ b
  fl : ∀ off k t, ts.pc = .flushed off k t → t.bytes.length ≤ b ∧ ts.used = 0

theorem store_binv {minBuf b : ℕ} {ts : TState} (k : Key) (t : Tensor) (h1 : minBuf ≤ ts.buffer.length)
    (h2 : ts.buffer.length ≤ max minBuf b) (h3 : ts.used + t.bytes.length ≤ ts.buffer.length) :
    BInv minBuf b (store ts k t) := by
  have hl : (store ts k t).buffer.length = ts.buffer.length := by simp [store]; omega
  refine ⟨by rw [hl]; exact h1, by rw [hl]; exact h2, by rw [hl]; simpa [store] using h3, ?_, ?_⟩ <;>
    intros <;> simp [store] at *

theorem step_minBuf {s s' : State} {a : Action} (h : step s a = some s') : s'.minBuf = s.minBuf := by
  cases a <;> simp only [step] at h
  · split at h
    · cases h; rfl
    · cases h
  · split at h
    · split at h
      · cases h; rfl
      · cases h
    · cases h
  · split at h
    · split at h
      · cases h; rfl
      · cases h
    · cases h

theorem step_binv {tid b : ℕ} {s s' : State} {a : Action} (h : step s a = some s')
    (ha : ∀ k t, a = .begin tid k t → t.bytes.length ≤ b)
    (hI : ∀ ts, s.threads.get? tid = some ts → BInv s.minBuf b ts) :
    ∀ ts, s'.threads.get? tid = some ts → BInv s'.minBuf b ts := by
  have hm := step_minBuf h
  rw [hm]
  intro ts hts
  cases a with
  | begin i k t =>
    simp only [step] at h
    split at h
    · rename_i hpc
      cases h
      simp only [Dict.get?_set] at hts
      split at hts
      · rename_i hi
        subst hi
        simp only [Option.some.injEq] at hts
        subst hts
        have hts0 : BInv s.minBuf b ((s.threads.get? i).getD ⟨List.replicate s.minBuf 0, 0, [], .idle⟩) := by
          cases hg : s.threads.get? i with
          | none => refine ⟨by simp, by simp, by simp, ?_, ?_⟩ <;> intros <;> simp at *
          | some x => exact hI x hg
        have ht := ha k t rfl
        split
        · refine ⟨hts0.minLe, hts0.le, hts0.used, ?_, ?_⟩
          · intro k' t' he; simp at he; rw [← he.2]; exact ht
          · intro off k' t' he; simp at he
        · apply store_binv k t hts0.minLe hts0.le
          have := hts0.used
          omega
      · exact hI ts hts
    · cases h
  | locked i =>
    simp only [step] at h
    split at h
    · rename_i x hx
      split at h
      · rename_i k t hpc
        cases h
        simp only [Dict.get?_set] at hts
        split at hts
        · rename_i hi
          subst hi
          have hB := hI x hx
          simp only [Option.some.injEq] at hts
          subst hts
          refine ⟨hB.minLe, hB.le, by simp, ?_, ?_⟩
          · intro k' t' he; simp at he
          · intro off k' t' he
            simp only [PC.flushed.injEq] at he
            rw [← he.2.2]; exact ⟨hB.wl k t hpc, rfl⟩
        · exact hI ts hts
      · cases h
    · cases h
  | finish i =>
    simp only [step] at h
    split at h
    · rename_i x hx
      split at h
      · rename_i off k t hpc
        cases h
        simp only [Dict.get?_set] at hts
        split at hts
        · rename_i hi
          subst hi
          have hB := hI x hx
          simp only [Option.some.injEq] at hts
          subst hts
          obtain ⟨ht, hu⟩ := hB.fl off k t hpc
          have hl : (resized s.minBuf x.buffer t.bytes.length).length = max s.minBuf t.bytes.length := by
            unfold resized
            simp only
            split
            · simp
            · simp; omega
          apply store_binv k t <;> simp only [hl, hu] <;> omega
        · exact hI ts hts
      · cases h
    · cases h

theorem run_binv {tid b : ℕ} (as : List Action) {s s' : State} (h : run s as = some s')
    (hb : ∀ p ∈ storedBy tid as, p.2.bytes.length ≤ b)
    (hI : ∀ ts, s.threads.get? tid = some ts → BInv s.minBuf b ts) :
    s'.minBuf = s.minBuf ∧ ∀ ts, s'.threads.get? tid = some ts → BInv s'.minBuf b ts := by
  induction as generalizing s with
  | nil => simp [run] at h; subst h; exact ⟨rfl, hI⟩
  | cons a as ih =>
    simp only [run] at h
    cases hs : step s a with
    | none => rw [hs] at h; cases h
    | some s1 =>
      rw [hs] at h
      simp only [Option.bind_some] at h
      have := ih h (by
        intro p hp
        apply hb
        cases a <;> simp only [storedBy]
        · split
          · exact List.mem_cons_of_mem _ hp
          · exact hp
        · exact hp
        · exact hp) (step_binv hs (by
          intro k t he
          subst he
          exact hb (k, t) (by simp [storedBy])) hI)
      exact ⟨this.1.trans (step_minBuf hs), this.2⟩

end Verif.StreamOut
