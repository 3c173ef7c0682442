import Verif.Proofs.ConvertLost

/-! # Further checks of tables -/
namespace Verif.Fast
open Text Convert Data Convert.Spec

noncomputable section

theorem Good.gives_of {src : List (List Entry)} {spec : Text → List Text} {lost : Entry → Bool} {f : Option Conv} {e : Entry} {c : Cert}
    (h : Good src spec lost f e c) (hf : ∀ ks, f ≠ some (.stacked ks)) (hl : ¬ lost e = true) :
    ∃ v, f = some v ∧ Spec.reads v = spec e.key ∧ Gives src.flatten v e.shape := by
  have hg := h.gives
  cases h with
  | rows i₁ j₁ i₂ j₂ i₃ j₃ s₁ s₂ s₃ n hb h₁ h₂ h₃ hf' => exact absurd hf' (hf _)
  | lost h => exact absurd h hl
  | read i j s hs hf' hsh hsp => exact ⟨_, hf', hsp.symm, hsh ▸ .read s hs.mem⟩
  | transposed i j s a b hs hf' hsp hsh he => exact ⟨_, hf', hsp.symm, he ▸ .transposed s a b hs.mem hsh⟩
  | conv1x1 i j s hs hf' hsh hsp =>
    refine ⟨_, hf', hsp.symm, ?_⟩
    rw [← hsh]
    by_cases h1 : s.shape.length = 1
    · rw [if_pos h1]
      obtain ⟨n, hn⟩ := List.length_eq_one_iff.1 h1
      rw [hn]
      exact .kept s n hs.mem hn
    · rw [if_neg h1]
      exact .conv1x1 s hs.mem h1
  | stacked i₁ j₁ i₂ j₂ i₃ j₃ s₁ s₂ s₃ m₁ m₂ m₃ n h₁ h₂ h₃ hf' => exact absurd hf' (hf _)

/-- All entries of a chunk satisfy `p`. -/
def every (p : Entry → Bool) (l : List Entry) : Bool := List.rec true (fun e _ ih => Bool.rec (motive := fun _ => Bool) false ih (p e)) l

theorem every_sound (p : Entry → Bool) (l : List Entry) (h : every p l = true) : ∀ e ∈ l, p e = true := by
  induction l with
  | nil => simp
  | cons a l ih =>
    replace h : Bool.rec (motive := fun _ => Bool) false (every p l) (p a) = true := h
    intro e he
    cases hp : p a with
    | false => rw [hp] at h; cases h
    | true =>
      rw [hp] at h
      rcases List.mem_cons.1 he with rfl | he
      · exact hp
      · exact ih h e he

/-- All entries of all chunks -/
def everywhere (p : Entry → Bool) (src : List (List Entry)) : Bool := src.all (every p)

theorem everywhere_sound (p : Entry → Bool) (src : List (List Entry)) (h : everywhere p src = true) : ∀ e ∈ src.flatten, p e = true := by
  intro e he
  obtain ⟨c, hc, he⟩ := List.mem_flatten.1 he
  exact every_sound p c (List.all_eq_true.1 h c hc) e he

/-- A required entry with a key and a shape -/
def is (k : Text) (shape : List ℕ) (e : Entry) : Bool := eq e.key k && eq e.shape shape && !e.optional

def somewhere (p : Entry → Bool) (src : List (List Entry)) : Bool := src.any fun c => !every (fun e => !p e) c

theorem every_false (p : Entry → Bool) (l : List Entry) (h : every p l = false) : ∃ e ∈ l, p e = false := by
  by_contra hn
  push Not at hn
  have : every p l = true := by
    clear h
    induction l with
    | nil => rfl
    | cons a l ih =>
      show Bool.rec (motive := fun _ => Bool) false (every p l) (p a) = true
      have := hn a List.mem_cons_self
      rw [Bool.ne_false_iff] at this
      rw [this]
      exact ih fun e he => hn e (List.mem_cons_of_mem _ he)
  rw [this] at h
  cases h

theorem somewhere_sound (p : Entry → Bool) (src : List (List Entry)) (h : somewhere p src = true) : ∃ e ∈ src.flatten, p e = true := by
  obtain ⟨c, hc, h⟩ := List.any_eq_true.1 h
  obtain ⟨e, he, hp⟩ := every_false _ c (by simpa using h)
  exact ⟨e, List.mem_flatten.2 ⟨c, hc, he⟩, by simpa using hp⟩

theorem is_iff (k : Text) (shape : List ℕ) (e : Entry) : is k shape e = true ↔ e.key = k ∧ e.shape = shape ∧ e.optional = false := by
  simp [is, eq_iff, and_assoc]

/-- What is read is in the source. -/
theorem gives_reads {source : List Entry} {v : Conv} {shape : List ℕ} (h : Gives source v shape) : ∀ k ∈ Spec.reads v, ∃ s ∈ source, s.key = k := by
  have many : ∀ ss : List Entry, (∀ s ∈ ss, s ∈ source) → ∀ k ∈ ss.map (·.key), ∃ s ∈ source, s.key = k := by
    intro ss hss k hk
    obtain ⟨s, hs, rfl⟩ := List.mem_map.1 hk
    exact ⟨s, hss s hs, rfl⟩
  cases h with
  | read s h => exact many [s] (by simpa using h)
  | transposed s a b h _ => exact many [s] (by simpa using h)
  | matrices ss ms n h _ _ => exact many ss h
  | vectors ss n h _ _ => exact many ss h
  | kept s n h _ => exact many [s] (by simpa using h)
  | conv1x1 s h _ => exact many [s] (by simpa using h)

theorem reads_ne_nil_of_gives {source : List Entry} {v : Conv} {shape : List ℕ} (h : Gives source v shape) : Spec.reads v ≠ [] := by
  cases h <;> simp_all [Spec.reads]

end

end Verif.Fast
