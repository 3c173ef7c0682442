import Verif.Props.Reproducible

/-!
# Calls of `merge` that returned
-/
namespace Verif.Whole
open Method Recipe Config Eval Program Spec
open Threads (fileProgram)
open Threads.Spec (Runs Opened stored)
open StreamOut (Tensor)
variable {F : Type}

theorem runs_of {P : PWorld F Tensor} {N : Serialize.Num F} {o : Options F} {opened : Str → Option StreamIn.State} (hop : Opened opened)
    {recipe : Val F} {n : ℕ} {file : Bytes} (m : Saves P N o opened recipe n file) :
    Merge.Spec.Runs n (Merge.fileJob (eval (world P (stored opened)) m.merged)) m.keys m.stores .returned := by
  obtain ⟨_, cfg, _, p3⟩ := plan_ok m.planned
  have hnd : m.keys.Nodup := by rw [p3]; exact Merge.targetKeys_nodup _ _
  have h := m.ran
  cases n with
  | zero =>
    have h : Threads.sequential (fileProgram P m.merged) opened m.keys = (m.stores, .returned) := h
    rw [Threads.sequential_value hop m.keys (Threads.loaded_start opened), Reproducible.file_outcome] at h
    exact h
  | succ n =>
    obtain ⟨jobs, s, h1, h2, h3⟩ := h
    have := (Threads.inv_steps hnd hop h1).2
    rw [Reproducible.file_outcome] at this
    exact ⟨s.base, this, h2, h3⟩

/-- What a merge that returned computed for a key is what it stored. -/
theorem mem_stores {P : PWorld F Tensor} {N : Serialize.Num F} {o : Options F} {opened : Str → Option StreamIn.State} (hop : Opened opened)
    {recipe : Val F} {n : ℕ} {file : Bytes} (m : Saves P N o opened recipe n file) {k : Str} {t : Tensor} (hkk : k ∈ m.keys)
    (he : eval (world P (stored opened)) m.merged k = .ok (.tensor t)) : (k, t) ∈ m.stores := by
  obtain ⟨fin, can, q1, q2, q3, _⟩ := Merge.runs_facts (runs_of hop m)
  rw [(q3 rfl).1, List.append_nil] at q1
  rw [q2]
  exact List.mem_filterMap.2 ⟨k, q1.mem_iff.2 hkk, by simp [Merge.storeOf, Merge.fileJob, he, Merge.track]⟩

/-- A merge that returned has a tensor for each key, or lacks it. -/
theorem returned_ok {P : PWorld F Tensor} {N : Serialize.Num F} {o : Options F} {opened : Str → Option StreamIn.State} (hop : Opened opened)
    {recipe : Val F} {n : ℕ} {file : Bytes} (m : Saves P N o opened recipe n file) {k : Str} (hk : k ∈ m.keys) :
    eval (world P (stored opened)) m.merged k = .error .stateDictKey ∨ ∃ t, eval (world P (stored opened)) m.merged k = .ok (.tensor t) := by
  obtain ⟨_, _, _, _, q3, _⟩ := Merge.runs_facts (runs_of hop m)
  have := (q3 rfl).2 k hk
  unfold Merge.fileJob at this
  cases he : eval (world P (stored opened)) m.merged k with
  | error e => rw [he] at this; cases e <;> first | exact .inl rfl | cases this
  | ok v =>
    rw [he] at this
    cases v with
    | tensor t => exact .inr ⟨t, rfl⟩
    | _ => cases this

end Verif.Whole
