import Verif.Model.Budget
import Verif.Proofs.Inputs
import Verif.Props.Inputs
import Mathlib.Data.List.Dedup

/-!
# The memory that `total_buffer_size` allows (C65)
-/
namespace Verif.Budget
open Method Inputs Infer Inputs.Spec

mutual
/-- No model stands inside a literal dict. -/
def NoneInDicts : Tree → Prop
  | .dict _ es => modelsE es = []
  | .merge cs => NoneInDictsC cs
  | _ => True
def NoneInDictsC : List (Option RegCfg × Tree) → Prop
  | [] => True
  | (_, t) :: cs => NoneInDicts t ∧ NoneInDictsC cs
end

/-- The number of different model objects in the recipe -/
def objects (t : Tree) : ℕ := ((models t).map (·.1)).dedup.length

theorem length_dedup_snoc (l : List ℕ) (a : ℕ) : (l ++ [a]).dedup.length = l.dedup.length + if a ∈ l then 0 else 1 := by
  have h1 : (l ++ [a]).dedup.length = (a :: l).dedup.length :=
    (List.Perm.dedup (List.perm_append_comm (l₁ := l) (l₂ := [a]))).length_eq
  rw [h1]
  by_cases h : a ∈ l
  · rw [List.dedup_cons_of_mem h, if_pos h]; rfl
  · rw [List.dedup_cons_of_notMem h, if_neg h]; rfl

mutual
theorem count_spec : ∀ (t : Tree) (seen : List ℕ), NoneInDicts t →
    (count t seen).2 = seen ++ (models t).map (·.1) ∧ seen.dedup.length + (count t seen).1 = (count t seen).2.dedup.length
  | .raw _, seen, _ => by simp [count, models]
  | .lit, seen, _ => by simp [count, models]
  | .dict _ es, seen, h => by
    have h' : modelsE es = [] := h
    simp [count, models, h']
  | .model id path, seen, _ => by
    refine ⟨by simp [count, models], ?_⟩
    rw [count]
    exact (length_dedup_snoc seen id).symm
  | .merge cs, seen, h => by
    rw [count, models]
    exact countC_spec cs seen h
theorem countC_spec : ∀ (cs : List (Option RegCfg × Tree)) (seen : List ℕ), NoneInDictsC cs →
    (countC cs seen).2 = seen ++ (modelsC cs).map (·.1) ∧ seen.dedup.length + (countC cs seen).1 = (countC cs seen).2.dedup.length
  | [], seen, _ => by simp [countC, modelsC]
  | (_, t) :: cs, seen, h => by
    obtain ⟨h1, h2⟩ := count_spec t seen h.1
    obtain ⟨h3, h4⟩ := countC_spec cs (count t seen).2 h.2
    rw [countC, modelsC]
    refine ⟨by rw [h3, h1]; simp, ?_⟩
    rw [← h4, ← h2]; simp only; omega
end

/-- What loading a model does to the list of files -/
theorem loadDict_files (E : Env) (id : ℕ) (path : Str) (s : St) :
    (loadDict E id path s).1.files.length ≤ s.files.length + 1 ∧ (s.sd id ≠ none → (loadDict E id path s).1.files.length = s.files.length) := by
  unfold loadDict
  cases hsd : s.sd id with
  | some h => simp
  | none =>
    refine ⟨?_, fun h => absurd rfl h⟩
    simp only
    split
    · simp
    · split_ifs
      · split <;> simp
      · simp

mutual
/-- Loading opens at most as many files as are counted. -/
theorem load_files (E : Env) (param : Option RegCfg) : ∀ (t : Tree) (seen : List ℕ) (s : St), NoneInDicts t → (∀ i ∈ seen, s.sd i ≠ none) →
    (load E param t s).1.files.length ≤ s.files.length + (count t seen).1 ∧
    ((load E param t s).2 = .ok () → ∀ i ∈ (count t seen).2, (load E param t s).1.sd i ≠ none)
  | .raw _, seen, s, _, hs => ⟨by simp [load], fun _ => by simpa [load, count] using hs⟩
  | .lit, seen, s, _, hs => ⟨by simp [load], fun _ => by simpa [load, count] using hs⟩
  | .dict id es, seen, s, h, hs => by
    have h' : modelsE es = [] := h
    have hg := load_grows E param (.dict id es) s
    obtain ⟨hl, hsd⟩ : (load E param (.dict id es) s).1.files.length ≤ s.files.length ∧ (load E param (.dict id es) s).1.sd = s.sd := by
      have hn := loadE_none E param es s h'
      rw [load]
      cases hle : loadE E param es s with
      | mk s' r =>
        rw [hle] at hn
        cases r with
        | error e => exact hn
        | ok u =>
          have hsame := finishLoad_same E param id (literalMeta es) (es.map (·.1)) s'
          simp only
          rw [hsame.files, hsame.sd]
          exact hn
    refine ⟨hl.trans (Nat.le_add_right _ _), fun _ => ?_⟩
    rw [hsd]
    simpa [count] using hs
  | .model id path, seen, s, _, hs => by
    obtain ⟨h1, h2⟩ := loadDict_files E id path s
    obtain ⟨g1, g2⟩ := loadDict_grows E id path s
    have hcount : (loadDict E id path s).1.files.length ≤ s.files.length + (count (.model id path) seen).1 := by
      rw [count]
      by_cases hi : id ∈ seen
      · rw [if_pos hi, h2 (hs id hi)]; omega
      · rw [if_neg hi]; exact h1
    rw [load]
    cases hld : loadDict E id path s with
    | mk s' r =>
      rw [hld] at hcount g2
      cases r with
      | error e => exact ⟨hcount, fun h => by cases h⟩
      | ok hd =>
        have g := g2 hd rfl
        have hset : ∀ i ∈ (count (.model id path) seen).2, (s'.setSd id (some hd)).sd i ≠ none := by
          intro i hi
          rw [count] at hi
          rw [setSd_sd]
          split_ifs with hii
          · simp
          · simp only [List.mem_append, List.mem_singleton] at hi
            have hne := hs i (hi.resolve_right hii)
            obtain ⟨x, hx⟩ := Option.ne_none_iff_exists'.1 hne
            have := g.keeps i x hx
            rw [setSd_sd, if_neg hii] at this
            rw [this]; simp
        simp only
        split
        · exact ⟨hcount, fun h => by cases h⟩
        · rename_i md hmd
          have hsame := finishLoad_same E param id (Dict.ofList (md.map fun p => (p.1, Meta.tensor p.2))) md.keys (s'.setSd id (some hd))
          rw [hsame.files, hsame.sd]
          exact ⟨hcount, fun _ => hset⟩
  | .merge cs, seen, s, h, hs => by
    rw [load, count]
    exact loadC_files E cs seen s h hs
theorem loadC_files (E : Env) : ∀ (cs : List (Option RegCfg × Tree)) (seen : List ℕ) (s : St), NoneInDictsC cs → (∀ i ∈ seen, s.sd i ≠ none) →
    (loadC E cs s).1.files.length ≤ s.files.length + (countC cs seen).1 ∧
    ((loadC E cs s).2 = .ok () → ∀ i ∈ (countC cs seen).2, (loadC E cs s).1.sd i ≠ none)
  | [], seen, s, _, hs => ⟨by simp [loadC], fun _ => by simpa [loadC, countC] using hs⟩
  | (param, t) :: cs, seen, s, h, hs => by
    obtain ⟨h1, h2⟩ := load_files E param t seen s h.1 hs
    rw [loadC, countC]
    cases hl : load E param t s with
    | mk s' r =>
      rw [hl] at h1 h2
      cases r with
      | error e => exact ⟨by simp only at h1 ⊢; omega, fun h => by cases h⟩
      | ok u =>
        obtain ⟨h3, h4⟩ := loadC_files E cs (count t seen).2 s' h.2 (h2 rfl)
        exact ⟨by simp only at h1 ⊢; omega, h4⟩
/-- A dict without models opens nothing. -/
theorem load_none (E : Env) (param : Option RegCfg) : ∀ (t : Tree) (s : St), models t = [] →
    (load E param t s).1.files.length ≤ s.files.length ∧ (load E param t s).1.sd = s.sd
  | .raw _, s, _ => by simp [load]
  | .lit, s, _ => by simp [load]
  | .dict id es, s, h => by
    have hn := loadE_none E param es s (by simpa [models] using h)
    rw [load]
    cases hle : loadE E param es s with
    | mk s' r =>
      rw [hle] at hn
      cases r with
      | error e => exact hn
      | ok u =>
        have hsame := finishLoad_same E param id (literalMeta es) (es.map (·.1)) s'
        simp only
        rw [hsame.files, hsame.sd]
        exact hn
  | .model id path, s, h => by simp [models] at h
  | .merge cs, s, h => by
    rw [load]
    exact loadC_none E cs s (by simpa [models] using h)
theorem loadE_none (E : Env) (param : Option RegCfg) : ∀ (es : List (Str × Tree)) (s : St), modelsE es = [] →
    (loadE E param es s).1.files.length ≤ s.files.length ∧ (loadE E param es s).1.sd = s.sd
  | [], s, _ => by simp [loadE]
  | (_, t) :: es, s, h => by
    rw [modelsE, List.append_eq_nil_iff] at h
    have h1 := load_none E param t s h.1
    rw [loadE]
    cases hl : load E param t s with
    | mk s' r =>
      rw [hl] at h1
      cases r with
      | error e => exact h1
      | ok u =>
        have h2 := loadE_none E param es s' h.2
        exact ⟨h2.1.trans h1.1, h2.2.trans h1.2⟩
theorem loadC_none (E : Env) : ∀ (cs : List (Option RegCfg × Tree)) (s : St), modelsC cs = [] →
    (loadC E cs s).1.files.length ≤ s.files.length ∧ (loadC E cs s).1.sd = s.sd
  | [], s, _ => by simp [loadC]
  | (param, t) :: cs, s, h => by
    rw [modelsC, List.append_eq_nil_iff] at h
    have h1 := load_none E param t s h.1
    rw [loadC]
    cases hl : load E param t s with
    | mk s' r =>
      rw [hl] at h1
      cases r with
      | error e => exact h1
      | ok u =>
        have h2 := loadC_none E cs s' h.2
        exact ⟨h2.1.trans h1.1, h2.2.trans h1.2⟩
end

/-- The state in which loading starts: a new visitor (merging.py:354) -/
def fresh (E : Env) (s : St) : St := { s with cache := [], structs := upd s.structs E.ref [] }

/-- The files opened for the recipe, whether or not loading succeeds -/
def opened (E : Env) (t : Tree) (s : St) : ℕ := (load E none t (fresh E s)).1.files.length - s.files.length

/-- **C65.**  The models counted are the model objects of the recipe, and no more files than that are opened. -/
theorem C65_count (E : Env) (t : Tree) (s : St) (h : NoneInDicts t) : (count t []).1 = objects t ∧ opened E t s ≤ objects t := by
  obtain ⟨h1, h2⟩ := count_spec t [] h
  have hc : (count t []).1 = objects t := by
    rw [h1] at h2
    simpa [objects] using h2
  refine ⟨hc, ?_⟩
  have h3 := (load_files E none t [] (fresh E s) h (by simp)).1
  have h4 : (fresh E s).files.length = s.files.length := rfl
  unfold opened
  omega

/-- **C65.**  The read-ahead buffers of all files opened and the write buffers of all threads add up to at most `total_buffer_size`. -/
theorem C65_budget (E : Env) (t : Tree) (s : St) (h : NoneInDicts t) (total threads : ℕ) (outputIsFile : Bool) :
    opened E t s * perFile total (filesOpen t outputIsFile) +
      (if outputIsFile then workers threads * perThread total (filesOpen t outputIsFile) threads else 0) ≤ total := by
  obtain ⟨h1, h2⟩ := C65_count E t s h
  have hw : workers threads = max 1 threads := by
    unfold workers; split <;> omega
  have hout : workers threads * perThread total (filesOpen t outputIsFile) threads ≤ perFile total (filesOpen t outputIsFile) := by
    rw [hw]; unfold perThread; exact Nat.mul_div_le _ _
  have hin : filesOpen t outputIsFile * perFile total (filesOpen t outputIsFile) ≤ total := by
    unfold perFile
    exact (Nat.mul_le_mul_right _ (le_max_right 1 _)).trans (Nat.mul_div_le _ _)
  cases outputIsFile with
  | false =>
    have hf : filesOpen t false = objects t := by simp [filesOpen, h1]
    rw [hf] at hin ⊢
    simp only [Bool.false_eq_true, if_false, Nat.add_zero]
    exact (Nat.mul_le_mul_right _ h2).trans hin
  | true =>
    have hf : filesOpen t true = objects t + 1 := by simp [filesOpen, h1]
    rw [hf] at hin hout ⊢
    simp only [if_true]
    have := Nat.mul_le_mul_right (perFile total (objects t + 1)) h2
    rw [Nat.add_mul, Nat.one_mul] at hin
    omega

/-- **C65.**  The default number of threads is between one and eight and at most the number of processors; a given one is used as it is,
if it is not negative. -/
theorem C65_threads (files cpus : ℕ) (hc : 1 ≤ cpus) (n : Int) :
    (∃ k, threadCount none files cpus = .ok k ∧ 1 ≤ k ∧ k ≤ 8 ∧ k ≤ cpus ∧ k ≤ max files 2) ∧
    (0 ≤ n → threadCount (some n) files cpus = .ok n.toNat) ∧ (n < 0 → threadCount (some n) files cpus = .error .runtime) := by
  refine ⟨⟨_, rfl, ?_, ?_, ?_, ?_⟩, ?_, ?_⟩
  · omega
  · omega
  · omega
  · omega
  · intro h; exact if_neg (by omega)
  · intro h; exact if_pos h

/-- **C65, where it fails.**  Models in a literal dict are opened and not counted: two of them use twice the total. -/
theorem C65_dict_false : ∃ (E : Env) (t : Tree) (s : St) (total : ℕ), Plain t ∧ (load E none t (fresh E s)).2 = .ok () ∧
    opened E t s * perFile total (filesOpen t false) > total :=
  ⟨Inputs.Ex.E, .dict 0 [("x".toList, .model 1 "a".toList), ("y".toList, .model 2 "c".toList)], Inputs.Ex.s, 100,
    by simp [Plain, PlainE], by decide +kernel, by decide +kernel⟩

/-- Two objects with one path and one used twice: three are counted as two, one file is opened; with an output file and four threads. -/
def exTree : Tree := .merge [(none, .model 1 "a".toList), (none, .model 2 "a".toList), (none, .model 1 "a".toList)]

example : NoneInDicts exTree := by simp [exTree, NoneInDicts, NoneInDictsC]
example : count exTree [] = (2, [1, 2, 1]) ∧ opened Inputs.Ex.E exTree Inputs.Ex.s = 1 ∧ objects exTree = 2 ∧
    perFile 100 (filesOpen exTree true) = 33 ∧ perThread 100 (filesOpen exTree true) 4 = 8 := by decide +kernel
example : threadCount none 3 16 = .ok 3 ∧ threadCount none 100 4 = .ok 4 := by decide

end Verif.Budget
