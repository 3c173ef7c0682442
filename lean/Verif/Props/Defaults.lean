import Verif.Model.Defaults
import Mathlib.Tactic.Common

/-!
# Precedence of options (C63)
-/
namespace Verif.Defaults

/-- The value of an option by precedence: the call's, else the instance's, else `d` -/
def prefer (call self : Option V) (d : V) : V :=
  match call, self with
  | some v, _ => v
  | none, some v => v
  | none, none => d

/-- Documented defaults of `merge`, where they do not depend on other options -/
def documented : Opt → Option V
  | .mergeDevice => some (.str "cpu")
  | .mergeDtype => some (.obj "torch.float64")
  | .outputDevice => some (.str "cpu")
  | .outputDtype => some (.obj "torch.float16")
  | .threads => some .none
  | .totalBufferSize => some (.int 268435456)
  | .strictWeightSpace => some (.bool true)
  | .checkFinite => some (.bool true)
  | .omitExtraKeys => some (.bool true)
  | .checkMandatoryKeys => some (.bool false)
  | _ => none

/-- A directory as given, and the absolute path it stands for; `None` stays. -/
inductive Dir (absolute : String → String) : V → V → Prop
  | str (s : String) : Dir absolute (.str s) (.path (absolute s))
  | path (s : String) : Dir absolute (.path s) (.path (absolute s))
  | none : Dir absolute .none .none

theorem absoluteDirs_ok (absolute : String → String) {l l' : List V} : absoluteDirs absolute l = .ok l' ↔ List.Forall₂ (Dir absolute) l l' := by
  have h1 : ∀ v v', absoluteDir absolute v = .ok v' ↔ Dir absolute v v' := by
    intro v v'
    constructor
    · intro h
      cases v <;> simp [absoluteDir] at h <;> subst h <;> constructor
    · intro h
      cases h <;> rfl
  induction l generalizing l' with
  | nil =>
    constructor
    · intro h; simp [absoluteDirs] at h; subst h; exact .nil
    · intro h; cases h; rfl
  | cons d ds ih =>
    constructor
    · intro h
      unfold absoluteDirs at h
      cases hd : absoluteDir absolute d with
      | error e => rw [hd] at h; cases h
      | ok d' =>
        rw [hd] at h
        cases hds : absoluteDirs absolute ds with
        | error e => rw [hds] at h; cases h
        | ok ds' =>
          rw [hds] at h
          cases h
          exact .cons ((h1 _ _).1 hd) (ih.1 hds)
    · intro h
      cases h with
      | cons ha hb => unfold absoluteDirs; rw [(h1 _ _).2 ha, ih.2 hb]

theorem prefer_eq (call self : Option V) (d : V) : (call.or self).getD d = prefer call self d := by
  cases call <;> cases self <;> rfl

/-- **C63.**  Every option with an instance default is the call's, else the instance's, else the documented one; `omit_ema` falls back on
the effective `omit_extra_keys`; `fallback_model` and `output` are the call's. -/
theorem C63_options (absolute : String → String) (self call : Given) (r : Opt → V) (dirs : List V)
    (h : defaultsMerge absolute self call = .ok (r, dirs)) :
    (∀ o d, documented o = some d → r o = prefer (call o) (self o) d) ∧
    r .omitEma = prefer (call .omitEma) (self .omitEma) (r .omitExtraKeys) ∧
    r .fallbackModel = prefer (call .fallbackModel) none .none ∧ r .output = prefer (call .output) none .none := by
  unfold defaultsMerge at h
  cases h1 : dirList absolute ((call .modelDirs).or (self .modelDirs)) with
  | error e => rw [h1] at h; cases h
  | ok ds =>
    rw [h1] at h
    simp only [mergeDirs, passed, listOf] at h
    cases h
    refine ⟨?_, ?_, ?_, ?_⟩
    · intro o d hd
      rw [← prefer_eq]
      cases o <;> simp [documented] at hd <;> subst hd <;> simp [mergeOption, passed]
    · rw [← prefer_eq]; rfl
    · rw [← prefer_eq]; simp [mergeOption, passed]
    · rw [← prefer_eq]; simp [mergeOption, passed]

/-- **C63, directories.**  A directory or a list of directories, given in the call or else to the instance, is made absolute; with none given
there are none.  The same holds of `convert`. -/
theorem C63_dirs (absolute : String → String) (self call : Given) :
    (call .modelDirs = none → self .modelDirs = none → ∃ r, defaultsMerge absolute self call = .ok (r, [])) ∧
    (∀ v, (call .modelDirs = some v ∨ call .modelDirs = none ∧ self .modelDirs = some v) →
      (∀ l ds, v = .list l → List.Forall₂ (Dir absolute) l ds → ∃ r, defaultsMerge absolute self call = .ok (r, ds)) ∧
      (∀ d, Dir absolute v d → ∃ r, defaultsMerge absolute self call = .ok (r, [d]))) ∧
    (∀ r ds, defaultsMerge absolute self call = .ok (r, ds) → defaultsConvert absolute self (call .modelDirs) = .ok ds) := by
  have hm : ∀ ds, dirList absolute ((call .modelDirs).or (self .modelDirs)) = .ok ds →
      ∃ r, defaultsMerge absolute self call = .ok (r, ds) := by
    intro ds h
    refine ⟨mergeOption (passed self call ds), ?_⟩
    unfold defaultsMerge
    rw [h]
    rfl
  refine ⟨?_, ?_, ?_⟩
  · intro h1 h2
    exact hm [] (by rw [h1, h2]; rfl)
  · intro v hv
    have he : (call .modelDirs).or (self .modelDirs) = some v := by
      rcases hv with h | ⟨h1, h2⟩
      · rw [h]; rfl
      · rw [h1, h2]; rfl
    rw [he] at hm
    refine ⟨?_, ?_⟩
    · rintro l ds rfl hl
      exact hm ds ((absoluteDirs_ok absolute).2 hl)
    · intro d hd
      refine hm [d] ?_
      have := (absoluteDirs_ok absolute).2 (.cons hd .nil : List.Forall₂ (Dir absolute) [v] [d])
      cases hd <;> exact this
  · intro r ds h
    unfold defaultsMerge at h
    unfold defaultsConvert
    cases h1 : dirList absolute ((call .modelDirs).or (self .modelDirs)) with
    | error e => rw [h1] at h; cases h
    | ok l =>
      rw [h1] at h
      simp only [mergeDirs, passed, listOf] at h
      cases h
      rfl

/-- **C63, false for `tqdm`.**  What is given to the instance is never used. -/
theorem C63_tqdm_false (absolute : String → String) (self call : Given) (r : Opt → V) (dirs : List V) (v : V)
    (hc : call .tqdm = none) (_hs : self .tqdm = some v) (h : defaultsMerge absolute self call = .ok (r, dirs)) : r .tqdm = .obj "tqdm.tqdm" := by
  unfold defaultsMerge at h
  cases h1 : dirList absolute ((call .modelDirs).or (self .modelDirs)) with
  | error e => rw [h1] at h; cases h
  | ok ds =>
    rw [h1] at h
    simp only [mergeDirs, passed, listOf] at h
    cases h
    simp [mergeOption, passed, hc]

/-- **C63, false for sequences that are not lists.**  A tuple of directories raises an `AttributeError`, though any iterable is announced and
`merge` itself accepts it. -/
theorem C63_tuple_false (absolute : String → String) (self call : Given) (l : List V) (h : call .modelDirs = some (.tuple l)) :
    defaultsMerge absolute self call = .error .attribute ∧ mergeDirs call = .ok l := by
  unfold defaultsMerge mergeDirs
  rw [h]
  exact ⟨rfl, rfl⟩

/-- An instance with a directory, two threads and a progress bar, and a call with a dtype and without extra keys. -/
def exSelf : Given
  | .modelDirs => some (.str "m")
  | .threads => some (.int 2)
  | .mergeDtype => some (.obj "torch.float32")
  | .tqdm => some (.obj "bar")
  | _ => none
def exCall : Given
  | .mergeDtype => some (.obj "torch.bfloat16")
  | .omitExtraKeys => some (.bool false)
  | _ => none

example : ∃ r, defaultsMerge ("/w/" ++ ·) exSelf exCall = .ok (r, [.path "/w/m"]) ∧ r .mergeDtype = .obj "torch.bfloat16" ∧ r .threads = .int 2 ∧
    r .omitEma = .bool false ∧ r .checkFinite = .bool true ∧ r .tqdm = .obj "tqdm.tqdm" := by
  refine ⟨mergeOption (passed exSelf exCall [.path "/w/m"]), ?_, rfl, rfl, rfl, rfl, rfl⟩
  simp [defaultsMerge, dirList, exSelf, exCall, absoluteDirs, absoluteDir, mergeDirs, passed, listOf]
example : exCall .tqdm = none ∧ exSelf .tqdm = some (.obj "bar") := ⟨rfl, rfl⟩
example : Dir ("/w/" ++ ·) (.str "m") (.path "/w/m") := .str "m"

end Verif.Defaults
