import Verif.Proofs.Inputs
import Verif.Props.Infer

/-!
# C36, C37, C39, C40, C66
-/
namespace Verif.Inputs
open Method Config Infer Spec

/-! ## Examples -/
namespace Ex

/-- A file system with the files `/m/a.safetensors`, `/m/b.safetensors` (not a valid file) and `c.safetensors` -/
def fs : Fs where
  isAbsolute p := p.take 1 = "/".toList
  join d p := d ++ "/".toList ++ p
  «exists» p := p ∈ ["/m/a".toList, "/m/b".toList, "c".toList]
  resolve p := if p = "c".toList then "/cwd/c".toList else p
  formats _ := 1
  «open» p := if p = "/m/a".toList ∨ p = "c".toList then .ok (.ok [("x".toList, ⟨some [2], none⟩)]) else if p = "/m/b".toList then .broken .value else .fail .os

def cfgA : RegCfg := ⟨⟨"z-a".toList, [("c".toList, [("x".toList, ⟨some [2], none, [], false⟩)])]⟩, true⟩
def cfgB : RegCfg := ⟨⟨"y-b".toList, [("c".toList, [("w".toList, ⟨some [2], none, [], false⟩)])]⟩, true⟩
def E : Env := ⟨fs, ["/n".toList, "/m".toList], true, false, [cfgA, cfgB], 0⟩
/-- All nodes without config or file -/
def s : St := ⟨fun _ => none, fun _ => none, fun _ => [], [], []⟩
/-- Two nodes for one file, one of them used twice, and a file in the working directory -/
def t : Tree := .merge [(none, .model 0 "a".toList), (none, .model 1 "/m/a".toList), (some cfgA, .model 0 "a".toList), (none, .model 2 "c".toList)]
def raw : Tree := .raw (some ⟨some [2], none⟩)

end Ex

/-! ## C66 -/

theorem searchDirs_finds (fs : Fs) (path : Str) (h : fs.isAbsolute path = false) (dirs : List Str) : Finds fs dirs path (searchDirs fs path dirs) := by
  induction dirs with
  | nil => exact .nowhere h (by simp)
  | cons d ds ih =>
    rw [searchDirs]
    by_cases hd : fs.exists (fs.join d path) = true
    · rw [if_pos hd]; exact Finds.found (pre := []) (post := ds) h rfl (by simp) hd
    · rw [if_neg hd]
      simp only [Bool.not_eq_true] at hd
      generalize searchDirs fs path ds = r at ih
      cases ih with
      | absolute h' => rw [h] at h'; cases h'
      | found h' hds hpre hex =>
        rename_i pre post d'
        refine Finds.found (pre := d :: pre) (post := post) h (by rw [hds]; rfl) ?_ hex
        intro x hx
        rcases List.mem_cons.1 hx with rfl | hx
        · exact hd
        · exact hpre x hx
      | nowhere h' hex =>
        refine .nowhere h ?_
        intro x hx
        rcases List.mem_cons.1 hx with rfl | hx
        · exact hd
        · exact hex x hx

/-- **C66.**  The path opened for a model node: absolute paths as they are, relative ones in the first directory that has them, else as they
are. -/
theorem C66_search (fs : Fs) (dirs : List Str) (path : Str) : Finds fs dirs path (search fs dirs path) := by
  unfold search
  by_cases h : fs.isAbsolute path = true
  · rw [if_pos h]; exact .absolute h
  · rw [if_neg h]; exact searchDirs_finds fs path (by simpa using h) dirs

/-- **C66.**  There is no other path that fits. -/
theorem C66_unique {fs : Fs} {dirs : List Str} {path p q : Str} (hp : Finds fs dirs path p) (hq : Finds fs dirs path q) : p = q := by
  have key : ∀ {r}, Finds fs dirs path r → r = search fs dirs path := by
    intro r hr
    unfold search
    cases hr with
    | absolute h => rw [if_pos h]
    | found h hd hpre hex =>
      rename_i pre post d
      rw [if_neg (by simp [h]), hd]
      clear hd
      induction pre with
      | nil => rw [List.nil_append, searchDirs, if_pos hex]
      | cons x pre ih =>
        rw [List.cons_append, searchDirs, if_neg (by simp [hpre x (by simp)])]
        exact ih fun y hy => hpre y (by simp [hy])
    | nowhere h hex =>
      rw [if_neg (by simp [h])]
      clear hp hq
      induction dirs with
      | nil => rfl
      | cons x ds ih =>
        rw [searchDirs, if_neg (by simp [hex x (by simp)])]
        exact ih fun y hy => hex y (by simp [hy])
  rw [key hp, key hq]

/-- **C66.**  A relative output goes to the first directory, whether or not anything is there; without directories, and for absolute paths, it
stays as it is. -/
theorem C66_output (fs : Fs) (d : Str) (ds : List Str) (path : Str) :
    (fs.isAbsolute path = true → ∀ dirs, outputPath fs dirs path = path) ∧
    (fs.isAbsolute path = false → outputPath fs (d :: ds) path = fs.join d path ∧ outputPath fs [] path = path) := by
  unfold outputPath
  refine ⟨fun h dirs => if_pos h, fun h => ?_⟩
  rw [if_neg (by simp [h]), if_neg (by simp [h])]
  exact ⟨rfl, rfl⟩

example : search Ex.fs Ex.E.dirs "a".toList = "/m/a".toList ∧ search Ex.fs Ex.E.dirs "c".toList = "c".toList := by decide +kernel

/-! ## C36 -/

/-- **C36.**  For a recipe without mixed dicts, whatever happened when loading or merging: the files opened are closed afterwards, except one whose
header could not be read; the nodes of the recipe refer to no file; closing itself raises nothing. -/
theorem C36_closed {α : Type} (E : Env) (t : Tree) (body : St → Except Err α) (s : St) (hp : Plain t) :
    (∀ i f, s.files.length ≤ i → FileAt (withInputs E t body s).1 i f → f.orphan = false → f.isOpen = false) ∧
    (∀ p ∈ models t, (withInputs E t body s).1.sd p.1 = none) ∧
    (withInputs E t body s).2 =
      (match load E none t { s with cache := [], structs := upd s.structs E.ref [] } with
        | (_, .error e) => .error e
        | (s1, .ok _) => body s1) := by
  obtain ⟨s0, hs0⟩ : ∃ s0 : St, s0 = { s with cache := [], structs := upd s.structs E.ref [] } := ⟨_, rfl⟩
  have hfiles0 : s0.files = s.files := by rw [hs0]
  have hg := load_grows E none t s0
  unfold withInputs
  rw [← hs0]
  cases hl : load E none t s0 with
  | mk s1 r =>
    rw [hl] at hg
    obtain ⟨h1, h2⟩ := close_closes t s1 hp
    cases hc : close t s1 with
    | mk s2 r2 =>
      rw [hc] at h1 h2
      simp only at h1 h2
      subst h1
      simp only [hc]
      refine ⟨?_, h2.gone, ?_⟩
      · intro i f hi hf ho
        unfold FileAt at hf
        have hkey := congrArg (fun l => l[i]?) h2.keys
        simp only [List.getElem?_map, hf, Option.map_some] at hkey
        cases hf1 : s1.files[i]? with
        | none => rw [hf1] at hkey; cases hkey
        | some f1 =>
          rw [hf1] at hkey
          simp only [Option.map_some, Option.some.injEq, Prod.mk.injEq] at hkey
          obtain ⟨p, hpm, hsd⟩ := hg.owned i f1 (by rw [hfiles0]; exact hi) hf1 (by rw [← hkey.2]; exact ho)
          exact h2.closed p hpm i hsd f hf
      · cases r <;> rfl

example : (withInputs Ex.E Ex.t (fun _ => (.error .runtime : Except Err Unit)) Ex.s).1.files.map (fun f => (f.key, f.isOpen)) =
    [("/m/a".toList, false), ("/cwd/c".toList, false)] := by decide +kernel
example : Plain Ex.t := by simp [Ex.t, Plain, PlainC]

/-- A literal dict with a tensor first and a model later leaves the file of the model open. -/
theorem C36_mixed_false : ∃ (E : Env) (t : Tree) (s : St), (withInputs E t (fun _ => .ok ()) s).2 = .ok () ∧
    (withInputs E t (fun _ => .ok ()) s).1.files.map (fun f => (f.orphan, f.isOpen)) = [(false, true)] ∧
    (withInputs E t (fun _ => .ok ()) s).1.sd 1 = some 0 :=
  ⟨Ex.E, .dict 0 [("x".toList, Ex.raw), ("y".toList, .model 1 "a".toList)], Ex.s, by decide +kernel, by decide +kernel, by decide +kernel⟩

/-- With a model first and a tensor later, the merge raises, whatever it did. -/
theorem C36_mixed_raises_false : ∃ (E : Env) (t : Tree) (s : St), (withInputs E t (fun _ => .ok ()) s).2 = .error .attribute ∧
    (withInputs E t (fun _ => .ok ()) s).1.files.map (fun f => (f.orphan, f.isOpen)) = [(false, false), (false, true)] :=
  ⟨Ex.E, .dict 0 [("x".toList, .model 1 "a".toList), ("y".toList, Ex.raw), ("z".toList, .model 2 "c".toList)], Ex.s, by decide +kernel, by decide +kernel⟩

/-- A file whose header is not valid is left to the garbage collector. -/
theorem C36_header_false : ∃ (E : Env) (t : Tree) (s : St), Plain t ∧ (withInputs E t (fun _ => .ok ()) s).2 = .error .value ∧
    (withInputs E t (fun _ => .ok ()) s).1.files.map (fun f => (f.orphan, f.isOpen)) = [(false, false), (true, true)] :=
  ⟨Ex.E, .merge [(none, .model 0 "a".toList), (none, .model 1 "b".toList)], Ex.s, by simp [Plain, PlainC], by decide +kernel, by decide +kernel⟩

/-! ## C37 -/

/-- **C37.**  During one merge no resolved path is opened twice, also if loading or merging fails. -/
theorem C37_once {α : Type} (E : Env) (t : Tree) (body : St → Except Err α) (s : St) (hp : Plain t) (hc : Consistent (models t))
    (hs : ∀ p ∈ models t, s.sd p.1 = none) :
    (((withInputs E t body s).1.files.drop s.files.length).map File.key).Nodup := by
  obtain ⟨s0, hs0⟩ : ∃ s0 : St, s0 = { s with cache := [], structs := upd s.structs E.ref [] } := ⟨_, rfl⟩
  have hk0 : Keyed s.files.length s0 := by
    rw [hs0]
    refine ⟨le_refl _, ?_, by simp⟩
    intro i f hi hf
    rw [List.getElem?_eq_none hi] at hf; cases hf
  have hr0 : Right E s.files.length (models t) s0 := by
    intro p hp h hh
    rw [hs0] at hh
    rw [show _ = _ from hs p hp] at hh; cases hh
  have hl := load_loaded E s.files.length (models t) hc none t s0 (fun _ h => h) hk0 hr0
  have honce : OnceEach s.files.length (load E none t s0).1 := by
    unfold Loaded at hl
    split at hl
    · exact hl
    · exact hl.1.once
  have hclose := (close_closes t (load E none t s0).1 hp).2
  have hfin : (withInputs E t body s).1 = (close t (load E none t s0).1).1 := by
    unfold withInputs
    rw [← hs0]
    simp only
    split
    · rename_i heq; rw [heq]
    · rename_i heq; rw [heq]
  rw [hfin]
  have hkeys := congrArg (List.map Prod.fst) hclose.keys
  simp only [List.map_map] at hkeys
  have : ∀ l : List File, l.map (Prod.fst ∘ fun f => (f.key, f.orphan)) = l.map File.key := fun l => rfl
  rw [this, this] at hkeys
  unfold OnceEach at honce
  rw [List.map_drop] at honce ⊢
  rw [hkeys]
  exact honce

/-- **C37.**  While the merge runs, every model node has an open file, of the path it stands for, and nodes with the same resolved path have
the same. -/
theorem C37_shared (E : Env) (t : Tree) (s s1 : St) (hp : Plain t) (hc : Consistent (models t)) (hs : ∀ p ∈ models t, s.sd p.1 = none)
    (h : (withInputs E t .ok s).2 = .ok s1) :
    ∀ p ∈ models t, ∃ i f path, s1.sd p.1 = some i ∧ FileAt s1 i f ∧ f.isOpen = true ∧ Finds E.fs E.dirs p.2 path ∧ f.key = E.fs.resolve path ∧
      ∀ q ∈ models t, ∀ path', Finds E.fs E.dirs q.2 path' → E.fs.resolve path' = E.fs.resolve path → s1.sd q.1 = some i := by
  obtain ⟨s0, hs0⟩ : ∃ s0 : St, s0 = { s with cache := [], structs := upd s.structs E.ref [] } := ⟨_, rfl⟩
  have hk0 : Keyed s.files.length s0 := by
    rw [hs0]
    refine ⟨le_refl _, ?_, by simp⟩
    intro i f hi hf
    rw [List.getElem?_eq_none hi] at hf; cases hf
  have hr0 : Right E s.files.length (models t) s0 := by
    intro p hp h hh
    rw [hs0] at hh
    rw [show _ = _ from hs p hp] at hh; cases hh
  have hl := load_loaded E s.files.length (models t) hc none t s0 (fun _ h => h) hk0 hr0
  rw [(C36_closed E t Except.ok s hp).2.2, ← hs0] at h
  cases hload : load E none t s0 with
  | mk s' r =>
    rw [hload] at h hl
    cases r with
    | error e => cases h
    | ok u =>
      simp only [Except.ok.injEq] at h
      subst h
      obtain ⟨hk, hr, hown⟩ := hl
      intro p hpm
      obtain ⟨i, hi⟩ := Option.isSome_iff_exists.1 (hown p hpm)
      obtain ⟨hni, f, hf, hkey⟩ := hr p hpm i hi
      refine ⟨i, f, search E.fs E.dirs p.2, hi, hf, (hk.2.1 i f hni hf).2, C66_search _ _ _, hkey, ?_⟩
      intro q hq path' hpath' heq
      obtain ⟨j, hj⟩ := Option.isSome_iff_exists.1 (hown q hq)
      obtain ⟨hnj, g, hg, hkey'⟩ := hr q hq j hj
      have h1 := (hk.2.1 i f hni hf).1
      have h2 := (hk.2.1 j g hnj hg).1
      have hsame : g.key = f.key := by
        rw [hkey, hkey']
        unfold keyOf
        rw [← heq, C66_unique hpath' (C66_search _ _ _)]
      rw [hsame, h1] at h2
      rw [hj, Option.some.inj h2]

example : Consistent (models Ex.t) ∧ ∀ p ∈ models Ex.t, Ex.s.sd p.1 = none := by
  constructor
  · unfold Consistent; decide +kernel
  · intro p _; rfl
example : (withInputs Ex.E Ex.t (fun s1 => .ok (s1.sd 0, s1.sd 1, s1.sd 2)) Ex.s).2 = .ok (some 0, some 0, some 1) := by decide +kernel

end Verif.Inputs
