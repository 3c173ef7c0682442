import Verif.Spec.Inputs
import Mathlib.Tactic.Common
import Mathlib.Data.List.Basic

/-!
# Proofs about opening and closing inputs
-/
namespace Verif.Inputs
open Method Config Infer Spec

/-! ### What loading does to files and nodes -/

/-- Loading `t` only adds files, keeps the files of nodes, and every new file that is not an orphan belongs to a node of `t`. -/
structure Grows (ids : List (ℕ × Str)) (s s' : St) : Prop where
  files : ∃ l, s'.files = s.files ++ l
  keeps : ∀ id h, s.sd id = some h → s'.sd id = some h
  owned : ∀ i f, s.files.length ≤ i → s'.files[i]? = some f → f.orphan = false → ∃ p ∈ ids, s'.sd p.1 = some i
  frame : ∀ id, (∀ p ∈ ids, p.1 ≠ id) → s'.sd id = s.sd id

theorem Grows.refl (ids : List (ℕ × Str)) (s : St) : Grows ids s s where
  files := ⟨[], by simp⟩
  keeps := fun _ _ h => h
  owned := fun i f hi hf _ => by
    rw [List.getElem?_eq_none hi] at hf; cases hf
  frame := fun _ _ => rfl

theorem Grows.trans {a b : List (ℕ × Str)} {s1 s2 s3 : St} (h1 : Grows a s1 s2) (h2 : Grows b s2 s3) : Grows (a ++ b) s1 s3 where
  files := by
    obtain ⟨l, hl⟩ := h1.files
    obtain ⟨l', hl'⟩ := h2.files
    exact ⟨l ++ l', by rw [hl', hl, List.append_assoc]⟩
  keeps := fun id h hh => h2.keeps id h (h1.keeps id h hh)
  owned := fun i f hi hf ho => by
    by_cases hi2 : s2.files.length ≤ i
    · obtain ⟨p, hp, h⟩ := h2.owned i f hi2 hf ho
      exact ⟨p, by simp [hp], h⟩
    · obtain ⟨l, hl⟩ := h2.files
      rw [hl, List.getElem?_append_left (by omega)] at hf
      obtain ⟨p, hp, h⟩ := h1.owned i f hi hf ho
      exact ⟨p, by simp [hp], h2.keeps _ _ h⟩
  frame := fun id h => by
    rw [h2.frame id fun p hp => h p (by simp [hp]), h1.frame id fun p hp => h p (by simp [hp])]

theorem Grows.mono {a b : List (ℕ × Str)} {s1 s2 : St} (h : Grows a s1 s2) (hab : ∀ p ∈ a, p ∈ b) : Grows b s1 s2 where
  files := h.files
  keeps := h.keeps
  owned := fun i f hi hf ho => by
    obtain ⟨p, hp, h⟩ := h.owned i f hi hf ho
    exact ⟨p, hab p hp, h⟩
  frame := fun id hid => h.frame id fun p hp => hid p (hab p hp)

/-- Same files, nodes and cache -/
structure Same (s s' : St) : Prop where
  files : s'.files = s.files
  sd : s'.sd = s.sd
  cache : s'.cache = s.cache

theorem Same.grows {ids : List (ℕ × Str)} {s s' : St} (h : Same s s') : Grows ids s s' where
  files := ⟨[], by simp [h.files]⟩
  keeps := fun _ _ hh => by rw [h.sd]; exact hh
  owned := fun i f hi hf _ => by
    rw [h.files, List.getElem?_eq_none hi] at hf; cases hf
  frame := fun _ _ => by rw [h.sd]

theorem determine_same (E : Env) (param : Option RegCfg) (md : Dict Str Meta) (hint : Option Cfg) (s : St) :
    Same s (determine E param md hint s).1 := by
  have hs : Same s s := ⟨rfl, rfl, rfl⟩
  unfold determine
  split
  · exact hs
  · exact hs
  · split
    · exact hs
    · exact hs
    · split_ifs
      · exact hs
      · split
        · exact ⟨rfl, rfl, rfl⟩
        · exact ⟨rfl, rfl, rfl⟩

theorem finishLoad_same (E : Env) (param : Option RegCfg) (id : ℕ) (md : Dict Str Meta) (ks : List Str) (s : St) :
    Same s (finishLoad E param id md ks s).1 := by
  have h := determine_same E param md (s.config id) s
  unfold finishLoad
  split
  · rename_i s' e heq; rw [heq] at h; exact h
  · rename_i s' c heq; rw [heq] at h; exact ⟨h.files, h.sd, h.cache⟩

theorem setSd_sd (s : St) (id : ℕ) (h : Option ℕ) (j : ℕ) : (s.setSd id h).sd j = if j = id then h else s.sd j := rfl

/-- Opening and storing the file in the node -/
theorem loadDict_grows (E : Env) (id : ℕ) (path : Str) (s : St) :
    (∀ e, (loadDict E id path s).2 = .error e → Grows [(id, path)] s (loadDict E id path s).1) ∧
    (∀ h, (loadDict E id path s).2 = .ok h → Grows [(id, path)] s ((loadDict E id path s).1.setSd id (some h))) := by
  have hset : ∀ h, (s.sd id = none ∨ s.sd id = some h) → Grows [(id, path)] s (s.setSd id (some h)) := by
    intro h hid
    refine ⟨⟨[], by simp [St.setSd]⟩, ?_, ?_, ?_⟩
    · intro j h' hj
      rw [setSd_sd]
      split_ifs with hji
      · subst hji; rcases hid with h1 | h1 <;> rw [h1] at hj
        · cases hj
        · exact hj
      · exact hj
    · intro i f hi hf _
      simp only [St.setSd] at hf
      rw [List.getElem?_eq_none hi] at hf; cases hf
    · intro j hj
      rw [setSd_sd, if_neg]
      exact fun h => hj (id, path) (by simp) h.symm
  unfold loadDict
  cases hsd : s.sd id with
  | some h => exact ⟨by simp, fun h' hh => by simp only [Except.ok.injEq] at hh; subst hh; exact hset h (.inr hsd)⟩
  | none =>
    simp only
    cases hc : s.cache.get? (E.fs.resolve (search E.fs E.dirs path)) with
    | some h => exact ⟨by simp, fun h' hh => by simp only [Except.ok.injEq] at hh; subst hh; exact hset h (.inl hsd)⟩
    | none =>
      simp only
      split_ifs with hf
      · cases ho : E.fs.open (search E.fs E.dirs path) with
        | fail e => exact ⟨fun _ _ => Grows.refl _ _, by simp⟩
        | broken e =>
          refine ⟨fun _ _ => ⟨⟨_, rfl⟩, fun _ _ h => h, ?_, fun _ _ => rfl⟩, by simp⟩
          intro i f hi hf' hor
          simp only [List.getElem?_append_right hi] at hf'
          have : f = ⟨E.fs.resolve (search E.fs E.dirs path), .error e, true, true⟩ := by
            cases hk : i - s.files.length with
            | zero => rw [hk] at hf'; simpa using hf'.symm
            | succ k => rw [hk] at hf'; simp at hf'
          rw [this] at hor; cases hor
        | ok data =>
          refine ⟨by simp, ?_⟩
          intro h hh
          simp only [Except.ok.injEq] at hh
          subst hh
          refine ⟨⟨_, rfl⟩, ?_, ?_, ?_⟩
          · intro j h' hj
            rw [setSd_sd]
            split_ifs with hji
            · subst hji; rw [hsd] at hj; cases hj
            · exact hj
          · intro i f hi hf' _
            simp only [St.setSd] at hf'
            rw [List.getElem?_append_right hi] at hf'
            refine ⟨(id, path), by simp, ?_⟩
            rw [setSd_sd, if_pos rfl]
            cases hk : i - s.files.length with
            | zero => congr 1; omega
            | succ k => rw [hk] at hf'; simp at hf'
          · intro j hj
            rw [setSd_sd, if_neg]
            exact fun h => hj (id, path) (by simp) h.symm
      · exact ⟨fun _ _ => Grows.refl _ _, by simp⟩

mutual
theorem load_grows (E : Env) (param : Option RegCfg) : ∀ (t : Tree) (s : St), Grows (models t) s (load E param t s).1
  | .raw _, s => by rw [load]; exact Grows.refl _ _
  | .lit, s => by rw [load]; exact Grows.refl _ _
  | .dict id es, s => by
    have h := loadE_grows E param es s
    rw [load, models]
    split
    · rename_i s' e heq; rw [heq] at h; exact h
    · rename_i s' u heq; rw [heq] at h
      exact (h.trans ((finishLoad_same E param id _ _ s').grows (ids := []))).mono (by simp)
  | .model id path, s => by
    obtain ⟨h1, h2⟩ := loadDict_grows E id path s
    rw [load, models]
    split
    · rename_i s' e heq; rw [heq] at h1; exact h1 e rfl
    · rename_i s' h heq
      rw [heq] at h2
      have h2 := h2 h rfl
      split
      · exact h2
      · exact (h2.trans ((finishLoad_same E param id _ _ _).grows (ids := []))).mono (by simp)
  | .merge cs, s => by rw [load, models]; exact loadC_grows E cs s
theorem loadE_grows (E : Env) (param : Option RegCfg) : ∀ (es : List (Str × Tree)) (s : St), Grows (modelsE es) s (loadE E param es s).1
  | [], s => by rw [loadE]; exact Grows.refl _ _
  | (k, t) :: es, s => by
    have h := load_grows E param t s
    rw [loadE, modelsE]
    split
    · rename_i s' e heq; rw [heq] at h; exact h.mono (by simp +contextual)
    · rename_i s' u heq; rw [heq] at h; exact h.trans (loadE_grows E param es s')
theorem loadC_grows (E : Env) : ∀ (cs : List (Option RegCfg × Tree)) (s : St), Grows (modelsC cs) s (loadC E cs s).1
  | [], s => by rw [loadC]; exact Grows.refl _ _
  | (param, t) :: cs, s => by
    have h := load_grows E param t s
    rw [loadC, modelsC]
    split
    · rename_i s' e heq; rw [heq] at h; exact h.mono (by simp +contextual)
    · rename_i s' u heq; rw [heq] at h; exact h.trans (loadC_grows E cs s')
end

/-! ### What closing does -/

/-- Closing: the files of the nodes `ids` are closed, the nodes refer to no file, nothing else changes. -/
structure Closes (ids : List (ℕ × Str)) (s s' : St) : Prop where
  keys : s'.files.map (fun f => (f.key, f.orphan)) = s.files.map (fun f => (f.key, f.orphan))
  stays : ∀ (i : ℕ) (f f' : File), s.files[i]? = some f → f.isOpen = false → s'.files[i]? = some f' → f'.isOpen = false
  sd : ∀ id, s'.sd id = s.sd id ∨ s'.sd id = none
  gone : ∀ p ∈ ids, s'.sd p.1 = none
  closed : ∀ p ∈ ids, ∀ h, s.sd p.1 = some h → ∀ f : File, s'.files[h]? = some f → f.isOpen = false
  frame : ∀ id, (∀ p ∈ ids, p.1 ≠ id) → s'.sd id = s.sd id
  rest : s'.config = s.config ∧ s'.structs = s.structs ∧ s'.cache = s.cache

theorem Closes.refl (s : St) : Closes [] s s where
  keys := rfl
  stays := fun i f f' h ho h' => by rw [h] at h'; cases h'; exact ho
  sd := fun _ => .inl rfl
  gone := by simp
  closed := by simp
  frame := fun _ _ => rfl
  rest := ⟨rfl, rfl, rfl⟩

theorem Closes.trans {a b : List (ℕ × Str)} {s1 s2 s3 : St} (h1 : Closes a s1 s2) (h2 : Closes b s2 s3) : Closes (a ++ b) s1 s3 where
  keys := h2.keys.trans h1.keys
  stays := fun i f f' hf ho hf' => by
    have hl : i < s2.files.length := by
      have := congrArg List.length h1.keys
      simp only [List.length_map] at this
      rw [this]
      exact (List.getElem?_eq_some_iff.1 hf).1
    have h12 := h1.stays i f _ hf ho (List.getElem?_eq_getElem hl)
    exact h2.stays i _ f' (List.getElem?_eq_getElem hl) h12 hf'
  sd := fun id => by
    rcases h2.sd id with h | h
    · rw [h]; exact h1.sd id
    · exact .inr h
  gone := fun p hp => by
    rcases List.mem_append.1 hp with hp | hp
    · rcases h2.sd p.1 with h | h
      · rw [h]; exact h1.gone p hp
      · exact h
    · exact h2.gone p hp
  closed := fun p hp h hh f hf => by
    have hl : h < s2.files.length := by
      have h3 := congrArg List.length h2.keys
      simp only [List.length_map] at h3
      rw [← h3]
      exact (List.getElem?_eq_some_iff.1 hf).1
    have hget := List.getElem?_eq_getElem hl
    rcases List.mem_append.1 hp with hp | hp
    · exact h2.stays h _ f hget (h1.closed p hp h hh _ hget) hf
    · by_cases hpa : ∃ q ∈ a, q.1 = p.1
      · obtain ⟨q, hq, hqp⟩ := hpa
        exact h2.stays h _ f hget (h1.closed q hq h (by rw [hqp]; exact hh) _ hget) hf
      · push Not at hpa
        exact h2.closed p hp h (by rw [h1.frame p.1 hpa]; exact hh) f hf
  frame := fun id hid => by
    rw [h2.frame id fun p hp => hid p (by simp [hp]), h1.frame id fun p hp => hid p (by simp [hp])]
  rest := ⟨h2.rest.1.trans h1.rest.1, h2.rest.2.1.trans h1.rest.2.1, h2.rest.2.2.trans h1.rest.2.2⟩

theorem closeModel_closes (id : ℕ) (path : Str) (s : St) : Closes [(id, path)] s (closeModel id s) := by
  have hsd : ∀ j, (closeModel id s).sd j = if j = id then none else s.sd j := by
    intro j; unfold closeModel; cases s.sd id <;> rfl
  have hrest : (closeModel id s).config = s.config ∧ (closeModel id s).structs = s.structs ∧ (closeModel id s).cache = s.cache := by
    unfold closeModel; cases s.sd id <;> exact ⟨rfl, rfl, rfl⟩
  have hfiles : (closeModel id s).files = match s.sd id with
      | some h => s.files.modify h fun f => { f with isOpen := false }
      | none => s.files := by
    unfold closeModel; cases s.sd id <;> rfl
  refine ⟨?_, ?_, ?_, ?_, ?_, ?_, hrest⟩
  · rw [hfiles]
    cases s.sd id with
    | none => rfl
    | some h =>
      simp only
      apply List.ext_getElem?
      intro i
      simp only [List.getElem?_map, List.getElem?_modify]
      cases s.files[i]? with
      | none => rfl
      | some f => simp only [Option.map_some, Function.comp]; split_ifs <;> rfl
  · intro i f f' hf ho hf'
    rw [hfiles] at hf'
    cases hh : s.sd id with
    | none => simp only [hh] at hf'; rw [hf] at hf'; cases hf'; exact ho
    | some h =>
      simp only [hh, List.getElem?_modify, hf, Option.map_eq_map, Option.map_some, Option.some.injEq] at hf'
      rw [← hf']; split_ifs
      · rfl
      · exact ho
  · intro j; rw [hsd]; split_ifs
    · exact .inr rfl
    · exact .inl rfl
  · intro p hp
    simp only [List.mem_singleton] at hp
    subst hp
    rw [hsd, if_pos rfl]
  · intro p hp h hh f hf
    simp only [List.mem_singleton] at hp
    subst hp
    rw [hfiles, hh] at hf
    simp only [List.getElem?_modify] at hf
    cases hg : s.files[h]? with
    | none => rw [hg] at hf; cases hf
    | some g => rw [hg] at hf; simp at hf; rw [← hf]
  · intro j hj
    rw [hsd, if_neg]
    exact fun h => hj (id, path) (by simp) h.symm

theorem rawE_models : ∀ es : List (Str × Tree), RawE es → modelsE es = []
  | [], _ => by rw [modelsE]
  | (k, t) :: es, h => by
    rw [RawE] at h
    rw [modelsE, rawE_models es h.2]
    cases t with
    | raw => rw [models]; rfl
    | _ => exact absurd h.1 (by simp [Tree.isNode])

theorem plain_isNode {t : Tree} (h : Plain t) : t.isNode = true := by
  cases t with
  | raw => rw [Plain] at h; exact h.elim
  | _ => rfl

mutual
theorem close_closes : ∀ (t : Tree) (s : St), Plain t → (close t s).2 = .ok () ∧ Closes (models t) s (close t s).1
  | .raw _, s, h => by rw [Plain] at h; exact h.elim
  | .lit, s, _ => by rw [close, models]; exact ⟨rfl, Closes.refl s⟩
  | .dict id es, s, h => by
    rw [Plain] at h
    rw [close, models]
    cases es with
    | nil => rw [visitsValues, if_pos rfl, closeE, modelsE]; exact ⟨rfl, Closes.refl s⟩
    | cons e es =>
      obtain ⟨k, t⟩ := e
      rw [visitsValues]
      rcases h with h | h
      · rw [rawE_models _ h]
        rw [RawE] at h
        rw [h.1, if_neg (by simp)]
        exact ⟨rfl, Closes.refl s⟩
      · have h' := h
        rw [PlainE] at h'
        rw [plain_isNode h'.1, if_pos rfl]
        exact closeE_closes ((k, t) :: es) s h
  | .model id path, s, _ => by rw [close, models]; exact ⟨rfl, closeModel_closes id path s⟩
  | .merge cs, s, h => by rw [Plain] at h; rw [close, models]; exact closeC_closes cs s h
theorem closeE_closes : ∀ (es : List (Str × Tree)) (s : St), PlainE es → (closeE es s).2 = .ok () ∧ Closes (modelsE es) s (closeE es s).1
  | [], s, _ => by rw [closeE, modelsE]; exact ⟨rfl, Closes.refl s⟩
  | (k, t) :: es, s, h => by
    rw [PlainE] at h
    obtain ⟨h1, h2⟩ := close_closes t s h.1
    rw [closeE, modelsE]
    split
    · rename_i s' e heq; rw [heq] at h1; cases h1
    · rename_i s' u heq
      rw [heq] at h2
      obtain ⟨h3, h4⟩ := closeE_closes es s' h.2
      exact ⟨h3, h2.trans h4⟩
theorem closeC_closes : ∀ (cs : List (Option RegCfg × Tree)) (s : St), PlainC cs → (closeC cs s).2 = .ok () ∧ Closes (modelsC cs) s (closeC cs s).1
  | [], s, _ => by rw [closeC, modelsC]; exact ⟨rfl, Closes.refl s⟩
  | (k, t) :: cs, s, h => by
    rw [PlainC] at h
    obtain ⟨h1, h2⟩ := close_closes t s h.1
    rw [closeC, modelsC]
    split
    · rename_i s' e heq; rw [heq] at h1; cases h1
    · rename_i s' u heq
      rw [heq] at h2
      obtain ⟨h3, h4⟩ := closeC_closes cs s' h.2
      exact ⟨h3, h2.trans h4⟩
end

/-! ### The cache -/

/-- The resolved path that a model node stands for -/
def keyOf (E : Env) (path : Str) : Str := E.fs.resolve (search E.fs E.dirs path)

/-- The files from number `n` on were opened by this visitor: the cache has exactly these. -/
def Keyed (n : ℕ) (s : St) : Prop :=
  n ≤ s.files.length ∧
  (∀ i f, n ≤ i → s.files[i]? = some f → s.cache.get? f.key = some i ∧ f.isOpen = true) ∧
  ∀ k i, s.cache.get? k = some i → n ≤ i ∧ ∃ f, s.files[i]? = some f ∧ f.key = k

/-- No path was opened twice. -/
def OnceEach (n : ℕ) (s : St) : Prop := ((s.files.drop n).map File.key).Nodup

theorem Keyed.once {n : ℕ} {s : St} (h : Keyed n s) : OnceEach n s := by
  unfold OnceEach
  rw [List.nodup_iff_injective_getElem]
  intro ⟨i, hi⟩ ⟨j, hj⟩ hij
  simp only [List.getElem_map, List.getElem_drop] at hij
  simp only [List.length_map, List.length_drop] at hi hj
  have h1 := (h.2.1 (n + i) _ (by omega) (List.getElem?_eq_getElem (by omega))).1
  have h2 := (h.2.1 (n + j) _ (by omega) (List.getElem?_eq_getElem (by omega))).1
  rw [hij, h2] at h1
  have := Option.some.inj h1
  simp only [Fin.mk.injEq]
  omega

theorem Keyed.same {n : ℕ} {s s' : St} (h : Keyed n s) (hs : Same s s') : Keyed n s' := by
  unfold Keyed; rw [hs.files, hs.cache]; exact h

theorem Keyed.setSd {n : ℕ} {s : St} (h : Keyed n s) (id : ℕ) (x : Option ℕ) : Keyed n (s.setSd id x) := h

theorem loadDict_keyed (E : Env) (n id : ℕ) (path : Str) (s : St) (hk : Keyed n s) :
    (∀ e, (loadDict E id path s).2 = .error e → OnceEach n (loadDict E id path s).1) ∧
    (∀ h, (loadDict E id path s).2 = .ok h → Keyed n (loadDict E id path s).1 ∧
      (s.sd id = none → n ≤ h ∧ ∃ f, (loadDict E id path s).1.files[h]? = some f ∧ f.key = keyOf E path)) := by
  unfold loadDict
  cases hsd : s.sd id with
  | some h => exact ⟨by simp, fun h' hh => ⟨hk, by simp⟩⟩
  | none =>
    simp only
    cases hc : s.cache.get? (E.fs.resolve (search E.fs E.dirs path)) with
    | some h =>
      refine ⟨by simp, fun h' hh => ⟨hk, fun _ => ?_⟩⟩
      simp only [Except.ok.injEq] at hh
      subst hh
      exact hk.2.2 _ _ hc
    | none =>
      have hfresh : ∀ i f, n ≤ i → s.files[i]? = some f → f.key ≠ keyOf E path := by
        intro i f hi hf heq
        have := (hk.2.1 i f hi hf).1
        rw [heq] at this
        unfold keyOf at this
        rw [hc] at this; cases this
      simp only
      split_ifs with hf
      · cases ho : E.fs.open (search E.fs E.dirs path) with
        | fail e => exact ⟨fun _ _ => hk.once, by simp⟩
        | broken e =>
          refine ⟨fun _ _ => ?_, by simp⟩
          have h1 := hk.once
          unfold OnceEach at h1 ⊢
          rw [List.drop_append_of_le_length hk.1, List.map_append, List.nodup_append]
          refine ⟨h1, by simp, ?_⟩
          intro a ha b hb
          simp only [List.map_cons, List.map_nil, List.mem_singleton] at hb
          obtain ⟨f, hfm, rfl⟩ := List.mem_map.1 ha
          obtain ⟨i, hi, hfi⟩ := List.mem_iff_getElem.1 hfm
          rw [List.getElem_drop] at hfi
          simp only [List.length_drop] at hi
          rw [hb]
          exact hfresh (n + i) f (by omega) (by rw [← hfi]; exact List.getElem?_eq_getElem (by omega))
        | ok data =>
          refine ⟨by simp, ?_⟩
          intro h hh
          simp only [Except.ok.injEq] at hh
          subst hh
          refine ⟨⟨?_, ?_, ?_⟩, fun _ => ⟨hk.1, ⟨E.fs.resolve (search E.fs E.dirs path), data, true, false⟩, by simp, rfl⟩⟩
          · simp only [List.length_append]; have := hk.1; omega
          · intro i f hi hf'
            by_cases hil : i < s.files.length
            · rw [List.getElem?_append_left hil] at hf'
              have hne := (hfresh i f hi hf').symm
              unfold keyOf at hne
              simp only
              rw [Dict.get?_set_ne _ _ hne]
              exact hk.2.1 i f hi hf'
            · rw [List.getElem?_append_right (by omega)] at hf'
              have hi0 : i = s.files.length := by
                have := (List.getElem?_eq_some_iff.1 hf').1
                simp only [List.length_singleton] at this
                omega
              subst hi0
              simp only [Nat.sub_self, List.getElem?_cons_zero, Option.some.injEq] at hf'
              rw [← hf']
              exact ⟨Dict.get?_set_self _ _ _, rfl⟩
          · intro k i hki
            rw [Dict.get?_set] at hki
            split_ifs at hki with hkk
            · simp only [Option.some.injEq] at hki
              subst hki
              exact ⟨hk.1, ⟨E.fs.resolve (search E.fs E.dirs path), data, true, false⟩, by simp, hkk⟩
            · obtain ⟨h1, f, h2, h3⟩ := hk.2.2 k i hki
              refine ⟨h1, f, ?_, h3⟩
              rw [List.getElem?_append_left (List.getElem?_eq_some_iff.1 h2).1]; exact h2
      · exact ⟨fun _ _ => hk.once, by simp⟩

/-- The nodes among `ms` that refer to a file refer to a file of their path, opened by this visitor. -/
def Right (E : Env) (n : ℕ) (ms : List (ℕ × Str)) (s : St) : Prop :=
  ∀ p ∈ ms, ∀ h, s.sd p.1 = some h → n ≤ h ∧ ∃ f, s.files[h]? = some f ∧ f.key = keyOf E p.2

theorem Right.same {E : Env} {n : ℕ} {ms : List (ℕ × Str)} {s s' : St} (h : Right E n ms s) (hs : Same s s') : Right E n ms s' := by
  unfold Right; rw [hs.files, hs.sd]; exact h

/-- The model nodes of the recipe with the same object have the same path. -/
def Consistent (ms : List (ℕ × Str)) : Prop := ∀ p ∈ ms, ∀ q ∈ ms, p.1 = q.1 → p.2 = q.2

/-- What holds after loading -/
def Loaded (E : Env) (n : ℕ) (all own : List (ℕ × Str)) (r : St × Except Err Unit) : Prop :=
  match r.2 with
  | .error _ => OnceEach n r.1
  | .ok _ => Keyed n r.1 ∧ Right E n all r.1 ∧ ∀ p ∈ own, (r.1.sd p.1).isSome

theorem Loaded.finish {E : Env} {n : ℕ} {all own : List (ℕ × Str)} {s : St} (hk : Keyed n s) (hr : Right E n all s)
    (hown : ∀ p ∈ own, (s.sd p.1).isSome) (param : Option RegCfg) (id : ℕ) (md : Dict Str Meta) (ks : List Str) :
    Loaded E n all own (finishLoad E param id md ks s) := by
  have hs := finishLoad_same E param id md ks s
  unfold Loaded
  split
  · exact (hk.same hs).once
  · exact ⟨hk.same hs, hr.same hs, by rw [hs.sd]; exact hown⟩

mutual
theorem load_loaded (E : Env) (n : ℕ) (all : List (ℕ × Str)) (hall : Consistent all) (param : Option RegCfg) :
    ∀ (t : Tree) (s : St), (∀ p ∈ models t, p ∈ all) → Keyed n s → Right E n all s → Loaded E n all (models t) (load E param t s)
  | .raw _, s, _, hk, hr => by rw [load, models]; exact ⟨hk, hr, by simp⟩
  | .lit, s, _, hk, hr => by rw [load, models]; exact ⟨hk, hr, by simp⟩
  | .dict id es, s, hm, hk, hr => by
    rw [models] at hm ⊢
    have h := loadE_loaded E n all hall param es s hm hk hr
    rw [load]
    split
    · rename_i s' e heq; rw [heq] at h; exact h
    · rename_i s' u heq; rw [heq] at h
      exact Loaded.finish h.1 h.2.1 h.2.2 _ _ _ _
  | .model id path, s, hm, hk, hr => by
    rw [models] at hm ⊢
    obtain ⟨h1, h2⟩ := loadDict_keyed E n id path s hk
    obtain ⟨g1, g2⟩ := loadDict_grows E id path s
    rw [load]
    split
    · rename_i s' e heq; rw [heq] at h1; exact h1 e rfl
    · rename_i s' h heq
      rw [heq] at h2 g2
      obtain ⟨hk', hf⟩ := h2 h rfl
      have g := g2 h rfl
      have hmem : (id, path) ∈ all := hm _ (by simp)
      have hright : Right E n all (s'.setSd id (some h)) := by
        intro p hp x hx
        rw [setSd_sd] at hx
        have hold : ∀ q ∈ all, s.sd q.1 = some x → n ≤ x ∧ ∃ f, (s'.setSd id (some h)).files[x]? = some f ∧ f.key = keyOf E q.2 := by
          intro q hq hqx
          obtain ⟨h1, f, h2, h3⟩ := hr q hq x hqx
          obtain ⟨l, hl⟩ := g.files
          refine ⟨h1, f, ?_, h3⟩
          rw [hl, List.getElem?_append_left (List.getElem?_eq_some_iff.1 h2).1]; exact h2
        split_ifs at hx with hid
        · have hpath : p.2 = path := hall p hp (id, path) hmem hid
          have hx := Option.some.inj hx
          subst hx
          cases hsd : s.sd id with
          | none => rw [hpath]; exact hf hsd
          | some y =>
            have := g.keeps id y hsd
            rw [setSd_sd, if_pos rfl] at this
            have := Option.some.inj this
            subst this
            exact hold p hp (by rw [hid]; exact hsd)
        · have hfr := g.frame p.1 (by simpa using fun h => hid h.symm)
          rw [setSd_sd, if_neg hid] at hfr
          rw [hfr] at hx
          exact hold p hp hx
      have hown : ∀ p ∈ [(id, path)], ((s'.setSd id (some h)).sd p.1).isSome := by
        intro p hp
        simp only [List.mem_singleton] at hp
        subst hp
        rw [setSd_sd, if_pos rfl]; rfl
      split
      · exact (hk'.setSd id (some h)).once
      · exact Loaded.finish (hk'.setSd id (some h)) hright hown _ _ _ _
  | .merge cs, s, hm, hk, hr => by rw [models] at hm ⊢; rw [load]; exact loadC_loaded E n all hall cs s hm hk hr
theorem loadE_loaded (E : Env) (n : ℕ) (all : List (ℕ × Str)) (hall : Consistent all) (param : Option RegCfg) :
    ∀ (es : List (Str × Tree)) (s : St), (∀ p ∈ modelsE es, p ∈ all) → Keyed n s → Right E n all s → Loaded E n all (modelsE es) (loadE E param es s)
  | [], s, _, hk, hr => by rw [loadE, modelsE]; exact ⟨hk, hr, by simp⟩
  | (k, t) :: es, s, hm, hk, hr => by
    rw [modelsE] at hm ⊢
    have h := load_loaded E n all hall param t s (fun p hp => hm p (by simp [hp])) hk hr
    rw [loadE]
    split
    · rename_i s' e heq; rw [heq] at h; exact h
    · rename_i s' u heq; rw [heq] at h
      have h' := loadE_loaded E n all hall param es s' (fun p hp => hm p (by simp [hp])) h.1 h.2.1
      have hg := loadE_grows E param es s'
      unfold Loaded at h' ⊢
      split
      · rename_i e he; rw [he] at h'; exact h'
      · rename_i u' he; rw [he] at h'
        refine ⟨h'.1, h'.2.1, ?_⟩
        intro p hp
        rcases List.mem_append.1 hp with hp | hp
        · obtain ⟨x, hx⟩ := Option.isSome_iff_exists.1 (h.2.2 p hp)
          exact Option.isSome_iff_exists.2 ⟨x, hg.keeps _ _ hx⟩
        · exact h'.2.2 p hp
theorem loadC_loaded (E : Env) (n : ℕ) (all : List (ℕ × Str)) (hall : Consistent all) :
    ∀ (cs : List (Option RegCfg × Tree)) (s : St), (∀ p ∈ modelsC cs, p ∈ all) → Keyed n s → Right E n all s → Loaded E n all (modelsC cs) (loadC E cs s)
  | [], s, _, hk, hr => by rw [loadC, modelsC]; exact ⟨hk, hr, by simp⟩
  | (param, t) :: cs, s, hm, hk, hr => by
    rw [modelsC] at hm ⊢
    have h := load_loaded E n all hall param t s (fun p hp => hm p (by simp [hp])) hk hr
    rw [loadC]
    split
    · rename_i s' e heq; rw [heq] at h; exact h
    · rename_i s' u heq; rw [heq] at h
      have h' := loadC_loaded E n all hall cs s' (fun p hp => hm p (by simp [hp])) h.1 h.2.1
      have hg := loadC_grows E cs s'
      unfold Loaded at h' ⊢
      split
      · rename_i e he; rw [he] at h'; exact h'
      · rename_i u' he; rw [he] at h'
        refine ⟨h'.1, h'.2.1, ?_⟩
        intro p hp
        rcases List.mem_append.1 hp with hp | hp
        · obtain ⟨x, hx⟩ := Option.isSome_iff_exists.1 (h.2.2 p hp)
          exact Option.isSome_iff_exists.2 ⟨x, hg.keeps _ _ hx⟩
        · exact h'.2.2 p hp
end

end Verif.Inputs
