import Verif.Model.RecipeFile
import Verif.Spec.RecipeFile
import Verif.Props.Serialize

/-!
# C108: recipes in files
-/
namespace Verif.RecipeFile
open Method Recipe Serialize Serialize.Spec Spec
variable {F : Type}

theorem decode_encode (crlf : Bool) {t : Str} (h : '\r' ∉ t) : decode false (encode crlf t) = t := by
  induction t with
  | nil => rfl
  | cons c l ih =>
    have hc : c ≠ '\r' := fun hc => h (by simp [hc])
    have ih := ih fun hl => h (by simp [hl])
    unfold encode
    split_ifs with hn
    · obtain ⟨rfl, rfl⟩ := hn
      simp [decode, ih]
    · rw [decode, if_neg hc, if_neg (by simp), ih]

theorem suffix_spec (n : Str) : suffix n = mecha ↔ ∃ s, s ≠ [] ∧ n = s ++ ".mecha".toList := by
  unfold suffix
  simp only
  constructor
  · intro h
    split_ifs at h with hn
    · cases h
    simp only [Bool.or_eq_true, List.isEmpty_iff, not_or] at hn
    have e1 : n.reverse = n.reverse.takeWhile (· ≠ '.') ++ n.reverse.dropWhile (· ≠ '.') := (List.takeWhile_append_dropWhile).symm
    generalize hp : n.reverse.takeWhile (· ≠ '.') = p at e1 hn h
    have hpe : p.reverse = "mecha".toList := (List.cons.inj h).2
    rcases hq : n.reverse.dropWhile (· ≠ '.') with _ | ⟨c, q⟩
    · rw [hq, List.append_nil] at e1
      exact absurd (by rw [e1]; simp) hn.2
    · have hc : c = '.' := by
        have := List.head?_dropWhile_not (fun x : Char => decide (x ≠ '.')) n.reverse
        rw [hq] at this
        simpa using this
      subst hc
      rw [hq] at e1
      have hq' : n.reverse.drop (p.length + 1) = q := by
        rw [e1, ← List.drop_drop, List.drop_left]; rfl
      refine ⟨q.reverse, by rw [hq'] at hn; simpa using hn.2, ?_⟩
      have := congrArg List.reverse e1
      rw [List.reverse_reverse, List.reverse_append, hpe, List.reverse_cons] at this
      rw [this]
      simp
  · rintro ⟨s, hs, rfl⟩
    have h : (s ++ ".mecha".toList).reverse = "ahcem".toList ++ '.' :: s.reverse := by simp
    have h1 : ("ahcem".toList ++ '.' :: s.reverse).takeWhile (· ≠ '.') = "ahcem".toList := by
      rw [List.takeWhile_append_of_pos (by decide)]
      simp
    have h2 : ("ahcem".toList ++ '.' :: s.reverse).drop ("ahcem".toList.length + 1) = s.reverse := by
      rw [← List.drop_drop, List.drop_left]; rfl
    rw [h, h1, h2]
    simp [hs, mecha]

theorem name_spec (p : Str) : '/' ∉ name p ∧ (p = name p ∨ ∃ dir, p = dir ++ '/' :: name p) := by
  have h := join_splitOn '/' p
  have hm := splitOn_mem '/' p
  unfold name
  generalize splitOn '/' p = l at h hm
  subst h
  induction l with
  | nil => simp [join]
  | cons a l ih =>
    cases l with
    | nil => simpa [join] using hm a
    | cons b l =>
      have ih := ih fun x hx => hm x (by simp [hx])
      rw [List.getLast?_cons_cons]
      refine ⟨ih.1, .inr ?_⟩
      rw [join]
      rcases ih.2 with h | ⟨d, h⟩
      · exact ⟨a, by rw [← h]⟩
      · exact ⟨a ++ '/' :: d, by rw [List.append_assoc, List.cons_append, ← h]⟩
      all_goals simp

theorem name_unique {p n : Str} (hn : '/' ∉ n) (h : p = n ∨ ∃ dir, p = dir ++ '/' :: n) : name p = n := by
  obtain ⟨h1, h2⟩ := name_spec p
  have key : ∀ (d d' a b : Str), '/' ∉ a → '/' ∉ b → d ++ '/' :: a = d' ++ '/' :: b → a = b := by
    intro d d' a b ha hb h
    have h := congrArg List.reverse h
    simp only [List.reverse_append, List.reverse_cons, List.append_assoc] at h
    have t : ∀ (x y : Str), '/' ∉ x → (x.reverse ++ ('/' :: y)).takeWhile (· ≠ '/') = x.reverse := by
      intro x y hx
      rw [List.takeWhile_append_of_pos (by
        intro c hc
        simp only [decide_not, Bool.not_eq_eq_eq_not, Bool.not_true, decide_eq_false_iff_not]
        rintro rfl
        exact hx (List.mem_reverse.1 hc))]
      simp
    have := congrArg (List.takeWhile (· ≠ '/')) h
    simp only [List.nil_append, List.cons_append] at this
    rw [t a _ ha, t b _ hb] at this
    exact List.reverse_injective this
  rcases h with rfl | ⟨d, rfl⟩
  · rcases h2 with h2 | ⟨d', h2⟩
    · exact h2.symm
    · exact absurd (by rw [h2]; simp) hn
  · rcases h2 with h2 | ⟨d', h2⟩
    · exact absurd (by rw [← h2]; simp) h1
    · exact (key _ _ _ _ hn h1 h2).symm

/-- `path.suffix == ".mecha"` -/
theorem mecha_spec (p : Str) : suffix (name p) = mecha ↔ Mecha p := by
  rw [suffix_spec]
  constructor
  · rintro ⟨s, hs, he⟩
    obtain ⟨h1, h2⟩ := name_spec p
    rw [he] at h1 h2
    exact ⟨s, hs, fun h => h1 (by simp [h]), h2⟩
  · rintro ⟨s, hs, h1, h2⟩
    exact ⟨s, hs, name_unique (by simp [h1]) h2⟩

/-- **C108.**  A recipe of C13's class whose text has no carriage return, saved to a file called `….mecha` and read with `deserialize_path`, is the
same recipe, whatever line ends the system writes; no other file is touched. -/
theorem C108_back_partial (N : Num F) (E : Env F) (crlf : Bool) (writable : Str → Bool) (fs : Files) (r : Val F) (path : Str) (h : RT N E r)
    (hn : r.isNode = true) (hw : writable path = true) (hp : Mecha path) (hr : ∀ text, serialize N r = .ok text → '\r' ∉ text) :
    ∃ fs' text, serializeTo N crlf writable fs r path = (fs', .ok text) ∧ deserializePath N E fs' path = .ok r ∧ ∀ q, q ≠ path → fs' q = fs q := by
  obtain ⟨text, h1, h2⟩ := C13_roundtrip_partial N E r h hn
  refine ⟨fun q => if q = path then some (encode crlf text) else fs q, text, ?_, ?_, fun q hq => if_neg hq⟩
  · unfold serializeTo writeText
    rw [h1]
    simp only [hw, if_true]
  · unfold deserializePath
    simp only [if_true, (mecha_spec path).2 hp, decode_encode crlf (hr text h1), h2]

/-- **C108.**  Where `serialize(recipe, output=path)` raises - the recipe cannot be written as text, or the file cannot be written - every file is as it
was; it raises whenever the text cannot be made, with the same error. -/
theorem C108_failed (N : Num F) (crlf : Bool) (writable : Str → Bool) (fs : Files) (r : Val F) (path : Str) :
    (∀ fs' e, serializeTo N crlf writable fs r path = (fs', .error e) → ∀ q, fs' q = fs q) ∧
    (∀ e, serialize N r = .error e → (serializeTo N crlf writable fs r path).2 = .error e) ∧
    (∀ text, serialize N r = .ok text → writable path = false → (serializeTo N crlf writable fs r path).2 = .error .os) := by
  unfold serializeTo writeText
  refine ⟨fun fs' e h q => ?_, fun e h => by rw [h], fun text h hw => by simp [h, hw]⟩
  cases hs : serialize N r with
  | error e' => rw [hs] at h; cases h; rfl
  | ok text =>
    rw [hs] at h
    cases hw : writable path with
    | true => simp [hw] at h
    | false =>
      simp only [hw, Bool.false_eq_true, if_false] at h
      rw [(Prod.mk.inj h).1]

/-- **C108.**  Files that are not there or not called `….mecha` are refused. -/
theorem C108_refused (N : Num F) (E : Env F) (fs : Files) (path : Str) (h : fs path = none ∨ ¬ Mecha path) :
    deserializePath N E fs path = .error .value := by
  unfold deserializePath
  rcases h with h | h
  · rw [h]
  · rw [← mecha_spec] at h
    cases fs path <;> simp [h]

/-- **C108.**  A list of lines without line ends is read as the text of these lines. -/
theorem C108_lines (N : Num F) (E : Env F) (lines : List Str) (hne : lines ≠ []) (h : ∀ l ∈ lines, '\n' ∉ l) :
    deserializeLines N E lines = deserialize N E (join '\n' lines) := by
  unfold deserialize
  rw [splitOn_join hne h]

theorem readlines_head {t h : Str} {ls : List Str} (hl : readlines t = h :: ls) : (ls = [] ∧ h = t ∧ '\n' ∉ t.dropLast) ∨ '\n' ∈ h := by
  induction t generalizing h ls with
  | nil => cases hl
  | cons c l ih =>
    rw [readlines] at hl
    split_ifs at hl with hc
    · cases hl
      right; simp [hc]
    · cases hr : readlines l with
      | nil =>
        rw [hr] at hl
        cases hl
        cases l with
        | nil => left; simp
        | cons d l =>
          rw [readlines] at hr
          split_ifs at hr
          split at hr <;> cases hr
      | cons a as =>
        rw [hr] at hl
        cases hl
        rcases ih hr with ⟨h1, h2, h3⟩ | h1
        · left
          subst h2
          refine ⟨h1, rfl, ?_⟩
          cases a with
          | nil => simp
          | cons d l => rw [List.dropLast_cons_cons]; simp only [List.mem_cons, not_or]; exact ⟨fun h => hc h.symm, h3⟩
        · right; simp [h1]

/-- **C108 is false** of lines that keep their line ends, as `readlines` gives them: whatever the file holds, `examples/recipe_deserialize.py`
raises an error. -/
theorem C108_readlines_false (N : Num F) (E : Env F) (fs : Files) (path : Str) : ∃ e, exampleDeserialize N E fs path = .error e := by
  unfold exampleDeserialize
  cases fs path with
  | none => exact ⟨_, rfl⟩
  | some content =>
    simp only
    generalize decode false content = t
    cases hl : readlines t with
    | nil => exact ⟨_, rfl⟩
    | cons h ls =>
      unfold deserializeLines
      simp only
      split_ifs with hh
      · exact ⟨_, rfl⟩
      · simp only [ne_eq, not_not] at hh
        rcases readlines_head hl with ⟨rfl, _, _⟩ | h'
        · exact ⟨.index, by simp [parseLines]⟩
        · rw [hh] at h'
          exact absurd h' (by decide)

/-- ... with the recipe saved by `examples/recipe_serialize.py`, and any other of two lines or more, a `RuntimeError` about its version. -/
theorem C108_readlines_version (N : Num F) (E : Env F) (fs : Files) (path content : Str) (h : fs path = some content) (hb : '\n' ∈ (decode false content).dropLast) :
    exampleDeserialize N E fs path = .error .runtime := by
  unfold exampleDeserialize
  rw [h]
  simp only
  generalize decode false content = t at hb
  cases hl : readlines t with
  | nil =>
    cases t with
    | nil => simp at hb
    | cons d l =>
      rw [readlines] at hl
      split_ifs at hl
      split at hl <;> cases hl
  | cons a ls =>
    unfold deserializeLines
    simp only
    rw [if_pos]
    rintro rfl
    rcases readlines_head hl with ⟨_, _, h3⟩ | h'
    · exact h3 hb
    · exact absurd h' (by decide)

theorem splitOn_snoc (sep : Char) (t : Str) : splitOn sep (t ++ [sep]) = splitOn sep t ++ [[]] := by
  induction t with
  | nil => simp [splitOn]
  | cons c l ih =>
    rw [List.cons_append, splitOn, splitOn, ih]
    split_ifs
    · rfl
    · cases h : splitOn sep l with
      | nil => cases l <;> rw [splitOn] at h <;> [cases h; skip]; split_ifs at h; split at h <;> cases h
      | cons a as => rfl

theorem parseLines_append (N : Num F) (E : Env F) (l l' : List Str) (rs : List (Val F)) :
    parseLines N E (l ++ l') rs = match parseLines N E l rs with | .error e => .error e | .ok rs => parseLines N E l' rs := by
  induction l generalizing rs with
  | nil => rfl
  | cons a l ih =>
    rw [List.cons_append, parseLines, parseLines]
    split
    · rfl
    · exact ih _
    · exact ih _

/-- **C108 is false** of files that end with a line break, as editors leave them: a text that can be read cannot be read any more. -/
theorem C108_newline_false (N : Num F) (E : Env F) (text : Str) (r : Val F) (h : deserialize N E text = .ok r) :
    deserialize N E (text ++ ['\n']) = .error .value := by
  unfold deserialize at h ⊢
  rw [splitOn_snoc]
  generalize splitOn '\n' text = ls at h
  cases ls with
  | nil => cases h
  | cons a ls =>
    rw [List.cons_append]
    unfold deserializeLines at h ⊢
    simp only at h ⊢
    split_ifs at h ⊢
    rw [parseLines_append]
    cases hp : parseLines N E ls [] with
    | error e => rw [hp] at h; cases h
    | ok rs =>
      simp only
      have : parseLines N E [[]] rs = .error .value := by simp [parseLines, parseLine, strip, tokenize, tokEnd]
      rw [this]

/-- **C108 is false** of strings with a carriage return, which survive as text but not in a file. -/
theorem C108_return_false : ∃ (N : Num (Option Int)) (E : Env (Option Int)) (r : Val (Option Int)) (text : Str) (fs : Files),
    serializeTo N false (fun _ => true) (fun _ => none) r "r.mecha".toList = (fs, .ok text) ∧ deserialize N E text = .ok r ∧
      deserializePath N E fs "r.mecha".toList = .error .value := by
  refine ⟨Serialize.Ex.num, Serialize.Ex.env, .model "a\rb".toList none (some "weight".toList),
    "version 0.1.0\nmodel \"a\rb\" model_config=null merge_space=\"weight\"".toList,
    fun q => if q = "r.mecha".toList then some (encode false "version 0.1.0\nmodel \"a\rb\" model_config=null merge_space=\"weight\"".toList) else none,
    ?_, by decide +kernel, by decide +kernel⟩
  have : serialize Serialize.Ex.num (.model "a\rb".toList none (some "weight".toList)) = .ok "version 0.1.0\nmodel \"a\rb\" model_config=null merge_space=\"weight\"".toList := by
    decide +kernel
  unfold serializeTo
  rw [this]
  rfl

/-! ## Examples -/

/-- C108_failed: a tensor in memory cannot be serialized, and the file that was there before is kept. -/
example : (∀ q, (serializeTo Serialize.Ex.num false (fun _ => true) (fun _ => some "old".toList) (.lit (.tensor 0) none "param".toList) "r.mecha".toList).1 q =
      some "old".toList) ∧
    ∃ e, (serializeTo Serialize.Ex.num false (fun _ => true) (fun _ => some "old".toList) (.lit (.tensor 0) none "param".toList) "r.mecha".toList).2 = .error e := by
  obtain ⟨h1, h2, _⟩ := C108_failed Serialize.Ex.num false (fun _ => true) (fun _ => some "old".toList) (.lit (.tensor 0) none "param".toList) "r.mecha".toList
  cases hs : serialize Serialize.Ex.num (.lit (.tensor 0) none "param".toList) with
  | ok t => exact absurd hs (by intro h; cases h)
  | error e => exact ⟨h1 _ e (Prod.ext rfl (h2 e hs)), e, h2 e hs⟩

example : ∃ fs' text, serializeTo Serialize.Ex.num true (fun _ => true) (fun _ => none) Serialize.Ex.recipe "recipes/r.mecha".toList = (fs', .ok text) ∧
    deserializePath Serialize.Ex.num Serialize.Ex.env fs' "recipes/r.mecha".toList = .ok Serialize.Ex.recipe ∧
    exampleDeserialize Serialize.Ex.num Serialize.Ex.env fs' "recipes/r.mecha".toList = .error .runtime := by
  have hs : serialize Serialize.Ex.num Serialize.Ex.recipe = .ok Serialize.Ex.text := by decide +kernel
  obtain ⟨fs', text, h1, h2, _⟩ := C108_back_partial Serialize.Ex.num Serialize.Ex.env true (fun _ => true) (fun _ => none) Serialize.Ex.recipe
    "recipes/r.mecha".toList Serialize.Ex.recipe_RT rfl rfl ⟨"r".toList, by decide, by decide, .inr ⟨"recipes".toList, by decide⟩⟩
    (fun t ht => by rw [← Except.ok.inj (hs.symm.trans ht)]; decide +kernel)
  refine ⟨fs', text, h1, h2, ?_⟩
  unfold serializeTo writeText at h1
  rw [hs] at h1
  simp only [if_true] at h1
  have hf := (Prod.mk.inj h1).1
  exact C108_readlines_version _ _ _ _ (encode true Serialize.Ex.text) (by rw [← hf]; simp) (by decide +kernel)

example : deserialize Serialize.Ex.num Serialize.Ex.env (Serialize.Ex.text ++ ['\n']) = .error .value :=
  C108_newline_false _ _ _ Serialize.Ex.recipe (by decide +kernel)

example : deserializePath Serialize.Ex.num Serialize.Ex.env (fun _ => some Serialize.Ex.text) "recipes/.mecha".toList = .error .value :=
  C108_refused _ _ _ _ (.inr (by rw [← mecha_spec]; decide))

end Verif.RecipeFile
