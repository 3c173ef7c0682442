import Verif.Proofs.Format
import Verif.Proofs.Rebuild
import Verif.Spec.NumEx

/-!
# The text format: C12 to C18
-/
namespace Verif.Serialize
open Method Recipe Spec
variable {F : Type}

/-! ## C12 -/

/-- **C12.**  A line made of words and quoted strings (with or without `key=` before them), separated by spaces,
is tokenized into exactly these; a string quoted as the serializer does it is one token, whatever characters it has
and whatever stands around it. -/
theorem C12_quoting (before after : List Piece) (pre s line : Str) (hb : ∀ p ∈ before, p.WF) (ha : ∀ p ∈ after, p.WF)
    (hpre : Plain pre) (hl : Line (before ++ .quoted pre s :: after) line) :
    tokenize line = .ok (before.map Piece.token ++ (pre ++ '"' :: (s ++ ['"'])) :: after.map Piece.token) ∧
    (Piece.quoted pre s).text = pre ++ quote s := by
  constructor
  · rw [tokenize_line _ line hl (by
      intro p hp
      rcases List.mem_append.1 hp with h | h
      · exact hb p h
      · rcases List.mem_cons.1 h with rfl | h
        · exact hpre
        · exact ha p h)]
    simp [Piece.token]
  · rw [quote_eq]; rfl

/-- Hypotheses of `C12_quoting` hold of `merge "f" &0  k="a \" b\\"`. -/
example : ∃ line, Line ([.word "merge".toList, .quoted [] "f".toList, .word "&0".toList] ++
    .quoted "k=".toList "a \" b\\".toList :: []) line ∧ line = "merge \"f\" &0  k=\"a \\\" b\\\\\"".toList := by
  refine ⟨_, Line.cons 0 _ _ _ (Line.cons 0 _ _ _ (Line.cons 0 _ _ _ (Line.last 1 0 _))), ?_⟩
  decide

example : tokenize "merge \"f\" &0  k=\"a \\\" b\\\\\"".toList =
    .ok ["merge".toList, "\"f\"".toList, "&0".toList, "k=\"a \" b\\\"".toList] := by decide

/-! ## C13 -/

/-- Nodes of the class, as the whole of a recipe. -/
theorem roundtrip (N : Num F) (E : Env F) (v : Val F) (h : RT N E v) (hn : v.isNode = true) :
    ∃ st rs, Inv N E st rs ∧ rs.getLast? = some v ∧ serialize N v = .ok (join '\n' (header :: st)) := by
  obtain ⟨p, st, rs, h1, h2, _, _, _, h6⟩ := written N E v h [] [] .nil
  refine ⟨st, rs, h2, h6 hn (by simp), ?_⟩
  unfold serialize
  rw [h1]
  rfl

theorem split_written {st : List Str} (h : ∀ l ∈ st, NoBreak l) : splitOn '\n' (join '\n' (header :: st)) = header :: st := by
  apply splitOn_join (by simp)
  intro s hs
  rcases List.mem_cons.1 hs with rfl | hs
  · decide
  · exact h s hs

/-- **C13.**  Every recipe of the class `RT` survives: `deserialize(serialize(r))` is `r`.  The class has recipes of any
depth and width; it excludes booleans, tensors, floats that are not finite, positional strings with `=`, line breaks,
keys that are not plain words, and literals without config that a call would not build (see the `_false` theorems). -/
theorem C13_roundtrip_partial (N : Num F) (E : Env F) (r : Val F) (h : RT N E r) (hn : r.isNode = true) :
    ∃ text, serialize N r = .ok text ∧ deserialize N E text = .ok r := by
  obtain ⟨st, rs, hinv, hl, hs⟩ := roundtrip N E r h hn
  refine ⟨_, hs, ?_⟩
  unfold deserialize
  rw [split_written hinv.noBreak]
  unfold deserializeLines
  simp only [ne_eq, not_true_eq_false, if_false]
  rw [hinv.parse]
  simp only [hl]

/-- The last condition of the class is met by every node that a call of a merge method returned, if the literals
without config among its arguments are as the call itself makes them from values. -/
theorem C13_calls (N : Num F) (E : Env F) (m : Str) (args : List (Val F)) (kwargs : List (Str × Val F)) (r : Val F)
    (hwf : ∀ sig, E.resolve m = .ok sig → sig.WF ∧ (∀ v ∈ sig.defaults, Passed E v) ∧ ∀ p ∈ sig.kwdefaults, Passed E p.2)
    (ha : ∀ v ∈ args, Passed E v) (hk : ∀ p ∈ kwargs, Passed E p.2) (h : createRecipe E m args kwargs = .ok r) :
    ∃ as ks, r = .merge m as ks ∧ ((NoBreak m ∧ '=' ∉ m ∧ (ks.map (·.1)).Nodup ∧ "self".toList ∉ ks.map (·.1) ∧
      RTL N E as ∧ RTKA N E ks) → ∃ text, serialize N r = .ok text ∧ deserialize N E text = .ok r) := by
  obtain ⟨as, ks, rfl, h2⟩ := createRecipe_again hwf ha hk h
  refine ⟨as, ks, rfl, ?_⟩
  rintro ⟨h3, h4, h5, h6, h7, h8⟩
  exact C13_roundtrip_partial N E _ (by unfold RT; exact ⟨h3, h4, h5, h6, h7, h8, h2⟩) rfl

namespace Ex

def modelA : Val (Option Int) := .model "dir a/m.safetensors".toList (some "sd1".toList) (some "weight".toList)
/-- `f(A)`, with `b` and `k` taken from the defaults -/
def inner : Val (Option Int) :=
  .merge "f".toList [modelA, .lit (.float (some 1)) none "param".toList]
    [("k".toList, .lit (.str "none".toList) none "param".toList)]

def recipe : Val (Option Int) :=
  .merge "g".toList [.lit (.dict [("x".toList, inner), ("y".toList, modelA), ("z".toList, inner)]) (some "sd1".toList) "param".toList] []

def text : Str := "version 0.1.0
model \"dir a/m.safetensors\" model_config=\"sd1\" merge_space=\"weight\"
merge \"f\" &0 1.0 k=\"none\"
dict x=&1 y=&0 z=&1
literal &2 model_config=\"sd1\" merge_space=\"param\"
merge \"g\" &3".toList

example : serialize num recipe = .ok text := by decide +kernel
example : deserialize num env text = .ok recipe := by decide +kernel

/-- The class is not empty: this recipe has shared nodes, a dict, literals with and without config. -/
theorem recipe_RT : RT num env recipe := by
  have hA : RT num env modelA := by
    unfold modelA RT
    refine ⟨by decide, by decide, rfl, ?_, _, rfl, by decide, by decide⟩
    intro x hx; cases hx; decide
  have hinner : RT num env inner := by
    unfold inner RT
    refine ⟨by decide, by decide, by decide, by decide, ?_, ?_, by decide +kernel⟩
    · rw [RTL_cons, RTL_cons]
      exact ⟨⟨hA, trivial⟩, ⟨by unfold raw RT; rfl, trivial⟩, by simp [RTL]⟩
    · rw [RTKA_cons]
      refine ⟨⟨by decide, ?_⟩, by simp [RTKA]⟩
      unfold raw RT; decide
  unfold recipe RT
  refine ⟨by decide, by decide, by decide, by decide, ?_, by simp [RTKA], by decide +kernel⟩
  rw [RTL_cons]
  refine ⟨⟨?_, trivial⟩, by simp [RTL]⟩
  unfold raw RT
  refine ⟨?_, trivial, by decide, by decide, by decide, by decide, by decide +kernel⟩
  unfold RT RTK RTK RTK RTK
  exact ⟨by decide, ⟨by decide, hinner⟩, ⟨by decide, hA⟩, ⟨by decide, hinner⟩, trivial⟩

/-- `inner` is the value of a call, with `k` taken from the defaults. -/
example : createRecipe env "f".toList [modelA] [] = .ok inner := by decide +kernel

end Ex

/-- **C13 is false** of a model whose path has a `=`: it is written, and the text is rejected. -/
theorem C13_path_false : ∃ (N : Num (Option Int)) (E : Env (Option Int)) (r : Val (Option Int)) (text : Str),
    r = .model "a=b.safetensors".toList none (some "weight".toList) ∧ serialize N r = .ok text ∧
      deserialize N E text = .error .value :=
  ⟨Ex.num, Ex.env, _, "version 0.1.0\nmodel \"a=b.safetensors\" model_config=null merge_space=\"weight\"".toList, rfl,
    by decide +kernel, by decide +kernel⟩

/-- **C13 is false** of a literal without config to which a merge space was given: the text does not hold the merge
space, and what is read back is another recipe. -/
theorem C13_space_false : ∃ (N : Num (Option Int)) (E : Env (Option Int)) (a b : Val (Option Int)) (text : Str),
    createRecipe E "g".toList [.lit (.int 1) none "weight".toList] [] = .ok a ∧
    a.space E = .ok (some "weight".toList) ∧ serialize N a = .ok text ∧
      deserialize N E text = .ok b ∧ b.space E = .ok (some "param".toList) :=
  ⟨Ex.num, Ex.env, .merge "g".toList [.lit (.int 1) none "weight".toList] [],
    .merge "g".toList [.lit (.int 1) none "param".toList] [], "version 0.1.0\nmerge \"g\" 1".toList, by decide +kernel,
    by decide +kernel, by decide +kernel, by decide +kernel, by decide +kernel⟩

/-- **C13 is false** of a literal alone: its text has no instruction, and reading it is an `IndexError`. -/
theorem C13_literal_false (N : Num F) (E : Env F) (i : Int) (s : Str) :
    serialize N (.lit (.int i) none s) = .ok header ∧ deserialize N E header = .error .index := by
  constructor
  · simp [serialize, serVal, Bind.bind, Except.bind, join]
  · have : splitOn '\n' header = [header] := by decide
    unfold deserialize
    rw [this]
    simp [deserializeLines, parseLines]

/-- **C13 is false** of strings with a line break: the text of a node whose method or argument has one is cut there. -/
theorem C13_break_false : ∃ (N : Num (Option Int)) (E : Env (Option Int)) (r : Val (Option Int)) (text : Str),
    createRecipe E "g".toList [.str "a\nb".toList] [] = .ok r ∧ serialize N r = .ok text ∧
      deserialize N E text = .error .value :=
  ⟨Ex.num, Ex.env, .merge "g".toList [.lit (.str "a\nb".toList) none "param".toList] [],
    "version 0.1.0\nmerge \"g\" \"a\nb\"".toList, by decide +kernel, by decide +kernel, by decide +kernel⟩

/-! ## C14 -/

/-- **C14.**  No instruction is written twice, whatever the recipe. -/
theorem C14_shared (N : Num F) (r : Val F) (text : Str) (h : serialize N r = .ok text) :
    ∃ ls : List Str, text = join '\n' (header :: ls) ∧ ls.Nodup := by
  unfold serialize at h
  cases h1 : serVal N r [] with
  | error e => rw [h1] at h; cases h
  | ok q =>
    rw [h1] at h
    cases h
    exact ⟨q.2, rfl, serVal_nodup N r [] q List.nodup_nil h1⟩

/-- Reading never accepts a line that is not a command with balanced quotes and backward references. -/
theorem accepted (N : Num F) (E : Env F) (ls : List Str) (r : Val F) (h : deserializeLines N E (header :: ls) = .ok r) :
    ∀ (j : ℕ) line, ls[j]? = some line → ¬ Comment line → GoodLine N.parseInt (instructions (ls.take j)) line := by
  unfold deserializeLines at h
  simp only [ne_eq, not_true_eq_false, if_false] at h
  cases hp : parseLines N E ls [] with
  | error e => rw [hp] at h; cases h
  | ok rs =>
    have := (parseLines_good hp).2
    simpa using this

/-- **C14.**  In the text of a recipe of the class, line `j` is an instruction, and every `&i` in it has `i < j`. -/
theorem C14_backward (N : Num F) (E : Env F) (r : Val F) (h : RT N E r) (hn : r.isNode = true) :
    ∃ ls : List Str, serialize N r = .ok (join '\n' (header :: ls)) ∧ ls.Nodup ∧
      ∀ (j : ℕ) line, ls[j]? = some line → NoBreak line ∧ GoodLine N.parseInt j line := by
  obtain ⟨st, rs, hinv, hl, hs⟩ := roundtrip N E r h hn
  refine ⟨st, hs, ?_, ?_⟩
  · unfold serialize at hs
    cases h1 : serVal N r [] with
    | error e => rw [h1] at hs; cases hs
    | ok q =>
      obtain ⟨p, st', rs', h1', h2, _, _, _, h6⟩ := written N E r h [] [] .nil
      rw [h1] at hs
      have h3 : (join '\n' (header :: q.2)) = join '\n' (header :: st) := by
        have : Except.ok (join '\n' (header :: q.2)) = (Except.ok (join '\n' (header :: st)) : Except Err Str) := hs
        exact Except.ok.inj this
      have hq : q.2 = st' := by rw [h1] at h1'; cases h1'; rfl
      have h4 := split_written hinv.noBreak
      rw [← h3, hq, split_written h2.noBreak] at h4
      have h5 : st' = st := by simpa using h4
      rw [← h5, ← hq]
      exact serVal_nodup N r [] q List.nodup_nil h1
  · have hnc : ∀ l ∈ st, ¬ Comment l := by
      intro l hl
      obtain ⟨i, hi⟩ := List.mem_iff_getElem?.1 hl
      obtain ⟨v, _, hv⟩ := hinv.reread hi
      exact (parseLine_some hv).1
    intro j line hj
    refine ⟨hinv.noBreak line (List.mem_of_getElem? hj), ?_⟩
    have hg := (parseLines_good hinv.parse).2 j line hj (hnc line (List.mem_of_getElem? hj))
    have hjl : j < st.length := by
      rcases Nat.lt_or_ge j st.length with h | h
      · exact h
      · rw [List.getElem?_eq_none h] at hj; cases hj
    have hi : instructions (st.take j) = j := by
      unfold instructions
      rw [List.filter_eq_self.2]
      · rw [List.length_take]; omega
      · intro l hl
        simpa using hnc l (List.mem_of_mem_take hl)
    rw [List.length_nil, Nat.zero_add, hi] at hg
    exact hg

/-! ## C15 -/

/-- **C15.**  A text that is accepted starts with the exact version line, and every other line is a comment, or a known
command with balanced quotes and references to earlier instructions only. -/
theorem C15_rejects (N : Num F) (E : Env F) (text : Str) (r : Val F) (h : deserialize N E text = .ok r) :
    ∃ ls : List Str, text = join '\n' ("version 0.1.0".toList :: ls) ∧ (∀ l ∈ ls, NoBreak l) ∧
      ∀ (j : ℕ) line, ls[j]? = some line → ¬ Comment line → GoodLine N.parseInt (instructions (ls.take j)) line := by
  unfold deserialize at h
  have hj := join_splitOn '\n' text
  have hm := splitOn_mem '\n' text
  cases hs : splitOn '\n' text with
  | nil => rw [hs] at h; cases h
  | cons a ls =>
    rw [hs] at h hj hm
    by_cases ha : a = header
    · subst ha
      exact ⟨ls, hj.symm, fun l hl => hm l (by simp [hl]), accepted N E ls r h⟩
    · unfold deserializeLines at h
      simp only [ne_eq, ha, not_false_eq_true, if_true] at h
      cases h

example : deserialize Ex.num Ex.env Ex.text = .ok Ex.recipe := by decide +kernel
example : deserialize Ex.num Ex.env "version 0.1.1\ndict".toList = .error .runtime := by decide +kernel
example : deserialize Ex.num Ex.env "version 0.1.0\nmerge \"g\" &0".toList = .error .value := by decide +kernel
example : deserialize Ex.num Ex.env "version 0.1.0\nfoo".toList = .error .value := by decide +kernel
example : deserialize Ex.num Ex.env "version 0.1.0\nmodel \"a".toList = .error .value := by decide +kernel

/-! ## C16 -/

/-- **C16.**  Comment lines anywhere after the version line, and white space around lines, change nothing: neither the
recipe nor whether there is one. -/
theorem C16_noise (N : Num F) (E : Env F) (ls ls' : List Str) (h : Noise ls ls') (hb : ∀ l ∈ ls, NoBreak l)
    (hb' : ∀ l ∈ ls', NoBreak l) :
    deserialize N E (join '\n' ("version 0.1.0".toList :: ls')) = deserialize N E (join '\n' ("version 0.1.0".toList :: ls)) := by
  have h0 : "version 0.1.0".toList = header := rfl
  rw [h0]
  unfold deserialize
  rw [split_written hb, split_written hb']
  unfold deserializeLines
  simp only [ne_eq, not_true_eq_false, if_false]
  rw [parseLines_noise h]

example : Noise ["model \"a\"".toList, "merge \"g\" &0".toList]
    ["# hello".toList, "  model \"a\" \t".toList, "   # x = \"".toList, "merge \"g\" &0".toList] :=
  .comment ⟨[], " hello".toList, by decide, by simp⟩ (.line (a := "  ".toList) (b := " \t".toList) (by decide) (by decide)
    (.comment ⟨"   ".toList, " x = \"".toList, by decide, by decide⟩ (.line (a := []) (b := []) (by simp) (by simp) .nil)))

example : deserialize Ex.num Ex.env
    "version 0.1.0\n# hello\n  model \"a\" \t\n   # x = \"\nmerge \"g\" &0".toList =
    .ok (.merge "g".toList [.model "a".toList none (some "weight".toList)] []) := by decide +kernel

/-! ## C17 -/

/-- **C17.**  Writing, reading and writing again gives the same text. -/
theorem C17_stable (N : Num F) (E : Env F) (r : Val F) (h : RT N E r) (hn : r.isNode = true) :
    ∃ text r', serialize N r = .ok text ∧ deserialize N E text = .ok r' ∧ serialize N r' = .ok text := by
  obtain ⟨text, h1, h2⟩ := C13_roundtrip_partial N E r h hn
  exact ⟨text, r, h1, h2, h1⟩

/-! ## C18 -/

/-- **C18.**  An integer, and a finite float, is written as one token without `=` that is read as the same number. -/
theorem C18_numbers (N : Num F) (v : Val F) (hv : (∃ i, v = .int i) ∨ ∃ f, v = .float f ∧ N.finite f) (st : List Str)
    (rs : List (Val F)) :
    ∃ w, serVal N v st = .ok (w, st) ∧ tokenize w = .ok [w] ∧ '=' ∉ w ∧ getArg N rs w = .ok v := by
  rcases hv with ⟨i, rfl⟩ | ⟨f, rfl, hf⟩
  · have h := piece_int (N := N) rs i
    refine ⟨reprInt i, by simp [serVal], ?_, h.pos trivial, h.get⟩
    exact tokenize_join [.word (reprInt i)] (by intro p hp; simp at hp; subst hp; exact h.wf)
  · have h := piece_float (N := N) rs f hf
    refine ⟨N.repr f, by simp [serVal], ?_, h.pos trivial, h.get⟩
    exact tokenize_join [.word (N.repr f)] (by intro p hp; simp at hp; subst hp; exact h.wf)

example : (∃ i, (Val.int (-12) : Val (Option Int)) = .int i) ∧ Ex.num.finite (some 3) := ⟨⟨-12, rfl⟩, rfl⟩

/-- A word that has no value makes the whole text invalid. -/
theorem bad_argument (N : Num F) (E : Env F) (m w : Str) (hm : NoBreak m) (hw : w ≠ [] ∧ Plain w ∧ '=' ∉ w ∧ NoBreak w)
    (hend : EndOk (.word w)) (e : Err) (hbad : getArg N [] w = .error e) :
    ∃ e', deserialize N E (join '\n' [header, join ' ' ["merge".toList, quote m, w]]) = .error e' := by
  have hline : NoBreak (join ' ' ["merge".toList, quote m, w]) := by
    apply noBreak_join
    intro s hs
    have : s = "merge".toList ∨ s = quote m ∨ s = w := by simpa using hs
    rcases this with rfl | rfl | rfl
    · decide
    · rw [← quoted_text]; exact (piece_str (N := N) [] m hm).noBreak
    · exact hw.2.2.2
  unfold deserialize
  rw [split_written (st := [join ' ' ["merge".toList, quote m, w]]) (by
    intro l hl; have : l = join ' ' ["merge".toList, quote m, w] := by simpa using hl
    rw [this]; exact hline)]
  unfold deserializeLines
  simp only [ne_eq, not_true_eq_false, if_false]
  have hnot : ∀ o, parseLine N E [] (join ' ' ["merge".toList, quote m, w]) ≠ .ok o := by
    intro o ho
    have hstrip : strip (join ' ' ["merge".toList, quote m, w]) = join ' ' ["merge".toList, quote m, w] := by
      obtain ⟨d, hd1, hd2⟩ := hend
      have hl := getLast?_join (l := ["merge".toList, quote m, w]) (w := w) (by rfl) hd1
      obtain ⟨t, ht⟩ : ∃ t, join ' ' ["merge".toList, quote m, w] = 'm' :: t := ⟨_, rfl⟩
      rw [ht] at hl ⊢
      exact strip_id (by decide) hl hd2
    have htok : tokenize (join ' ' ["merge".toList, quote m, w]) = .ok ["merge".toList, (Piece.quoted [] m).token, w] := by
      have := tokenize_join [.word "merge".toList, .quoted [] m, .word w] (by
        intro p hp
        have : p = .word "merge".toList ∨ p = .quoted [] m ∨ p = .word w := by simpa using hp
        rcases this with rfl | rfl | rfl
        · decide
        · intro c hc; simp at hc
        · exact ⟨hw.1, hw.2.1⟩)
      simp only [List.map_cons, List.map_nil, quoted_text] at this
      exact this
    unfold parseLine at ho
    simp only [hstrip] at ho
    rw [if_neg (by
      have : (join ' ' ["merge".toList, quote m, w]).head? = some 'm' := rfl
      rw [this]; decide), htok] at ho
    simp only at ho
    cases hp : preArgs N [] [(Piece.quoted [] m).token, w] [] [] with
    | error e => rw [hp] at ho; cases ho
    | ok q =>
      obtain ⟨v, hv⟩ := preArgs_ok hp w (by simp)
      rw [splitEq_none hw.2.2.1] at hv
      simp only [Option.map_none, Option.getD_none] at hv
      rw [hbad] at hv
      cases hv
  unfold parseLines
  cases hp : parseLine N E [] (join ' ' ["merge".toList, quote m, w]) with
  | error e' => exact ⟨e', rfl⟩
  | ok o => exact absurd hp (hnot o)

/-- **C18/C13 false for booleans.**  A call with a boolean is written as `True` or `False`, and the reader rejects the text,
whatever method it is. -/
theorem C18_bool_false (N : Num F) (E : Env F) (m s : Str) (b : Bool) (hm : NoBreak m) :
    ∃ text e, serialize N (.merge m [.lit (.bool b) none s] []) = .ok text ∧ deserialize N E text = .error e := by
  have hb : getArg N [] (boolStr b) = .error .value := by
    obtain ⟨h1, h2⟩ := N.parseFloat_bool
    cases b <;> simp [getArg, boolStr, nullStr] at h1 h2 ⊢
    · rw [h2]
    · rw [h1]
  obtain ⟨e, he⟩ := bad_argument N E m (boolStr b) hm (by cases b <;> decide)
    (by cases b <;> exact ⟨'e', by decide, by decide⟩) .value hb
  exact ⟨_, e, rfl, he⟩

/-- **C18/C13 false for infinities and nan.** -/
theorem C18_nonfinite_false (N : Num F) (E : Env F) (m s : Str) (f : F) (hf : ¬ N.finite f) (hm : NoBreak m) :
    ∃ text e, serialize N (.merge m [.lit (.float f) none s] []) = .ok text ∧ deserialize N E text = .error e := by
  obtain ⟨p1, p2, p3⟩ := N.parseInt_bad
  have hb : getArg N [] (N.repr f) = .error .value := by
    rcases N.repr_nonfinite f hf with h | h | h <;> rw [h] <;> simp [getArg, nullStr] at p1 p2 p3 ⊢
    · rw [p1]
    · rw [p2]
    · rw [p3]
  obtain ⟨e, he⟩ := bad_argument N E m (N.repr f) hm
    (by rcases N.repr_nonfinite f hf with h | h | h <;> rw [h] <;> decide)
    (by
      rcases N.repr_nonfinite f hf with h | h | h <;> rw [h]
      · exact ⟨'f', by decide, by decide⟩
      · exact ⟨'f', by decide, by decide⟩
      · exact ⟨'n', by decide, by decide⟩) .value hb
  exact ⟨_, e, rfl, he⟩

example : ¬ Ex.num.finite none := by intro h; cases h

end Verif.Serialize
