import Verif.Proofs.Tokenize
import Verif.Spec.RoundTrip

namespace Verif.Serialize
open Method Recipe Spec
variable {F : Type} {N : Num F} {E : Env F}

/-! ## Characters of numbers -/

theorem isDigit_ne {c d : Char} (h : isDigit c = true) (hd : isDigit d = false) : c ≠ d := by
  rintro rfl; rw [h] at hd; cases hd

theorem digits_plain (n : ℕ) : Plain (digits n) := by
  intro c hc
  have := digits_all n c hc
  exact ⟨isDigit_ne this (by decide), isDigit_ne this (by decide), isDigit_ne this (by decide)⟩

theorem isSpace_of_isDigit {c : Char} (h : isDigit c = true) : isSpace c = false := by
  simp only [isDigit, Bool.and_eq_true, decide_eq_true_eq] at h
  simp only [isSpace, Bool.or_eq_false_iff, Bool.and_eq_false_iff, decide_eq_false_iff_not, beq_eq_false_iff_ne]
  refine ⟨⟨⟨⟨⟨⟨⟨⟨⟨⟨?_, ?_⟩, ?_⟩, ?_⟩, ?_⟩, ?_⟩, ?_⟩, ?_⟩, ?_⟩, ?_⟩, ?_⟩ <;> omega

theorem reprInt_chars (i : Int) : ∀ c ∈ reprInt i, isDigit c = true ∨ c = '-' := by
  cases i with
  | ofNat n => intro c hc; exact Or.inl (digits_all n c hc)
  | negSucc n =>
    intro c hc
    unfold reprInt at hc
    rcases List.mem_cons.1 hc with h | h
    · exact Or.inr h
    · exact Or.inl (digits_all _ c h)

theorem reprInt_ne_nil (i : Int) : reprInt i ≠ [] := by
  cases i with
  | ofNat n => exact digits_ne_nil n
  | negSucc n => simp [reprInt]

/-! ## `get_arg_value` -/

theorem head?_mem {w : Str} {c : Char} (h : w.head? = some c) : c ∈ w := List.mem_of_mem_head? h

/-- A word made of characters that occur in numbers is no constant, reference or string. -/
theorem getArg_number {rs : List (Val F)} {w : Str} (hch : ∀ c ∈ w, isDigit c = true ∨ c = '.' ∨ c = 'e' ∨ c = '+' ∨ c = '-')
    (hne : w ≠ []) :
    getArg N rs w = if '.' ∈ w ∨ 'e' ∈ w ∨ 'E' ∈ w then
        (match N.parseFloat w with | some f => .ok (.float f) | none => .error .value)
      else (match N.parseInt w with | some i => .ok (.int i) | none => .error .value) := by
  have hno : ∀ c ∈ w, c ≠ 'n' ∧ c ≠ 't' ∧ c ≠ 'f' ∧ c ≠ '&' ∧ c ≠ '"' := by
    intro c hc
    rcases hch c hc with h | h | h | h | h
    · exact ⟨isDigit_ne h (by decide), isDigit_ne h (by decide), isDigit_ne h (by decide), isDigit_ne h (by decide),
        isDigit_ne h (by decide)⟩
    all_goals subst h; decide
  have h1 : w ≠ nullStr := by
    rintro rfl; exact (hno 'n' (by decide)).1 rfl
  have h2 : w ≠ "true".toList := by
    rintro rfl; exact (hno 't' (by decide)).2.1 rfl
  have h3 : w ≠ "false".toList := by
    rintro rfl; exact (hno 'f' (by decide)).2.2.1 rfl
  have h4 : w.head? ≠ some '&' := fun h => (hno '&' (head?_mem h)).2.2.2.1 rfl
  have h5 : ¬ (w.head? = some '"' ∧ w.getLast? = some '"') := fun h => (hno '"' (head?_mem h.1)).2.2.2.2 rfl
  unfold getArg
  rw [if_neg h1, if_neg h2, if_neg h3, if_neg h4, if_neg h5]
  rfl

theorem getArg_int (rs : List (Val F)) (i : Int) : getArg N rs (reprInt i) = .ok (.int i) := by
  have hch := reprInt_chars i
  rw [getArg_number (fun c hc => (hch c hc).elim Or.inl (fun h => by simp [h])) (reprInt_ne_nil i)]
  have : ¬ ('.' ∈ reprInt i ∨ 'e' ∈ reprInt i ∨ 'E' ∈ reprInt i) := by
    rintro (h | h | h)
    all_goals
      rcases hch _ h with h' | h'
      · revert h'; decide
      · revert h'; decide
  rw [if_neg this, N.parseInt_repr]

theorem getArg_float (rs : List (Val F)) (f : F) (hf : N.finite f) : getArg N rs (N.repr f) = .ok (.float f) := by
  have hm := N.repr_mark f hf
  have hne : N.repr f ≠ [] := by
    intro h; rw [h] at hm; simp at hm
  rw [getArg_number (fun c hc => N.repr_chars f c hc hf) hne, if_pos (by tauto), N.parseFloat_repr f hf]

theorem getArg_null (rs : List (Val F)) : getArg N rs nullStr = .ok .none := by
  unfold getArg; rw [if_pos rfl]

theorem getArg_string (rs : List (Val F)) (s : Str) : getArg N rs ('"' :: (s ++ ['"'])) = .ok (.str s) := by
  unfold getArg
  rw [if_neg (by simp [nullStr]), if_neg (by simp), if_neg (by simp), if_neg (by simp), if_pos]
  · simp
  · exact ⟨rfl, by rw [← List.cons_append, List.getLast?_append]; simp⟩

theorem getArg_ref {rs : List (Val F)} {i : ℕ} {v : Val F} (h : rs[i]? = some v) :
    getArg N rs ('&' :: digits i) = .ok v := by
  have hlt : i < rs.length := by
    rcases Nat.lt_or_ge i rs.length with h' | h'
    · exact h'
    · rw [List.getElem?_eq_none h'] at h; cases h
  have hp : N.parseInt (digits i) = some (i : Int) := N.parseInt_repr (.ofNat i)
  unfold getArg
  rw [if_neg (by simp [nullStr]), if_neg (by simp), if_neg (by simp), if_pos (by simp)]
  simp only [List.tail_cons, hp]
  rw [if_neg (by omega)]
  simp [h]

/-- More results do not change a value already read. -/
theorem getArg_mono {rs ext : List (Val F)} {w : Str} {v : Val F} (h : getArg N rs w = .ok v) :
    getArg N (rs ++ ext) w = .ok v := by
  unfold getArg at h ⊢
  split
  · rename_i h1; rw [if_pos h1] at h; exact h
  · rename_i h1; rw [if_neg h1] at h
    split
    · rename_i h1; rw [if_pos h1] at h; exact h
    · rename_i h1; rw [if_neg h1] at h
      split
      · rename_i h1; rw [if_pos h1] at h; exact h
      · rename_i h1; rw [if_neg h1] at h
        split
        · rename_i h1; rw [if_pos h1] at h
          cases hp : N.parseInt w.tail with
          | none => rw [hp] at h; cases h
          | some i =>
            rw [hp] at h
            simp only at h ⊢
            split at h
            · cases h
            · rename_i hb
              rw [if_neg (by rw [List.length_append]; omega)]
              have hlt : i.toNat < rs.length := by omega
              rw [List.getElem?_append_left hlt]
              exact h
        · rename_i h1; rw [if_neg h1] at h; exact h

/-- A word that starts with `&` reads one of the results. -/
theorem getArg_ref_bound {rs : List (Val F)} {w : Str} {v : Val F} (h : getArg N rs ('&' :: w) = .ok v) :
    ∃ i : ℕ, N.parseInt w = some (i : Int) ∧ i < rs.length ∧ rs[i]? = some v := by
  unfold getArg at h
  rw [if_neg (by simp [nullStr]), if_neg (by simp), if_neg (by simp), if_pos (by simp)] at h
  simp only [List.tail_cons] at h
  cases hp : N.parseInt w with
  | none => rw [hp] at h; cases h
  | some i =>
    rw [hp] at h
    simp only at h
    split at h
    · cases h
    · rename_i hb
      refine ⟨i.toNat, by congr 1; omega, by omega, ?_⟩
      cases hg : rs[i.toNat]? with
      | none => rw [hg] at h; cases h
      | some x => rw [hg] at h; simp at h; rw [h]

/-! ## `preprocess_args` -/

theorem splitEq_none {w : Str} (h : '=' ∉ w) : splitEq w = none := by
  induction w with
  | nil => rfl
  | cons c w ih =>
    unfold splitEq
    rw [if_neg (by rintro rfl; simp at h), ih (by intro h'; exact h (by simp [h']))]
    rfl

theorem splitEq_key {k w : Str} (h : '=' ∉ k) : splitEq (k ++ '=' :: w) = some (k, w) := by
  induction k with
  | nil => simp [splitEq]
  | cons c k ih =>
    rw [List.cons_append]
    unfold splitEq
    rw [if_neg (by rintro rfl; simp at h), ih (by intro h'; exact h (by simp [h']))]
    rfl

theorem preArgs_pos {rs : List (Val F)} {ts : List Str} {vs : List (Val F)} (h : List.Forall₂ (fun t v => '=' ∉ t ∧ getArg N rs t = .ok v) ts vs)
    (rest : List Str) (pos : List (Val F)) (named : Dict Str (Val F)) :
    preArgs N rs (ts ++ rest) pos named = preArgs N rs rest (pos ++ vs) named := by
  induction h generalizing pos with
  | nil => simp
  | cons h _ ih =>
    rw [List.cons_append]
    conv_lhs => unfold preArgs
    rw [splitEq_none h.1, h.2]
    simp only
    rw [ih]; simp

theorem preArgs_kw {rs : List (Val F)} {ks : List (Str × Str)} {vs : List (Str × Val F)}
    (h : List.Forall₂ (fun t v => t.1 = v.1 ∧ '=' ∉ t.1 ∧ getArg N rs t.2 = .ok v.2) ks vs)
    (pos : List (Val F)) (named : Dict Str (Val F)) :
    preArgs N rs (ks.map fun t => t.1 ++ '=' :: t.2) pos named = .ok (pos, named.update vs) := by
  induction h generalizing named with
  | nil => simp [preArgs]
  | @cons t v ks vs h _ ih =>
    rw [List.map_cons]
    unfold preArgs
    rw [splitEq_key h.2.1]
    simp only [h.2.2]
    rw [ih, Dict.update_cons, h.1]

theorem preArgs_mono {rs ext : List (Val F)} {ts : List Str} {pos : List (Val F)} {named : Dict Str (Val F)} {r}
    (h : preArgs N rs ts pos named = .ok r) : preArgs N (rs ++ ext) ts pos named = .ok r := by
  induction ts generalizing pos named with
  | nil => exact h
  | cons t ts ih =>
    unfold preArgs at h ⊢
    cases hs : splitEq t with
    | some p =>
      obtain ⟨k, w⟩ := p
      rw [hs] at h
      simp only at h ⊢
      cases hg : getArg N rs w with
      | error e => rw [hg] at h; cases h
      | ok x =>
        rw [hg] at h
        rw [getArg_mono hg]
        exact ih h
    | none =>
      rw [hs] at h
      simp only at h ⊢
      cases hg : getArg N rs t with
      | error e => rw [hg] at h; cases h
      | ok x =>
        rw [hg] at h
        rw [getArg_mono hg]
        exact ih h

/-- Every argument of a successfully read line has a value. -/
theorem preArgs_ok {rs : List (Val F)} {ts : List Str} {pos : List (Val F)} {named : Dict Str (Val F)} {r}
    (h : preArgs N rs ts pos named = .ok r) : ∀ t ∈ ts, ∃ v, getArg N rs ((splitEq t).map (·.2) |>.getD t) = .ok v := by
  induction ts generalizing pos named with
  | nil => simp
  | cons t ts ih =>
    unfold preArgs at h
    intro t' ht'
    cases hs : splitEq t with
    | some p =>
      obtain ⟨k, w⟩ := p
      rw [hs] at h
      simp only at h
      cases hg : getArg N rs w with
      | error e => rw [hg] at h; cases h
      | ok x =>
        rw [hg] at h
        rcases List.mem_cons.1 ht' with rfl | ht'
        · rw [hs]; exact ⟨x, hg⟩
        · exact ih h t' ht'
    | none =>
      rw [hs] at h
      simp only at h
      cases hg : getArg N rs t with
      | error e => rw [hg] at h; cases h
      | ok x =>
        rw [hg] at h
        rcases List.mem_cons.1 ht' with rfl | ht'
        · rw [hs]; exact ⟨x, hg⟩
        · exact ih h t' ht'

/-! ## Lines -/

theorem strip_id {c : Char} {l : Str} {d : Char} (hc : isSpace c = false) (hl : (c :: l).getLast? = some d)
    (hd : isSpace d = false) : strip (c :: l) = c :: l := by
  unfold strip
  rw [List.dropWhile_cons_of_neg (by simp [hc])]
  have : (c :: l).reverse.head? = some d := by rw [List.head?_reverse]; exact hl
  cases hr : (c :: l).reverse with
  | nil => simp at hr
  | cons x t =>
    rw [hr] at this
    simp at this
    subst this
    rw [List.dropWhile_cons_of_neg (by simp [hd]), ← hr, List.reverse_reverse]

theorem parseLine_mono {rs ext : List (Val F)} {line : Str} {v : Option (Val F)}
    (h : parseLine N E rs line = .ok v) : parseLine N E (rs ++ ext) line = .ok v := by
  unfold parseLine at h ⊢
  simp only at h ⊢
  split
  · rename_i h1; rw [if_pos h1] at h; exact h
  · rename_i h1; rw [if_neg h1] at h
    cases ht : tokenize (strip line) with
    | error e => rw [ht] at h; cases h
    | ok ts =>
      rw [ht] at h
      cases ts with
      | nil => cases h
      | cons cmd args =>
        simp only at h ⊢
        cases hp : preArgs N rs args [] [] with
        | error e => rw [hp] at h; cases h
        | ok r => rw [hp] at h; rw [preArgs_mono hp]; exact h

theorem getLast?_join {l : List Str} {w : Str} {c : Char} (hl : l.getLast? = some w) (hw : w.getLast? = some c) :
    (join ' ' l).getLast? = some c := by
  induction l with
  | nil => simp at hl
  | cons a l ih =>
    cases l with
    | nil => simp at hl; subst hl; simpa [join] using hw
    | cons b l =>
      have h1 := ih (by simpa using hl)
      unfold join
      rw [List.getLast?_append, List.getLast?_cons, h1]
      simp

/-- The text of an argument does not end in white space. -/
def EndOk (p : Piece) : Prop := ∃ c, p.text.getLast? = some c ∧ isSpace c = false

/-- A line as written is read as meant. -/
theorem parseLine_join {rs : List (Val F)} {cmd : Str} {c : Char} {cmd' : Str} (hcmd : cmd = c :: cmd') (hc : isSpace c = false)
    (hcs : c ≠ '#') (hplain : Plain cmd) (hend : ∃ d, cmd.getLast? = some d ∧ isSpace d = false) {ps : List Piece}
    (hps : ∀ p ∈ ps, p.WF ∧ EndOk p) {pos : List (Val F)} {named : Dict Str (Val F)}
    (hpre : preArgs N rs (ps.map Piece.token) [] [] = .ok (pos, named)) {v : Val F}
    (hv : command E cmd pos named = .ok v) :
    parseLine N E rs (join ' ' (cmd :: ps.map Piece.text)) = .ok (some v) := by
  obtain ⟨t, ht⟩ : ∃ t, join ' ' (cmd :: ps.map Piece.text) = c :: t := by
    subst hcmd
    cases ps with
    | nil => exact ⟨cmd', rfl⟩
    | cons p ps => exact ⟨_, rfl⟩
  have hlast : ∃ d, (join ' ' (cmd :: ps.map Piece.text)).getLast? = some d ∧ isSpace d = false := by
    cases hg : (cmd :: ps.map Piece.text).getLast? with
    | none => simp at hg
    | some w =>
      have hend' : ∃ d, w.getLast? = some d ∧ isSpace d = false := by
        have hm := List.mem_of_mem_getLast? hg
        rcases List.mem_cons.1 hm with rfl | hm
        · exact hend
        · obtain ⟨p, hp, rfl⟩ := List.mem_map.1 hm
          exact (hps p hp).2
      obtain ⟨d, h1, h2⟩ := hend'
      exact ⟨d, getLast?_join hg h1, h2⟩
  obtain ⟨d, hd1, hd2⟩ := hlast
  have hstrip : strip (join ' ' (cmd :: ps.map Piece.text)) = join ' ' (cmd :: ps.map Piece.text) := by
    rw [ht] at hd1 ⊢
    exact strip_id hc hd1 hd2
  have htok : tokenize (join ' ' (cmd :: ps.map Piece.text)) = .ok (cmd :: ps.map Piece.token) := by
    have := tokenize_join (.word cmd :: ps) (by
      intro p hp
      rcases List.mem_cons.1 hp with rfl | hp
      · exact ⟨by rw [hcmd]; simp, hplain⟩
      · exact (hps p hp).1)
    exact this
  unfold parseLine
  simp only [hstrip]
  rw [if_neg (by rw [ht]; simpa using hcs), htok]
  simp only [hpre, hv]
  rfl

/-! ## The lines written so far and what they read as -/

/-- `st` are instructions, `rs` the results of reading them. -/
inductive Inv (N : Num F) (E : Env F) : List Str → List (Val F) → Prop where
  | nil : Inv N E [] []
  | snoc {st rs line v} (h : Inv N E st rs) (hp : parseLine N E rs line = .ok (some v)) (hb : NoBreak line) :
      Inv N E (st ++ [line]) (rs ++ [v])

theorem Inv.length {st : List Str} {rs : List (Val F)} (h : Inv N E st rs) : st.length = rs.length := by
  induction h with
  | nil => rfl
  | snoc _ _ _ ih => simp [ih]

theorem Inv.noBreak {st : List Str} {rs : List (Val F)} (h : Inv N E st rs) : ∀ l ∈ st, NoBreak l := by
  induction h with
  | nil => simp
  | snoc _ _ hb ih =>
    intro l hl
    rcases List.mem_append.1 hl with hl | hl
    · exact ih l hl
    · simp at hl; subst hl; exact hb

/-- Reading an instruction again, with more results at hand, gives the same result. -/
theorem Inv.reread {st : List Str} {rs : List (Val F)} (h : Inv N E st rs) {i : ℕ} {line : Str} (hi : st[i]? = some line) :
    ∃ v, rs[i]? = some v ∧ parseLine N E rs line = .ok (some v) := by
  induction h with
  | nil => simp at hi
  | @snoc st rs l v h hp hb ih =>
    have hlen := h.length
    rcases Nat.lt_or_ge i st.length with hlt | hge
    · rw [List.getElem?_append_left hlt] at hi
      obtain ⟨x, h1, h2⟩ := ih hi
      exact ⟨x, by rw [List.getElem?_append_left (by omega)]; exact h1, parseLine_mono h2⟩
    · rw [List.getElem?_append_right hge] at hi
      have : i - st.length = 0 := by
        rcases Nat.eq_zero_or_pos (i - st.length) with h | h
        · exact h
        · rw [List.getElem?_eq_none (by simp only [List.length_singleton]; omega)] at hi; cases hi
      rw [this] at hi
      simp at hi
      subst hi
      exact ⟨v, by rw [List.getElem?_append_right (by omega)]; simp [show i - rs.length = 0 by omega], parseLine_mono hp⟩

theorem parseLines_append {l1 l2 : List Str} {rs : List (Val F)} :
    parseLines N E (l1 ++ l2) rs = (parseLines N E l1 rs).bind (parseLines N E l2) := by
  induction l1 generalizing rs with
  | nil => rfl
  | cons l l1 ih =>
    rw [List.cons_append]
    unfold parseLines
    cases parseLine N E rs l with
    | error e => rfl
    | ok o =>
      cases o with
      | none => exact ih
      | some v => exact ih

theorem Inv.parse {st : List Str} {rs : List (Val F)} (h : Inv N E st rs) : parseLines N E st [] = .ok rs := by
  induction h with
  | nil => rfl
  | snoc h hp hb ih =>
    rw [parseLines_append, ih]
    simp [Except.bind, parseLines, hp]

/-! ## `split` and `join` -/

theorem splitOn_noBreak {sep : Char} {s : Str} (h : sep ∉ s) : splitOn sep s = [s] := by
  induction s with
  | nil => rfl
  | cons c s ih =>
    unfold splitOn
    rw [if_neg (by rintro rfl; simp at h), ih (by intro h'; exact h (by simp [h']))]

theorem splitOn_append {sep : Char} {s t : Str} (h : sep ∉ s) : splitOn sep (s ++ sep :: t) = s :: splitOn sep t := by
  induction s with
  | nil => simp [splitOn]
  | cons c s ih =>
    rw [List.cons_append]
    conv_lhs => unfold splitOn
    rw [if_neg (by rintro rfl; simp at h), ih (by intro h'; exact h (by simp [h']))]

/-- `"\n".join(lines).split("\n")` is `lines` again if no line has a break. -/
theorem splitOn_join {sep : Char} {l : List Str} (hne : l ≠ []) (h : ∀ s ∈ l, sep ∉ s) : splitOn sep (join sep l) = l := by
  induction l with
  | nil => exact absurd rfl hne
  | cons a l ih =>
    cases l with
    | nil => simpa [join] using splitOn_noBreak (h a (by simp))
    | cons b l =>
      unfold join
      rw [splitOn_append (h a (by simp)), ih (by simp) (fun s hs => h s (by simp [hs]))]

end Verif.Serialize
