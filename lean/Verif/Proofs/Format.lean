import Verif.Proofs.RoundTrip
import Verif.Spec.Format

namespace Verif.Serialize
open Method Recipe Spec
variable {F : Type} {N : Num F} {E : Env F}

/-! ## Stripping -/

theorem dropWhile_all {α : Type} {p : α → Bool} {a l : List α} (h : ∀ c ∈ a, p c = true) :
    (a ++ l).dropWhile p = l.dropWhile p := by
  induction a with
  | nil => rfl
  | cons x a ih => rw [List.cons_append, List.dropWhile_cons_of_pos (h x (by simp))]; exact ih (fun c hc => h c (by simp [hc]))

theorem dropWhile_append_of_all {α : Type} {p : α → Bool} {l b : List α} (hl : ∀ c ∈ l, p c = true) (hb : ∀ c ∈ b, p c = true) :
    (l ++ b).dropWhile p = [] := by
  rw [dropWhile_all hl]
  have := dropWhile_all (l := []) hb
  simpa using this

theorem dropWhile_append_of_not {α : Type} {p : α → Bool} {l : List α} (b : List α) (h : l.dropWhile p ≠ []) :
    (l ++ b).dropWhile p = l.dropWhile p ++ b := by
  induction l with
  | nil => exact absurd rfl h
  | cons x l ih =>
    rw [List.cons_append]
    by_cases hx : p x = true
    · rw [List.dropWhile_cons_of_pos hx] at h ⊢
      rw [List.dropWhile_cons_of_pos hx]
      exact ih h
    · rw [List.dropWhile_cons_of_neg hx, List.dropWhile_cons_of_neg hx]; rfl

theorem all_of_dropWhile_nil {α : Type} {p : α → Bool} {l : List α} (h : l.dropWhile p = []) : ∀ c ∈ l, p c = true := by
  induction l with
  | nil => simp
  | cons x l ih =>
    by_cases hx : p x = true
    · rw [List.dropWhile_cons_of_pos hx] at h
      intro c hc
      rcases List.mem_cons.1 hc with rfl | hc
      · exact hx
      · exact ih h c hc
    · rw [List.dropWhile_cons_of_neg hx] at h; cases h

theorem mem_takeWhile {α : Type} {p : α → Bool} {l : List α} {c : α} (h : c ∈ l.takeWhile p) : p c = true := by
  induction l with
  | nil => simp at h
  | cons x l ih =>
    by_cases hx : p x = true
    · rw [List.takeWhile_cons_of_pos hx] at h
      rcases List.mem_cons.1 h with rfl | h
      · exact hx
      · exact ih h
    · rw [List.takeWhile_cons_of_neg hx] at h; simp at h

theorem strip_pad {a l b : Str} (ha : ∀ c ∈ a, isSpace c = true) (hb : ∀ c ∈ b, isSpace c = true) :
    strip (a ++ l ++ b) = strip l := by
  unfold strip
  rw [List.append_assoc, dropWhile_all ha]
  by_cases h : l.dropWhile isSpace = []
  · rw [h, dropWhile_append_of_all (all_of_dropWhile_nil h) hb]
  · rw [dropWhile_append_of_not b h, List.reverse_append]
    rw [dropWhile_all (a := b.reverse)]
    intro c hc
    exact hb c (by simpa using hc)

theorem comment_iff {line : Str} : Comment line ↔ (strip line).head? = some '#' := by
  constructor
  · rintro ⟨a, b, rfl, ha⟩
    unfold strip
    rw [dropWhile_all ha, List.dropWhile_cons_of_neg (by decide), List.reverse_cons]
    rw [List.head?_reverse]
    by_cases h : (b.reverse).dropWhile isSpace = []
    · rw [dropWhile_all (all_of_dropWhile_nil h), List.dropWhile_cons_of_neg (by decide)]; rfl
    · rw [dropWhile_append_of_not _ h, List.getLast?_append]; rfl
  · intro h
    unfold strip at h
    obtain ⟨a, ha⟩ : ∃ a, line = a ++ line.dropWhile isSpace ∧ ∀ c ∈ a, isSpace c = true :=
      ⟨line.takeWhile isSpace, (List.takeWhile_append_dropWhile).symm, fun c hc => mem_takeWhile hc⟩
    generalize line.dropWhile isSpace = d at h ha
    rw [List.head?_reverse] at h
    cases d with
    | nil => simp at h
    | cons x d =>
      rw [List.reverse_cons] at h
      have hx : x = '#' := by
        by_cases hd : (d.reverse).dropWhile isSpace = []
        · rw [dropWhile_all (all_of_dropWhile_nil hd)] at h
          by_cases hs : isSpace x = true
          · rw [List.dropWhile_cons_of_pos hs] at h; simp at h
          · rw [List.dropWhile_cons_of_neg hs] at h; simpa using h
        · rw [dropWhile_append_of_not _ hd, List.getLast?_append] at h
          simpa using h
      exact ⟨a, d, by rw [ha.1, hx], ha.2⟩

/-- White space is neither quote nor backslash, so it does not matter for the balance of quotes... -/
theorem balanced_space {a : Str} (ha : ∀ c ∈ a, isSpace c = true) (l : Str) (i : Bool) :
    balanced i (a ++ l) = balanced i l := by
  induction a with
  | nil => rfl
  | cons c a ih =>
    have hc := ha c (by simp)
    have h1 : c ≠ '\\' := by rintro rfl; revert hc; decide
    have h2 : c ≠ '"' := by rintro rfl; revert hc; decide
    rw [List.cons_append]
    have : balanced i (c :: (a ++ l)) = balanced i (a ++ l) := by
      cases h : a ++ l <;> simp [balanced, h1]
    rw [this, ih (fun c hc => ha c (by simp [hc]))]

theorem fold_space_inside {b : Str} (hb : ∀ c ∈ b, isSpace c = true) (t : Tok) :
    (b.foldl tokStep t).inside = t.inside := by
  induction b generalizing t with
  | nil => rfl
  | cons c b ih =>
    have hc := hb c (by simp)
    have h1 : c ≠ '\\' := by rintro rfl; revert hc; decide
    have h2 : c ≠ '"' := by rintro rfl; revert hc; decide
    rw [List.foldl_cons, ih (fun c hc => hb c (by simp [hc]))]
    unfold tokStep
    split
    · rfl
    · split
      · split <;> rfl
      · rfl

theorem strip_decomp (l : Str) : ∃ a b, l = a ++ strip l ++ b ∧ (∀ c ∈ a, isSpace c = true) ∧ ∀ c ∈ b, isSpace c = true := by
  refine ⟨l.takeWhile isSpace, ((l.dropWhile isSpace).reverse.takeWhile isSpace).reverse, ?_,
    fun c hc => mem_takeWhile hc, fun c hc => mem_takeWhile (List.mem_reverse.1 hc)⟩
  unfold strip
  rw [List.append_assoc, ← List.reverse_append, List.takeWhile_append_dropWhile, List.reverse_reverse,
    List.takeWhile_append_dropWhile]

theorem balanced_strip (l : Str) : balanced false (strip l) = balanced false l := by
  obtain ⟨a, b, h, ha, hb⟩ := strip_decomp l
  have key : balanced false (strip l ++ b) = balanced false (strip l) := by
    have h1 := (balanced_iff (strip l ++ b) {}).1 rfl
    have h2 := (balanced_iff (strip l) {}).1 rfl
    rw [List.foldl_append, fold_space_inside hb] at h1
    have h1' := h1.trans h2.symm
    exact Bool.eq_iff_iff.2 h1'
  conv_rhs => rw [h, List.append_assoc, balanced_space ha, key]

/-! ## Splitting -/

theorem join_splitOn (sep : Char) (s : Str) : join sep (splitOn sep s) = s := by
  induction s with
  | nil => rfl
  | cons c s ih =>
    unfold splitOn
    split
    · rename_i h
      subst h
      cases hs : splitOn c s with
      | nil => rw [hs] at ih; simp [join] at ih; subst ih; simp [splitOn] at hs
      | cons a l => rw [hs] at ih; simp [join, ih]
    · cases hs : splitOn sep s with
      | nil => rw [hs] at ih; simp [join] at ih; simp [join, ih]
      | cons a l =>
        rw [hs] at ih
        cases l with
        | nil => simp [join] at ih ⊢; exact ih
        | cons b l => simp [join] at ih ⊢; exact ih

theorem splitOn_mem (sep : Char) (s : Str) : ∀ l ∈ splitOn sep s, sep ∉ l := by
  induction s with
  | nil => simp [splitOn]
  | cons c s ih =>
    unfold splitOn
    split
    · intro l hl
      rcases List.mem_cons.1 hl with rfl | hl
      · simp
      · exact ih l hl
    · rename_i h
      cases hs : splitOn sep s with
      | nil =>
        intro l hl
        simp at hl; subst hl
        simp [Ne.symm h]
      | cons a l =>
        rw [hs] at ih
        intro x hx
        rcases List.mem_cons.1 hx with rfl | hx
        · simp [Ne.symm h]; exact ih a (by simp)
        · exact ih x (by simp [hx])

/-! ## Reading -/

theorem valuePart_eq (t : Str) : valuePart t = ((splitEq t).map (·.2)).getD t := by
  by_cases h : '=' ∈ t
  · have : ∀ t : Str, '=' ∈ t → splitEq t = some (t.takeWhile (fun c => decide (c ≠ '=')), (t.dropWhile (fun c => decide (c ≠ '='))).tail) := by
      intro t
      induction t with
      | nil => simp
      | cons c t ih =>
        intro h
        unfold splitEq
        by_cases hc : c = '='
        · subst hc; simp
        · rw [if_neg hc, ih (by rcases List.mem_cons.1 h with h | h; exact absurd h.symm hc; exact h)]
          simp [hc]
    rw [this t h]
    simp [valuePart, h]
  · rw [splitEq_none h]; simp [valuePart, h]

theorem command_mem {cmd : Str} {pos : List (Val F)} {named : Dict Str (Val F)} {v : Val F} (h : command E cmd pos named = .ok v) :
    cmd ∈ commands := by
  unfold command at h
  unfold commands
  by_cases h1 : cmd = "dict".toList
  · simp [h1]
  · by_cases h2 : cmd = "literal".toList
    · simp [h2]
    · by_cases h3 : cmd = "model".toList
      · simp [h3]
      · by_cases h4 : cmd = "merge".toList
        · simp [h4]
        · rw [if_neg h1, if_neg h2, if_neg h3, if_neg h4] at h; cases h

theorem parseLine_none {rs : List (Val F)} {line : Str} (h : parseLine N E rs line = .ok none) : Comment line := by
  rw [comment_iff]
  unfold parseLine at h
  simp only at h
  split at h
  · assumption
  · cases ht : tokenize (strip line) with
    | error e => rw [ht] at h; cases h
    | ok ts =>
      rw [ht] at h
      cases ts with
      | nil => cases h
      | cons cmd args =>
        simp only at h
        cases hp : preArgs N rs args [] [] with
        | error e => rw [hp] at h; cases h
        | ok r =>
          rw [hp] at h
          obtain ⟨pos, named⟩ := r
          simp only at h
          cases hc : command E cmd pos named with
          | error e => rw [hc] at h; cases h
          | ok v => rw [hc] at h; cases h

theorem parseLine_comment {rs : List (Val F)} {line : Str} (h : Comment line) : parseLine N E rs line = .ok none := by
  rw [comment_iff] at h
  unfold parseLine
  simp only
  rw [if_pos h]

theorem parseLine_some {rs : List (Val F)} {line : Str} {v : Val F} (h : parseLine N E rs line = .ok (some v)) :
    ¬ Comment line ∧ GoodLine N.parseInt rs.length line := by
  constructor
  · intro hc; rw [parseLine_comment hc] at h; cases h
  unfold parseLine at h
  simp only at h
  split at h
  · cases h
  · cases ht : tokenize (strip line) with
    | error e => rw [ht] at h; cases h
    | ok ts =>
      refine ⟨by rw [← balanced_strip]; exact (tokenize_ok_iff _).1 ⟨ts, ht⟩, ?_⟩
      rw [ht] at h
      cases ts with
      | nil => cases h
      | cons cmd args =>
        simp only at h
        cases hp : preArgs N rs args [] [] with
        | error e => rw [hp] at h; cases h
        | ok r =>
          rw [hp] at h
          obtain ⟨pos, named⟩ := r
          simp only at h
          cases hc : command E cmd pos named with
          | error e => rw [hc] at h; cases h
          | ok x =>
            refine ⟨cmd, args, ht, command_mem hc, ?_⟩
            intro t htm w hw
            obtain ⟨y, hy⟩ := preArgs_ok hp t htm
            rw [← valuePart_eq, hw] at hy
            obtain ⟨i, h1, h2, _⟩ := getArg_ref_bound hy
            exact ⟨i, h1, h2⟩

theorem parseLines_good {ls : List Str} {rs rs' : List (Val F)} (h : parseLines N E ls rs = .ok rs') :
    rs'.length = rs.length + instructions ls ∧
    ∀ (j : ℕ) line, ls[j]? = some line → ¬ Comment line → GoodLine N.parseInt (rs.length + instructions (ls.take j)) line := by
  induction ls generalizing rs with
  | nil => simp [parseLines] at h; subst h; simp [instructions]
  | cons l ls ih =>
    unfold parseLines at h
    cases hp : parseLine N E rs l with
    | error e => rw [hp] at h; cases h
    | ok o =>
      rw [hp] at h
      cases o with
      | none =>
        have hc := parseLine_none hp
        have hi : ∀ ls, instructions (l :: ls) = instructions ls := by intro ls; simp [instructions, hc]
        obtain ⟨h1, h2⟩ := ih h
        refine ⟨by rw [hi]; exact h1, ?_⟩
        intro j line hj hn
        cases j with
        | zero => simp at hj; subst hj; exact absurd hc hn
        | succ j => rw [List.take_succ_cons, hi]; exact h2 j line (by simpa using hj) hn
      | some v =>
        obtain ⟨hc, hg⟩ := parseLine_some hp
        have hi : ∀ ls, instructions (l :: ls) = 1 + instructions ls := by intro ls; simp [instructions, hc]; omega
        obtain ⟨h1, h2⟩ := ih h
        rw [List.length_append, List.length_singleton] at h1 h2
        refine ⟨by rw [hi]; omega, ?_⟩
        intro j line hj hn
        cases j with
        | zero => simp at hj; subst hj; simpa [instructions] using hg
        | succ j =>
          rw [List.take_succ_cons, hi]
          have := h2 j line (by simpa using hj) hn
          rwa [Nat.add_assoc] at this

theorem parseLines_noise {ls ls' : List Str} (h : Noise ls ls') (rs : List (Val F)) :
    parseLines N E ls' rs = parseLines N E ls rs := by
  induction h generalizing rs with
  | nil => rfl
  | comment hl _ ih =>
    conv_lhs => unfold parseLines
    rw [parseLine_comment hl]
    exact ih rs
  | @line ls ls' a l b ha hb _ ih =>
    have hp : parseLine N E rs (a ++ l ++ b) = parseLine N E rs l := by
      unfold parseLine
      rw [strip_pad ha hb]
    unfold parseLines
    rw [hp]
    cases parseLine N E rs l with
    | error e => rfl
    | ok o =>
      cases o with
      | none => exact ih rs
      | some v => exact ih _

/-! ## No instruction is written twice -/

theorem addInstr_nodup {line : Str} {st : List Str} (h : st.Nodup) : (addInstr line st).2.Nodup := by
  unfold addInstr
  cases hf : st.findIdx? fun l => decide (l = line) with
  | some i => exact h
  | none =>
    rw [List.findIdx?_eq_none_iff] at hf
    simp only
    rw [List.nodup_append]
    refine ⟨h, by simp, ?_⟩
    intro a ha b hb
    simp at hb; subst hb
    have := hf a ha
    simpa using this

mutual
theorem serVal_nodup (N : Num F) : ∀ (v : Val F) (st : List Str) (r : Str × List Str), st.Nodup → serVal N v st = .ok r → r.2.Nodup
  | .str _, st, r, hn, h | .int _, st, r, hn, h | .float _, st, r, hn, h | .bool _, st, r, hn, h | .none, st, r, hn, h => by
    simp only [serVal] at h; cases h; exact hn
  | .tensor _, st, r, hn, h => by simp [serVal] at h
  | .dict es, st, r, hn, h => by
    unfold serVal at h
    cases h1 : serK N es st with
    | error e => rw [h1] at h; cases h
    | ok q =>
      rw [h1] at h; cases h
      exact addInstr_nodup (serK_nodup N es st q hn h1)
  | .lit v c s, st, r, hn, h => by
    unfold serVal at h
    cases h1 : serVal N v st with
    | error e => rw [h1] at h; cases h
    | ok q =>
      rw [h1] at h
      have := serVal_nodup N v st q hn h1
      cases c with
      | none => cases h; exact this
      | some c => cases h; exact addInstr_nodup this
  | .model p c s, st, r, hn, h => by
    unfold serVal at h
    cases s with
    | none => cases h
    | some s => cases h; exact addInstr_nodup hn
  | .merge m args kwargs, st, r, hn, h => by
    unfold serVal at h
    cases h1 : serL N args st with
    | error e => rw [h1] at h; cases h
    | ok q =>
      rw [h1] at h
      simp only [Bind.bind, Except.bind] at h
      cases h2 : serK N kwargs q.2 with
      | error e => rw [h2] at h; cases h
      | ok q' =>
        rw [h2] at h
        cases h
        exact addInstr_nodup (serK_nodup N kwargs q.2 q' (serL_nodup N args st q hn h1) h2)
theorem serL_nodup (N : Num F) : ∀ (l : List (Val F)) (st : List Str) (r : List Str × List Str), st.Nodup → serL N l st = .ok r → r.2.Nodup
  | [], st, r, hn, h => by simp only [serL] at h; cases h; exact hn
  | v :: l, st, r, hn, h => by
    unfold serL at h
    cases h1 : serVal N v st with
    | error e => rw [h1] at h; cases h
    | ok q =>
      rw [h1] at h
      simp only [Bind.bind, Except.bind] at h
      cases h2 : serL N l q.2 with
      | error e => rw [h2] at h; cases h
      | ok q' =>
        rw [h2] at h
        cases h
        exact serL_nodup N l q.2 q' (serVal_nodup N v st q hn h1) h2
theorem serK_nodup (N : Num F) : ∀ (l : List (Str × Val F)) (st : List Str) (r : List Str × List Str), st.Nodup → serK N l st = .ok r → r.2.Nodup
  | [], st, r, hn, h => by simp only [serK] at h; cases h; exact hn
  | (k, v) :: l, st, r, hn, h => by
    unfold serK at h
    cases h1 : serVal N v st with
    | error e => rw [h1] at h; cases h
    | ok q =>
      rw [h1] at h
      simp only [Bind.bind, Except.bind] at h
      cases h2 : serK N l q.2 with
      | error e => rw [h2] at h; cases h
      | ok q' =>
        rw [h2] at h
        cases h
        exact serK_nodup N l q.2 q' (serVal_nodup N v st q hn h1) h2
end

end Verif.Serialize
