import Verif.Proofs.Parse

namespace Verif.Serialize
open Method Recipe Spec
variable {F : Type} {N : Num F} {E : Env F}

mutual
def size : Val F → ℕ
  | .dict es => 1 + sizeK es
  | .lit v _ _ => 1 + size v
  | .merge _ a k => 1 + sizeL a + sizeK k
  | _ => 1
def sizeL : List (Val F) → ℕ
  | [] => 0
  | v :: l => size v + sizeL l
def sizeK : List (Str × Val F) → ℕ
  | [] => 0
  | (_, v) :: l => size v + sizeK l
end

theorem size_pos : ∀ v : Val F, 1 ≤ size v
  | .dict _ | .lit _ _ _ | .merge _ _ _ => by simp only [size]; omega
  | .str _ | .int _ | .float _ | .bool _ | .none | .tensor _ | .model .. => by simp [size]

/-! ## Arguments -/

/-- `p` is how the value `v` is written when `rs` are the results so far. -/
structure PieceFor (N : Num F) (rs : List (Val F)) (v : Val F) (p : Piece) : Prop where
  wf : p.WF
  get : getArg N rs p.token = .ok v
  noBreak : NoBreak p.text
  endOk : EndOk p
  pos : PosOk v → '=' ∉ p.token

theorem PieceFor.mono {rs rs' : List (Val F)} {v : Val F} {p : Piece} (h : PieceFor N rs v p) (hp : rs <+: rs') :
    PieceFor N rs' v p := by
  obtain ⟨ext, rfl⟩ := hp
  exact ⟨h.wf, getArg_mono h.get, h.noBreak, h.endOk, h.pos⟩

/-- `k=p` -/
def keyed (k : Str) : Piece → Piece
  | .word w => .word (k ++ '=' :: w)
  | .quoted pre s => .quoted (k ++ '=' :: pre) s

theorem keyed_text (k : Str) (p : Piece) : (keyed k p).text = k ++ '=' :: p.text := by
  cases p <;> simp [keyed, Piece.text]

theorem keyed_token (k : Str) (p : Piece) : (keyed k p).token = k ++ '=' :: p.token := by
  cases p <;> simp [keyed, Piece.token]

theorem plain_append {a b : Str} (ha : Plain a) (hb : Plain b) : Plain (a ++ b) := by
  intro c hc
  rcases List.mem_append.1 hc with h | h
  · exact ha c h
  · exact hb c h

theorem plain_cons {c : Char} {b : Str} (hc : c ≠ ' ' ∧ c ≠ '"' ∧ c ≠ '\\') (hb : Plain b) : Plain (c :: b) := by
  intro d hd
  rcases List.mem_cons.1 hd with rfl | h
  · exact hc
  · exact hb d h

theorem keyed_wf {k : Str} (hk : Plain k) {p : Piece} (hp : p.WF) : (keyed k p).WF := by
  cases p with
  | word w => exact ⟨by simp, plain_append hk (plain_cons (by decide) hp.2)⟩
  | quoted pre s => exact plain_append hk (plain_cons (by decide) hp)

theorem keyed_endOk {k : Str} {p : Piece} (hp : EndOk p) : EndOk (keyed k p) := by
  obtain ⟨c, h1, h2⟩ := hp
  refine ⟨c, ?_, h2⟩
  rw [keyed_text, List.getLast?_append, List.getLast?_cons, h1]
  rfl

theorem noBreak_append {a b : Str} (ha : NoBreak a) (hb : NoBreak b) : NoBreak (a ++ b) := by
  unfold NoBreak at *; simp [ha, hb]

theorem noBreak_cons {c : Char} {b : Str} (hc : c ≠ '\n') (hb : NoBreak b) : NoBreak (c :: b) := by
  unfold NoBreak at *; simp [hb, Ne.symm hc]

theorem noBreak_join {l : List Str} (h : ∀ s ∈ l, NoBreak s) : NoBreak (join ' ' l) := by
  induction l with
  | nil => simp [NoBreak, join]
  | cons a l ih =>
    cases l with
    | nil => simpa [join] using h a (by simp)
    | cons b l =>
      unfold join
      exact noBreak_append (h a (by simp)) (noBreak_cons (by decide) (ih (fun s hs => h s (by simp [hs]))))

theorem noBreak_escaped {s : Str} (h : NoBreak s) : NoBreak (escaped s) := by
  induction s with
  | nil => simp [escaped, NoBreak]
  | cons c s ih =>
    have hc : c ≠ '\n' := by rintro rfl; simp [NoBreak] at h
    have hs : NoBreak s := by unfold NoBreak at *; intro h'; exact h (by simp [h'])
    unfold escaped
    split
    · exact noBreak_cons (by decide) (noBreak_cons hc (ih hs))
    · exact noBreak_cons hc (ih hs)

theorem noBreak_of_digits {w : Str} (h : ∀ c ∈ w, isDigit c = true ∨ c = '.' ∨ c = 'e' ∨ c = '+' ∨ c = '-' ∨ c = '&') : NoBreak w := by
  intro hm
  rcases h _ hm with h | h | h | h | h | h
  all_goals revert h; decide

/-- A non-empty word of characters of numbers ends well. -/
theorem endOk_number {w : Str} (hne : w ≠ []) (h : ∀ c ∈ w, isDigit c = true ∨ c = '.' ∨ c = 'e' ∨ c = '+' ∨ c = '-' ∨ c = '&') :
    EndOk (.word w) := by
  cases hl : w.getLast? with
  | none => simp at hl; exact absurd hl hne
  | some c =>
    refine ⟨c, hl, ?_⟩
    rcases h c (List.mem_of_mem_getLast? hl) with h | h
    · exact isSpace_of_isDigit h
    · rcases h with h | h | h | h | h <;> subst h <;> decide

theorem plain_number {w : Str} (h : ∀ c ∈ w, isDigit c = true ∨ c = '.' ∨ c = 'e' ∨ c = '+' ∨ c = '-' ∨ c = '&') : Plain w := by
  intro c hc
  rcases h c hc with h | h
  · exact ⟨isDigit_ne h (by decide), isDigit_ne h (by decide), isDigit_ne h (by decide)⟩
  · rcases h with h | h | h | h | h <;> subst h <;> decide

theorem noEq_number {w : Str} (h : ∀ c ∈ w, isDigit c = true ∨ c = '.' ∨ c = 'e' ∨ c = '+' ∨ c = '-' ∨ c = '&') : '=' ∉ w := by
  intro hm
  rcases h _ hm with h | h | h | h | h | h
  all_goals revert h; decide

theorem piece_number {rs : List (Val F)} {v : Val F} {w : Str} (hne : w ≠ [])
    (h : ∀ c ∈ w, isDigit c = true ∨ c = '.' ∨ c = 'e' ∨ c = '+' ∨ c = '-' ∨ c = '&') (hg : getArg N rs w = .ok v) :
    PieceFor N rs v (.word w) :=
  ⟨⟨hne, plain_number h⟩, hg, noBreak_of_digits h, endOk_number hne h, fun _ => noEq_number h⟩

theorem piece_ref {rs : List (Val F)} {v : Val F} {i : ℕ} (h : rs[i]? = some v) :
    PieceFor N rs v (.word ('&' :: digits i)) := by
  apply piece_number (by simp) _ (getArg_ref h)
  intro c hc
  rcases List.mem_cons.1 hc with rfl | hc
  · simp
  · exact Or.inl (digits_all i c hc)

theorem piece_int (rs : List (Val F)) (i : Int) : PieceFor N rs (.int i) (.word (reprInt i)) := by
  apply piece_number (reprInt_ne_nil i) _ (getArg_int rs i)
  intro c hc
  rcases reprInt_chars i c hc with h | h
  · exact Or.inl h
  · simp [h]

theorem piece_float (rs : List (Val F)) (f : F) (hf : N.finite f) : PieceFor N rs (.float f) (.word (N.repr f)) := by
  have hne : N.repr f ≠ [] := by
    intro h
    have hm := N.repr_mark f hf
    rw [h] at hm; simp at hm
  apply piece_number hne _ (getArg_float rs f hf)
  intro c hc
  rcases N.repr_chars f c hc hf with h | h | h | h | h <;> simp [h]

theorem piece_null (rs : List (Val F)) : PieceFor N rs .none (.word nullStr) :=
  ⟨by decide, getArg_null rs, by decide, ⟨'l', by decide, by decide⟩, fun _ => by decide⟩

theorem quoted_text (s : Str) : (Piece.quoted [] s).text = quote s := by
  rw [quote_eq]; rfl

theorem endOk_quoted (pre s : Str) : EndOk (.quoted pre s) := by
  refine ⟨'"', ?_, by decide⟩
  simp only [Piece.text]
  rw [List.getLast?_append, ← List.cons_append, List.getLast?_append]
  rfl

theorem piece_str (rs : List (Val F)) (s : Str) (hs : NoBreak s) : PieceFor N rs (.str s) (.quoted [] s) := by
  refine ⟨by intro c hc; simp at hc, getArg_string rs s, ?_, endOk_quoted [] s, ?_⟩
  · exact noBreak_cons (by decide) (noBreak_append (noBreak_escaped hs) (by decide))
  · intro h
    simp only [PosOk] at h
    simp [Piece.token, h]

/-! ## Adding an instruction -/

theorem addInstr_spec {st : List Str} {rs : List (Val F)} (hinv : Inv N E st rs) {line : Str} {v : Val F}
    (hp : parseLine N E rs line = .ok (some v)) (hb : NoBreak line) :
    ∃ p st' rs', addInstr line st = (p.text, st') ∧ Inv N E st' rs' ∧ rs <+: rs' ∧ PieceFor N rs' v p ∧
      (rs' = rs ∨ rs' = rs ++ [v]) ∧ (v ∉ rs → rs' = rs ++ [v]) := by
  unfold addInstr
  cases hf : st.findIdx? fun l => decide (l = line) with
  | some i =>
    obtain ⟨h1, h2, _⟩ := List.findIdx?_eq_some_iff_getElem.1 hf
    have hl : st[i]? = some line := by
      rw [List.getElem?_eq_getElem h1]; simpa using h2
    obtain ⟨x, hx1, hx2⟩ := hinv.reread hl
    rw [hp] at hx2
    simp only [Except.ok.injEq, Option.some.injEq] at hx2
    subst hx2
    exact ⟨.word ('&' :: digits i), st, rs, rfl, hinv, List.prefix_rfl, piece_ref hx1, Or.inl rfl,
      fun hn => absurd (List.mem_of_getElem? hx1) hn⟩
  | none =>
    refine ⟨.word ('&' :: digits st.length), st ++ [line], rs ++ [v], rfl, hinv.snoc hp hb, List.prefix_append _ _,
      piece_ref ?_, Or.inr rfl, fun _ => rfl⟩
    rw [hinv.length]; simp

/-! ## Values -/

/-- The value `v` is written, and read as `w`. -/
def Written (N : Num F) (E : Env F) (v w : Val F) : Prop :=
  ∀ st rs, Inv N E st rs → ∃ p st' rs', serVal N v st = .ok (p.text, st') ∧ Inv N E st' rs' ∧ rs <+: rs' ∧
    PieceFor N rs' w p ∧ (∀ r ∈ rs'.drop rs.length, size r ≤ size w) ∧
    (w.isNode = true → w ∉ rs → rs'.getLast? = some w)

def WrittenL (N : Num F) (E : Env F) (vs ws : List (Val F)) : Prop :=
  ∀ st rs, Inv N E st rs → ∃ ps st' rs', serL N vs st = .ok (ps.map Piece.text, st') ∧ Inv N E st' rs' ∧ rs <+: rs' ∧
    List.Forall₂ (PieceFor N rs') ws ps ∧ ∀ r ∈ rs'.drop rs.length, size r ≤ sizeL ws

def WrittenK (N : Num F) (E : Env F) (vs ws : List (Str × Val F)) : Prop :=
  ∀ st rs, Inv N E st rs → ∃ (ps : List (Str × Piece)) (st' : List Str) (rs' : List (Val F)),
    serK N vs st = .ok (ps.map (fun q => (keyed q.1 q.2).text), st') ∧ Inv N E st' rs' ∧ rs <+: rs' ∧
    List.Forall₂ (fun (v : Str × Val F) (q : Str × Piece) => v.1 = q.1 ∧ PlainKey q.1 ∧ PieceFor N rs' v.2 q.2) ws ps ∧
    ∀ r ∈ rs'.drop rs.length, size r ≤ sizeK ws

theorem written_simple {v : Val F} {p : Piece} (hs : ∀ st, serVal N v st = .ok (p.text, st))
    (hp : ∀ rs, PieceFor N rs v p) (hn : v.isNode = false) : Written N E v v := by
  intro st rs hinv
  exact ⟨p, st, rs, hs st, hinv, List.prefix_rfl, hp rs, by simp, by rw [hn]; intro h; cases h⟩

theorem mem_drop_of_prefix {rs rs1 rs2 : List (Val F)} (h1 : rs <+: rs1) (h2 : rs1 <+: rs2) {r : Val F}
    (hr : r ∈ rs2.drop rs.length) : r ∈ rs1.drop rs.length ∨ r ∈ rs2.drop rs1.length := by
  obtain ⟨e1, rfl⟩ := h1
  obtain ⟨e2, rfl⟩ := h2
  simp only [List.append_assoc, List.drop_left] at hr
  rw [List.drop_left, List.drop_left]
  exact List.mem_append.1 hr

/-- The last step of writing a node: its instruction. -/
theorem written_instr {v : Val F} {line : Str} {st1 : List Str} {rs rs1 : List (Val F)} (hinv : Inv N E st1 rs1)
    (hpre : rs <+: rs1) (hp : parseLine N E rs1 line = .ok (some v)) (hb : NoBreak line)
    (hsize : ∀ r ∈ rs1.drop rs.length, size r < size v) :
    ∃ p st' rs', addInstr line st1 = (p.text, st') ∧ Inv N E st' rs' ∧ rs <+: rs' ∧ PieceFor N rs' v p ∧
      (∀ r ∈ rs'.drop rs.length, size r ≤ size v) ∧ (v.isNode = true → v ∉ rs → rs'.getLast? = some v) := by
  obtain ⟨p, st', rs', h1, h2, h3, h4, h5, h6⟩ := addInstr_spec hinv hp hb
  refine ⟨p, st', rs', h1, h2, hpre.trans h3, h4, ?_, ?_⟩
  · intro r hr
    rcases mem_drop_of_prefix hpre h3 hr with h | h
    · exact Nat.le_of_lt (hsize r h)
    · rcases h5 with h5 | h5
      · rw [h5] at h; simp at h
      · rw [h5] at h; simp at h; rw [h]
  · intro _ hn
    have hnot : v ∉ rs1 := by
      intro hm
      obtain ⟨e, rfl⟩ := hpre
      rcases List.mem_append.1 hm with hm | hm
      · exact hn hm
      · have := hsize v (by rw [List.drop_left]; exact hm)
        omega
    rw [h6 hnot]; simp

theorem keyed_noBreak {k : Str} {p : Piece} (hk : NoBreak k) (hp : NoBreak p.text) : NoBreak (keyed k p).text := by
  rw [keyed_text]; exact noBreak_append hk (noBreak_cons (by decide) hp)

theorem forall₂_tokens_pos {rs : List (Val F)} {ws : List (Val F)} {ps : List Piece}
    (h : List.Forall₂ (PieceFor N rs) ws ps) (hpos : ∀ w ∈ ws, PosOk w) :
    List.Forall₂ (fun t v => '=' ∉ t ∧ getArg N rs t = .ok v) (ps.map Piece.token) ws := by
  induction h with
  | nil => simp
  | cons h _ ih =>
    rw [List.map_cons]
    exact List.Forall₂.cons ⟨h.pos (hpos _ (by simp)), h.get⟩ (ih (fun w hw => hpos w (by simp [hw])))

theorem forall₂_tokens_kw {rs : List (Val F)} {ws : List (Str × Val F)} {ps : List (Str × Piece)}
    (h : List.Forall₂ (fun (v : Str × Val F) (q : Str × Piece) => v.1 = q.1 ∧ PlainKey q.1 ∧ PieceFor N rs v.2 q.2) ws ps) :
    List.Forall₂ (fun (t : Str × Str) (v : Str × Val F) => t.1 = v.1 ∧ '=' ∉ t.1 ∧ getArg N rs t.2 = .ok v.2)
      (ps.map fun q => (q.1, q.2.token)) ws := by
  induction h with
  | nil => simp
  | cons h _ ih =>
    rw [List.map_cons]
    exact List.Forall₂.cons ⟨h.1.symm, h.2.1.2.1, h.2.2.get⟩ ih

theorem forall₂_mem_right {α β : Type} {R : α → β → Prop} {l : List α} {r : List β} (h : List.Forall₂ R l r) :
    ∀ b ∈ r, ∃ a ∈ l, R a b := by
  induction h with
  | nil => simp
  | cons h _ ih =>
    intro b hb
    rcases List.mem_cons.1 hb with rfl | hb
    · exact ⟨_, by simp, h⟩
    · obtain ⟨a, ha, hr⟩ := ih b hb
      exact ⟨a, by simp [ha], hr⟩

theorem forall₂_imp {α β : Type} {R S : α → β → Prop} (hi : ∀ a b, R a b → S a b) {l : List α} {r : List β}
    (h : List.Forall₂ R l r) : List.Forall₂ S l r := by
  induction h with
  | nil => exact .nil
  | cons h _ ih => exact .cons (hi _ _ h) ih

theorem kws_ok {rs : List (Val F)} {ws : List (Str × Val F)} {ps : List (Str × Piece)}
    (h : List.Forall₂ (fun (v : Str × Val F) (q : Str × Piece) => v.1 = q.1 ∧ PlainKey q.1 ∧ PieceFor N rs v.2 q.2) ws ps) :
    ∀ q ∈ ps, (keyed q.1 q.2).WF ∧ EndOk (keyed q.1 q.2) ∧ NoBreak (keyed q.1 q.2).text := by
  intro q hq
  obtain ⟨v, _, _, h2, h3⟩ := forall₂_mem_right h q hq
  exact ⟨keyed_wf h2.1 h3.wf, keyed_endOk h3.endOk, keyed_noBreak h2.2.2 h3.noBreak⟩

theorem keyed_tokens (ps : List (Str × Piece)) :
    (ps.map fun q => keyed q.1 q.2).map Piece.token = (ps.map fun q => (q.1, q.2.token)).map fun t => t.1 ++ '=' :: t.2 := by
  simp only [List.map_map]
  apply List.map_congr_left
  intro q _
  simp [keyed_token]

theorem ofList_update_nil {κ ν : Type} [DecidableEq κ] (l : Dict κ ν) (h : l.keys.Nodup) : Dict.update ([] : Dict κ ν) l = l :=
  Dict.ofList_of_nodup h

theorem map_fst_rawK (l : List (Str × Val F)) : (rawK l).map (·.1) = l.map (·.1) := by simp [rawK]

theorem RTL_cons (N : Num F) (E : Env F) (v : Val F) (l : List (Val F)) :
    RTL N E (v :: l) ↔ (RT N E (raw v) ∧ PosOk (raw v)) ∧ RTL N E l := by
  cases v with
  | lit v c s => cases c <;> simp [RTL, raw]
  | _ => simp [RTL, raw]

theorem RTKA_cons (N : Num F) (E : Env F) (k : Str) (v : Val F) (l : List (Str × Val F)) :
    RTKA N E ((k, v) :: l) ↔ (PlainKey k ∧ RT N E (raw v)) ∧ RTKA N E l := by
  cases v with
  | lit v c s => cases c <;> simp [RTKA, raw]
  | _ => simp [RTKA, raw]

theorem RTL_pos {l : List (Val F)} (h : RTL N E l) : ∀ w ∈ l.map raw, PosOk w := by
  induction l with
  | nil => simp
  | cons v l ih =>
    rw [RTL_cons] at h
    intro w hw
    rcases List.mem_cons.1 hw with rfl | hw
    · exact h.1.2
    · exact ih h.2 w hw

theorem size_raw_le (v : Val F) : size (raw v) ≤ size v := by
  cases v with
  | lit v c s => cases c <;> simp [raw, size]
  | _ => simp [raw]

theorem sizeL_raw_le (l : List (Val F)) : sizeL (l.map raw) ≤ sizeL l := by
  induction l with
  | nil => simp
  | cons v l ih => simp only [List.map_cons, sizeL]; have := size_raw_le v; omega

theorem sizeK_raw_le (l : List (Str × Val F)) : sizeK (rawK l) ≤ sizeK l := by
  induction l with
  | nil => simp [rawK]
  | cons p l ih =>
    obtain ⟨k, v⟩ := p
    have := size_raw_le v
    simp only [rawK, List.map_cons, sizeK] at ih ⊢
    omega

/-- A literal without config is written like its value. -/
theorem serVal_raw (v : Val F) (st : List Str) : serVal N v st = serVal N (raw v) st := by
  cases v with
  | lit v c s =>
    cases c with
    | none =>
      conv_lhs => unfold serVal
      simp only [raw]
      cases serVal N v st with
      | error e => rfl
      | ok r => obtain ⟨a, b⟩ := r; rfl
    | some c => rfl
  | _ => rfl

theorem writtenL_cons {v w : Val F} {vs ws : List (Val F)} (h1 : Written N E w w) (hvw : w = raw v) (h2 : WrittenL N E vs ws) :
    WrittenL N E (v :: vs) (w :: ws) := by
  intro st rs hinv
  obtain ⟨p, st1, rs1, a1, a2, a3, a4, a5, _⟩ := h1 st rs hinv
  obtain ⟨ps, st2, rs2, b1, b2, b3, b4, b5⟩ := h2 st1 rs1 a2
  refine ⟨p :: ps, st2, rs2, ?_, b2, a3.trans b3, .cons (a4.mono b3) b4, ?_⟩
  · unfold serL
    rw [serVal_raw, ← hvw, a1]
    simp only [Bind.bind, Except.bind, b1]
    rfl
  · intro r hr
    simp only [sizeL]
    rcases mem_drop_of_prefix a3 b3 hr with h | h
    · have := a5 r h; omega
    · have := b5 r h; omega

theorem writtenK_cons {k : Str} {v w : Val F} {vs ws : List (Str × Val F)} (hk : PlainKey k) (h1 : Written N E w w)
    (hvw : w = raw v) (h2 : WrittenK N E vs ws) : WrittenK N E ((k, v) :: vs) ((k, w) :: ws) := by
  intro st rs hinv
  obtain ⟨p, st1, rs1, a1, a2, a3, a4, a5, _⟩ := h1 st rs hinv
  obtain ⟨ps, st2, rs2, b1, b2, b3, b4, b5⟩ := h2 st1 rs1 a2
  refine ⟨(k, p) :: ps, st2, rs2, ?_, b2, a3.trans b3, .cons ⟨rfl, hk, a4.mono b3⟩ b4, ?_⟩
  · unfold serK
    rw [serVal_raw, ← hvw, a1]
    simp only [Bind.bind, Except.bind, b1]
    rw [List.map_cons, keyed_text]
  · intro r hr
    simp only [sizeK]
    rcases mem_drop_of_prefix a3 b3 hr with h | h
    · have := a5 r h; omega
    · have := b5 r h; omega

theorem RT_raw_self {v : Val F} (h : RT N E v) : raw v = v := by
  cases v with
  | lit v c s =>
    cases c with
    | none => simp [RT] at h
    | some c => rfl
  | _ => rfl

theorem written_dict {es : List (Str × Val F)} (hnd : (es.map (·.1)).Nodup) (h : WrittenK N E es es) :
    Written N E (.dict es) (.dict es) := by
  intro st rs hinv
  obtain ⟨ps, st1, rs1, a1, a2, a3, a4, a5⟩ := h st rs hinv
  have hk := kws_ok a4
  have hpre : preArgs N rs1 ((ps.map fun q => keyed q.1 q.2).map Piece.token) [] [] = .ok ([], es) := by
    rw [keyed_tokens, preArgs_kw (forall₂_tokens_kw a4), ofList_update_nil es hnd]
  have hline : parseLine N E rs1 ("dict ".toList ++ join ' ' (ps.map fun q => (keyed q.1 q.2).text)) = .ok (some (.dict es)) := by
    have hjoin := parseLine_join (N := N) (E := E) (rs := rs1) (cmd := "dict".toList) (c := 'd') (cmd' := "ict".toList) rfl (by decide) (by decide)
      (by decide) ⟨'t', by decide, by decide⟩ (ps := ps.map fun q => keyed q.1 q.2) (by
        intro p hp
        obtain ⟨q, hq, rfl⟩ := List.mem_map.1 hp
        exact ⟨(hk q hq).1, (hk q hq).2.1⟩) hpre (v := .dict es) rfl
    cases ps with
    | nil =>
      have he : es = [] := by
        cases a4; rfl
      subst he
      unfold parseLine
      have : strip ("dict ".toList ++ join ' ' (([] : List (Str × Piece)).map fun q => (keyed q.1 q.2).text)) = "dict".toList := by decide
      simp only [this]
      rw [if_neg (by decide)]
      have ht : tokenize "dict".toList = .ok ["dict".toList] := by decide
      rw [ht]
      rfl
    | cons q ps =>
      rw [List.map_map] at hjoin
      exact hjoin
  have hb : NoBreak ("dict ".toList ++ join ' ' (ps.map fun q => (keyed q.1 q.2).text)) := by
    apply noBreak_append (by decide)
    apply noBreak_join
    intro s hs
    obtain ⟨q, hq, rfl⟩ := List.mem_map.1 hs
    exact (hk q hq).2.2
  obtain ⟨p, st', rs', b1, b2, b3, b4, b5, b6⟩ := written_instr a2 a3 hline hb (by
    intro r hr; have := a5 r hr; simp only [size]; omega)
  refine ⟨p, st', rs', ?_, b2, b3, b4, b5, b6⟩
  unfold serVal
  rw [a1]
  simp only [Bind.bind, Except.bind]
  rw [b1]

theorem plainKey_config : PlainKey kwConfig := by decide
theorem plainKey_space : PlainKey kwSpace := by decide
theorem kwConfig_ne : kwConfig ≠ kwSpace := by decide
theorem kwConfig_ne_value : kwConfig ≠ kwValue := by decide
theorem kwSpace_ne_value : kwSpace ≠ kwValue := by decide

theorem written_lit {v : Val F} {c s : Str} (h : Written N E v v) (hpos : PosOk v) (hc : c ∈ E.configs) (hs : s ∈ E.spaces)
    (hcb : NoBreak c) (hsb : NoBreak s) (hmk : mkLit E v (some c) (some s) = .ok (.lit v (some c) s)) :
    Written N E (.lit v (some c) s) (.lit v (some c) s) := by
  intro st rs hinv
  obtain ⟨p, st1, rs1, a1, a2, a3, a4, a5, _⟩ := h st rs hinv
  have hcfg := piece_str (N := N) rs1 c hcb
  have hsp := piece_str (N := N) rs1 s hsb
  obtain ⟨ps, hps⟩ : ∃ ps : List (Str × Piece), ps = [(kwConfig, .quoted [] c), (kwSpace, .quoted [] s)] := ⟨_, rfl⟩
  have hkw : List.Forall₂ (fun (v : Str × Val F) (q : Str × Piece) => v.1 = q.1 ∧ PlainKey q.1 ∧ PieceFor N rs1 v.2 q.2)
      [(kwConfig, .str c), (kwSpace, .str s)] ps :=
    hps ▸ .cons ⟨rfl, plainKey_config, hcfg⟩ (.cons ⟨rfl, plainKey_space, hsp⟩ .nil)
  have hk := kws_ok hkw
  have hpre : preArgs N rs1 ((p :: ps.map fun q => keyed q.1 q.2).map Piece.token) [] [] =
      .ok ([v], [(kwConfig, .str c), (kwSpace, .str s)]) := by
    have h1 : List.Forall₂ (fun t v => '=' ∉ t ∧ getArg N rs1 t = .ok v) [p.token] [v] := .cons ⟨a4.pos hpos, a4.get⟩ .nil
    have h2 := preArgs_pos h1 ((ps.map fun q => keyed q.1 q.2).map Piece.token) [] []
    rw [List.map_cons, ← List.singleton_append, h2, keyed_tokens, preArgs_kw (forall₂_tokens_kw hkw)]
    rw [ofList_update_nil _ (by simp [Dict.keys, kwConfig_ne])]
    rfl
  have hcmd : command E "literal".toList [v] [(kwConfig, .str c), (kwSpace, .str s)] = .ok (.lit v (some c) s) := by
    have hg1 : Dict.get? ([(kwConfig, .str c), (kwSpace, .str s)] : Dict Str (Val F)) kwValue = none := by
      simp [Dict.get?, kwConfig_ne_value, kwSpace_ne_value]
    have hg2 : Dict.get? ([(kwConfig, .str c), (kwSpace, .str s)] : Dict Str (Val F)) kwConfig = some (.str c) := by
      simp [Dict.get?]
    have hg3 : Dict.get? ([(kwConfig, .str c), (kwSpace, .str s)] : Dict Str (Val F)) kwSpace = some (.str s) := by
      simp [Dict.get?, kwConfig_ne]
    unfold command
    rw [if_neg (by decide), if_pos rfl]
    unfold cmdLiteral
    rw [if_neg (by simp)]
    rw [hg1, hg2, hg3]
    simp only [Bind.bind, Except.bind, optStr, Env.resolveConfig, Env.resolveSpace, hc, hs, if_true]
    exact hmk
  have hline := parseLine_join (N := N) (E := E) (rs := rs1) (cmd := "literal".toList) (c := 'l') (cmd' := "iteral".toList) rfl (by decide) (by decide)
      (by decide) ⟨'l', by decide, by decide⟩ (ps := p :: ps.map fun q => keyed q.1 q.2) (by
        intro q hq
        rcases List.mem_cons.1 hq with rfl | hq
        · exact ⟨a4.wf, a4.endOk⟩
        · obtain ⟨q', hq', rfl⟩ := List.mem_map.1 hq
          exact ⟨(hk q' hq').1, (hk q' hq').2.1⟩) hpre hcmd
  have htext : join ' ' ("literal".toList :: (p :: ps.map fun q => keyed q.1 q.2).map Piece.text) =
      "literal ".toList ++ p.text ++ " model_config=".toList ++ quote c ++ " merge_space=".toList ++ quote s := by
    have h1 : "literal ".toList = "literal".toList ++ [' '] := by decide
    have h2 : " model_config=".toList = ' ' :: (kwConfig ++ ['=']) := by decide
    have h3 : " merge_space=".toList = ' ' :: (kwSpace ++ ['=']) := by decide
    simp only [hps, List.map_cons, List.map_nil, keyed_text, quoted_text, join, h1, h2, h3]
    simp only [List.append_assoc, List.cons_append, List.nil_append]
  rw [htext] at hline
  have hb : NoBreak ("literal ".toList ++ p.text ++ " model_config=".toList ++ quote c ++ " merge_space=".toList ++ quote s) := by
    have h1 := hcfg.noBreak
    have h2 := hsp.noBreak
    rw [quoted_text] at h1 h2
    exact noBreak_append (noBreak_append (noBreak_append (noBreak_append (noBreak_append (by decide) a4.noBreak) (by decide)) h1) (by decide)) h2
  obtain ⟨p', st', rs', b1, b2, b3, b4, b5, b6⟩ := written_instr a2 a3 hline hb (by
    intro r hr; have := a5 r hr; simp only [size]; omega)
  refine ⟨p', st', rs', ?_, b2, b3, b4, b5, b6⟩
  unfold serVal
  rw [a1]
  simp only [Bind.bind, Except.bind]
  rw [b1]

/-- `None` or a string -/
def optVal : Option Str → Val F
  | some x => .str x
  | none => .none

theorem written_model {p : Str} {c : Option Str} {s : Str} (hpb : NoBreak p) (hpe : '=' ∉ p) (hnorm : E.norm p = p)
    (hc : ∀ x, c = some x → x ∈ E.configs ∧ NoBreak x) (hs : s ∈ E.spaces) (hsb : NoBreak s) :
    Written N E (.model p c (some s)) (.model p c (some s)) := by
  intro st rs hinv
  have hpath := piece_str (N := N) rs p hpb
  have hsp := piece_str (N := N) rs s hsb
  -- the config as a value
  let cv : Val F := optVal c
  obtain ⟨pc, hpc, htc⟩ : ∃ pc : Piece, PieceFor N rs cv pc ∧ pc.text = optQuote c := by
    cases c with
    | none => exact ⟨.word nullStr, piece_null rs, rfl⟩
    | some x => exact ⟨.quoted [] x, piece_str rs x (hc x rfl).2, quoted_text x⟩
  obtain ⟨ps, hps⟩ : ∃ ps : List (Str × Piece), ps = [(kwConfig, pc), (kwSpace, .quoted [] s)] := ⟨_, rfl⟩
  have hkw : List.Forall₂ (fun (v : Str × Val F) (q : Str × Piece) => v.1 = q.1 ∧ PlainKey q.1 ∧ PieceFor N rs v.2 q.2)
      [(kwConfig, cv), (kwSpace, .str s)] ps :=
    hps ▸ .cons ⟨rfl, plainKey_config, hpc⟩ (.cons ⟨rfl, plainKey_space, hsp⟩ .nil)
  have hk := kws_ok hkw
  have hpre : preArgs N rs ((Piece.quoted [] p :: ps.map fun q => keyed q.1 q.2).map Piece.token) [] [] =
      .ok ([.str p], [(kwConfig, cv), (kwSpace, .str s)]) := by
    have h1 : List.Forall₂ (fun t v => '=' ∉ t ∧ getArg N rs t = .ok v) [(Piece.quoted [] p).token] [.str p] :=
      .cons ⟨hpath.pos hpe, hpath.get⟩ .nil
    have h2 := preArgs_pos h1 ((ps.map fun q => keyed q.1 q.2).map Piece.token) [] []
    rw [List.map_cons, ← List.singleton_append, h2, keyed_tokens, preArgs_kw (forall₂_tokens_kw hkw)]
    rw [ofList_update_nil _ (by simp [Dict.keys, kwConfig_ne])]
    rfl
  have hcmd : command E "model".toList [.str p] [(kwConfig, cv), (kwSpace, .str s)] = .ok (.model p c (some s)) := by
    have hg2 : Dict.get? ([(kwConfig, cv), (kwSpace, .str s)] : Dict Str (Val F)) kwConfig = some cv := by
      simp [Dict.get?]
    have hg3 : Dict.get? ([(kwConfig, cv), (kwSpace, .str s)] : Dict Str (Val F)) kwSpace = some (.str s) := by
      simp [Dict.get?, kwConfig_ne]
    have hcv : E.resolveConfig c = .ok c ∧ optStr (some cv) = .ok c := by
      cases c with
      | none => exact ⟨rfl, rfl⟩
      | some x => exact ⟨by simp [Env.resolveConfig, (hc x rfl).1], rfl⟩
    unfold command
    rw [if_neg (by decide), if_neg (by decide), if_pos rfl]
    unfold cmdModel
    simp only
    rw [if_neg (by simp)]
    rw [hg2, hg3]
    simp only [Bind.bind, Except.bind, hcv.2, hcv.1]
    simp only [optStr, Env.resolveSpace, hs, if_true, hnorm]
  have hline := parseLine_join (N := N) (E := E) (rs := rs) (cmd := "model".toList) (c := 'm') (cmd' := "odel".toList) rfl (by decide) (by decide)
      (by decide) ⟨'l', by decide, by decide⟩ (ps := Piece.quoted [] p :: ps.map fun q => keyed q.1 q.2) (by
        intro q hq
        rcases List.mem_cons.1 hq with rfl | hq
        · exact ⟨hpath.wf, hpath.endOk⟩
        · obtain ⟨q', hq', rfl⟩ := List.mem_map.1 hq
          exact ⟨(hk q' hq').1, (hk q' hq').2.1⟩) hpre hcmd
  have htext : join ' ' ("model".toList :: (Piece.quoted [] p :: ps.map fun q => keyed q.1 q.2).map Piece.text) =
      "model ".toList ++ quote p ++ " model_config=".toList
        ++ optQuote c ++ " merge_space=".toList ++ quote s := by
    have h1 : "model ".toList = "model".toList ++ [' '] := by decide
    have h2 : " model_config=".toList = ' ' :: (kwConfig ++ ['=']) := by decide
    have h3 : " merge_space=".toList = ' ' :: (kwSpace ++ ['=']) := by decide
    simp only [hps, List.map_cons, List.map_nil, keyed_text, quoted_text, htc, join, h1, h2, h3]
    simp only [List.append_assoc, List.cons_append, List.nil_append]
  rw [htext] at hline
  have hb : NoBreak ("model ".toList ++ quote p ++ " model_config=".toList
        ++ optQuote c ++ " merge_space=".toList ++ quote s) := by
    have h1 := hpath.noBreak
    have h2 := hsp.noBreak
    have h3 := hpc.noBreak
    rw [quoted_text] at h1 h2
    rw [htc] at h3
    exact noBreak_append (noBreak_append (noBreak_append (noBreak_append (noBreak_append (by decide) h1) (by decide)) h3) (by decide)) h2
  obtain ⟨p', st', rs', b1, b2, b3, b4, b5, b6⟩ := written_instr hinv List.prefix_rfl hline hb (by simp)
  refine ⟨p', st', rs', ?_, b2, b3, b4, b5, b6⟩
  unfold serVal
  simp only
  rw [b1]

theorem written_merge {m : Str} {args : List (Val F)} {kwargs : List (Str × Val F)} (hmb : NoBreak m) (hme : '=' ∉ m)
    (hnd : (kwargs.map (·.1)).Nodup) (hself : "self".toList ∉ kwargs.map (·.1))
    (hpos : ∀ w ∈ args.map raw, PosOk w) (ha : WrittenL N E args (args.map raw)) (hk : WrittenK N E kwargs (rawK kwargs))
    (hmk : createRecipe E m (args.map raw) (rawK kwargs) = .ok (.merge m args kwargs)) :
    Written N E (.merge m args kwargs) (.merge m args kwargs) := by
  intro st rs hinv
  obtain ⟨as, st1, rs1, a1, a2, a3, a4, a5⟩ := ha st rs hinv
  obtain ⟨ks, st2, rs2, k1, k2, k3, k4, k5⟩ := hk st1 rs1 a2
  have a4' : List.Forall₂ (PieceFor N rs2) (args.map raw) as := forall₂_imp (fun _ _ h => h.mono k3) a4
  have hm := piece_str (N := N) rs2 m hmb
  have hkk := kws_ok k4
  have hpre : preArgs N rs2 ((Piece.quoted [] m :: (as ++ ks.map fun q => keyed q.1 q.2)).map Piece.token) [] [] =
      .ok (.str m :: args.map raw, rawK kwargs) := by
    have h1 : List.Forall₂ (fun t v => '=' ∉ t ∧ getArg N rs2 t = .ok v)
        ((Piece.quoted [] m).token :: as.map Piece.token) (.str m :: args.map raw) :=
      .cons ⟨hm.pos hme, hm.get⟩ (forall₂_tokens_pos a4' hpos)
    have h2 := preArgs_pos h1 ((ks.map fun q => keyed q.1 q.2).map Piece.token) [] []
    rw [List.map_cons, List.map_append, ← List.cons_append, h2, keyed_tokens, preArgs_kw (forall₂_tokens_kw k4)]
    rw [ofList_update_nil (rawK kwargs) (by
      have : Dict.keys (rawK kwargs) = kwargs.map (·.1) := map_fst_rawK kwargs
      rw [this]; exact hnd)]
    rfl
  have hcmd : command E "merge".toList (.str m :: args.map raw) (rawK kwargs) = .ok (.merge m args kwargs) := by
    unfold command
    rw [if_neg (by decide), if_neg (by decide), if_neg (by decide), if_pos rfl]
    unfold cmdMerge
    simp only
    rw [if_neg (by
      have : Dict.keys (rawK kwargs) = kwargs.map (·.1) := map_fst_rawK kwargs
      rw [this]; exact hself)]
    exact hmk
  have hline := parseLine_join (N := N) (E := E) (rs := rs2) (cmd := "merge".toList) (c := 'm') (cmd' := "erge".toList) rfl (by decide) (by decide)
      (by decide) ⟨'e', by decide, by decide⟩ (ps := Piece.quoted [] m :: (as ++ ks.map fun q => keyed q.1 q.2)) (by
        intro q hq
        rcases List.mem_cons.1 hq with rfl | hq
        · exact ⟨hm.wf, hm.endOk⟩
        · rcases List.mem_append.1 hq with hq | hq
          · obtain ⟨w, _, hw⟩ := forall₂_mem_right a4' q hq
            exact ⟨hw.wf, hw.endOk⟩
          · obtain ⟨q', hq', rfl⟩ := List.mem_map.1 hq
            exact ⟨(hkk q' hq').1, (hkk q' hq').2.1⟩) hpre hcmd
  have htext : ("merge".toList :: (Piece.quoted [] m :: (as ++ ks.map fun q => keyed q.1 q.2)).map Piece.text) =
      "merge".toList :: quote m :: (as.map Piece.text ++ ks.map fun q => (keyed q.1 q.2).text) := by
    simp only [List.map_cons, List.map_append, quoted_text, List.map_map]
    rfl
  rw [htext] at hline
  have hb : NoBreak (join ' ' ("merge".toList :: quote m :: (as.map Piece.text ++ ks.map fun q => (keyed q.1 q.2).text))) := by
    apply noBreak_join
    rw [← htext]
    intro s hs
    rcases List.mem_cons.1 hs with rfl | hs
    · decide
    · obtain ⟨q, hq, rfl⟩ := List.mem_map.1 hs
      rcases List.mem_cons.1 hq with rfl | hq
      · exact hm.noBreak
      · rcases List.mem_append.1 hq with hq | hq
        · obtain ⟨w, _, hw⟩ := forall₂_mem_right a4' q hq
          exact hw.noBreak
        · obtain ⟨q', hq', rfl⟩ := List.mem_map.1 hq
          exact (hkk q' hq').2.2
  obtain ⟨p', st', rs', b1, b2, b3, b4, b5, b6⟩ := written_instr k2 (a3.trans k3) hline hb (by
    intro r hr
    have h1 := sizeL_raw_le args
    have h2 := sizeK_raw_le kwargs
    simp only [size]
    rcases mem_drop_of_prefix a3 k3 hr with h | h
    · have := a5 r h; omega
    · have := k5 r h; omega)
  refine ⟨p', st', rs', ?_, b2, b3, b4, b5, b6⟩
  unfold serVal
  rw [a1]
  simp only [Bind.bind, Except.bind, k1]
  rw [b1]

theorem writtenL_nil : WrittenL N E ([] : List (Val F)) [] := by
  intro st rs hinv
  exact ⟨[], st, rs, by simp [serL], hinv, List.prefix_rfl, .nil, by simp⟩

theorem writtenK_nil : WrittenK N E ([] : List (Str × Val F)) [] := by
  intro st rs hinv
  exact ⟨[], st, rs, by simp [serK], hinv, List.prefix_rfl, .nil, by simp⟩

mutual
theorem written (N : Num F) (E : Env F) : ∀ v : Val F, RT N E v → Written N E v v
  | .str s, h => written_simple (p := .quoted [] s) (fun st => by simp [serVal, quoted_text]) (fun rs => piece_str rs s h) rfl
  | .int i, _ => written_simple (p := .word (reprInt i)) (fun st => by simp [serVal, Piece.text]) (fun rs => piece_int rs i) rfl
  | .float f, h => written_simple (p := .word (N.repr f)) (fun st => by simp [serVal, Piece.text]) (fun rs => piece_float rs f (by simpa [RT] using h)) rfl
  | .bool _, h => by simp [RT] at h
  | .none, _ => written_simple (p := .word nullStr) (fun st => by simp [serVal, Piece.text]) (fun rs => piece_null rs) rfl
  | .tensor _, h => by simp [RT] at h
  | .dict es, h => by
    simp only [RT] at h
    exact written_dict h.1 (writtenK N E es h.2)
  | .lit v none _, h => by simp [RT] at h
  | .lit v (some c) s, h => by
    simp only [RT] at h
    obtain ⟨h1, h2, h3, h4, h5, h6, h7⟩ := h
    exact written_lit (written N E v h1) h2 h3 h4 h5 h6 h7
  | .model p c s, h => by
    simp only [RT] at h
    obtain ⟨h1, h2, h3, h4, x, rfl, h5, h6⟩ := h
    exact written_model h1 h2 h3 h4 h5 h6
  | .merge m args kwargs, h => by
    simp only [RT] at h
    obtain ⟨h1, h2, h3, h4, h5, h6, h7⟩ := h
    exact written_merge h1 h2 h3 h4 (RTL_pos h5) (writtenL N E args h5) (writtenKA N E kwargs h6) h7
theorem writtenL (N : Num F) (E : Env F) : ∀ l : List (Val F), RTL N E l → WrittenL N E l (l.map raw)
  | [], _ => writtenL_nil
  | .lit v none s :: l, h => by
    simp only [RTL] at h
    exact writtenL_cons (written N E v h.1.1) rfl (writtenL N E l h.2)
  | .lit v (some c) s :: l, h => by
    simp only [RTL] at h
    exact writtenL_cons (written N E (.lit v (some c) s) h.1.1) rfl (writtenL N E l h.2)
  | .str v :: l, h | .int v :: l, h | .float v :: l, h | .bool v :: l, h | .tensor v :: l, h | .dict v :: l, h => by
    simp only [RTL] at h
    exact writtenL_cons (written N E _ h.1.1) rfl (writtenL N E l h.2)
  | .none :: l, h => by
    simp only [RTL] at h
    exact writtenL_cons (written N E _ h.1.1) rfl (writtenL N E l h.2)
  | .model _ _ _ :: l, h => by
    simp only [RTL] at h
    exact writtenL_cons (written N E _ h.1.1) rfl (writtenL N E l h.2)
  | .merge m a k :: l, h => by
    simp only [RTL] at h
    exact writtenL_cons (written N E (.merge m a k) h.1.1) rfl (writtenL N E l h.2)
theorem writtenKA (N : Num F) (E : Env F) : ∀ l : List (Str × Val F), RTKA N E l → WrittenK N E l (rawK l)
  | [], _ => writtenK_nil
  | (k, .lit v none s) :: l, h => by
    simp only [RTKA] at h
    exact writtenK_cons h.1.1 (written N E v h.1.2) rfl (writtenKA N E l h.2)
  | (k, .lit v (some c) s) :: l, h => by
    simp only [RTKA] at h
    exact writtenK_cons h.1.1 (written N E (.lit v (some c) s) h.1.2) rfl (writtenKA N E l h.2)
  | (k, .str v) :: l, h | (k, .int v) :: l, h | (k, .float v) :: l, h | (k, .bool v) :: l, h | (k, .tensor v) :: l, h
  | (k, .dict v) :: l, h => by
    simp only [RTKA] at h
    exact writtenK_cons h.1.1 (written N E _ h.1.2) rfl (writtenKA N E l h.2)
  | (k, .none) :: l, h => by
    simp only [RTKA] at h
    exact writtenK_cons h.1.1 (written N E _ h.1.2) rfl (writtenKA N E l h.2)
  | (k, .model _ _ _) :: l, h => by
    simp only [RTKA] at h
    exact writtenK_cons h.1.1 (written N E _ h.1.2) rfl (writtenKA N E l h.2)
  | (k, .merge m a ks) :: l, h => by
    simp only [RTKA] at h
    exact writtenK_cons h.1.1 (written N E (.merge m a ks) h.1.2) rfl (writtenKA N E l h.2)
theorem writtenK (N : Num F) (E : Env F) : ∀ l : List (Str × Val F), RTK N E l → WrittenK N E l l
  | [], _ => writtenK_nil
  | (k, v) :: l, h => by
    simp only [RTK] at h
    exact writtenK_cons h.1.1 (written N E v h.1.2) (RT_raw_self h.1.2).symm (writtenK N E l h.2)
end

end Verif.Serialize
