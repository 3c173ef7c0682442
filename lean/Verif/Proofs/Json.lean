import Verif.Py.Json
import Mathlib.Tactic.IntervalCases

namespace Verif.Json

theorem hexVal_hexDigit {d : ℕ} (h : d < 16) : hexVal (hexDigit d) = some d := by
  interval_cases d <;> rfl

theorem hex4_escU (n : ℕ) (h : n < 65536) :
    hex4 (hexDigit (n / 4096 % 16)) (hexDigit (n / 256 % 16)) (hexDigit (n / 16 % 16)) (hexDigit (n % 16))
      = some n := by
  simp only [hex4, hexVal_hexDigit (Nat.mod_lt _ (show 16 > 0 by omega)), bind, Option.bind, pure]
  congr 1
  omega

theorem parseStr_u (a b c d : Char) (r : List Char) (v : ℕ) (hv : hex4 a b c d = some v)
    (h : ¬ (55296 ≤ v ∧ v < 56320)) :
    parseStr ('\\' :: 'u' :: a :: b :: c :: d :: r) = (parseStr r).map fun p => (Char.ofNat v :: p.1, p.2) := by
  rw [parseStr.eq_def]
  simp [hv, h]

theorem parseStr_uu (a b c d e f g h : Char) (r : List Char) (v w : ℕ) (hv : hex4 a b c d = some v)
    (hw : hex4 e f g h = some w)
    (h1 : (55296 ≤ v ∧ v < 56320)) (h2 : 56320 ≤ w ∧ w < 57344) :
    parseStr ('\\' :: 'u' :: a :: b :: c :: d :: '\\' :: 'u' :: e :: f :: g :: h :: r) =
    (parseStr r).map fun p => (Char.ofNat (65536 + (v - 55296) * 1024 + (w - 56320)) :: p.1, p.2) := by
  rw [parseStr.eq_def]
  simp [hv, h1, hw, h2]

theorem parseStr_plain (c : Char) (r : List Char) (h1 : c.toNat ≠ 34) (h2 : c.toNat ≠ 92) (h3 : 32 ≤ c.toNat) :
    parseStr (c :: r) = (parseStr r).map fun p => (c :: p.1, p.2) := by
  have e1 : c ≠ '"' := by rintro rfl; exact h1 rfl
  have e2 : c ≠ '\\' := by rintro rfl; exact h2 rfl
  rw [parseStr.eq_def]
  simp [e2, Nat.not_lt.2 h3]

theorem parseStr_escChar (c : Char) (r : List Char) :
    parseStr (escChar c ++ r) = (parseStr r).map fun p => (c :: p.1, p.2) := by
  have hc : ∀ {n : ℕ}, c.toNat = n → c = Char.ofNat n := by
    rintro n rfl; exact (Char.ofNat_toNat c).symm
  unfold escChar
  simp only
  split_ifs with h1 h2 h3 h4 h5 h6 h7 h8 h9
  · rw [hc h1]; rw [parseStr.eq_def]; rfl
  · rw [hc h2]; rw [parseStr.eq_def]; rfl
  · rw [hc h3]; rw [parseStr.eq_def]; rfl
  · rw [hc h4]; rw [parseStr.eq_def]; rfl
  · rw [hc h5]; rw [parseStr.eq_def]; rfl
  · rw [hc h6]; rw [parseStr.eq_def]; rfl
  · rw [hc h7]; rw [parseStr.eq_def]; rfl
  · exact parseStr_plain c r h1 h2 h8.1
  · have hvalid : c.toNat < 55296 ∨ (57343 < c.toNat ∧ c.toNat < 1114112) := c.valid
    have := parseStr_u _ _ _ _ r c.toNat (hex4_escU c.toNat h9) (by omega)
    simp only [escU, List.cons_append, List.nil_append]
    rw [this, Char.ofNat_toNat]
  · have hvalid : c.toNat < 55296 ∨ (57343 < c.toNat ∧ c.toNat < 1114112) := c.valid
    have := parseStr_uu _ _ _ _ _ _ _ _ r _ _ (hex4_escU (55296 + (c.toNat - 65536) / 1024) (by omega))
      (hex4_escU (56320 + (c.toNat - 65536) % 1024) (by omega)) (by omega) (by omega)
    simp only [escU, List.cons_append, List.nil_append]
    rw [this]
    have e : 65536 + (55296 + (c.toNat - 65536) / 1024 - 55296) * 1024 + (56320 + (c.toNat - 65536) % 1024 - 56320)
        = c.toNat := by omega
    rw [e, Char.ofNat_toNat]

theorem parseStr_enc (s r : List Char) : parseStr (s.flatMap escChar ++ '"' :: r) = some (s, r) := by
  induction s with
  | nil => simp [parseStr]
  | cons c s ih =>
    simp only [List.flatMap_cons, List.append_assoc]
    rw [parseStr_escChar, ih]; rfl

/-- `rest` does not continue a number. -/
def NoDigit (r : List Char) : Prop := ∀ c ∈ r.head?, isDigit c = false

theorem parseNum_digits (n : ℕ) (r : List Char) (h : NoDigit r) : parseNum (digits n ++ r) = some (n, r) := by
  have h1 : (digits n ++ r).takeWhile isDigit = digits n := by
    rw [List.takeWhile_append_of_pos (digits_all n)]
    cases r with
    | nil => simp
    | cons c r =>
      have : isDigit c = false := h c (by simp)
      simp [this]
  have h2 : (digits n ++ r).dropWhile isDigit = r := by
    rw [List.dropWhile_append_of_pos (digits_all n)]
    cases r with
    | nil => simp
    | cons c r =>
      have : isDigit c = false := h c (by simp)
      simp [this]
  unfold parseNum
  rw [h1, h2]
  have := digits_ne_nil n
  cases hd : digits n with
  | nil => exact absurd hd this
  | cons a l => simp only [← hd, digitsVal_digits]

theorem digits_head (n : ℕ) : ∃ c cs, digits n = c :: cs ∧ isDigit c = true := by
  cases hd : digits n with
  | nil => exact absurd hd (digits_ne_nil n)
  | cons c cs => exact ⟨c, cs, rfl, digits_all n c (by simp [hd])⟩

theorem parseVal_num (f n : ℕ) (r : List Char) (h : NoDigit r) :
    parseVal (f + 1) (digits n ++ r) = some (.num n, r) := by
  obtain ⟨c, cs, hd, hc⟩ := digits_head n
  have e1 : c ≠ '"' := by rintro rfl; simp [isDigit] at hc
  have e2 : c ≠ '[' := by rintro rfl; simp [isDigit] at hc
  have e3 : c ≠ '{' := by rintro rfl; simp [isDigit] at hc
  have h0 := parseNum_digits n r h
  rw [hd] at h0 ⊢
  simp only [List.cons_append] at h0 ⊢
  rw [parseVal]
  · simp [h0]
  all_goals (intros; simp_all)

/-- First character of an encoded value. -/
theorem enc_head (j : Json) : ∃ c cs, enc j = c :: cs ∧ c ≠ ']' ∧ c ≠ '}' := by
  cases j with
  | str s => exact ⟨'"', _, by simp only [enc, encStr]; rfl, by decide, by decide⟩
  | num n =>
    obtain ⟨c, cs, hd, hc⟩ := digits_head n
    refine ⟨c, cs, by simp [enc, hd], ?_, ?_⟩ <;> (rintro rfl; simp [isDigit] at hc)
  | arr l => exact ⟨'[', _, by simp only [enc]; rfl, by decide, by decide⟩
  | obj l => exact ⟨'{', _, by simp only [enc]; rfl, by decide, by decide⟩

theorem joinSep_cons_ne (sep : Char) (x : List Char) (l : List (List Char)) (h : l ≠ []) :
    joinSep sep (x :: l) = x ++ sep :: joinSep sep l := by
  cases l with
  | nil => exact absurd rfl h
  | cons y l => rfl

theorem parseVal_arr (f : ℕ) (c : Char) (r : List Char) (hc : c ≠ ']') :
    parseVal (f + 1) ('[' :: c :: r) = (parseItems f (c :: r)).map fun p => (.arr p.1, p.2) := by
  rw [parseVal]
  intro r' h
  simp at h; exact hc h.1

theorem parseVal_obj (f : ℕ) (c : Char) (r : List Char) (hc : c ≠ '}') :
    parseVal (f + 1) ('{' :: c :: r) = (parseFields f (c :: r)).map fun p => (.obj p.1, p.2) := by
  rw [parseVal]
  intro r' h
  simp at h; exact hc h.1

theorem noDigit_cons {c : Char} {r : List Char} (h : isDigit c = false) : NoDigit (c :: r) := by
  intro d hd; simp at hd; subst hd; exact h

mutual
theorem parseVal_enc : (j : Json) → (f : ℕ) → (r : List Char) → (enc j).length ≤ f → NoDigit r →
    parseVal f (enc j ++ r) = some (j, r)
  | .str s, f, r, hf, hr => by
    cases f with
    | zero => simp [enc, encStr] at hf
    | succ f =>
      simp only [enc, encStr, List.cons_append, List.append_assoc, List.nil_append]
      rw [parseVal, parseStr_enc]; rfl
  | .num n, f, r, hf, hr => by
    cases f with
    | zero => simp [enc] at hf; exact absurd hf (digits_ne_nil n)
    | succ f => exact parseVal_num f n r hr
  | .arr l, f, r, hf, hr => by
    cases f with
    | zero => simp [enc] at hf
    | succ f =>
      cases l with
      | nil => simp [enc, encList, joinSep, parseVal]
      | cons j l =>
        have hI := parseItems_enc (j :: l) f r (by simp) (by simp [enc] at hf ⊢; omega)
        obtain ⟨c, cs, he, h1, h2⟩ := enc_head j
        have hd : ∃ cs', joinSep ',' (encList (j :: l)) = c :: cs' := by
          cases l with
          | nil => exact ⟨cs, by simp [encList, joinSep, he]⟩
          | cons a l => exact ⟨cs ++ ',' :: joinSep ',' (enc a :: encList l), by simp [encList, joinSep, he]⟩
        obtain ⟨cs', hd⟩ := hd
        simp only [enc, hd, List.cons_append, List.append_assoc, List.nil_append] at hI ⊢
        rw [parseVal_arr f c _ h1, hI]; rfl
  | .obj l, f, r, hf, hr => by
    cases f with
    | zero => simp [enc] at hf
    | succ f =>
      cases l with
      | nil => simp [enc, encFields, joinSep, parseVal]
      | cons p l =>
        obtain ⟨k, j⟩ := p
        have hI := parseFields_enc ((k, j) :: l) f r (by simp) (by simp [enc] at hf ⊢; omega)
        have hd : ∃ cs', joinSep ',' (encFields ((k, j) :: l)) = '"' :: cs' := by
          cases l with
          | nil => exact ⟨_, by simp [encFields, joinSep, encStr]; rfl⟩
          | cons a l => obtain ⟨k', j'⟩ := a; exact ⟨_, by simp [encFields, joinSep, encStr]; rfl⟩
        obtain ⟨cs', hd⟩ := hd
        simp only [enc, hd, List.cons_append, List.append_assoc, List.nil_append] at hI ⊢
        rw [parseVal_obj f '"' _ (by decide), hI]; rfl

theorem parseItems_enc : (l : List Json) → (f : ℕ) → (r : List Char) → l ≠ [] →
    (joinSep ',' (encList l)).length + 1 ≤ f →
    parseItems f (joinSep ',' (encList l) ++ ']' :: r) = some (l, r)
  | [], _, _, h, _ => absurd rfl h
  | j :: l, f, r, _, hf => by
    cases f with
    | zero => simp at hf
    | succ f =>
      cases l with
      | nil =>
        simp only [encList, joinSep] at hf ⊢
        rw [parseItems, parseVal_enc j f _ (by omega) (noDigit_cons (by decide))]
        rfl
      | cons a l =>
        have hlen : (joinSep ',' (encList (j :: a :: l))).length =
          (enc j).length + 1 + (joinSep ',' (encList (a :: l))).length := by
          simp [encList, joinSep]; omega
        have e : joinSep ',' (encList (j :: a :: l)) ++ ']' :: r =
          enc j ++ ',' :: (joinSep ',' (encList (a :: l)) ++ ']' :: r) := by
          simp [encList, joinSep]
        rw [e, parseItems, parseVal_enc j f _ (by omega) (noDigit_cons (by decide))]
        simp only
        rw [parseItems_enc (a :: l) f r (by simp) (by omega)]; rfl

theorem parseFields_enc : (l : List (List Char × Json)) → (f : ℕ) → (r : List Char) → l ≠ [] →
    (joinSep ',' (encFields l)).length + 1 ≤ f →
    parseFields f (joinSep ',' (encFields l) ++ '}' :: r) = some (l, r)
  | [], _, _, h, _ => absurd rfl h
  | (k, j) :: l, f, r, _, hf => by
    cases f with
    | zero => simp at hf
    | succ f =>
      cases l with
      | nil =>
        simp only [encFields, joinSep, encStr, List.length_append, List.length_cons, List.cons_append,
          List.append_assoc, List.nil_append] at hf ⊢
        rw [parseFields, parseStr_enc]
        simp only
        rw [parseVal_enc j f _ (by omega) (noDigit_cons (by decide))]
        rfl
      | cons a l =>
        have hlen : (joinSep ',' (encFields ((k, j) :: a :: l))).length =
          (encStr k).length + 1 + (enc j).length + 1 + (joinSep ',' (encFields (a :: l))).length := by
          obtain ⟨k', j'⟩ := a
          simp [encFields, joinSep]; omega
        have e : joinSep ',' (encFields ((k, j) :: a :: l)) ++ '}' :: r =
          '"' :: (k.flatMap escChar ++ '"' :: ':' :: (enc j ++ ',' :: (joinSep ',' (encFields (a :: l)) ++ '}' :: r))) := by
          obtain ⟨k', j'⟩ := a
          simp [encFields, joinSep, encStr]
        rw [e, parseFields, parseStr_enc]
        simp only
        rw [parseVal_enc j f _ (by omega) (noDigit_cons (by decide))]
        simp only
        rw [parseFields_enc (a :: l) f r (by simp) (by omega)]; rfl
end

/-- `json.loads(json.dumps(j)) == j` on the subset. -/
theorem parse_enc (j : Json) : parse (enc j) = some j := by
  have := parseVal_enc j ((enc j).length + 1) [] (by omega) (by intro c hc; simp at hc)
  simp only [List.append_nil] at this
  simp [parse, this]

/-- Output of `json.dumps` is printable ASCII. -/
def Printable (c : Char) : Prop := 32 ≤ c.toNat ∧ c.toNat ≤ 126

theorem hexDigit_printable (d : ℕ) (h : d < 16) : Printable (hexDigit d) := by
  unfold Printable; interval_cases d <;> decide

theorem escU_printable (n : ℕ) : ∀ c ∈ escU n, Printable c := by
  intro c hc
  simp only [escU, List.mem_cons, List.not_mem_nil, or_false] at hc
  rcases hc with rfl | rfl | rfl | rfl | rfl | rfl
  · unfold Printable; decide
  · unfold Printable; decide
  all_goals exact hexDigit_printable _ (Nat.mod_lt _ (by omega))

theorem escChar_printable (c : Char) : ∀ d ∈ escChar c, Printable d := by
  unfold escChar
  simp only
  split_ifs with h1 h2 h3 h4 h5 h6 h7 h8 h9
  all_goals try
    (intro d hd; simp only [List.mem_cons, List.not_mem_nil, or_false] at hd
     rcases hd with rfl | rfl <;> (unfold Printable; decide))
  · intro d hd; simp at hd; subst hd; exact h8
  · exact escU_printable _
  · intro d hd; rcases List.mem_append.1 hd with h | h <;> exact escU_printable _ d h

theorem encStr_printable (s : List Char) : ∀ c ∈ encStr s, Printable c := by
  intro c hc
  simp only [encStr, List.mem_cons, List.mem_append, List.mem_flatMap, List.not_mem_nil, or_false] at hc
  rcases hc with rfl | ⟨d, _, h⟩ | rfl
  · unfold Printable; decide
  · exact escChar_printable d c h
  · unfold Printable; decide

theorem joinSep_printable (sep : Char) (hs : Printable sep) (l : List (List Char))
    (h : ∀ x ∈ l, ∀ c ∈ x, Printable c) : ∀ c ∈ joinSep sep l, Printable c := by
  induction l with
  | nil => simp [joinSep]
  | cons x l ih =>
    cases l with
    | nil => intro c hc; simp [joinSep] at hc; exact h x (by simp) c hc
    | cons y l =>
      intro c hc
      simp only [joinSep, List.mem_append, List.mem_cons] at hc
      rcases hc with hc | rfl | hc
      · exact h x (by simp) c hc
      · exact hs
      · exact ih (fun x hx => h x (by simp [List.mem_cons.1 hx])) c hc

mutual
theorem enc_printable : (j : Json) → ∀ c ∈ enc j, Printable c
  | .str s => encStr_printable s
  | .num n => by
    intro c hc
    have := digits_all n c hc
    simp [isDigit] at this
    exact ⟨by omega, by omega⟩
  | .arr l => by
    intro c hc
    simp only [enc, List.mem_cons, List.mem_append, List.not_mem_nil, or_false] at hc
    rcases hc with rfl | hc | rfl
    · unfold Printable; decide
    · exact joinSep_printable _ (by unfold Printable; decide) _ (encList_printable l) c hc
    · unfold Printable; decide
  | .obj l => by
    intro c hc
    simp only [enc, List.mem_cons, List.mem_append, List.not_mem_nil, or_false] at hc
    rcases hc with rfl | hc | rfl
    · unfold Printable; decide
    · exact joinSep_printable _ (by unfold Printable; decide) _ (encFields_printable l) c hc
    · unfold Printable; decide
theorem encList_printable : (l : List Json) → ∀ x ∈ encList l, ∀ c ∈ x, Printable c
  | [] => by simp [encList]
  | j :: l => by
    intro x hx
    simp only [encList, List.mem_cons] at hx
    rcases hx with rfl | hx
    · exact enc_printable j
    · exact encList_printable l x hx
theorem encFields_printable : (l : List (List Char × Json)) → ∀ x ∈ encFields l, ∀ c ∈ x, Printable c
  | [] => by simp [encFields]
  | (k, j) :: l => by
    intro x hx
    simp only [encFields, List.mem_cons] at hx
    rcases hx with rfl | hx
    · intro c hc
      simp only [List.mem_append, List.mem_cons] at hc
      rcases hc with hc | rfl | hc
      · exact encStr_printable k c hc
      · unfold Printable; decide
      · exact enc_printable j c hc
    · exact encFields_printable l x hx
end

end Verif.Json
