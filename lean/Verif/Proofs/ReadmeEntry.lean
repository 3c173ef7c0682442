import Verif.Proofs.Readme

/-!
# Each entry of a weighted sum
-/
namespace Verif.Readme
open Float Float.Spec Ieee Ieee.Spec Spec

/-- Numbers other than zero have the sign of their value. -/
theorem isNeg_of_ne {v : FV} {q : ℚ} (h : val v = some q) (hq : q ≠ 0) : isNeg v = decide (q < 0) := by
  obtain ⟨s, m, e, rfl, rfl⟩ := val_cases h
  have h2 : (0 : ℚ) < 2 ^ e := by positivity
  have hm : m ≠ 0 := by
    rintro rfl
    apply hq
    unfold signed
    cases s <;> simp
  have hm' : (0 : ℚ) < m := by exact_mod_cast Nat.pos_of_ne_zero hm
  show s = _
  unfold signed
  cases s with
  | false =>
    symm
    rw [decide_eq_false_iff_not, not_lt]
    simp only [Bool.false_eq_true, if_false]
    push_cast
    positivity
  | true =>
    symm
    rw [decide_eq_true_iff]
    simp only [if_true]
    push_cast
    nlinarith

theorem isNeg_encode {f : Fmt} {v : FV} (h : ∃ q, val v = some q) : isNeg (decode f (encode f v)) = isNeg v := by
  obtain ⟨q, h⟩ := h
  obtain ⟨s, m, e, rfl, _⟩ := val_cases h
  rw [decode_encode_fin]
  split_ifs <;> rfl

theorem isNeg_mul {v w : FV} {x y : ℚ} (hv : val v = some x) (hw : val w = some y) : isNeg (mul v w) = (isNeg v != isNeg w) := by
  obtain ⟨s, m, e, rfl, _⟩ := val_cases hv
  obtain ⟨t, n, g, rfl, _⟩ := val_cases hw
  rfl

/-- The sum of two numbers that have the same sign -/
theorem isNeg_add {v w : FV} {x y : ℚ} (hv : val v = some x) (hw : val w = some y) (h : isNeg v = isNeg w) (hx : x + y = 0) :
    isNeg (add v w) = isNeg v := by
  have hadd := val_add hv hw
  obtain ⟨s, m, e, rfl, _⟩ := val_cases hv
  obtain ⟨t, n, g, rfl, _⟩ := val_cases hw
  obtain rfl : s = t := h
  rw [hx] at hadd
  unfold add at hadd ⊢
  simp only at hadd ⊢
  have hk : signed s m * 2 ^ (e - min e g).toNat + signed s n * 2 ^ (g - min e g).toNat = 0 := by
    rw [value_signed] at hadd
    have h0 := Option.some.inj hadd
    have h2 : (2 : ℚ) ^ (min e g) ≠ 0 := by positivity
    have h3 : ∀ c : Bool, (if c = true then (-1 : ℚ) else 1) ≠ 0 := by intro c; cases c <;> simp
    rcases mul_eq_zero.1 h0 with h | h
    · exact absurd h (h3 _)
    · rcases mul_eq_zero.1 h with h | h
      · exact Int.natAbs_eq_zero.1 (by exact_mod_cast h)
      · exact absurd h h2
  show (if _ then s && s else _) = s
  rw [if_pos hk, Bool.and_self]

/-- `1 - alpha` is not `-0`. -/
theorem isNeg_one_sub {v : FV} {al : ℚ} (hv : val v = some al) (h1 : al ≤ 1) : isNeg (add one (Ieee.neg v)) = false := by
  have h := val_add val_one (val_neg hv)
  by_cases h0 : (1 : ℚ) + -al = 0
  · have hal : al ≠ 0 := by rintro rfl; norm_num at h0
    have : isNeg v = decide (al < 0) := isNeg_of_ne hv hal
    have hal1 : al = 1 := by linarith
    obtain ⟨s, m, e, rfl, _⟩ := val_cases hv
    unfold add Ieee.neg one at h ⊢
    simp only at h ⊢
    show (if _ then (false && !s) else decide _) = false
    rw [value_signed, h0] at h
    split_ifs with hk
    · rfl
    · exfalso
      have h0' := Option.some.inj h
      have h3 : ∀ c : Bool, (if c = true then (-1 : ℚ) else 1) ≠ 0 := by intro c; cases c <;> simp
      rcases mul_eq_zero.1 h0' with h | h
      · exact h3 _ h
      · rcases mul_eq_zero.1 h with h | h
        · exact hk (Int.natAbs_eq_zero.1 (by exact_mod_cast h))
        · exact absurd h (by positivity)
  · rw [isNeg_of_ne h h0, decide_eq_false_iff_not, not_lt]
    linarith

/-- The weighted sum of a zero and itself keeps its sign. -/
theorem mixed_zero {v w : FV} {al : ℚ} (hv : val v = some al) (h0 : 0 < al) (h1 : al ≤ 1) (hw : val w = some 0) :
    isNeg (mixed v w w) = isNeg w := by
  have hlim := limit_double
  have hz : Has half 0 := has_zero half
  obtain ⟨be, p, q, s, m1, _, m3, m4, m5, m6⟩ := mixed_val hv h0.le h1 hw hz hw hz
  have hsub := val_add val_one (val_neg hv)
  have hlt : |(1 : ℚ) + -al| < limit double := by
    have : |(1 : ℚ) + -al| ≤ 1 := by rw [abs_le]; constructor <;> linarith
    linarith
  obtain ⟨be', b1, b2⟩ := round_val (f := double) (by decide) (by decide) hsub hlt
  have hbs : isNeg (fadd one (Ieee.neg v)) = false := by
    unfold fadd
    rw [isNeg_encode ⟨_, hsub⟩, isNeg_one_sub hv h1]
  have e1 := val_mul b1 hw
  have e2 := val_mul hv hw
  rw [mul_zero] at e1 e2
  have hz0 : |(0 : ℚ)| < limit double := by rw [abs_zero]; linarith
  have hd0 : Has double 0 := has_zero double
  obtain ⟨p', p1, p2⟩ := round_val (f := double) (by decide) (by decide) e1 hz0
  obtain ⟨q', q1, q2⟩ := round_val (f := double) (by decide) (by decide) e2 hz0
  rw [p2.eq hd0] at p1
  rw [q2.eq hd0] at q1
  have hp : isNeg (fmul (fadd one (Ieee.neg v)) w) = isNeg w := by
    unfold fmul
    refine (isNeg_encode (f := double) ⟨_, e1⟩).trans ((isNeg_mul b1 hw).trans ?_)
    have : isNeg (decode double (encode double (add one (Ieee.neg v)))) = false := hbs
    rw [this]; simp
  have hq : isNeg (fmul v w) = isNeg w := by
    unfold fmul
    rw [isNeg_encode ⟨_, e2⟩, isNeg_mul hv hw, isNeg_of_ne hv h0.ne']
    rw [decide_eq_false (by linarith)]; simp
  have p1' : val (fmul (fadd one (Ieee.neg v)) w) = some 0 := p1
  have q1' : val (fmul v w) = some 0 := q1
  unfold mixed
  generalize fmul (fadd one (Ieee.neg v)) w = x at p1' hp ⊢
  generalize fmul v w = y at q1' hq ⊢
  unfold fadd
  have e3 := val_add p1' q1'
  rw [isNeg_encode ⟨_, e3⟩, isNeg_add p1' q1' (by rw [hp, hq]) (by norm_num), hp]

theorem val_not_nan {v : FV} (h : (val v).isSome) : v ≠ .nan := by rintro rfl; simp [val] at h

theorem entry_lt (al x y : FV) : entry al x y < 65536 := by
  have := encode_lt (f := half) (by decide) (if isClose al zero then wide x else if isClose al one then wide y else mixed al (wide x) (wide y))
  exact this

/-- The weighted sum of a number and itself -/
theorem entry_same {v : FV} {t : ℚ} (hv : val v = some t) (h0 : 0 ≤ t) (h1 : t ≤ 1) {m : ℕ} (hm : m < 65536) {a : ℚ}
    (ha : val (decode half m) = some a) : entry (alphaOf v) (decode half m) (decode half m) = m := by
  have hnan : decode half m ≠ .nan := val_not_nan (by rw [ha]; rfl)
  have hb := back hm hnan
  have ha' := decode_has (by decide) ha
  obtain ⟨r, al, s, o1, o2, l0, l1, o3, o4, _⟩ := entry_out hv h0 h1 ha ha
  obtain ⟨k1, k2⟩ := between l0 l1 ha' ha' o3 o4
  rw [min_self] at k1
  rw [max_self] at k2
  obtain rfl : r = a := le_antisymm k2 k1
  by_cases c0 : isClose (alphaOf v) zero = true
  · unfold entry; rw [if_pos c0]; exact hb
  by_cases c1 : isClose (alphaOf v) one = true
  · unfold entry; rw [if_neg c0, if_pos c1]; exact hb
  have he := encode_decode (f := half) (entry_lt (alphaOf v) (decode half m) (decode half m)) (val_not_nan (by rw [o1]; rfl))
  refine he.symm.trans ((encode_congr o1 ha ?_).trans (encode_decode (f := half) hm hnan))
  by_cases hz : r = 0
  · subst hz
    obtain ⟨al', g1, g2, g3, _, _⟩ := alpha_val hv h0 h1
    have hpos : 0 < al' := by
      rcases g2.lt_or_eq with h | h
      · exact h
      · rw [← h] at g1; exact absurd (isClose_of_eq g1 val_zero) c0
    obtain ⟨w1, w2⟩ := wide_val wider ha ha'
    obtain ⟨_, _, _, s', m1, _⟩ := mixed_val g1 g2 g3 w1 ha' w1 ha'
    unfold entry
    rw [if_neg c0, if_neg c1, isNeg_encode ⟨_, m1⟩, mixed_zero g1 hpos g3 w1, w2]
  · rw [isNeg_of_ne o1 hz, isNeg_of_ne ha hz]

theorem blended {v : FV} {t : ℚ} (hv : val v = some t) (h0 : 0 ≤ t) (h1 : t ≤ 1) {m n : ℕ} (hm : m < 65536) :
    Blended t m n (entry (alphaOf v) (decode half m) (decode half n)) where
  number a b ha hb := by
    have ha' := decode_has (by decide) ha
    have hb' := decode_has (by decide) hb
    obtain ⟨r, al, s, o1, o2, l0, l1, o3, o4, _⟩ := entry_out hv h0 h1 ha hb
    obtain ⟨k1, k2⟩ := between l0 l1 ha' hb' o3 o4
    exact ⟨r, o1, k1, k2, accurate h0 h1 l0 l1 o2 ha' hb' o3 o4⟩
  once k j hj htk a b ha hb := by
    have ha' := decode_has (by decide) ha
    have hb' := decode_has (by decide) hb
    obtain ⟨r, al, s, o1, o2, l0, l1, o3, o4, o5⟩ := entry_out hv h0 h1 ha hb
    obtain rfl := once hj htk h1 o2 ha' hb' o4
    exact ⟨r, o1, fun r' hr' => ⟨o3.near r' hr', o5 r' hr'⟩⟩
  same h hs := by
    subst h
    obtain ⟨a, ha⟩ := Option.isSome_iff_exists.1 hs
    exact entry_same hv h0 h1 hm ha

end Verif.Readme
