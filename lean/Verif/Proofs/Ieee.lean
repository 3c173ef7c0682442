import Verif.Spec.Ieee
import Verif.Proofs.Float

/-!
# Rounding to bits
-/
namespace Verif.Ieee
open Float Float.Spec Spec
open StreamOut (Tensor)

/-- What `roundTo` rounds to, whether or not it is too large -/
def rd (p : ℕ) (emin : ℤ) (x : Dy) : Dy :=
  if max (x.e + bits x.m - p) emin ≤ x.e then x else ⟨rne x.m (max (x.e + bits x.m - p) emin - x.e).toNat, max (x.e + bits x.m - p) emin⟩

theorem roundTo_rd (p : ℕ) (emin emax : ℤ) (x : Dy) :
    roundTo p emin emax x = if (rd p emin x).m = 0 ∨ (rd p emin x).e + bits (rd p emin x).m ≤ emax then some (rd p emin x) else none := rfl

theorem rne_nearest (m j : ℤ) (s : ℕ) : |rne m s * 2 ^ s - m| ≤ |j * 2 ^ s - m| := by
  have hd : (0 : Int) < 2 ^ s := by positivity
  have h1 := Int.emod_add_mul_ediv m (2 ^ s)
  have h2 := Int.emod_nonneg m (ne_of_gt hd)
  have h3 := Int.emod_lt_of_pos m hd
  unfold rne
  simp only
  generalize (2 : Int) ^ s = d at *
  generalize m / d = q at *
  generalize m % d = r at *
  have e1 : q * d - m = -r := by linarith
  have e2 : (q + 1) * d - m = d - r := by linarith
  have e3 : j * d - m = (j - q) * d - r := by linarith
  have key : min r (d - r) ≤ |(j - q) * d - r| := by
    rcases le_or_gt (j - q) 0 with h | h
    · have : (j - q) * d ≤ 0 := mul_nonpos_of_nonpos_of_nonneg h hd.le
      rw [abs_of_nonpos (by omega)]
      omega
    · have : d ≤ (j - q) * d := by nlinarith
      rw [abs_of_nonneg (by omega)]
      omega
  rw [e3]
  refine le_trans ?_ key
  split_ifs
  · rw [e1, abs_neg, abs_of_nonneg h2]; omega
  · rw [e2, abs_of_nonneg (by omega)]; omega
  · rw [e1, abs_neg, abs_of_nonneg h2]; omega
  · rw [e2, abs_of_nonneg (by omega)]; omega

theorem rne_nonneg {m : ℤ} (h : 0 ≤ m) (s : ℕ) : 0 ≤ rne m s := by
  have : 0 ≤ m / 2 ^ s := Int.ediv_nonneg h (by positivity)
  unfold rne
  simp only
  split_ifs <;> omega

theorem le_rne {m : ℤ} {q s : ℕ} (h : 2 ^ (q + s) ≤ m) : 2 ^ q ≤ rne m s := by
  have hd : (0 : ℤ) < 2 ^ s := by positivity
  have : 2 ^ q ≤ m / 2 ^ s := by
    rw [Int.le_ediv_iff_mul_le hd, ← pow_add]; exact h
  unfold rne
  simp only
  split_ifs <;> omega

theorem rne_scale (m : ℤ) (s t : ℕ) : rne (m * 2 ^ t) (s + t) = rne m s := by
  have ht : (0 : ℤ) < 2 ^ t := by positivity
  have h1 : m * 2 ^ t / 2 ^ (s + t) = m / 2 ^ s := by
    rw [pow_add, Int.mul_ediv_mul_of_pos_left _ _ ht]
  have h2 : m * 2 ^ t % 2 ^ (s + t) = m % 2 ^ s * 2 ^ t := by
    rw [pow_add, mul_comm (2 ^ s : ℤ), mul_comm m, Int.mul_emod_mul_of_pos _ _ ht, mul_comm]
  unfold rne
  simp only [h1, h2]
  have e1 : 2 * (m % 2 ^ s * 2 ^ t) < 2 ^ (s + t) ↔ 2 * (m % 2 ^ s) < 2 ^ s := by
    rw [pow_add, ← mul_assoc]; exact mul_lt_mul_iff_left₀ ht
  have e2 : 2 ^ (s + t) < 2 * (m % 2 ^ s * 2 ^ t) ↔ 2 ^ s < 2 * (m % 2 ^ s) := by
    rw [pow_add, ← mul_assoc]; exact mul_lt_mul_iff_left₀ ht
  simp only [e1, e2]

/-- Rounding to nearest: no number of the format is closer. -/
theorem rd_nearest {p : ℕ} (hp : 1 ≤ p) {emin : ℤ} (x : Dy) {m e : ℤ} (hm : |m| < 2 ^ p) (he : emin ≤ e) :
    |value (rd p emin x) - value x| ≤ |m * (2 : ℚ) ^ e - value x| := by
  unfold rd
  split_ifs with h
  · rw [sub_self, abs_zero]; exact abs_nonneg _
  · obtain ⟨u, hu⟩ : ∃ u, u = max (x.e + bits x.m - p) emin := ⟨_, rfl⟩
    rw [← hu] at h ⊢
    obtain ⟨n, hn⟩ : ∃ n : ℕ, u = x.e + n := ⟨(u - x.e).toNat, by omega⟩
    have hnn : (u - x.e).toNat = n := by omega
    rw [hnn]
    have h2e : (0 : ℚ) < (2 : ℚ) ^ x.e := by positivity
    have hscale : ∀ j : ℤ, |(j : ℚ) * (2 : ℚ) ^ u - value x| = |((j * 2 ^ n - x.m : ℤ) : ℚ)| * (2 : ℚ) ^ x.e := by
      intro j
      conv_rhs => rw [← abs_of_pos h2e, ← abs_mul]
      congr 1
      unfold value
      rw [hn, zpow_add₀ (by norm_num), zpow_natCast]
      push_cast; ring
    have hmult : ∀ j : ℤ, |value ⟨rne x.m n, u⟩ - value x| ≤ |(j : ℚ) * (2 : ℚ) ^ u - value x| := by
      intro j
      rw [hscale j]
      have : |value ⟨rne x.m n, u⟩ - value x| = _ := hscale (rne x.m n)
      rw [this]
      apply mul_le_mul_of_nonneg_right _ h2e.le
      exact_mod_cast rne_nearest x.m j n
    by_cases heu : u ≤ e
    · have : (m : ℚ) * (2 : ℚ) ^ e = ((m * 2 ^ (e - u).toNat : ℤ) : ℚ) * (2 : ℚ) ^ u := by
        have h1 : (2 : ℚ) ^ e = 2 ^ (e - u).toNat * (2 : ℚ) ^ u := by
          rw [← zpow_natCast, ← zpow_add₀ (by norm_num)]
          congr 1; omega
        rw [h1]; push_cast; ring
      rw [this]
      exact hmult _
    · -- the number lies below the binade of `x`
      have hue : u = x.e + bits x.m - p := by omega
      have hx0 : x.m ≠ 0 := by
        rintro h0
        rw [h0] at hue
        simp [bits] at hue
        omega
      have htop := le_abs_value hx0
      have hlow : |(m : ℚ) * (2 : ℚ) ^ e| ≤ (2 : ℚ) ^ (x.e + bits x.m - 1) := by
        rw [abs_mul, abs_of_pos (by positivity : (0 : ℚ) < 2 ^ e)]
        have : (|(m : ℚ)|) ≤ (2 : ℚ) ^ (p : ℤ) := by
          rw [zpow_natCast]; exact_mod_cast hm.le
        calc |(m : ℚ)| * (2 : ℚ) ^ e ≤ (2 : ℚ) ^ (p : ℤ) * (2 : ℚ) ^ e := mul_le_mul_of_nonneg_right this (by positivity)
          _ = (2 : ℚ) ^ ((p : ℤ) + e) := by rw [zpow_add₀ (by norm_num)]
          _ ≤ _ := zpow_le_zpow_right₀ (by norm_num) (by omega)
      have hB : (2 : ℚ) ^ (x.e + bits x.m - 1) = ((2 ^ (p - 1) : ℤ) : ℚ) * (2 : ℚ) ^ u := by
        push_cast
        rw [← zpow_natCast, ← zpow_add₀ (by norm_num)]
        congr 1; omega
      rcases le_total 0 (value x) with hs | hs
      · rw [abs_of_nonneg hs] at htop
        refine le_trans (hmult (2 ^ (p - 1))) ?_
        rw [← hB]
        have := (abs_le.1 hlow).2
        rw [abs_of_nonpos (by linarith), abs_of_nonpos (by linarith)]
        linarith
      · rw [abs_of_nonpos hs] at htop
        refine le_trans (hmult (-2 ^ (p - 1))) ?_
        have : ((-2 ^ (p - 1) : ℤ) : ℚ) * (2 : ℚ) ^ u = -(2 : ℚ) ^ (x.e + bits x.m - 1) := by rw [hB]; push_cast; ring
        rw [this]
        have := (abs_le.1 hlow).1
        rw [abs_of_nonneg (by linarith), abs_of_nonneg (by linarith)]
        linarith

/-! ### Bits and values -/

/-- The value of bits without sign -/
def magv (f : Fmt) (c : ℕ) : ℚ := mag f c * (2 : ℚ) ^ expo f c

theorem magv_code (f : Fmt) {j k : ℕ} (h : 2 ^ f.mw ≤ k ∨ j = 0) (hk : k ≤ 2 ^ f.p) :
    magv f (j * 2 ^ f.mw + k) = k * (2 : ℚ) ^ ((j : ℤ) + f.emin) := by
  have hpos : 0 < 2 ^ f.mw := by positivity
  have hp : 2 ^ f.p = 2 * 2 ^ f.mw := by unfold Fmt.p; rw [pow_succ]; ring
  unfold magv mag expo
  by_cases hlt : k < 2 ^ f.mw
  · have hj : j = 0 := by omega
    subst hj
    rw [zero_mul, zero_add, if_pos hlt, Nat.div_eq_of_lt hlt]
  · have hge : 2 ^ f.mw ≤ k := by omega
    obtain ⟨r, rfl⟩ := Nat.exists_eq_add_of_le hge
    rw [if_neg (by nlinarith)]
    have e1 : j * 2 ^ f.mw + (2 ^ f.mw + r) = r + 2 ^ f.mw * (j + 1) := by ring
    rcases Nat.lt_or_ge r (2 ^ f.mw) with hr | hr
    · rw [e1, Nat.add_mul_mod_self_left, Nat.mod_eq_of_lt hr, Nat.add_mul_div_left _ _ hpos, Nat.div_eq_of_lt hr]
      have e2 : 0 + (j + 1) - 1 = j := by omega
      rw [e2]
    · have hr : r = 2 ^ f.mw := by omega
      have e2 : j * 2 ^ f.mw + (2 ^ f.mw + r) = 0 + 2 ^ f.mw * (j + 2) := by rw [hr]; ring
      rw [e2, Nat.add_mul_mod_self_left, Nat.add_mul_div_left _ _ hpos]
      have e3 : 0 / 2 ^ f.mw + (j + 2) - 1 = j + 1 := by simp
      rw [e3, hr]
      have e4 : (((j + 1 : ℕ) : ℤ) + f.emin) = ((j : ℤ) + f.emin) + 1 := by push_cast; ring
      rw [e4, zpow_add₀ (by norm_num), zpow_one]
      push_cast
      simp
      ring

theorem form (f : Fmt) (c : ℕ) : ∃ j k, c = j * 2 ^ f.mw + k ∧ (2 ^ f.mw ≤ k ∨ j = 0) ∧ k < 2 ^ f.p := by
  have hpos : 0 < 2 ^ f.mw := by positivity
  have hp : 2 ^ f.p = 2 * 2 ^ f.mw := by unfold Fmt.p; rw [pow_succ]; ring
  by_cases h : c < 2 ^ f.mw
  · exact ⟨0, c, by simp, .inr rfl, by omega⟩
  · have hmod := Nat.mod_lt c hpos
    have hdm := Nat.div_add_mod c (2 ^ f.mw)
    have hd : 1 ≤ c / 2 ^ f.mw := (Nat.one_le_div_iff hpos).2 (by omega)
    refine ⟨c / 2 ^ f.mw - 1, 2 ^ f.mw + c % 2 ^ f.mw, ?_, .inl (by omega), by omega⟩
    obtain ⟨d, hd'⟩ := Nat.exists_eq_add_of_le hd
    rw [hd'] at hdm ⊢
    have : 1 + d - 1 = d := by omega
    rw [this]
    conv_lhs => rw [← hdm]
    ring

theorem magv_step (f : Fmt) (c : ℕ) : magv f (c + 1) = magv f c + (2 : ℚ) ^ expo f c := by
  obtain ⟨j, k, rfl, h, hk⟩ := form f c
  have h1 := magv_code f h hk.le
  have h2 : magv f (j * 2 ^ f.mw + (k + 1)) = _ := magv_code f (h.imp_left (by omega)) (by omega)
  have h3 : expo f (j * 2 ^ f.mw + k) = (j : ℤ) + f.emin := by
    have hpos : 0 < 2 ^ f.mw := by positivity
    have hp : 2 ^ f.p = 2 * 2 ^ f.mw := by unfold Fmt.p; rw [pow_succ]; ring
    unfold expo
    rcases h with h | rfl
    · have e1 : j * 2 ^ f.mw + k = (k - 2 ^ f.mw) + 2 ^ f.mw * (j + 1) := by
        obtain ⟨r, rfl⟩ := Nat.exists_eq_add_of_le h
        rw [Nat.add_sub_cancel_left]; ring
      rw [e1, Nat.add_mul_div_left _ _ hpos, Nat.div_eq_of_lt (by omega)]
      congr 2
      omega
    · rcases Nat.lt_or_ge k (2 ^ f.mw) with hlt | hge
      · rw [zero_mul, zero_add, Nat.div_eq_of_lt hlt]
      · have e1 : 0 * 2 ^ f.mw + k = (k - 2 ^ f.mw) + 2 ^ f.mw * 1 := by
          obtain ⟨r, rfl⟩ := Nat.exists_eq_add_of_le hge
          rw [Nat.add_sub_cancel_left]; ring
        rw [e1, Nat.add_mul_div_left _ _ hpos, Nat.div_eq_of_lt (by omega)]
  rw [show j * 2 ^ f.mw + k + 1 = j * 2 ^ f.mw + (k + 1) by ring, h2, h1, h3]
  push_cast
  ring

theorem magv_strictMono (f : Fmt) : StrictMono (magv f) :=
  strictMono_nat_of_lt_succ fun c => by
    rw [magv_step]
    have : (0 : ℚ) < (2 : ℚ) ^ expo f c := by positivity
    linarith

theorem magv_zero (f : Fmt) : magv f 0 = 0 := by
  have := magv_code f (j := 0) (k := 0) (.inr rfl) (by positivity)
  simpa using this

theorem emax_eq {f : Fmt} (hf : 1 ≤ f.ew) : f.emax = ((2 ^ f.ew - 2 : ℕ) : ℤ) + f.emin + f.mw := by
  unfold Fmt.emax Fmt.emin Fmt.bias
  obtain ⟨w, hw⟩ := Nat.exists_eq_add_of_le hf
  have h1 : f.ew - 1 = w := by omega
  have h2 : (2 : ℕ) ^ f.ew = 2 * 2 ^ w := by rw [hw, pow_add]; ring
  have h3 : 1 ≤ (2 : ℕ) ^ w := Nat.one_le_two_pow
  rw [h1, h2]
  have : ((2 * 2 ^ w - 2 : ℕ) : ℤ) = 2 * 2 ^ w - 2 := by
    rw [Nat.cast_sub (by omega)]; push_cast; ring
  rw [this]; ring

theorem magv_inf {f : Fmt} (hf : 1 ≤ f.ew) : magv f f.infCode = (2 : ℚ) ^ f.emax := by
  have h2 : 2 ≤ 2 ^ f.ew := by
    calc 2 = 2 ^ 1 := rfl
      _ ≤ 2 ^ f.ew := Nat.pow_le_pow_right (by norm_num) hf
  have e : f.infCode = (2 ^ f.ew - 2) * 2 ^ f.mw + 2 ^ f.mw := by
    unfold Fmt.infCode
    obtain ⟨k, hk⟩ := Nat.exists_eq_add_of_le h2
    rw [hk]
    have e1 : 2 + k - 1 = k + 1 := by omega
    have e2 : 2 + k - 2 = k := by omega
    rw [e1, e2]; ring
  have hle : 2 ^ f.mw ≤ 2 ^ f.p := Nat.pow_le_pow_right (by norm_num) (by unfold Fmt.p; omega)
  rw [e, magv_code f (.inl le_rfl) hle, emax_eq hf]
  push_cast
  rw [← zpow_natCast, ← zpow_add₀ (by norm_num)]
  congr 1
  ring

/-- The bits of a number are those of what it rounds to. -/
theorem magv_round {f : Fmt} (m : ℕ) (e : ℤ) : magv f (code f m e) = value (rd f.p f.emin ⟨m, e⟩) := by
  unfold code
  by_cases hm : m = 0
  · subst hm
    rw [if_pos rfl, magv_zero]
    symm
    rw [value_eq_zero]
    unfold rd
    split_ifs
    · rfl
    · exact rne_dvd (by simp)
  · rw [if_neg hm]
    have hm' : (m : ℤ) ≠ 0 := by exact_mod_cast hm
    simp only
    obtain ⟨u, hu⟩ : ∃ u, u = max (e + bits m - f.p) f.emin := ⟨_, rfl⟩
    unfold rd
    simp only
    rw [← hu]
    have hb := le_bits hm'
    have hb2 := bits_lt (m : ℤ)
    have hbp := bits_pos hm'
    rw [abs_of_nonneg (by positivity)] at hb hb2
    have hp1 : f.p = f.mw + 1 := rfl
    split_ifs with hle
    · have hK : ((m : ℤ) * 2 ^ (e - u).toNat).toNat = m * 2 ^ (e - u).toNat := by
        rw [show (m : ℤ) * 2 ^ (e - u).toNat = ((m * 2 ^ (e - u).toNat : ℕ) : ℤ) by push_cast; rfl, Int.toNat_natCast]
      rw [hK]
      have hform : 2 ^ f.mw ≤ m * 2 ^ (e - u).toNat ∨ (u - f.emin).toNat = 0 := by
        rcases le_or_gt u f.emin with h | h
        · right; omega
        · left
          have : f.mw = (bits (m : ℤ) - 1) + (e - u).toNat := by omega
          rw [this, pow_add]
          exact Nat.mul_le_mul_right _ (by exact_mod_cast hb)
      have hle2 : m * 2 ^ (e - u).toNat ≤ 2 ^ f.p := by
        have h1 : m ≤ 2 ^ bits (m : ℤ) := by exact_mod_cast hb2.le
        calc m * 2 ^ (e - u).toNat ≤ 2 ^ bits (m : ℤ) * 2 ^ (e - u).toNat := Nat.mul_le_mul_right _ h1
          _ = 2 ^ (bits (m : ℤ) + (e - u).toNat) := (pow_add _ _ _).symm
          _ ≤ 2 ^ f.p := Nat.pow_le_pow_right (by norm_num) (by omega)
      rw [magv_code f hform hle2]
      unfold value
      simp only
      push_cast
      rw [mul_assoc, ← zpow_natCast, ← zpow_add₀ (by norm_num)]
      congr 2
      omega
    · have hn := rne_nonneg (m := (m : ℤ)) (by positivity) (u - e).toNat
      have hform : 2 ^ f.mw ≤ (rne m (u - e).toNat).toNat ∨ (u - f.emin).toNat = 0 := by
        rcases le_or_gt u f.emin with h | h
        · right; omega
        · left
          have : (2 : ℤ) ^ f.mw ≤ rne m (u - e).toNat := by
            apply le_rne
            have : f.mw + (u - e).toNat = bits (m : ℤ) - 1 := by omega
            rw [this]; exact hb
          zify
          rw [Int.toNat_of_nonneg hn]
          exact this
      have hle2 : (rne m (u - e).toNat).toNat ≤ 2 ^ f.p := by
        have : |rne (m : ℤ) (u - e).toNat| ≤ 2 ^ f.p := by
          apply rne_bound
          rw [abs_of_nonneg (by positivity)]
          exact lt_of_lt_of_le hb2 (pow_le_pow_right₀ (by norm_num) (by omega))
        rw [abs_of_nonneg hn] at this
        zify
        rw [Int.toNat_of_nonneg hn]
        exact this
      rw [magv_code f hform hle2]
      unfold value
      simp only
      have h1 : (((rne m (u - e).toNat).toNat : ℕ) : ℚ) = ((rne m (u - e).toNat : ℤ) : ℚ) := by
        rw [← Int.cast_natCast, Int.toNat_of_nonneg hn]
      rw [h1]
      congr 2
      omega

/-! ### Equal values round alike -/

theorem rd_scale {p : ℕ} {emin : ℤ} (m : ℤ) (hm : m ≠ 0) (t : ℕ) (e : ℤ) : value (rd p emin ⟨m * 2 ^ t, e⟩) = value (rd p emin ⟨m, e + t⟩) := by
  have hv : value ⟨m * 2 ^ t, e⟩ = value ⟨m, e + t⟩ := by
    unfold value
    push_cast
    rw [zpow_add₀ (by norm_num), zpow_natCast]; ring
  have hm' : m * 2 ^ t ≠ 0 := mul_ne_zero hm (by positivity)
  have htop := top_eq hv hm'
  simp only at htop
  unfold rd
  simp only
  rw [show e + (bits (m * 2 ^ t) : ℤ) - p = e + t + bits m - p by rw [htop]]
  obtain ⟨u, hu⟩ : ∃ u, u = max (e + t + bits m - p) emin := ⟨_, rfl⟩
  rw [← hu]
  by_cases h1 : u ≤ e
  · rw [if_pos h1, if_pos (by omega), hv]
  · rw [if_neg h1]
    by_cases h2 : u ≤ e + t
    · rw [if_pos h2, ← hv]
      obtain ⟨a, ha⟩ : ∃ a : ℕ, a = (u - e).toNat := ⟨_, rfl⟩
      obtain ⟨b, hb⟩ : ∃ b : ℕ, t = b + a := ⟨t - a, by omega⟩
      rw [← ha, hb, show m * 2 ^ (b + a) = m * 2 ^ b * 2 ^ a by rw [pow_add]; ring, rne_dvd rfl]
      unfold value
      simp only
      rw [show u = e + a by omega, zpow_add₀ (by norm_num), zpow_natCast]
      push_cast
      ring
    · rw [if_neg h2, show (u - e).toNat = (u - (e + t)).toNat + t by omega, rne_scale]

theorem rd_zero {p : ℕ} {emin : ℤ} (x : Dy) (h : x.m = 0) : value (rd p emin x) = 0 := by
  rw [value_eq_zero]
  unfold rd
  split_ifs
  · exact h
  · exact rne_dvd (by simp [h])

theorem rd_congr {p : ℕ} {emin : ℤ} {x y : Dy} (h : value x = value y) : value (rd p emin x) = value (rd p emin y) := by
  by_cases hx : x.m = 0
  · have hy : y.m = 0 := by rw [← value_eq_zero, ← h, value_eq_zero]; exact hx
    rw [rd_zero x hx, rd_zero y hy]
  · have hy : y.m ≠ 0 := by
      intro hy
      rw [← value_eq_zero, ← h, value_eq_zero] at hy
      exact hx hy
    rcases le_total x.e y.e with hle | hle
    · have := (value_shift (x := x) (k := y.m) hle).1 h
      have e1 : x = ⟨y.m * 2 ^ (y.e - x.e).toNat, x.e⟩ := by rw [← this]
      have e2 : y = ⟨y.m, x.e + ((y.e - x.e).toNat : ℤ)⟩ := by
        rw [show x.e + ((y.e - x.e).toNat : ℤ) = y.e by omega]
      conv_lhs => rw [e1]
      conv_rhs => rw [e2]
      exact rd_scale _ hy _ _
    · have := (value_shift (x := y) (k := x.m) hle).1 h.symm
      have e1 : y = ⟨x.m * 2 ^ (x.e - y.e).toNat, y.e⟩ := by rw [← this]
      have e2 : x = ⟨x.m, y.e + ((x.e - y.e).toNat : ℤ)⟩ := by
        rw [show y.e + ((x.e - y.e).toNat : ℤ) = x.e by omega]
      conv_lhs => rw [e2]
      conv_rhs => rw [e1]
      exact (rd_scale _ hx _ _).symm

theorem mag_lt (f : Fmt) (c : ℕ) : mag f c < 2 ^ f.p := by
  have hpos : 0 < 2 ^ f.mw := by positivity
  have hp : 2 ^ f.p = 2 * 2 ^ f.mw := by unfold Fmt.p; rw [pow_succ]; ring
  have := Nat.mod_lt c hpos
  unfold mag
  split_ifs <;> omega

theorem emin_le_expo (f : Fmt) (c : ℕ) : f.emin ≤ expo f c := by unfold expo; omega

theorem code_congr {f : Fmt} {m n : ℕ} {e g : ℤ} (h : (m : ℚ) * 2 ^ e = n * 2 ^ g) : code f m e = code f n g := by
  apply (magv_strictMono f).injective
  rw [magv_round, magv_round]
  apply rd_congr
  unfold value
  exact_mod_cast h

/-- No bits stand for a number that is closer. -/
theorem code_nearest (f : Fmt) (m : ℕ) (e : ℤ) (c : ℕ) : |magv f (code f m e) - m * (2 : ℚ) ^ e| ≤ |magv f c - m * (2 : ℚ) ^ e| := by
  rw [magv_round]
  have := rd_nearest (p := f.p) (by unfold Fmt.p; omega) (emin := f.emin) ⟨m, e⟩ (m := mag f c) (e := expo f c)
    (by rw [abs_of_nonneg (by positivity)]; exact_mod_cast mag_lt f c) (emin_le_expo f c)
  unfold value at this ⊢
  unfold magv
  exact_mod_cast this

theorem code_magv (f : Fmt) (c : ℕ) : code f (mag f c) (expo f c) = c := by
  apply (magv_strictMono f).injective
  have := code_nearest f (mag f c) (expo f c) c
  have e : (mag f c : ℚ) * 2 ^ expo f c = magv f c := rfl
  rw [e, sub_self, abs_zero] at this
  have := abs_nonpos_iff.1 this
  linarith

theorem code_of_eq {f : Fmt} {m : ℕ} {e : ℤ} {c : ℕ} (h : (m : ℚ) * 2 ^ e = magv f c) : code f m e = c := by
  rw [← code_magv f c]
  exact code_congr h

theorem code_mono {f : Fmt} {m n : ℕ} {e g : ℤ} (h : (m : ℚ) * 2 ^ e ≤ n * 2 ^ g) : code f m e ≤ code f n g := by
  rcases h.eq_or_lt with h | h
  · rw [code_congr h]
  · by_contra hlt
    have hm := magv_strictMono f (not_le.1 hlt)
    have h1 := code_nearest f m e (code f n g)
    have h2 := code_nearest f n g (code f m e)
    generalize (m : ℚ) * 2 ^ e = x at *
    generalize (n : ℚ) * 2 ^ g = y at *
    generalize magv f (code f m e) = r at *
    generalize magv f (code f n g) = s at *
    rw [abs_le] at h1 h2
    rcases abs_cases (s - x) with ⟨a, _⟩ | ⟨a, _⟩ <;> rcases abs_cases (r - y) with ⟨b, _⟩ | ⟨b, _⟩ <;> rw [a] at h1 <;> rw [b] at h2 <;> linarith [h1.1, h1.2, h2.1, h2.2]

/-- Halfway between two numbers, the one with the even bits is taken. -/
theorem code_tie {f : Fmt} (hf : 1 ≤ f.mw) {m : ℕ} {e : ℤ} {c : ℕ} (h : 2 * ((m : ℚ) * 2 ^ e) = magv f c + magv f (c + 1)) :
    code f m e = if c % 2 = 0 then c else c + 1 := by
  obtain ⟨j, k, rfl, hk, hk2⟩ := form f c
  have h1 := magv_code f hk hk2.le
  have h2 : magv f (j * 2 ^ f.mw + (k + 1)) = _ := magv_code f (hk.imp_left (by omega)) (by omega)
  rw [show j * 2 ^ f.mw + k + 1 = j * 2 ^ f.mw + (k + 1) by ring] at h ⊢
  rw [h1, h2] at h
  have heven : (j * 2 ^ f.mw + k) % 2 = k % 2 := by
    obtain ⟨w, hw⟩ := Nat.exists_eq_add_of_le hf
    rw [hw, pow_add, show j * (2 ^ 1 * 2 ^ w) + k = k + 2 * (j * 2 ^ w) by ring, Nat.add_mul_mod_self_left]
  rw [heven]
  have hval : (m : ℚ) * 2 ^ e = ((2 * k + 1 : ℕ) : ℚ) * 2 ^ ((j : ℤ) + f.emin - 1) := by
    rw [zpow_sub_one₀ (by norm_num)]
    push_cast at h ⊢
    linarith
  rw [code_congr hval]
  apply (magv_strictMono f).injective
  rw [magv_round]
  have hu : max ((j : ℤ) + f.emin - 1 + bits ((2 * k + 1 : ℕ) : ℤ) - f.p) f.emin = (j : ℤ) + f.emin := by
    have hb : bits ((2 * k + 1 : ℕ) : ℤ) ≤ f.p + 1 := by
      apply bits_le
      rw [abs_of_nonneg (by positivity), pow_succ]
      have : 2 * k + 1 < 2 ^ f.p * 2 := by omega
      exact_mod_cast this
    rcases hk with hk | rfl
    · have hb2 : f.p + 1 ≤ bits ((2 * k + 1 : ℕ) : ℤ) := by
        by_contra hlt
        have h3 := bits_lt ((2 * k + 1 : ℕ) : ℤ)
        rw [abs_of_nonneg (by positivity)] at h3
        have h4 : 2 * k + 1 < 2 ^ bits ((2 * k + 1 : ℕ) : ℤ) := by exact_mod_cast h3
        have h5 : 2 ^ bits ((2 * k + 1 : ℕ) : ℤ) ≤ 2 ^ f.p := Nat.pow_le_pow_right (by norm_num) (by omega)
        have hp : 2 ^ f.p = 2 * 2 ^ f.mw := by unfold Fmt.p; rw [pow_succ]; ring
        omega
      omega
    · omega
  unfold rd
  simp only
  rw [hu, if_neg (by omega), show ((j : ℤ) + f.emin - ((j : ℤ) + f.emin - 1)).toNat = 1 by omega]
  have hr : rne ((2 * k + 1 : ℕ) : ℤ) 1 = if k % 2 = 0 then (k : ℤ) else k + 1 := by
    unfold rne
    simp only
    have a1 : ((2 * k + 1 : ℕ) : ℤ) / 2 ^ 1 = k := by omega
    have a2 : ((2 * k + 1 : ℕ) : ℤ) % 2 ^ 1 = 1 := by omega
    rw [a1, a2]
    norm_num
    have : (k : ℤ) % 2 = 0 ↔ k % 2 = 0 := by omega
    simp only [this]
  rw [hr]
  unfold value
  simp only
  split_ifs
  · rw [h1]; push_cast; ring
  · rw [h2]; push_cast; ring

/-! ### Too large -/

theorem infCode_pos {f : Fmt} (hf : 1 ≤ f.ew) : 1 ≤ f.infCode := by
  have h2 : 2 ≤ 2 ^ f.ew := by
    calc 2 = 2 ^ 1 := rfl
      _ ≤ 2 ^ f.ew := Nat.pow_le_pow_right (by norm_num) hf
  have : 1 ≤ 2 ^ f.mw := Nat.one_le_two_pow
  unfold Fmt.infCode
  calc 1 = 1 * 1 := rfl
    _ ≤ _ := Nat.mul_le_mul (by omega) this

theorem mid_inf {f : Fmt} (hf : 2 ≤ f.ew) : magv f (f.infCode - 1) + magv f (f.infCode - 1 + 1) = 2 * limit f := by
  have hpos : 1 ≤ 2 ^ f.mw := Nat.one_le_two_pow
  have hp : 2 ^ f.p = 2 * 2 ^ f.mw := by unfold Fmt.p; rw [pow_succ]; ring
  have h4 : 4 ≤ 2 ^ f.ew := by
    calc 4 = 2 ^ 2 := rfl
      _ ≤ 2 ^ f.ew := Nat.pow_le_pow_right (by norm_num) hf
  have hic := infCode_pos (f := f) (by omega)
  have e1 : f.infCode - 1 + 1 = f.infCode := by omega
  have e : f.infCode - 1 = (2 ^ f.ew - 3) * 2 ^ f.mw + (2 ^ f.p - 1) := by
    unfold Fmt.infCode
    rw [hp]
    obtain ⟨k, hk⟩ := Nat.exists_eq_add_of_le h4
    rw [hk]
    have e1 : 4 + k - 1 = k + 3 := by omega
    have e2 : 4 + k - 3 = k + 1 := by omega
    rw [e1, e2]
    have : (k + 3) * 2 ^ f.mw = (k + 1) * 2 ^ f.mw + 2 * 2 ^ f.mw := by ring
    omega
  rw [e1, magv_inf (by omega), e, magv_code f (.inl (by omega)) (by omega)]
  unfold limit
  have h5 : (((2 ^ f.ew - 3 : ℕ) : ℤ) + f.emin) = f.emax - f.p := by
    rw [emax_eq (by omega)]
    unfold Fmt.p
    rw [Nat.cast_sub (by omega), Nat.cast_sub (by omega)]
    push_cast
    ring
  rw [h5]
  have h6 : ((2 ^ f.p - 1 : ℕ) : ℚ) = 2 ^ (f.p : ℤ) - 1 := by
    rw [Nat.cast_sub (by omega)]; push_cast; rw [zpow_natCast]
  have h7 : (2 : ℚ) ^ (f.emax - f.p - 1) = 2 ^ (f.emax - f.p) / 2 := by
    rw [zpow_sub_one₀ (by norm_num)]; ring
  have h8 : (2 : ℚ) ^ f.emax = 2 ^ (f.p : ℤ) * 2 ^ (f.emax - f.p) := by
    rw [← zpow_add₀ (by norm_num)]; congr 1; ring
  rw [h6, h7, h8]
  ring

theorem inf_iff {f : Fmt} (hw : 2 ≤ f.ew) (hf : 1 ≤ f.mw) (m : ℕ) (e : ℤ) : f.infCode ≤ code f m e ↔ limit f ≤ m * (2 : ℚ) ^ e := by
  have hic := infCode_pos (f := f) (by omega)
  have hmid := mid_inf (f := f) hw
  have hodd : (f.infCode - 1) % 2 = 1 := by
    obtain ⟨w, hw'⟩ := Nat.exists_eq_add_of_le hf
    have : f.infCode = 2 * ((2 ^ f.ew - 1) * 2 ^ w) := by unfold Fmt.infCode; rw [hw', pow_add]; ring
    omega
  constructor
  · intro h
    by_contra hlt
    have hm := (magv_strictMono f).monotone h
    have hm1 := magv_step f (f.infCode - 1)
    rw [show f.infCode - 1 + 1 = f.infCode by omega] at hmid hm1
    have hstep : (0 : ℚ) < (2 : ℚ) ^ expo f (f.infCode - 1) := by positivity
    have h1 := code_nearest f m e (f.infCode - 1)
    generalize (m : ℚ) * 2 ^ e = x at *
    rw [abs_of_nonneg (by linarith)] at h1
    rcases abs_cases (magv f (f.infCode - 1) - x) with ⟨a, _⟩ | ⟨a, _⟩ <;> rw [a] at h1 <;> linarith
  · intro h
    -- `limit` itself is a tie
    obtain ⟨n, g, hng⟩ : ∃ (n : ℕ) (g : ℤ), (n : ℚ) * 2 ^ g = limit f := by
      refine ⟨2 ^ (f.p + 1) - 1, f.emax - f.p - 1, ?_⟩
      unfold limit
      have : 1 ≤ 2 ^ (f.p + 1) := Nat.one_le_two_pow
      rw [Nat.cast_sub this]
      push_cast
      have : (2 : ℚ) ^ f.emax = 2 ^ (f.p + 1) * 2 ^ (f.emax - f.p - 1) := by
        rw [← zpow_natCast, ← zpow_add₀ (by norm_num)]; congr 1; push_cast; ring
      rw [this]; ring
    have ht := code_tie hf (m := n) (e := g) (c := f.infCode - 1) (by rw [hng, hmid])
    rw [if_neg (by omega)] at ht
    have := code_mono (f := f) (hng.le.trans h)
    omega

/-! ### Bits to numbers and back -/

theorem infCode_lt (f : Fmt) : f.infCode < f.signBit := by
  have h1 : 1 ≤ 2 ^ f.ew := Nat.one_le_two_pow
  have h2 : 1 ≤ 2 ^ f.mw := Nat.one_le_two_pow
  unfold Fmt.infCode Fmt.signBit
  rw [pow_add]
  exact Nat.mul_lt_mul_of_pos_right (by omega) (by omega)

theorem decode_sign (f : Fmt) (s : Bool) {c : ℕ} (h : c < f.signBit) : decode f (sign f s + c) =
    if f.infCode < c then .nan else if c = f.infCode then .inf s else .fin s (mag f c) (expo f c) := by
  have h1 : (sign f s + c) % f.signBit = c := by
    cases s
    · simp [sign, Nat.mod_eq_of_lt h]
    · simp [sign, Nat.mod_eq_of_lt h]
  have h2 : decide (f.signBit ≤ sign f s + c) = s := by
    cases s
    · simp [sign, h]
    · simp [sign]
  unfold decode
  simp only [h1, h2]

theorem decode_encode_fin {f : Fmt} (s : Bool) (m : ℕ) (e : ℤ) : decode f (encode f (.fin s m e)) =
    if f.infCode ≤ code f m e then .inf s else .fin s (mag f (code f m e)) (expo f (code f m e)) := by
  show decode f (sign f s + min (code f m e) f.infCode) = _
  have := infCode_lt f
  rw [decode_sign f s (by omega)]
  split_ifs with h1 h2 h3 h4
  · omega
  · omega
  · rfl
  · omega
  · omega
  · rw [min_eq_left (by omega)]

theorem decode_encode_inf {f : Fmt} (s : Bool) : decode f (encode f (.inf s)) = .inf s := by
  show decode f (sign f s + f.infCode) = _
  rw [decode_sign f s (infCode_lt f)]
  simp

theorem decode_encode_nan {f : Fmt} (hw : 1 ≤ f.ew) (hf : 1 ≤ f.mw) : decode f (encode f .nan) = .nan := by
  have h1 : f.infCode + 2 ^ (f.mw - 1) < f.signBit := by
    have h1 : 1 ≤ 2 ^ f.ew := Nat.one_le_two_pow
    have h2 : 2 ^ (f.mw - 1) < 2 ^ f.mw := Nat.pow_lt_pow_right (by norm_num) (by omega)
    unfold Fmt.infCode Fmt.signBit
    rw [pow_add]
    obtain ⟨k, hk⟩ := Nat.exists_eq_add_of_le h1
    rw [hk, show 1 + k - 1 = k by omega]
    nlinarith
  have : decode f (sign f false + (f.infCode + 2 ^ (f.mw - 1))) = _ := decode_sign f false h1
  rw [if_pos (by have : 0 < 2 ^ (f.mw - 1) := by positivity
                 omega)] at this
  rw [show sign f false = 0 from rfl, zero_add] at this
  exact this

theorem encode_lt {f : Fmt} (hf : 1 ≤ f.mw) (v : FV) : encode f v < 2 * f.signBit := by
  have := infCode_lt f
  have hs : ∀ s, sign f s ≤ f.signBit := by intro s; unfold sign; split_ifs <;> omega
  cases v with
  | fin s m e => have := hs s; show sign f s + min _ _ < _; omega
  | inf s => have := hs s; show sign f s + f.infCode < _; omega
  | nan =>
    have h1 : 1 ≤ 2 ^ f.ew := Nat.one_le_two_pow
    have : 2 ^ (f.mw - 1) ≤ 2 ^ f.mw := Nat.pow_le_pow_right (by norm_num) (by omega)
    have : 2 ^ f.mw ≤ f.signBit := Nat.pow_le_pow_right (by norm_num) (by omega)
    show f.infCode + 2 ^ (f.mw - 1) < _
    omega

/-- Bits are those of the number they stand for. -/
theorem encode_decode {f : Fmt} {n : ℕ} (hn : n < 2 * f.signBit) (h : decode f n ≠ .nan) : encode f (decode f n) = n := by
  have hpos : 0 < f.signBit := by unfold Fmt.signBit; positivity
  have hdm := Nat.div_add_mod n f.signBit
  have hsplit : n = sign f (decide (f.signBit ≤ n)) + n % f.signBit := by
    unfold sign
    by_cases hle : f.signBit ≤ n
    · rw [Nat.mod_eq_sub_mod hle, Nat.mod_eq_of_lt (by omega)]; simp [hle]
    · rw [Nat.mod_eq_of_lt (by omega)]; simp [hle]
  have hd : decode f n = if f.infCode < n % f.signBit then .nan else if n % f.signBit = f.infCode then .inf (decide (f.signBit ≤ n))
      else .fin (decide (f.signBit ≤ n)) (mag f (n % f.signBit)) (expo f (n % f.signBit)) := rfl
  rw [hd] at h ⊢
  by_cases h1 : f.infCode < n % f.signBit
  · rw [if_pos h1] at h; exact absurd rfl h
  · rw [if_neg h1]
    by_cases h2 : n % f.signBit = f.infCode
    · rw [if_pos h2]
      show sign f _ + f.infCode = n
      omega
    · rw [if_neg h2]
      show sign f _ + min (code f _ _) f.infCode = n
      rw [code_magv, min_eq_left (by omega), ← hsplit]

theorem encode_congr {f : Fmt} {v w : FV} {q : ℚ} (hv : val v = some q) (hw : val w = some q) (hs : isNeg v = isNeg w) : encode f v = encode f w := by
  cases v with
  | fin s m e =>
    cases w with
    | fin t n g =>
      obtain rfl : s = t := hs
      have : code f m e = code f n g := by
        apply code_congr
        have hv : (if s then -((m : ℚ) * 2 ^ e) else m * 2 ^ e) = q := Option.some.inj hv
        have hw : (if s then -((n : ℚ) * 2 ^ g) else n * 2 ^ g) = q := Option.some.inj hw
        cases s
        · simp at hv hw; rw [hv, hw]
        · simp at hv hw; linarith
      show sign f s + min _ _ = sign f s + min _ _
      rw [this]
    | inf t => cases hw
    | nan => cases hw
  | inf t => cases hv
  | nan => cases hv

theorem value_signed (s : Bool) (m : ℕ) (e : ℤ) : val (.fin s m e) = some ((if s then -1 else 1) * (m * (2 : ℚ) ^ e)) := by
  unfold val
  cases s <;> simp

theorem abs_signed (s : Bool) (x : ℚ) : |(if s then -1 else 1) * x| = |x| := by
  cases s <;> simp

/-- A number of the format is the value of some bits. -/
theorem has_code {f : Fmt} (hw : 1 ≤ f.ew) {q : ℚ} (h : Has f q) : ∃ c, c < f.infCode ∧ magv f c = |q| := by
  obtain ⟨m, e, rfl, hm, he, hlt⟩ := h
  refine ⟨code f m.natAbs e, ?_, ?_⟩
  all_goals
    have h1 : |(m : ℚ) * 2 ^ e| = m.natAbs * (2 : ℚ) ^ e := by
      rw [abs_mul, abs_of_pos (by positivity : (0 : ℚ) < 2 ^ e), Nat.cast_natAbs, Int.cast_abs]
    have h2 : magv f (code f m.natAbs e) = m.natAbs * (2 : ℚ) ^ e := by
      rw [magv_round]
      have := rd_nearest (p := f.p) (by unfold Fmt.p; omega) (emin := f.emin) ⟨m.natAbs, e⟩ (m := m.natAbs) (e := e) (by simpa using hm) he
      have e1 : value ⟨m.natAbs, e⟩ = ((m.natAbs : ℤ) : ℚ) * 2 ^ e := rfl
      rw [← e1, sub_self, abs_zero] at this
      have := abs_nonpos_iff.1 this
      rw [sub_eq_zero.1 this, e1]
      rw [Int.cast_natCast]
  · rw [h1, ← h2, ← magv_inf hw] at hlt
    exact (magv_strictMono f).lt_iff_lt.1 hlt
  · rw [h1, h2]

theorem code_has {f : Fmt} (hw : 1 ≤ f.ew) {c : ℕ} (hc : c < f.infCode) (s : Bool) : Has f ((if s then -1 else 1) * magv f c) := by
  refine ⟨(if s then -1 else 1) * mag f c, expo f c, ?_, ?_, emin_le_expo f c, ?_⟩
  · unfold magv; cases s <;> simp
  · have := mag_lt f c
    have : ((mag f c : ℕ) : ℤ) < 2 ^ f.p := by exact_mod_cast this
    cases s <;> simpa using this
  · rw [abs_signed, abs_of_nonneg (by unfold magv; positivity), ← magv_inf hw]
    exact magv_strictMono f hc

/-- What rounding a finite number gives -/
theorem round_fin {f : Fmt} (hw : 2 ≤ f.ew) (hf : 1 ≤ f.mw) {v : FV} {q : ℚ} (hv : val v = some q) :
    isNeg (decode f (encode f v)) = isNeg v ∧
    (limit f ≤ |q| → decode f (encode f v) = .inf (isNeg v)) ∧
    (|q| < limit f → ∃ r, val (decode f (encode f v)) = some r ∧ Has f r ∧ ∀ r', Has f r' → |r - q| ≤ |r' - q|) := by
  cases v with
  | inf s => cases hv
  | nan => cases hv
  | fin s m e =>
    rw [value_signed] at hv
    have hv := Option.some.inj hv
    have hq : |q| = m * (2 : ℚ) ^ e := by rw [← hv, abs_signed, abs_of_nonneg (by positivity)]
    rw [decode_encode_fin, hq]
    have hi := inf_iff hw hf m e
    by_cases hc : f.infCode ≤ code f m e
    · rw [if_pos hc]
      exact ⟨rfl, fun _ => rfl, fun h => absurd (hi.1 hc) (not_le.2 h)⟩
    · rw [if_neg hc]
      refine ⟨rfl, fun h => absurd (hi.2 h) hc, fun _ => ⟨_, value_signed _ _ _, code_has (by omega) (not_le.1 hc) s, fun r' hr' => ?_⟩⟩
      obtain ⟨c, _, hc2⟩ := has_code (by omega) hr'
      have hn := code_nearest f m e c
      have e1 : |(if s then -1 else 1) * ((mag f (code f m e) : ℚ) * 2 ^ expo f (code f m e)) - q| = |magv f (code f m e) - m * 2 ^ e| := by
        rw [← hv, ← mul_sub, abs_signed]; rfl
      rw [e1]
      refine hn.trans ?_
      rw [hc2, ← hq]
      exact abs_abs_sub_abs_le r' q

theorem round_has {f : Fmt} (hw : 2 ≤ f.ew) (hf : 1 ≤ f.mw) {v : FV} {q : ℚ} (hv : val v = some q) (hq : Has f q) :
    val (decode f (encode f v)) = some q ∧ isNeg (decode f (encode f v)) = isNeg v := by
  obtain ⟨h1, h2, h3⟩ := round_fin hw hf hv
  have hlt : |q| < limit f := by
    cases v with
    | inf s => cases hv
    | nan => cases hv
    | fin s m e =>
      by_contra hge
      obtain ⟨c, hc, hc2⟩ := has_code (by omega) hq
      rw [value_signed] at hv
      have hv := Option.some.inj hv
      have hq : |q| = m * (2 : ℚ) ^ e := by rw [← hv, abs_signed, abs_of_nonneg (by positivity)]
      rw [hq] at hge hc2
      have := (inf_iff hw hf m e).2 (not_lt.1 hge)
      rw [code_of_eq hc2.symm] at this
      omega
  obtain ⟨r, hr, _, hn⟩ := h3 hlt
  have := hn q hq
  rw [sub_self, abs_zero] at this
  rw [hr, sub_eq_zero.1 (abs_nonpos_iff.1 this)]
  exact ⟨rfl, h1⟩

theorem decode_has {f : Fmt} (hw : 1 ≤ f.ew) {n : ℕ} {q : ℚ} (h : val (decode f n) = some q) : Has f q := by
  have hd : decode f n = if f.infCode < n % f.signBit then .nan else if n % f.signBit = f.infCode then .inf (decide (f.signBit ≤ n))
      else .fin (decide (f.signBit ≤ n)) (mag f (n % f.signBit)) (expo f (n % f.signBit)) := rfl
  rw [hd] at h
  by_cases h1 : f.infCode < n % f.signBit
  · rw [if_pos h1] at h; cases h
  · rw [if_neg h1] at h
    by_cases h2 : n % f.signBit = f.infCode
    · rw [if_pos h2] at h; cases h
    · rw [if_neg h2, value_signed] at h
      rw [← Option.some.inj h]
      exact code_has hw (by omega) _

theorem Spec.Wider.has {f g : Fmt} (h : Wider f g) {q : ℚ} (hq : Has f q) : Has g q := exact_mono h.p h.emin h.emax hq

/-- Through a wider format and back. -/
theorem through {f g : Fmt} (h : Wider f g) (hf : 1 ≤ f.ew) (hg : 2 ≤ g.ew) (hg' : 1 ≤ g.mw) {n : ℕ} (hn : n < 2 * f.signBit) (hnan : decode f n ≠ .nan) :
    encode f (decode g (encode g (decode f n))) = n := by
  cases hv : decode f n with
  | nan => exact absurd hv hnan
  | inf s => rw [decode_encode_inf, ← hv, encode_decode hn hnan]
  | fin s m e =>
    have hq := decode_has hf (n := n) (q := _) (by rw [hv, value_signed])
    obtain ⟨h1, h2⟩ := round_has hg hg' (value_signed s m e) (h.has hq)
    rw [encode_congr h1 (value_signed s m e) h2, ← hv, encode_decode hn hnan]

/-! ### Tensors -/

theorem le_length (w n : ℕ) : (le w n).length = w := by
  induction w generalizing n with
  | zero => rfl
  | succ w ih => simp [le, ih]

theorem unle_le (w n : ℕ) (h : n < 256 ^ w) : unle64 (le w n) = n := by
  induction w generalizing n with
  | zero => simp at h; subst h; rfl
  | succ w ih =>
    have hd : n / 256 < 256 ^ w := by
      rw [Nat.div_lt_iff_lt_mul (by norm_num), ← pow_succ]; exact h
    have := ih (n / 256) hd
    unfold unle64 at this ⊢
    rw [le, List.foldr_cons, this, UInt8.toNat_ofNat']
    have := Nat.div_add_mod n 256
    omega

theorem le_unle (b : Bytes) : le b.length (unle64 b) = b := by
  induction b with
  | nil => rfl
  | cons x b ih =>
    have e : unle64 (x :: b) = x.toNat + 256 * unle64 b := rfl
    have hx := x.toNat_lt
    rw [List.length_cons, le, e]
    have h1 : (x.toNat + 256 * unle64 b) % 256 = x.toNat := by omega
    have h2 : (x.toNat + 256 * unle64 b) / 256 = unle64 b := by omega
    rw [h1, h2, ih]
    simp

theorem unle_lt (b : Bytes) : unle64 b < 256 ^ b.length := by
  induction b with
  | nil => simp [unle64]
  | cons x b ih =>
    have e : unle64 (x :: b) = x.toNat + 256 * unle64 b := rfl
    have hx := x.toNat_lt
    rw [e, List.length_cons, pow_succ]
    omega

theorem pieces_length (w c : ℕ) (b : Bytes) : (pieces w c b).length = c := by
  induction c generalizing b with
  | zero => rfl
  | succ c ih => simp [pieces, ih]

theorem pieces_of (w : ℕ) (l : List Bytes) (h : ∀ x ∈ l, x.length = w) : pieces w l.length (l.flatMap id) = l := by
  induction l with
  | nil => rfl
  | cons x l ih =>
    have hx := h x (by simp)
    rw [List.length_cons, pieces, List.flatMap_cons]
    simp only [id]
    rw [← hx, List.take_left, List.drop_left, hx]
    rw [ih (fun y hy => h y (by simp [hy]))]

theorem pieces_all (w c : ℕ) (b : Bytes) (h : b.length = c * w) : (∀ x ∈ pieces w c b, x.length = w) ∧ (pieces w c b).flatMap id = b := by
  induction c generalizing b with
  | zero =>
    simp at h
    subst h
    exact ⟨by simp [pieces], rfl⟩
  | succ c ih =>
    have hb : (b.drop w).length = c * w := by rw [List.length_drop, h]; have : (c + 1) * w = c * w + w := by ring
                                              omega
    obtain ⟨h1, h2⟩ := ih _ hb
    refine ⟨?_, ?_⟩
    · intro x hx
      rw [pieces, List.mem_cons] at hx
      rcases hx with rfl | hx
      · rw [List.length_take, h]
        have : (c + 1) * w = c * w + w := by ring
        omega
      · exact h1 x hx
    · rw [pieces, List.flatMap_cons, h2]
      exact List.take_append_drop w b

theorem entries_ofEntries (d : DType) (shape : List ℕ) (l : List ℕ) (hl : l.length = numel shape) (h : ∀ n ∈ l, n < 256 ^ d.size) :
    entries (ofEntries d shape l) = l := by
  unfold entries ofEntries
  simp only
  have e : l.flatMap (le d.size) = (l.map (le d.size)).flatMap id := by rw [List.flatMap_map]; rfl
  have hlen : numel shape = (l.map (le d.size)).length := by rw [List.length_map, hl]
  rw [e, hlen, pieces_of d.size _ (by
    intro x hx
    obtain ⟨n, _, rfl⟩ := List.mem_map.1 hx
    exact le_length _ _), List.map_map]
  conv_rhs => rw [← List.map_id l]
  exact List.map_congr_left fun n hn => unle_le _ _ (h n hn)

theorem entries_lt (t : Tensor) (h : t.bytes.length = numel t.shape * t.dtype.size) : ∀ n ∈ entries t, n < 256 ^ t.dtype.size := by
  intro n hn
  unfold entries at hn
  obtain ⟨b, hb, rfl⟩ := List.mem_map.1 hn
  have := (pieces_all _ _ _ h).1 b hb
  rw [← this]
  exact unle_lt b

theorem entries_length (t : Tensor) : (entries t).length = numel t.shape := by
  unfold entries
  rw [List.length_map, pieces_length]

theorem ofEntries_entries (t : Tensor) (h : t.bytes.length = numel t.shape * t.dtype.size) : ofEntries t.dtype t.shape (entries t) = t := by
  obtain ⟨h1, h2⟩ := pieces_all _ _ _ h
  unfold ofEntries entries
  rw [List.flatMap_map]
  have : (pieces t.dtype.size (numel t.shape) t.bytes).flatMap (fun b => le t.dtype.size (unle64 b)) =
      (pieces t.dtype.size (numel t.shape) t.bytes).flatMap id := by
    apply List.flatMap_congr
    intro b hb
    have := le_unle b
    rw [h1 b hb] at this
    exact this
  rw [this, h2]

/-- Only two neighbours can be equally near. -/
theorem tie_neighbour {f : Fmt} {x : ℚ} {c d : ℕ} (hc : ∀ c', |magv f c - x| ≤ |magv f c' - x|) (hd : |magv f d - x| = |magv f c - x|) (h : c < d) :
    d = c + 1 ∧ 2 * x = magv f c + magv f (c + 1) := by
  have hlt := magv_strictMono f h
  have hx : 2 * x = magv f c + magv f d := by
    rcases abs_cases (magv f d - x) with ⟨a, _⟩ | ⟨a, _⟩ <;> rcases abs_cases (magv f c - x) with ⟨b, _⟩ | ⟨b, _⟩ <;> rw [a, b] at hd <;> linarith
  have : d = c + 1 := by
    by_contra hn
    have h1 := magv_strictMono f (show c < c + 1 by omega)
    have h2 := magv_strictMono f (show c + 1 < d by omega)
    have := hc (c + 1)
    rcases abs_cases (magv f (c + 1) - x) with ⟨a, _⟩ | ⟨a, _⟩ <;> rcases abs_cases (magv f c - x) with ⟨b, _⟩ | ⟨b, _⟩ <;> rw [a, b] at this <;> linarith
  exact ⟨this, by rw [← this]; exact hx⟩

theorem tie_even {f : Fmt} (hw : 2 ≤ f.ew) (hf : 1 ≤ f.mw) {v : FV} {q r r' : ℚ} (hv : val v = some q) (hr : val (decode f (encode f v)) = some r)
    (hr' : Has f r') (hne : r' ≠ r) (htie : |r' - q| = |r - q|) : encode f v % 2 = 0 := by
  cases v with
  | inf s => cases hv
  | nan => cases hv
  | fin s m e =>
    rw [decode_encode_fin] at hr
    by_cases hc : f.infCode ≤ code f m e
    · rw [if_pos hc] at hr; cases hr
    · rw [if_neg hc, value_signed] at hr
      rw [value_signed] at hv
      have hv := Option.some.inj hv
      have hr := Option.some.inj hr
      have hq : |q| = m * (2 : ℚ) ^ e := by rw [← hv, abs_signed, abs_of_nonneg (by positivity)]
      obtain ⟨d, _, hd⟩ := has_code (by omega) hr'
      have e1 : |r - q| = |magv f (code f m e) - m * 2 ^ e| := by
        rw [← hv, ← hr, ← mul_sub, abs_signed]; rfl
      have hn := code_nearest f m e
      have hd1 : |magv f d - m * (2 : ℚ) ^ e| = |magv f (code f m e) - m * 2 ^ e| := by
        refine le_antisymm ?_ (hn d)
        rw [← e1, ← htie, hd, ← hq]
        exact abs_abs_sub_abs_le r' q
      have heven : f.signBit % 2 = 0 := by
        unfold Fmt.signBit
        obtain ⟨w, hw'⟩ := Nat.exists_eq_add_of_le hf
        rw [hw', show f.ew + (1 + w) = (f.ew + w) + 1 by ring, pow_succ]; omega
      have hsign : sign f s % 2 = 0 := by unfold sign; split_ifs <;> omega
      have hcode : code f m e % 2 = 0 := by
        rcases Nat.lt_trichotomy (code f m e) d with h | h | h
        · obtain ⟨_, h2⟩ := tie_neighbour hn hd1 h
          have := code_tie hf h2
          split_ifs at this with hp
          · exact hp
          · omega
        · -- the other sign: both are zero
          exfalso
          have hm : |r'| = |r| := by
            rw [← hd, ← h, ← hr, abs_signed, abs_of_nonneg (by positivity)]; rfl
          rcases abs_eq_abs.1 hm with h1 | h1
          · exact hne h1
          · rw [h1] at htie
            have hq0 : q = 0 ∨ r = 0 := by
              rcases abs_eq_abs.1 htie with h2 | h2
              · right; linarith
              · left; linarith
            have hr0 : r = 0 := by
              rcases hq0 with h2 | h2
              · have := hn 0
                rw [h2, abs_zero] at hq
                rw [magv_zero, ← hq, sub_self, abs_zero, sub_zero] at this
                rw [h2, sub_zero] at e1
                rw [← hq, sub_zero] at e1
                have h3 := abs_nonpos_iff.1 this
                rw [h3, abs_zero] at e1
                exact abs_eq_zero.1 e1
              · exact h2
            exact hne (by rw [h1, hr0, neg_zero])
        · obtain ⟨h1, h2⟩ := tie_neighbour (fun c' => by rw [hd1]; exact hn c') hd1.symm h
          have := code_tie hf h2
          split_ifs at this with hp
          · omega
          · omega
      show (sign f s + min (code f m e) f.infCode) % 2 = 0
      rw [min_eq_left (by omega)]
      omega

end Verif.Ieee
