import Verif.Model.Readme
import Verif.Spec.Readme
import Verif.Proofs.Ieee

/-!
# The weighted sum in numbers
-/
namespace Verif.Readme
open Float Float.Spec Ieee Ieee.Spec

/-! ### Errors of rounding -/

theorem rd_error (p : ℕ) (emin : ℤ) (x : Dy) : |value (rd p emin x) - value x| ≤ (2 : ℚ) ^ (-(p : ℤ)) * |value x| + (2 : ℚ) ^ (emin - 1) := by
  have hpos : (0 : ℚ) ≤ (2 : ℚ) ^ (-(p : ℤ)) * |value x| := by positivity
  have hpos2 : (0 : ℚ) < (2 : ℚ) ^ (emin - 1) := by positivity
  unfold rd
  split_ifs with h
  · rw [sub_self, abs_zero]; linarith
  · obtain ⟨u, hu⟩ : ∃ u, u = max (x.e + bits x.m - p) emin := ⟨_, rfl⟩
    rw [← hu] at h ⊢
    obtain ⟨n, hn⟩ : ∃ n : ℕ, u = x.e + n := ⟨(u - x.e).toNat, by omega⟩
    have hnn : (u - x.e).toNat = n := by omega
    rw [hnn]
    have h2e : (0 : ℚ) < (2 : ℚ) ^ x.e := by positivity
    have hscale : |value ⟨rne x.m n, u⟩ - value x| = |((rne x.m n * 2 ^ n - x.m : ℤ) : ℚ)| * (2 : ℚ) ^ x.e := by
      conv_rhs => rw [← abs_of_pos h2e, ← abs_mul]
      congr 1
      unfold value
      simp only
      rw [hn, zpow_add₀ (by norm_num), zpow_natCast]
      push_cast; ring
    have herr : |((rne x.m n * 2 ^ n - x.m : ℤ) : ℚ)| ≤ 2 ^ n / 2 := by
      have := rne_error x.m n
      have : (2 : ℚ) * |((rne x.m n * 2 ^ n - x.m : ℤ) : ℚ)| ≤ 2 ^ n := by exact_mod_cast this
      linarith
    have hbound : |value ⟨rne x.m n, u⟩ - value x| ≤ (2 : ℚ) ^ (u - 1) := by
      rw [hscale]
      refine (mul_le_mul_of_nonneg_right herr h2e.le).trans (le_of_eq ?_)
      rw [zpow_sub_one₀ (by norm_num), hn, zpow_add₀ (by norm_num), zpow_natCast]
      ring
    refine hbound.trans ?_
    rcases max_choice (x.e + bits x.m - p) emin with hm | hm
    · rw [hm] at hu
      have hx0 : x.m ≠ 0 := by
        rintro h0
        rw [h0] at hu
        simp [bits] at hu
        omega
      have htop := le_abs_value hx0
      have : (2 : ℚ) ^ (u - 1) = (2 : ℚ) ^ (-(p : ℤ)) * (2 : ℚ) ^ (x.e + bits x.m - 1) := by
        rw [← zpow_add₀ (by norm_num)]; congr 1; omega
      rw [this]
      have := mul_le_mul_of_nonneg_left htop (by positivity : (0 : ℚ) ≤ (2 : ℚ) ^ (-(p : ℤ)))
      linarith
    · rw [hm] at hu
      rw [hu]
      linarith

theorem code_error (f : Fmt) (m : ℕ) (e : ℤ) :
    |magv f (code f m e) - m * (2 : ℚ) ^ e| ≤ (2 : ℚ) ^ (-(f.p : ℤ)) * (m * (2 : ℚ) ^ e) + (2 : ℚ) ^ (f.emin - 1) := by
  rw [magv_round]
  have := rd_error f.p f.emin ⟨m, e⟩
  have e1 : value ⟨m, e⟩ = m * (2 : ℚ) ^ e := by unfold value; norm_cast
  rw [e1, abs_of_nonneg (by positivity : (0 : ℚ) ≤ m * (2 : ℚ) ^ e)] at this
  exact this

/-- `r` is `q` rounded. -/
structure Round (f : Fmt) (q r : ℚ) : Prop where
  has : Has f r
  near : ∀ r', Has f r' → |r - q| ≤ |r' - q|
  err : |r - q| ≤ (2 : ℚ) ^ (-(f.p : ℤ)) * |q| + (2 : ℚ) ^ (f.emin - 1)

theorem round_val {f : Fmt} (hw : 2 ≤ f.ew) (hf : 1 ≤ f.mw) {v : FV} {q : ℚ} (hv : val v = some q) (hlt : |q| < limit f) :
    ∃ r, val (decode f (encode f v)) = some r ∧ Round f q r := by
  obtain ⟨_, _, h3⟩ := round_fin hw hf hv
  obtain ⟨r, hr, h4, h5⟩ := h3 hlt
  refine ⟨r, hr, h4, h5, ?_⟩
  cases v with
  | inf s => cases hv
  | nan => cases hv
  | fin s m e =>
    have hi := inf_iff hw hf m e
    rw [value_signed] at hv
    have hv := Option.some.inj hv
    have hq : |q| = m * (2 : ℚ) ^ e := by rw [← hv, abs_signed, abs_of_nonneg (by positivity)]
    rw [decode_encode_fin, if_neg (by rw [hi, ← hq]; exact not_le.2 hlt), value_signed] at hr
    have hr := Option.some.inj hr
    have e1 : |r - q| = |magv f (code f m e) - m * 2 ^ e| := by
      rw [← hv, ← hr, ← mul_sub, abs_signed]; rfl
    rw [e1, hq]
    exact code_error f m e

theorem Round.le {f : Fmt} {q r b : ℚ} (h : Round f q r) (hb : Has f b) (hq : q ≤ b) : r ≤ b := by
  by_contra hlt
  have := h.near b hb
  rw [abs_of_nonneg (by linarith), abs_of_nonneg (by linarith)] at this
  linarith

theorem Round.ge {f : Fmt} {q r b : ℚ} (h : Round f q r) (hb : Has f b) (hq : b ≤ q) : b ≤ r := by
  by_contra hlt
  have := h.near b hb
  rw [abs_of_nonpos (by linarith), abs_of_nonpos (by linarith)] at this
  linarith

theorem Round.eq {f : Fmt} {q r : ℚ} (h : Round f q r) (hq : Has f q) : r = q := le_antisymm (h.le hq le_rfl) (h.ge hq le_rfl)

theorem has_zero (f : Fmt) : Has f 0 := exact_zero _ _ _

theorem has_neg {f : Fmt} {q : ℚ} (h : Has f q) : Has f (-q) := by
  obtain ⟨m, e, h1, h2, h3, h4⟩ := h
  exact ⟨-m, e, by rw [h1]; push_cast; ring, by rwa [abs_neg], h3, by rwa [abs_neg]⟩

theorem has_abs {f : Fmt} {q : ℚ} (h : Has f q) : Has f |q| := by
  rcases abs_choice q with h' | h' <;> rw [h']
  · exact h
  · exact has_neg h

/-! ### Values of sums and products -/

theorem val_cases {v : FV} {q : ℚ} (h : val v = some q) : ∃ s m e, v = .fin s m e ∧ q = (signed s m : ℚ) * 2 ^ e := by
  cases v with
  | inf s => cases h
  | nan => cases h
  | fin s m e =>
    refine ⟨s, m, e, rfl, ?_⟩
    rw [value_signed] at h
    rw [← Option.some.inj h]
    unfold signed
    cases s <;> simp

theorem val_add {v w : FV} {x y : ℚ} (hv : val v = some x) (hw : val w = some y) : val (add v w) = some (x + y) := by
  obtain ⟨s, m, e, rfl, rfl⟩ := val_cases hv
  obtain ⟨t, n, g, rfl, rfl⟩ := val_cases hw
  unfold add
  simp only
  obtain ⟨k, hk⟩ : ∃ k, k = signed s m * 2 ^ (e - min e g).toNat + signed t n * 2 ^ (g - min e g).toNat := ⟨_, rfl⟩
  rw [← hk, value_signed]
  have h1 : (2 : ℚ) ^ e = 2 ^ (e - min e g).toNat * (2 : ℚ) ^ (min e g) := by
    rw [← zpow_natCast, ← zpow_add₀ (by norm_num)]; congr 1; omega
  have h2 : (2 : ℚ) ^ g = 2 ^ (g - min e g).toNat * (2 : ℚ) ^ (min e g) := by
    rw [← zpow_natCast, ← zpow_add₀ (by norm_num)]; congr 1; omega
  have hsum : (signed s m : ℚ) * 2 ^ e + (signed t n : ℚ) * 2 ^ g = (k : ℚ) * 2 ^ (min e g) := by
    rw [h1, h2, hk]; push_cast; ring
  rw [hsum]
  congr 1
  rw [← mul_assoc]
  congr 1
  have hk1 : ((k.natAbs : ℕ) : ℚ) = |(k : ℚ)| := by rw [Nat.cast_natAbs, Int.cast_abs]
  rw [hk1]
  by_cases h0 : k = 0
  · simp [h0]
  · rw [if_neg h0]
    by_cases hneg : k < 0
    · have : (k : ℚ) < 0 := by exact_mod_cast hneg
      simp [hneg, abs_of_neg this]
    · have : (0 : ℚ) ≤ k := by exact_mod_cast not_lt.1 hneg
      simp [hneg, abs_of_nonneg this]

theorem val_neg {v : FV} {x : ℚ} (hv : val v = some x) : val (Ieee.neg v) = some (-x) := by
  obtain ⟨s, m, e, rfl, rfl⟩ := val_cases hv
  unfold Ieee.neg signed
  rw [value_signed]
  cases s <;> simp

theorem val_mul {v w : FV} {x y : ℚ} (hv : val v = some x) (hw : val w = some y) : val (mul v w) = some (x * y) := by
  obtain ⟨s, m, e, rfl, rfl⟩ := val_cases hv
  obtain ⟨t, n, g, rfl, rfl⟩ := val_cases hw
  unfold mul
  simp only
  rw [value_signed]
  congr 1
  rw [zpow_add₀ (by norm_num)]
  unfold signed
  cases s <;> cases t <;> simp <;> ring

theorem val_one : val one = some 1 := by simp [val, one]

/-! ### The gap between numbers -/

theorem magv_le_step (f : Fmt) (c : ℕ) : magv f (c + 1) ≤ (2 : ℚ) ^ f.p * (2 : ℚ) ^ expo f c := by
  rw [magv_step]
  unfold magv
  have h := mag_lt f c
  have : ((mag f c : ℕ) : ℚ) + 1 ≤ 2 ^ f.p := by exact_mod_cast h
  have h2 : (0 : ℚ) < (2 : ℚ) ^ expo f c := by positivity
  nlinarith

/-- Numbers of a format differ by at least `2^-p` of their size, and at least by the least positive number. -/
theorem gap_codes (f : Fmt) {c d : ℕ} (h : c < d) : (2 : ℚ) ^ (-(f.p : ℤ)) * magv f d ≤ magv f d - magv f c ∧ (2 : ℚ) ^ f.emin ≤ magv f d - magv f c := by
  obtain ⟨k, rfl⟩ : ∃ k, d = k + 1 := ⟨d - 1, by omega⟩
  have hle : magv f c ≤ magv f k := (magv_strictMono f).monotone (by omega)
  have h1 := magv_step f k
  have h2 := magv_le_step f k
  have hp : (2 : ℚ) ^ (-(f.p : ℤ)) * (2 : ℚ) ^ f.p = 1 := by
    rw [← zpow_natCast, ← zpow_add₀ (by norm_num)]; simp
  have h3 := mul_le_mul_of_nonneg_left h2 (by positivity : (0 : ℚ) ≤ (2 : ℚ) ^ (-(f.p : ℤ)))
  rw [← mul_assoc, hp, one_mul] at h3
  have h4 : (2 : ℚ) ^ f.emin ≤ (2 : ℚ) ^ expo f k := zpow_le_zpow_right₀ (by norm_num) (emin_le_expo f k)
  constructor <;> linarith

theorem two_neg_le_one (p : ℕ) : (2 : ℚ) ^ (-(p : ℤ)) ≤ 1 := by
  rw [zpow_neg, zpow_natCast]
  exact inv_le_one_of_one_le₀ (one_le_pow₀ (by norm_num))

theorem gap {f : Fmt} (hw : 1 ≤ f.ew) {x y : ℚ} (hx : Has f x) (hy : Has f y) (h : x < y) :
    (2 : ℚ) ^ (-(f.p : ℤ)) * |x| ≤ y - x ∧ (2 : ℚ) ^ (-(f.p : ℤ)) * |y| ≤ y - x ∧ (2 : ℚ) ^ f.emin ≤ y - x := by
  obtain ⟨c, _, hc⟩ := has_code hw hx
  obtain ⟨d, _, hd⟩ := has_code hw hy
  have h1 := two_neg_le_one f.p
  have h0 : (0 : ℚ) < (2 : ℚ) ^ (-(f.p : ℤ)) := by positivity
  have hmin : ∀ c, magv f c ≠ 0 → (2 : ℚ) ^ f.emin ≤ magv f c := by
    intro c hne
    have : 0 < c := by
      rcases Nat.eq_zero_or_pos c with rfl | h
      · exact absurd (magv_zero f) hne
      · exact h
    have := (gap_codes f this).2
    rw [magv_zero] at this
    linarith
  have hax := abs_nonneg x
  have hay := abs_nonneg y
  rcases le_or_gt 0 x with h0x | h0x
  · have hxy : |x| < |y| := by rw [abs_of_nonneg h0x, abs_of_nonneg (by linarith)]; exact h
    have hcd : c < d := by rw [← hc, ← hd] at hxy; exact (magv_strictMono f).lt_iff_lt.1 hxy
    obtain ⟨g1, g2⟩ := gap_codes f hcd
    rw [hc, hd, abs_of_nonneg h0x, abs_of_nonneg (by linarith : 0 ≤ y)] at g1 g2
    rw [abs_of_nonneg h0x, abs_of_nonneg (by linarith : 0 ≤ y)]
    refine ⟨?_, g1, g2⟩
    have := mul_le_mul_of_nonneg_left h.le h0.le
    linarith
  · rcases le_or_gt y 0 with h0y | h0y
    · have hxy : |y| < |x| := by rw [abs_of_neg h0x, abs_of_nonpos h0y]; linarith
      have hcd : d < c := by rw [← hc, ← hd] at hxy; exact (magv_strictMono f).lt_iff_lt.1 hxy
      obtain ⟨g1, g2⟩ := gap_codes f hcd
      rw [hc, hd, abs_of_neg h0x, abs_of_nonpos h0y] at g1 g2
      rw [abs_of_neg h0x, abs_of_nonpos h0y]
      refine ⟨by linarith, ?_, by linarith⟩
      have : -y ≤ -x := by linarith
      have := mul_le_mul_of_nonneg_left this h0.le
      linarith
    · have g := hmin c (by rw [hc]; exact abs_ne_zero.2 h0x.ne)
      rw [hc] at g
      rw [abs_of_neg h0x] at g ⊢
      rw [abs_of_pos h0y]
      refine ⟨?_, ?_, by linarith⟩
      · have := mul_le_mul_of_nonneg_right h1 (by linarith : 0 ≤ -x)
        linarith
      · have := mul_le_mul_of_nonneg_right h1 h0y.le
        linarith

/-! ### The weighted sum in rationals, with roundings -/

/-- The numbers computed: `be` is `1-al`, `p` and `q` are the products, `s` is the sum. -/
structure Computed (al a b be p q s u h : ℚ) : Prop where
  beerr : |be - (1 - al)| ≤ u * |1 - al| + h
  be0 : 0 ≤ be
  be1 : be ≤ 1
  perr : |p - be * a| ≤ u * |be * a| + h
  ple : |p| ≤ |a|
  qerr : |q - al * b| ≤ u * |al * b| + h
  qle : |q| ≤ |b|
  serr : |s - (p + q)| ≤ u * |p + q| + h
  pneg : a ≤ 0 → p ≤ 0
  ppos : 0 ≤ a → 0 ≤ p
  qneg : b ≤ 0 → q ≤ 0
  qpos : 0 ≤ b → 0 ≤ q
  sneg : p + q ≤ 0 → s ≤ 0
  spos : 0 ≤ p + q → 0 ≤ s

theorem Computed.neg {al a b be p q s u h : ℚ} (c : Computed al a b be p q s u h) : Computed al (-a) (-b) be (-p) (-q) (-s) u h where
  beerr := c.beerr
  be0 := c.be0
  be1 := c.be1
  perr := by
    have := c.perr
    rw [show -p - be * -a = -(p - be * a) by ring, show be * -a = -(be * a) by ring, abs_neg, abs_neg]; exact this
  ple := by rw [abs_neg, abs_neg]; exact c.ple
  qerr := by
    have := c.qerr
    rw [show -q - al * -b = -(q - al * b) by ring, show al * -b = -(al * b) by ring, abs_neg, abs_neg]; exact this
  qle := by rw [abs_neg, abs_neg]; exact c.qle
  serr := by
    have := c.serr
    rw [show -s - (-p + -q) = -(s - (p + q)) by ring, show -p + -q = -(p + q) by ring, abs_neg, abs_neg]; exact this
  pneg := fun h => by have := c.ppos (by linarith); linarith
  ppos := fun h => by have := c.pneg (by linarith); linarith
  qneg := fun h => by have := c.qpos (by linarith); linarith
  qpos := fun h => by have := c.qneg (by linarith); linarith
  sneg := fun h => by have := c.spos (by linarith); linarith
  spos := fun h => by have := c.sneg (by linarith); linarith

theorem Computed.close {al a b be p q s u h M : ℚ} (c : Computed al a b be p q s u h) (h0 : 0 ≤ al) (h1 : al ≤ 1) (hu : 0 ≤ u)
    (hh : 0 ≤ h) (ha : |a| ≤ M) (hb : |b| ≤ M) : |s - ((1 - al) * a + al * b)| ≤ 5 * u * M + (3 + M) * h := by
  have hM : 0 ≤ M := (abs_nonneg a).trans ha
  have e1 : |be - (1 - al)| * |a| ≤ (u + h) * M := by
    have := c.beerr
    rw [abs_of_nonneg (by linarith : 0 ≤ 1 - al)] at this
    have h2 : |be - (1 - al)| ≤ u + h := by nlinarith
    exact mul_le_mul h2 ha (abs_nonneg _) (by linarith)
  have e2 : |be * a| ≤ M := by
    rw [abs_mul, abs_of_nonneg c.be0]
    calc be * |a| ≤ 1 * M := mul_le_mul c.be1 ha (abs_nonneg _) (by norm_num)
      _ = M := one_mul M
  have e3 : |al * b| ≤ M := by
    rw [abs_mul, abs_of_nonneg h0]
    calc al * |b| ≤ 1 * M := mul_le_mul h1 hb (abs_nonneg _) (by norm_num)
      _ = M := one_mul M
  have e4 : |p + q| ≤ 2 * M := (abs_add_le p q).trans (by linarith [c.ple, c.qle])
  have f1 : |p - be * a| ≤ u * M + h := c.perr.trans (by linarith [mul_le_mul_of_nonneg_left e2 hu])
  have f2 : |q - al * b| ≤ u * M + h := c.qerr.trans (by linarith [mul_le_mul_of_nonneg_left e3 hu])
  have f3 : |s - (p + q)| ≤ u * (2 * M) + h := c.serr.trans (by linarith [mul_le_mul_of_nonneg_left e4 hu])
  rw [← abs_mul] at e1
  have : s - ((1 - al) * a + al * b) = (s - (p + q)) + (p - be * a) + (be - (1 - al)) * a + (q - al * b) := by ring
  rw [this]
  refine (abs_add_le _ _).trans ?_
  have g1 := abs_add_le ((s - (p + q)) + (p - be * a)) ((be - (1 - al)) * a)
  have g2 := abs_add_le (s - (p + q)) (p - be * a)
  linarith

theorem fin_pos {u h c : ℚ} (hu : 0 ≤ u) (hu1 : u ≤ 1 / 4) (hh : 0 ≤ h) (h' : 0 ≤ c) (hc : c ≤ 2 ^ 16) :
    ((1 + u + h) * c * (1 + u) + 2 * h) * (1 + u) + h ≤ c + 16 * u * c + 2 ^ 20 * h := by
  have e : ((1 + u + h) * c * (1 + u) + 2 * h) * (1 + u) + h =
      c + 3 * (u * c) + 3 * (u * (u * c)) + u * (u * (u * c)) + h * c + 2 * (u * (h * c)) + u * (u * (h * c)) + 3 * h + 2 * (u * h) := by ring
  have t0 : h * c ≤ 2 ^ 16 * h := by rw [mul_comm]; exact mul_le_mul_of_nonneg_right hc hh
  have n1 : 0 ≤ u * c := by positivity
  have n2 : 0 ≤ h * c := by positivity
  have n3 : 0 ≤ u * (u * c) := by positivity
  have n4 : 0 ≤ u * (h * c) := by positivity
  have t1 : u * (u * c) ≤ 1 / 4 * (u * c) := mul_le_mul_of_nonneg_right hu1 n1
  have t2 : u * (u * (u * c)) ≤ 1 / 4 * (u * (u * c)) := mul_le_mul_of_nonneg_right hu1 n3
  have t3 : u * (h * c) ≤ 1 / 4 * (h * c) := mul_le_mul_of_nonneg_right hu1 n2
  have t4 : u * (u * (h * c)) ≤ 1 / 4 * (u * (h * c)) := mul_le_mul_of_nonneg_right hu1 n4
  have t5 : u * h ≤ 1 / 4 * h := mul_le_mul_of_nonneg_right hu1 hh
  rw [e]
  linarith

theorem fin_neg {u h c : ℚ} (hu : 0 ≤ u) (hu1 : u ≤ 1 / 4) (hh : 0 ≤ h) (h' : c ≤ 0) (hc : -c ≤ 2 ^ 16) :
    ((1 - u - h) * c * (1 - u) + 2 * h) * (1 - u) + h ≤ c + 16 * u * -c + 2 ^ 20 * h := by
  obtain ⟨d, hd⟩ : ∃ d, d = -c := ⟨_, rfl⟩
  have hc' : c = -d := by linarith
  subst hc'
  rw [neg_neg] at hc ⊢
  have h0 : 0 ≤ d := by linarith
  have e : ((1 - u - h) * -d * (1 - u) + 2 * h) * (1 - u) + h =
      -d + 3 * (u * d) - 3 * (u * (u * d)) + u * (u * (u * d)) + h * d - 2 * (u * (h * d)) + u * (u * (h * d)) + 3 * h - 2 * (u * h) := by ring
  have t0 : h * d ≤ 2 ^ 16 * h := by rw [mul_comm]; exact mul_le_mul_of_nonneg_right hc hh
  have n1 : 0 ≤ u * d := by positivity
  have n2 : 0 ≤ h * d := by positivity
  have n3 : 0 ≤ u * (u * d) := by positivity
  have n4 : 0 ≤ u * (h * d) := by positivity
  have n5 : 0 ≤ u * h := by positivity
  have t2 : u * (u * (u * d)) ≤ 1 / 4 * (u * (u * d)) := mul_le_mul_of_nonneg_right hu1 n3
  have t4 : u * (u * (h * d)) ≤ 1 / 4 * (u * (h * d)) := mul_le_mul_of_nonneg_right hu1 n4
  rw [e]
  linarith

/-- The result exceeds the larger number by a tiny fraction only. -/
theorem Computed.upper {al a b be p q s u h c : ℚ} (C : Computed al a b be p q s u h) (h0 : 0 ≤ al) (h1 : al ≤ 1) (hu : 0 ≤ u) (hu1 : u ≤ 1 / 4)
    (hh : 0 ≤ h) (hh1 : h ≤ 1 / 4) (ha : a ≤ c) (hb : b ≤ c) (hc : |c| ≤ 2 ^ 16) : s ≤ c + 16 * u * |c| + 2 ^ 20 * h := by
  have hbe := abs_le.1 C.beerr
  rw [abs_of_nonneg (by linarith : 0 ≤ 1 - al)] at hbe
  have hp := abs_le.1 C.perr
  have hq := abs_le.1 C.qerr
  have hs := abs_le.1 C.serr
  have b0 := C.be0
  have b1 := C.be1
  have hu1al : u * (1 - al) ≤ u := by nlinarith
  have hsum : be + al ≤ 1 + u + h := by linarith [hbe.2]
  have hsum2 : 1 - u - h ≤ be + al := by linarith [hbe.1]
  rcases lt_trichotomy c 0 with h' | h' | h'
  · -- both are negative
    rw [abs_of_neg h'] at hc ⊢
    have p1 : p ≤ be * c * (1 - u) + h := by
      rw [abs_of_nonpos (by nlinarith : be * a ≤ 0)] at hp
      have : be * a ≤ be * c := mul_le_mul_of_nonneg_left ha b0
      nlinarith [hp.2]
    have q1 : q ≤ al * c * (1 - u) + h := by
      rw [abs_of_nonpos (by nlinarith : al * b ≤ 0)] at hq
      have : al * b ≤ al * c := mul_le_mul_of_nonneg_left hb h0
      nlinarith [hq.2]
    have hpq : p + q ≤ 0 := by linarith [C.pneg (by linarith), C.qneg (by linarith)]
    have s1 : s ≤ (p + q) * (1 - u) + h := by
      rw [abs_of_nonpos hpq] at hs
      nlinarith [hs.2]
    have k1 : p + q ≤ (be + al) * c * (1 - u) + 2 * h := by linarith
    have k2 : (be + al) * c * (1 - u) ≤ (1 - u - h) * c * (1 - u) := by
      have : (be + al) * c ≤ (1 - u - h) * c := mul_le_mul_of_nonpos_right hsum2 h'.le
      exact mul_le_mul_of_nonneg_right this (by linarith)
    have k3 : s ≤ ((1 - u - h) * c * (1 - u) + 2 * h) * (1 - u) + h := by
      have : (p + q) * (1 - u) ≤ ((1 - u - h) * c * (1 - u) + 2 * h) * (1 - u) := mul_le_mul_of_nonneg_right (by linarith) (by linarith)
      linarith
    refine k3.trans ?_
    exact fin_neg hu hu1 hh h'.le hc
  · subst h'
    have := C.sneg (by linarith [C.pneg ha, C.qneg hb])
    rw [abs_zero]
    nlinarith
  · rw [abs_of_pos h'] at hc ⊢
    have hbc : 0 ≤ be * c := by positivity
    have hac : 0 ≤ al * c := by positivity
    have p1 : p ≤ be * c * (1 + u) + h := by
      rcases le_or_gt a 0 with h2 | h2
      · have := C.pneg h2; nlinarith
      · rw [abs_of_nonneg (by positivity : 0 ≤ be * a)] at hp
        have : be * a ≤ be * c := mul_le_mul_of_nonneg_left ha b0
        nlinarith [hp.2]
    have q1 : q ≤ al * c * (1 + u) + h := by
      rcases le_or_gt b 0 with h2 | h2
      · have := C.qneg h2; nlinarith
      · rw [abs_of_nonneg (by positivity : 0 ≤ al * b)] at hq
        have : al * b ≤ al * c := mul_le_mul_of_nonneg_left hb h0
        nlinarith [hq.2]
    have k1 : p + q ≤ (be + al) * c * (1 + u) + 2 * h := by linarith
    have k2 : (be + al) * c * (1 + u) ≤ (1 + u + h) * c * (1 + u) := by
      have : (be + al) * c ≤ (1 + u + h) * c := mul_le_mul_of_nonneg_right hsum h'.le
      exact mul_le_mul_of_nonneg_right this (by linarith)
    have k3 : s ≤ ((1 + u + h) * c * (1 + u) + 2 * h) * (1 + u) + h := by
      rcases le_or_gt (p + q) 0 with h2 | h2
      · have := C.sneg h2
        have : 0 ≤ ((1 + u + h) * c * (1 + u) + 2 * h) * (1 + u) := by positivity
        linarith
      · rw [abs_of_pos h2] at hs
        have : (p + q) * (1 + u) ≤ ((1 + u + h) * c * (1 + u) + 2 * h) * (1 + u) := mul_le_mul_of_nonneg_right (by linarith) (by linarith)
        nlinarith [hs.2]
    refine k3.trans ?_
    exact fin_pos hu hu1 hh h'.le hc

/-! ### The numbers that `mixed` computes -/

/-- The errors of float64 -/
def ulp : ℚ := (2 : ℚ) ^ (-53 : ℤ)
def tiny : ℚ := (2 : ℚ) ^ (-1075 : ℤ)

theorem Round.err64 {q r : ℚ} (h : Round double q r) : |r - q| ≤ ulp * |q| + tiny := h.err

theorem Round.abs_le {f : Fmt} {q r b : ℚ} (h : Round f q r) (hb : Has f b) (hq : |q| ≤ b) : |r| ≤ b := by
  rw [_root_.abs_le] at hq ⊢
  exact ⟨h.ge (has_neg hb) hq.1, h.le hb hq.2⟩

theorem limit_double : (2 : ℚ) ^ 20 < limit double := by
  have : double.emax = (1024 : ℕ) := by decide
  have hp : double.emax - double.p - 1 = (970 : ℕ) := by decide
  unfold limit
  rw [hp, this, zpow_natCast, zpow_natCast]
  have h1 : (2 : ℚ) ^ 20 ≤ 2 ^ 970 := pow_le_pow_right₀ (by norm_num) (by norm_num)
  have h2 : (2 : ℚ) ^ 1024 = 2 ^ 970 * 2 ^ 54 := by rw [← pow_add]
  have h3 : (2 : ℚ) < 2 ^ 54 - 1 := by norm_num
  rw [h2]
  have h4 : (0 : ℚ) < 2 ^ 970 := by positivity
  clear h2
  generalize (2 : ℚ) ^ 970 = x at *
  have := mul_lt_mul_of_pos_left h3 h4
  linarith

theorem wider : Wider half double := ⟨by decide, by decide, by decide⟩

theorem has_one : Has double 1 := ⟨1, 0, by norm_num, by decide, by decide, by
  have : double.emax = (1024 : ℕ) := by decide
  rw [this, zpow_natCast, abs_one]; exact one_lt_pow₀ (by norm_num) (by norm_num)⟩

theorem half_lt {a : ℚ} (h : Has half a) : |a| < 2 ^ 16 := by
  obtain ⟨_, _, _, _, _, h4⟩ := h
  have : half.emax = (16 : ℕ) := by decide
  rw [this, zpow_natCast] at h4
  exact h4

theorem mixed_val {v w z : FV} {al a b : ℚ} (hv : val v = some al) (h0 : 0 ≤ al) (h1 : al ≤ 1) (hw : val w = some a) (ha : Has half a)
    (hz : val z = some b) (hb : Has half b) :
    ∃ be p q s, val (mixed v w z) = some s ∧ Computed al a b be p q s ulp tiny ∧ Round double (1 - al) be ∧ Round double (be * a) p ∧
      Round double (al * b) q ∧ Round double (p + q) s := by
  have hlim := limit_double
  have ha16 := half_lt ha
  have hb16 := half_lt hb
  have hval : ∀ {v : FV} {q : ℚ}, val v = some q → |q| ≤ 2 ^ 20 → ∃ r, val (decode double (encode double v)) = some r ∧ Round double q r :=
    fun hv hq => round_val (by decide) (by decide) hv (lt_of_le_of_lt hq hlim)
  obtain ⟨be, r1, r2⟩ := hval (val_add val_one (val_neg hv)) (by
    rw [← sub_eq_add_neg, abs_of_nonneg (by linarith)]; norm_num; linarith)
  rw [← sub_eq_add_neg] at r2
  have hbe0 : 0 ≤ be := r2.ge (has_zero _) (by linarith)
  have hbe1 : be ≤ 1 := r2.le has_one (by linarith)
  have hba : |be * a| ≤ |a| := by
    rw [abs_mul, abs_of_nonneg hbe0]
    nlinarith [abs_nonneg a]
  have hab : |al * b| ≤ |b| := by
    rw [abs_mul, abs_of_nonneg h0]
    nlinarith [abs_nonneg b]
  obtain ⟨p, p1, p2⟩ := hval (val_mul r1 hw) (hba.trans (by linarith))
  obtain ⟨q, q1, q2⟩ := hval (val_mul hv hz) (hab.trans (by linarith))
  have hp : |p| ≤ |a| := p2.abs_le (has_abs (wider.has ha)) hba
  have hq : |q| ≤ |b| := q2.abs_le (has_abs (wider.has hb)) hab
  obtain ⟨s, s1, s2⟩ := hval (val_add p1 q1) ((abs_add_le p q).trans (by linarith))
  refine ⟨be, p, q, s, s1, ?_, r2, p2, q2, s2⟩
  exact {
    beerr := r2.err64
    be0 := hbe0
    be1 := hbe1
    perr := p2.err64
    ple := hp
    qerr := q2.err64
    qle := hq
    serr := s2.err64
    pneg := fun h => p2.le (has_zero _) (by nlinarith)
    ppos := fun h => p2.ge (has_zero _) (by positivity)
    qneg := fun h => q2.le (has_zero _) (by nlinarith)
    qpos := fun h => q2.ge (has_zero _) (by positivity)
    sneg := fun h => s2.le (has_zero _) h
    spos := fun h => s2.ge (has_zero _) h }

theorem ulp_small : 0 ≤ ulp ∧ ulp ≤ 1 / 4 ∧ 16 * ulp = (2 : ℚ) ^ (-49 : ℤ) := by
  unfold ulp
  refine ⟨by positivity, ?_, ?_⟩ <;> norm_num

theorem tiny_small : 0 ≤ tiny ∧ tiny ≤ 1 / 4 ∧ 2 ^ 20 * tiny ≤ (2 : ℚ) ^ (-1000 : ℤ) := by
  unfold tiny
  refine ⟨by positivity, ?_, ?_⟩
  · calc (2 : ℚ) ^ (-1075 : ℤ) ≤ (2 : ℚ) ^ (-2 : ℤ) := zpow_le_zpow_right₀ (by norm_num) (by norm_num)
      _ = 1 / 4 := by norm_num
  · have : (2 : ℚ) ^ 20 * (2 : ℚ) ^ (-1075 : ℤ) = (2 : ℚ) ^ (-1055 : ℤ) := by
      rw [← zpow_natCast, ← zpow_add₀ (by norm_num)]; norm_num
    rw [this]
    exact zpow_le_zpow_right₀ (by norm_num) (by norm_num)

theorem err_nonneg {x : ℚ} (hx : 0 ≤ x) : 0 ≤ ulp * x + tiny := add_nonneg (mul_nonneg ulp_small.1 hx) tiny_small.1

theorem out_le {al a b be p q s r c : ℚ} (C : Computed al a b be p q s ulp tiny) (h0 : 0 ≤ al) (h1 : al ≤ 1) (hc : Has half c) (ha : a ≤ c) (hb : b ≤ c)
    (hr : Round half s r) : r ≤ c := by
  have hc16 := half_lt hc
  have hs := C.upper h0 h1 ulp_small.1 ulp_small.2.1 tiny_small.1 tiny_small.2.1 ha hb hc16.le
  rw [ulp_small.2.2] at hs
  have ht := tiny_small.2.2
  by_contra hlt
  obtain ⟨g1, _, g3⟩ := gap (by decide) hc hr.has (not_le.1 hlt)
  have e1 : (2 : ℚ) ^ (-(half.p : ℤ)) = (2 : ℚ) ^ (-11 : ℤ) := by
    have : half.p = 11 := by decide
    rw [this]; rfl
  have e2 : (2 : ℚ) ^ half.emin = (2 : ℚ) ^ (-24 : ℤ) := by
    have : half.emin = -24 := by decide
    rw [this]
  rw [e1] at g1
  rw [e2] at g3
  have hn := hr.near c hc
  have k1 : (2 : ℚ) ^ (-49 : ℤ) * |c| ≤ (2 : ℚ) ^ (-13 : ℤ) * |c| :=
    mul_le_mul_of_nonneg_right (zpow_le_zpow_right₀ (by norm_num) (by norm_num)) (abs_nonneg c)
  have k2 : (2 : ℚ) ^ (-1000 : ℤ) ≤ (2 : ℚ) ^ (-27 : ℤ) := zpow_le_zpow_right₀ (by norm_num) (by norm_num)
  have k3 : (2 : ℚ) ^ (-27 : ℤ) = (2 : ℚ) ^ (-24 : ℤ) / 8 := by norm_num
  have k4 : (2 : ℚ) ^ (-13 : ℤ) = (2 : ℚ) ^ (-11 : ℤ) / 4 := by norm_num
  rw [k3] at k2
  rw [k4] at k1
  have k5 : (0 : ℚ) < (2 : ℚ) ^ (-24 : ℤ) := by positivity
  have hac := abs_nonneg c
  generalize (2 : ℚ) ^ (-24 : ℤ) = x at *
  generalize (2 : ℚ) ^ (-11 : ℤ) = y at *
  generalize (2 : ℚ) ^ (-49 : ℤ) = z at *
  generalize (2 : ℚ) ^ (-1000 : ℤ) = w at *
  rcases le_total s c with h | h
  · rw [abs_of_nonneg (by linarith), abs_of_nonneg (by linarith)] at hn
    linarith
  · rw [abs_of_nonpos (by linarith : c - s ≤ 0)] at hn
    have := le_abs_self (r - s)
    linarith

theorem Round.neg {f : Fmt} {q r : ℚ} (h : Round f q r) : Round f (-q) (-r) where
  has := has_neg h.has
  near := fun r' hr' => by
    have := h.near (-r') (has_neg hr')
    rw [show -r - -q = -(r - q) by ring, abs_neg, show r' - -q = -(-r' - q) by ring, abs_neg]
    exact this
  err := by
    have := h.err
    rw [show -r - -q = -(r - q) by ring, abs_neg, abs_neg]
    exact this

theorem out_ge {al a b be p q s r c : ℚ} (C : Computed al a b be p q s ulp tiny) (h0 : 0 ≤ al) (h1 : al ≤ 1) (hc : Has half c) (ha : c ≤ a) (hb : c ≤ b)
    (hr : Round half s r) : c ≤ r := by
  have := out_le C.neg h0 h1 (has_neg hc) (by linarith) (by linarith) hr.neg
  linarith

/-- No overflow -/
theorem mixed_lt {al a b be p q s : ℚ} (C : Computed al a b be p q s ulp tiny) (h0 : 0 ≤ al) (h1 : al ≤ 1) (ha : Has half a) (hb : Has half b) :
    |s| < limit half := by
  have hm : ∀ {a}, Has half a → |a| ≤ 65504 := by
    intro a h
    obtain ⟨c, hc, hc2⟩ := has_code (by decide) h
    rw [← hc2]
    have hi : half.infCode = 31744 := by decide
    have := (magv_strictMono half).monotone (show c ≤ 31743 by omega)
    refine this.trans (le_of_eq ?_)
    have e1 : mag half 31743 = 2047 := by decide
    have e2 : expo half 31743 = 5 := by decide
    unfold magv
    rw [e1, e2]
    norm_num
  have hl : limit half = 65520 := by
    have : half.emax = 16 := by decide
    have hp : half.p = 11 := by decide
    unfold limit
    rw [this, hp]; norm_num
  have hbig : |(65504 : ℚ)| ≤ 2 ^ 16 := by rw [abs_of_pos (by norm_num)]; norm_num
  have u1 := C.upper h0 h1 ulp_small.1 ulp_small.2.1 tiny_small.1 tiny_small.2.1 (_root_.abs_le.1 (hm ha)).2 (_root_.abs_le.1 (hm hb)).2 hbig
  have u2 := C.neg.upper h0 h1 ulp_small.1 ulp_small.2.1 tiny_small.1 tiny_small.2.1 (c := 65504) (by linarith [(_root_.abs_le.1 (hm ha)).1])
    (by linarith [(_root_.abs_le.1 (hm hb)).1]) hbig
  rw [ulp_small.2.2, abs_of_pos (by norm_num : (0 : ℚ) < 65504)] at u1 u2
  have ht := tiny_small.2.2
  have k2 : (2 : ℚ) ^ (-1000 : ℤ) ≤ (2 : ℚ) ^ (0 : ℤ) := zpow_le_zpow_right₀ (by norm_num) (by norm_num)
  have k1 : (2 : ℚ) ^ (-49 : ℤ) * 65504 ≤ 1 := by norm_num
  rw [zpow_zero] at k2
  rw [hl, abs_lt]
  constructor <;> linarith

/-! ### Alpha close to 0 or 1 -/

theorem size_le {v : FV} {q : ℚ} {c : ℕ} (hv : val v = some q) (hc : c < double.infCode) (h : size v ≤ c) : |q| ≤ magv double (c + 1) := by
  obtain ⟨s, m, e, rfl, rfl⟩ := val_cases hv
  by_contra hlt
  have hq : |(signed s m : ℚ) * 2 ^ e| = m * (2 : ℚ) ^ e := by
    rw [abs_mul, abs_of_pos (by positivity : (0 : ℚ) < 2 ^ e)]
    unfold signed
    cases s <;> simp
  rw [hq] at hlt
  have h1 := code_mono (f := double) (m := mag double (c + 1)) (e := expo double (c + 1)) (not_le.1 hlt).le
  rw [code_magv] at h1
  have hi := infCode_lt double
  have : size (.fin s m e) = min (code double m e) double.infCode := by
    show (sign double s + min (code double m e) double.infCode) % double.signBit = _
    unfold sign
    split_ifs
    · rw [Nat.add_mod_left, Nat.mod_eq_of_lt (by omega)]
    · rw [zero_add, Nat.mod_eq_of_lt (by omega)]
  omega

theorem tol_zero : size (add atol (abs (fmul rtol zero))) = 0x3E45798EE2308C3A := by decide +kernel
theorem tol_one : size (add atol (abs (fmul rtol one))) = 0x3EE4FE13EC9BF514 := by decide +kernel

theorem val_zero : val zero = some 0 := by simp [val, zero]

theorem magv_lt (f : Fmt) (c : ℕ) : magv f c < (2 : ℚ) ^ ((f.p : ℤ) + expo f c) := by
  unfold magv
  rw [zpow_add₀ (by norm_num), zpow_natCast]
  exact mul_lt_mul_of_pos_right (by exact_mod_cast mag_lt f c) (by positivity)

theorem close_zero {v : FV} {al : ℚ} (hv : val v = some al) (h : isClose v zero = true) : |al| < (2 : ℚ) ^ (-26 : ℤ) := by
  unfold isClose at h
  have h := (of_decide_eq_true h).2
  rw [tol_zero] at h
  have := size_le (val_add hv (val_neg val_zero)) (by decide) h
  rw [neg_zero, add_zero] at this
  refine lt_of_le_of_lt this ((magv_lt _ _).trans_eq ?_)
  have : (double.p : ℤ) + expo double (0x3E45798EE2308C3A + 1) = -26 := by decide +kernel
  rw [this]

theorem close_one {v : FV} {al : ℚ} (hv : val v = some al) (h : isClose v one = true) : |1 - al| < (2 : ℚ) ^ (-16 : ℤ) := by
  unfold isClose at h
  have h := (of_decide_eq_true h).2
  rw [tol_one] at h
  have := size_le (val_add hv (val_neg val_one)) (by decide) h
  rw [← sub_eq_add_neg, abs_sub_comm] at this
  refine lt_of_le_of_lt this ((magv_lt _ _).trans_eq ?_)
  have : (double.p : ℤ) + expo double (0x3EE4FE13EC9BF514 + 1) = -16 := by decide +kernel
  rw [this]

theorem size_zero {v : FV} (hv : val v = some 0) : size v = 0 := by
  obtain ⟨s, m, e, rfl, h⟩ := val_cases hv
  have hm : m = 0 := by
    have h2 : (0 : ℚ) < 2 ^ e := by positivity
    rcases mul_eq_zero.1 h.symm with h | h
    · unfold signed at h
      cases s <;> simpa using h
    · exact absurd h h2.ne'
  subst hm
  show (sign double s + min (code double 0 e) double.infCode) % double.signBit = 0
  have : code double 0 e = 0 := rfl
  rw [this]
  unfold sign
  cases s <;> simp

theorem isClose_of_eq {v y : FV} {q : ℚ} (hv : val v = some q) (hy : val y = some q) : isClose v y = true := by
  have h := size_zero (v := add v (Ieee.neg y)) (by
    have := val_add hv (val_neg hy)
    rwa [add_neg_cancel] at this)
  unfold isClose
  rw [h]
  exact decide_eq_true ⟨by decide, Nat.zero_le _⟩

/-! ### One entry -/

/-- A number as a float64 -/
def wide (v : FV) : FV := decode double (encode double v)

/-- What is stored for one entry -/
def entry (al x y : FV) : ℕ :=
  encode half (if isClose al zero then wide x else if isClose al one then wide y else mixed al (wide x) (wide y))

/-- The number alpha is turned into -/
def alphaOf (v : FV) : FV := wide (decode single (encode single v))

theorem has_single_one : Has single 1 := ⟨1, 0, by norm_num, by decide, by decide, by
  have : single.emax = (128 : ℕ) := by decide
  rw [this, zpow_natCast, abs_one]; exact one_lt_pow₀ (by norm_num) (by norm_num)⟩

theorem wider_single : Wider single double := ⟨by decide, by decide, by decide⟩

theorem wide_val {f : Fmt} (h : Wider f double) {v : FV} {q : ℚ} (hv : val v = some q) (hq : Has f q) :
    val (wide v) = some q ∧ isNeg (wide v) = isNeg v := round_has (by decide) (by decide) hv (h.has hq)

theorem alpha_val {v : FV} {t : ℚ} (hv : val v = some t) (h0 : 0 ≤ t) (h1 : t ≤ 1) :
    ∃ al, val (alphaOf v) = some al ∧ 0 ≤ al ∧ al ≤ 1 ∧ Has single al ∧ Round single t al := by
  have hlt : |t| < limit single := by
    have : single.emax = (128 : ℕ) := by decide
    have hp : single.emax - single.p - 1 = (103 : ℕ) := by decide
    unfold limit
    rw [hp, this, zpow_natCast, zpow_natCast, abs_of_nonneg h0]
    norm_num
    linarith
  obtain ⟨al, r1, r2⟩ := round_val (by decide) (by decide) hv hlt
  exact ⟨al, (wide_val wider_single r1 r2.has).1, r2.ge (has_zero _) h0, r2.le has_single_one h1, r2.has, r2⟩

theorem alpha_err {t al : ℚ} (h0 : 0 ≤ t) (h1 : t ≤ 1) (h : Round single t al) : |al - t| ≤ (2 : ℚ) ^ (-24 : ℤ) * t + (2 : ℚ) ^ (-150 : ℤ) := by
  have := h.err
  rw [abs_of_nonneg h0] at this
  exact this

/-- Rounding what a half was widened to gives its bits back. -/
theorem back {n : ℕ} (hn : n < 65536) (h : decode half n ≠ .nan) : encode half (wide (decode half n)) = n :=
  through wider (by decide) (by decide) (by decide) hn h

theorem entry_out {v : FV} {m n : ℕ} {t a b : ℚ} (hv : val v = some t) (h0 : 0 ≤ t) (h1 : t ≤ 1)
    (ha : val (decode half m) = some a) (hb : val (decode half n) = some b) :
    ∃ r al s, val (decode half (entry (alphaOf v) (decode half m) (decode half n))) = some r ∧ Round single t al ∧ 0 ≤ al ∧ al ≤ 1 ∧ Round half s r ∧
      (isClose (alphaOf v) zero = true ∧ al < (2 : ℚ) ^ (-26 : ℤ) ∧ s = a ∨ isClose (alphaOf v) one = true ∧ 1 - al < (2 : ℚ) ^ (-16 : ℤ) ∧ s = b ∨
        ∃ be p q, Computed al a b be p q s ulp tiny ∧ Round double (1 - al) be ∧ Round double (be * a) p ∧ Round double (al * b) q ∧ Round double (p + q) s) ∧
      (∀ r', Has half r' → r' ≠ r → |r' - s| = |r - s| → entry (alphaOf v) (decode half m) (decode half n) % 2 = 0) := by
  have ha' := decode_has (by decide) ha
  have hb' := decode_has (by decide) hb
  obtain ⟨al, l1, l2, l3, l4, l5⟩ := alpha_val hv h0 h1
  obtain ⟨wa, _⟩ := wide_val wider ha ha'
  obtain ⟨wb, _⟩ := wide_val wider hb hb'
  have hlim : ∀ {c : ℚ}, Has half c → |c| < limit half := by
    intro c hc
    have : Computed 0 c c 1 c 0 c ulp tiny := {
      beerr := by rw [sub_zero, sub_self, abs_zero]; exact err_nonneg (by simp)
      be0 := by norm_num
      be1 := le_rfl
      perr := by rw [one_mul, sub_self, abs_zero]; exact err_nonneg (by simp)
      ple := le_rfl
      qerr := by rw [zero_mul, sub_self, abs_zero]; exact err_nonneg (by simp)
      qle := by rw [abs_zero]; exact abs_nonneg c
      serr := by rw [add_zero, sub_self, abs_zero]; exact err_nonneg (by simp)
      pneg := id
      ppos := id
      qneg := fun _ => le_rfl
      qpos := fun _ => le_rfl
      sneg := fun h => by linarith
      spos := fun h => by linarith }
    exact mixed_lt this le_rfl (by norm_num) hc hc
  have key : ∀ {w : FV} {s : ℚ}, val w = some s → |s| < limit half → ∃ r, val (decode half (encode half w)) = some r ∧ Round half s r ∧
      ∀ r', Has half r' → r' ≠ r → |r' - s| = |r - s| → encode half w % 2 = 0 := by
    intro w s hw hs
    obtain ⟨r, r1, r2⟩ := round_val (by decide) (by decide) hw hs
    exact ⟨r, r1, r2, fun r' hr' hne ht => tie_even (by decide) (by decide) hw r1 hr' hne ht⟩
  unfold entry
  by_cases c0 : isClose (alphaOf v) zero = true
  · obtain ⟨r, k1, k2, k3⟩ := key wa (hlim ha')
    rw [if_pos c0]
    have := close_zero l1 c0
    rw [abs_of_nonneg l2] at this
    exact ⟨r, al, a, k1, l5, l2, l3, k2, .inl ⟨c0, this, rfl⟩, k3⟩
  · rw [if_neg c0]
    by_cases c1 : isClose (alphaOf v) one = true
    · obtain ⟨r, k1, k2, k3⟩ := key wb (hlim hb')
      rw [if_pos c1]
      have := close_one l1 c1
      rw [abs_of_nonneg (by linarith)] at this
      exact ⟨r, al, b, k1, l5, l2, l3, k2, .inr (.inl ⟨c1, this, rfl⟩), k3⟩
    · rw [if_neg c1]
      obtain ⟨be, p, q, s, m1, m2, m3, m4, m5, m6⟩ := mixed_val l1 l2 l3 wa ha' wb hb'
      obtain ⟨r, k1, k2, k3⟩ := key m1 (mixed_lt m2 l2 l3 ha' hb')
      exact ⟨r, al, s, k1, l5, l2, l3, k2, .inr (.inr ⟨be, p, q, m2, m3, m4, m5, m6⟩), k3⟩

end Verif.Readme

namespace Verif.Readme
open Float Float.Spec Ieee Ieee.Spec Spec

/-! ### What the entries satisfy -/

theorem between {v : FV} {a b r al s : ℚ} (l0 : 0 ≤ al) (l1 : al ≤ 1)
    (ha : Has half a) (hb : Has half b) (hr : Round half s r)
    (h : isClose (alphaOf v) zero = true ∧ al < (2 : ℚ) ^ (-26 : ℤ) ∧ s = a ∨ isClose (alphaOf v) one = true ∧ 1 - al < (2 : ℚ) ^ (-16 : ℤ) ∧ s = b ∨
        ∃ be p q, Computed al a b be p q s ulp tiny ∧ Round double (1 - al) be ∧ Round double (be * a) p ∧ Round double (al * b) q ∧ Round double (p + q) s) :
    min a b ≤ r ∧ r ≤ max a b := by
  rcases h with ⟨_, _, rfl⟩ | ⟨_, _, rfl⟩ | ⟨be, p, q, C, _⟩
  · rw [hr.eq ha]; exact ⟨min_le_left _ _, le_max_left _ _⟩
  · rw [hr.eq hb]; exact ⟨min_le_right _ _, le_max_right _ _⟩
  · have hmin : Has half (min a b) := by rcases min_choice a b with h | h <;> rw [h] <;> assumption
    have hmax : Has half (max a b) := by rcases max_choice a b with h | h <;> rw [h] <;> assumption
    exact ⟨out_ge C l0 l1 hmin (min_le_left _ _) (min_le_right _ _) hr, out_le C l0 l1 hmax (le_max_left _ _) (le_max_right _ _) hr⟩

theorem convex_le {t a b M : ℚ} (h0 : 0 ≤ t) (h1 : t ≤ 1) (ha : |a| ≤ M) (hb : |b| ≤ M) : |(1 - t) * a + t * b| ≤ M := by
  refine (abs_add_le _ _).trans ?_
  rw [abs_mul, abs_mul, abs_of_nonneg (by linarith : 0 ≤ 1 - t), abs_of_nonneg h0]
  nlinarith

theorem accurate {v : FV} {t a b r al s : ℚ} (h0 : 0 ≤ t) (h1 : t ≤ 1) (l0 : 0 ≤ al) (l1 : al ≤ 1) (ht : Round single t al)
    (ha : Has half a) (hb : Has half b) (hr : Round half s r)
    (h : isClose (alphaOf v) zero = true ∧ al < (2 : ℚ) ^ (-26 : ℤ) ∧ s = a ∨ isClose (alphaOf v) one = true ∧ 1 - al < (2 : ℚ) ^ (-16 : ℤ) ∧ s = b ∨
        ∃ be p q, Computed al a b be p q s ulp tiny ∧ Round double (1 - al) be ∧ Round double (be * a) p ∧ Round double (al * b) q ∧ Round double (p + q) s) :
    |r - ((1 - t) * a + t * b)| ≤ ((2 : ℚ) ^ (-11 : ℤ) + (2 : ℚ) ^ (-22 : ℤ)) * max |a| |b| + (2 : ℚ) ^ (-24 : ℤ) := by
  obtain ⟨M, hM⟩ : ∃ M, M = max |a| |b| := ⟨_, rfl⟩
  have ha' : |a| ≤ M := by rw [hM]; exact le_max_left _ _
  have hb' : |b| ≤ M := by rw [hM]; exact le_max_right _ _
  have hM0 : 0 ≤ M := (abs_nonneg a).trans ha'
  have hM16 : M ≤ 2 ^ 16 := by
    rw [hM]; exact max_le (half_lt ha).le (half_lt hb).le
  rw [← hM]
  have herr := alpha_err h0 h1 ht
  have hbig : (2 : ℚ) ^ (-150 : ℤ) ≤ (2 : ℚ) ^ (-30 : ℤ) := zpow_le_zpow_right₀ (by norm_num) (by norm_num)
  have e24 : (2 : ℚ) ^ (-24 : ℤ) = 1 / 16777216 := by norm_num
  have e26 : (2 : ℚ) ^ (-26 : ℤ) = 1 / 67108864 := by norm_num
  have e16 : (2 : ℚ) ^ (-16 : ℤ) = 1 / 65536 := by norm_num
  have e30 : (2 : ℚ) ^ (-30 : ℤ) = 1 / 1073741824 := by norm_num
  have e11 : (2 : ℚ) ^ (-11 : ℤ) = 1 / 2048 := by norm_num
  have e22 : (2 : ℚ) ^ (-22 : ℤ) = 1 / 4194304 := by norm_num
  rw [e30] at hbig
  rw [e24] at herr
  have herr' : |al - t| ≤ 1 / 16777216 + 1 / 1073741824 := by nlinarith
  have hab : |b - a| ≤ 2 * M := (abs_sub b a).trans (by linarith)
  rw [e11, e22, e24]
  rcases h with ⟨_, hal, rfl⟩ | ⟨_, hal, rfl⟩ | ⟨be, p, q, C, _⟩
  · rw [hr.eq ha, show s - ((1 - t) * s + t * b) = -(t * (b - s)) by ring, abs_neg, abs_mul, abs_of_nonneg h0]
    rw [e26] at hal
    have := (abs_le.1 herr').1
    have ht' : t ≤ 1 / 8388608 := by linarith
    have : t * |b - s| ≤ 1 / 8388608 * (2 * M) := mul_le_mul ht' hab (abs_nonneg _) (by norm_num)
    linarith
  · rw [hr.eq hb, show s - ((1 - t) * a + t * s) = (1 - t) * (s - a) by ring, abs_mul, abs_of_nonneg (by linarith : 0 ≤ 1 - t)]
    rw [e16] at hal
    have := (abs_le.1 herr').2
    have ht' : 1 - t ≤ 1 / 32768 := by linarith
    have : (1 - t) * |s - a| ≤ 1 / 32768 * (2 * M) := mul_le_mul ht' hab (abs_nonneg _) (by norm_num)
    linarith
  · have hc := C.close l0 l1 ulp_small.1 tiny_small.1 ha' hb'
    have hu : ulp ≤ 1 / 2 ^ 50 := by unfold ulp; norm_num
    have hh : tiny ≤ (2 : ℚ) ^ (-60 : ℤ) := zpow_le_zpow_right₀ (by norm_num) (by norm_num)
    have e60 : (2 : ℚ) ^ (-60 : ℤ) = 1 / 2 ^ 60 := by norm_num
    rw [e60] at hh
    have h3 : 5 * ulp * M + (3 + M) * tiny ≤ 6 / 2 ^ 50 * M + 3 / 2 ^ 60 := by
      have k1 : ulp * M ≤ 1 / 2 ^ 50 * M := mul_le_mul_of_nonneg_right hu hM0
      have k2 : M * tiny ≤ M * (1 / 2 ^ 60) := mul_le_mul_of_nonneg_left hh hM0
      have k3 : M * (1 / 2 ^ 60) ≤ 1 / 2 ^ 50 * M := by rw [mul_comm]; exact mul_le_mul_of_nonneg_right (by norm_num) hM0
      nlinarith
    have hc := hc.trans h3
    have hs : |s| ≤ M + (6 / 2 ^ 50 * M + 3 / 2 ^ 60) := by
      have := abs_sub_abs_le_abs_sub s ((1 - al) * a + al * b)
      have := convex_le l0 l1 ha' hb'
      linarith
    have hrs := hr.err
    have p1 : (2 : ℚ) ^ (-(half.p : ℤ)) = 1 / 2048 := by
      have : half.p = 11 := by decide
      rw [this]; norm_num
    have p2 : (2 : ℚ) ^ (half.emin - 1) = 1 / 33554432 := by
      have : half.emin = -24 := by decide
      rw [this]; norm_num
    rw [p1, p2] at hrs
    have hal : |(al - t) * (b - a)| ≤ (1 / 16777216 + 1 / 1073741824) * (2 * M) := by
      rw [abs_mul]; exact mul_le_mul herr' hab (abs_nonneg _) (by norm_num)
    have : r - ((1 - t) * a + t * b) = (r - s) + (s - ((1 - al) * a + al * b)) + (al - t) * (b - a) := by ring
    rw [this]
    refine (abs_add_le _ _).trans ?_
    have g := abs_add_le (r - s) (s - ((1 - al) * a + al * b))
    have : 1 / 2048 * |s| ≤ 1 / 2048 * (M + (6 / 2 ^ 50 * M + 3 / 2 ^ 60)) := mul_le_mul_of_nonneg_left hs (by norm_num)
    linarith

/-- A float16 number is a multiple of `2^-24`. -/
theorem half_int {a : ℚ} (h : Has half a) : ∃ A : ℤ, a = A * (2 : ℚ) ^ (-24 : ℤ) ∧ |A| < 2 ^ 40 := by
  have hlt := half_lt h
  obtain ⟨m, e, h1, _, h3, _⟩ := h
  have he : (-24 : ℤ) ≤ e := h3
  have h2 : a = ((m * 2 ^ (e + 24).toNat : ℤ) : ℚ) * (2 : ℚ) ^ (-24 : ℤ) := by
    have : (2 : ℚ) ^ e = 2 ^ (e + 24).toNat * (2 : ℚ) ^ (-24 : ℤ) := by
      rw [← zpow_natCast, ← zpow_add₀ (by norm_num)]; congr 1; omega
    rw [h1, this]; push_cast; ring
  refine ⟨_, h2, ?_⟩
  generalize m * 2 ^ (e + 24).toNat = A at h2
  rw [h2, abs_mul, abs_of_pos (by positivity : (0 : ℚ) < 2 ^ (-24 : ℤ))] at hlt
  have : (|A| : ℚ) < 2 ^ 40 := by
    have e24 : (2 : ℚ) ^ (-24 : ℤ) = 1 / 2 ^ 24 := by norm_num
    rw [e24] at hlt
    rw [show (2 : ℚ) ^ 40 = 2 ^ 16 * 2 ^ 24 by norm_num]
    rw [mul_one_div, div_lt_iff₀ (by norm_num)] at hlt
    exact hlt
  exact_mod_cast this

theorem has_double {N e : ℤ} (h1 : |N| < 2 ^ 53) (h2 : -1000 ≤ e) (h3 : e ≤ 0) : Has double (N * (2 : ℚ) ^ e) := by
  refine ⟨N, e, rfl, h1, le_trans (by decide) h2, ?_⟩
  rw [abs_mul, abs_of_pos (by positivity : (0 : ℚ) < 2 ^ e)]
  have e1 : (2 : ℚ) ^ e ≤ 1 := by
    calc (2 : ℚ) ^ e ≤ (2 : ℚ) ^ (0 : ℤ) := zpow_le_zpow_right₀ (by norm_num) h3
      _ = 1 := zpow_zero _
  have e2 : (|N| : ℚ) < 2 ^ 53 := by exact_mod_cast h1
  have e3 : (2 : ℚ) ^ 53 ≤ (2 : ℚ) ^ double.emax := by
    rw [← zpow_natCast]; exact zpow_le_zpow_right₀ (by norm_num) (by decide)
  have e4 : (0 : ℚ) < 2 ^ e := by positivity
  have e5 := abs_nonneg (N : ℚ)
  nlinarith

theorem once {v : FV} {t a b al s : ℚ} {k j : ℕ} (hj : j ≤ 13) (htk : t = k / 2 ^ j) (h1 : t ≤ 1) (ht : Round single t al)
    (ha : Has half a) (hb : Has half b)
    (h : isClose (alphaOf v) zero = true ∧ al < (2 : ℚ) ^ (-26 : ℤ) ∧ s = a ∨ isClose (alphaOf v) one = true ∧ 1 - al < (2 : ℚ) ^ (-16 : ℤ) ∧ s = b ∨
        ∃ be p q, Computed al a b be p q s ulp tiny ∧ Round double (1 - al) be ∧ Round double (be * a) p ∧ Round double (al * b) q ∧ Round double (p + q) s) :
    s = (1 - t) * a + t * b := by
  have hpos : (0 : ℚ) < 2 ^ j := by positivity
  have hkj : k ≤ 2 ^ j := by
    rw [htk, div_le_one hpos] at h1
    exact_mod_cast h1
  have h213 : 2 ^ j ≤ 2 ^ 13 := Nat.pow_le_pow_right (by norm_num) hj
  have hz : (2 : ℚ) ^ (-(j : ℤ)) = 1 / 2 ^ j := by rw [zpow_neg, zpow_natCast]; simp
  have e1 : (2 : ℚ) ^ (-(j : ℤ)) * 2 ^ j = 1 := by rw [hz]; field_simp
  have hal : al = t := by
    apply ht.eq
    refine ⟨k, -j, ?_, ?_, ?_, ?_⟩
    · rw [htk, hz]; push_cast; ring
    · rw [abs_of_nonneg (by positivity)]
      have : single.p = 24 := by decide
      rw [this]
      have : k < 2 ^ 24 := by omega
      exact_mod_cast this
    · have : single.emin = -149 := by decide
      omega
    · have : single.emax = (128 : ℕ) := by decide
      rw [this, zpow_natCast, abs_of_nonneg (by rw [htk]; positivity)]
      exact lt_of_le_of_lt h1 (one_lt_pow₀ (by norm_num) (by norm_num))
  have h2j : (2 : ℚ) ^ j ≤ 2 ^ 13 := by exact_mod_cast h213
  rcases h with ⟨_, h2, rfl⟩ | ⟨_, h2, rfl⟩ | ⟨be, p, q, _, r1, r2, r3, r4⟩
  · have : k = 0 := by
      by_contra hk
      have hk1 : (1 : ℚ) ≤ k := by exact_mod_cast Nat.one_le_iff_ne_zero.2 hk
      rw [hal, htk, div_lt_iff₀ hpos] at h2
      have : (2 : ℚ) ^ (-26 : ℤ) * 2 ^ j ≤ (2 : ℚ) ^ (-26 : ℤ) * 2 ^ 13 := mul_le_mul_of_nonneg_left h2j (by positivity)
      have e : (2 : ℚ) ^ (-26 : ℤ) * 2 ^ 13 < 1 := by norm_num
      linarith
    rw [htk, this]; simp
  · have : k = 2 ^ j := by
      by_contra hk
      have hk1 : (k : ℚ) + 1 ≤ 2 ^ j := by exact_mod_cast (show k + 1 ≤ 2 ^ j by omega)
      have h3 : 1 / 2 ^ j ≤ 1 - t := by
        rw [htk, div_le_iff₀ hpos, sub_mul, div_mul_cancel₀ _ hpos.ne']; linarith
      have h4 : (1 : ℚ) / 2 ^ 13 ≤ 1 / 2 ^ j := one_div_le_one_div_of_le hpos h2j
      have e : (2 : ℚ) ^ (-16 : ℤ) < 1 / 2 ^ 13 := by norm_num
      rw [hal] at h2
      exact absurd (h4.trans h3) (not_le.2 (h2.trans e))
    have ht1 : t = 1 := by rw [htk, this]; push_cast; exact div_self hpos.ne'
    rw [ht1]; ring
  · rw [hal] at r1 r3
    obtain ⟨A, hA, hA2⟩ := half_int ha
    obtain ⟨B, hB, hB2⟩ := half_int hb
    have hk1 : (1 - t) = ((2 ^ j - k : ℤ) : ℚ) * (2 : ℚ) ^ (-(j : ℤ)) := by
      rw [htk, hz]; push_cast; field_simp
    have hk0 : (0 : ℤ) ≤ 2 ^ j - k := by
      have : (k : ℤ) ≤ 2 ^ j := by exact_mod_cast hkj
      linarith
    have hk0' : (2 : ℤ) ^ j - k ≤ 2 ^ 13 := by
      have : (2 : ℤ) ^ j ≤ 2 ^ 13 := by exact_mod_cast h213
      have : (0 : ℤ) ≤ k := by positivity
      linarith
    have hk3 : (k : ℤ) ≤ 2 ^ 13 := by exact_mod_cast hkj.trans h213
    have hbe : be = 1 - t := by
      apply r1.eq
      rw [hk1]
      refine has_double ?_ (by omega) (by omega)
      rw [abs_of_nonneg hk0]
      exact lt_of_le_of_lt hk0' (by norm_num)
    have hzz : (2 : ℚ) ^ (-(j : ℤ)) * (2 : ℚ) ^ (-24 : ℤ) = (2 : ℚ) ^ (-(j : ℤ) - 24) := by
      rw [← zpow_add₀ (by norm_num)]; congr 1
    have bd1 : |(2 ^ j - (k : ℤ)) * A| ≤ 2 ^ 13 * 2 ^ 40 - 1 := by
      rw [abs_mul, abs_of_nonneg hk0]
      have := abs_nonneg A
      nlinarith
    have bd2 : |(k : ℤ) * B| ≤ 2 ^ 13 * 2 ^ 40 - 1 := by
      rw [abs_mul, abs_of_nonneg (by positivity)]
      have := abs_nonneg B
      have : (0 : ℤ) ≤ k := by positivity
      nlinarith
    have hp : p = (1 - t) * a := by
      rw [hbe] at r2
      apply r2.eq
      have : (1 - t) * a = (((2 ^ j - (k : ℤ)) * A : ℤ) : ℚ) * (2 : ℚ) ^ (-(j : ℤ) - 24) := by
        rw [hk1, hA, ← hzz]; push_cast; ring
      rw [this]
      exact has_double (lt_of_le_of_lt bd1 (by norm_num)) (by omega) (by omega)
    have hq' : t * b = (((k : ℤ) * B : ℤ) : ℚ) * (2 : ℚ) ^ (-(j : ℤ) - 24) := by
      rw [htk, hB, ← hzz, hz]; push_cast; ring
    have hq : q = t * b := by
      apply r3.eq
      rw [hq']
      exact has_double (lt_of_le_of_lt bd2 (by norm_num)) (by omega) (by omega)
    rw [hp, hq] at r4
    apply r4.eq
    have : (1 - t) * a + t * b = (((2 ^ j - (k : ℤ)) * A + k * B : ℤ) : ℚ) * (2 : ℚ) ^ (-(j : ℤ) - 24) := by
      rw [hq', hk1, hA, ← hzz]; push_cast; ring
    rw [this]
    refine has_double ?_ (by omega) (by omega)
    have hA' := abs_lt.1 hA2
    have hB' := abs_lt.1 hB2
    have hk4 : (k : ℤ) ≤ 2 ^ j := by exact_mod_cast hkj
    have hk5 : (0 : ℤ) ≤ k := by positivity
    have h213' : (2 : ℤ) ^ j ≤ 2 ^ 13 := by exact_mod_cast h213
    have c1 : (2 ^ j - (k : ℤ)) * A ≤ (2 ^ j - k) * (2 ^ 40 - 1) := mul_le_mul_of_nonneg_left (by linarith [hA'.2]) hk0
    have c2 : (k : ℤ) * B ≤ k * (2 ^ 40 - 1) := mul_le_mul_of_nonneg_left (by linarith [hB'.2]) hk5
    have c3 : (2 ^ j - (k : ℤ)) * -(2 ^ 40 - 1) ≤ (2 ^ j - (k : ℤ)) * A := mul_le_mul_of_nonneg_left (by linarith [hA'.1]) hk0
    have c4 : (k : ℤ) * -(2 ^ 40 - 1) ≤ k * B := mul_le_mul_of_nonneg_left (by linarith [hB'.1]) hk5
    rw [abs_lt]
    constructor <;> nlinarith

end Verif.Readme
