import Verif.Model.Linear
import Verif.Proofs.LinearNum

/-!
# The errors of one method
-/
namespace Verif.Linear
open Float Float.Spec Ieee Ieee.Spec Spec Readme

/-- `q` approximates `v`; if numbers of size `s` are held exactly with unit `2^-g`, it is the same. -/
structure Good (n g : ℕ) (s v q : ℚ) : Prop where
  appr : Appr n s v q
  lt : s < 2 ^ 1000
  grid : s * 2 ^ g < 2 ^ 53 → ∃ V : ℤ, v = V / 2 ^ g
  exact : s * 2 ^ g < 2 ^ 53 → q = v

theorem has_of_grid {v s : ℚ} {g : ℕ} (h : ∃ V : ℤ, v = V / 2 ^ g) (hs : |v| ≤ s) (hlt : s * 2 ^ g < 2 ^ 53) (hg : g ≤ 1000) : Has double v := by
  obtain ⟨V, hV⟩ := h
  have e : v = V * (2 : ℚ) ^ (-(g : ℤ)) := by rw [hV, zpow_neg, zpow_natCast, div_eq_mul_inv]
  rw [e]
  refine has_double ?_ (by omega) (by omega)
  have hp : (0 : ℚ) < 2 ^ g := by positivity
  have : |(V : ℚ)| = |v| * 2 ^ g := by rw [hV, abs_div, abs_of_pos hp]; field_simp
  have h2 : |(V : ℚ)| < 2 ^ 53 := by
    rw [this]
    exact (mul_le_mul_of_nonneg_right hs hp.le).trans_lt hlt
  exact_mod_cast h2

theorem grid_le {v : ℚ} {g h : ℕ} (hv : ∃ V : ℤ, v = V / 2 ^ g) (hgh : g ≤ h) : ∃ V : ℤ, v = V / 2 ^ h := by
  obtain ⟨V, hV⟩ := hv
  obtain ⟨d, rfl⟩ := Nat.exists_eq_add_of_le hgh
  refine ⟨V * 2 ^ d, ?_⟩
  rw [hV, pow_add]
  push_cast
  field_simp

theorem grid_mul {v w : ℚ} {g h : ℕ} (hv : ∃ V : ℤ, v = V / 2 ^ g) (hw : ∃ W : ℤ, w = W / 2 ^ h) : ∃ V : ℤ, w * v = V / 2 ^ (g + h) := by
  obtain ⟨V, hV⟩ := hv
  obtain ⟨W, hW⟩ := hw
  refine ⟨W * V, ?_⟩
  rw [hV, hW, pow_add]
  push_cast
  field_simp

theorem grid_add {v w : ℚ} {g : ℕ} (hv : ∃ V : ℤ, v = V / 2 ^ g) (hw : ∃ W : ℤ, w = W / 2 ^ g) : ∃ V : ℤ, v + w = V / 2 ^ g := by
  obtain ⟨V, hV⟩ := hv
  obtain ⟨W, hW⟩ := hw
  refine ⟨V + W, ?_⟩
  rw [hV, hW]
  push_cast
  ring

theorem grid_neg {v : ℚ} {g : ℕ} (hv : ∃ V : ℤ, v = V / 2 ^ g) : ∃ V : ℤ, -v = V / 2 ^ g := by
  obtain ⟨V, hV⟩ := hv
  refine ⟨-V, ?_⟩
  rw [hV]
  push_cast
  ring

/-- A multiple of `2^-g` other than zero is at least that large. -/
theorem grid_ge {v : ℚ} {g : ℕ} (hv : ∃ V : ℤ, v = V / 2 ^ g) (h : v ≠ 0) : 1 ≤ |v| * 2 ^ g := by
  obtain ⟨V, hV⟩ := hv
  have hp : (0 : ℚ) < 2 ^ g := by positivity
  have h1 : |v| * 2 ^ g = |(V : ℚ)| := by rw [hV, abs_div, abs_of_pos hp]; field_simp
  rw [h1]
  have : V ≠ 0 := by rintro rfl; apply h; rw [hV]; simp
  exact_mod_cast Int.one_le_abs this

/-- Sizes with `eta` leave no room for too fine a grid. -/
theorem grid_bound {s : ℚ} {g : ℕ} (hs : eta ≤ s) (h : s * 2 ^ g < 2 ^ 53) : g ≤ 1000 := by
  by_contra hg
  have h1 : (2 : ℚ) ^ 1000 ≤ 2 ^ g := pow_le_pow_right₀ (by norm_num) (by omega)
  have h2 : eta * 2 ^ 1000 ≤ s * 2 ^ g := mul_le_mul hs h1 (by positivity) ((by unfold eta; positivity : (0 : ℚ) ≤ eta).trans hs)
  have h3 : eta * 2 ^ 1000 = 2 ^ 100 := by
    unfold eta
    rw [← zpow_natCast (2 : ℚ) 1000, ← zpow_add₀ (by norm_num), ← zpow_natCast (2 : ℚ) 100]
    norm_num
  have h4 : (2 : ℚ) ^ 53 < 2 ^ 100 := pow_lt_pow_right₀ (by norm_num) (by norm_num)
  linarith

theorem fadd_round {x y : FV} {a b : ℚ} (hx : val x = some a) (hy : val y = some b) (h : |a + b| < limit double) :
    ∃ r, val (fadd x y) = some r ∧ Round double (a + b) r := round_val (by decide) (by decide) (val_add hx hy) h

theorem fmul_round {x y : FV} {a b : ℚ} (hx : val x = some a) (hy : val y = some b) (h : |a * b| < limit double) :
    ∃ r, val (fmul x y) = some r ∧ Round double (a * b) r := round_val (by decide) (by decide) (val_mul hx hy) h

theorem single_lt {w : ℚ} (h : Has single w) : |w| < 2 ^ 128 := by
  obtain ⟨_, _, _, _, _, h4⟩ := h
  have : single.emax = (128 : ℕ) := by decide
  rw [this, zpow_natCast] at h4
  exact h4

theorem one_sub_lt {w : ℚ} (h : Has single w) : |1 + -w| < limit double := by
  have h1 := single_lt h
  have h2 : |1 + -w| ≤ 1 + |w| := by
    have := abs_add_le 1 (-w)
    rwa [abs_one, abs_neg] at this
  have hp : double.emax - double.p - 1 = (970 : ℕ) := by decide
  have he : double.emax = (1024 : ℕ) := by decide
  unfold limit
  rw [hp, he, zpow_natCast, zpow_natCast]
  have e2 : (2 : ℚ) ^ 1024 = 2 ^ 54 * 2 ^ 970 := by rw [← pow_add]
  have e3 : (2 : ℚ) ^ 129 ≤ 2 ^ 970 := pow_le_pow_right₀ (by norm_num) (by norm_num)
  rw [e2]
  have hpos : (0 : ℚ) < 2 ^ 970 := by positivity
  generalize (2 : ℚ) ^ 970 = A at e3 hpos ⊢
  norm_num at e3 h1
  linarith

/-- `1 - alpha` -/
theorem one_sub_appr {w be : ℚ} (h : Round double (1 + -w) be) (hw : ¬ NearOne w) : Appr 2 |1 - w| (1 - w) be := by
  have hge : (1 : ℚ) / 10 ^ 5 ≤ |1 - w| := by
    unfold NearOne at hw
    rw [abs_sub_comm] at hw
    have := not_le.1 hw
    linarith [show (0 : ℚ) < 1 / 10 ^ 8 by norm_num]
  refine ⟨le_rfl, ?_⟩
  have h1 := h.err64
  rw [← sub_eq_add_neg] at h1
  have h2 : (1 + ulp) ^ 2 - 1 = 2 * ulp + ulp * ulp := by ring
  rw [h2]
  have h3 : tiny ≤ ulp * |1 - w| := by
    refine le_trans ?_ (mul_le_mul_of_nonneg_left hge ulp_small.1)
    have : tiny ≤ (2 : ℚ) ^ (-100 : ℤ) := zpow_le_zpow_right₀ (by norm_num) (by norm_num)
    refine this.trans ?_
    unfold ulp
    norm_num
  have := mul_nonneg (mul_nonneg ulp_small.1 ulp_small.1) (abs_nonneg (1 - w))
  linarith

theorem mixed_good {al x y : FV} {w va sa a vb sb b : ℚ} {na ga nb gb j : ℕ} (hal : val al = some w) (hw : Has single w) (h0 : ¬ NearZero w)
    (h1 : ¬ NearOne w) (hj : ∃ z : ℤ, w = z / 2 ^ j) (hx : val x = some a) (hy : val y = some b) (ha : Good na ga sa va a) (hb : Good nb gb sb vb b)
    (hn : max na nb + 4 ≤ 2 ^ 50) (hs : |1 - w| * sa + |w| * sb + eta < 2 ^ 1000) :
    ∃ r, val (mixed al x y) = some r ∧
      Good (max na nb + 4) (max ga gb + j) (|1 - w| * sa + |w| * sb + eta) ((1 - w) * va + w * vb) r := by
  obtain ⟨e1, e2, e3, e4⟩ := eps_small
  have hsa := ha.appr.nonneg
  have hsb := hb.appr.nonneg
  have p1 := mul_nonneg (abs_nonneg (1 - w)) hsa
  have p2 := mul_nonneg (abs_nonneg w) hsb
  obtain ⟨be, b1, b2⟩ := fadd_round val_one (val_neg hal) (one_sub_lt hw)
  have A1 := (one_sub_appr b2 h1).mul ha.appr
  have A2 : Appr nb (|w| * sb) (w * vb) (w * b) := by
    have := (Appr.refl w).mul hb.appr
    rwa [zero_add] at this
  obtain ⟨p, q1, q2⟩ := fmul_round b1 hx (A1.lt (by omega) (lt_of_le_of_lt (by linarith) hs))
  obtain ⟨q, q3, q4⟩ := fmul_round hal hy (A2.lt (by omega) (lt_of_le_of_lt (by linarith) hs))
  have A3 := (A1.round q2).mono (m := max na nb + 3) (t := |1 - w| * sa + eps) (by omega) le_rfl
  have A4 := (A2.round q4).mono (m := max na nb + 3) (t := |w| * sb + eps) (by omega) le_rfl
  have A5 := A3.add A4
  obtain ⟨r, q5, q6⟩ := fadd_round q1 q3 (A5.lt (by omega) (lt_of_le_of_lt (by linarith) hs))
  have g1 : ∃ z : ℤ, 1 - w = z / 2 ^ j := by
    obtain ⟨z, hz⟩ := hj
    refine ⟨2 ^ j - z, ?_⟩
    rw [hz]
    push_cast
    field_simp
  suffices h : (|1 - w| * sa + |w| * sb + eta) * 2 ^ (max ga gb + j) < 2 ^ 53 →
      (∃ V : ℤ, (1 - w) * va + w * vb = V / 2 ^ (max ga gb + j)) ∧ r = (1 - w) * va + w * vb from
    ⟨r, q5, (A5.round q6).mono le_rfl (by linarith), hs, fun hx => (h hx).1, fun hx => (h hx).2⟩
  intro hx
  have hg := grid_bound (by linarith) hx
  have hP : (0 : ℚ) < 2 ^ (max ga gb + j) := by positivity
  have hw0 : w ≠ 0 := by
    rintro rfl
    exact h0 (by unfold NearZero; norm_num)
  have hw1 : 1 - w ≠ 0 := by
    intro h
    apply h1
    unfold NearOne
    rw [show w = 1 by linarith]
    norm_num
  -- the parts are as small as the whole
  have hl : |1 - w| * sa * 2 ^ (max ga gb + j) < 2 ^ 53 := lt_of_le_of_lt (mul_le_mul_of_nonneg_right (by linarith) hP.le) hx
  have hr : |w| * sb * 2 ^ (max ga gb + j) < 2 ^ 53 := lt_of_le_of_lt (mul_le_mul_of_nonneg_right (by linarith) hP.le) hx
  have part : ∀ {c s : ℚ} {g : ℕ}, 1 ≤ c * 2 ^ j → 0 ≤ s → g ≤ max ga gb → c * s * 2 ^ (max ga gb + j) < 2 ^ 53 → s * 2 ^ g < 2 ^ 53 := by
    intro c s g hc hs hg h
    refine lt_of_le_of_lt ?_ h
    have h1 : (2 : ℚ) ^ g ≤ 2 ^ (max ga gb) := pow_le_pow_right₀ (by norm_num) hg
    have h2 := mul_le_mul_of_nonneg_left h1 hs
    have h3 : 0 ≤ s * 2 ^ (max ga gb) := by positivity
    have h4 := mul_le_mul_of_nonneg_right hc h3
    have h5 : c * s * 2 ^ (max ga gb + j) = c * 2 ^ j * (s * 2 ^ (max ga gb)) := by rw [pow_add]; ring
    rw [h5]
    linarith
  have la := part (grid_ge g1 hw1) hsa (le_max_left _ _) hl
  have lb := part (grid_ge hj hw0) hsb (le_max_right _ _) hr
  have ea := ha.exact la
  have eb := hb.exact lb
  have ga' := ha.grid la
  have gb' := hb.grid lb
  subst ea eb
  have G1 : ∃ V : ℤ, (1 - w) * a = V / 2 ^ (max ga gb + j) := grid_mul (grid_le ga' (le_max_left _ _)) g1
  have G2 : ∃ V : ℤ, w * b = V / 2 ^ (max ga gb + j) := grid_mul (grid_le gb' (le_max_right _ _)) hj
  refine ⟨grid_add G1 G2, ?_⟩
  have ep : p = (1 - w) * a := by
    by_cases ha0 : a = 0
    · subst ha0
      rw [mul_zero] at q2 ⊢
      exact q2.eq (has_zero _)
    · have hbe : be = 1 - w := by
        rw [← sub_eq_add_neg] at b2
        refine b2.eq (has_of_grid (s := |1 - w|) g1 le_rfl ?_ (by omega))
        have h2 := grid_ge (grid_le ga' (le_max_left ga gb)) ha0
        have h3 : 1 ≤ sa * 2 ^ (max ga gb) := h2.trans (mul_le_mul_of_nonneg_right ha.appr.le (by positivity))
        have h4 := mul_le_mul_of_nonneg_left h3 (mul_nonneg (abs_nonneg (1 - w)) (pow_nonneg (by norm_num : (0 : ℚ) ≤ 2) j))
        refine lt_of_le_of_lt ?_ hl
        rw [mul_one] at h4
        refine h4.trans (le_of_eq ?_)
        rw [pow_add]; ring
      rw [hbe] at q2
      refine q2.eq (has_of_grid (s := |1 - w| * sa) G1 ?_ hl hg)
      rw [abs_mul]
      exact mul_le_mul_of_nonneg_left ha.appr.le (abs_nonneg _)
  have eq : q = w * b := by
    refine q4.eq (has_of_grid (s := |w| * sb) G2 ?_ hr hg)
    rw [abs_mul]
    exact mul_le_mul_of_nonneg_left hb.appr.le (abs_nonneg _)
  subst ep eq
  exact q6.eq (has_of_grid (grid_add G1 G2) ((A5.round q6).le.trans (by linarith)) hx hg)

theorem addcmul_good {A : Arith} (hA : A.Fma) {al x y : FV} {w va sa a vb sb b : ℚ} {na ga nb gb j : ℕ} (hal : val al = some w)
    (hj : ∃ z : ℤ, w = z / 2 ^ j) (hx : val x = some a) (hy : val y = some b) (ha : Good na ga sa va a) (hb : Good nb gb sb vb b)
    (hn : max na nb + 2 ≤ 2 ^ 50) (hs : sa + |w| * sb + eta < 2 ^ 1000) :
    ∃ r, val (A.addcmul x y al) = some r ∧ Good (max na nb + 2) (max ga gb + j) (sa + |w| * sb + eta) (va + w * vb) r := by
  obtain ⟨e1, e2, e3, e4⟩ := eps_small
  have hsa := ha.appr.nonneg
  have hsb := hb.appr.nonneg
  have p2 := mul_nonneg (abs_nonneg w) hsb
  have A2 : Appr nb (|w| * sb) (w * vb) (w * b) := by
    have := (Appr.refl w).mul hb.appr
    rwa [zero_add] at this
  have A2 : Appr nb (|w| * sb) (w * vb) (b * w) := by rw [mul_comm b]; exact A2
  have hP : (0 : ℚ) < 2 ^ (max ga gb + j) := by positivity
  -- when all is exact
  have hex : (sa + |w| * sb + eta) * 2 ^ (max ga gb + j) < 2 ^ 53 → a = va ∧ b * w = w * vb ∧ Has double (w * vb) ∧ Has double (va + w * vb) ∧
      ∃ V : ℤ, va + w * vb = V / 2 ^ (max ga gb + j) := by
    intro h
    have hg := grid_bound (by linarith) h
    have hl : sa * 2 ^ (max ga gb + j) < 2 ^ 53 := lt_of_le_of_lt (mul_le_mul_of_nonneg_right (by linarith) hP.le) h
    have hr : |w| * sb * 2 ^ (max ga gb + j) < 2 ^ 53 := lt_of_le_of_lt (mul_le_mul_of_nonneg_right (by linarith) hP.le) h
    have la : sa * 2 ^ ga < 2 ^ 53 := by
      refine lt_of_le_of_lt (mul_le_mul_of_nonneg_left ?_ hsa) hl
      exact pow_le_pow_right₀ (by norm_num) ((le_max_left _ _).trans (Nat.le_add_right _ _))
    have ea : a = va := ha.exact la
    have G1 : ∃ V : ℤ, va = V / 2 ^ (max ga gb + j) := grid_le (ha.grid la) ((le_max_left _ _).trans (Nat.le_add_right _ _))
    obtain ⟨eb, G2⟩ : b * w = w * vb ∧ ∃ V : ℤ, w * vb = V / 2 ^ (max ga gb + j) := by
      by_cases hw : w = 0
      · subst hw; exact ⟨by simp, 0, by simp⟩
      · have h1 := grid_ge hj hw
        have lb : sb * 2 ^ gb < 2 ^ 53 := by
          refine lt_of_le_of_lt ?_ hr
          have h2 : (2 : ℚ) ^ gb ≤ 2 ^ (max ga gb) := pow_le_pow_right₀ (by norm_num) (le_max_right _ _)
          have h3 := mul_le_mul_of_nonneg_left h2 hsb
          have h4 := mul_le_mul_of_nonneg_right h1 (by positivity : (0 : ℚ) ≤ sb * 2 ^ (max ga gb))
          have h5 : |w| * sb * 2 ^ (max ga gb + j) = |w| * 2 ^ j * (sb * 2 ^ (max ga gb)) := by rw [pow_add]; ring
          rw [h5]
          linarith
        exact ⟨by rw [hb.exact lb, mul_comm], grid_mul (grid_le (hb.grid lb) (le_max_right _ _)) hj⟩
    refine ⟨ea, eb, has_of_grid (s := |w| * sb) G2 A2.le hr hg, has_of_grid (grid_add G1 G2) ?_ h hg, grid_add G1 G2⟩
    have := abs_add_le va (w * vb)
    have := ha.appr.le
    have := A2.le
    linarith
  rcases hA x y al with hA | hA
  · rw [hA]
    obtain ⟨q, q3, q4⟩ := fmul_round hy hal (A2.lt (by omega) (lt_of_le_of_lt (by linarith) hs))
    have A3 := ha.appr.mono (m := max na nb + 1) (by omega) le_rfl
    have A4 := (A2.round q4).mono (m := max na nb + 1) (t := |w| * sb + eps) (by omega) le_rfl
    have A5 := A3.add A4
    obtain ⟨r, q5, q6⟩ := fadd_round hx q3 (A5.lt (by omega) (lt_of_le_of_lt (by linarith) hs))
    refine ⟨r, q5, (A5.round q6).mono le_rfl (by linarith), hs, fun h => (hex h).2.2.2.2, fun h => ?_⟩
    obtain ⟨h1, h2, h3, h4, _⟩ := hex h
    rw [h2] at q4
    rw [q4.eq h3, h1] at q6
    exact q6.eq h4
  · rw [hA]
    have A5 := (ha.appr.mono (m := max na nb) (by omega) le_rfl).add (A2.mono (m := max na nb) (by omega) le_rfl)
    obtain ⟨r, q5, q6⟩ := round_val (f := double) (by decide) (by decide) (val_add hx (val_mul hy hal)) (A5.lt (by omega) (lt_of_le_of_lt (by linarith) hs))
    refine ⟨r, q5, (A5.round q6).mono (by omega) (by linarith), hs, fun h => (hex h).2.2.2.2, fun h => ?_⟩
    obtain ⟨h1, h2, h3, h4, _⟩ := hex h
    rw [h2, h1] at q6
    exact q6.eq h4

theorem minus_good {x y : FV} {va sa a vb sb b : ℚ} {na ga nb gb : ℕ} (hx : val x = some a) (hy : val y = some b)
    (ha : Good na ga sa va a) (hb : Good nb gb sb vb b) (hn : max na nb + 1 ≤ 2 ^ 50) (hs : sa + sb + eta < 2 ^ 1000) :
    ∃ r, val (fadd x (Ieee.neg y)) = some r ∧ Good (max na nb + 1) (max ga gb) (sa + sb + eta) (va - vb) r := by
  obtain ⟨e1, e2, e3, e4⟩ := eps_small
  have hsa := ha.appr.nonneg
  have hsb := hb.appr.nonneg
  have A5 := (ha.appr.mono (m := max na nb) (by omega) le_rfl).add (hb.appr.neg.mono (m := max na nb) (by omega) le_rfl)
  obtain ⟨r, q5, q6⟩ := fadd_round hx (val_neg hy) (A5.lt (by omega) (lt_of_le_of_lt (by linarith) hs))
  have A6 := A5.round q6
  rw [← sub_eq_add_neg] at A6
  suffices h : (sa + sb + eta) * 2 ^ (max ga gb) < 2 ^ 53 → (∃ V : ℤ, va - vb = V / 2 ^ (max ga gb)) ∧ r = va - vb from
    ⟨r, q5, A6.mono le_rfl (by linarith), hs, fun hx => (h hx).1, fun hx => (h hx).2⟩
  intro h
  have hP : (0 : ℚ) < 2 ^ (max ga gb) := by positivity
  have hl : sa * 2 ^ (max ga gb) < 2 ^ 53 := lt_of_le_of_lt (mul_le_mul_of_nonneg_right (by linarith) hP.le) h
  have hr : sb * 2 ^ (max ga gb) < 2 ^ 53 := lt_of_le_of_lt (mul_le_mul_of_nonneg_right (by linarith) hP.le) h
  have la := lt_of_le_of_lt (mul_le_mul_of_nonneg_left (pow_le_pow_right₀ (by norm_num) (le_max_left ga gb)) hsa) hl
  have lb := lt_of_le_of_lt (mul_le_mul_of_nonneg_left (pow_le_pow_right₀ (by norm_num) (le_max_right ga gb)) hsb) hr
  have G3 := grid_add (grid_le (ha.grid la) (le_max_left ga gb)) (grid_neg (grid_le (hb.grid lb) (le_max_right ga gb)))
  rw [← sub_eq_add_neg] at G3
  rw [ha.exact la, hb.exact lb, ← sub_eq_add_neg] at q6
  refine ⟨G3, ?_⟩
  exact q6.eq (has_of_grid G3 (A6.le.trans (by linarith)) h (grid_bound (by linarith) h))

/-- A number that is given -/
theorem given_good {a : ℚ} {z : ℤ} {g : ℕ} (h : a = z / 2 ^ g) (hlt : |a| < 2 ^ 1000) : Good 0 g |a| a a :=
  ⟨Appr.refl a, hlt, fun _ => ⟨z, h⟩, fun _ => rfl⟩

end Verif.Linear
