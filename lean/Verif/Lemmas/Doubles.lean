import Verif.Model.Doubles
import Verif.Lemmas.Round
import Mathlib.Tactic.FieldSimp
import Mathlib.Tactic.Positivity

/-! Facts about rounding to doubles. -/

namespace QM

namespace Spec

/-- A number with at most 53 significant bits. -/
def IsDouble (x : ℚ) : Prop := ∃ m e : ℤ, |m| ≤ 2 ^ 53 ∧ x = m * (2 : ℚ) ^ e

end Spec

namespace Doubles

theorem zp (e : ℤ) : (0 : ℚ) < 2 ^ e := zpow_pos (by norm_num) e

/-- The unit in the last place. -/
def ulp (x : ℚ) : ℚ := 2 ^ (Int.log 2 |x| - 52)

theorem ulp_pos (x : ℚ) : 0 < ulp x := zp _

theorem fl_eq {x : ℚ} (hx : x ≠ 0) : fl x = (pyRound (x / ulp x) : ℚ) * ulp x := by
  unfold fl; rw [if_neg hx]; rfl

theorem fl_zero : fl 0 = 0 := by unfold fl; rw [if_pos rfl]

theorem ulp_le {x : ℚ} (hx : x ≠ 0) : 2 ^ 52 * ulp x ≤ |x| := by
  have h := Int.zpow_log_le_self (b := 2) (r := |x|) (by norm_num) (abs_pos.mpr hx)
  have e : (2 : ℚ) ^ 52 * ulp x = 2 ^ Int.log 2 |x| := by
    unfold ulp
    rw [← zpow_natCast (2 : ℚ) 52, ← zpow_add₀ (by norm_num)]
    congr 1; push_cast; ring
  rw [e]; exact_mod_cast h

theorem lt_ulp (x : ℚ) : |x| < 2 ^ 53 * ulp x := by
  have h := Int.lt_zpow_succ_log_self (b := 2) (by norm_num) |x|
  have e : (2 : ℚ) ^ 53 * ulp x = 2 ^ (Int.log 2 |x| + 1) := by
    unfold ulp
    rw [← zpow_natCast (2 : ℚ) 53, ← zpow_add₀ (by norm_num)]
    congr 1; push_cast; ring
  rw [e]; exact_mod_cast h

/-- A power of two that bounds a number in the right way is its unit in the last place. -/
theorem ulp_unique {x : ℚ} {e : ℤ} (h1 : 2 ^ 52 * (2 : ℚ) ^ e ≤ |x|) (h2 : |x| < 2 ^ 53 * (2 : ℚ) ^ e) :
    ulp x = 2 ^ e := by
  have hx : x ≠ 0 := by
    rintro rfl
    have := zp e
    rw [abs_zero] at h1
    nlinarith
  have g1 := ulp_le hx
  have g2 := lt_ulp x
  unfold ulp at *
  set l := Int.log 2 |x| - 52
  have k1 : (2 : ℚ) ^ e < 2 ^ (l + 1) := by
    rw [zpow_add₀ (by norm_num), zpow_one]; nlinarith
  have k2 : (2 : ℚ) ^ l < 2 ^ (e + 1) := by
    rw [zpow_add₀ (by norm_num), zpow_one]; nlinarith
  rw [zpow_lt_zpow_iff_right₀ (by norm_num)] at k1 k2
  congr 1; omega

theorem pyRound_nearest (a : ℚ) (n : ℤ) : |a - pyRound a| ≤ |a - n| := by
  have h := abs_pyRound_sub_le a
  rw [abs_sub_comm] at h
  rcases eq_or_ne n (pyRound a) with rfl | hne
  · exact le_rfl
  · have h1 : (1 : ℚ) ≤ |((n - pyRound a : ℤ) : ℚ)| := by
      have : 1 ≤ |n - pyRound a| := Int.one_le_abs (sub_ne_zero.mpr hne)
      exact_mod_cast this
    have h2 : |((n - pyRound a : ℤ) : ℚ)| ≤ |a - n| + |a - pyRound a| := by
      have : ((n - pyRound a : ℤ) : ℚ) = (a - pyRound a) - (a - n) := by push_cast; ring
      rw [this]
      calc _ ≤ |a - pyRound a| + |a - n| := abs_sub _ _
        _ = _ := add_comm _ _
    linarith

theorem fl_isDouble (x : ℚ) : Spec.IsDouble (fl x) := by
  rcases eq_or_ne x 0 with rfl | hx
  · exact ⟨0, 0, by norm_num, by rw [fl_zero]; simp⟩
  · refine ⟨pyRound (x / ulp x), Int.log 2 |x| - 52, ?_, fl_eq hx⟩
    have hu := ulp_pos x
    have h1 : |x / ulp x| ≤ 2 ^ 53 := by
      rw [abs_div, abs_of_pos hu, div_le_iff₀ hu]; exact (lt_ulp x).le
    rw [abs_le] at h1 ⊢
    have a1 := pyRound_mono h1.1
    have a2 := pyRound_mono h1.2
    have e1 : pyRound (-2 ^ 53) = -2 ^ 53 := by
      have := pyRound_int (-2 ^ 53); push_cast at this; exact this
    have e2 : pyRound (2 ^ 53) = 2 ^ 53 := by
      have := pyRound_int (2 ^ 53); push_cast at this; exact this
    rw [e1] at a1; rw [e2] at a2
    exact ⟨a1, a2⟩

/-- The rounded number is a nearest double. -/
theorem fl_nearest (x z : ℚ) (hz : Spec.IsDouble z) : |x - fl x| ≤ |x - z| := by
  rcases eq_or_ne x 0 with rfl | hx
  · rw [fl_zero, sub_zero, abs_zero]; exact abs_nonneg _
  have hu := ulp_pos x
  have h1 := ulp_le hx
  obtain ⟨m, e, hm, rfl⟩ := hz
  -- in units of the last place
  suffices h : |x / ulp x - pyRound (x / ulp x)| ≤ |x / ulp x - m * (2 : ℚ) ^ e / ulp x| by
    have k := mul_le_mul_of_nonneg_right h hu.le
    rw [← abs_of_pos hu, ← abs_mul, ← abs_mul, abs_of_pos hu] at k
    have hne := hu.ne'
    have e1 : x - (pyRound (x / ulp x) : ℚ) * ulp x = (x / ulp x - pyRound (x / ulp x)) * ulp x := by
      rw [sub_mul, div_mul_cancel₀ _ hne]
    have e2 : x - (m : ℚ) * 2 ^ e = (x / ulp x - m * (2 : ℚ) ^ e / ulp x) * ulp x := by
      rw [sub_mul, div_mul_cancel₀ _ hne, div_mul_cancel₀ _ hne]
    rw [fl_eq hx, e1, e2]
    exact k
  have hq : (m : ℚ) * 2 ^ e / ulp x = m * 2 ^ (e - (Int.log 2 |x| - 52)) := by
    unfold ulp; rw [mul_div_assoc, ← zpow_sub₀ (by norm_num)]
  rw [hq]
  set d := e - (Int.log 2 |x| - 52)
  set a := x / ulp x with ha
  have ha1 : (2 : ℚ) ^ 52 ≤ |a| := by
    rw [ha, abs_div, abs_of_pos hu, le_div_iff₀ hu]; exact h1
  rcases le_or_gt 0 d with hd | hd
  · -- a whole number of units
    obtain ⟨n, hn⟩ := Int.eq_ofNat_of_zero_le hd
    have : (m : ℚ) * 2 ^ d = ((m * 2 ^ n : ℤ) : ℚ) := by
      rw [hn]; push_cast; rw [zpow_natCast]
    rw [this]; exact pyRound_nearest _ _
  · -- a smaller number
    have hw : |(m : ℚ) * 2 ^ d| ≤ 2 ^ 52 := by
      rw [abs_mul, abs_of_pos (zp d)]
      have h3 : (2 : ℚ) ^ d ≤ 2 ^ (-1 : ℤ) := zpow_le_zpow_right₀ (by norm_num) (by omega)
      have h4 : |(m : ℚ)| ≤ 2 ^ 53 := by exact_mod_cast hm
      calc |(m : ℚ)| * 2 ^ d ≤ 2 ^ 53 * 2 ^ (-1 : ℤ) :=
            mul_le_mul h4 h3 (zp d).le (by norm_num)
        _ = 2 ^ 52 := by norm_num
    rw [abs_le] at hw
    rcases le_total 0 a with h0 | h0
    · rw [abs_of_nonneg h0] at ha1
      refine (pyRound_nearest a (2 ^ 52)).trans ?_
      push_cast
      rw [abs_of_nonneg (by linarith), abs_of_nonneg (by linarith)]
      linarith
    · rw [abs_of_nonpos h0] at ha1
      refine (pyRound_nearest a (-2 ^ 52)).trans ?_
      push_cast
      rw [abs_of_nonpos (by linarith), abs_of_nonpos (by linarith)]
      linarith

theorem fl_of_isDouble {x : ℚ} (hx : Spec.IsDouble x) : fl x = x := by
  have h := fl_nearest x x hx
  rw [sub_self, abs_zero] at h
  have := abs_nonpos_iff.mp h
  linarith

theorem fl_fl (x : ℚ) : fl (fl x) = fl x := fl_of_isDouble (fl_isDouble x)

/-- Whole numbers up to 2^53 are doubles. -/
theorem fl_int {n : ℤ} (h : |n| ≤ 2 ^ 53) : fl n = n := fl_of_isDouble ⟨n, 0, h, by simp⟩

theorem fl_nat {n : ℕ} (h : n ≤ 2 ^ 53) : fl n = n := by
  have := fl_int (n := n) (by rw [abs_of_nonneg (by positivity)]; exact_mod_cast h)
  exact_mod_cast this

/-- Relative error. -/
theorem fl_error (x : ℚ) : |fl x - x| ≤ |x| / 2 ^ 53 := by
  rcases eq_or_ne x 0 with rfl | hx
  · rw [fl_zero]; norm_num
  have hu := ulp_pos x
  have h1 := ulp_le hx
  have h2 := abs_pyRound_sub_le (x / ulp x)
  have h3 : |fl x - x| = |(pyRound (x / ulp x) : ℚ) - x / ulp x| * ulp x := by
    rw [fl_eq hx, ← abs_of_pos hu, ← abs_mul, abs_of_pos hu]
    congr 1; field_simp
  rw [h3, le_div_iff₀ (by norm_num)]
  nlinarith

theorem fl_mono {x y : ℚ} (h : x ≤ y) : fl x ≤ fl y := by
  by_contra hlt
  push Not at hlt
  have h1 := fl_nearest x (fl y) (fl_isDouble y)
  have h2 := fl_nearest y (fl x) (fl_isDouble x)
  have key1 : (fl x + fl y) / 2 ≤ x := by
    by_contra hc
    push Not at hc
    have : |x - fl y| < |x - fl x| := by
      rw [abs_of_nonpos (by linarith : x - fl x ≤ 0)]
      rw [abs_lt]; constructor <;> linarith
    linarith
  have key2 : y ≤ (fl x + fl y) / 2 := by
    by_contra hc
    push Not at hc
    have : |y - fl x| < |y - fl y| := by
      rw [abs_of_nonneg (by linarith : 0 ≤ y - fl y)]
      rw [abs_lt]; constructor <;> linarith
    linarith
  have : x = y := le_antisymm h (key2.trans key1)
  rw [this] at hlt
  exact lt_irrefl _ hlt

/-- Scaling by a power of two commutes with rounding. -/
theorem fl_scale (x : ℚ) (s : ℤ) : fl (x * 2 ^ s) = fl x * 2 ^ s := by
  rcases eq_or_ne x 0 with rfl | hx
  · rw [zero_mul, fl_zero, zero_mul]
  have hs := zp s
  have hxs : x * 2 ^ s ≠ 0 := mul_ne_zero hx hs.ne'
  have hu : ulp (x * 2 ^ s) = ulp x * 2 ^ s := by
    have e : ulp x * (2 : ℚ) ^ s = 2 ^ (Int.log 2 |x| - 52 + s) := by
      unfold ulp; rw [← zpow_add₀ (by norm_num)]
    rw [e]
    apply ulp_unique
    · rw [← e, abs_mul, abs_of_pos hs, ← mul_assoc]
      exact mul_le_mul_of_nonneg_right (ulp_le hx) hs.le
    · rw [← e, abs_mul, abs_of_pos hs, ← mul_assoc]
      exact mul_lt_mul_of_pos_right (lt_ulp x) hs
  rw [fl_eq hxs, fl_eq hx, hu]
  have : x * 2 ^ s / (ulp x * 2 ^ s) = x / ulp x := by
    have := (ulp_pos x).ne'
    field_simp
  rw [this]; ring

theorem pyRound_eq {q : ℚ} {n : ℤ} (h : |q - n| < 1 / 2) : pyRound q = n := by
  have h1 := abs_pyRound_sub_le q
  have h2 : |((pyRound q - n : ℤ) : ℚ)| < 1 := by
    have : ((pyRound q - n : ℤ) : ℚ) = (pyRound q - q) + (q - n) := by push_cast; ring
    rw [this]
    exact (abs_add_le _ _).trans_lt (by linarith)
  have h3 : |pyRound q - n| < 1 := by exact_mod_cast h2
  have := Int.abs_lt_one_iff.mp h3
  omega

/-- An even number is kept also at distance exactly one half. -/
theorem pyRound_even {q : ℚ} {n : ℤ} (hn : n % 2 = 0) (h : |q - n| ≤ 1 / 2) : pyRound q = n := by
  rw [abs_le] at h
  rcases lt_or_ge q n with hq | hq
  · -- from below
    rcases eq_or_lt_of_le h.1 with he | he
    · have hf : ⌊q⌋ = n - 1 := by
        rw [Int.floor_eq_iff]; push_cast; constructor <;> linarith
      unfold pyRound
      rw [hf]
      push_cast
      rw [if_neg (by linarith), if_neg (by linarith), if_neg (by omega)]
      omega
    · exact pyRound_eq (by rw [abs_lt]; constructor <;> linarith)
  · rcases eq_or_lt_of_le h.2 with he | he
    · have hf : ⌊q⌋ = n := by
        rw [Int.floor_eq_iff]; constructor <;> linarith
      unfold pyRound
      rw [hf, if_neg (by linarith), if_neg (by linarith), if_pos hn]
    · exact pyRound_eq (by rw [abs_lt]; constructor <;> linarith)

/-- A number with an even last bit attracts everything within half a unit, or a quarter of a unit
below a power of two. -/
theorem fl_near {m : ℤ} {e : ℤ} {d : ℚ} (hm : m % 2 = 0) (h1 : 2 ^ 52 ≤ m) (h2 : m < 2 ^ 53)
    (hd : |d| ≤ 2 ^ e / 4 ∨ |d| ≤ 2 ^ e / 2 ∧ m ≠ 2 ^ 52) : fl (m * (2 : ℚ) ^ e + d) = m * 2 ^ e := by
  have he := zp e
  have hm1 : (2 : ℚ) ^ 52 ≤ m := by exact_mod_cast h1
  have hm2 : (m : ℚ) ≤ 2 ^ 53 - 2 := by
    have : m ≤ 2 ^ 53 - 2 := by omega
    exact_mod_cast this
  have hd2 : |d| ≤ 2 ^ e / 2 := by
    rcases hd with hd | hd
    · linarith
    · exact hd.1
  have hdd := abs_le.mp hd2
  have hpos : 0 < m * (2 : ℚ) ^ e + d := by nlinarith
  rcases le_or_gt ((2 : ℚ) ^ 52 * 2 ^ e) (m * (2 : ℚ) ^ e + d) with hb | hb
  · have hu : ulp (m * (2 : ℚ) ^ e + d) = 2 ^ e := by
      apply ulp_unique
      · rw [abs_of_pos hpos]; exact hb
      · rw [abs_of_pos hpos]; nlinarith
    rw [fl_eq hpos.ne', hu, pyRound_even hm]
    have : (m * (2 : ℚ) ^ e + d) / 2 ^ e - m = d / 2 ^ e := by field_simp; ring
    rw [this, abs_div, abs_of_pos he, div_le_iff₀ he]
    linarith
  · -- just below a power of two
    have hmeq : m = 2 ^ 52 := by
      by_contra hne
      have : (2 : ℚ) ^ 52 + 2 ≤ m := by
        have : 2 ^ 52 + 2 ≤ m := by omega
        exact_mod_cast this
      nlinarith
    have hd4 : |d| ≤ 2 ^ e / 4 := by
      rcases hd with hd | hd
      · exact hd
      · exact absurd hmeq hd.2
    have hd4' := abs_le.mp hd4
    have hh : (2 : ℚ) ^ (e - 1) = 2 ^ e / 2 := by rw [zpow_sub₀ (by norm_num), zpow_one]
    have hmq : (m : ℚ) = 2 ^ 52 := by rw [hmeq]; norm_num
    have hu : ulp (m * (2 : ℚ) ^ e + d) = 2 ^ (e - 1) := by
      apply ulp_unique
      · rw [abs_of_pos hpos, hh, hmq]; nlinarith
      · rw [abs_of_pos hpos, hh]; nlinarith
    rw [fl_eq hpos.ne', hu, pyRound_even (n := 2 ^ 53) (by norm_num), hh, hmq]
    · push_cast; ring
    · have : (m * (2 : ℚ) ^ e + d) / 2 ^ (e - 1) - ((2 ^ 53 : ℤ) : ℚ) = d / (2 ^ e / 2) := by
        rw [hh, hmq]; push_cast; field_simp; ring
      have hhalf : (0 : ℚ) < 2 ^ e / 2 := by linarith
      rw [this, abs_div, abs_of_pos hhalf, div_le_iff₀ hhalf]
      linarith

/-- Kahan: dividing a whole number by 2^j + 1 and multiplying again gives the number back. -/
theorem fl_div_mul_succ {k : ℕ} (hk : k < 2 ^ 52) {j : ℕ} (hj : 1 ≤ j) :
    fl (fl ((k : ℚ) / (2 ^ j + 1)) * (2 ^ j + 1)) = k := by
  rcases Nat.eq_zero_or_pos k with rfl | hk0
  · simp [fl_zero]
  have hn : (0 : ℚ) < 2 ^ j + 1 := by positivity
  have hkq : (0 : ℚ) < k := by exact_mod_cast hk0
  have hk52 : (k : ℚ) < 2 ^ 52 := by exact_mod_cast hk
  set q := (k : ℚ) / (2 ^ j + 1) with hq
  have hq0 : 0 < q := div_pos hkq hn
  have hqn : q * (2 ^ j + 1) = k := by rw [hq]; field_simp
  have hqk : q ≤ k := by
    rw [← hqn]; nlinarith [show (0 : ℚ) < 2 ^ j by positivity]
  -- the unit of the quotient
  have hu := ulp_pos q
  have hu1 := ulp_le hq0.ne'
  rw [abs_of_pos hq0] at hu1
  obtain ⟨e, he⟩ : ∃ e : ℤ, ulp q = 2 ^ e := ⟨_, rfl⟩
  have he0 : e ≤ 0 := by
    by_contra hc
    push Not at hc
    have : (1 : ℚ) ≤ 2 ^ e := one_le_zpow₀ (by norm_num) hc.le
    rw [he] at hu1
    nlinarith
  -- the unit of the number
  obtain ⟨f, hf⟩ : ∃ f : ℤ, ulp (k : ℚ) = 2 ^ f := ⟨_, rfl⟩
  have hv1 := ulp_le hkq.ne'
  have hv2 := lt_ulp (k : ℚ)
  rw [abs_of_pos hkq, hf] at hv1 hv2
  have hf0 : f ≤ -1 := by
    by_contra hc
    push Not at hc
    have : (1 : ℚ) ≤ 2 ^ f := one_le_zpow₀ (by norm_num) (by omega)
    nlinarith
  obtain ⟨a, ha⟩ := Int.eq_ofNat_of_zero_le (show 0 ≤ -e by omega)
  obtain ⟨b, hb⟩ := Int.eq_ofNat_of_zero_le (show 0 ≤ -f - 1 by omega)
  have hua : ulp q * (2 : ℚ) ^ a = 1 := by
    rw [he, ← zpow_natCast, ← ha, ← zpow_add₀ (by norm_num)]; simp
  have hvb : (2 : ℚ) ^ f * (2 * 2 ^ b) = 1 := by
    rw [← zpow_natCast, ← hb, ← zpow_one_add₀ (by norm_num), ← zpow_add₀ (by norm_num)]
    have : f + (1 + (-f - 1)) = 0 := by ring
    rw [this, zpow_zero]
  -- the remainder of the rounded quotient
  set c := pyRound (q / ulp q) with hc
  have hqu : q / ulp q * (2 ^ j + 1) = k * 2 ^ a := by
    rw [div_mul_eq_mul_div, hqn, div_eq_iff hu.ne', mul_assoc, mul_comm ((2 : ℚ) ^ a), hua, mul_one]
  set D : ℤ := c * (2 ^ j + 1) - k * 2 ^ a with hD
  have hDq : (D : ℚ) = (c - q / ulp q) * (2 ^ j + 1) := by
    rw [sub_mul, hqu, hD]; push_cast; ring
  have hDabs : |(D : ℚ)| * 2 ≤ 2 ^ j + 1 := by
    rw [hDq, abs_mul, abs_of_pos hn]
    have := abs_pyRound_sub_le (q / ulp q)
    rw [← hc] at this
    nlinarith
  have hDint : |D| * 2 ≤ 2 ^ j + 1 := by exact_mod_cast hDabs
  have hDsmall : |D| * 2 ≤ 2 ^ j := by
    obtain ⟨j', rfl⟩ : ∃ j', j = j' + 1 := ⟨j - 1, by omega⟩
    rw [pow_succ] at hDint ⊢
    omega
  have hDs : |(D : ℚ)| * 2 ≤ 2 ^ j := by exact_mod_cast hDsmall
  -- the product
  have hprod : fl q * (2 ^ j + 1) = ((k * (2 * 2 ^ b) : ℕ) : ℤ) * (2 : ℚ) ^ f + D * ulp q := by
    rw [fl_eq hq0.ne', ← hc]
    have e1 : (((k * (2 * 2 ^ b) : ℕ) : ℤ) : ℚ) * (2 : ℚ) ^ f = k := by
      push_cast
      rw [mul_assoc, mul_comm (2 * (2 : ℚ) ^ b), hvb, mul_one]
    have e2 : (D : ℚ) * ulp q = c * ulp q * (2 ^ j + 1) - k := by
      rw [hD]; push_cast
      rw [sub_mul, mul_assoc (k : ℚ), mul_comm ((2 : ℚ) ^ a), hua, mul_one]
      ring
    rw [e1, e2]; ring
  have hkm : (((k * (2 * 2 ^ b) : ℕ) : ℤ) : ℚ) * (2 : ℚ) ^ f = k := by
    push_cast
    rw [mul_assoc, mul_comm (2 * (2 : ℚ) ^ b), hvb, mul_one]
  have hvpos := zp f
  rw [hprod, fl_near, hkm]
  · push_cast
    rw [← mul_assoc, mul_comm (k : ℤ) 2, mul_assoc]
    exact Int.mul_emod_right 2 _
  · have : (2 : ℚ) ^ 52 ≤ (((k * (2 * 2 ^ b) : ℕ) : ℤ) : ℚ) := by
      rw [← hkm] at hv1
      exact le_of_mul_le_mul_right hv1 hvpos
    exact_mod_cast this
  · have : (((k * (2 * 2 ^ b) : ℕ) : ℤ) : ℚ) < 2 ^ 53 := by
      rw [← hkm] at hv2
      exact lt_of_mul_lt_mul_right hv2 hvpos.le
    exact_mod_cast this
  · -- sizes of the units
    have hbig : 2 ^ 52 * (2 ^ j * ulp q) < k := by
      rw [← hqn]; nlinarith
    have hj2 : (2 : ℚ) ^ j * ulp q = 2 ^ ((j : ℤ) + e) := by
      rw [he, zpow_add₀ (by norm_num), zpow_natCast]
    have hle : (j : ℤ) + e < f + 1 := by
      rw [← zpow_lt_zpow_iff_right₀ (a := (2 : ℚ)) (by norm_num), ← hj2, zpow_add₀ (by norm_num), zpow_one]
      linarith
    have habs : |(D : ℚ) * ulp q| * 2 ≤ 2 ^ j * ulp q := by
      rw [abs_mul, abs_of_pos hu]; nlinarith
    rcases eq_or_lt_of_le (show (j : ℤ) + e ≤ f by omega) with heq | hlt
    · right
      rw [hj2, heq] at habs hbig
      refine ⟨by linarith, ?_⟩
      intro hm
      have : (((k * (2 * 2 ^ b) : ℕ) : ℤ) : ℚ) = 2 ^ 52 := by rw [hm]; norm_num
      rw [this] at hkm
      linarith
    · left
      have : (2 : ℚ) ^ ((j : ℤ) + e + 1) ≤ 2 ^ f := zpow_le_zpow_right₀ (by norm_num) (by omega)
      rw [zpow_add₀ (by norm_num), zpow_one, ← hj2] at this
      linarith

/-- Kahan: the same for any sum of two powers of two. -/
theorem fl_div_mul {k : ℕ} (hk : k < 2 ^ 52) (i j : ℕ) :
    fl (fl ((k : ℚ) / ((2 ^ i + 2 ^ j : ℕ) : ℚ)) * ((2 ^ i + 2 ^ j : ℕ) : ℚ)) = k := by
  have key : ∀ i d : ℕ, fl (fl ((k : ℚ) / ((2 ^ i * (2 ^ d + 1) : ℕ) : ℚ)) *
      ((2 ^ i * (2 ^ d + 1) : ℕ) : ℚ)) = k := by
    intro i d
    have e1 : (k : ℚ) / ((2 ^ i * (2 ^ d + 1) : ℕ) : ℚ) = (k : ℚ) / (2 ^ d + 1) * 2 ^ (-(i : ℤ)) := by
      rw [zpow_neg, zpow_natCast]; push_cast
      have : (2 : ℚ) ^ d + 1 ≠ 0 := by positivity
      field_simp
    rw [e1, fl_scale]
    have e2 : ∀ y : ℚ, y * (2 : ℚ) ^ (-(i : ℤ)) * ((2 ^ i * (2 ^ d + 1) : ℕ) : ℚ) = y * (2 ^ d + 1) := by
      intro y
      rw [zpow_neg, zpow_natCast]; push_cast
      field_simp
    rw [e2]
    rcases Nat.eq_zero_or_pos d with rfl | hd
    · have h2 : (2 : ℚ) ^ 0 + 1 = 2 ^ (1 : ℤ) := by norm_num
      rw [h2]
      have h3 : (k : ℚ) / 2 ^ (1 : ℤ) = k * 2 ^ (-1 : ℤ) := by rw [zpow_neg, div_eq_mul_inv]
      rw [h3, fl_scale, fl_fl, fl_scale, fl_nat (n := k) (by omega), mul_assoc, ← zpow_add₀ (by norm_num)]
      norm_num
    · exact fl_div_mul_succ hk hd
  rcases le_total i j with h | h
  · obtain ⟨d, rfl⟩ := Nat.exists_eq_add_of_le h
    have : 2 ^ i + 2 ^ (i + d) = 2 ^ i * (2 ^ d + 1) := by rw [pow_add]; ring
    rw [this]; exact key i d
  · obtain ⟨d, rfl⟩ := Nat.exists_eq_add_of_le h
    have : 2 ^ (j + d) + 2 ^ j = 2 ^ j * (2 ^ d + 1) := by rw [pow_add]; ring
    rw [this]; exact key j d

end Doubles

end QM
