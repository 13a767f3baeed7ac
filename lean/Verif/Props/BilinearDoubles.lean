import Verif.Model.BilinearDoubles
import Verif.Lemmas.Doubles
import Verif.Lemmas.Pads
import Mathlib.Tactic.Linarith
import Mathlib.Tactic.LinearCombination

/-!
# Traveltimes from the tables of NonLinLoc, in double precision: C168
-/

namespace QM

open QM.Doubles QM.Grid

/-- Bilinear interpolation between the four entries of a table around a point. -/
def Spec.interpolated (t : Table2) (i k : ℕ) (a b : ℚ) : ℚ :=
  (1 - b) * ((1 - a) * t.val i k + a * t.val (i + 1) k) + b * ((1 - a) * t.val i (k + 1) + a * t.val (i + 1) (k + 1))

namespace BilinearLemmas

open QM.BilinearDoubles

theorem fl_one : fl 1 = 1 := by
  have := fl_int (n := 1) (by norm_num)
  exact_mod_cast this

theorem fl_abs_le (x : ℚ) : |fl x| ≤ |x| * (1 + 1 / 2 ^ 53) := by
  have h := fl_error x
  have : |fl x| ≤ |fl x - x| + |x| := by
    have := abs_add_le (fl x - x) x
    rwa [sub_add_cancel] at this
  linarith

theorem fl_unit {x : ℚ} (h0 : 0 ≤ x) (h1 : x ≤ 1) : 0 ≤ fl x ∧ fl x ≤ 1 := by
  have a := fl_mono h0
  have b := fl_mono h1
  rw [fl_zero] at a
  rw [fl_one] at b
  exact ⟨a, b⟩

/-- The weighted mean, rounded. -/
theorem mix_error {c c' w T : ℚ} (hc : |c| ≤ T) (hc' : |c'| ≤ T) (h0 : 0 ≤ w) (h1 : w ≤ 1) :
    |mix c c' w - (c * (1 - w) + c' * w)| ≤ T / 2 ^ 49 := by
  have hT : 0 ≤ T := (abs_nonneg c).trans hc
  unfold mix
  set u := fl (1 - w) with hu
  set p := fl (c * u) with hp
  set q := fl (c' * w) with hq
  have e1 : |u - (1 - w)| ≤ 1 / 2 ^ 53 := by
    refine (fl_error _).trans ?_
    rw [abs_of_nonneg (by linarith)]
    apply div_le_div_of_nonneg_right _ (by norm_num)
    linarith
  obtain ⟨u0, u1⟩ := fl_unit (show (0 : ℚ) ≤ 1 - w by linarith) (by linarith)
  rw [← hu] at u0 u1
  have e2 : |p - c * u| ≤ T / 2 ^ 53 := by
    refine (fl_error _).trans ?_
    apply div_le_div_of_nonneg_right _ (by norm_num)
    rw [abs_mul, abs_of_nonneg u0]
    calc |c| * u ≤ T * 1 := mul_le_mul hc u1 u0 hT
      _ = T := mul_one _
  have e3 : |q - c' * w| ≤ T / 2 ^ 53 := by
    refine (fl_error _).trans ?_
    apply div_le_div_of_nonneg_right _ (by norm_num)
    rw [abs_mul, abs_of_nonneg h0]
    calc |c'| * w ≤ T * 1 := mul_le_mul hc' h1 h0 hT
      _ = T := mul_one _
  have e4 : |c * u - c * (1 - w)| ≤ T / 2 ^ 53 := by
    rw [← mul_sub, abs_mul]
    calc |c| * |u - (1 - w)| ≤ T * (1 / 2 ^ 53) := mul_le_mul hc e1 (abs_nonneg _) hT
      _ = T / 2 ^ 53 := by ring
  have e5 := fl_error (p + q)
  have e6 : |p + q| ≤ 4 * T := by
    have a1 : |c * u| ≤ T := by
      rw [abs_mul, abs_of_nonneg u0]
      calc |c| * u ≤ T * 1 := mul_le_mul hc u1 u0 hT
        _ = T := mul_one _
    have a2 : |c' * w| ≤ T := by
      rw [abs_mul, abs_of_nonneg h0]
      calc |c'| * w ≤ T * 1 := mul_le_mul hc' h1 h0 hT
        _ = T := mul_one _
    have b1 := abs_le.1 a1
    have b2 := abs_le.1 a2
    have b3 := abs_le.1 e2
    have b4 := abs_le.1 e3
    rw [abs_le]
    constructor <;> linarith
  have e7 : |fl (p + q) - (p + q)| ≤ 4 * T / 2 ^ 53 := e5.trans (by
    apply div_le_div_of_nonneg_right e6 (by norm_num))
  have b2 := abs_le.1 e2
  have b3 := abs_le.1 e3
  have b4 := abs_le.1 e4
  have b7 := abs_le.1 e7
  rw [abs_le]
  constructor <;> linarith

theorem mix_abs {c c' w T : ℚ} (hc : |c| ≤ T) (hc' : |c'| ≤ T) (h0 : 0 ≤ w) (h1 : w ≤ 1) :
    |mix c c' w| ≤ T * (1 + 1 / 2 ^ 49) := by
  have h := abs_le.1 (mix_error hc hc' h0 h1)
  have a := abs_le.1 hc
  have b := abs_le.1 hc'
  rw [abs_le]
  constructor <;> nlinarith

theorem mix_zero {c c' : ℚ} (hc : Spec.IsDouble c) : mix c c' 0 = c := by
  unfold mix
  rw [sub_zero, fl_one, mul_one, mul_zero, fl_zero, add_zero, fl_fl, fl_of_isDouble hc]

theorem get_in (t : Table2) {i k : ℤ} (hi : 0 ≤ i) (hi' : i < t.nx) (hk : 0 ≤ k) (hk' : k < t.nz) :
    t.get i k = .ok (t.val i.toNat k.toNat) := by
  unfold Table2.get npIndex
  rw [if_pos hi, if_pos hi', if_pos hk, if_pos hk']

theorem bilinear_in (t : Table2) {x0 z0 dx dz x z : ℚ} {i k : ℕ} (hi : index x x0 dx = i) (hk : index z z0 dz = k)
    (hi' : i + 1 < t.nx) (hk' : k + 1 < t.nz) :
    BilinearDoubles.bilinear t x0 z0 dx dz x z = .ok (mix (mix (t.val i k) (t.val (i + 1) k) (frac x dx))
      (mix (t.val i (k + 1)) (t.val (i + 1) (k + 1)) (frac x dx)) (frac z dz)) := by
  unfold BilinearDoubles.bilinear
  simp only [hi, hk]
  rw [get_in t (by omega) (by omega) (by omega) (by omega), get_in t (by omega) (by omega) (by omega) (by omega),
    get_in t (by omega) (by omega) (by omega) (by omega), get_in t (by omega) (by omega) (by omega) (by omega)]
  rfl

/-- A double next to a whole number that is a multiple of five. -/
theorem fl_near_nat {N : ℕ} (h0 : 0 < N) (hN : N ≤ 2 ^ 50) (h5 : 5 ∣ N) {x : ℚ} (hx : |x - N| ≤ N / 2 ^ 54) : fl x = N := by
  have hNq : (0 : ℚ) < N := by exact_mod_cast h0
  set l := Nat.log 2 N with hl
  have hl1 : 2 ^ l ≤ N := Nat.pow_log_le_self 2 h0.ne'
  have hl2 : N < 2 ^ (l + 1) := Nat.lt_pow_succ_log_self (by norm_num) N
  have hl50 : l ≤ 50 := by
    by_contra hc
    push Not at hc
    have : 2 ^ 51 ≤ 2 ^ l := Nat.pow_le_pow_right (by norm_num) hc
    omega
  have e2 : (2 : ℕ) ^ 52 = 2 ^ (52 - l) * 2 ^ l := by rw [← pow_add]; congr 1; omega
  have hm1 : 2 ^ 52 ≤ N * 2 ^ (52 - l) := by rw [e2, mul_comm]; exact Nat.mul_le_mul_right _ hl1
  have e3 : (2 : ℕ) ^ 53 = 2 ^ (l + 1) * 2 ^ (52 - l) := by rw [← pow_add]; congr 1; omega
  have hm2 : N * 2 ^ (52 - l) < 2 ^ 53 := by
    rw [e3]; exact Nat.mul_lt_mul_of_pos_right hl2 (by positivity)
  have hne : N * 2 ^ (52 - l) ≠ 2 ^ 52 := by
    intro hc
    have : 5 ∣ 2 ^ 52 := by rw [← hc]; exact Dvd.dvd.mul_right h5 _
    revert this
    decide
  have heven : 2 ∣ N * 2 ^ (52 - l) := Dvd.dvd.mul_left (dvd_pow_self 2 (by omega)) _
  have hz : ((N * 2 ^ (52 - l) : ℕ) : ℚ) * (2 : ℚ) ^ ((l : ℤ) - 52) = N := by
    push_cast
    rw [mul_assoc, ← zpow_natCast (2 : ℚ) (52 - l), ← zpow_add₀ (by norm_num)]
    have : ((52 - l : ℕ) : ℤ) + ((l : ℤ) - 52) = 0 := by omega
    rw [this, zpow_zero, mul_one]
  have hhalf : (N : ℚ) / 2 ^ 54 ≤ 2 ^ ((l : ℤ) - 52) / 2 := by
    have a : (N : ℚ) ≤ 2 ^ (l + 1) := by exact_mod_cast hl2.le
    have b : (2 : ℚ) ^ ((l : ℤ) - 52) = 2 ^ l / 2 ^ 52 := by
      rw [zpow_sub₀ (by norm_num), zpow_natCast]; norm_num
    rw [b]
    rw [pow_succ] at a
    have c : (0 : ℚ) < 2 ^ l := by positivity
    rw [div_div, div_le_div_iff₀ (by norm_num) (by norm_num)]
    nlinarith
  have key := fl_near (m := ((N * 2 ^ (52 - l) : ℕ) : ℤ)) (e := (l : ℤ) - 52) (d := x - N)
    (by omega) (by exact_mod_cast hm1) (by exact_mod_cast hm2)
    (Or.inr ⟨hx.trans hhalf, by exact_mod_cast hne⟩)
  have e : ((((N * 2 ^ (52 - l) : ℕ) : ℤ) : ℚ)) = ((N * 2 ^ (52 - l) : ℕ) : ℚ) := by push_cast; rfl
  rw [e, hz] at key
  have e9 : (N : ℚ) + (x - N) = x := by ring
  rw [e9] at key
  exact key

/-- The double nearest to 0.1. -/
def tenth : ℚ := 3602879701896397 / 2 ^ 55

theorem fl_tenth : fl (1 / 10) = tenth := by decide +kernel

theorem reread_tenth : reread (fl (1 / 10)) = tenth := by
  rw [fl_tenth]; decide +kernel

theorem reread_int {a : ℤ} (ha : |a| ≤ 2 ^ 30) : reread a = a := by
  unfold reread
  have : ((a : ℚ) * 1000000) = ((a * 1000000 : ℤ) : ℚ) := by push_cast; ring
  rw [this, pyRound_int]
  push_cast
  rw [mul_div_assoc, div_self (by norm_num), mul_one]
  exact fl_int (ha.trans (by norm_num))

theorem ten_tenth : 10 * tenth = 1 + 1 / 2 ^ 54 := by unfold tenth; norm_num

theorem div_tenth (n : ℚ) : n / tenth = 10 * n - 10 * n / (2 ^ 54 + 1) := by
  have : tenth = (1 + 1 / 2 ^ 54) / 10 := by rw [← ten_tenth]; ring
  rw [this]
  field_simp
  ring

/-- At whole kilometres the index is that of the depth itself … -/
theorem index_tenth {a b : ℤ} (hab : a ≤ b) (h : b - a ≤ 2 ^ 40) : index b a tenth = 10 * (b - a) := by
  unfold index
  have e1 : ((b : ℚ) - a) = ((b - a : ℤ) : ℚ) := by push_cast; rfl
  rw [e1, fl_int (by rw [abs_of_nonneg (by omega)]; omega)]
  obtain ⟨n, hn⟩ := Int.eq_ofNat_of_zero_le (show 0 ≤ b - a by omega)
  rw [hn]
  rcases Nat.eq_zero_or_pos n with h0 | h0
  · subst h0
    simp [fl_zero]
  · have key := fl_near_nat (N := 10 * n) (by omega) (by omega) ⟨2 * n, by ring⟩ (x := (((n : ℕ) : ℤ) : ℚ) / tenth) (by
      rw [div_tenth]
      push_cast
      have hn0 : (0 : ℚ) < n := by exact_mod_cast h0
      have : (10 * (n : ℚ) - 10 * n / (2 ^ 54 + 1) - 10 * n) = -(10 * n / (2 ^ 54 + 1)) := by ring
      rw [this, abs_neg, abs_of_pos (by positivity)]
      apply div_le_div_of_nonneg_left (by positivity) (by norm_num) (by norm_num))
    rw [key, Int.floor_natCast]
    push_cast
    rfl

/-- … but the fraction is almost one. -/
theorem frac_tenth {b : ℤ} (h1 : 1 ≤ b) (h2 : b ≤ 2 ^ 19) : 1 - 1 / 2 ^ 30 ≤ frac b tenth ∧ frac b tenth ≤ 1 := by
  have hb1 : (1 : ℚ) ≤ b := by exact_mod_cast h1
  have hb2 : (b : ℚ) ≤ 2 ^ 19 := by exact_mod_cast h2
  have ht : (0 : ℚ) < tenth := by unfold tenth; norm_num
  have hi : pyInt ((b : ℚ) / tenth) = 10 * b - 1 := by
    rw [Pads.pyInt_of_nonneg (by positivity), Int.floor_eq_iff, div_tenth]
    push_cast
    have e1 : 10 * (b : ℚ) / (2 ^ 54 + 1) ≤ 1 := by
      rw [div_le_one (by norm_num)]; linarith
    have e2 : 0 < 10 * (b : ℚ) / (2 ^ 54 + 1) := by positivity
    constructor <;> linarith
  have hr : BilinearDoubles.remainder (b : ℚ) tenth / tenth = 1 - 10 * b / (2 ^ 54 + 1) := by
    unfold BilinearDoubles.remainder
    simp only [hi]
    have e0 : (b : ℚ) - tenth * ((10 * b - 1 : ℤ) : ℚ) = tenth * (1 - 10 * b / (2 ^ 54 + 1)) := by
      have h := div_tenth (b : ℚ)
      rw [div_eq_iff ht.ne'] at h
      push_cast
      linear_combination h
    rw [e0]
    have e3 : 10 * (b : ℚ) / (2 ^ 54 + 1) ≤ 1 := by
      rw [div_le_one (by norm_num)]; linarith
    rw [if_neg (not_lt.2 (mul_nonneg ht.le (by linarith)))]
    rw [mul_comm, mul_div_assoc, div_self ht.ne', mul_one]
  have hs : 10 * (b : ℚ) / (2 ^ 54 + 1) ≤ 1 / 2 ^ 30 - 1 / 2 ^ 31 := by
    rw [div_le_iff₀ (by norm_num)]; linarith
  have hs0 : 0 ≤ 10 * (b : ℚ) / (2 ^ 54 + 1) := by positivity
  unfold frac
  rw [hr]
  have hu := fl_unit (x := 1 - 10 * (b : ℚ) / (2 ^ 54 + 1)) (by linarith) (by linarith)
  have he := fl_error (1 - 10 * (b : ℚ) / (2 ^ 54 + 1))
  rw [abs_of_nonneg (show 0 ≤ 1 - 10 * (b : ℚ) / (2 ^ 54 + 1) by linarith)] at he
  have he' := abs_le.1 he
  have : (1 - 10 * (b : ℚ) / (2 ^ 54 + 1)) / 2 ^ 53 ≤ 1 / 2 ^ 53 := by
    apply div_le_div_of_nonneg_right _ (by norm_num)
    linarith
  refine ⟨?_, hu.2⟩
  linarith [he'.1]

end BilinearLemmas

open QM.BilinearDoubles BilinearLemmas

/-- **C168 is violated** with the default spacing of 0.1 km: whatever NonLinLoc computed, every node at a whole number of
kilometres below sea level (the section starting at a whole number of kilometres too) is given the traveltime of the row of
the table 100 m deeper, although its own depth is a row of the table.  `rows j` is what the code makes of row `j` at the
distance of the node. -/
theorem C168_violated_default_spacing (t : Table2) (a b : ℤ) (hb : 1 ≤ b) (hb' : b ≤ 2 ^ 19) (ha : |a| ≤ 2 ^ 30) (hab : a ≤ b)
    (x : ℚ) (i : ℕ) (hx : index x 0 (fl (1 / 10)) = i) (hi : i + 1 < t.nx) (hz : 10 * (b - a) + 1 < t.nz)
    (rows : ℕ → ℚ) (hrows : ∀ j, rows j = mix (t.val i j) (t.val (i + 1) j) (frac x (fl (1 / 10))))
    (k : ℕ) (hk : (k : ℤ) = 10 * (b - a)) (T : ℚ) (hT : |rows k| ≤ T) (hT' : |rows (k + 1)| ≤ T) :
    ∃ v, nodeTime t a (fl (1 / 10)) x b = .ok v ∧ |v - rows (k + 1)| ≤ T / 2 ^ 28 := by
  have hT0 : 0 ≤ T := (abs_nonneg _).trans hT
  unfold nodeTime
  rw [reread_int ha, reread_tenth]
  rw [fl_tenth] at hx hrows
  have hba : b - a ≤ 2 ^ 40 := by
    have := (abs_le.1 ha).1
    omega
  rw [bilinear_in t hx ((index_tenth hab hba).trans hk.symm) hi (by omega), ← hrows, ← hrows]
  refine ⟨_, rfl, ?_⟩
  obtain ⟨w1, w2⟩ := frac_tenth hb hb'
  set w := frac (b : ℚ) tenth
  clear_value w
  have e := abs_le.1 (mix_error hT hT' (show 0 ≤ w by linarith [show (0 : ℚ) ≤ 1 - 1 / 2 ^ 30 by norm_num]) w2)
  have p := abs_le.1 hT
  have q := abs_le.1 hT'
  have h1 : (rows k - rows (k + 1)) * (1 - w) ≤ 2 * T / 2 ^ 30 := by
    calc (rows k - rows (k + 1)) * (1 - w) ≤ (2 * T) * (1 - w) := mul_le_mul_of_nonneg_right (by linarith) (by linarith)
      _ ≤ (2 * T) * (1 / 2 ^ 30) := mul_le_mul_of_nonneg_left (by linarith) (by linarith)
      _ = 2 * T / 2 ^ 30 := by ring
  have h2 : -(2 * T / 2 ^ 30) ≤ (rows k - rows (k + 1)) * (1 - w) := by
    have : (rows (k + 1) - rows k) * (1 - w) ≤ 2 * T / 2 ^ 30 := by
      calc (rows (k + 1) - rows k) * (1 - w) ≤ (2 * T) * (1 - w) := mul_le_mul_of_nonneg_right (by linarith) (by linarith)
        _ ≤ (2 * T) * (1 / 2 ^ 30) := mul_le_mul_of_nonneg_left (by linarith) (by linarith)
        _ = 2 * T / 2 ^ 30 := by ring
    linarith
  have e3 : T / 2 ^ 49 ≤ T / 2 ^ 30 := div_le_div_of_nonneg_left hT0 (by norm_num) (by norm_num)
  rw [abs_le]
  constructor
  · have : rows k * (1 - w) + rows (k + 1) * w - rows (k + 1) = (rows k - rows (k + 1)) * (1 - w) := by ring
    linarith [e.1]
  · have : rows k * (1 - w) + rows (k + 1) * w - rows (k + 1) = (rows k - rows (k + 1)) * (1 - w) := by ring
    linarith [e.2]

/-- **C168 is violated** where the top of the grid, printed with six decimals, is read back as a larger number: the nodes
at the top of the grid mix the entries of the deepest row of the table into their traveltimes. -/
theorem C168_violated_top (t : Table2) (z1 d : ℚ) (hd : 0 < reread d) (h : z1 < reread z1)
    (hs : reread z1 - z1 ≤ reread d / 2) (x : ℚ) (i : ℕ) (hx : index x 0 (reread d) = i) (hi : i + 1 < t.nx) (hz : 0 < t.nz)
    (rows : ℕ → ℚ) (hrows : ∀ j, rows j = mix (t.val i j) (t.val (i + 1) j) (frac x (reread d))) :
    nodeTime t z1 d x z1 = .ok (mix (rows (t.nz - 1)) (rows 0) (frac z1 (reread d))) := by
  have hneg : ∀ y : ℚ, y < 0 → fl y < 0 := by
    intro y hy
    have := (abs_le.1 (fl_error y)).2
    rw [abs_of_neg hy] at this
    have e : -y / 2 ^ 53 < -y := div_lt_self (by linarith) (by norm_num)
    linarith
  have hk : index z1 (reread z1) (reread d) = -1 := by
    unfold index
    rw [Int.floor_eq_iff]
    have h1 := hneg (z1 - reread z1) (by linarith)
    have h2 := hneg (fl (z1 - reread z1) / reread d) (div_neg_of_neg_of_pos h1 hd)
    have e : fl (-(reread d / 2)) = -(reread d / 2) := by
      have hdd : reread d = fl (reread d) := by unfold reread; rw [fl_fl]
      have k := fl_scale (reread d) (-1)
      obtain ⟨m, e, hm, he⟩ := fl_isDouble (reread d)
      rw [← hdd] at he
      apply fl_of_isDouble
      refine ⟨-m, e - 1, by rwa [abs_neg], ?_⟩
      rw [he, zpow_sub₀ (by norm_num)]
      push_cast
      ring
    have h3 : -(reread d / 2) ≤ fl (z1 - reread z1) := by
      rw [← e]; exact fl_mono (by linarith)
    have h4 : (-(1 / 2) : ℚ) ≤ fl (z1 - reread z1) / reread d := by
      rw [le_div_iff₀ hd]; linarith
    have h5 := fl_mono h4
    have e2 : fl (-(1 / 2)) = -(1 / 2) := by decide +kernel
    rw [e2] at h5
    push_cast
    constructor <;> linarith
  unfold nodeTime BilinearDoubles.bilinear
  simp only [hx, hk]
  have g : ∀ j : ℕ, j < t.nx → t.get j (-1) = .ok (t.val j (t.nz - 1)) := by
    intro j hj
    unfold Table2.get npIndex
    rw [if_pos (by omega), if_pos (by omega), if_neg (by omega), if_pos (by omega)]
    simp only [Int.toNat_natCast]
    congr 2
    omega
  have g0 : ∀ j : ℕ, j < t.nx → t.get j (-1 + 1) = .ok (t.val j 0) := by
    intro j hj
    have := get_in t (i := j) (k := -1 + 1) (by omega) (by omega) (by omega) (by omega)
    rw [this]; rfl
  have ei : ((i : ℤ) + 1) = ((i + 1 : ℕ) : ℤ) := by push_cast; rfl
  rw [ei, g i (by omega), g (i + 1) hi, g0 (i + 1) hi, g0 i (by omega), hrows, hrows]

/-- Such a grid: its top is 1200.4 m above sea level. -/
example : let z1 := fl (fl (-12004 / 10) / 1000)
    z1 < reread z1 ∧ reread z1 - z1 ≤ reread (fl (1 / 10)) / 2 ∧ 0 < reread (fl (1 / 10)) := by
  decide +kernel

/-- **C168** (partial: a spacing of 1, 1/2, …, 1/64 km, and coordinates that are multiples of it): a node that is a node of
the table is given exactly the entry of the table. -/
theorem C168_dyadic_partial (t : Table2) (n : ℕ) (hn : n ≤ 6) (a b : ℤ) (i k : ℕ) (ha : |a| ≤ 2 ^ 30) (hb : |b| ≤ 2 ^ 30)
    (hi' : i ≤ 2 ^ 30) (hk : (k : ℤ) = b - a) (hi : i + 1 < t.nx) (hz : k + 1 < t.nz) (ht : Spec.IsDouble (t.val i k)) :
    nodeTime t (a / 2 ^ n) (1 / 2 ^ n) (i / 2 ^ n) (b / 2 ^ n) = .ok (t.val i k) := by
  have h2 : (0 : ℚ) < 2 ^ n := by positivity
  have dbl : ∀ m : ℤ, |m| ≤ 2 ^ 53 → fl ((m : ℚ) / 2 ^ n) = m / 2 ^ n := by
    intro m hm
    apply fl_of_isDouble
    refine ⟨m, -n, hm, ?_⟩
    rw [zpow_neg, zpow_natCast]
    rfl
  have rr : ∀ m : ℤ, |m| ≤ 2 ^ 30 → reread ((m : ℚ) / 2 ^ n) = m / 2 ^ n := by
    intro m hm
    unfold reread
    have e : (1000000 : ℚ) = 2 ^ n * ((2 ^ (6 - n) * 5 ^ 6 : ℤ) : ℚ) := by
      push_cast
      rw [← mul_assoc, ← pow_add]
      have : n + (6 - n) = 6 := by omega
      rw [this]
      norm_num
    have e2 : (m : ℚ) / 2 ^ n * 1000000 = ((m * (2 ^ (6 - n) * 5 ^ 6) : ℤ) : ℚ) := by
      rw [e]
      push_cast
      field_simp
    rw [e2, pyRound_int, ← e2, mul_div_assoc, div_self (by norm_num), mul_one]
    exact dbl m (hm.trans (by norm_num))
  have idx : ∀ p q : ℤ, |p| ≤ 2 ^ 30 → |q| ≤ 2 ^ 30 → index ((p : ℚ) / 2 ^ n) (q / 2 ^ n) (1 / 2 ^ n) = p - q := by
    intro p q hp hq
    unfold index
    have hpq : |p - q| ≤ 2 ^ 53 := by
      have := abs_sub p q
      omega
    have e : (p : ℚ) / 2 ^ n - q / 2 ^ n = ((p - q : ℤ) : ℚ) / 2 ^ n := by push_cast; ring
    rw [e, dbl _ hpq]
    have e2 : ((p - q : ℤ) : ℚ) / 2 ^ n / (1 / 2 ^ n) = ((p - q : ℤ) : ℚ) := by field_simp
    rw [e2, fl_int hpq, Int.floor_intCast]
  have fr : ∀ p : ℤ, frac ((p : ℚ) / 2 ^ n) (1 / 2 ^ n) = 0 := by
    intro p
    unfold frac BilinearDoubles.remainder
    have e2 : (p : ℚ) / 2 ^ n / (1 / 2 ^ n) = p := by field_simp
    simp only [e2, Pads.pyInt_intCast]
    have e3 : (p : ℚ) / 2 ^ n - 1 / 2 ^ n * p = 0 := by ring
    rw [e3, if_neg (lt_irrefl _), zero_div, fl_zero]
  have r1 := rr 1 (by norm_num)
  rw [Int.cast_one] at r1
  unfold nodeTime
  rw [rr a ha, r1]
  have e0 : ((0 : ℤ) : ℚ) / 2 ^ n = 0 := by simp
  have ix := idx i 0 (by rw [abs_of_nonneg (by omega)]; omega) (by norm_num)
  rw [e0, sub_zero] at ix
  have fx := fr i
  rw [Int.cast_natCast] at ix fx
  rw [bilinear_in t (i := i) (k := k) ix ((idx b a hb ha).trans hk.symm) hi hz, fx, fr b]
  have : mix (t.val i k) (t.val (i + 1) k) 0 = t.val i k := mix_zero ht
  rw [this, mix_zero ht]

namespace BilinearLemmas

/-- One coordinate between two nodes of the table. -/
theorem axis {x x0 d e a : ℚ} {M k : ℤ} (hd : 0 < d) (he : 1 / 2 ^ 18 ≤ e) (ha : e ≤ a) (ha' : a ≤ 1 - e)
    (hx : x = x0 + (k + a) * d) (hM : |x0 / d - M| ≤ e / 4) (hk : |(k : ℚ)| ≤ 2 ^ 30) :
    index x x0 d = k ∧ |frac x d - a| ≤ e / 2 ∧ 0 ≤ frac x d ∧ frac x d ≤ 1 := by
  have hq : (x - x0) / d = k + a := by rw [hx]; field_simp; ring
  have hk' := abs_le.1 hk
  have hM' := abs_le.1 hM
  refine ⟨?_, ?_⟩
  · unfold index
    have h1 := abs_le.1 (fl_error (x - x0))
    have habs : |x - x0| = |(k : ℚ) + a| * d := by
      have : x - x0 = (k + a) * d := by rw [hx]; ring
      rw [this, abs_mul, abs_of_pos hd]
    have hka : |(k : ℚ) + a| ≤ 2 ^ 31 := by rw [abs_le]; constructor <;> linarith
    have h2 : |fl (x - x0) / d - (k + a)| ≤ 1 / 2 ^ 22 := by
      rw [← hq, ← sub_div, abs_div, abs_of_pos hd, div_le_iff₀ hd]
      calc |fl (x - x0) - (x - x0)| ≤ |x - x0| / 2 ^ 53 := fl_error _
        _ = |(k : ℚ) + a| * d / 2 ^ 53 := by rw [habs]
        _ ≤ 2 ^ 31 * d / 2 ^ 53 := by
          apply div_le_div_of_nonneg_right _ (by norm_num)
          exact mul_le_mul_of_nonneg_right hka hd.le
        _ = 1 / 2 ^ 22 * d := by ring
    set y := fl (x - x0) / d
    have h2' := abs_le.1 h2
    have hka' := abs_le.1 hka
    have h3 := fl_error y
    have h4 : |y| / 2 ^ 53 ≤ 1 / 2 ^ 21 := by
      have : |y| ≤ 2 ^ 32 := by rw [abs_le]; constructor <;> linarith
      rw [div_le_iff₀ (by norm_num)]
      linarith
    have h3' := abs_le.1 (h3.trans h4)
    rw [Int.floor_eq_iff]
    constructor <;> linarith
  · set f := a + (x0 / d - M) with hf
    have hf0 : 0 < f := by linarith
    have hf1 : f < 1 := by linarith
    have hxd : x / d = ((k + M : ℤ) : ℚ) + f := by
      have : x / d = (x - x0) / d + x0 / d := by rw [← add_div]; congr 1; ring
      rw [this, hq, hf]
      push_cast
      ring
    have hfl : ⌊x / d⌋ = k + M := by
      rw [hxd, Int.floor_eq_iff]
      constructor <;> linarith
    have hrem : |BilinearDoubles.remainder x d / d - f| ≤ 1 / 2 ^ 53 ∧ 0 ≤ BilinearDoubles.remainder x d / d ∧
        BilinearDoubles.remainder x d / d ≤ 1 + 1 / 2 ^ 53 := by
      unfold BilinearDoubles.remainder
      simp only
      rcases le_or_gt 0 (x / d) with h0 | h0
      · have e1 : pyInt (x / d) = k + M := by rw [Pads.pyInt_of_nonneg h0, hfl]
        rw [e1]
        have e2 : x - d * ((k + M : ℤ) : ℚ) = f * d := by
          have : x = x / d * d := by field_simp
          rw [hxd] at this
          linarith
        rw [e2, if_neg (not_lt.2 (by positivity)), mul_div_assoc, div_self hd.ne', mul_one, sub_self, abs_zero]
        exact ⟨by norm_num, hf0.le, by linarith [show (0 : ℚ) < 1 / 2 ^ 53 by norm_num]⟩
      · have e1 : pyInt (x / d) = k + M + 1 := by
          unfold pyInt
          rw [if_neg (not_le.2 h0), Int.ceil_eq_iff, hxd]
          push_cast
          constructor <;> linarith
        rw [e1]
        have e2 : x - d * ((k + M + 1 : ℤ) : ℚ) = (f - 1) * d := by
          have : x = x / d * d := by field_simp
          rw [hxd] at this
          push_cast at this ⊢
          linarith
        rw [e2, if_pos (mul_neg_of_neg_of_pos (by linarith) hd)]
        have e3 : (f - 1) * d + d = f * d := by ring
        rw [e3]
        have h3 := fl_error (f * d)
        rw [abs_of_pos (mul_pos hf0 hd) (a := f * d)] at h3
        have h4 : |fl (f * d) / d - f| ≤ f / 2 ^ 53 := by
          have : fl (f * d) / d - f = (fl (f * d) - f * d) / d := by field_simp
          rw [this, abs_div, abs_of_pos hd, div_le_iff₀ hd]
          linarith
        have h5 : f / 2 ^ 53 ≤ 1 / 2 ^ 53 := div_le_div_of_nonneg_right hf1.le (by norm_num)
        have h6 := abs_le.1 (h4.trans h5)
        have h7 : 0 ≤ fl (f * d) := by
          have := fl_mono (show 0 ≤ f * d by positivity)
          rwa [fl_zero] at this
        exact ⟨h4.trans h5, by positivity, by linarith [h6.2]⟩
    obtain ⟨r1, r2, r3⟩ := hrem
    unfold frac
    set r := BilinearDoubles.remainder x d / d
    have r1' := abs_le.1 r1
    have h3 := fl_error r
    have h4 : |r| / 2 ^ 53 ≤ 1 / 2 ^ 52 := by
      rw [abs_of_nonneg r2, div_le_iff₀ (by norm_num)]
      linarith
    have h3' := abs_le.1 (h3.trans h4)
    have hM2 : |f - a| ≤ e / 4 := by rw [hf]; simpa using hM
    have hM2' := abs_le.1 hM2
    have hu := fl_unit r2 (show r ≤ 1 by linarith)
    refine ⟨?_, hu⟩
    rw [abs_le]
    constructor <;> linarith

theorem mix_close {c c' w a T e : ℚ} (hc : |c| ≤ T) (hc' : |c'| ≤ T) (h0 : 0 ≤ w) (h1 : w ≤ 1) (hw : |w - a| ≤ e) :
    |mix c c' w - ((1 - a) * c + a * c')| ≤ T / 2 ^ 49 + 2 * T * e := by
  have hT : 0 ≤ T := (abs_nonneg c).trans hc
  have h := mix_error hc hc' h0 h1
  have : mix c c' w - ((1 - a) * c + a * c') = (mix c c' w - (c * (1 - w) + c' * w)) + (c' - c) * (w - a) := by ring
  rw [this]
  refine (abs_add_le _ _).trans (add_le_add h ?_)
  rw [abs_mul]
  have h2 : |c' - c| ≤ 2 * T := (abs_sub _ _).trans (by linarith)
  exact mul_le_mul h2 hw (abs_nonneg _) (by linarith)

end BilinearLemmas

/-- **C168** (partial: a node that is not within a fraction `e` of a cell of a line of the table, where the start of the
section is a line of the table counted from depth zero to within a quarter of that): the traveltime is the bilinear
interpolation of the four entries around the node, to within `3 e` of the largest. -/
theorem C168_between_nodes_partial (t : Table2) (z1 d x z e : ℚ) (hd : 0 < reread d) (he : 1 / 2 ^ 18 ≤ e)
    (i k : ℕ) (a b : ℚ) (ha : e ≤ a) (ha' : a ≤ 1 - e) (hb : e ≤ b) (hb' : b ≤ 1 - e)
    (hx : x = (i + a) * reread d) (hz : z = reread z1 + (k + b) * reread d)
    (M : ℤ) (hM : |reread z1 / reread d - M| ≤ e / 4) (hi : i ≤ 2 ^ 30) (hk : k ≤ 2 ^ 30)
    (hi' : i + 1 < t.nx) (hk' : k + 1 < t.nz) (T : ℚ)
    (hT : ∀ i' ∈ [i, i + 1], ∀ k' ∈ [k, k + 1], |t.val i' k'| ≤ T) :
    ∃ v, nodeTime t z1 d x z = .ok v ∧ |v - Spec.interpolated t i k a b| ≤ 3 * e * T := by
  have hkq : |((k : ℤ) : ℚ)| ≤ 2 ^ 30 := by
    rw [abs_of_nonneg (by positivity)]; exact_mod_cast hk
  have hiq : |((i : ℤ) : ℚ)| ≤ 2 ^ 30 := by
    rw [abs_of_nonneg (by positivity)]; exact_mod_cast hi
  obtain ⟨ix, wx, wx0, wx1⟩ := axis (x := x) (x0 := 0) (M := 0) (k := i) hd he ha ha' (by rw [hx]; push_cast; ring)
    (by simp; linarith [show (0 : ℚ) < 1 / 2 ^ 18 by norm_num]) hiq
  obtain ⟨iz, wz, wz0, wz1⟩ := axis (x := z) (x0 := reread z1) (M := M) (k := k) hd he hb hb' (by rw [hz]; push_cast; ring) hM hkq
  unfold nodeTime
  rw [bilinear_in t ix iz hi' hk']
  refine ⟨_, rfl, ?_⟩
  simp only [List.mem_cons, List.not_mem_nil, or_false, forall_eq_or_imp, forall_eq] at hT
  obtain ⟨⟨t00, t01⟩, t10, t11⟩ := hT
  set w := frac x (reread d)
  set w' := frac z (reread d)
  clear_value w w'
  have hT0 : 0 ≤ T := (abs_nonneg _).trans t00
  have c0 := mix_close t00 t10 wx0 wx1 wx
  have c1 := mix_close t01 t11 wx0 wx1 wx
  have b0 := mix_abs t00 t10 wx0 wx1
  have b1 := mix_abs t01 t11 wx0 wx1
  have c := mix_close b0 b1 wz0 wz1 wz
  set m0 := mix (t.val i k) (t.val (i + 1) k) w
  set m1 := mix (t.val i (k + 1)) (t.val (i + 1) (k + 1)) w
  have hb0 : 0 ≤ b := by linarith [show (0 : ℚ) < 1 / 2 ^ 18 by norm_num]
  have hb1 : 0 ≤ 1 - b := by linarith [show (0 : ℚ) < 1 / 2 ^ 18 by norm_num]
  unfold Spec.interpolated
  set s0 := (1 - a) * t.val i k + a * t.val (i + 1) k
  set s1 := (1 - a) * t.val i (k + 1) + a * t.val (i + 1) (k + 1)
  have h1 : |(1 - b) * m0 + b * m1 - ((1 - b) * s0 + b * s1)| ≤ T / 2 ^ 49 + 2 * T * (e / 2) := by
    have : (1 - b) * m0 + b * m1 - ((1 - b) * s0 + b * s1) = (1 - b) * (m0 - s0) + b * (m1 - s1) := by ring
    rw [this]
    refine (abs_add_le _ _).trans ?_
    rw [abs_mul, abs_mul, abs_of_nonneg hb0, abs_of_nonneg hb1]
    calc (1 - b) * |m0 - s0| + b * |m1 - s1|
        ≤ (1 - b) * (T / 2 ^ 49 + 2 * T * (e / 2)) + b * (T / 2 ^ 49 + 2 * T * (e / 2)) :=
          add_le_add (mul_le_mul_of_nonneg_left c0 hb1) (mul_le_mul_of_nonneg_left c1 hb0)
      _ = _ := by ring
  have h2 := abs_le.1 h1
  have h3 := abs_le.1 c
  have e1 : T * (1 + 1 / 2 ^ 49) / 2 ^ 49 + 2 * (T * (1 + 1 / 2 ^ 49)) * (e / 2) + (T / 2 ^ 49 + 2 * T * (e / 2)) ≤ 3 * e * T := by
    have : 0 ≤ T * (3 * e - ((1 + 1 / 2 ^ 49) / 2 ^ 49 + 2 * (1 + 1 / 2 ^ 49) * (e / 2) + (1 / 2 ^ 49 + 2 * (e / 2)))) := by
      apply mul_nonneg hT0
      linarith
    linarith
  rw [abs_le]
  constructor <;> linarith

/-- A table whose entries are the number of their row. -/
def exRows : Table2 := ⟨6, 40, fun _ k => k⟩

/-- Below the station, with the section starting at sea level: at a depth of 1 km (row 10) the node gets the traveltime of
row 11, at 0.5 km (row 5) that of row 6 (to within 1e-15). -/
example : index 0 0 (fl (1 / 10)) = 0 ∧ (nodeTime exRows 0 (fl (1 / 10)) 0 1 = .ok 11) ∧
    nodeTime exRows 0 (fl (1 / 10)) 0 (1 / 2) = .ok (6 - 1 / 2 ^ 50) := by decide +kernel

/-- With a spacing of 1/8 km it gets that of row 8, its own. -/
example : nodeTime exRows 0 (1 / 8) 0 1 = .ok 8 := by decide +kernel

/-- A node half-way between four nodes of the table. -/
example : 0 < reread (fl (1 / 10)) ∧ (1 / 2 ^ 18 : ℚ) ≤ 1 / 4 ∧ |reread 0 / reread (fl (1 / 10)) - (0 : ℤ)| ≤ (1 / 4 : ℚ) / 4 ∧
    Spec.interpolated exRows 2 3 (1 / 2) (1 / 2) = 7 / 2 ∧
    (∀ i' ∈ [2, 2 + 1], ∀ k' ∈ [3, 3 + 1], |exRows.val i' k'| ≤ 4) := by
  refine ⟨by decide +kernel, by norm_num, by decide +kernel, by decide +kernel, ?_⟩
  intro i' _ k' hk'
  simp only [List.mem_cons, List.not_mem_nil, or_false] at hk'
  rcases hk' with rfl | rfl <;> norm_num [exRows]

end QM
