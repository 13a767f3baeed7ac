import Verif.Model.GridDoubles
import Verif.Lemmas.Doubles
import Mathlib.Tactic.Linarith
import Mathlib.Tactic.FieldSimp
import Mathlib.Tactic.Ring
import Mathlib.Tactic.NormNum

/-!
# The grid in double precision: C171
-/

namespace QM

open QM.Doubles QM.GridDoubles

namespace GridDoubles

theorem fl_abs (x : ℚ) : |fl x| ≤ |x| * (1 + 1 / 2 ^ 53) := by
  have h := fl_error x
  have : |fl x| ≤ |fl x - x| + |x| := by
    have := abs_add_le (fl x - x) x
    simpa using this
  linarith

/-- How far the place of a node is from where it should be. -/
theorem node_error (ll sp : ℚ) (i : ℤ) :
    |node ll sp i - (ll + i * sp)| ≤ (|ll| + 3 * |(i : ℚ) * sp|) / 2 ^ 53 := by
  unfold node
  have h1 := fl_error (i * sp)
  have h2 := fl_error (ll + fl (i * sp))
  have h3 := fl_abs (i * sp)
  have h4 : |ll + fl (i * sp)| ≤ |ll| + |fl (i * sp)| := abs_add_le _ _
  have h5 : |fl (ll + fl (i * sp)) - (ll + i * sp)| ≤ |fl (ll + fl (i * sp)) - (ll + fl (i * sp))| + |fl (i * sp) - i * sp| := by
    have := abs_add_le (fl (ll + fl (i * sp)) - (ll + fl (i * sp))) (fl (i * sp) - i * sp)
    have e : fl (ll + fl (i * sp)) - (ll + fl (i * sp)) + (fl (i * sp) - i * sp) = fl (ll + fl (i * sp)) - (ll + i * sp) := by
      ring
    rwa [e] at this
  have h0 := abs_nonneg ((i : ℚ) * sp)
  have h6 : |fl (ll + fl (i * sp)) - (ll + fl (i * sp))| ≤ (|ll| + |(i : ℚ) * sp| * (1 + 1 / 2 ^ 53)) / 2 ^ 53 :=
    h2.trans (div_le_div_of_nonneg_right (h4.trans (by linarith)) (by positivity))
  have h7 : (|ll| + |(i : ℚ) * sp| * (1 + 1 / 2 ^ 53)) / 2 ^ 53 + |(i : ℚ) * sp| / 2 ^ 53 ≤
      (|ll| + 3 * |(i : ℚ) * sp|) / 2 ^ 53 := by
    rw [← add_div]
    apply div_le_div_of_nonneg_right _ (by positivity)
    nlinarith
  linarith

/-- How far a computed quotient is from the true one. -/
theorem quot_error (d sp : ℚ) (hsp : 0 < sp) : |fl (fl d / sp) - d / sp| ≤ 3 * |d / sp| / 2 ^ 53 := by
  have h1 := fl_error d
  have h2 := fl_error (fl d / sp)
  have e : |fl d / sp - d / sp| ≤ |d / sp| / 2 ^ 53 := by
    rw [← sub_div, abs_div, abs_div, abs_of_pos hsp, div_right_comm]
    exact div_le_div_of_nonneg_right h1 hsp.le
  have h3 : |fl d / sp| ≤ |d / sp| * (1 + 1 / 2 ^ 53) := by
    have := abs_add_le (fl d / sp - d / sp) (d / sp)
    simp only [sub_add_cancel] at this
    linarith
  have h4 : |fl (fl d / sp) - d / sp| ≤ |fl (fl d / sp) - fl d / sp| + |fl d / sp - d / sp| := by
    have := abs_add_le (fl (fl d / sp) - fl d / sp) (fl d / sp - d / sp)
    simpa using this
  have h0 := abs_nonneg (d / sp)
  have h5 : |fl (fl d / sp) - fl d / sp| ≤ |d / sp| * (1 + 1 / 2 ^ 53) / 2 ^ 53 :=
    h2.trans (div_le_div_of_nonneg_right h3 (by positivity))
  have h6 : |d / sp| * (1 + 1 / 2 ^ 53) / 2 ^ 53 + |d / sp| / 2 ^ 53 ≤ 3 * |d / sp| / 2 ^ 53 := by
    rw [← add_div]
    apply div_le_div_of_nonneg_right _ (by positivity)
    nlinarith
  linarith

end GridDoubles

open GridDoubles in
/-- **C171**, places: every node is found again from its coordinates, and these are where the node should be to within a
sixteenth of a spacing.  Asked: the corner is at most 2^46 spacings from the origin of the coordinates, and there are at most
that many nodes. -/
theorem C171_found_again (ll sp : ℚ) (hsp : 0 < sp) (hll : |ll| ≤ 2 ^ 46 * sp) (i : ℤ) (h0 : 0 ≤ i) (hi : i ≤ 2 ^ 46) :
    indexOf ll sp (node ll sp i) = i ∧ |node ll sp i - (ll + i * sp)| ≤ sp / 16 := by
  have hiq : (0 : ℚ) ≤ i := by exact_mod_cast h0
  have hiq2 : (i : ℚ) ≤ 2 ^ 46 := by exact_mod_cast hi
  have habs : |(i : ℚ) * sp| = i * sp := abs_of_nonneg (by positivity)
  have hn := node_error ll sp i
  rw [habs] at hn
  have hisp : (i : ℚ) * sp ≤ 2 ^ 46 * sp := mul_le_mul_of_nonneg_right hiq2 hsp.le
  have hn' : |node ll sp i - (ll + i * sp)| ≤ sp / 16 := by
    refine hn.trans ?_
    rw [div_le_iff₀ (by positivity)]
    linarith
  refine ⟨?_, hn'⟩
  unfold indexOf
  apply pyRound_eq
  have hq := quot_error (node ll sp i - ll) sp hsp
  have hx : |(node ll sp i - ll) / sp - i| ≤ 1 / 16 := by
    have e : (node ll sp i - ll) / sp - i = (node ll sp i - (ll + i * sp)) / sp := by field_simp; ring
    rw [e, abs_div, abs_of_pos hsp, div_le_iff₀ hsp]
    linarith
  have hb : |(node ll sp i - ll) / sp| ≤ 2 ^ 46 + 1 := by
    have := abs_add_le ((node ll sp i - ll) / sp - i) (i : ℚ)
    rw [sub_add_cancel, abs_of_nonneg hiq] at this
    linarith
  have h2 : 3 * |(node ll sp i - ll) / sp| / 2 ^ 53 ≤ 1 / 16 := by
    rw [div_le_iff₀ (by positivity)]
    linarith
  have := abs_add_le (fl (fl (node ll sp i - ll) / sp) - (node ll sp i - ll) / sp) ((node ll sp i - ll) / sp - i)
  have e : fl (fl (node ll sp i - ll) / sp) - (node ll sp i - ll) / sp + ((node ll sp i - ll) / sp - i) =
      fl (fl (node ll sp i - ll) / sp) - i := by ring
  rw [e] at this
  linarith

open GridDoubles in
/-- **C171**, extent: the grid begins at the lower corner, and its last node is at or beyond the upper corner, but by no
more than one spacing, up to rounding. -/
theorem C171_covers (ll ur sp : ℚ) (hd : Spec.IsDouble ll) (hsp : 0 < sp) (h : ll ≤ ur) (hq : ur - ll ≤ 2 ^ 46 * sp) :
    node ll sp 0 = ll ∧ 0 < count ll ur sp ∧
    ur - (|ll| + (ur - ll) + sp) / 2 ^ 50 ≤ node ll sp (count ll ur sp - 1) ∧
    node ll sp (count ll ur sp - 1) ≤ ur + sp + (|ll| + (ur - ll) + sp) / 2 ^ 50 := by
  refine ⟨by unfold node; simp [fl_zero, fl_of_isDouble hd], ?_⟩
  have hd0 : (0 : ℚ) ≤ ur - ll := by linarith
  have hq0 : 0 ≤ (ur - ll) / sp := div_nonneg hd0 hsp.le
  have he := quot_error (ur - ll) sp hsp
  rw [abs_of_nonneg hq0, abs_le] at he
  have hqq : (ur - ll) / sp * sp = ur - ll := div_mul_cancel₀ _ hsp.ne'
  have hfl0 : 0 ≤ fl (fl (ur - ll) / sp) := by
    rw [← fl_zero]
    apply fl_mono
    apply div_nonneg _ hsp.le
    rw [← fl_zero]
    exact fl_mono hd0
  have hc0 : 0 ≤ ⌈fl (fl (ur - ll) / sp)⌉ := Int.ceil_nonneg hfl0
  refine ⟨by unfold count; omega, ?_⟩
  have hcount : count ll ur sp - 1 = ⌈fl (fl (ur - ll) / sp)⌉ := by unfold count; omega
  rw [hcount]
  have hlo := Int.le_ceil (fl (fl (ur - ll) / sp))
  have hhi := Int.ceil_lt_add_one (fl (fl (ur - ll) / sp))
  have hcq : (0 : ℚ) ≤ ⌈fl (fl (ur - ll) / sp)⌉ := by exact_mod_cast hc0
  have hn := node_error ll sp ⌈fl (fl (ur - ll) / sp)⌉
  rw [abs_of_nonneg (mul_nonneg hcq hsp.le), abs_le] at hn
  generalize (⌈fl (fl (ur - ll) / sp)⌉ : ℤ) = n at *
  generalize node ll sp n = x at *
  generalize fl (fl (ur - ll) / sp) = z at *
  generalize hQ : (ur - ll) / sp = q at *
  -- in units of the spacing
  have h1 : (q - 3 * q / 2 ^ 53) * sp ≤ n * sp := mul_le_mul_of_nonneg_right (by linarith) hsp.le
  have h2 : (n : ℚ) * sp ≤ (q + 3 * q / 2 ^ 53 + 1) * sp := mul_le_mul_of_nonneg_right (by linarith) hsp.le
  have e1 : (q - 3 * q / 2 ^ 53) * sp = (ur - ll) - 3 * (ur - ll) / 2 ^ 53 := by rw [← hqq]; ring
  have e2 : (q + 3 * q / 2 ^ 53 + 1) * sp = (ur - ll) + 3 * (ur - ll) / 2 ^ 53 + sp := by rw [← hqq]; ring
  rw [e1] at h1
  rw [e2] at h2
  have hab := abs_nonneg ll
  have h3 : (|ll| + 3 * (n * sp)) / 2 ^ 53 ≤ (|ll| + 4 * (ur - ll) + 3 * sp) / 2 ^ 53 := by
    apply div_le_div_of_nonneg_right _ (by positivity)
    linarith
  constructor
  · have : (|ll| + 4 * (ur - ll) + 3 * sp) / 2 ^ 53 + 3 * (ur - ll) / 2 ^ 53 ≤ (|ll| + (ur - ll) + sp) / 2 ^ 50 := by
      rw [← add_div, div_le_div_iff₀ (by positivity) (by positivity)]
      nlinarith
    linarith [hn.1]
  · have : (|ll| + 4 * (ur - ll) + 3 * sp) / 2 ^ 53 + 3 * (ur - ll) / 2 ^ 53 ≤ (|ll| + (ur - ll) + sp) / 2 ^ 50 := by
      rw [← add_div, div_le_div_iff₀ (by positivity) (by positivity)]
      nlinarith
    linarith [hn.2]

open GridDoubles in
/-- **C171**, exactness: when corners and spacing are whole numbers of some common power of two (whole metres, halves or
quarters of a kilometre ...), the number of nodes and every place are exactly those of real arithmetic. -/
theorem C171_exact (a b c e : ℤ) (hb : 0 < b) (hab : a ≤ c) (ha : |a| ≤ 2 ^ 51) (hc : |c| ≤ 2 ^ 51) (hb2 : b ≤ 2 ^ 51) :
    count (a * (2 : ℚ) ^ e) (c * (2 : ℚ) ^ e) (b * (2 : ℚ) ^ e) =
      ⌈(c * (2 : ℚ) ^ e - a * (2 : ℚ) ^ e) / (b * (2 : ℚ) ^ e)⌉ + 1 ∧
    ∀ i : ℤ, 0 ≤ i → i < count (a * (2 : ℚ) ^ e) (c * (2 : ℚ) ^ e) (b * (2 : ℚ) ^ e) →
      node (a * (2 : ℚ) ^ e) (b * (2 : ℚ) ^ e) i = a * (2 : ℚ) ^ e + i * (b * (2 : ℚ) ^ e) := by
  have he : (2 : ℚ) ^ e ≠ 0 := (zpow_pos (by norm_num : (0 : ℚ) < 2) e).ne'
  have hbq : (0 : ℚ) < b := by exact_mod_cast hb
  have hb1 : (1 : ℚ) ≤ b := by exact_mod_cast hb
  rw [abs_le] at ha hc
  have hdiff : fl (c * (2 : ℚ) ^ e - a * (2 : ℚ) ^ e) = c * (2 : ℚ) ^ e - a * (2 : ℚ) ^ e := by
    apply fl_of_isDouble
    refine ⟨c - a, e, abs_le.mpr ⟨by omega, by omega⟩, by push_cast; ring⟩
  have hquot : (c * (2 : ℚ) ^ e - a * (2 : ℚ) ^ e) / (b * (2 : ℚ) ^ e) = ((c - a : ℤ) : ℚ) / b := by
    push_cast
    field_simp
  have hm0 : (0 : ℚ) ≤ ((c - a : ℤ) : ℚ) := by exact_mod_cast (by omega : (0 : ℤ) ≤ c - a)
  have hm1 : ((c - a : ℤ) : ℚ) ≤ 2 ^ 52 := by exact_mod_cast (by omega : c - a ≤ 2 ^ 52)
  have hceil : ⌈fl (((c - a : ℤ) : ℚ) / b)⌉ = ⌈((c - a : ℤ) : ℚ) / b⌉ := by
    generalize hmm : c - a = m at *
    have hq0 : 0 ≤ (m : ℚ) / b := div_nonneg hm0 hbq.le
    have hqle : (m : ℚ) / b ≤ m := div_le_self hm0 hb1
    have hk0 : 0 ≤ ⌈(m : ℚ) / b⌉ := Int.ceil_nonneg hq0
    have hkle : ⌈(m : ℚ) / b⌉ ≤ m := Int.ceil_le.mpr hqle
    have hm52 : m ≤ 2 ^ 52 := by omega
    rw [Int.ceil_eq_iff]
    have hup : (m : ℚ) / b ≤ ⌈(m : ℚ) / b⌉ := Int.le_ceil _
    have hlow : (⌈(m : ℚ) / b⌉ : ℚ) - 1 < (m : ℚ) / b := by linarith [Int.ceil_lt_add_one ((m : ℚ) / b)]
    generalize (⌈(m : ℚ) / b⌉ : ℤ) = k at *
    constructor
    · -- more than `k - 1` by at least `1 / b`, and rounding moves by less
      have h1 : ((k - 1) * b : ℚ) < m := by
        rw [lt_div_iff₀ hbq] at hlow
        exact hlow
      have h2 : (k - 1) * b + 1 ≤ m := by
        have : (k - 1) * b < m := by exact_mod_cast h1
        omega
      have h3 : ((k - 1) * b + 1 : ℚ) ≤ m := by exact_mod_cast h2
      have h4 := fl_error ((m : ℚ) / b)
      rw [abs_of_nonneg hq0, abs_le] at h4
      have h5 : (k : ℚ) - 1 + 1 / b ≤ (m : ℚ) / b := by
        rw [le_div_iff₀ hbq, add_mul, div_mul_cancel₀ _ hbq.ne']
        exact h3
      have h6 : (m : ℚ) / b / 2 ^ 53 < 1 / b := by
        rw [div_div, div_lt_div_iff₀ (by positivity) hbq]
        nlinarith
      linarith [h4.1]
    · have h1 := fl_mono hup
      rwa [fl_int (abs_le.mpr ⟨by omega, by omega⟩)] at h1
  have hcount : count (a * (2 : ℚ) ^ e) (c * (2 : ℚ) ^ e) (b * (2 : ℚ) ^ e) = ⌈((c - a : ℤ) : ℚ) / b⌉ + 1 := by
    unfold count
    rw [hdiff, hquot, hceil]
  refine ⟨by rw [hcount, hquot], ?_⟩
  intro i hi0 hi1
  rw [hcount] at hi1
  -- `i * b` is at most the extent and one spacing
  have h1 : (i : ℚ) < ((c - a : ℤ) : ℚ) / b + 1 := by
    have := Int.ceil_lt_add_one (((c - a : ℤ) : ℚ) / b)
    have h2 : (i : ℚ) ≤ ⌈((c - a : ℤ) : ℚ) / b⌉ := by exact_mod_cast (by omega : i ≤ ⌈((c - a : ℤ) : ℚ) / b⌉)
    linarith
  have h2 : (i * b : ℚ) < ((c - a : ℤ) : ℚ) + b := by
    have := mul_lt_mul_of_pos_right h1 hbq
    rwa [add_mul, div_mul_cancel₀ _ hbq.ne', one_mul] at this
  have h3 : i * b < (c - a) + b := by exact_mod_cast h2
  have h4 : 0 ≤ i * b := mul_nonneg hi0 hb.le
  unfold node
  have h5 : fl (i * (b * (2 : ℚ) ^ e)) = i * (b * (2 : ℚ) ^ e) := by
    apply fl_of_isDouble
    exact ⟨i * b, e, abs_le.mpr ⟨by omega, by omega⟩, by push_cast; ring⟩
  rw [h5]
  apply fl_of_isDouble
  exact ⟨a + i * b, e, abs_le.mpr ⟨by omega, by omega⟩, by push_cast; ring⟩

open GridDoubles in
/-- **C171 fails** for decimals: from 0 to 6.9 with nodes every 0.3 there are twenty-five nodes where twenty-three spacings
need twenty-four, and the last is a whole spacing beyond the corner asked for. -/
theorem C171_violated :
    (69 / 10 : ℚ) = 23 * (3 / 10) ∧ count 0 (fl (69 / 10)) (fl (3 / 10)) = 25 ∧
    fl (69 / 10) + 299 / 1000 < node 0 (fl (3 / 10)) 24 :=
  ⟨by norm_num, by decide +kernel, by decide +kernel⟩

/-- Where a table in kilometres is placed (a corner 600 km from the origin, nodes every tenth) is in range. -/
example : (0 : ℚ) < fl (1 / 10) ∧ |fl (-600)| ≤ 2 ^ 46 * fl (1 / 10) ∧
    GridDoubles.indexOf (fl (-600)) (fl (1 / 10)) (GridDoubles.node (fl (-600)) (fl (1 / 10)) 6003) = 6003 ∧
    GridDoubles.node (fl (-600)) (fl (1 / 10)) 6003 ≠ fl (-600) + 6003 * fl (1 / 10) := by
  decide +kernel

/-- Ten and a quarter kilometres at half kilometres: 22 nodes, the last at 10.5. -/
example : GridDoubles.count 0 (41 / 4) (1 / 2) = 22 ∧ GridDoubles.node 0 (1 / 2) 21 = 21 / 2 := by
  decide +kernel

end QM
