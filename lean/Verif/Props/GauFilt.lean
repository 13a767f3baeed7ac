import Verif.Model.GauFilt
import Verif.Props.GauFit
import Mathlib.Analysis.SpecialFunctions.Exp
import Mathlib.Algebra.BigOperators.Intervals
import Mathlib.Tactic.Linarith
import Mathlib.Tactic.Positivity

/-!
# Smoothing of the 3-D map (C123)
-/

namespace QM
open QM.Grid QM.GauFit QM.GauFilt

/-! ## Specification -/

/-- A map that is not negative, and positive somewhere. -/
def Spec.Nontrivial (n : V3 ℕ) (m : MapR) : Prop :=
  (∀ v, (∀ a, v a < n a) → 0 ≤ m v) ∧ ∃ v, (∀ a, v a < n a) ∧ 0 < m v

/-- A source at a single node. -/
noncomputable def Spec.single (k : V3 ℕ) (A : ℝ) : MapR := open Classical in fun v => if v = k then A else 0

/-- A map mirrored along one axis. -/
def Spec.mirrorAxis (n : V3 ℕ) (a : Fin 3) (m : MapR) : MapR :=
  fun v => m (Function.update v a (n a - 1 - v a))

/-! ## Sums -/

theorem tail_below (q : ℝ) (h0 : 0 ≤ q) (h1 : q < 1) (n i : ℕ) :
    ∑ t ∈ Finset.range n, (if t < i then q ^ (i - t) else 0) ≤ q / (1 - q) := by
  have hq : 0 < 1 - q := by linarith
  induction i with
  | zero => simp; positivity
  | succ i ih =>
    have e : ∀ t, (if t < i + 1 then q ^ (i + 1 - t) else 0) =
        q * (if t < i then q ^ (i - t) else 0) + if t = i then q else 0 := by
      intro t
      rcases lt_trichotomy t i with h | h | h
      · rw [if_pos (by omega), if_pos h, if_neg (by omega), add_zero,
          show i + 1 - t = (i - t) + 1 by omega, pow_succ, mul_comm]
      · subst h; simp
      · rw [if_neg (by omega), if_neg (by omega), if_neg (by omega)]; simp
    simp only [e, Finset.sum_add_distrib, ← Finset.mul_sum]
    have h2 : ∑ t ∈ Finset.range n, (if t = i then q else 0) ≤ q := by
      rw [Finset.sum_ite_eq']
      split <;> linarith
    have h3 := mul_le_mul_of_nonneg_left ih h0
    have h4 : q * (q / (1 - q)) + q = q / (1 - q) := by field_simp; ring
    linarith

theorem tail_above (q : ℝ) (h0 : 0 ≤ q) (h1 : q < 1) (n k : ℕ) (hk : k < n) :
    ∑ t ∈ Finset.range n, (if k < t then q ^ (t - k) else 0) ≤ q / (1 - q) := by
  rw [← Finset.sum_range_reflect]
  refine le_trans (Finset.sum_le_sum ?_) (tail_below q h0 h1 n (n - 1 - k))
  intro t ht
  rw [Finset.mem_range] at ht
  by_cases h : k < n - 1 - t
  · rw [if_pos h, if_pos (by omega), show n - 1 - t - k = n - 1 - k - t by omega]
  · rw [if_neg h]
    split <;> positivity

theorem middle_sum (C : ℝ) (h0 : 0 ≤ C) (n i k : ℕ) :
    ∑ t ∈ Finset.range n, (if i ≤ t ∧ t ≤ k then C else 0) ≤ ((k + 1 - i : ℕ) : ℝ) * C := by
  rw [← Finset.sum_filter, Finset.sum_const, nsmul_eq_mul]
  apply mul_le_mul_of_nonneg_right _ h0
  have : (Finset.filter (fun t => i ≤ t ∧ t ≤ k) (Finset.range n)) ⊆ Finset.Icc i k := by
    intro t ht
    rw [Finset.mem_filter] at ht
    exact Finset.mem_Icc.mpr ht.2
  have := Finset.card_le_card this
  rw [Nat.card_Icc] at this
  exact_mod_cast this

theorem half_pow (r : ℝ) (h0 : 0 ≤ r) (h1 : r ≤ 1 / 2) (d : ℕ) : ((d + 1 : ℕ) : ℝ) * r ^ d ≤ 1 := by
  induction d with
  | zero => simp
  | succ d ih =>
    rw [pow_succ]
    have hp : 0 ≤ r ^ d := by positivity
    push_cast at ih ⊢
    have h2 : ((d : ℝ) + 1 + 1) * r ≤ (d : ℝ) + 1 := by
      have : (0 : ℝ) ≤ d := by positivity
      nlinarith
    nlinarith

/-- Products of two bells at different nodes add up to less than one. -/
theorem bells_odd (b : ℝ) (hb : Real.exp (-b) ≤ 46 / 100) (hb0 : 0 ≤ b) (n i k : ℕ) (hk : k < n) (hik : i < k) :
    ∑ t ∈ Finset.range n, Real.exp (-(b * (((t : ℝ) - i) ^ 2 + ((t : ℝ) - k) ^ 2))) < 1 := by
  set r := Real.exp (-b) with hr
  have r0 : 0 < r := Real.exp_pos _
  have hpow : ∀ m : ℕ, r ^ m = Real.exp (-(b * m)) := by
    intro m; rw [hr, ← Real.exp_nat_mul]; congr 1; ring
  obtain ⟨d, rfl⟩ : ∃ d, k = i + d + 1 := ⟨k - i - 1, by omega⟩
  have q0 : 0 ≤ r ^ 4 := by positivity
  have q1 : r ^ 4 ≤ 448 / 10000 := by
    have : r ^ 4 ≤ (46 / 100 : ℝ) ^ 4 := pow_le_pow_left₀ r0.le hb 4
    norm_num at this ⊢; linarith
  have hterm : ∀ t ∈ Finset.range n, Real.exp (-(b * (((t : ℝ) - i) ^ 2 + ((t : ℝ) - (i + d + 1 : ℕ)) ^ 2))) ≤
      r * (if t < i then (r ^ 4) ^ (i - t) else 0) +
      (if i ≤ t ∧ t ≤ i + d + 1 then r ^ (d + 1) else 0) +
      r * (if i + d + 1 < t then (r ^ 4) ^ (t - (i + d + 1)) else 0) := by
    intro t _
    have dd : (0 : ℝ) ≤ d := by positivity
    rcases lt_or_ge t i with h | h
    · rw [if_pos h, if_neg (by omega), if_neg (by omega)]
      obtain ⟨m, rfl⟩ : ∃ m, i = t + m + 1 := ⟨i - t - 1, by omega⟩
      rw [show t + m + 1 - t = m + 1 by omega, ← pow_mul, ← pow_succ', hpow]
      simp only [mul_zero, add_zero]
      apply Real.exp_le_exp.mpr
      apply neg_le_neg
      apply mul_le_mul_of_nonneg_left _ hb0
      push_cast
      have mm : (0 : ℝ) ≤ m := by positivity
      nlinarith
    · rcases le_or_gt t (i + d + 1) with h' | h'
      · rw [if_neg (by omega), if_pos ⟨h, h'⟩, if_neg (by omega), hpow]
        simp only [mul_zero, add_zero, zero_add]
        apply Real.exp_le_exp.mpr
        apply neg_le_neg
        apply mul_le_mul_of_nonneg_left _ hb0
        obtain ⟨x, rfl⟩ : ∃ x, t = i + x := ⟨t - i, by omega⟩
        obtain ⟨y, hy⟩ : ∃ y, d + 1 = x + y := ⟨d + 1 - x, by omega⟩
        have hy' : (d : ℝ) + 1 = x + y := by exact_mod_cast hy
        have hx2 : (x : ℝ) ≤ x ^ 2 := by
          have : x ≤ x ^ 2 := Nat.le_self_pow (by norm_num) x
          exact_mod_cast this
        have hy2 : (y : ℝ) ≤ y ^ 2 := by
          have : y ≤ y ^ 2 := Nat.le_self_pow (by norm_num) y
          exact_mod_cast this
        push_cast
        have e1 : ((i : ℝ) + x - i) ^ 2 = x ^ 2 := by ring
        have e2 : ((i : ℝ) + x - (i + d + 1)) ^ 2 = y ^ 2 := by
          have : (i : ℝ) + x - (i + d + 1) = - y := by linarith
          rw [this]; ring
        rw [e1, e2]
        linarith
      · rw [if_neg (by omega), if_neg (by omega), if_pos h']
        obtain ⟨m, rfl⟩ : ∃ m, t = i + d + 1 + m + 1 := ⟨t - (i + d + 1) - 1, by omega⟩
        rw [show i + d + 1 + m + 1 - (i + d + 1) = m + 1 by omega, ← pow_mul, ← pow_succ', hpow]
        simp only [mul_zero, zero_add, add_zero]
        apply Real.exp_le_exp.mpr
        apply neg_le_neg
        apply mul_le_mul_of_nonneg_left _ hb0
        push_cast
        have mm : (0 : ℝ) ≤ m := by positivity
        nlinarith
  have h1 := tail_below (r ^ 4) q0 (by linarith) n i
  have h2 := tail_above (r ^ 4) q0 (by linarith) n (i + d + 1) hk
  have h3 := middle_sum (r ^ (d + 1)) (by positivity) n i (i + d + 1)
  have h4 : ((i + d + 1 + 1 - i : ℕ) : ℝ) * r ^ (d + 1) ≤ 2 * r := by
    rw [show i + d + 1 + 1 - i = d + 2 by omega, pow_succ]
    have := half_pow r r0.le (by linarith) d
    push_cast at this ⊢
    have hp : 0 ≤ r ^ d := by positivity
    have hd : (0 : ℝ) ≤ d := by positivity
    have : ((d : ℝ) + 2) * r ^ d ≤ 2 := by nlinarith
    nlinarith
  have h5 : r ^ 4 / (1 - r ^ 4) ≤ 47 / 1000 := by
    rw [div_le_iff₀ (by linarith)]
    linarith
  refine lt_of_le_of_lt (Finset.sum_le_sum hterm) ?_
  rw [Finset.sum_add_distrib, Finset.sum_add_distrib, ← Finset.mul_sum, ← Finset.mul_sum]
  have h6 := mul_le_mul_of_nonneg_left (h1.trans h5) r0.le
  have h7 := mul_le_mul_of_nonneg_left (h2.trans h5) r0.le
  linarith

/-- The same for an even number of nodes, where the bells are half a node off. -/
theorem bells_even (b : ℝ) (hb : Real.exp (-b) ≤ 46 / 100) (hb0 : 0 ≤ b) (n i k : ℕ) (hk : k < n) (hik : i < k) :
    ∑ t ∈ Finset.range n, Real.exp (-(b * (((t : ℝ) - i - 1 / 2) ^ 2 + ((t : ℝ) - k - 1 / 2) ^ 2))) <
      2 * Real.exp (-(b * (1 / 2))) := by
  set r := Real.exp (-b) with hr
  set w := Real.exp (-(b * (1 / 2))) with hw
  have r0 : 0 < r := Real.exp_pos _
  have w0 : 0 < w := Real.exp_pos _
  have hpow : ∀ m : ℕ, w * r ^ m = Real.exp (-(b * (1 / 2 + m))) := by
    intro m; rw [hr, hw, ← Real.exp_nat_mul, ← Real.exp_add]; congr 1; ring
  obtain ⟨d, rfl⟩ : ∃ d, k = i + d + 1 := ⟨k - i - 1, by omega⟩
  have q0 : 0 ≤ r ^ 2 := by positivity
  have q1 : r ^ 2 ≤ 2116 / 10000 := by
    have : r ^ 2 ≤ (46 / 100 : ℝ) ^ 2 := pow_le_pow_left₀ r0.le hb 2
    norm_num at this ⊢; linarith
  have hterm : ∀ t ∈ Finset.range n,
      Real.exp (-(b * (((t : ℝ) - i - 1 / 2) ^ 2 + ((t : ℝ) - (i + d + 1 : ℕ) - 1 / 2) ^ 2))) ≤
      w * (if t < i + 1 then (r ^ 2) ^ (i + 1 - t) else 0) +
      (if i + 1 ≤ t ∧ t ≤ i + d + 1 then w * r ^ d else 0) +
      w * (if i + d + 1 < t then (r ^ 2) ^ (t - (i + d + 1)) else 0) := by
    intro t _
    have dd : (0 : ℝ) ≤ d := by positivity
    rcases lt_or_ge t (i + 1) with h | h
    · rw [if_pos h, if_neg (by omega), if_neg (by omega)]
      obtain ⟨m, rfl⟩ : ∃ m, i = t + m := ⟨i - t, by omega⟩
      rw [show t + m + 1 - t = m + 1 by omega, ← pow_mul, hpow]
      simp only [mul_zero, add_zero]
      apply Real.exp_le_exp.mpr
      apply neg_le_neg
      apply mul_le_mul_of_nonneg_left _ hb0
      push_cast
      have mm : (0 : ℝ) ≤ m := by positivity
      have m2 : (m : ℝ) ≤ m ^ 2 := by
        have : m ≤ m ^ 2 := Nat.le_self_pow (by norm_num) m
        exact_mod_cast this
      nlinarith
    · rcases le_or_gt t (i + d + 1) with h' | h'
      · rw [if_neg (by omega), if_pos ⟨h, h'⟩, if_neg (by omega), hpow]
        simp only [mul_zero, add_zero, zero_add]
        apply Real.exp_le_exp.mpr
        apply neg_le_neg
        apply mul_le_mul_of_nonneg_left _ hb0
        obtain ⟨x, rfl⟩ : ∃ x, t = i + x + 1 := ⟨t - i - 1, by omega⟩
        obtain ⟨y, hy⟩ : ∃ y, d = x + y := ⟨d - x, by omega⟩
        have hy' : (d : ℝ) = x + y := by exact_mod_cast hy
        push_cast
        rw [hy']
        nlinarith [sq_nonneg ((x : ℝ)), sq_nonneg ((y : ℝ))]
      · rw [if_neg (by omega), if_neg (by omega), if_pos h']
        obtain ⟨m, rfl⟩ : ∃ m, t = i + d + 1 + m + 1 := ⟨t - (i + d + 1) - 1, by omega⟩
        rw [show i + d + 1 + m + 1 - (i + d + 1) = m + 1 by omega, ← pow_mul, hpow]
        simp only [mul_zero, zero_add, add_zero]
        apply Real.exp_le_exp.mpr
        apply neg_le_neg
        apply mul_le_mul_of_nonneg_left _ hb0
        push_cast
        have mm : (0 : ℝ) ≤ m := by positivity
        have m2 : (m : ℝ) ≤ m ^ 2 := by
          have : m ≤ m ^ 2 := Nat.le_self_pow (by norm_num) m
          exact_mod_cast this
        nlinarith
  have h1 := tail_below (r ^ 2) q0 (by linarith) n (i + 1)
  have h2 := tail_above (r ^ 2) q0 (by linarith) n (i + d + 1) hk
  have h3 := middle_sum (w * r ^ d) (by positivity) n (i + 1) (i + d + 1)
  have h4 : ((i + d + 1 + 1 - (i + 1) : ℕ) : ℝ) * (w * r ^ d) ≤ w := by
    rw [show i + d + 1 + 1 - (i + 1) = d + 1 by omega]
    have := half_pow r r0.le (by linarith) d
    nlinarith
  have h5 : r ^ 2 / (1 - r ^ 2) ≤ 3 / 10 := by
    rw [div_le_iff₀ (by linarith)]
    linarith
  refine lt_of_le_of_lt (Finset.sum_le_sum hterm) ?_
  rw [Finset.sum_add_distrib, Finset.sum_add_distrib, ← Finset.mul_sum, ← Finset.mul_sum]
  have h6 := mul_le_mul_of_nonneg_left (h1.trans h5) w0.le
  have h7 := mul_le_mul_of_nonneg_left (h2.trans h5) w0.le
  linarith

/-! ## The filter along one axis -/

/-- Weight along one axis of node `j` in the convolution at node `i`. -/
noncomputable def k1 (n : ℕ) (s : ℝ) (i j : ℕ) : ℝ :=
  if j ≤ i + (n - 1) / 2 ∧ i + (n - 1) / 2 - j < n then
    Real.exp (-(coord n (i + (n - 1) / 2 - j) * coord n (i + (n - 1) / 2 - j)) / (2 * s * s)) else 0

/-- Weight of node `k` in the smoothed map at node `i`, before normalisation. -/
noncomputable def g1 (n : ℕ) (s : ℝ) (i k : ℕ) : ℝ := ∑ t ∈ Finset.range n, k1 n s t i * k1 n s t k

theorem k1_nonneg (n : ℕ) (s : ℝ) (i j : ℕ) : 0 ≤ k1 n s i j := by
  unfold k1; split
  · exact (Real.exp_pos _).le
  · exact le_rfl

theorem k1_pos {n : ℕ} (s : ℝ) {i j : ℕ} (h : j ≤ i + (n - 1) / 2 ∧ i + (n - 1) / 2 - j < n) : 0 < k1 n s i j := by
  unfold k1; rw [if_pos h]; exact Real.exp_pos _

theorem k1_mirror {n : ℕ} (s : ℝ) {i j : ℕ} (hi : i < n) (hj : j < n) :
    k1 n s (n - 1 - i) (n - 1 - j) = k1 n s j i := by
  unfold k1
  by_cases h : i ≤ j + (n - 1) / 2 ∧ j + (n - 1) / 2 - i < n
  · rw [if_pos h, if_pos (by omega), show n - 1 - i + (n - 1) / 2 - (n - 1 - j) = j + (n - 1) / 2 - i by omega]
  · rw [if_neg h, if_neg (by omega)]

theorem k1_odd {n : ℕ} (s : ℝ) (hn : n % 2 = 1) (i j : ℕ) :
    k1 n s i j = if j ≤ i + n / 2 ∧ i ≤ j + n / 2 then
      Real.exp (-(1 / (2 * s * s) * ((i : ℝ) - j) ^ 2)) else 0 := by
  unfold k1
  by_cases h : j ≤ i + n / 2 ∧ i ≤ j + n / 2
  · rw [if_pos h, if_pos (by omega)]
    congr 1
    obtain ⟨c, rfl⟩ : ∃ c, n = 2 * c + 1 := ⟨n / 2, by omega⟩
    have e : coord (2 * c + 1) (i + (2 * c + 1 - 1) / 2 - j) = (i : ℝ) - j := by
      unfold coord
      rw [show (2 * c + 1 - 1) / 2 = c by omega, Nat.cast_sub (by omega)]
      push_cast; ring
    rw [e]; ring
  · rw [if_neg h, if_neg (by omega)]

theorem k1_even {n : ℕ} (s : ℝ) (hn : n % 2 = 0) (h0 : 0 < n) (i j : ℕ) :
    k1 n s i j = if j + 1 ≤ i + n / 2 ∧ i ≤ j + n / 2 then
      Real.exp (-(1 / (2 * s * s) * ((i : ℝ) - j - 1 / 2) ^ 2)) else 0 := by
  unfold k1
  by_cases h : j + 1 ≤ i + n / 2 ∧ i ≤ j + n / 2
  · rw [if_pos h, if_pos (by omega)]
    congr 1
    obtain ⟨c, rfl⟩ : ∃ c, n = 2 * c + 2 := ⟨n / 2 - 1, by omega⟩
    have e : coord (2 * c + 2) (i + (2 * c + 2 - 1) / 2 - j) = (i : ℝ) - j - 1 / 2 := by
      unfold coord
      rw [show (2 * c + 2 - 1) / 2 = c by omega, Nat.cast_sub (by omega)]
      push_cast; ring
    rw [e]; ring
  · rw [if_neg h, if_neg (by omega)]

theorem g1_comm (n : ℕ) (s : ℝ) (i k : ℕ) : g1 n s i k = g1 n s k i := by
  unfold g1; exact Finset.sum_congr rfl fun t _ => mul_comm _ _

theorem g1_pos {n : ℕ} (s : ℝ) {i k : ℕ} (hi : i < n) (hk : k < n) : 0 < g1 n s i k := by
  unfold g1
  refine Finset.sum_pos' (fun t _ => mul_nonneg (k1_nonneg _ _ _ _) (k1_nonneg _ _ _ _))
    ⟨n / 2, Finset.mem_range.mpr (by omega), mul_pos (k1_pos s ?_) (k1_pos s ?_)⟩ <;> omega

/-- With an odd number of nodes the filter has no preferred direction. -/
theorem g1_mirror {n : ℕ} (s : ℝ) (hn : n % 2 = 1) {i k : ℕ} (hi : i < n) (hk : k < n) :
    g1 n s (n - 1 - i) (n - 1 - k) = g1 n s i k := by
  have hs : ∀ a b, k1 n s a b = k1 n s b a := by
    intro a b
    rw [k1_odd s hn, k1_odd s hn]
    by_cases h : b ≤ a + n / 2 ∧ a ≤ b + n / 2
    · rw [if_pos h, if_pos ⟨h.2, h.1⟩]; congr 1; ring
    · rw [if_neg h, if_neg (fun h' => h ⟨h'.2, h'.1⟩)]
  unfold g1
  rw [← Finset.sum_range_reflect]
  refine Finset.sum_congr rfl fun t ht => ?_
  rw [Finset.mem_range] at ht
  rw [k1_mirror s ht hi, k1_mirror s ht hk, hs i t, hs k t]

theorem exp_width {s : ℝ} (h0 : 0 < s) (h1 : s ≤ 8 / 10) : Real.exp (-(1 / (2 * s * s))) ≤ 46 / 100 := by
  have h2 : (78125 / 100000 : ℝ) ≤ 1 / (2 * s * s) := by
    rw [le_div_iff₀ (by positivity)]
    nlinarith
  have h3 : Real.exp (-(1 / (2 * s * s))) ≤ Real.exp (-(78125 / 100000)) := Real.exp_le_exp.mpr (by linarith)
  have h4 := Real.sum_le_exp_of_nonneg (show (0 : ℝ) ≤ 78125 / 100000 by norm_num) 5
  simp only [Finset.sum_range_succ, Finset.sum_range_zero, Nat.factorial] at h4
  norm_num at h4
  have h5 : Real.exp (-(78125 / 100000)) ≤ 46 / 100 := by
    rw [Real.exp_neg, inv_le_comm₀ (Real.exp_pos _) (by norm_num)]
    norm_num
    linarith
  exact h3.trans h5

/-- A source is smoothed most strongly onto itself, unless it is at the upper edge of an even number of
nodes. -/
theorem g1_peak {n : ℕ} {s : ℝ} (h0 : 0 < s) (h1 : s ≤ 8 / 10) {i k : ℕ} (hi : i < n) (hk : k < n) (hik : i ≠ k)
    (h : n % 2 = 1 ∨ k + 1 < n) : g1 n s i k < g1 n s k k := by
  have hb := exp_width h0 h1
  have hb0 : 0 ≤ 1 / (2 * s * s) := by positivity
  rcases Nat.mod_two_eq_zero_or_one n with hn | hn
  · -- even
    have hup : ∀ a b, k1 n s a b ≤ Real.exp (-(1 / (2 * s * s) * ((a : ℝ) - b - 1 / 2) ^ 2)) := by
      intro a b; rw [k1_even s hn (by omega)]; split
      · exact le_rfl
      · exact (Real.exp_pos _).le
    have hsum : ∀ p q, p < q → q < n → g1 n s p q < 2 * Real.exp (-(1 / (2 * s * s) * (1 / 2))) := by
      intro p q hpq hq
      refine lt_of_le_of_lt ?_ (bells_even _ hb hb0 n p q hq hpq)
      refine Finset.sum_le_sum fun t _ => ?_
      refine (mul_le_mul (hup t p) (hup t q) (k1_nonneg _ _ _ _) (Real.exp_pos _).le).trans_eq ?_
      rw [← Real.exp_add]; congr 1; ring
    have hlow : 2 * Real.exp (-(1 / (2 * s * s) * (1 / 2))) ≤ g1 n s k k := by
      have hkn : k + 1 < n := by omega
      unfold g1
      have hsub : ({k, k + 1} : Finset ℕ) ⊆ Finset.range n := by
        intro x hx
        simp only [Finset.mem_insert, Finset.mem_singleton] at hx
        rw [Finset.mem_range]; omega
      refine le_trans ?_ (Finset.sum_le_sum_of_subset_of_nonneg hsub
        (fun t _ _ => mul_nonneg (k1_nonneg _ _ _ _) (k1_nonneg _ _ _ _)))
      rw [Finset.sum_pair (by omega), k1_even s hn (by omega), k1_even s hn (by omega), if_pos (by omega),
        if_pos (by omega), ← Real.exp_add, ← Real.exp_add, two_mul]
      apply le_of_eq
      congr 2
      · ring
      · push_cast; ring
    rcases lt_or_gt_of_ne hik with h' | h'
    · exact (hsum i k h' hk).trans_le hlow
    · rw [g1_comm]; exact (hsum k i h' hi).trans_le hlow
  · have hup : ∀ a b, k1 n s a b ≤ Real.exp (-(1 / (2 * s * s) * ((a : ℝ) - b) ^ 2)) := by
      intro a b; rw [k1_odd s hn]; split
      · exact le_rfl
      · exact (Real.exp_pos _).le
    have hsum : ∀ p q, p < q → q < n → g1 n s p q < 1 := by
      intro p q hpq hq
      refine lt_of_le_of_lt ?_ (bells_odd _ hb hb0 n p q hq hpq)
      refine Finset.sum_le_sum fun t _ => ?_
      refine (mul_le_mul (hup t p) (hup t q) (k1_nonneg _ _ _ _) (Real.exp_pos _).le).trans_eq ?_
      rw [← Real.exp_add]; congr 1; ring
    have hlow : 1 ≤ g1 n s k k := by
      unfold g1
      refine le_trans ?_ (Finset.single_le_sum
        (fun t _ => mul_nonneg (k1_nonneg n s t k) (k1_nonneg n s t k)) (Finset.mem_range.mpr hk))
      rw [k1_odd s hn, if_pos (by omega)]
      simp
    rcases lt_or_gt_of_ne hik with h' | h'
    · exact (hsum i k h' hk).trans_le hlow
    · rw [g1_comm]; exact (hsum k i h' hi).trans_le hlow

/-- At the upper edge of an even number of nodes it is smoothed more strongly onto the node below. -/
theorem g1_edge {n : ℕ} {s : ℝ} (h0 : 0 < s) (hn : n % 2 = 0) (h4 : 4 ≤ n) :
    g1 n s (n - 1) (n - 1) < g1 n s (n - 2) (n - 1) := by
  have h2 : 0 < n := by omega
  obtain ⟨c, rfl⟩ : ∃ c, n = 2 * c + 2 := ⟨n / 2 - 1, by omega⟩
  have hb : 0 < 1 / (2 * s * s) := by positivity
  have hle : ∀ t ∈ Finset.range (2 * c + 2), k1 (2 * c + 2) s t (2 * c + 2 - 1) ≤ k1 (2 * c + 2) s t (2 * c + 2 - 2) := by
    intro t ht
    rw [Finset.mem_range] at ht
    rw [k1_even s hn h2, k1_even s hn h2]
    by_cases h : 2 * c + 2 - 1 + 1 ≤ t + (2 * c + 2) / 2 ∧ t ≤ 2 * c + 2 - 1 + (2 * c + 2) / 2
    · rw [if_pos h, if_pos (by omega)]
      apply Real.exp_le_exp.mpr
      apply neg_le_neg
      apply mul_le_mul_of_nonneg_left _ hb.le
      rw [Nat.cast_sub (by omega), Nat.cast_sub (by omega)]
      have : (t : ℝ) ≤ 2 * c + 1 := by exact_mod_cast (by omega : t ≤ 2 * c + 1)
      push_cast
      nlinarith
    · rw [if_neg h]
      split
      · exact (Real.exp_pos _).le
      · exact le_rfl
  unfold g1
  refine Finset.sum_lt_sum (fun t ht => mul_le_mul_of_nonneg_right (hle t ht) (k1_nonneg _ _ _ _)) ?_
  refine ⟨2 * c, Finset.mem_range.mpr (by omega), mul_lt_mul_of_pos_right ?_ (k1_pos s (by omega))⟩
  rw [k1_even s hn h2, k1_even s hn h2, if_pos (by omega), if_pos (by omega)]
  apply Real.exp_lt_exp.mpr
  apply neg_lt_neg
  apply mul_lt_mul_of_pos_left _ hb
  rw [Nat.cast_sub (by omega), Nat.cast_sub (by omega)]
  push_cast
  nlinarith

/-! ## The filter in three dimensions -/

theorem mem_nodes {n v : V3 ℕ} : v ∈ nodes n ↔ ∀ a, v a < n a := by
  simp [nodes, Fintype.mem_piFinset]

/-- Weight of node `j` in the convolution at node `i`. -/
noncomputable def k3 (n : V3 ℕ) (s : V3 ℝ) (i j : V3 ℕ) : ℝ := ∏ a, k1 (n a) (s a) (i a) (j a)

/-- Weight of node `k` in the smoothed map at node `v`, before normalisation. -/
noncomputable def g3 (n : V3 ℕ) (s : V3 ℝ) (v k : V3 ℕ) : ℝ := ∏ a, g1 (n a) (s a) (v a) (k a)

theorem conv_eq (n : V3 ℕ) (s : V3 ℝ) (m : MapR) (i : V3 ℕ) :
    convSame n m (gaussian3d n s) i = ∑ j ∈ nodes n, m j * k3 n s i j := by
  unfold convSame
  refine Finset.sum_congr rfl fun j _ => ?_
  unfold k3
  by_cases h : ∀ a, j a ≤ i a + (n a - 1) / 2 ∧ i a + (n a - 1) / 2 - j a < n a
  · rw [if_pos h]
    congr 1
    simp only [Fin.prod_univ_three, k1, if_pos (h 0), if_pos (h 1), if_pos (h 2), gaussian3d]
    rw [← Real.exp_add, ← Real.exp_add]
    congr 1
    ring
  · rw [if_neg h]
    push Not at h
    obtain ⟨a, ha⟩ := h
    rw [Finset.prod_eq_zero (Finset.mem_univ a), mul_zero]
    unfold k1
    rw [if_neg]
    rintro ⟨h1, h2⟩
    exact absurd h2 (not_lt.mpr (ha h1))

theorem mirror_mem {n v : V3 ℕ} (hv : v ∈ nodes n) : (fun a => n a - 1 - v a) ∈ nodes n := by
  rw [mem_nodes] at hv ⊢
  intro a; have := hv a; omega

theorem mirror_sum (n : V3 ℕ) (f : V3 ℕ → ℝ) :
    ∑ j ∈ nodes n, f (fun a => n a - 1 - j a) = ∑ j ∈ nodes n, f j := by
  refine Finset.sum_bij' (fun j _ a => n a - 1 - j a) (fun j _ a => n a - 1 - j a)
    (fun j hj => mirror_mem hj) (fun j hj => mirror_mem hj) ?_ ?_ (fun _ _ => rfl)
  all_goals
    intro j hj
    rw [mem_nodes] at hj
    funext a
    have := hj a
    dsimp only
    omega

theorem k3_mirror {n : V3 ℕ} (s : V3 ℝ) {i j : V3 ℕ} (hi : i ∈ nodes n) (hj : j ∈ nodes n) :
    k3 n s (fun a => n a - 1 - i a) (fun a => n a - 1 - j a) = k3 n s j i := by
  rw [mem_nodes] at hi hj
  unfold k3
  exact Finset.prod_congr rfl fun a _ => k1_mirror (s a) (hi a) (hj a)

theorem g3_eq (n : V3 ℕ) (s : V3 ℝ) (v k : V3 ℕ) :
    ∑ t ∈ nodes n, k3 n s t v * k3 n s t k = g3 n s v k := by
  unfold g3 g1 k3 nodes
  rw [Finset.prod_univ_sum]
  refine Finset.sum_congr rfl fun t _ => ?_
  rw [← Finset.prod_mul_distrib]

theorem nanmax_eq {n : V3 ℕ} {m : MapR} {v : V3 ℕ} (hv : v ∈ nodes n) (h : ∀ u ∈ nodes n, m u ≤ m v) :
    nanmax n m = m v := by
  unfold nanmax
  rw [dif_pos ⟨v, hv⟩]
  exact le_antisymm (Finset.sup'_le _ _ h) (Finset.le_sup' m hv)

theorem exists_max {n : V3 ℕ} (m : MapR) {w : V3 ℕ} (hw : w ∈ nodes n) :
    ∃ v ∈ nodes n, ∀ u ∈ nodes n, m u ≤ m v := Finset.exists_max_image (nodes n) m ⟨w, hw⟩

/-- The smoothed map: weighted sums with the weights `g3`, divided by the largest of them. -/
theorem gaufilt_eq (n : V3 ℕ) (s : V3 ℝ) (m : MapR) (hm : Spec.Nontrivial n m) :
    ∃ w ∈ nodes n, 0 < ∑ k ∈ nodes n, m k * g3 n s w k ∧
      (∀ v ∈ nodes n, ∑ k ∈ nodes n, m k * g3 n s v k ≤ ∑ k ∈ nodes n, m k * g3 n s w k) ∧
      ∀ v ∈ nodes n, gaufilt n s m v = (∑ k ∈ nodes n, m k * g3 n s v k) / ∑ k ∈ nodes n, m k * g3 n s w k := by
  obtain ⟨hnn, p, hp, hpos⟩ := hm
  have hnn' : ∀ v ∈ nodes n, 0 ≤ m v := fun v hv => hnn v (mem_nodes.mp hv)
  have hp' := mem_nodes.mpr hp
  have k3nn : ∀ i j, 0 ≤ k3 n s i j := fun i j => Finset.prod_nonneg fun a _ => k1_nonneg _ _ _ _
  set m1 := convSame n m (gaussian3d n s) with hm1
  -- the first maximum
  obtain ⟨v1, hv1, hmax1⟩ := exists_max m1 hp'
  have hM1 : 0 < nanmax n m1 := by
    rw [nanmax_eq hv1 hmax1]
    refine lt_of_lt_of_le ?_ (hmax1 p hp')
    rw [hm1, conv_eq]
    refine Finset.sum_pos' (fun j hj => mul_nonneg (hnn' j hj) (k3nn _ _)) ⟨p, hp', mul_pos hpos ?_⟩
    refine Finset.prod_pos fun a _ => k1_pos _ ?_
    have := hp a
    omega
  set M1 := nanmax n m1
  set U : MapR := fun v => ∑ k ∈ nodes n, m k * g3 n s v k with hU
  -- the second convolution, mirrored
  have hm3 : ∀ v ∈ nodes n, mirror n (convSame n (fun v => mirror n m1 v / M1) (gaussian3d n s)) v = U v / M1 := by
    intro v hv
    unfold mirror
    rw [conv_eq, ← mirror_sum, hU, Finset.sum_div]
    have e : ∀ j ∈ nodes n, m1 (fun a => n a - 1 - (n a - 1 - j a)) / M1 *
        k3 n s (fun a => n a - 1 - v a) (fun a => n a - 1 - j a) =
        ∑ k ∈ nodes n, m k * (k3 n s j k * k3 n s j v) / M1 := by
      intro j hj
      have e1 : (fun a => n a - 1 - (n a - 1 - j a)) = j := by
        funext a
        have := mem_nodes.mp hj a
        omega
      rw [e1, k3_mirror s hv hj, hm1, conv_eq, Finset.sum_div, Finset.sum_mul]
      refine Finset.sum_congr rfl fun k _ => ?_
      ring
    rw [Finset.sum_congr rfl e, Finset.sum_comm]
    refine Finset.sum_congr rfl fun k _ => ?_
    rw [← g3_eq, ← Finset.sum_div, Finset.mul_sum]
    congr 1
    refine Finset.sum_congr rfl fun t _ => ?_
    ring
  set m3 := convSame n (fun v => mirror n m1 v / M1) (gaussian3d n s) with hm3d
  obtain ⟨w, hw, hmaxw⟩ := exists_max U hp'
  have hUpos : 0 < U w := by
    refine lt_of_lt_of_le ?_ (hmaxw p hp')
    rw [hU]
    refine Finset.sum_pos' (fun j hj => mul_nonneg (hnn' j hj) ?_) ⟨p, hp', mul_pos hpos ?_⟩
    · exact Finset.prod_nonneg fun a _ => (g1_pos _ (hp a) (mem_nodes.mp hj a)).le
    · exact Finset.prod_pos fun a _ => g1_pos _ (hp a) (hp a)
  have hM3 : nanmax n m3 = U w / M1 := by
    have e : ∀ u ∈ nodes n, m3 u = U (fun a => n a - 1 - u a) / M1 := by
      intro u hu
      rw [← hm3 _ (mirror_mem hu)]
      unfold mirror
      congr 1
      funext a
      have := mem_nodes.mp hu a
      dsimp only
      omega
    have ew : (fun a => n a - 1 - (n a - 1 - w a)) = w := by
      funext a
      have := mem_nodes.mp hw a
      omega
    rw [nanmax_eq (mirror_mem hw), e _ (mirror_mem hw), ew]
    intro u hu
    rw [e u hu, e _ (mirror_mem hw), ew]
    exact div_le_div_of_nonneg_right (hmaxw _ (mirror_mem hu)) hM1.le
  refine ⟨w, hw, hUpos, hmaxw, ?_⟩
  intro v hv
  have : gaufilt n s m v = mirror n m3 v / nanmax n m3 := rfl
  rw [this, hm3 v hv, hM3]
  exact div_div_div_cancel_right₀ hM1.ne' (U v) (U w)

/-! ## The properties -/

/-- **C123**: the smoothed map is positive everywhere, at most one, and one somewhere. -/
theorem C123_range (n : V3 ℕ) (s : V3 ℝ) (m : MapR) (hm : Spec.Nontrivial n m) :
    (∀ v, (∀ a, v a < n a) → 0 < gaufilt n s m v ∧ gaufilt n s m v ≤ 1) ∧
    ∃ v, (∀ a, v a < n a) ∧ gaufilt n s m v = 1 := by
  obtain ⟨w, hw, hpos, hmax, heq⟩ := gaufilt_eq n s m hm
  constructor
  · intro v hv
    have hv' := mem_nodes.mpr hv
    rw [heq v hv']
    refine ⟨div_pos ?_ hpos, (div_le_one hpos).mpr (hmax v hv')⟩
    obtain ⟨hnn, p, hp, hpp⟩ := hm
    refine Finset.sum_pos' (fun j hj => mul_nonneg (hnn j (mem_nodes.mp hj)) ?_)
      ⟨p, mem_nodes.mpr hp, mul_pos hpp ?_⟩
    · exact Finset.prod_nonneg fun a _ => (g1_pos _ (hv a) (mem_nodes.mp hj a)).le
    · exact Finset.prod_pos fun a _ => g1_pos _ (hv a) (hp a)
  · exact ⟨w, mem_nodes.mp hw, by rw [heq w hw, div_self hpos.ne']⟩

/-- **C123**: the smoothed map does not depend on the scale of the coalescence. -/
theorem C123_scale (n : V3 ℕ) (s : V3 ℝ) (m : MapR) (hm : Spec.Nontrivial n m) (c : ℝ) (hc : 0 < c)
    (v : V3 ℕ) (hv : ∀ a, v a < n a) : gaufilt n s (fun u => c * m u) v = gaufilt n s m v := by
  have hm' : Spec.Nontrivial n (fun u => c * m u) :=
    ⟨fun u hu => mul_nonneg hc.le (hm.1 u hu), by
      obtain ⟨p, hp, hpp⟩ := hm.2
      exact ⟨p, hp, mul_pos hc hpp⟩⟩
  obtain ⟨w, hw, hpos, hmax, heq⟩ := gaufilt_eq n s m hm
  obtain ⟨w', hw', hpos', hmax', heq'⟩ := gaufilt_eq n s _ hm'
  have hv' := mem_nodes.mpr hv
  have e : ∀ u, ∑ k ∈ nodes n, c * m k * g3 n s u k = c * ∑ k ∈ nodes n, m k * g3 n s u k := by
    intro u
    rw [Finset.mul_sum]
    exact Finset.sum_congr rfl fun k _ => by ring
  rw [heq v hv', heq' v hv', e, e]
  have hww : ∑ k ∈ nodes n, m k * g3 n s w k = ∑ k ∈ nodes n, m k * g3 n s w' k := by
    refine le_antisymm ?_ (hmax w' hw')
    have := hmax' w hw
    rw [e, e] at this
    exact le_of_mul_le_mul_left this hc
  rw [hww]
  rw [e] at hpos'
  have := pos_of_mul_pos_right hpos' hc.le
  field_simp

/-- **C123** (partial): smoothing does not shift.  A source at a single node gives a map that is largest at
that node and nowhere else, and that node is the one the Gaussian is fitted around - if along every axis the
number of nodes is odd or the source is not at the upper edge.  Missing: see `C123_violated`. -/
theorem C123_peak_partial (n k : V3 ℕ) (hk : ∀ a, k a < n a) (A : ℝ) (hA : 0 < A)
    (h : ∀ a, n a % 2 = 1 ∨ k a + 1 < n a) :
    smoothed n (Spec.single k A) k = 1 ∧
    (∀ v, (∀ a, v a < n a) → v ≠ k → smoothed n (Spec.single k A) v < 1) ∧
    GauFit.peak n (smoothed n (Spec.single k A)) = some k := by
  have hk' := mem_nodes.mpr hk
  have hm : Spec.Nontrivial n (Spec.single k A) := by
    refine ⟨fun v _ => ?_, k, hk, ?_⟩
    · unfold Spec.single; split
      · exact hA.le
      · exact le_rfl
    · simp [Spec.single, hA]
  obtain ⟨w, hw, hpos, hmax, heq⟩ := gaufilt_eq n (fun _ => 8 / 10) _ hm
  have hU : ∀ v, ∑ j ∈ nodes n, Spec.single k A j * g3 n (fun _ => 8 / 10) v j =
      A * g3 n (fun _ => 8 / 10) v k := by
    intro v
    rw [Finset.sum_eq_single k]
    · simp [Spec.single]
    · intro j _ hj
      simp [Spec.single, hj]
    · intro h'; exact absurd hk' h'
  have hlt : ∀ v ∈ nodes n, v ≠ k → g3 n (fun _ => 8 / 10) v k < g3 n (fun _ => 8 / 10) k k := by
    intro v hv hvk
    rw [mem_nodes] at hv
    obtain ⟨a, ha⟩ : ∃ a, v a ≠ k a := by
      by_contra hn
      push Not at hn
      exact hvk (funext hn)
    unfold g3
    refine Finset.prod_lt_prod (fun b _ => g1_pos _ (hv b) (hk b)) ?_
      ⟨a, Finset.mem_univ a, g1_peak (by norm_num) le_rfl (hv a) (hk a) ha (h a)⟩
    intro b _
    by_cases hb : v b = k b
    · rw [hb]
    · exact (g1_peak (by norm_num) le_rfl (hv b) (hk b) hb (h b)).le
  have hwk : w = k := by
    by_contra hn
    have h1 := hmax k hk'
    rw [hU, hU] at h1
    exact absurd (le_of_mul_le_mul_left h1 hA) (not_le.mpr (hlt w hw hn))
  subst hwk
  have hone : smoothed n (Spec.single w A) w = 1 := by
    unfold smoothed
    rw [heq w hw, div_self hpos.ne']
  have hless : ∀ v, (∀ a, v a < n a) → v ≠ w → smoothed n (Spec.single w A) v < 1 := by
    intro v hv hvk
    unfold smoothed
    rw [heq v (mem_nodes.mpr hv), div_lt_one hpos, hU, hU]
    exact mul_lt_mul_of_pos_left (hlt v (mem_nodes.mpr hv) hvk) hA
  refine ⟨hone, hless, peakR_of_max ((mem_allNodes_iff n w).mpr hk) ?_⟩
  intro v hv hvk
  rw [hone]
  exact hless v ((mem_allNodes_iff n v).mp hv) hvk

/-- **C123**, violated: along an axis with an even number of nodes (four or more) a source at the upper edge
is shifted.  Whatever the width of the filter and the other axes, the smoothed map is larger one node
further in than at the source. -/
theorem C123_violated (n k : V3 ℕ) (s : V3 ℝ) (hs : ∀ a, 0 < s a) (hk : ∀ a, k a < n a) (A : ℝ) (hA : 0 < A)
    (a : Fin 3) (hn : n a % 2 = 0) (h4 : 4 ≤ n a) (hka : k a + 1 = n a) :
    gaufilt n s (Spec.single k A) k < gaufilt n s (Spec.single k A) (Function.update k a (k a - 1)) := by
  have hk' := mem_nodes.mpr hk
  have hm : Spec.Nontrivial n (Spec.single k A) := by
    refine ⟨fun v _ => ?_, k, hk, ?_⟩
    · unfold Spec.single; split
      · exact hA.le
      · exact le_rfl
    · simp [Spec.single, hA]
  obtain ⟨w, hw, hpos, hmax, heq⟩ := gaufilt_eq n s _ hm
  have hU : ∀ v, ∑ j ∈ nodes n, Spec.single k A j * g3 n s v j = A * g3 n s v k := by
    intro v
    rw [Finset.sum_eq_single k]
    · simp [Spec.single]
    · intro j _ hj
      simp [Spec.single, hj]
    · intro h'; exact absurd hk' h'
  have hu : Function.update k a (k a - 1) ∈ nodes n := by
    rw [mem_nodes]
    intro b
    by_cases hb : b = a
    · subst hb; rw [Function.update_self]; have := hk b; omega
    · rw [Function.update_of_ne hb]; exact hk b
  rw [heq k hk', heq _ hu]
  apply div_lt_div_of_pos_right _ hpos
  rw [hU, hU]
  apply mul_lt_mul_of_pos_left _ hA
  have hedge : g1 (n a) (s a) (k a) (k a) < g1 (n a) (s a) (k a - 1) (k a) := by
    have := g1_edge (hs a) hn h4
    rwa [show n a - 1 = k a by omega, show n a - 2 = k a - 1 by omega] at this
  unfold g3
  refine Finset.prod_lt_prod (fun b _ => g1_pos _ (hk b) (hk b)) ?_ ⟨a, Finset.mem_univ a, ?_⟩
  · intro b _
    by_cases hb : b = a
    · subst hb; rw [Function.update_self]; exact hedge.le
    · rw [Function.update_of_ne hb]
  · rw [Function.update_self]; exact hedge

/-- **C123** (partial): no direction is preferred.  Along an axis with an odd number of nodes, smoothing the
mirrored map gives the mirrored smoothed map, for any width of the filter. -/
theorem C123_mirror_partial (n : V3 ℕ) (s : V3 ℝ) (m : MapR) (hm : Spec.Nontrivial n m) (a : Fin 3)
    (hn : n a % 2 = 1) (v : V3 ℕ) (hv : ∀ b, v b < n b) :
    gaufilt n s (Spec.mirrorAxis n a m) v = Spec.mirrorAxis n a (gaufilt n s m) v := by
  set σ : V3 ℕ → V3 ℕ := fun u => Function.update u a (n a - 1 - u a) with hσ
  have hmem : ∀ u ∈ nodes n, σ u ∈ nodes n := by
    intro u hu
    rw [mem_nodes] at hu ⊢
    intro b
    by_cases hb : b = a
    · subst hb; rw [hσ]; simp only [Function.update_self]; have := hu b; omega
    · rw [hσ]; simp only [Function.update_of_ne hb]; exact hu b
  have hinv : ∀ u ∈ nodes n, σ (σ u) = u := by
    intro u hu
    rw [mem_nodes] at hu
    funext b
    by_cases hb : b = a
    · subst hb; simp only [hσ, Function.update_self]; have := hu b; omega
    · simp only [hσ, Function.update_of_ne hb]
  have hg : ∀ u ∈ nodes n, ∀ k ∈ nodes n, g3 n s (σ u) (σ k) = g3 n s u k := by
    intro u hu k hk
    rw [mem_nodes] at hu hk
    unfold g3
    refine Finset.prod_congr rfl fun b _ => ?_
    by_cases hb : b = a
    · subst hb; simp only [hσ, Function.update_self]; exact g1_mirror _ hn (hu b) (hk b)
    · simp only [hσ, Function.update_of_ne hb]
  have hm' : Spec.Nontrivial n (Spec.mirrorAxis n a m) := by
    refine ⟨fun u hu => hm.1 _ (mem_nodes.mp (hmem u (mem_nodes.mpr hu))), ?_⟩
    obtain ⟨p, hp, hpp⟩ := hm.2
    refine ⟨σ p, mem_nodes.mp (hmem p (mem_nodes.mpr hp)), ?_⟩
    change 0 < m (σ (σ p))
    rwa [hinv p (mem_nodes.mpr hp)]
  have hU : ∀ u ∈ nodes n, ∑ k ∈ nodes n, Spec.mirrorAxis n a m k * g3 n s u k =
      ∑ k ∈ nodes n, m k * g3 n s (σ u) k := by
    intro u hu
    refine Finset.sum_bij' (fun k _ => σ k) (fun k _ => σ k) hmem hmem hinv hinv ?_
    intro k hk
    change m (σ k) * _ = m (σ k) * _
    rw [hg u hu k hk]
  obtain ⟨w, hw, hpos, hmax, heq⟩ := gaufilt_eq n s m hm
  obtain ⟨w', hw', hpos', hmax', heq'⟩ := gaufilt_eq n s _ hm'
  have hv' := mem_nodes.mpr hv
  change gaufilt n s (Spec.mirrorAxis n a m) v = gaufilt n s m (σ v)
  rw [heq' v hv', heq _ (hmem v hv'), hU v hv', hU w' hw']
  congr 1
  refine le_antisymm (hmax _ (hmem w' hw')) ?_
  have := hmax' (σ w) (hmem w hw)
  rwa [hU _ (hmem w hw), hU w' hw', hinv w hw] at this

/-- Cases of the hypotheses: a source in a corner of 5 by 4 by 3 nodes stays where it is at the lower edge
of the even axis, and is shifted at the upper edge. -/
example : (∀ a, (![5, 4, 3] : V3 ℕ) a % 2 = 1 ∨ (![4, 0, 2] : V3 ℕ) a + 1 < (![5, 4, 3] : V3 ℕ) a) ∧
    (![5, 4, 3] : V3 ℕ) 1 % 2 = 0 ∧ (![4, 3, 2] : V3 ℕ) 1 + 1 = (![5, 4, 3] : V3 ℕ) 1 ∧
    Spec.Nontrivial ![5, 4, 3] (Spec.single ![4, 0, 2] 1) := by
  refine ⟨by decide, by decide, by decide, ?_, ![4, 0, 2], by decide, by simp [Spec.single]⟩
  intro v _
  unfold Spec.single
  split <;> norm_num

end QM
