import Verif.Lemmas.Magnitude
import Mathlib.Analysis.Complex.ExponentialBounds

/-!
# Attenuation functions: C81, C82
-/

namespace QM
open QM.Magnitude

/-- The names of attenuation functions in the documentation
(magnitude.py:648-661, `_logA0`). -/
def documentedA0 : List String :=
  ["Hutton-Boore", "keir2006", "Danakil2017", "Greenfield2018", "Greenfield2018_askja",
    "Greenfield2018_bardarbunga", "langston1998", "UK"]

/-- C81: six of the eight documented names are accepted, at every distance.  Missing:
"Greenfield2018" and "langston1998". -/
theorem C81_accepted_partial (n : String) (hn : n ∈ documentedA0) (h1 : n ≠ "Greenfield2018")
    (h2 : n ≠ "langston1998") (d : ℝ) : ∃ x, logA0 n d = some x := by
  unfold documentedA0 at hn
  simp only [List.mem_cons, List.not_mem_nil, or_false] at hn
  rcases hn with rfl | rfl | rfl | rfl | rfl | rfl | rfl | rfl <;>
    first
    | exact absurd rfl h1
    | exact absurd rfl h2
    | exact ⟨_, by simp [logA0]; rfl⟩

/-- C81 is violated: "Greenfield2018" and "langston1998" raise ValueError, at every distance. -/
theorem C81_violated (d : ℝ) : "Greenfield2018" ∈ documentedA0 ∧ "langston1998" ∈ documentedA0 ∧
    logA0 "Greenfield2018" d = none ∧ logA0 "langston1998" d = none := by
  refine ⟨by decide, by decide, ?_, ?_⟩ <;> simp [logA0]

/-- C81: the names accepted; whether a name is accepted does not depend on the distance. -/
theorem C81_accepted_iff (n : String) (d : ℝ) : (∃ x, logA0 n d = some x) ↔
    n ∈ ["keir2006", "Danakil2017", "Greenfield2018_askja", "Greenfield2018_bardarbunga",
      "Greenfield2018_comb", "Hutton-Boore", "Langston1998", "UK"] := by
  simp only [List.mem_cons, List.not_mem_nil, or_false]
  unfold logA0
  split_ifs <;> simp_all

theorem logb_div_lt {d e k : ℝ} (hd : 0 < d) (he : d < e) (hk : 0 < k) :
    Real.logb 10 (d / k) < Real.logb 10 (e / k) := by
  apply Real.logb_lt_logb (by norm_num) (by positivity)
  exact div_lt_div_of_pos_right he hk

theorem log10_lt : Real.log 10 < 2.3105 := by
  have h1 : Real.log 1000 < Real.log 1024 := Real.log_lt_log (by norm_num) (by norm_num)
  rw [show (1000 : ℝ) = 10 ^ (3 : ℕ) by norm_num, show (1024 : ℝ) = 2 ^ (10 : ℕ) by norm_num,
    Real.log_pow, Real.log_pow] at h1
  have h2 := Real.log_two_lt_d9
  push_cast at h1
  linarith

/-- C82: the attenuation term grows with distance; for "Danakil2017" up to 2000 km.  Missing: larger
distances for "Danakil2017". -/
theorem C82_increasing_partial (n : String) (d e x y : ℝ) (hd : 0 < d) (hde : d < e)
    (hn : n = "Danakil2017" → e ≤ 2000) (hx : logA0 n d = some x) (hy : logA0 n e = some y) : x < y := by
  have h17 := logb_div_lt hd hde (show (0 : ℝ) < 17 by norm_num)
  have h100 := logb_div_lt hd hde (show (0 : ℝ) < 100 by norm_num)
  have h1 : Real.logb 10 d < Real.logb 10 e := Real.logb_lt_logb (by norm_num) hd hde
  have hexp : Real.exp (-0.2 * e) < Real.exp (-0.2 * d) := Real.exp_lt_exp.2 (by linarith)
  unfold logA0 at hx hy
  split_ifs at hx hy with g1 g2 g3 g4 g5 g6 g7 g8 <;>
    simp only [Option.some.injEq] at hx hy <;> subst hx hy
  · linarith
  · have he := hn g2
    have he0 : 0 < e := by linarith
    have hlog10 : 0 < Real.log 10 := Real.log_pos (by norm_num)
    have e1 : Real.logb 10 (e / 17) - Real.logb 10 (d / 17) = Real.log (e / d) / Real.log 10 := by
      rw [Real.logb_div he0.ne' (by norm_num), Real.logb_div hd.ne' (by norm_num),
        Real.log_div he0.ne' hd.ne']
      unfold Real.logb
      ring
    have e2 : 1 - d / e ≤ Real.log (e / d) := by
      have := Real.one_sub_inv_le_log_of_pos (show 0 < e / d by positivity)
      rwa [inv_div] at this
    have e3 : (e - d) / 2000 ≤ 1 - d / e := by
      rw [div_le_iff₀ (by norm_num), sub_mul, one_mul, div_mul_eq_mul_div, le_sub_iff_add_le,
        ← le_sub_iff_add_le', div_le_iff₀ he0]
      nlinarith
    have e4 : (e - d) / 2000 / 2.3105 ≤ Real.log (e / d) / Real.log 10 := by
      have hpos : 0 < (e - d) / 2000 := by
        apply div_pos <;> linarith
      apply div_le_div₀ (by linarith) (by linarith) hlog10 log10_lt.le
    have e5 : 0.000273 * (e - d) < 1.274336 * ((e - d) / 2000 / 2.3105) := by
      have : 0 < e - d := by linarith
      rw [div_div, mul_div_assoc', lt_div_iff₀ (by norm_num)]
      nlinarith
    nlinarith
  · linarith
  · linarith
  · linarith
  · linarith
  · linarith
  · linarith

/-- C82 is violated for "Danakil2017": the attenuation term at 17000 km is below that at 1700 km. -/
theorem C82_violated : ∃ x y, logA0 "Danakil2017" 1700 = some x ∧ logA0 "Danakil2017" 17000 = some y ∧
    y < x := by
  refine ⟨1.274336 * Real.logb 10 (1700 / 17) - 0.000273 * (1700 - 17) + 2,
    1.274336 * Real.logb 10 (17000 / 17) - 0.000273 * (17000 - 17) + 2, by simp [logA0], by simp [logA0], ?_⟩
  have h1 : Real.logb 10 ((1700 : ℝ) / 17) = 2 := by
    rw [show (1700 : ℝ) / 17 = 10 ^ (2 : ℕ) by norm_num, Real.logb_pow]
    simp
  have h2 : Real.logb 10 ((17000 : ℝ) / 17) = 3 := by
    rw [show (17000 : ℝ) / 17 = 10 ^ (3 : ℕ) by norm_num, Real.logb_pow]
    simp
  rw [h1, h2]
  norm_num

/-- C82: the anchors.  An amplitude of 1 mm at 100 km has magnitude 3 with "Hutton-Boore"; the other
functions, "UK" excepted, give an amplitude of 1 mm at 17 km magnitude 2. -/
theorem C82_anchor : logA0 "Hutton-Boore" 100 = some 3 ∧
    ∀ n ∈ ["keir2006", "Danakil2017", "Greenfield2018_askja", "Greenfield2018_bardarbunga",
      "Greenfield2018_comb", "Langston1998"], logA0 n 17 = some 2 := by
  refine ⟨by simp [logA0], ?_⟩
  intro n hn
  simp only [List.mem_cons, List.not_mem_nil, or_false] at hn
  rcases hn with rfl | rfl | rfl | rfl | rfl | rfl <;> simp [logA0]

/-- The hypotheses of `C82_increasing_partial` are met. -/
example : ∃ x y, logA0 "Danakil2017" 17 = some x ∧ logA0 "Danakil2017" 1700 = some y := by
  exact ⟨_, _, by simp [logA0]; rfl, by simp [logA0]; rfl⟩

end QM
