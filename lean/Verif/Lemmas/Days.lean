import Verif.Py
import Mathlib.Tactic.FieldSimp

namespace QM

theorem dayStart_le (t : ℚ) : dayStart t ≤ t := by
  unfold dayStart DAY
  have := Int.floor_le (t / 86400)
  linarith [mul_le_mul_of_nonneg_left this (show (0 : ℚ) ≤ 86400 by norm_num),
    mul_div_cancel₀ t (show (86400 : ℚ) ≠ 0 by norm_num)]

theorem lt_dayStart_add (t : ℚ) : t < dayStart t + DAY := by
  unfold dayStart DAY
  have := Int.lt_floor_add_one (t / 86400)
  linarith [mul_lt_mul_of_pos_left this (show (0 : ℚ) < 86400 by norm_num),
    mul_div_cancel₀ t (show (86400 : ℚ) ≠ 0 by norm_num)]

theorem dayStart_eq_of {t : ℚ} {k : ℤ} (h1 : DAY * k ≤ t) (h2 : t < DAY * (k + 1)) :
    dayStart t = DAY * k := by
  have hf : ⌊t / DAY⌋ = k := by
    rw [Int.floor_eq_iff]
    unfold DAY at *
    constructor
    · rw [le_div_iff₀ (by norm_num)]; linarith
    · rw [div_lt_iff₀ (by norm_num)]; linarith
  unfold dayStart
  rw [hf]

theorem isMidnight_mul (k : ℤ) : isMidnight (DAY * k) := by
  unfold isMidnight
  refine dayStart_eq_of le_rfl ?_
  unfold DAY; linarith

theorem isMidnight_iff (t : ℚ) : isMidnight t ↔ ∃ k : ℤ, t = DAY * k := by
  constructor
  · intro h; exact ⟨⌊t / DAY⌋, h.symm⟩
  · rintro ⟨k, rfl⟩; exact isMidnight_mul k

end QM
