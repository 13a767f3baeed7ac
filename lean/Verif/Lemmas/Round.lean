import Verif.Py

namespace QM

theorem pyRound_int (n : ℤ) : pyRound (n : ℚ) = n := by
  unfold pyRound
  simp

theorem pyRound_cases (q : ℚ) : (pyRound q = ⌊q⌋ ∧ q - ⌊q⌋ ≤ 1 / 2) ∨
    (pyRound q = ⌊q⌋ + 1 ∧ 1 / 2 ≤ q - ⌊q⌋) := by
  unfold pyRound
  split
  · left; exact ⟨rfl, by linarith⟩
  · split
    · right; exact ⟨rfl, by linarith⟩
    · split
      · left; exact ⟨rfl, by linarith⟩
      · right; exact ⟨rfl, by linarith⟩

theorem abs_pyRound_sub_le (q : ℚ) : |(pyRound q : ℚ) - q| ≤ 1 / 2 := by
  have h1 := Int.floor_le q
  have h2 := Int.lt_floor_add_one q
  rw [abs_le]
  rcases pyRound_cases q with ⟨h, h3⟩ | ⟨h, h3⟩ <;> rw [h]
  · constructor <;> linarith
  · push_cast; constructor <;> linarith

theorem pyRound_mono {p q : ℚ} (h : p ≤ q) : pyRound p ≤ pyRound q := by
  have hp1 := Int.floor_le p
  have hp2 := Int.lt_floor_add_one p
  have hq1 := Int.floor_le q
  have hq2 := Int.lt_floor_add_one q
  have hf : ⌊p⌋ ≤ ⌊q⌋ := Int.floor_le_floor h
  by_cases he : ⌊p⌋ = ⌊q⌋
  · unfold pyRound
    rw [he]
    repeat' split
    all_goals first
      | omega
      | (exfalso; linarith)
  · rcases pyRound_cases p with ⟨h1, -⟩ | ⟨h1, -⟩ <;> rcases pyRound_cases q with ⟨h2, -⟩ | ⟨h2, -⟩ <;> omega

end QM
