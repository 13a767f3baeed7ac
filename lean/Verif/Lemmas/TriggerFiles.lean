import Verif.Model.TriggerFiles
import Verif.Lemmas.Days

namespace QM.TriggerFiles
open QM QM.Trigger

theorem readDays_eq (n : ℕ) : ∀ (d : ℤ) (e : ℚ), (⌊e / DAY⌋ + 1 - d).toNat = n →
    readDays d e = (List.range n).map (fun i : ℕ => d + (i : ℤ)) := by
  induction n with
  | zero =>
    intro d e h
    rw [readDays]
    have : ¬ DAY * (d : ℚ) ≤ e := by
      intro hle
      have := readDays_dec hle
      omega
    simp [this]
  | succ n ih =>
    intro d e h
    have hle : DAY * (d : ℚ) ≤ e := by
      have h1 : d ≤ ⌊e / DAY⌋ := by omega
      rw [Int.le_floor] at h1
      unfold DAY at *
      rw [le_div_iff₀ (by norm_num)] at h1
      linarith
    rw [readDays, dif_pos hle, ih (d + 1) e (by omega), List.range_succ_eq_map, List.map_cons,
      List.map_map]
    congr 1
    · simp
    · apply List.map_congr_left
      intro i _
      simp only [Function.comp]
      push_cast; ring

theorem mem_readDays (d : ℤ) (e : ℚ) (k : ℤ) : k ∈ readDays d e ↔ d ≤ k ∧ k ≤ ⌊e / DAY⌋ := by
  rw [readDays_eq _ d e rfl, List.mem_map]
  constructor
  · rintro ⟨i, hi, rfl⟩
    rw [List.mem_range] at hi
    omega
  · intro h
    exact ⟨(k - d).toNat, by rw [List.mem_range]; omega, by omega⟩

theorem readDays_append (d k : ℤ) (e : ℚ) (h1 : d ≤ k) (h2 : k ≤ ⌊e / DAY⌋ + 1) :
    readDays d e = (List.range (k - d).toNat).map (fun i : ℕ => d + (i : ℤ)) ++ readDays k e := by
  rw [readDays_eq _ d e rfl, readDays_eq _ k e rfl]
  have : (⌊e / DAY⌋ + 1 - d).toNat = (k - d).toNat + (⌊e / DAY⌋ + 1 - k).toNat := by omega
  rw [this, List.range_add, List.map_append, List.map_map]
  congr 1
  apply List.map_congr_left
  intro i _
  simp only [Function.comp]
  omega

theorem dayNum_le_iff (k : ℤ) (t : ℚ) : k ≤ dayNum t ↔ DAY * (k : ℚ) ≤ t := by
  unfold dayNum DAY
  rw [Int.le_floor, le_div_iff₀ (by norm_num)]
  constructor <;> intro h <;> linarith

theorem dayNum_mul (k : ℤ) : dayNum (DAY * k) = k := by
  unfold dayNum DAY
  rw [mul_div_cancel_left₀ _ (by norm_num : (86400 : ℚ) ≠ 0), Int.floor_intCast]

theorem dayNum_mono {s t : ℚ} (h : s ≤ t) : dayNum s ≤ dayNum t := by
  unfold dayNum DAY
  apply Int.floor_le_floor
  linarith

/-- Events returned by a read (none when no file was found). -/
theorem readTriggered_getD (f : Files) (a b : ℚ) :
    (readTriggered f a b).getD [] = (((readDays (dayNum a) b).filterMap f).flatten).filter
      (fun e => decide (a ≤ e.coaTime) &&
        (if isMidnight b then decide (e.coaTime < b) else decide (e.coaTime ≤ b))) := by
  unfold readTriggered
  simp only
  split
  · rename_i h; rw [h]; simp
  · split
    · rename_i h1 h2; simp
    · rename_i h1 h2; simp

end QM.TriggerFiles
