import Verif.Model.EventFile
import Verif.Lemmas.Round
import Mathlib.Tactic.Positivity
import Mathlib.Tactic.FieldSimp
import Mathlib.Algebra.Order.Field.Basic
import Mathlib.Algebra.Order.Field.Power

/-!
# Lemmas about the event file
-/

namespace QM.EventFile

/-- Rounding without the conversion to integer. -/
def Cell.rnd (d : ℤ) : Cell → Cell
  | .num q => .num (roundTo d q)
  | c => c

theorem mapM_except {α β ε : Type} (f : α → Except ε β) (P : α → Prop) (x : ε)
    (g : α → β) (hf1 : ∀ a, P a → f a = .error x) (hf2 : ∀ a, ¬ P a → f a = .ok (g a))
    (l : List α) :
    ((∃ a ∈ l, P a) → l.mapM f = .error x) ∧ ((¬ ∃ a ∈ l, P a) → l.mapM f = .ok (l.map g)) := by
  induction l with
  | nil => simp [pure, Except.pure]
  | cons a l ih =>
    rw [List.mapM_cons]
    by_cases ha : P a
    · rw [hf1 a ha]
      exact ⟨fun _ => rfl, fun h => absurd ⟨a, by simp, ha⟩ h⟩
    · rw [hf2 a ha]
      constructor
      · rintro ⟨b, hb, hP⟩
        rcases List.mem_cons.mp hb with rfl | hb
        · exact absurd hP ha
        · rw [ih.1 ⟨b, hb, hP⟩]; rfl
      · intro h
        rw [ih.2 (fun ⟨b, hb, hP⟩ => h ⟨b, by simp [hb], hP⟩)]; rfl

theorem mapCol_round (d : ℤ) (c : Str) (t : Dict) :
    mapCol c (Cell.round d) t =
      if d ≤ 0 ∧ ∃ e ∈ t, e.1 = c ∧ e.2 = .nonfinite then .error .intCasting
      else .ok (t.map fun e => (e.1, if e.1 = c then e.2.rnd d else e.2)) := by
  unfold mapCol
  have hm := mapM_except
    (fun e : Str × Cell => if e.1 = c then ((e.2).round d).map (fun v => (e.1, v)) else .ok e)
    (fun e => d ≤ 0 ∧ e.1 = c ∧ e.2 = .nonfinite) Err.intCasting
    (fun e => (e.1, if e.1 = c then e.2.rnd d else e.2)) ?_ ?_ t
  · by_cases h : d ≤ 0 ∧ ∃ e ∈ t, e.1 = c ∧ e.2 = .nonfinite
    · rw [if_pos h]
      obtain ⟨h1, e, he, h2⟩ := h
      exact hm.1 ⟨e, he, h1, h2⟩
    · rw [if_neg h]
      refine hm.2 ?_
      rintro ⟨e, he, h1, h2⟩
      exact h ⟨h1, e, he, h2⟩
  · rintro ⟨k, v⟩ ⟨h1, h2, h3⟩
    simp only at h2 h3
    subst h2 h3
    simp [Cell.round, h1, Except.map]
  · rintro ⟨k, v⟩ h
    by_cases hk : k = c
    · subst hk
      cases v with
      | text s => simp [Cell.round, Cell.rnd, Except.map]
      | num q => simp [Cell.round, Cell.rnd, Except.map]
      | nonfinite =>
        have hd : ¬ d ≤ 0 := fun hd => h ⟨hd, rfl, rfl⟩
        simp [Cell.round, Cell.rnd, hd, Except.map]
    · simp [hk]

theorem rnd_nonfinite (d : ℤ) (c : Cell) : c.rnd d = .nonfinite ↔ c = .nonfinite := by
  cases c <;> simp [Cell.rnd]

theorem roundCols_eq (d : ℤ) (cs : List Str) (hcs : cs.Nodup) (t : Dict) :
    roundCols d cs t =
      if d ≤ 0 ∧ ∃ e ∈ t, e.1 ∈ cs ∧ e.2 = .nonfinite then .error .intCasting
      else .ok (t.map fun e => (e.1, if e.1 ∈ cs then e.2.rnd d else e.2)) := by
  induction cs generalizing t with
  | nil => simp [roundCols]
  | cons c cs ih =>
    obtain ⟨hc, hcs⟩ := List.nodup_cons.mp hcs
    unfold roundCols
    rw [mapCol_round]
    by_cases h : d ≤ 0 ∧ ∃ e ∈ t, e.1 = c ∧ e.2 = .nonfinite
    · rw [if_pos h, if_pos ⟨h.1, by obtain ⟨e, he, h2, h3⟩ := h.2; exact ⟨e, he, by simp [h2], h3⟩⟩]
      rfl
    · rw [if_neg h]
      simp only [bind, Except.bind]
      rw [ih hcs]
      have hmap : (t.map fun e => (e.1, if e.1 = c then e.2.rnd d else e.2)).map
          (fun e => (e.1, if e.1 ∈ cs then e.2.rnd d else e.2)) =
          t.map fun e => (e.1, if e.1 ∈ c :: cs then e.2.rnd d else e.2) := by
        rw [List.map_map]
        apply List.map_congr_left
        intro e _
        by_cases h1 : e.1 = c
        · simp [h1, hc]
        · simp [h1]
      rw [hmap]
      have hcond : (d ≤ 0 ∧ ∃ e ∈ t.map (fun e => (e.1, if e.1 = c then e.2.rnd d else e.2)),
          e.1 ∈ cs ∧ e.2 = .nonfinite) ↔
          (d ≤ 0 ∧ ∃ e ∈ t, e.1 ∈ c :: cs ∧ e.2 = .nonfinite) := by
        refine and_congr_right fun hd => ?_
        constructor
        · rintro ⟨e, he, h2, h3⟩
          obtain ⟨f, hf, rfl⟩ := List.mem_map.mp he
          by_cases h1 : f.1 = c
          · exact absurd (by simpa [h1] using h2) hc
          · rw [if_neg h1] at h3; exact ⟨f, hf, by simp [h2], h3⟩
        · rintro ⟨e, he, h2, h3⟩
          by_cases h1 : e.1 = c
          · exact absurd ⟨hd, e, he, h1, h3⟩ h
          · refine ⟨e, List.mem_map.mpr ⟨e, he, by simp [h1]⟩, ?_, h3⟩
            rcases List.mem_cons.mp h2 with h4 | h4
            · exact absurd h4 h1
            · exact h4
      by_cases h2 : d ≤ 0 ∧ ∃ e ∈ t, e.1 ∈ c :: cs ∧ e.2 = .nonfinite
      · rw [if_pos h2, if_pos (hcond.mpr h2)]
      · rw [if_neg h2, if_neg (fun h => h2 (hcond.mp h))]

theorem le_pyMax_left (a b : ℤ) : a ≤ pyMax a b := by unfold pyMax; split <;> omega
theorem le_pyMax_right (a b : ℤ) : b ≤ pyMax a b := by unfold pyMax; split <;> omega

theorem roundTo_error (d : ℤ) (q : ℚ) : |roundTo d q - q| ≤ (10 : ℚ) ^ (-d) / 2 := by
  have hp : (0 : ℚ) < (10 : ℚ) ^ d := zpow_pos (by norm_num) d
  have h := abs_pyRound_sub_le (q * (10 : ℚ) ^ d)
  unfold roundTo
  have : ((pyRound (q * (10 : ℚ) ^ d) : ℚ) / (10 : ℚ) ^ d - q) =
      ((pyRound (q * (10 : ℚ) ^ d) : ℚ) - q * (10 : ℚ) ^ d) / (10 : ℚ) ^ d := by
    field_simp
  rw [this, abs_div, abs_of_pos hp, zpow_neg, div_le_div_iff₀ hp (by norm_num)]
  have : |(pyRound (q * (10 : ℚ) ^ d) : ℚ) - q * (10 : ℚ) ^ d| * 2 ≤ 1 / 2 * 2 :=
    mul_le_mul_of_nonneg_right h (by norm_num)
  rw [inv_mul_cancel₀ hp.ne']
  linarith

theorem roundTo_error_le (d n : ℤ) (hn : n ≤ d) (q : ℚ) :
    |roundTo d q - q| ≤ (10 : ℚ) ^ (-n) / 2 := by
  refine (roundTo_error d q).trans ?_
  have : (10 : ℚ) ^ (-d) ≤ (10 : ℚ) ^ (-n) := zpow_le_zpow_right₀ (by norm_num) (by omega)
  linarith

/-- With two more decimals than the exponent of the spacing, the error is at most 1/200 of it. -/
theorem roundTo_spacing (d : ℤ) (s : ℚ) (hs : s ≠ 0) (hd : precision s + 2 ≤ d) (q : ℚ) :
    |roundTo d q - q| ≤ |s| / 200 := by
  refine (roundTo_error_le d _ hd q).trans ?_
  unfold precision
  have h := Int.zpow_log_le_self (b := 10) (r := |s|) (by norm_num) (abs_pos.mpr hs)
  have h2 : (10 : ℚ) ^ (-(-Int.log 10 |s| + 2)) = (10 : ℚ) ^ (Int.log 10 |s|) / 100 := by
    rw [show -(-Int.log 10 |s| + 2) = Int.log 10 |s| - 2 by ring, zpow_sub₀ (by norm_num)]
    norm_num
  rw [h2]
  have h3 : ((10 : ℕ) : ℚ) ^ Int.log 10 |s| = (10 : ℚ) ^ Int.log 10 |s| := by norm_num
  rw [h3] at h
  linarith

theorem sigDigits_error (n : ℕ) (q : ℚ) :
    |sigDigits n q - q| ≤ |q| * (10 : ℚ) ^ (1 - (n : ℤ)) / 2 := by
  by_cases hq : q = 0
  · subst hq
    simp [sigDigits, roundTo, pyRound]
  · unfold sigDigits
    refine (roundTo_error _ q).trans ?_
    have h := Int.zpow_log_le_self (b := 10) (r := |q|) (by norm_num) (abs_pos.mpr hq)
    have h3 : ((10 : ℕ) : ℚ) ^ Int.log 10 |q| = (10 : ℚ) ^ Int.log 10 |q| := by norm_num
    rw [h3] at h
    have h2 : (10 : ℚ) ^ (-((n : ℤ) - 1 - Int.log 10 |q|)) =
        (10 : ℚ) ^ (Int.log 10 |q|) * (10 : ℚ) ^ (1 - (n : ℤ)) := by
      rw [← zpow_add₀ (by norm_num)]; congr 1; ring
    rw [h2]
    have hp : (0 : ℚ) < (10 : ℚ) ^ (1 - (n : ℤ)) := zpow_pos (by norm_num) _
    have := mul_le_mul_of_nonneg_right h hp.le
    linarith

end QM.EventFile
