import Verif.Model.NllocLine
import Verif.Props.Export
import Verif.Props.AmpsWrite

/-!
# C132: a NonLinLoc phase file gives the times of the picks
-/

namespace QM

open QM.NllocLine QM.Export
open QM.Stations (Str)
open QM.EventFile (roundTo sigDigits sigDigits_error)

namespace Spec

/-- The time a line stands for. -/
def lineTime (l : Line) : ℚ := 86400 * l.date + 3600 * l.hour + 60 * l.minute + l.seconds

/-- A line as NonLinLoc expects it: an hour of the day, a minute of the hour, and seconds of the minute
(60.0000 is possible, and is the start of the next minute). -/
def WellFormed (l : Line) : Prop :=
  0 ≤ l.hour ∧ l.hour < 24 ∧ 0 ≤ l.minute ∧ l.minute < 60 ∧ 0 ≤ l.seconds ∧ l.seconds ≤ 60 ∧
    ∃ k : ℤ, l.seconds = k / 10000

end Spec

open Spec

private theorem floor_bounds (x : ℚ) : (⌊x⌋ : ℚ) ≤ x ∧ x < ⌊x⌋ + 1 := ⟨Int.floor_le x, Int.lt_floor_add_one x⟩

/-- **C132**: for every pick, whatever its time, the line gives its station and phase, is well formed, and
stands for the time of the pick to half of the last digit shown (0.05 ms), after whole microseconds. -/
theorem C132_time (p : Pick) (hs : p.station ≠ []) (hp : p.phase ≠ []) :
    (lineOf p).station = p.station ∧ (lineOf p).phase = p.phase ∧ WellFormed (lineOf p) ∧
      |lineTime (lineOf p) - p.time| ≤ 1 / 20000 + 1 / 1000000 ∧
      ((∃ k : ℤ, p.time = k / 1000000) → |lineTime (lineOf p) - p.time| ≤ 1 / 20000) := by
  set t := p.time with ht
  have b1 := floor_bounds (t / 86400)
  have b2 := floor_bounds ((t - 86400 * dateOf t) / 3600)
  have b3 := floor_bounds ((t - 86400 * dateOf t - 3600 * hourOf t) / 60)
  have b4 := floor_bounds ((t - 86400 * dateOf t - 3600 * hourOf t - 60 * minuteOf t) * 1000000)
  have hd : dateOf t = ⌊t / 86400⌋ := rfl
  have hh : hourOf t = ⌊(t - 86400 * dateOf t) / 3600⌋ := rfl
  have hm : minuteOf t = ⌊(t - 86400 * dateOf t - 3600 * hourOf t) / 60⌋ := rfl
  have hsec : secondsOf t =
    (⌊(t - 86400 * dateOf t - 3600 * hourOf t - 60 * minuteOf t) * 1000000⌋ : ℚ) / 1000000 := rfl
  rw [← hd] at b1
  rw [← hh] at b2
  rw [← hm] at b3
  generalize ⌊(t - 86400 * dateOf t - 3600 * hourOf t - 60 * minuteOf t) * 1000000⌋ = us at b4 hsec
  have hround := abs_pyRound_sub_le (secondsOf t * 10 ^ (4 : ℤ))
  have hr : (lineOf p).seconds = (pyRound (secondsOf t * 10 ^ (4 : ℤ)) : ℚ) / 10 ^ (4 : ℤ) := rfl
  have hten : (10 : ℚ) ^ (4 : ℤ) = 10000 := by norm_num
  rw [hten] at hround hr
  have hh0 : 0 ≤ hourOf t := Int.floor_nonneg.2 (by linarith)
  have hh1 : hourOf t < 24 := by
    have : (hourOf t : ℚ) < 24 := by linarith
    exact_mod_cast this
  have hm0 : 0 ≤ minuteOf t := Int.floor_nonneg.2 (by linarith)
  have hm1 : minuteOf t < 60 := by
    have : (minuteOf t : ℚ) < 60 := by linarith
    exact_mod_cast this
  have hus0 : 0 ≤ us := by
    have h : (-1 : ℚ) < us := by linarith
    have : (-1 : ℤ) < us := by exact_mod_cast h
    omega
  have hs0 : 0 ≤ secondsOf t := by
    rw [hsec]
    have : (0 : ℚ) ≤ us := by exact_mod_cast hus0
    positivity
  have hs1 : secondsOf t ≤ 60 := by rw [hsec]; linarith
  have hlt : lineTime (lineOf p) = 86400 * dateOf t + 3600 * hourOf t + 60 * minuteOf t +
      (pyRound (secondsOf t * 10000) : ℚ) / 10000 := by
    unfold lineTime
    rw [hr]
    rfl
  rw [abs_le] at hround
  refine ⟨if_neg hs, if_neg hp, ⟨hh0, hh1, hm0, hm1, ?_, ?_, _, hr⟩, ?_, ?_⟩
  · rw [hr]
    have : pyRound (0 : ℚ) ≤ pyRound (secondsOf t * 10000) := pyRound_mono (by linarith)
    have h0 : pyRound (0 : ℚ) = 0 := by simpa using pyRound_int 0
    rw [h0] at this
    have : (0 : ℚ) ≤ pyRound (secondsOf t * 10000) := by exact_mod_cast this
    positivity
  · rw [hr]
    have : pyRound (secondsOf t * 10000) ≤ pyRound (600000 : ℚ) := pyRound_mono (by linarith)
    have h0 : pyRound (600000 : ℚ) = 600000 := by simpa using pyRound_int 600000
    rw [h0] at this
    have : (pyRound (secondsOf t * 10000) : ℚ) ≤ 600000 := by exact_mod_cast this
    linarith
  · rw [hlt, abs_le]
    rw [hsec] at hround ⊢
    constructor <;> linarith
  · rintro ⟨k, hk⟩
    have hexact : (us : ℚ) = (t - 86400 * dateOf t - 3600 * hourOf t - 60 * minuteOf t) * 1000000 := by
      have e : (t - 86400 * dateOf t - 3600 * hourOf t - 60 * minuteOf t) * 1000000 =
          ((k - 1000000 * (86400 * dateOf t + 3600 * hourOf t + 60 * minuteOf t) : ℤ) : ℚ) := by
        push_cast
        have : t * 1000000 = k := by rw [hk]; ring
        linarith
      rw [e] at b4 ⊢
      obtain ⟨c1, c2⟩ := b4
      have c1' : us ≤ k - 1000000 * (86400 * dateOf t + 3600 * hourOf t + 60 * minuteOf t) := by
        exact_mod_cast c1
      have c2' : k - 1000000 * (86400 * dateOf t + 3600 * hourOf t + 60 * minuteOf t) < us + 1 := by
        exact_mod_cast c2
      have : us = k - 1000000 * (86400 * dateOf t + 3600 * hourOf t + 60 * minuteOf t) := by omega
      rw [this]
    rw [hlt, abs_le]
    rw [hsec] at hround ⊢
    constructor <;> linarith

private theorem sig_minus_one : sigDigits 3 (-1) = -1 := by
  have h : Int.log 10 |(-1 : ℚ)| = 0 := by simp
  unfold sigDigits roundTo
  rw [h]
  have h2 : (-1 : ℚ) * 10 ^ (((3 : ℕ) : ℤ) - 1 - 0) = ((-100 : ℤ) : ℚ) := by norm_num
  rw [h2, pyRound_int]
  norm_num

/-- **C132**: the uncertainty is that of the pick to three digits, and -1 if it has none or it is zero. -/
theorem C132_error (p : Pick) :
    (∀ e, p.error = some e → e ≠ 0 → |(lineOf p).error - e| ≤ |e| / 200) ∧
      (p.error = none ∨ p.error = some 0 → (lineOf p).error = -1) := by
  constructor
  · intro e he hne
    have h1 : (lineOf p).error = sigDigits 3 e := by
      simp [lineOf, timeError, he, hne]
    rw [h1]
    refine (sigDigits_error 3 e).trans (le_of_eq ?_)
    have : (10 : ℚ) ^ (1 - ((3 : ℕ) : ℤ)) = 1 / 100 := by norm_num
    rw [this]; ring
  · intro he
    have h1 : (lineOf p).error = sigDigits 3 (-1) := by
      rcases he with he | he <;> simp [lineOf, timeError, he]
    rw [h1, sig_minus_one]

/-- **C132**: the file has one line for each pick of the kind asked for, and no other. -/
theorem C132_lines (rows : List PickRow) (picks : List Pick) (h : readPicks (some rows) = some picks) :
    lines true picks = rows.filterMap (fun r => r.pick.map fun t =>
        lineOf ⟨r.station, r.phase, .autopick, t, some r.error, some r.snr⟩) ∧
    lines false picks = rows.map (fun r =>
        lineOf ⟨r.station, r.phase, .modelled, r.modelled, none, none⟩) := by
  obtain ⟨picks', h1, h2, h3, -⟩ := C70_picks rows
  rw [h] at h1
  obtain rfl := Option.some.inj h1
  unfold lines
  constructor
  · simp only [if_true]
    rw [h3, List.map_filterMap]
    simp [Function.comp_def]
  · simp only [Bool.false_eq_true, if_false]
    rw [h2, List.map_map]
    rfl

/-! ## Cases that meet the hypotheses -/

/-- A pick 0.02 ms before the end of a minute: the seconds are shown as 60.0000. -/
example : (lineOf ⟨['A'], ['P'], .autopick, 1700000039 + 99998 / 100000, some (1 / 8), none⟩).seconds = 60 ∧
    (lineOf ⟨['A'], ['P'], .autopick, 1700000039 + 99998 / 100000, some (1 / 8), none⟩).hour = 22 ∧
    (lineOf ⟨['A'], ['P'], .autopick, 1700000039 + 99998 / 100000, some (1 / 8), none⟩).minute = 13 := by
  decide +kernel

example : ∃ picks, readPicks (some [⟨['A'], ['P'], 10, some (21 / 2), 1, 1⟩, ⟨['A'], ['S'], 15, none, 1, 1⟩]) =
    some picks ∧ (lines true picks).length = 1 ∧ (lines false picks).length = 2 := by
  refine ⟨_, rfl, by decide +kernel, by decide +kernel⟩

end QM
