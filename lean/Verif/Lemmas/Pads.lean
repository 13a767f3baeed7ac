import Verif.Model.Pads
import Verif.Lemmas.Round
import Mathlib.Tactic.Positivity
import Mathlib.Tactic.FieldSimp

namespace QM.Pads

theorem pyInt_natCast (n : ℕ) : pyInt (n : ℚ) = n := by
  unfold pyInt
  rw [if_pos (by positivity)]
  exact Int.floor_natCast n

theorem pyInt_intCast (n : ℤ) : pyInt (n : ℚ) = n := by
  unfold pyInt; split <;> simp

theorem pyInt_of_nonneg {q : ℚ} (h : 0 ≤ q) : pyInt q = ⌊q⌋ := if_pos h

theorem time2sample_nat (t : ℚ) (sr : ℕ) : time2sample t sr = pyRound (t * sr) := by
  unfold time2sample
  rw [pyInt_natCast]; simp

/-- On whole seconds `trim2sample` is exact. -/
theorem trim2sample_int (n : ℤ) {sr : ℕ} (hsr : 0 < sr) : trim2sample n sr = n := by
  unfold trim2sample
  have h : ((n : ℚ) * (sr : ℚ)) = ((n * sr : ℤ) : ℚ) := by push_cast; ring
  have hsr' : (sr : ℚ) ≠ 0 := by positivity
  rw [h, Int.ceil_intCast]
  have h2 : ((n * sr : ℤ) : ℚ) / sr * 1000 = ((n * 1000 : ℤ) : ℚ) := by
    push_cast; field_simp
  rw [h2, pyInt_intCast]
  push_cast
  ring

/-- `trim2sample` loses less than a millisecond from a whole number of samples. -/
theorem trim2sample_spec {t : ℚ} (ht : 0 ≤ t) {sr : ℕ} (hsr : 0 < sr) :
    ∃ k : ℤ, k = ⌈t * sr⌉ ∧ trim2sample t sr ≤ (k : ℚ) / sr ∧
      (k : ℚ) / sr - 1 / 1000 < trim2sample t sr ∧
      (sr ∣ 1000 → trim2sample t sr = (k : ℚ) / sr) := by
  refine ⟨⌈t * sr⌉, rfl, ?_, ?_, ?_⟩
  all_goals
    have hsr' : (0 : ℚ) < sr := by positivity
    have hk : 0 ≤ ⌈t * sr⌉ := Int.ceil_nonneg (by positivity)
    have hk' : (0 : ℚ) ≤ (⌈t * sr⌉ : ℤ) := by exact_mod_cast hk
    have hq : 0 ≤ ((⌈t * sr⌉ : ℤ) : ℚ) / sr * 1000 := by positivity
    have h1 := Int.floor_le (((⌈t * sr⌉ : ℤ) : ℚ) / sr * 1000)
    have h2 := Int.lt_floor_add_one (((⌈t * sr⌉ : ℤ) : ℚ) / sr * 1000)
    unfold trim2sample
    rw [pyInt_of_nonneg hq]
  · rw [div_le_iff₀ (by norm_num)]; exact h1
  · rw [lt_div_iff₀ (by norm_num)]; linarith
  · rintro ⟨d, hd⟩
    have hd' : (1000 : ℚ) = sr * d := by exact_mod_cast hd
    have h3 : ((⌈t * sr⌉ : ℤ) : ℚ) / sr * 1000 = ((⌈t * sr⌉ * d : ℤ) : ℚ) := by
      rw [hd']; push_cast; field_simp
    rw [h3, Int.floor_intCast]
    push_cast
    rw [hd']
    have : (d : ℚ) ≠ 0 := by
      rintro h
      rw [h] at hd'; norm_num at hd'
    field_simp

theorem foldl_max_le (l : List ℚ) (a : ℚ) : a ≤ l.foldl max a := by
  induction l generalizing a with
  | nil => exact le_rfl
  | cons b l ih => exact (le_max_left a b).trans (ih _)

/-- Windows are lengths of time. -/
def Windows.Nonneg (w : Windows) : Prop := 0 ≤ w.head.1 ∧ 0 ≤ w.head.2

theorem Windows.ltaMax_nonneg {w : Windows} (h : w.Nonneg) : 0 ≤ w.ltaMax :=
  h.2.trans (foldl_max_le _ _)
theorem Windows.staMax_nonneg {w : Windows} (h : w.Nonneg) : 0 ≤ w.staMax :=
  h.1.trans (foldl_max_le _ _)
theorem prePad_nonneg {w : Windows} (h : w.Nonneg) : 0 ≤ prePad w := by
  have h1 := Windows.ltaMax_nonneg h
  have h2 := Windows.staMax_nonneg h
  unfold prePad; linarith

/-- The post pad of a scan is a whole number of seconds. -/
theorem scanPads_snd (w : Windows) (ttmax ts : ℚ) {sr : ℕ} (hsr : 0 < sr) :
    (scanPads w ttmax sr ts).2 = ((⌈ttmax + 2 * w.ltaMax⌉ +
      ⌈(ts + (prePad w + postPad w ttmax)) * (6 / 100)⌉ : ℤ) : ℚ) := by
  unfold scanPads pad
  simp only
  have : postPad w ttmax + (⌈(ts + (prePad w + postPad w ttmax)) * (6 / 100)⌉ : ℤ) =
      ((⌈ttmax + 2 * w.ltaMax⌉ + ⌈(ts + (prePad w + postPad w ttmax)) * (6 / 100)⌉ : ℤ) : ℚ) := by
    unfold postPad; push_cast; ring
  rw [this, trim2sample_int _ hsr]

theorem roundAway_eq {q : ℚ} {n : ℤ} (h : |q - n| < 1 / 2) : roundAway q = n := by
  rw [abs_lt] at h
  unfold roundAway
  split
  · rw [Int.floor_eq_iff]; constructor <;> linarith
  · rw [Int.ceil_eq_iff]; constructor <;> linarith

theorem pyRound_eq {q : ℚ} {n : ℤ} (h : |q - n| < 1 / 2) : pyRound q = n := by
  have h1 := abs_pyRound_sub_le q
  rw [abs_lt] at h
  rw [abs_le] at h1
  have h2 : ((pyRound q : ℤ) : ℚ) < n + 1 := by linarith
  have h3 : (n : ℚ) < (pyRound q : ℤ) + 1 := by linarith
  have h2' : pyRound q < n + 1 := by exact_mod_cast h2
  have h3' : n < pyRound q + 1 := by exact_mod_cast h3
  omega

theorem roundAway_int (n : ℤ) : roundAway (n : ℚ) = n := roundAway_eq (by simp)

/-- The pre pad is within less than half a sample of a whole number of samples. -/
theorem pre_near {t : ℚ} (ht : 0 ≤ t) {sr : ℕ} (hsr : 0 < sr) (h : sr ∣ 1000 ∨ sr ≤ 500) :
    |trim2sample t sr * sr - (⌈t * sr⌉ : ℤ)| < 1 / 2 := by
  obtain ⟨k, hk, h1, h2, h3⟩ := trim2sample_spec ht hsr
  have hsr' : (0 : ℚ) < sr := by positivity
  rw [← hk]
  rcases h with h | h
  · rw [h3 h]
    have : (k : ℚ) / sr * sr - k = 0 := by field_simp; ring
    rw [this]; norm_num
  · have hs : (sr : ℚ) ≤ 500 := by exact_mod_cast h
    have h4 : trim2sample t sr * sr ≤ k := by
      calc trim2sample t sr * sr ≤ (k : ℚ) / sr * sr := by
            exact mul_le_mul_of_nonneg_right h1 hsr'.le
        _ = k := by field_simp
    have h5 : (k : ℚ) - sr / 1000 < trim2sample t sr * sr := by
      calc (k : ℚ) - sr / 1000 = ((k : ℚ) / sr - 1 / 1000) * sr := by field_simp
        _ < _ := mul_lt_mul_of_pos_right h2 hsr'
    rw [abs_lt]
    constructor <;> linarith

end QM.Pads

namespace QM.Pads

theorem scanPads_fst_near (w : Windows) (hw : w.Nonneg) {ttmax : ℚ} (htt : 0 ≤ ttmax)
    {sr : ℕ} (hsr : 0 < sr) (hrate : sr ∣ 1000 ∨ sr ≤ 500) {ts : ℚ} (hts : 0 ≤ ts) :
    ∃ K : ℤ, |(scanPads w ttmax sr ts).1 * sr - K| < 1 / 2 := by
  have hl := Windows.ltaMax_nonneg hw
  have hpre := prePad_nonneg hw
  have hpost : (0 : ℚ) ≤ postPad w ttmax := by
    unfold postPad
    have := Int.ceil_nonneg (show 0 ≤ ttmax + 2 * w.ltaMax by linarith)
    exact_mod_cast this
  have hc : 0 ≤ ⌈(ts + (prePad w + postPad w ttmax)) * (6 / 100)⌉ :=
    Int.ceil_nonneg (by positivity)
  have hc' : (0 : ℚ) ≤ (⌈(ts + (prePad w + postPad w ttmax)) * (6 / 100)⌉ : ℤ) := by
    exact_mod_cast hc
  exact ⟨_, pre_near (by linarith) hsr hrate⟩

/-- A number that is not halfway between two integers has a nearest one. -/
theorem near_of_no_tie {q : ℚ} (h : ∀ z : ℤ, q ≠ z + 1 / 2) : ∃ K : ℤ, |q - K| < 1 / 2 := by
  refine ⟨⌊q + 1 / 2⌋, ?_⟩
  have h1 := Int.floor_le (q + 1 / 2)
  have h2 := Int.lt_floor_add_one (q + 1 / 2)
  have h3 : q + 1 / 2 ≠ (⌊q + 1 / 2⌋ : ℤ) := by
    intro e
    apply h (⌊q + 1 / 2⌋ - 1)
    push_cast
    linarith
  have h4 := lt_of_le_of_ne h1 h3.symm
  rw [abs_lt]
  constructor <;> linarith

/-- Sample bookkeeping of a window starting `x` grid samples after the origin (before
the pre pad) and ending at grid sample `y` (before the post pad). -/
theorem window_samples (w : Windows) {ttmax : ℚ}
    {sr : ℕ} (hsr : 0 < sr) {ts : ℚ}
    (htie : ∀ z : ℤ, (scanPads w ttmax sr ts).1 * sr ≠ z + 1 / 2)
    {origin beg stop : ℚ} {x y : ℤ} 
    (hb : (beg - origin) * sr = x - (scanPads w ttmax sr ts).1 * sr)
    (he : (stop - origin) * sr = y + (scanPads w ttmax sr ts).2 * sr) :
    (readRange origin sr beg stop).1 + time2sample (scanPads w ttmax sr ts).1 sr = x ∧
    coaSamples origin sr (scanPads w ttmax sr ts) beg stop = y - x + 1 := by
  obtain ⟨K, hK⟩ := near_of_no_tie htie
  have h1 : time2sample (scanPads w ttmax sr ts).1 sr = K := by
    rw [time2sample_nat]; exact pyRound_eq hK
  have h2 : roundAway ((beg - origin) * sr) = x - K := by
    apply roundAway_eq
    rw [hb]
    push_cast
    rw [show ((x : ℚ) - (scanPads w ttmax sr ts).1 * sr - (x - K)) =
      -((scanPads w ttmax sr ts).1 * sr - K) by ring, abs_neg]
    exact hK
  have h3 := scanPads_snd w ttmax ts hsr
  generalize (⌈ttmax + 2 * w.ltaMax⌉ + ⌈(ts + (prePad w + postPad w ttmax)) * (6 / 100)⌉ : ℤ) = M at h3
  have h4 : (scanPads w ttmax sr ts).2 * sr = ((M * sr : ℤ) : ℚ) := by rw [h3]; push_cast; ring
  have h5 : time2sample (scanPads w ttmax sr ts).2 sr = M * sr := by
    rw [time2sample_nat, h4, pyRound_int]
  have h6 : roundAway ((stop - origin) * sr) = y + M * sr := by
    rw [he, h4, show ((y : ℚ) + ((M * sr : ℤ) : ℚ)) = ((y + M * sr : ℤ) : ℚ) by push_cast; ring]
    exact roundAway_int _
  unfold coaSamples onsetLength readRange
  simp only
  rw [h1, h2, h5, h6]
  constructor <;> ring

end QM.Pads
