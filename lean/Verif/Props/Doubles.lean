import Verif.Lemmas.Doubles
import Mathlib.Tactic.IntervalCases
import Mathlib.Tactic.NormNum.DivMod

/-!
# C41, C118-C121: the arithmetic of times and samples in doubles
-/

namespace QM

open Doubles

namespace Spec

/-- `a` and `b` (nanoseconds) are whole microseconds and `k` sample intervals apart at `sr` Hz. -/
def SamplesApart (a b : ℤ) (sr k : ℕ) : Prop := (b - a) * sr = k * 1000000000 ∧ (1000 : ℤ) ∣ b - a

/-- A rate that is a sum of two powers of two: 5, 10, 20, 40, 80, 160 Hz, all powers of two, ... -/
def TwoBits (sr : ℕ) : Prop := ∃ i j : ℕ, sr = 2 ^ i + 2 ^ j

end Spec

/-! ## time2sample -/

/-- Dividing by the rate and multiplying again: less than half a sample off. -/
theorem product_near {k sr : ℕ} (hk : k ≤ 2 ^ 50) (hsr : 0 < sr) :
    |fl (fl ((k : ℚ) / sr) * sr) - k| ≤ 1 / 4 := by
  have hs : (0 : ℚ) < sr := by exact_mod_cast hsr
  have hkq : (k : ℚ) ≤ 2 ^ 50 := by exact_mod_cast hk
  have hk0 : (0 : ℚ) ≤ k := by positivity
  have h1 := fl_error ((k : ℚ) / sr)
  set q := fl ((k : ℚ) / sr)
  have h2 : |q * sr - k| ≤ k / 2 ^ 53 := by
    have e : q * sr - k = (q - (k : ℚ) / sr) * sr := by field_simp
    rw [e, abs_mul, abs_of_pos hs]
    rw [abs_of_nonneg (div_nonneg hk0 hs.le)] at h1
    calc _ ≤ (k : ℚ) / sr / 2 ^ 53 * sr := mul_le_mul_of_nonneg_right h1 hs.le
      _ = k / 2 ^ 53 := by field_simp
  have h3 := fl_error (q * sr)
  have h4 : |q * sr| ≤ 2 ^ 50 + 1 := by
    have := abs_sub_abs_le_abs_sub (q * sr) k
    rw [abs_of_nonneg hk0] at this
    have : (k : ℚ) / 2 ^ 53 ≤ 1 := by
      rw [div_le_one (by norm_num)]; linarith
    linarith
  have h5 : |fl (q * sr) - k| ≤ |fl (q * sr) - q * sr| + |q * sr - k| := by
    have : fl (q * sr) - k = (fl (q * sr) - q * sr) + (q * sr - k) := by ring
    rw [this]; exact abs_add_le _ _
  have h6 : (k : ℚ) / 2 ^ 53 ≤ 1 / 8 := by
    rw [div_le_iff₀ (by norm_num)]; norm_num at hkq ⊢; linarith
  have h7 : |q * sr| / 2 ^ 53 ≤ (2 ^ 50 + 1) / 2 ^ 53 := by
    apply div_le_div_of_nonneg_right h4 (by norm_num)
  by_cases hk49 : (k : ℚ) ≤ 2 ^ 49
  · have h6' : (k : ℚ) / 2 ^ 53 ≤ 1 / 16 := by
      rw [div_le_iff₀ (by norm_num)]; norm_num at hk49 ⊢; linarith
    have : ((2 : ℚ) ^ 50 + 1) / 2 ^ 53 ≤ 1 / 8 + 1 / 16 := by norm_num
    linarith
  · -- the product is a whole number plus a multiple of an eighth
    have h8 := fl_nearest (q * sr) k ⟨k, 0, by
      rw [abs_of_nonneg (by positivity)]; exact_mod_cast hk.trans (by norm_num), by simp⟩
    have : |fl (q * sr) - q * sr| ≤ |q * sr - k| := by rw [abs_sub_comm]; exact h8
    linarith

/-- C41 in doubles: a time that is a whole number of samples (to the nearest double) gives that number,
for every rate and up to 2^50 samples. -/
theorem C41_exact_in_doubles (k sr : ℕ) (hk : k ≤ 2 ^ 50) (hsr : 0 < sr) :
    Doubles.time2sample (fl ((k : ℚ) / sr)) sr = k := by
  unfold Doubles.time2sample
  apply pyRound_eq
  have := product_near hk hsr
  push_cast
  linarith

example : Doubles.time2sample (fl (201 / 10)) 50 = 1005 := by decide +kernel

/-! ## C118: complete data is used -/

theorem timespan_eq {a b : ℤ} {sr k : ℕ} (hsr : 0 < sr) (h : Spec.SamplesApart a b sr k) :
    timespan a b = fl ((k : ℚ) / sr) := by
  obtain ⟨h1, c, hc⟩ := h
  have hs : (sr : ℚ) ≠ 0 := by exact_mod_cast hsr.ne'
  have h1q : ((b - a : ℤ) : ℚ) * sr = k * 1000000000 := by exact_mod_cast h1
  unfold timespan
  have e1 : ((b - a : ℤ) : ℚ) / 1000 = c := by
    rw [hc]; push_cast; field_simp
  rw [e1, pyRound_int]
  congr 1
  rw [hc] at h1q
  push_cast at h1q
  rw [div_eq_div_iff (by norm_num) hs]
  linarith

theorem nSamples_bounds {k sr : ℕ} (hk : k ≤ 2 ^ 50) (hsr : 0 < sr) :
    (k : ℚ) + 3 / 4 ≤ nSamples (fl ((k : ℚ) / sr)) sr ∧ nSamples (fl ((k : ℚ) / sr)) sr ≤ k + 5 / 4 := by
  have h := abs_le.mp (product_near hk hsr)
  have hd : ∀ n : ℕ, n ≤ 2 ^ 53 → fl ((n : ℚ) / 4) = (n : ℚ) / 4 := by
    intro n hn
    apply fl_of_isDouble
    refine ⟨n, -2, by rw [abs_of_nonneg (by positivity)]; exact_mod_cast hn, ?_⟩
    norm_num
    ring
  have e1 := hd (4 * k + 3) (by omega)
  have e2 := hd (4 * k + 5) (by omega)
  push_cast at e1 e2
  unfold nSamples
  constructor
  · calc (k : ℚ) + 3 / 4 = fl ((4 * k + 3) / 4) := by rw [e1]; ring
      _ ≤ _ := fl_mono (by linarith)
  · calc _ ≤ fl ((4 * (k : ℚ) + 5) / 4) := fl_mono (by linarith)
      _ = _ := by rw [e2]; ring

/-- When the product is exact, so is the number of samples asked for. -/
theorem nSamples_exact {k sr : ℕ} (hk : k < 2 ^ 52) (h : fl (fl ((k : ℚ) / sr) * sr) = k) :
    nSamples (fl ((k : ℚ) / sr)) sr = k + 1 := by
  unfold nSamples
  rw [h]
  have := fl_nat (n := k + 1) (by omega)
  push_cast at this
  exact this

/-- Rates of two bits and window lengths that are doubles give exact products. -/
theorem product_exact {k sr : ℕ} (hk : k < 2 ^ 52) (hsr : 0 < sr)
    (h : Spec.TwoBits sr ∨ Spec.IsDouble ((k : ℚ) / sr)) : fl (fl ((k : ℚ) / sr) * sr) = k := by
  rcases h with ⟨i, j, rfl⟩ | h
  · exact fl_div_mul hk i j
  · have hs : (sr : ℚ) ≠ 0 := by exact_mod_cast hsr.ne'
    rw [fl_of_isDouble h, div_mul_cancel₀ _ hs]
    exact fl_nat (by omega)

/-- C118 (partial): complete data of a channel that is not flat is used if the sampling rate is a sum of
two powers of two, or the length of the window in seconds is itself a double (a whole number of seconds,
halves, quarters...).  Missing: other rates, 50 and 100 Hz among them (see `C118_violated`). -/
theorem C118_complete_used_partial (a b : ℤ) (sr k : ℕ) (hsr : 0 < sr) (hk : k < 2 ^ 52)
    (h : Spec.SamplesApart a b sr k) (hr : Spec.TwoBits sr ∨ Spec.IsDouble ((k : ℚ) / sr)) :
    channelUsed false sr (k + 1) a b sr = true := by
  simp only [channelUsed, fullTimespan, timespan_eq hsr h, nSamples_exact hk (product_exact hk hsr hr)]
  simp

/-- C118: at every rate, a channel is only used if no sample is missing, it has the right rate and is not
flat; one sample more than the window holds is always enough. -/
theorem C118_incomplete_refused (a b : ℤ) (sr k : ℕ) (hsr : 0 < sr) (hk : k ≤ 2 ^ 50)
    (h : Spec.SamplesApart a b sr k) (flat : Bool) (rate npts : ℕ) :
    (channelUsed flat rate npts a b sr = true → flat = false ∧ rate = sr ∧ k + 1 ≤ npts) ∧
    (k + 2 ≤ npts → channelUsed false sr npts a b sr = true) := by
  have hb := nSamples_bounds hk hsr
  constructor
  · intro hu
    simp only [channelUsed, fullTimespan, Bool.and_eq_true, Bool.not_eq_true', decide_eq_true_eq,
      decide_eq_false_iff_not, not_lt] at hu
    obtain ⟨⟨h1, rfl⟩, h3⟩ := hu
    refine ⟨h1, rfl, ?_⟩
    rw [timespan_eq hsr h] at h3
    have : (k : ℚ) < npts := by linarith [hb.1]
    exact_mod_cast this
  · intro hn
    have hn' : (k : ℚ) + 2 ≤ npts := by exact_mod_cast hn
    simp only [channelUsed, fullTimespan, timespan_eq hsr h]
    simp only [Bool.not_false, decide_true, Bool.true_and, Bool.not_eq_true', decide_eq_false_iff_not, not_lt]
    linarith [hb.2]

/-- The hypotheses are met at 40 Hz and 16.6 s, and at 50 Hz and 12.5 s. -/
example : Spec.SamplesApart 100000000000 116600000000 40 664 ∧ Spec.TwoBits 40 ∧
    Spec.SamplesApart 100000000000 112500000000 50 625 ∧ Spec.IsDouble ((625 : ℕ) / (50 : ℕ)) := by
  refine ⟨⟨by norm_num, ⟨16600000, by norm_num⟩⟩, ⟨5, 3, by norm_num⟩, ⟨by norm_num, ⟨12500000, by norm_num⟩⟩,
    ⟨25, -1, by norm_num, by norm_num⟩⟩

/-- Whole seconds are added to a time without error. -/
theorem toNs_nat {n : ℕ} (hn : n ≤ 2 ^ 32) : toNs (fl n) = n * 1000000000 := by
  unfold toNs
  rw [fl_nat (hn.trans (by norm_num)), fl_of_isDouble]
  · have := pyRound_int (n * 1000000000)
    push_cast at this
    exact this
  · refine ⟨n * 1953125, 9, ?_, by push_cast; norm_num; ring⟩
    rw [abs_of_nonneg (by positivity)]
    have : (n : ℤ) ≤ 2 ^ 32 := by exact_mod_cast hn
    linarith

/-- The window of a timestep of whole seconds. -/
theorem detectWindow_eq (start : ℤ) (T sr : ℕ) (pads : ℚ × ℚ) (i : ℕ) (hi : T * (i + 1) ≤ 2 ^ 32) :
    detectWindow start T sr pads i = (start + T * i * 1000000000 - toNs pads.1,
      start + T * (i + 1) * 1000000000 - toNs (fl (1 / sr)) + toNs pads.2) := by
  have h1 := toNs_nat (n := T * i) (by nlinarith)
  have h2 := toNs_nat (n := T * (i + 1)) hi
  push_cast at h1 h2
  unfold detectWindow
  rw [h1, h2]

theorem postPad_cases {tt : ℚ} {lo hi : ℕ} (h0 : (lo : ℚ) ≤ tt) (h1 : tt ≤ hi) (hhi : hi ≤ 2 ^ 50) :
    ∃ p : ℕ, lo + 2 ≤ p ∧ p ≤ hi + 2 ∧ postPad 1 tt = p := by
  have e2 : fl (2 * 1) = 2 := by
    have := fl_nat (n := 2) (by norm_num); norm_num at this ⊢; exact this
  have g1 : ((lo + 2 : ℕ) : ℚ) ≤ fl (tt + 2) := by
    rw [← fl_nat (n := lo + 2) (by
      have : (lo : ℚ) ≤ hi := h0.trans h1
      have : lo ≤ hi := by exact_mod_cast this
      omega)]
    apply fl_mono; push_cast; linarith
  have g2 : fl (tt + 2) ≤ ((hi + 2 : ℕ) : ℚ) := by
    rw [← fl_nat (n := hi + 2) (by omega)]
    apply fl_mono; push_cast; linarith
  have c1 : ((lo + 2 : ℕ) : ℤ) ≤ ⌈fl (tt + 2)⌉ := by
    have : ((lo + 2 : ℕ) : ℚ) ≤ ⌈fl (tt + 2)⌉ := g1.trans (Int.le_ceil _)
    exact_mod_cast this
  have c2 : ⌈fl (tt + 2)⌉ ≤ ((hi + 2 : ℕ) : ℤ) := Int.ceil_le.mpr (by exact_mod_cast g2)
  obtain ⟨p, hp⟩ := Int.eq_ofNat_of_zero_le (show 0 ≤ ⌈fl (tt + 2)⌉ by omega)
  refine ⟨p, by omega, by omega, ?_⟩
  unfold postPad
  rw [e2, hp]; rfl

/-- Only the length of the window matters. -/
theorem channelUsed_shift (flat : Bool) (rate npts : ℕ) (a b : ℤ) (sr : ℕ) :
    channelUsed flat rate npts a b sr = channelUsed flat rate npts 0 (b - a) sr := by
  simp [channelUsed, fullTimespan, timespan]

/-- C118 is violated with the default settings of detect (a timestep of 120 s, windows of 0.2 s and
1.0 s, 50 Hz), for every table whose largest traveltime is at most 22 s: whatever the start time and the
timestep, the window read holds `k + 1` samples, on the sample grid if the start is, and a channel
that has them all is refused.  So detect finds no data at all in a complete archive. -/
theorem C118_violated (tt : ℚ) (h0 : 0 ≤ tt) (h1 : tt ≤ 22) (start : ℤ) (i : ℕ)
    (hi : 120 * (i + 1) ≤ 2 ^ 32) :
    let w := detectWindow start 120 50 (Doubles.pad (prePad (fl (2 / 10)) 1) (postPad 1 tt) 50 120) i
    ∃ k, Spec.SamplesApart w.1 w.2 50 k ∧
      ((20000000 : ℤ) ∣ start → (20000000 : ℤ) ∣ w.1 ∧ samplesIn w.1 w.2 20000000 = k + 1) ∧
      channelUsed false 50 (k + 1) w.1 w.2 50 = false := by
  obtain ⟨p, hp1, hp2, hp⟩ := postPad_cases (lo := 0) (hi := 22) (by exact_mod_cast h0)
    (by exact_mod_cast h1) (by norm_num)
  intro w
  have hw : w = detectWindow start (120 : ℕ) 50 (Doubles.pad (prePad (fl (2 / 10)) 1) p 50 120) i := by
    rw [← hp]; rfl
  rw [detectWindow_eq _ _ _ _ _ hi] at hw
  have hq : toNs (fl (1 / (50 : ℕ))) = 20000000 := by decide +kernel
  set x : ℕ := if p ≤ 11 then 480 else 530 with hx
  set y : ℕ := if p ≤ 11 then (p + 8) * 50 else (p + 9) * 50 with hy
  have hpads : toNs (Doubles.pad (prePad (fl (2 / 10)) 1) p 50 120).1 = x * 20000000 ∧
      toNs (Doubles.pad (prePad (fl (2 / 10)) 1) p 50 120).2 = y * 20000000 ∧
      channelUsed false 50 (5999 + x + y + 1) 0 ((5999 + x + y : ℕ) * 20000000) 50 = false := by
    rw [hx, hy]
    clear_value w
    clear hw hp hx hy x y
    interval_cases p <;> decide +kernel
  obtain ⟨p1, p2, p3⟩ := hpads
  rw [hq, p1, p2] at hw
  refine ⟨5999 + x + y, ⟨?_, ?_⟩, ?_, ?_⟩
  · rw [hw]; push_cast; ring
  · rw [hw]; exact ⟨(5999 + x + y) * 20000, by push_cast; ring⟩
  · rintro ⟨c, hc⟩
    rw [hw, hc]
    refine ⟨⟨c + 120 * i * 50 - x, by push_cast; ring⟩, ?_⟩
    unfold samplesIn
    push_cast
    omega
  · rw [channelUsed_shift, ← p3]
    congr 1
    rw [hw]; push_cast; ring

theorem calculateOnsets_none {α : Type} (phases stations : List Compute.Str)
    (av : Compute.Str → Compute.Str → ℕ) (onset : Compute.Str → Compute.Str → α) (h : ∀ s p, av s p = 0) :
    Compute.calculateOnsets phases stations av onset = .error .dataAvailability := by
  have hv : ∀ (st : List (Compute.Str × ℕ) × List α) sp, (∀ e ∈ st.1, e.2 = 0) →
      ∀ e ∈ (Compute.visit av onset st sp).1, e.2 = 0 := by
    intro st sp hst e he
    have he' : e ∈ Compute.dictSet st.1 (Compute.key sp.1 sp.2) (av sp.1 sp.2) := by
      unfold Compute.visit at he
      dsimp only at he
      split at he <;> exact he
    unfold Compute.dictSet at he'
    split at he'
    · obtain ⟨x, hx, rfl⟩ := List.mem_map.mp he'
      split
      · exact h _ _
      · exact hst x hx
    · rcases List.mem_append.mp he' with hx | hx
      · exact hst e hx
      · rw [List.mem_singleton.mp hx]; exact h _ _
  have hin : ∀ (ss : List Compute.Str) ph (st : List (Compute.Str × ℕ) × List α), (∀ e ∈ st.1, e.2 = 0) →
      ∀ e ∈ (ss.foldl (fun st s => Compute.visit av onset st (s, ph)) st).1, e.2 = 0 := by
    intro ss ph
    induction ss with
    | nil => intro st hst; exact hst
    | cons s ss ih => intro st hst; exact ih _ (hv _ _ hst)
  have hout : ∀ (ps : List Compute.Str) (st : List (Compute.Str × ℕ) × List α), (∀ e ∈ st.1, e.2 = 0) →
      ∀ e ∈ (ps.foldl (fun st ph => stations.foldl (fun st s => Compute.visit av onset st (s, ph)) st) st).1,
        e.2 = 0 := by
    intro ps
    induction ps with
    | nil => intro st hst; exact hst
    | cons p ps ih => intro st hst; exact ih _ (hin _ _ _ hst)
  have := hout phases ([], []) (by simp)
  unfold Compute.calculateOnsets
  dsimp only
  rw [if_pos]
  apply List.sum_eq_zero
  intro x hx
  obtain ⟨e, he, rfl⟩ := List.mem_map.mp hx
  exact this e he

theorem channelUsed_mono {flat : Bool} {rate n m : ℕ} {a b : ℤ} {sr : ℕ} (h : n ≤ m)
    (hm : channelUsed false sr m a b sr = false) : channelUsed flat rate n a b sr = false := by
  unfold channelUsed fullTimespan at *
  by_cases hr : rate = sr
  · subst hr
    have hm' : ((m : ℚ) < nSamples (timespan a b) rate) := by simpa using hm
    have : ((n : ℚ) < nSamples (timespan a b) rate) := lt_of_le_of_lt (by exact_mod_cast h) hm'
    simp [this]
  · simp [hr]

/-- The consequence for a whole run: with these settings, detect gives nothing but zeros, and an
availability of 0 everywhere, without an error, whatever is in the archive (a channel cannot have more
samples in a window than there are sample times in it), whatever the phases, stations and onset functions,
and whatever would have been migrated. -/
theorem C118_violated_run {α : Type} (tt : ℚ) (h0 : 0 ≤ tt) (h1 : tt ≤ 22) (start : ℤ)
    (hstart : (20000000 : ℤ) ∣ start) (n : ℕ) (hn : 120 * n ≤ 2 ^ 32) (cols : List String) (ucf : ℚ)
    (phases stations : List Compute.Str) (all : Bool) (count : ℕ)
    (data : ℤ × ℤ → Compute.Str → Compute.Str → List (List Chunk))
    (hdata : ∀ w s p, ∀ ch ∈ data w s p, ∀ t ∈ ch, t.npts ≤ samplesIn w.1 w.2 20000000)
    (onset : ℤ × ℤ → Compute.Str → Compute.Str → α)
    (rest : List (Compute.Str × ℕ) × List α → Detect.Outcome) :
    let pads := Doubles.pad (prePad (fl (2 / 10)) 1) (postPad 1 tt) 50 120
    let c : Detect.Cfg := ⟨120, 50, (toNs pads.1 : ℚ) / 1000000000, (toNs pads.2 : ℚ) / 1000000000, cols, ucf⟩
    let r := Detect.loop c ((start : ℚ) / 1000000000) (fun w =>
      Doubles.step phases stations all count 50 data onset rest (⌊w.1 * 1000000000⌋, ⌊w.2 * 1000000000⌋)) n 0
    r.completed = true ∧ r.blocks.length = n ∧ r.rows.length = n ∧
      (∀ b ∈ r.blocks, ∀ s ∈ b.vals, s = ⟨0, 0, 0, 0, 0⟩) ∧ (∀ row ∈ r.rows, ∀ v ∈ row.2, v = 0) := by
  intro pads c r
  have hq : toNs (fl (1 / 50)) = 20000000 := by decide +kernel
  have hstep : ∀ i, 120 * (i + 1) ≤ 2 ^ 32 →
      (fun w : ℚ × ℚ => Doubles.step phases stations all count 50 data onset rest
        (⌊w.1 * 1000000000⌋, ⌊w.2 * 1000000000⌋)) (Detect.window c ((start : ℚ) / 1000000000) i) =
      .dataAvailability := by
    intro i hi
    obtain ⟨k, -, hk, hu⟩ := C118_violated tt h0 h1 start i hi
    obtain ⟨-, hk⟩ := hk hstart
    have hwin : (⌊(Detect.window c ((start : ℚ) / 1000000000) i).1 * 1000000000⌋,
        ⌊(Detect.window c ((start : ℚ) / 1000000000) i).2 * 1000000000⌋) =
        detectWindow start 120 50 pads i := by
      have e := detectWindow_eq start 120 50 pads i hi
      push_cast at e
      rw [e, hq]
      have e1 : (Detect.window c ((start : ℚ) / 1000000000) i).1 * 1000000000 =
          ((start + 120 * i * 1000000000 - toNs pads.1 : ℤ) : ℚ) := by
        simp only [Detect.window, c]; push_cast; ring
      have e2 : (Detect.window c ((start : ℚ) / 1000000000) i).2 * 1000000000 =
          ((start + 120 * (i + 1) * 1000000000 - 20000000 + toNs pads.2 : ℤ) : ℚ) := by
        simp only [Detect.window, Detect.Cfg.delta, c]; push_cast; ring
      rw [e1, e2, Int.floor_intCast, Int.floor_intCast]
    dsimp only
    rw [hwin]
    set w := detectWindow start 120 50 pads i with hw
    unfold Doubles.step
    rw [calculateOnsets_none]
    intro s p
    rw [if_neg]
    have hch : ∀ ch ∈ data w s p, channelOk w.1 w.2 50 ch = false := by
      intro ch hch
      unfold channelOk
      split
      · rename_i t
        exact channelUsed_mono ((hdata w s p _ hch t (by simp)).trans hk.le) hu
      · rfl
    unfold stationOk
    cases hd : data w s p with
    | nil => simp
    | cons x xs =>
      rw [hd] at hch
      have h1 : (x :: xs).all (channelOk w.1 w.2 50) = false := by
        rw [List.all_eq_false]; exact ⟨x, by simp, by rw [hch x (by simp)]; simp⟩
      have h2 : (x :: xs).any (channelOk w.1 w.2 50) = false := by
        rw [List.any_eq_false]; intro ch h; rw [hch ch h]; simp
      rw [if_neg (by simp), h1, h2]
      simp
  have hloop : ∀ m i, 120 * (i + m) ≤ 2 ^ 32 →
      let r := Detect.loop c ((start : ℚ) / 1000000000) (fun w =>
        Doubles.step phases stations all count 50 data onset rest
          (⌊w.1 * 1000000000⌋, ⌊w.2 * 1000000000⌋)) m i
      r.completed = true ∧ r.blocks.length = m ∧ r.rows.length = m ∧
      (∀ b ∈ r.blocks, ∀ s ∈ b.vals, s = ⟨0, 0, 0, 0, 0⟩) ∧ (∀ row ∈ r.rows, ∀ v ∈ row.2, v = 0) := by
    intro m
    induction m with
    | zero => intro i _; simp [Detect.loop]
    | succ m ih =>
      intro i him
      have hs := hstep i (by omega)
      have hi := ih (i + 1) (by omega)
      dsimp only at hs hi ⊢
      unfold Detect.loop
      dsimp only
      rw [hs]
      dsimp only
      obtain ⟨a1, a2, a3, a4, a5⟩ := hi
      refine ⟨a1, by simp [a2], by simp [a3], ?_, ?_⟩
      · intro b hb s hsm
        rcases List.mem_cons.mp hb with rfl | hb
        · exact (List.mem_replicate.mp hsm).2
        · exact a4 b hb s hsm
      · intro row hr v hv
        rcases List.mem_cons.mp hr with rfl | hr
        · exact (List.mem_replicate.mp hv).2
        · exact a5 row hr v hv
  exact hloop n 0 (by omega)

/-- An archive without a gap meets the hypothesis: each channel one trace, not flat, at 50 Hz, with all the
samples of the window. -/
example : ∀ (w : ℤ × ℤ) (s p : Compute.Str),
    ∀ ch ∈ (fun (w : ℤ × ℤ) (_ _ : Compute.Str) => [[(⟨false, 50, samplesIn w.1 w.2 20000000⟩ : Chunk)]]) w s p,
      ∀ t ∈ ch, t.npts ≤ samplesIn w.1 w.2 20000000 := by
  intro w s p ch hch t ht
  simp only [List.mem_singleton] at hch
  subst hch
  simp only [List.mem_singleton] at ht
  subst ht
  exact le_rfl

/-- C118 is also violated with the default settings of locate (a marginal window of 2 s, the same onset
windows and rate), if the largest traveltime is between 3 and 5 s: whatever the trigger time, no channel
is used, and no event is located. -/
theorem C118_violated_locate (tt : ℚ) (h0 : 3 ≤ tt) (h1 : tt ≤ 5) (trigger : ℤ) :
    let w := locateWindow trigger 2
      (Doubles.pad (prePad (fl (2 / 10)) 1) (postPad 1 tt) 50 (fl (4 * 2)))
    ∃ k, Spec.SamplesApart w.1 w.2 50 k ∧
      ((20000000 : ℤ) ∣ trigger → (20000000 : ℤ) ∣ w.1 ∧ samplesIn w.1 w.2 20000000 = k + 1) ∧
      channelUsed false 50 (k + 1) w.1 w.2 50 = false := by
  obtain ⟨p, hp1, hp2, hp⟩ := postPad_cases (lo := 3) (hi := 5) (by exact_mod_cast h0)
    (by exact_mod_cast h1) (by norm_num)
  intro w
  have hw : w = locateWindow trigger 2 (Doubles.pad (prePad (fl (2 / 10)) 1) p 50 (fl (4 * 2))) := by
    rw [← hp]
  have hm : toNs (fl (2 * 2)) = 4000000000 := by decide +kernel
  have hpads : toNs (Doubles.pad (prePad (fl (2 / 10)) 1) p 50 (fl (4 * 2))).1 = 130 * 20000000 ∧
      toNs (Doubles.pad (prePad (fl (2 / 10)) 1) p 50 (fl (4 * 2))).2 = ((p + 1) * 50 : ℕ) * 20000000 ∧
      channelUsed false 50 (530 + (p + 1) * 50 + 1) 0 ((530 + (p + 1) * 50 : ℕ) * 20000000) 50 = false := by
    clear_value w
    clear hw hp
    interval_cases p <;> decide +kernel
  obtain ⟨p1, p2, p3⟩ := hpads
  unfold locateWindow at hw
  rw [hm, p1, p2] at hw
  refine ⟨530 + (p + 1) * 50, ⟨?_, ?_⟩, ?_, ?_⟩
  · rw [hw]; push_cast; ring
  · rw [hw]; exact ⟨(530 + (p + 1) * 50) * 20000, by push_cast; ring⟩
  · rintro ⟨c, hc⟩
    rw [hw, hc]
    refine ⟨⟨c - 200 - 130, by push_cast; ring⟩, ?_⟩
    unfold samplesIn
    push_cast
    omega
  · rw [channelUsed_shift, ← p3]
    congr 1
    rw [hw]; push_cast; ring

/-! ## C119: pads are whole numbers of samples -/

/-- The product of a quotient by the rate and 1000, rounded twice, is close to the exact number of
milliseconds. -/
theorem milliseconds_near {r sr : ℕ} (hr : r * 1000 ≤ 2 ^ 50 * sr) (hsr : 0 < sr) :
    |fl (fl ((r : ℚ) / sr) * 1000) - (r : ℚ) / sr * 1000| ≤ 1 / 2 := by
  have hs : (0 : ℚ) < sr := by exact_mod_cast hsr
  have hx : (r : ℚ) / sr * 1000 ≤ 2 ^ 50 := by
    rw [div_mul_eq_mul_div, div_le_iff₀ hs]; exact_mod_cast hr
  have hx0 : (0 : ℚ) ≤ (r : ℚ) / sr := by positivity
  set x := (r : ℚ) / sr with hxdef
  have h1 := fl_error x
  rw [abs_of_nonneg hx0] at h1
  have h2 : |fl x * 1000 - x * 1000| ≤ 1 / 8 := by
    have e : fl x * 1000 - x * 1000 = (fl x - x) * 1000 := by ring
    rw [e, abs_mul, abs_of_pos (by norm_num : (0 : ℚ) < 1000)]
    norm_num at h1 hx ⊢
    linarith
  have h2' := abs_le.mp h2
  have h3 := fl_error (fl x * 1000)
  have h4 : |fl x * 1000| ≤ 2 ^ 50 + 1 := by
    rw [abs_le]; constructor <;> linarith
  have h5 : |fl (fl x * 1000) - fl x * 1000| ≤ 1 / 4 := by
    refine h3.trans ?_
    rw [div_le_iff₀ (by norm_num)]
    norm_num at h4 ⊢
    linarith
  have h5' := abs_le.mp h5
  rw [abs_le]; constructor <;> linarith

/-- C119 (partial): in doubles, the pad for a whole number of samples is that number or one more, less at
most a millisecond (and as much as a rounding error) - for every rate.  Missing: that nothing is taken
away (see `C119_violated`). -/
theorem C119_within_millisecond_partial (k sr : ℕ) (hsr : 0 < sr) (hk : (k + 1) * 1000 ≤ 2 ^ 50 * sr)
    (hk' : k ≤ 2 ^ 50) :
    ∃ r ms : ℕ, (r = k ∨ r = k + 1) ∧ Doubles.trim2sample (fl ((k : ℚ) / sr)) sr = fl ((ms : ℚ) / 1000) ∧
      (r : ℚ) / sr - 1 / 1000 ≤ ((ms : ℚ) + 1 / 2) / 1000 ∧ ((ms : ℚ) - 1 / 2) / 1000 ≤ (r : ℚ) / sr := by
  have hs : (0 : ℚ) < sr := by exact_mod_cast hsr
  have hn := abs_le.mp (product_near hk' hsr)
  obtain ⟨r, hr, hrk⟩ : ∃ r : ℕ, ⌈fl (fl ((k : ℚ) / sr) * sr)⌉ = r ∧ (r = k ∨ r = k + 1) := by
    have c1 : (k : ℤ) - 1 < ⌈fl (fl ((k : ℚ) / sr) * sr)⌉ := by
      have : (k : ℚ) - 1 < ⌈fl (fl ((k : ℚ) / sr) * sr)⌉ := by
        refine lt_of_lt_of_le ?_ (Int.le_ceil _)
        linarith
      exact_mod_cast this
    have c2 : ⌈fl (fl ((k : ℚ) / sr) * sr)⌉ ≤ k + 1 := by
      apply Int.ceil_le.mpr
      push_cast
      linarith
    obtain ⟨r, hr⟩ := Int.eq_ofNat_of_zero_le (show 0 ≤ ⌈fl (fl ((k : ℚ) / sr) * sr)⌉ by omega)
    exact ⟨r, hr, by omega⟩
  have hms := abs_le.mp (milliseconds_near (r := r) (sr := sr) (by
    rcases hrk with rfl | rfl
    · nlinarith
    · exact hk) hsr)
  have hpos : 0 ≤ fl (fl ((r : ℚ) / sr) * 1000) := by
    have h0 : 0 ≤ fl ((r : ℚ) / sr) := by
      have := fl_mono (show (0 : ℚ) ≤ (r : ℚ) / sr by positivity)
      rwa [fl_zero] at this
    have := fl_mono (show (0 : ℚ) ≤ fl ((r : ℚ) / sr) * 1000 by positivity)
    rwa [fl_zero] at this
  obtain ⟨ms, hms2⟩ := Int.eq_ofNat_of_zero_le (Int.floor_nonneg.mpr hpos)
  have f1 := Int.floor_le (fl (fl ((r : ℚ) / sr) * 1000))
  have f2 := Int.lt_floor_add_one (fl (fl ((r : ℚ) / sr) * 1000))
  rw [hms2] at f1 f2
  refine ⟨r, ms, hrk, ?_, ?_, ?_⟩
  · unfold Doubles.trim2sample
    rw [hr]
    push_cast
    rw [pyInt, if_pos hpos, hms2]
    push_cast
    rfl
  · push_cast at f2
    linarith
  · push_cast at f1
    linarith

/-- C119 (partial): a pad of a whole number of samples that is also a whole number of eighths of a second
is left as it is. -/
theorem C119_eighths_partial (m k sr : ℕ) (hsr : 0 < sr) (hm : m ≤ 2 ^ 40) (hk : k ≤ 2 ^ 50)
    (h : (m : ℚ) / 8 = (k : ℚ) / sr) :
    Doubles.trim2sample ((m : ℚ) / 8) sr = (m : ℚ) / 8 := by
  have hs : (sr : ℚ) ≠ 0 := by exact_mod_cast hsr.ne'
  have hd : fl ((m : ℚ) / 8) = (m : ℚ) / 8 := by
    apply fl_of_isDouble
    refine ⟨m, -3, by rw [abs_of_nonneg (by positivity)]; exact_mod_cast hm.trans (by norm_num), ?_⟩
    norm_num
    ring
  have e1 : (m : ℚ) / 8 * sr = k := by rw [h]; field_simp
  have e2 : (m : ℚ) / 8 * 1000 = ((m * 125 : ℕ) : ℚ) := by push_cast; ring
  have e3 : fl ((m * 125 : ℕ) : ℚ) = ((m * 125 : ℕ) : ℚ) := fl_nat (by omega)
  unfold Doubles.trim2sample
  rw [e1, fl_nat (hk.trans (by norm_num)), Int.ceil_natCast]
  have e4 : (((k : ℕ) : ℤ) : ℚ) / sr = (m : ℚ) / 8 := by rw [h]; rfl
  rw [e4, hd, e2, e3, pyInt, if_pos (by positivity), Int.floor_natCast]
  have e5 : (((m * 125 : ℕ) : ℤ) : ℚ) / 1000 = (m : ℚ) / 8 := by push_cast; ring
  rw [e5, hd]

/-- The hypotheses are met by pads of 2.6 s at 50 Hz, and of 2.625 s at 200 Hz. -/
example : (130 + 1) * 1000 ≤ 2 ^ 50 * 50 ∧ ((21 : ℕ) : ℚ) / 8 = ((525 : ℕ) : ℚ) / (200 : ℕ) ∧
    Doubles.trim2sample (fl (26 / 10)) 50 = fl (26 / 10) := by
  refine ⟨by norm_num, by norm_num, by decide +kernel⟩

/-- C119 is violated: for windows of 0.1 s and 0.75 s at 50 Hz, a marginal window of 2 s and a largest
traveltime of 23 to 38 s, the pad of locate is 4.059 s, not a whole number of samples.  Whatever the
trigger time on the sample grid, the window read then starts between two samples, one sample fewer is left
than the test of availability asks for, and no channel is used. -/
theorem C119_violated (tt : ℕ) (h0 : 23 ≤ tt) (h1 : tt ≤ 38) (trigger : ℤ) (ht : (20000000 : ℤ) ∣ trigger) :
    let pads := Doubles.pad (prePad (fl (1 / 10)) (fl (75 / 100))) (postPad (fl (75 / 100)) tt) 50 (fl (4 * 2))
    let w := locateWindow trigger 2 pads
    pads.1 = fl (4059 / 1000) ∧ ¬ (20000000 : ℤ) ∣ w.1 ∧
      channelUsed false 50 (samplesIn w.1 w.2 20000000) w.1 w.2 50 = false := by
  intro pads w
  have hm : toNs (fl (2 * 2)) = 4000000000 := by decide +kernel
  have hpads : pads.1 = fl (4059 / 1000) ∧ toNs pads.1 = 4059000000 ∧
      toNs pads.2 = ((tt + 5) * 50 : ℕ) * 20000000 ∧
      channelUsed false 50 (603 + (tt + 5) * 50) 0 (12059000000 + ((tt + 5) * 50 : ℕ) * 20000000) 50 = false := by
    have : pads = Doubles.pad (prePad (fl (1 / 10)) (fl (75 / 100))) (postPad (fl (75 / 100)) tt) 50
      (fl (4 * 2)) := rfl
    rw [this]
    clear_value w
    clear w pads this
    interval_cases tt <;> decide +kernel
  obtain ⟨p0, p1, p2, p3⟩ := hpads
  obtain ⟨c, hc⟩ := ht
  have hw : w = (trigger - 4000000000 - 4059000000, trigger + 4000000000 + ((tt + 5) * 50 : ℕ) * 20000000) := by
    change locateWindow trigger 2 pads = _
    unfold locateWindow
    rw [hm, p1, p2]
  refine ⟨p0, ?_, ?_⟩
  · rw [hw, hc]; dsimp only; omega
  · have hn : samplesIn w.1 w.2 20000000 = 603 + (tt + 5) * 50 := by
      rw [hw, hc]
      unfold samplesIn
      push_cast
      omega
    rw [hn, channelUsed_shift, ← p3]
    congr 1
    rw [hw]; push_cast; ring

/-! ## C120: one timestamp per sample in locate -/

/-- C120 (partial): for a marginal window of `k` quarter samples (to the nearest double), the number of
timestamps is `k` or `k + 1`; it is `k + 1`, as many as there are samples in the four marginal windows, if
the rate is a sum of two powers of two or the four marginal windows are a double.  Missing: other rates (see
`C120_violated`). -/
theorem C120_timestamps_partial (k sr : ℕ) (hsr : 0 < sr) (hk : k ≤ 2 ^ 50) :
    (mwCount (fl ((k : ℚ) / (4 * sr))) sr = k ∨ mwCount (fl ((k : ℚ) / (4 * sr))) sr = k + 1) ∧
    (Spec.TwoBits sr ∨ Spec.IsDouble ((k : ℚ) / sr) → mwCount (fl ((k : ℚ) / (4 * sr))) sr = k + 1) := by
  have hs : (sr : ℚ) ≠ 0 := by exact_mod_cast hsr.ne'
  have e1 : fl (4 * fl ((k : ℚ) / (4 * sr))) = fl ((k : ℚ) / sr) := by
    have h2 : (k : ℚ) / (4 * sr) = (k : ℚ) / sr * 2 ^ (-2 : ℤ) := by
      norm_num; field_simp
    have h3 : 4 * (fl ((k : ℚ) / sr) * 2 ^ (-2 : ℤ)) = fl ((k : ℚ) / sr) := by norm_num; ring
    rw [h2, fl_scale, h3, fl_fl]
  have e2 : mwCount (fl ((k : ℚ) / (4 * sr))) sr = pyInt (nSamples (fl ((k : ℚ) / sr)) sr) := by
    unfold mwCount nSamples; rw [e1]
  have hb := nSamples_bounds hk hsr
  have h0 : (0 : ℚ) ≤ nSamples (fl ((k : ℚ) / sr)) sr := by
    have : (0 : ℚ) ≤ k := by positivity
    linarith [hb.1]
  rw [e2, pyInt, if_pos h0]
  constructor
  · have f1 := Int.floor_le (nSamples (fl ((k : ℚ) / sr)) sr)
    have f2 := Int.lt_floor_add_one (nSamples (fl ((k : ℚ) / sr)) sr)
    have c1 : (k : ℤ) - 1 < ⌊nSamples (fl ((k : ℚ) / sr)) sr⌋ := by
      have : (k : ℚ) - 1 < ⌊nSamples (fl ((k : ℚ) / sr)) sr⌋ := by linarith [hb.1]
      exact_mod_cast this
    have c2 : ⌊nSamples (fl ((k : ℚ) / sr)) sr⌋ < k + 2 := by
      have : (⌊nSamples (fl ((k : ℚ) / sr)) sr⌋ : ℚ) < k + 2 := by linarith [hb.2]
      exact_mod_cast this
    omega
  · intro h
    rw [nSamples_exact (by omega) (product_exact (by omega) hsr h)]
    have := Int.floor_intCast (R := ℚ) (k + 1)
    push_cast at this
    exact this

/-- C120 is violated: at 50 Hz, with the default onset windows, a marginal window of 1.15 s and a largest
traveltime of at most 19 s, complete data is used, and gives 231 samples of coalescence, but there are only
230 timestamps (the table of the two raises ValueError, and locate stops). -/
theorem C120_violated (tt : ℚ) (h0 : 0 ≤ tt) (h1 : tt ≤ 19) (trigger : ℤ) :
    let pads := Doubles.pad (prePad (fl (2 / 10)) 1) (postPad 1 tt) 50 (fl (4 * fl (115 / 100)))
    let w := locateWindow trigger (fl (115 / 100)) pads
    ∃ k : ℕ, Spec.SamplesApart w.1 w.2 50 k ∧ channelUsed false 50 (k + 1) w.1 w.2 50 = true ∧
      (k : ℤ) + 1 - Doubles.time2sample pads.1 50 - Doubles.time2sample pads.2 50 = 231 ∧
      mwCount (fl (115 / 100)) 50 = 230 := by
  obtain ⟨p, hp1, hp2, hp⟩ := postPad_cases (lo := 0) (hi := 19) (by exact_mod_cast h0)
    (by exact_mod_cast h1) (by norm_num)
  intro pads w
  have hpd : pads = Doubles.pad (prePad (fl (2 / 10)) 1) p 50 (fl (4 * fl (115 / 100))) := by rw [← hp]
  have hm : toNs (fl (2 * fl (115 / 100))) = 2300000000 := by decide +kernel
  set x : ℕ := if p ≤ 10 then 130 else 180 with hx
  set y : ℕ := if p ≤ 10 then (p + 1) * 50 else (p + 2) * 50 with hy
  have hpads : toNs pads.1 = x * 20000000 ∧ toNs pads.2 = y * 20000000 ∧
      channelUsed false 50 (230 + x + y + 1) 0 ((230 + x + y : ℕ) * 20000000) 50 = true ∧
      Doubles.time2sample pads.1 50 = x ∧ Doubles.time2sample pads.2 50 = y := by
    rw [hpd, hx, hy]
    clear_value w pads
    clear hpd hp hx hy x y
    interval_cases p <;> decide +kernel
  obtain ⟨p1, p2, p3, p4, p5⟩ := hpads
  have hw : w = (trigger - 2300000000 - x * 20000000, trigger + 2300000000 + y * 20000000) := by
    change locateWindow trigger (fl (115 / 100)) pads = _
    unfold locateWindow
    rw [hm, p1, p2]
  refine ⟨230 + x + y, ⟨?_, ?_⟩, ?_, ?_, by decide +kernel⟩
  · rw [hw]; push_cast; ring
  · rw [hw]; exact ⟨(230 + x + y) * 20000, by push_cast; ring⟩
  · rw [channelUsed_shift, ← p3]
    congr 1
    rw [hw]; push_cast; ring
  · rw [p4, p5]; push_cast; ring

/-! ## C121: the timesteps of detect -/

/-- A whole number of nanoseconds, divided by 10^9, multiplied by a counter and converted back. -/
theorem toNs_multiple {n i : ℕ} (h : n * i ≤ 2 ^ 50) :
    toNs (fl (fl ((n : ℚ) / 1000000000) * i)) = n * i := by
  have hq : (n : ℚ) * i ≤ 2 ^ 50 := by exact_mod_cast h
  have h0 : (0 : ℚ) ≤ (n : ℚ) * i := by positivity
  have hi0 : (0 : ℚ) ≤ (i : ℚ) := by positivity
  set x := (n : ℚ) / 1000000000 with hx
  have hx0 : 0 ≤ x := by positivity
  have hxi : x * i * 1000000000 = n * i := by rw [hx]; ring
  have h1 := fl_error x
  rw [abs_of_nonneg hx0] at h1
  have h1' := abs_le.mp h1
  have hxi0 : 0 ≤ x * i := by positivity
  -- relative errors of 2^-53 three times
  have a1 : |fl x * i - x * i| ≤ x * i / 2 ^ 53 := by
    rw [← sub_mul, abs_mul, abs_of_nonneg hi0]
    calc _ ≤ x / 2 ^ 53 * i := mul_le_mul_of_nonneg_right h1 hi0
      _ = _ := by ring
  have a1' := abs_le.mp a1
  have a2 := fl_error (fl x * i)
  have a2b : |fl x * i| ≤ x * i * (1 + 1 / 2 ^ 53) := by
    rw [abs_le]; constructor <;> nlinarith
  have a2c : |fl (fl x * i) - fl x * i| ≤ x * i * (1 + 1 / 2 ^ 53) / 2 ^ 53 :=
    a2.trans (div_le_div_of_nonneg_right a2b (by norm_num))
  have a2' := abs_le.mp a2c
  have a3 := fl_error (fl (fl x * i) * 1000000000)
  have b1 : |fl (fl x * i) * 1000000000 - n * i| ≤ 1 / 4 + 1 / 1000 := by
    rw [← hxi, ← sub_mul, abs_mul, abs_of_pos (by norm_num : (0 : ℚ) < 1000000000)]
    have : |fl (fl x * i) - x * i| ≤ x * i / 2 ^ 53 + x * i * (1 + 1 / 2 ^ 53) / 2 ^ 53 := by
      rw [abs_le]; constructor <;> linarith
    have h5 : x * i ≤ 2 ^ 50 / 1000000000 := by
      rw [le_div_iff₀ (by norm_num), hxi]; exact hq
    have h6 : x * i / 2 ^ 53 + x * i * (1 + 1 / 2 ^ 53) / 2 ^ 53 ≤ (1 / 4 + 1 / 1000) / 1000000000 := by
      norm_num at h5 ⊢
      linarith
    calc _ ≤ (1 / 4 + 1 / 1000) / 1000000000 * 1000000000 :=
          mul_le_mul_of_nonneg_right (this.trans h6) (by norm_num)
      _ = _ := by norm_num
  have b1' := abs_le.mp b1
  have b2 : |fl (fl x * i) * 1000000000| ≤ 2 ^ 50 + 1 := by
    rw [abs_le]; constructor <;> linarith
  have b3 : |fl (fl (fl x * i) * 1000000000) - fl (fl x * i) * 1000000000| ≤ 1 / 8 + 1 / 1000 := by
    refine a3.trans ?_
    rw [div_le_iff₀ (by norm_num)]
    norm_num at b2 ⊢
    linarith
  have b3' := abs_le.mp b3
  unfold toNs
  apply pyRound_eq
  push_cast
  rw [abs_lt]; constructor <;> linarith

/-- C121: for every timestep of a whole number `n` of nanoseconds (to the nearest double), every step `i`
up to 13 days after the start begins exactly `n * i` nanoseconds after it, whatever the pads: the steps
follow one another without gap or overlap.  The same holds for 136 years if the timestep is a whole number
of seconds. -/
theorem C121_steps_tile (start : ℤ) (n i sr : ℕ) (pads : ℚ × ℚ) (h : n * (i + 1) ≤ 2 ^ 50) :
    (detectWindow start (fl ((n : ℚ) / 1000000000)) sr pads i).1 + toNs pads.1 = start + n * i ∧
    (detectWindow start (fl ((n : ℚ) / 1000000000)) sr pads i).2 - toNs pads.2 + toNs (fl (1 / sr)) =
      start + n * (i + 1) := by
  have h1 := toNs_multiple (n := n) (i := i) (by nlinarith)
  have h2 := toNs_multiple (n := n) (i := i + 1) h
  push_cast at h2
  unfold detectWindow
  rw [h1, h2]
  constructor <;> ring

theorem C121_whole_seconds_tile (start : ℤ) (T i sr : ℕ) (pads : ℚ × ℚ) (h : T * (i + 1) ≤ 2 ^ 32) :
    (detectWindow start T sr pads i).1 + toNs pads.1 = start + T * i * 1000000000 ∧
    (detectWindow start T sr pads i).2 - toNs pads.2 + toNs (fl (1 / sr)) =
      start + T * (i + 1) * 1000000000 := by
  rw [detectWindow_eq _ _ _ _ _ h]
  constructor <;> ring

/-- C121 (partial): for a timestep of a whole number of seconds, the number of steps is the least that
covers the period, for periods of a whole number of microseconds up to 35 years.  Missing: timesteps with
fractions of a second (see `C121_violated`). -/
theorem C121_number_of_steps_partial (a b : ℤ) (m T : ℕ) (hab : b - a = m * 1000) (hm : m ≤ 2 ^ 50)
    (hT : 0 < T) (hT' : T ≤ 2 ^ 50) : nSteps a b T = ⌈((b - a : ℤ) : ℚ) / (T * 1000000000)⌉ := by
  have hTq : (0 : ℚ) < T := by exact_mod_cast hT
  have hmq : (m : ℚ) ≤ 2 ^ 50 := by exact_mod_cast hm
  have e1 : timespan a b = fl ((m : ℚ) / 1000000) := by
    unfold timespan
    rw [hab]
    have : (((m : ℤ) * 1000 : ℤ) : ℚ) / 1000 = ((m : ℤ) : ℚ) := by push_cast; ring
    rw [this, pyRound_int]; rfl
  have e2 : ((b - a : ℤ) : ℚ) / (T * 1000000000) = (m : ℚ) / 1000000 / T := by
    rw [hab]; push_cast; field_simp; ring
  unfold nSteps
  rw [e1, e2]
  set x := (m : ℚ) / 1000000 with hx
  have hx0 : 0 ≤ x := by positivity
  set j := ⌈x / T⌉ with hj
  have hj0 : 0 ≤ j := Int.ceil_nonneg (by positivity)
  have u1 : x / T ≤ j := Int.le_ceil _
  have u2 : (j : ℚ) - 1 < x / T := by
    have := Int.ceil_lt_add_one (x / T)
    rw [← hj] at this
    linarith
  have hxT : x / T * T = x := by field_simp
  have u1' : x ≤ j * T := by rw [← hxT]; exact mul_le_mul_of_nonneg_right u1 hTq.le
  have u2' : ((j : ℚ) - 1) * T < x := by
    rw [← hxT]; exact mul_lt_mul_of_pos_right u2 hTq
  -- sizes
  have hjT : ((j : ℚ) - 1) * T < 2 ^ 50 := by
    refine u2'.trans_le ?_
    rw [hx, div_le_iff₀ (by norm_num)]; linarith
  rw [Int.ceil_eq_iff]
  constructor
  · -- from below: a microsecond is more than the rounding errors
    have v1 : ((j : ℚ) - 1) * T + 1 / 1000000 ≤ x := by
      have h1 : ((((j - 1) * T * 1000000 : ℤ)) : ℚ) < ((m : ℤ) : ℚ) := by
        push_cast
        have : ((j : ℚ) - 1) * T * 1000000 < x * 1000000 := mul_lt_mul_of_pos_right u2' (by norm_num)
        have e : x * 1000000 = m := by rw [hx]; field_simp
        linarith
      have h2 : (j - 1) * T * 1000000 + 1 ≤ (m : ℤ) := by
        have : (j - 1) * T * 1000000 < (m : ℤ) := by exact_mod_cast h1
        omega
      have h3 : ((((j - 1) * T * 1000000 + 1 : ℤ)) : ℚ) ≤ ((m : ℤ) : ℚ) := by exact_mod_cast h2
      push_cast at h3
      rw [hx, le_div_iff₀ (by norm_num)]
      linarith
    have w1 := fl_error x
    rw [abs_of_nonneg hx0] at w1
    have w1' := abs_le.mp w1
    have w0 : 0 ≤ fl x := by
      have := fl_mono hx0; rwa [fl_zero] at this
    have w2 := fl_error (fl x / T)
    rw [abs_of_nonneg (div_nonneg w0 hTq.le)] at w2
    have w2' := abs_le.mp w2
    have w3 : fl x / T * (1 - 1 / 2 ^ 53) ≤ fl (fl x / T) := by linarith
    have w4 : x * (1 - 1 / 2 ^ 53) ≤ fl x := by linarith
    have w5 : x * (1 - 1 / 2 ^ 53) * (1 - 1 / 2 ^ 53) ≤ fl (fl x / T) * T := by
      have : fl x / T * (1 - 1 / 2 ^ 53) * T ≤ fl (fl x / T) * T := mul_le_mul_of_nonneg_right w3 hTq.le
      have e : fl x / T * (1 - 1 / 2 ^ 53) * T = fl x * (1 - 1 / 2 ^ 53) := by field_simp
      rw [e] at this
      exact (mul_le_mul_of_nonneg_right w4 (by norm_num)).trans this
    have w6 : x * (2 / 2 ^ 53) < 1 / 1000000 := by
      have hxs : x ≤ 2 ^ 50 / 1000000 := div_le_div_of_nonneg_right hmq (by norm_num)
      norm_num at hxs ⊢
      linarith
    have w7 : ((j : ℚ) - 1) * T < fl (fl x / T) * T := by
      have : x - x * (2 / 2 ^ 53) ≤ x * (1 - 1 / 2 ^ 53) * (1 - 1 / 2 ^ 53) := by
        have : (0 : ℚ) ≤ x * (1 / 2 ^ 53 * (1 / 2 ^ 53)) := by positivity
        nlinarith
      linarith
    exact lt_of_mul_lt_mul_right w7 hTq.le
  · -- from above: whole numbers are doubles
    rcases eq_or_lt_of_le hj0 with hz | hz
    · rw [← hz] at u1' ⊢
      have : x = 0 := le_antisymm (by simpa using u1') hx0
      rw [this, fl_zero, zero_div, fl_zero]
      simp
    · have hTj : j * T ≤ 2 ^ 53 := by
        have h1 : ((j - 1) * T : ℤ) < 2 ^ 50 := by exact_mod_cast hjT
        have h2 : (T : ℤ) ≤ 2 ^ 50 := by exact_mod_cast hT'
        have h3 : j * T = (j - 1) * T + T := by ring
        omega
      have hjle : j ≤ 2 ^ 53 := by
        have : (1 : ℤ) ≤ T := by exact_mod_cast hT
        nlinarith
      have t1 : fl x ≤ j * T := by
        have h1 := fl_mono u1'
        have h2 : fl (((j * T : ℤ)) : ℚ) = ((j * T : ℤ) : ℚ) :=
          fl_int (by rw [abs_of_nonneg (by positivity)]; exact hTj)
        push_cast at h2
        rwa [h2] at h1
      have t2 : fl x / T ≤ j := by rwa [div_le_iff₀ hTq]
      have t3 := fl_mono t2
      rwa [fl_int (by rw [abs_of_nonneg hj0]; exact hjle)] at t3

/-- The hypotheses are met by a day in steps of 5 minutes and of 0.75 s. -/
example : 300000000000 * (287 + 1) ≤ 2 ^ 50 ∧ (300 : ℕ) * (287 + 1) ≤ 2 ^ 32 ∧
    (86400000000000 : ℤ) - 0 = (86400000000 : ℕ) * 1000 ∧ 86400000000 ≤ 2 ^ 50 ∧
    nSteps 0 86400000000000 300 = 288 := by
  refine ⟨by norm_num, by norm_num, by norm_num, by norm_num, by decide +kernel⟩

/-- C121 is violated for fractions of a second: 2.1 s in steps of 0.3 s are scanned in eight steps instead
of seven, and 300.3 s in steps of 100.1 s in four instead of three: the last step lies after the end of the
period. -/
theorem C121_violated : nSteps 0 2100000000 (fl (3 / 10)) = 8 ∧
    (detectWindow 0 (fl (3 / 10)) 50 (0, 0) 7).1 = 2100000000 ∧
    nSteps 0 300300000000 (fl (1001 / 10)) = 4 ∧
    (detectWindow 0 (fl (1001 / 10)) 50 (0, 0) 3).1 = 300300000000 := by
  decide +kernel

end QM
