import Verif.Props.Onset

/-!
# Tapered data do not reach the coalescence: C166

`pre_process` tapers the first and the last 5 % of the samples of a trace (signal/onsets/stalta.py:208); here this is any
number `m` of samples with `20 * m ≤ cols`, as in ObsPy's `int(0.05 * npts)`.
-/

namespace QM

open QM.Pads

namespace Taper

variable {w : Windows} {ttmax timespan : ℚ} {sr : ℕ}

/-- The pad for the taper, in seconds. -/
def extra (w : Windows) (ttmax timespan : ℚ) : ℤ := ⌈(timespan + (prePad w + postPad w ttmax)) * (6 / 100)⌉

theorem extra_pos (hw : w.Nonneg) (htt : 0 ≤ ttmax) (hts : 0 ≤ timespan) (hl : 0 < w.ltaMax) :
    (1 : ℚ) ≤ extra w ttmax timespan := by
  have hpre := prePad_nonneg hw
  have hpost : ttmax + 2 * w.ltaMax ≤ postPad w ttmax := Int.le_ceil _
  have : 0 < extra w ttmax timespan := by
    apply Int.ceil_pos.2
    have : 0 < postPad w ttmax := by linarith
    positivity
  exact_mod_cast (by omega : 1 ≤ extra w ttmax timespan)

theorem first_eq (hw : w.Nonneg) (htt : 0 ≤ ttmax) (hts : 0 ≤ timespan) (hl : 0 < w.ltaMax) (hsr : 0 < sr)
    (hrate : sr ∣ 1000 ∨ sr ≤ 500) :
    (prePad w + extra w ttmax timespan) * sr ≤ (time2sample (scanPads w ttmax sr timespan).1 sr : ℚ) ∧
    (time2sample (scanPads w ttmax sr timespan).1 sr : ℚ) < (prePad w + extra w ttmax timespan) * sr + 1 := by
  have hpre := prePad_nonneg hw
  have hc := extra_pos hw htt hts hl
  have h := pre_near (t := prePad w + (extra w ttmax timespan : ℚ)) (by linarith) hsr hrate
  have e : time2sample (scanPads w ttmax sr timespan).1 sr = ⌈(prePad w + (extra w ttmax timespan : ℚ)) * sr⌉ := by
    rw [time2sample_nat]
    exact pyRound_eq h
  rw [e]
  exact ⟨Int.le_ceil _, Int.ceil_lt_add_one _⟩

theorem last_eq (hsr : 0 < sr) : (time2sample (scanPads w ttmax sr timespan).2 sr : ℚ) =
    (postPad w ttmax + extra w ttmax timespan) * sr := by
  rw [scanPads_snd w ttmax timespan hsr, time2sample_nat]
  have := pyRound_int ((⌈ttmax + 2 * w.ltaMax⌉ + ⌈(timespan + (prePad w + postPad w ttmax)) * (6 / 100)⌉) * sr)
  push_cast at this ⊢
  rw [this]
  unfold postPad extra
  push_cast
  rfl

theorem taper_le (hw : w.Nonneg) (htt : 0 ≤ ttmax) (hts : 0 ≤ timespan) (hl : 0 < w.ltaMax) (hsr : 0 < sr)
    (hrate : sr ∣ 1000 ∨ sr ≤ 500) {n cols m : ℤ} (hn : (n : ℚ) ≤ timespan * sr + 1)
    (hcols : cols = time2sample (scanPads w ttmax sr timespan).1 sr + n + time2sample (scanPads w ttmax sr timespan).2 sr)
    (hm : 20 * m ≤ cols) : (m : ℚ) ≤ 14 / 15 * (extra w ttmax timespan * sr) + 1 / 10 := by
  obtain ⟨h1, h2⟩ := first_eq hw htt hts hl hsr hrate
  have h3 := last_eq (w := w) (ttmax := ttmax) (timespan := timespan) hsr
  have hm' : (20 : ℚ) * m ≤ cols := by exact_mod_cast hm
  rw [hcols] at hm'
  push_cast at hm'
  have hA : (timespan + (prePad w + postPad w ttmax)) * (6 / 100) ≤ extra w ttmax timespan := Int.le_ceil _
  have hs : (0 : ℚ) < sr := by positivity
  have hA' := mul_le_mul_of_nonneg_right hA hs.le
  nlinarith

end Taper

open Taper in
/-- **C166**: no sample tapered at the start or the end of the data of a window is inside the short or the long window of an
onset value that is migrated: with `m` tapered samples at either end, the windows of sample `first + s + t` lie in
`[m, cols - m)`.  As in C39, `s < n` is an output sample and `t` a traveltime in samples not above the largest.  Asked: a
sampling rate of which a millisecond is not much more than half a sample, and windows of at least one and two samples. -/
theorem C166_migrated_clear (w : Windows) (hw : w.Nonneg) (sta lta ttmax tt : ℚ)
    (hsl : sta ≤ lta) (hmax : lta ≤ w.ltaMax) (htt0 : 0 ≤ ttmax) (htt : tt ≤ ttmax)
    (sr : ℕ) (hsr : 2 ≤ sr) (hrate : sr ∣ 1000 ∨ sr ≤ 500) (hsta1 : 1 ≤ w.staMax * sr) (hlta2 : 2 ≤ w.ltaMax * sr)
    (timespan : ℚ) (hts : 0 ≤ timespan) (pads : ℚ × ℚ) (hpads : pads = scanPads w ttmax sr timespan)
    (first last stw ltw t s n cols m : ℤ)
    (hfirst : first = time2sample pads.1 sr) (hlast : last = time2sample pads.2 sr)
    (hstw : stw = time2sample sta sr + 1) (hltw : ltw = time2sample lta sr + 1)
    (ht : t = max 0 (pyRound (tt * sr))) (hs0 : 0 ≤ s) (hs : s < n) (hn : (n : ℚ) ≤ timespan * sr + 1)
    (hcols : cols = first + n + last) (hm : 20 * m ≤ cols) :
    m + ltw ≤ (first + s + t) + 1 ∧ (first + s + t) + stw + m < cols := by
  subst hpads
  have hsr0 : 0 < sr := by omega
  have hsr' : (2 : ℚ) ≤ sr := by exact_mod_cast hsr
  have hlp : 0 < w.ltaMax := by
    by_contra hc
    push Not at hc
    have : w.ltaMax * sr ≤ 0 := mul_nonpos_of_nonpos_of_nonneg hc (by linarith)
    linarith
  have hm2 := taper_le hw htt0 hts hlp hsr0 hrate hn (hcols.trans (by rw [hfirst, hlast])) hm
  obtain ⟨f1, _⟩ := first_eq hw htt0 hts hlp hsr0 hrate
  have l1 := last_eq (w := w) (ttmax := ttmax) (timespan := timespan) hsr0
  have hc := extra_pos hw htt0 hts hlp
  have hcs : (2 : ℚ) ≤ extra w ttmax timespan * sr := by nlinarith
  rw [← hfirst] at f1
  rw [← hlast] at l1
  have hltr := abs_le.1 (abs_pyRound_sub_le (lta * sr))
  have hstr := abs_le.1 (abs_pyRound_sub_le (sta * sr))
  have htr := abs_le.1 (abs_pyRound_sub_le (tt * sr))
  have el : (ltw : ℚ) ≤ lta * sr + 3 / 2 := by
    rw [hltw, time2sample_nat]; push_cast; linarith [hltr.2]
  have es : (stw : ℚ) ≤ sta * sr + 3 / 2 := by
    rw [hstw, time2sample_nat]; push_cast; linarith [hstr.2]
  have hlm : lta * sr ≤ w.ltaMax * sr := mul_le_mul_of_nonneg_right hmax (by linarith)
  have hsm : sta * sr ≤ w.ltaMax * sr := mul_le_mul_of_nonneg_right (by linarith) (by linarith)
  constructor
  · have : (m : ℚ) + ltw ≤ first + 1 := by
      unfold prePad at f1
      nlinarith
    have h0 : 0 ≤ t := by rw [ht]; exact le_max_left _ _
    have h1 : m + ltw ≤ first + 1 := by exact_mod_cast this
    omega
  · have h3 : (t : ℚ) ≤ ttmax * sr + 1 / 2 := by
      rw [ht, Int.cast_max, max_le_iff]
      have e1 : tt * sr ≤ ttmax * sr := mul_le_mul_of_nonneg_right htt (by linarith)
      have e2 : 0 ≤ ttmax * sr := by positivity
      constructor
      · push_cast; linarith
      · linarith [htr.2]
    have hpost : ttmax + 2 * w.ltaMax ≤ postPad w ttmax := Int.le_ceil _
    have hpost' := mul_le_mul_of_nonneg_right hpost (show (0 : ℚ) ≤ sr by linarith)
    have : (t : ℚ) + stw + m ≤ last := by
      rw [l1]
      nlinarith
    have h1 : t + stw + m ≤ last := by exact_mod_cast this
    omega

/-- **C166**, for the values: two recordings of a window that agree except on samples tapered at its ends give the same
onset values wherever the scan migrates them. -/
theorem C166_values_clear {K : Type} [Field K] [LinearOrder K] [IsStrictOrderedRing K] (w : Windows) (hw : w.Nonneg)
    (sta lta ttmax tt : ℚ) (hsta : 0 ≤ sta)
    (hsl : sta ≤ lta) (hmax : lta ≤ w.ltaMax) (htt0 : 0 ≤ ttmax) (htt : tt ≤ ttmax)
    (sr : ℕ) (hsr : 2 ≤ sr) (hrate : sr ∣ 1000 ∨ sr ≤ 500) (hsta1 : 1 ≤ w.staMax * sr) (hlta2 : 2 ≤ w.ltaMax * sr)
    (timespan : ℚ) (hts : 0 ≤ timespan) (pads : ℚ × ℚ) (hpads : pads = scanPads w ttmax sr timespan)
    (n m : ℕ) (hn : (n : ℚ) ≤ timespan * sr + 1) (x y : List K)
    (hx : (x.length : ℤ) = time2sample pads.1 sr + n + time2sample pads.2 sr) (hxy : x.length = y.length)
    (hm : 20 * m ≤ x.length) (hag : ∀ k, m ≤ k → k + m < x.length → x[k]? = y[k]?)
    (s : ℕ) (hs : s < n) (i : ℕ) (hi : (i : ℤ) = time2sample pads.1 sr + s + max 0 (pyRound (tt * sr))) (pos : StaLta.Position) :
    (StaLta.onsetC pos x (time2sample sta sr + 1).toNat (time2sample lta sr + 1).toNat).map (·[i]?) =
    (StaLta.onsetC pos y (time2sample sta sr + 1).toNat (time2sample lta sr + 1).toNat).map (·[i]?) := by
  have key := C166_migrated_clear w hw sta lta ttmax tt hsl hmax htt0 htt sr hsr hrate hsta1 hlta2 timespan hts pads hpads
    _ _ _ _ _ s n x.length m rfl rfl rfl rfl rfl (by omega) (by omega) (by exact_mod_cast hn) hx (by omega)
  rw [← hi] at key
  have h0 : 0 ≤ time2sample sta sr := by
    rw [time2sample_nat]
    have := pyRound_mono (show (0 : ℚ) ≤ sta * sr by positivity)
    have e : pyRound 0 = 0 := by decide +kernel
    omega
  have h1 : time2sample sta sr ≤ time2sample lta sr := by
    rw [time2sample_nat, time2sample_nat]
    exact pyRound_mono (mul_le_mul_of_nonneg_right hsl (by positivity))
  generalize time2sample sta sr = a at *
  generalize time2sample lta sr = b at *
  cases pos with
  | classic =>
    unfold StaLta.onsetC
    refine C39_classic_local x y hxy _ _ (by omega) (by omega) i ?_
    intro k hk1 hk2
    exact hag k (by omega) (by omega)
  | centred =>
    unfold StaLta.onsetC
    refine C39_centred_local x y hxy _ _ (by omega) (by omega) i ?_
    intro k hk1 hk2
    exact hag k (by omega) (by omega)

open Taper in
/-- **C166**, where the onset functions are blanked at the ends (when a time span is given): what is not blanked was
computed from samples that were not tapered.  Asked: at least 17 samples per second. -/
theorem C166_blanked_clear (w : Windows) (hw : w.Nonneg) (hl : 0 < w.ltaMax) (ttmax : ℚ) (htt0 : 0 ≤ ttmax)
    (sr : ℕ) (hsr : 17 ≤ sr) (hrate : sr ≤ 500) (timespan : ℚ) (hts : 0 ≤ timespan) (pads : ℚ × ℚ)
    (hpads : pads = scanPads w ttmax sr timespan) (n cols m : ℤ) (hn : (n : ℚ) ≤ timespan * sr + 1)
    (hcols : cols = time2sample pads.1 sr + n + time2sample pads.2 sr) (hm : 20 * m ≤ cols) (stw ltw i taper : ℤ)
    (htaper : taper = StaLta.taperPad (prePad w) (postPad w ttmax) sr timespan)
    (hi : ¬ (i < taper + ltw - 1 ∨ cols - (taper + stw) ≤ i)) :
    m + ltw ≤ i + 1 ∧ i + stw + m < cols := by
  subst hpads
  have hsr0 : 0 < sr := by omega
  have hsr' : (17 : ℚ) ≤ sr := by exact_mod_cast hsr
  have hpost : 0 ≤ postPad w ttmax := by
    have : ttmax + 2 * w.ltaMax ≤ postPad w ttmax := Int.le_ceil _
    linarith
  have hm2 := taper_le hw htt0 hts hl hsr0 (Or.inr hrate) hn hcols hm
  have hc := extra_pos hw htt0 hts hl
  obtain ⟨_, h1, _⟩ := C40_taper_length w hw (postPad w ttmax) timespan hpost hts sr hsr0 hrate
  rw [← htaper] at h1
  have h1' : ((extra w ttmax timespan * sr - 1 : ℤ) : ℚ) ≤ taper := by exact_mod_cast h1
  push_cast at h1'
  have : (m : ℚ) ≤ taper := by nlinarith
  have hmt : m ≤ taper := by exact_mod_cast this
  omega

/-- A case: windows of 0.2 s and 1 s at 50 Hz, traveltimes up to 4 s, timesteps of 120 s; 359 of 7180 samples are tapered
at either end, and 400 more than the windows are blanked. -/
example : let w : Windows := ⟨(1/5, 1), [(1/5, 1)]⟩
    1 ≤ w.staMax * 50 ∧ 2 ≤ w.ltaMax * 50 ∧
    time2sample (scanPads w 4 50 120).1 50 + 6000 + time2sample (scanPads w 4 50 120).2 50 = 7180 ∧ (20 * 359 : ℤ) ≤ 7180 ∧
    StaLta.taperPad (prePad w) (postPad w 4) 50 120 = 400 := by
  refine ⟨?_, ?_, by decide +kernel, by decide, by decide +kernel⟩ <;>
    norm_num [Windows.staMax, Windows.ltaMax]

end QM
