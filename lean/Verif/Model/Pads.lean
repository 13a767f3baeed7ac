import Verif.Py

/-!
# Model of the padding arithmetic

`util.py` (`time2sample`, `trim2sample`), `signal/onsets/base.py` (`Onset.pad`),
`signal/onsets/stalta.py` (`pre_pad`, `post_pad`), and the sample counts of
`QuakeScan._compute`.
-/

namespace QM.Pads

/-- `util.time2sample` (util.py:152-172): `int(round(time * int(sampling_rate)))`. -/
def time2sample (time sr : ℚ) : ℤ := pyRound (time * (pyInt sr : ℤ))

/-- `util.trim2sample` (util.py:248-269):
`int(np.ceil(time * sampling_rate) / sampling_rate * 1000) / 1000`. -/
def trim2sample (time sr : ℚ) : ℚ := (pyInt ((⌈time * sr⌉ : ℚ) / sr * 1000) : ℚ) / 1000

/-- `sta_lta_windows`: (short, long) window in seconds per phase (a non-empty dict,
the default having two entries).  Models signal/onsets/stalta.py:601-635. -/
structure Windows where
  head : ℚ × ℚ
  rest : List (ℚ × ℚ)

/-- Longest short window (signal/onsets/stalta.py:604-606). -/
def Windows.staMax (w : Windows) : ℚ := (w.rest.map Prod.fst).foldl max w.head.1
/-- Longest long window (signal/onsets/stalta.py:604, 634). -/
def Windows.ltaMax (w : Windows) : ℚ := (w.rest.map Prod.snd).foldl max w.head.2

/-- `STALTAOnset.pre_pad` (stalta.py:601-608). -/
def prePad (w : Windows) : ℚ := w.ltaMax + 3 * w.staMax

/-- `STALTAOnset.post_pad` as set from the largest traveltime (stalta.py:627-635;
scan.py:213). -/
def postPad (w : Windows) (ttmax : ℚ) : ℚ := (⌈ttmax + 2 * w.ltaMax⌉ : ℤ)

/-- `Onset.pad` (signal/onsets/base.py:64-93), with the onset's own pads as arguments; `sr` is the
onset's sampling rate. -/
def pad (pre post sr timespan : ℚ) : ℚ × ℚ :=
  let ts := timespan + (pre + post)
  (trim2sample (pre + (⌈ts * (6 / 100)⌉ : ℤ)) sr, trim2sample (post + (⌈ts * (6 / 100)⌉ : ℤ)) sr)

/-- Pads used by a scan stage over `timespan` seconds (scan.py:425 with
`timestep`, scan.py:494 with `4 * marginal_window`). -/
def scanPads (w : Windows) (ttmax sr timespan : ℚ) : ℚ × ℚ :=
  pad (prePad w) (postPad w ttmax) sr timespan

/-- obspy's `round_away`: round half away from zero.  Stands for obspy rounding, reached from
io/data.py:289-294. -/
def roundAway (q : ℚ) : ℤ := if 0 ≤ q then ⌊q + 1 / 2⌋ else ⌈q - 1 / 2⌉

/-- Index (on the sample grid of the archived trace, whose first sample is at
`origin`) of the first and last sample read for the window `[beg, stop]`:
`read(..., nearest_sample=True)` (io/data.py:285-290). -/
def readRange (origin : ℚ) (sr : ℕ) (beg stop : ℚ) : ℤ × ℤ :=
  (roundAway ((beg - origin) * sr), roundAway ((stop - origin) * sr))

/-- Number of samples of the onset functions computed from that window (the trace
covers the window and has no gaps).  Models signal/onsets/stalta.py:536-548. -/
def onsetLength (origin : ℚ) (sr : ℕ) (beg stop : ℚ) : ℤ :=
  (readRange origin sr beg stop).2 - (readRange origin sr beg stop).1 + 1

/-- Number of coalescence samples: `t_samples - first_idx - last_idx`
(core/lib.py:99 with scan.py:632-633). -/
def coaSamples (origin : ℚ) (sr : ℕ) (pads : ℚ × ℚ) (beg stop : ℚ) : ℤ :=
  onsetLength origin sr beg stop - time2sample pads.1 sr - time2sample pads.2 sr

/-- Window read by detect for timestep `i` (scan.py:435-438). -/
def detectWindow (start timestep : ℚ) (sr : ℕ) (pads : ℚ × ℚ) (i : ℕ) : ℚ × ℚ :=
  (start + timestep * i - pads.1, start + timestep * (i + 1) - 1 / (sr : ℚ) + pads.2)

/-- Window read by locate for an event (scan.py:498-499). -/
def locateWindow (trigger mw : ℚ) (pads : ℚ × ℚ) : ℚ × ℚ :=
  (trigger - 2 * mw - pads.1, trigger + 2 * mw + pads.2)

/-- `Event.mw_times` (io/event.py:398-419): `npts = 4*mw*sr + 1` (obspy truncates
it to an integer) timestamps from `trigger_time - 2*mw`. -/
def mwTimes (trigger mw : ℚ) (sr : ℕ) : List ℚ :=
  (List.range (pyInt (4 * mw * sr + 1)).toNat).map (fun (k : ℕ) => trigger - 2 * mw + k / (sr : ℚ))

end QM.Pads
