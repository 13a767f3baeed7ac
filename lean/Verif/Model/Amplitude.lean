import Verif.Model.Picker

/-!
# Model of the amplitude measurements (signal/local_mag/amplitude.py)

Times in seconds, rational.  Not modelled: response removal, filters and their
gain, the averaged amplitude, distances.
-/

namespace QM.Amplitude

open QM.Picker (Str)

/-- What `_get_picks` returns for a phase: a time, "-1" or "No <phase> onset".  Models
signal/local_mag/amplitude.py:641-690. -/
inductive PickVal where
  | time (t : ℚ)
  | noPick
  | noOnset
deriving DecidableEq, Repr

/-- One phase of `_get_picks` (amplitude.py:670-688): the first row of that phase. -/
def phasePick (rows : List Picker.Row) (ph : Str) : PickVal :=
  match rows.find? fun r => r.phase == ph with
  | none => .noOnset
  | some r =>
    match r.pick with
    | none => .noPick
    | some t => .time t

/-- Is the pick a time (signal/local_mag/amplitude.py:674, 682)? -/
def PickVal.isTime : PickVal → Bool
  | .time _ => true
  | _ => false

/-- `_get_picks` (amplitude.py:641-690). -/
def getPicks (picks : List Picker.Row) (station : Str) : PickVal × PickVal × Bool :=
  let rows := picks.filter fun r => r.station == station
  if rows = [] then (.noPick, .noPick, false)
  else
    let p := phasePick rows ['P']
    let s := phasePick rows ['S']
    (p, s, p.isTime || s.isTime)

/-- The loop over the two picks (amplitude.py:590-610), with its `break`. -/
def arrivals (otime ptt stt : ℚ) (p s : PickVal) : ℚ × ℚ :=
  match p with
  | .noOnset => (otime + ptt, otime + stt)
  | .time tp =>
    match s with
    | .noOnset => (otime + ptt, otime + stt)
    | .noPick => (tp, otime + stt)
    | .time ts => (tp, ts)
  | .noPick =>
    match s with
    | .noOnset => (otime + ptt, otime + stt)
    | .noPick => (otime + ptt, otime + stt)
    | .time ts => (otime + ptt, ts)

/-- Raised by the functions of this file.  Models signal/local_mag/amplitude.py:616, 866, 877,
882, 888, 892. -/
inductive Err where
  | pickOrder
  | noPeaks          -- PeakToTroughError "No peaks or troughs found!"
  | consecutive      -- PeakToTroughError "Consecutive peaks/troughs!"
  | unboundLocal     -- a single peak and trough of equal height
deriving DecidableEq, Repr

/-- Start and end of a window.  Models signal/local_mag/amplitude.py:637. -/
abbrev Window := ℚ × ℚ

/-- Configuration: `marginal_window` of the event, `fraction_tt` of the lookup
table, `signal_window` and `noise_window`.  Models signal/local_mag/amplitude.py:101-103, 572. -/
structure Cfg where
  mw : ℚ
  fraction : ℚ
  signal : ℚ
  noise : ℚ

/-- The windows for given arrivals (amplitude.py:612-639). -/
def windowsFor (c : Cfg) (ptt stt p s : ℚ) : Except Err (Window × Window) :=
  if p < s then
    let pStart := p - c.mw - ptt * c.fraction
    let pEnd := p + c.mw + ptt * c.fraction
    let sStart := s - c.mw - stt * c.fraction
    let sEnd := s + c.mw + stt * c.fraction + c.signal
    if sStart < pEnd then
      let mid := pEnd + (sStart - pEnd) / 2
      .ok ((pStart, mid), (mid, sEnd))
    else if sStart - pEnd < c.signal then
      .ok ((pStart, sStart), (sStart, sEnd))
    else
      .ok ((pStart, pEnd + c.signal), (sStart, sEnd))
  else .error .pickOrder

/-- `_get_amplitude_windows` (amplitude.py:541-639). -/
def getWindows (c : Cfg) (picks : List Picker.Row) (station : Str) (otime ptt stt : ℚ) :
    Except Err ((Window × Window) × Bool) :=
  let g := getPicks picks station
  let a := arrivals otime ptt stt g.1 g.2.1
  (windowsFor c ptt stt a.1 a.2).map fun w => (w, g.2.2)

/-- The noise window (`_measure_noise_amp`, amplitude.py:947-952). -/
def noiseWindow (c : Cfg) (w : Window × Window) : Window := (w.1.1 - c.noise, w.1.1)

/-- `pad` (amplitude.py:1011-1051). -/
def pad (c : Cfg) (maxTT : ℚ) : ℚ × ℚ :=
  let pre := c.noise + c.mw
  let post := c.signal + maxTT * (1 + c.fraction) + c.mw
  let span := pre + post
  (pre + ⌈span * (6 / 100)⌉, post + ⌈span * (6 / 100)⌉)

/-- The span the waveforms are trimmed to (amplitude.py:275-278, 314). -/
def traceSpan (c : Cfg) (maxTT otime : ℚ) : ℚ × ℚ :=
  (otime - (pad c maxTT).1, otime + (pad c maxTT).2)

/-- Result of `_peak_to_trough_amplitude`: half amplitude, frequency, time.  Models
signal/local_mag/amplitude.py:914. -/
structure Meas where
  half : ℚ
  freq : ℚ
  time : ℚ
deriving DecidableEq, Repr

/-- amplitude.py:903-912: half amplitude in millimetres, frequency and
time from the chosen peak and trough.  `delta` is the sample interval. -/
def measure (x : ℕ → ℚ) (delta start : ℚ) (pt : ℕ × ℕ) : Meas :=
  let tp := pt.1 * delta
  let tt := pt.2 * delta
  ⟨|x pt.1 - x pt.2| * 1000 / 2, 1 / (|tp - tt| * 2), start + tp + (tt - tp) / 2⟩

/-- The four lists `a, b, c, d` (amplitude.py:870-889) as two lists of pairs. -/
def pairings (peaks troughs : List ℕ) : Except Err (List (ℕ × ℕ) × List (ℕ × ℕ)) :=
  if peaks.length = troughs.length then
    if peaks.headD 0 < troughs.headD 0 then
      .ok (peaks.zip troughs, peaks.tail.zip troughs.dropLast)
    else .ok (peaks.zip troughs, peaks.dropLast.zip troughs.tail)
  else if ¬ (peaks.length = troughs.length + 1 ∨ troughs.length = peaks.length + 1) then
    .error .consecutive
  else if peaks.length > troughs.length then
    if peaks.headD 0 < troughs.headD 0 then
      .ok (peaks.dropLast.zip troughs, peaks.tail.zip troughs)
    else .error .consecutive
  else
    if peaks.headD 0 > troughs.headD 0 then
      .ok (peaks.zip troughs.tail, peaks.zip troughs.dropLast)
    else .error .consecutive

/-- `_peak_to_trough_amplitude` (amplitude.py:821-914), given the sample numbers of
peaks and troughs that `scipy.signal.find_peaks` found. -/
def peakToTrough (x : ℕ → ℚ) (delta start : ℚ) (peaks troughs : List ℕ) : Except Err Meas :=
  if peaks = [] ∨ troughs = [] then .error .noPeaks
  else if peaks.length = 1 ∧ troughs.length = 1 then
    let pt := (peaks.headD 0, troughs.headD 0)
    if |x pt.1 - x pt.2| = 0 then .error .unboundLocal else .ok (measure x delta start pt)
  else
    match pairings peaks troughs with
    | .error e => .error e
    | .ok (ab, cd) =>
      let f := fun pt : ℕ × ℕ => |x pt.1 - x pt.2|
      match firstMaxBy f ab, firstMaxBy f cd with
      | some m1, some m2 => .ok (measure x delta start (if f m1 ≥ f m2 then m1 else m2))
      | _, _ => .error .unboundLocal     -- not reached: both lists have an element

end QM.Amplitude
