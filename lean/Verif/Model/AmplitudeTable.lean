import Verif.Model.FindPeaks

/-!
# Model of the table of amplitudes (signal/local_mag/amplitude.py)

Not modelled: response removal, filters and detrending (a parameter gives the corrected data of a
trace in a window), the average amplitude and the filter gain (parameters), distances, a lookup table
without P or S (`LUTPhasesException`), a `noise_measure` that does not exist, failures of the filter.
-/

namespace QM.AmplitudeTable

open QM.Picker (Str)
open QM.Amplitude (Window PickVal)

/-- A trace of the raw waveforms of a station, cut to the padded window (amplitude.py:311-314). -/
structure Trace where
  id : Str
  comp : Char
  start : ℚ
  stop : ℚ
  delta : ℚ
deriving DecidableEq, Repr

/-- The three components (amplitude.py:316): name in the table, and which codes are meant. -/
inductive Comp where
  | e
  | n
  | z
deriving DecidableEq, Repr

/-- The pattern as text.  Models signal/local_mag/amplitude.py:316, 330. -/
def Comp.text : Comp → Str
  | .e => ['[', 'E', ',', '2', ']']
  | .n => ['[', 'N', ',', '1', ']']
  | .z => ['Z']

/-- `st.select(component=...)` (amplitude.py:318): `fnmatch` of the last letter of the channel.  ObsPy
compares in upper case; the letter here is the upper-case one. -/
def Comp.sel : Comp → Char → Bool
  | .e, c => c = 'E' || c = ',' || c = '2'
  | .n, c => c = 'N' || c = ',' || c = '1'
  | .z, c => c = 'Z'

/-- The list of the inner loop (amplitude.py:316). -/
def comps : List Comp := [.e, .n, .z]

/-- What leaves `get_amplitudes`: `p_ttimes[i]` out of range (amplitude.py:596-628); the variable `a`
never set (amplitude.py:892). -/
inductive Err where
  | indexError
  | unboundLocal
deriving DecidableEq, Repr

/-- The five columns of a phase (amplitude.py:811-817): amplitude (mm), frequency, time, average
amplitude and the filter gain both were divided by. -/
structure PhaseAmp where
  amp : ℚ
  freq : ℚ
  time : ℚ
  avg : ℚ
  gain : Option ℚ
deriving DecidableEq, Repr

/-- A row of the table (amplitude.py:237-255), without the distances. -/
structure Row where
  id : Str
  p : Option PhaseAmp
  s : Option PhaseAmp
  noise : Option ℚ
  picked : Bool
deriving DecidableEq, Repr

/-- Everything fixed for one event.  `stations` are index and name of the rows of the station table of
the lookup table; `ptt`, `stt` are the traveltimes to all stations, in the order of the table.
`response` tells whether the response could be removed; `data t w` are the samples of the corrected
(filtered, detrended) trace in the window, with the time of the first. `gain` gives the filter gain of
a trace at a frequency, absent without a filter.  `average` is the average amplitude of a trace in a
window; `noiseAmp` is the same for the noise window, absent if that is empty or flat.  `span` is the
window the traces are cut to.  Models signal/local_mag/amplitude.py:257-278, 311, 338-347. -/
structure Ctx where
  cfg : Amplitude.Cfg
  otime : ℚ
  mult : ℚ
  span : Window
  stations : List (ℕ × Str)
  ptt : List ℚ
  stt : List ℚ
  picks : List Picker.Row
  traces : Str → List Trace
  response : Trace → Bool
  data : Trace → Window → ℚ × List ℚ
  gain : Option (Trace → ℚ → ℚ)
  average : Trace → Window → ℚ
  noiseAmp : Trace → Window → Option ℚ

/-- `data.max() == data.min()` (amplitude.py:771); true of no data. -/
def flat (d : List ℚ) : Bool := d.all fun v => decide (v = d.headD 0)

/-- One turn of the loop of `_measure_signal_amps` (amplitude.py:763-817).  Simplified: detrending a
window without samples is taken not to fail. -/
def signalAmp (c : Ctx) (t : Trace) (w : Window) : Except Err (Option PhaseAmp) :=
  let d := c.data t w
  if d.2 = [] || flat d.2 then .ok none
  else
    match FindPeaks.windowAmplitude c.mult d.2 t.delta d.1 with
    | .error .unboundLocal => .error .unboundLocal
    | .error _ => .ok none
    | .ok m =>
      match c.gain with
      | none => .ok (some ⟨m.half, m.freq, m.time, c.average t w, none⟩)
      | some g =>
        if g t m.freq = 0 then .ok none
        else .ok (some ⟨m.half / g t m.freq, m.freq, m.time, c.average t w / g t m.freq,
          some (g t m.freq)⟩)

/-- Whether a trace covers the window needed (amplitude.py:322-327). -/
def covers (span : Window) (t : Trace) : Bool :=
  decide (t.start < span.1 + t.delta) && decide (t.stop > span.2 - t.delta)

/-- The windows of the station with label `i` (`_get_amplitude_windows`, amplitude.py:541-639): the
label is used as a position in the traveltimes.  They are not looked up if both picks are times in the
wrong order. -/
def windows (c : Ctx) (i : ℕ) (station : Str) :
    Except Err (Except Amplitude.Err ((Window × Window) × Bool)) :=
  match c.ptt[i]?, c.stt[i]? with
  | some p, some s => .ok (Amplitude.getWindows c.cfg c.picks station c.otime p s)
  | _, _ =>
    match Amplitude.getPicks c.picks station with
    | (.time tp, .time ts, _) => if tp < ts then .error .indexError else .ok (.error .pickOrder)
    | _ => .error .indexError

/-- One component of one station (amplitude.py:316-367): the row. -/
def measureRow (c : Ctx) (i : ℕ) (station : Str) (k : Comp) : Except Err Row :=
  match (c.traces station).filter fun t => k.sel t.comp with
  | [t] =>
    if covers c.span t then
      if c.response t then
        match windows c i station with
        | .error e => .error e
        | .ok (.error _) => .ok ⟨t.id, none, none, none, false⟩
        | .ok (.ok (w, picked)) =>
          match signalAmp c t w.1 with
          | .error e => .error e
          | .ok p =>
            match signalAmp c t w.2 with
            | .error e => .error e
            | .ok s => .ok ⟨t.id, p, s, c.noiseAmp t (Amplitude.noiseWindow c.cfg w), picked⟩
      else .ok ⟨t.id, none, none, none, false⟩
    else .ok ⟨'.' :: station ++ ['.', '.'] ++ k.text, none, none, none, false⟩
  | _ => .ok ⟨'.' :: station ++ ['.', '.'] ++ k.text, none, none, none, false⟩

/-- `amplitudes.loc[k] = row`: the row with that label is replaced, or one is added.  Models
signal/local_mag/amplitude.py:331, 341, 356, 367. -/
def setLoc (t : List (ℕ × Row)) (k : ℕ) (r : Row) : List (ℕ × Row) :=
  if t.any fun e => e.1 = k then t.map fun e => if e.1 = k then (k, r) else e
  else t ++ [(k, r)]

/-- The loops of `get_amplitudes` (amplitude.py:282-367) over index, name, number of the component and
component. -/
def rowsFrom (c : Ctx) : List (ℕ × Str × ℕ × Comp) → List (ℕ × Row) → Except Err (List (ℕ × Row))
  | [], t => .ok t
  | (i, s, j, k) :: rest, t =>
    match measureRow c i s k with
    | .error e => .error e
    | .ok r => rowsFrom c rest (setLoc t (i * 3 + j) r)

/-- `get_amplitudes` (amplitude.py:175-371): the table with its labels. -/
def getAmplitudes (c : Ctx) : Except Err (List (ℕ × Row)) :=
  rowsFrom c (c.stations.flatMap fun s => comps.zipIdx.map fun k => (s.1, s.2, k.2, k.1)) []

/-- The filter options of `Amplitude(...)` (amplitude.py:110-124); `none` = key not given. -/
structure FilterParams where
  highpass : Bool
  highpassFreq : Option ℚ
  bandpass : Bool
  lowcut : Option ℚ
  highcut : Option ℚ

/-- Raised by the constructor.  Models signal/local_mag/amplitude.py:115, 127. -/
inductive InitErr where
  | attributeError
deriving DecidableEq, Repr

/-- The checks of the constructor on filters (amplitude.py:110-130): `dict.get` does not raise for a
missing key (lines 120-121). -/
def init (f : FilterParams) : Except InitErr FilterParams :=
  if f.highpass && f.highpassFreq.isNone then .error .attributeError
  else if f.highpass && f.bandpass then .error .attributeError
  else .ok f

end QM.AmplitudeTable
