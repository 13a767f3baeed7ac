import Verif.Model.Util
import Verif.Model.Detect

/-!
# Model of the use of filters: `pre_process` (signal/onsets/stalta.py:137-213) and the filters of
`Amplitude` (signal/local_mag/amplitude.py:413-539)

Which filter is applied to a trace, or which exception is raised; the data are not modelled.  A filter is
given by its corner frequencies as fractions of the Nyquist frequency, as SciPy takes them.
-/

namespace QM.Filters

open QM.Util

/-- A filter design: `Wn` of `scipy.signal.iirfilter` (signal/local_mag/amplitude.py:489-496, 535-537). -/
inductive Design where
  | bandpass (low high : ℚ)
  | highpass (f : ℚ)
deriving DecidableEq, Repr

/-- Exceptions: `BadUpfactorException` (util.py:456), `NyquistException` (signal/onsets/stalta.py:199;
amplitude.py:475), and the `ValueError` of ObsPy and SciPy for a frequency at or above Nyquist (called at
signal/onsets/stalta.py:207, amplitude.py:480, 532). -/
inductive Err where
  | badUpfactor
  | nyquist
  | valueError
deriving DecidableEq, Repr

/-- `scipy.signal.iirfilter`: critical frequencies must be strictly between 0 and 1, and in order (called at
signal/local_mag/amplitude.py:489, 535, and by ObsPy). -/
def iirfilter : Design → Except Err Design
  | .bandpass low high =>
    if low ≤ 0 ∨ 1 ≤ low ∨ high ≤ 0 ∨ 1 ≤ high ∨ high ≤ low then .error .valueError else .ok (.bandpass low high)
  | .highpass f => if f ≤ 0 ∨ 1 ≤ f then .error .valueError else .ok (.highpass f)

/-- `obspy.signal.filter.highpass` at rate `df` (called at amplitude.py:532). -/
def obspyHighpass (freq df : ℚ) : Except Err Design :=
  let f := freq / (1 / 2 * df)
  if 1 < f then .error .valueError else iirfilter (.highpass f)

/-- `obspy.signal.filter.bandpass` at rate `df` (called at signal/onsets/stalta.py:207-209, amplitude.py:480):
a high-pass filter, with a warning, if the high corner is at or above Nyquist. -/
def obspyBandpass (freqmin freqmax df : ℚ) : Except Err Design :=
  let low := freqmin / (1 / 2 * df)
  let high := freqmax / (1 / 2 * df)
  if high - 1 > -(1 / 1000000) then obspyHighpass freqmin df
  else if 1 < low then .error .valueError
  else iirfilter (.bandpass low high)

/-- `filtered_waveforms.filter("bandpass", ...)` (signal/onsets/stalta.py:207-209): every trace in turn, at
its own rate. -/
def filterAll {α : Type} (lowcut highcut : ℚ) : List (RTr α) → Except Err (List (RTr α × Design))
  | [] => .ok []
  | t :: ts =>
    match obspyBandpass lowcut highcut t.rate with
    | .error e => .error e
    | .ok d =>
      match filterAll lowcut highcut ts with
      | .error e => .error e
      | .ok r => .ok ((t, d) :: r)

/-- `pre_process` (signal/onsets/stalta.py:137-213): resampling, check of the filter, filters.  Detrending and
tapering do not matter here. -/
def preProcess {α : Type} [DecidableEq α] (D : Dsp α) (trim : α → Option α) (sr : ℚ) (rs : Bool)
    (up : Option ℕ) (lowcut highcut : ℚ) (stream : List (RTr α)) : Except Err (List (RTr α × Design)) :=
  match resample D trim sr rs up stream with
  | none => .error .badUpfactor
  | some st => if highcut ≥ 1 / 2 * sr then .error .nyquist else filterAll lowcut highcut st

/-- What the loop of detect sees of an exception of `pre_process`: none of the three it catches
(signal/scan.py:454-458). -/
def outcome {α : Type} (r : Except Err (List (RTr α × Design))) (rest : List (RTr α × Design) → Detect.Outcome) :
    Detect.Outcome :=
  match r with
  | .error _ => .other
  | .ok l => rest l

/-! ## Filters before amplitudes are measured -/

/-- Filter settings of `Amplitude` (signal/local_mag/amplitude.py:110-124); the frequencies of the filter
chosen are given. -/
inductive Setting where
  | bandpass (lowcut highcut : ℚ)
  | highpass (freq : ℚ)
deriving DecidableEq, Repr

/-- The frequency of the high-pass filter: the low corner if a band-pass filter was asked for
(signal/local_mag/amplitude.py:518-523). -/
def Setting.hpFreq : Setting → ℚ
  | .bandpass lowcut _ => lowcut
  | .highpass f => f

/-- `_highpass_filter` (signal/local_mag/amplitude.py:500-539): the filter applied to the trace, and the one
whose gain will be removed. -/
def highpassFilter (s : Setting) (rate : ℚ) : Except Err (Design × Design) :=
  match obspyHighpass s.hpFreq rate with
  | .error e => .error e
  | .ok applied =>
    match iirfilter (.highpass (s.hpFreq / (1 / 2 * rate))) with
    | .error e => .error e
    | .ok sos => .ok (applied, sos)

/-- `_bandpass_filter` (signal/local_mag/amplitude.py:443-498). -/
def bandpassFilter (lowcut highcut rate : ℚ) : Except Err (Design × Design) :=
  let low := lowcut / (1 / 2 * rate)
  let high := highcut / (1 / 2 * rate)
  if high - 1 > -(1 / 1000000) then .error .nyquist
  else
    match obspyBandpass lowcut highcut rate with
    | .error e => .error e
    | .ok applied =>
      match iirfilter (.bandpass low high) with
      | .error e => .error e
      | .ok sos => .ok (applied, sos)

/-- `_filter_trace` (signal/local_mag/amplitude.py:413-441). -/
def filterTrace (s : Setting) (rate : ℚ) : Except Err (Design × Design) :=
  match s with
  | .bandpass lowcut highcut =>
    match bandpassFilter lowcut highcut rate with
    | .error .nyquist => highpassFilter s rate
    | r => r
  | .highpass _ => highpassFilter s rate

end QM.Filters
