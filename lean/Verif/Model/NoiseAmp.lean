import Mathlib.Analysis.Real.Sqrt
import Mathlib.Data.List.Basic

/-!
# Model of the noise amplitude: `_measure_noise_amp`, `_average_amplitude`
(signal/local_mag/amplitude.py:916-1009)

Over the reals.  The envelope (Hilbert transform) is a parameter.  The window is cut as in `Model.Amplitude`.
-/

namespace QM.NoiseAmp

noncomputable section

/-- `np.mean` (signal/local_mag/amplitude.py:995, 999). -/
def mean (d : List ℝ) : ℝ := d.sum / d.length

/-- Time of sample `k` of `n`, in samples from the middle.  Used for the least squares of
signal/local_mag/amplitude.py:959. -/
def time (n k : ℕ) : ℝ := k - ((n : ℝ) - 1) / 2

/-- Slope of the straight line that fits best.  Stands for `scipy.linalg.lstsq` in the linear detrend called at
signal/local_mag/amplitude.py:959. -/
def slope (d : List ℝ) : ℝ :=
  (d.mapIdx fun k v => time d.length k * v).sum / (d.mapIdx fun k _ => time d.length k ^ 2).sum

/-- `noise.detrend("linear")` (signal/local_mag/amplitude.py:959, 765): the straight line that fits best is
subtracted. -/
def detrend (d : List ℝ) : List ℝ := d.mapIdx fun k v => v - (mean d + slope d * time d.length k)

/-- The documented values of `noise_measure` (signal/local_mag/amplitude.py:994-999). -/
inductive Measure where
  | rms
  | std
  | env
deriving DecidableEq, Repr

/-- `_average_amplitude` (signal/local_mag/amplitude.py:966-1009) in millimetres; `none` = any other text,
`NotImplementedError`.  `env` is `np.abs(hilbert(data))`. -/
def averageAmplitude (env : List ℝ → List ℝ) (m : Option Measure) (d : List ℝ) : Option ℝ :=
  match m with
  | none => none
  | some .rms => some (Real.sqrt (mean (d.map fun v => v ^ 2)) * 1000)
  | some .std => some (Real.sqrt (mean (d.map fun v => (v - mean d) ^ 2)) * 1000)
  | some .env => some (mean (env d) * 1000)

/-- `data.max() == data.min()`, or no data (signal/local_mag/amplitude.py:952). -/
def noData (d : List ℝ) : Prop := d = [] ∨ ∀ v ∈ d, v = d.headD 0

open Classical in
/-- `_measure_noise_amp` (signal/local_mag/amplitude.py:916-964) for the samples of the noise window: the outer
`none` is an exception, the inner one NaN. -/
def noiseAmp (env : List ℝ → List ℝ) (m : Option Measure) (d : List ℝ) : Option (Option ℝ) :=
  if noData d then some none
  else
    match averageAmplitude env m (detrend d) with
    | none => none
    | some a => some (some a)

end

end QM.NoiseAmp
