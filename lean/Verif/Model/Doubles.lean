import Verif.Model.Pads
import Verif.Model.Compute
import Verif.Model.Detect
import Mathlib.Data.Int.Log

/-!
# The same arithmetic in doubles

The rest of the model computes with rationals.  Here the expressions that decide how much data is
asked for, and whether there is enough of it, are modelled in the arithmetic the code runs in: IEEE
754 double precision, each operation rounded to nearest, ties to even.  Not modelled: overflow,
subnormal numbers, infinities and NaN (all numbers here are between 1e-9 and 1e15).
-/

namespace QM.Doubles

/-- The double nearest to a number: 53 significant bits, ties to even.  Stands for the rounding of
every arithmetic operation on floats in util.py:172, 269, io/data.py:572-611 and io/event.py:413. -/
def fl (x : ℚ) : ℚ :=
  if x = 0 then 0
  else (pyRound (x / 2 ^ (Int.log 2 |x| - 52)) : ℚ) * 2 ^ (Int.log 2 |x| - 52)

/-- `util.time2sample` (util.py:172): `int(round(time * int(sampling_rate)))`; `time` is a double. -/
def time2sample (time : ℚ) (sr : ℕ) : ℤ := pyRound (fl (time * sr))

/-- `util.trim2sample` (util.py:269): `int(np.ceil(time * sampling_rate) / sampling_rate * 1000) / 1000`. -/
def trim2sample (time : ℚ) (sr : ℕ) : ℚ :=
  fl ((pyInt (fl (fl ((⌈fl (time * sr)⌉ : ℚ) / sr) * 1000)) : ℚ) / 1000)

/-- `STALTAOnset.pre_pad` (signal/onsets/stalta.py:604-606) for one pair of windows, which are
doubles. -/
def prePad (sta lta : ℚ) : ℚ := fl (lta + fl (3 * sta))

/-- `STALTAOnset.post_pad` (signal/onsets/stalta.py:633-635). -/
def postPad (lta ttmax : ℚ) : ℚ := (⌈fl (ttmax + fl (2 * lta))⌉ : ℤ)

/-- `Onset.pad` (signal/onsets/base.py:84-93). -/
def pad (pre post : ℚ) (sr : ℕ) (timespan : ℚ) : ℚ × ℚ :=
  let extra : ℚ := (⌈fl (fl (timespan + fl (pre + post)) * fl (6 / 100))⌉ : ℤ)
  (trim2sample (fl (pre + extra)) sr, trim2sample (fl (post + extra)) sr)

/-- A number of seconds added to or subtracted from a `UTCDateTime`, in nanoseconds:
`int(round(value * 1e9))` (ObsPy; used in signal/scan.py:435-438, 498-499). -/
def toNs (seconds : ℚ) : ℤ := pyRound (fl (seconds * 1000000000))

/-- Start and end, in nanoseconds, of the window read for timestep `i` of detect
(signal/scan.py:435-438). -/
def detectWindow (start : ℤ) (timestep : ℚ) (sr : ℕ) (pads : ℚ × ℚ) (i : ℕ) : ℤ × ℤ :=
  (start + toNs (fl (timestep * i)) - toNs pads.1,
   start + toNs (fl (timestep * ((i : ℚ) + 1))) - toNs (fl (1 / sr)) + toNs pads.2)

/-- Start and end, in nanoseconds, of the window read by locate (signal/scan.py:498-499). -/
def locateWindow (trigger : ℤ) (mw : ℚ) (pads : ℚ × ℚ) : ℤ × ℤ :=
  (trigger - toNs (fl (2 * mw)) - toNs pads.1, trigger + toNs (fl (2 * mw)) + toNs pads.2)

/-- `endtime - starttime` of two `UTCDateTime`s given in nanoseconds: the double nearest to the
difference rounded to microseconds (ObsPy; used in io/data.py:572). -/
def timespan (a b : ℤ) : ℚ := fl ((pyRound (((b - a : ℤ) : ℚ) / 1000) : ℚ) / 1000000)

/-- `n_samples = timespan * sampling_rate + 1` (io/data.py:607). -/
def nSamples (span : ℚ) (sr : ℕ) : ℚ := fl (fl (span * sr) + 1)

/-- The test of the full timespan for a channel with one trace (io/data.py:606-615): whether its
number of samples is enough. -/
def fullTimespan (npts : ℕ) (a b : ℤ) (sr : ℕ) : Bool := !decide ((npts : ℚ) < nSamples (timespan a b) sr)

/-- Number of samples a channel has after reading and trimming, if nothing is missing from the archive
and its samples are at whole multiples of `q` nanoseconds: those from 10 microseconds before `a` to 10
microseconds after `b` (io/data.py:285-290, util.py:469-474). -/
def samplesIn (a b : ℤ) (q : ℕ) : ℕ := ((b + 10000) / q + (10000 - a) / q + 1).toNat

/-- `check_availability` for a channel with one trace, with the options `calculate_onsets` passes by
default: no gaps, full timespan, sampling rate checked (io/data.py:576-630 with
signal/onsets/stalta.py:412-420).  One trace has neither gaps nor overlaps. -/
def channelUsed (flat : Bool) (rate npts : ℕ) (a b : ℤ) (sr : ℕ) : Bool :=
  !flat && decide (rate = sr) && fullTimespan npts a b rate

/-- Number of timestamps of `Event.mw_times` (io/event.py:411-417): `4 * marginal_window *
sampling_rate + 1`, which ObsPy truncates to an integer. -/
def mwCount (mw : ℚ) (sr : ℕ) : ℤ := pyInt (fl (fl (fl (4 * mw) * sr) + 1))

/-- Number of timesteps of detect (signal/scan.py:328): `int(np.ceil((endtime - starttime) /
timestep))`. -/
def nSteps (a b : ℤ) (timestep : ℚ) : ℤ := ⌈fl (timespan a b / timestep)⌉

/-- What `check_availability` looks at in a trace (io/data.py:576-630). -/
structure Chunk where
  flat : Bool
  rate : ℕ
  npts : ℕ

/-- `check_availability` for the traces of one channel with the options `calculate_onsets` passes by
default: more than one trace is refused (io/data.py:608). -/
def channelOk (a b : ℤ) (sr : ℕ) : List Chunk → Bool
  | [t] => channelUsed t.flat t.rate t.npts a b sr
  | _ => false

/-- The result for all channels of a station and phase (io/data.py:575, 631-646); `count` is not 0, as
is checked there. -/
def stationOk (all : Bool) (count : ℕ) (a b : ℤ) (sr : ℕ) (channels : List (List Chunk)) : Bool :=
  if channels = [] then false
  else if channels.all (channelOk a b sr) then (if all then decide (channels.length = count) else true)
  else !all && channels.any (channelOk a b sr)

/-- One timestep of detect (signal/scan.py:446-466): the onset functions, then `rest` (migration), for
the window in nanoseconds.  `data` is what the archive gives for the window, `onset` the onset
functions. -/
def step {α : Type} (phases stations : List Compute.Str) (all : Bool) (count : ℕ) (sr : ℕ)
    (data : ℤ × ℤ → Compute.Str → Compute.Str → List (List Chunk))
    (onset : ℤ × ℤ → Compute.Str → Compute.Str → α)
    (rest : List (Compute.Str × ℕ) × List α → Detect.Outcome) (w : ℤ × ℤ) : Detect.Outcome :=
  match Compute.calculateOnsets phases stations
      (fun s p => if stationOk all count w.1 w.2 sr (data w s p) then 1 else 0) (onset w) with
  | .ok r => rest r
  | .error .dataAvailability => .dataAvailability
  | .error _ => .other

end QM.Doubles
