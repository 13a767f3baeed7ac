import Verif.Py
import Verif.Model.Pads

/-!
# Model of the resampling helpers of `util.py`
-/

namespace QM.Util

/-- Python `a % b` of floats, `b > 0`.  Stands for Python `%`, util.py:351. -/
def fMod (a b : ℚ) : ℚ := a - b * ⌊a / b⌋

/-! ## shift_to_sample -/

/-- Start time of a trace (`UTCDateTime`): nanoseconds since the epoch.  Stands for obspy time
stamps, util.py:349-399. -/
abbrev Ns := ℤ

/-- `UTCDateTime.microsecond`: microseconds within the second, truncated.  Models util.py:351. -/
def microsecond (t : Ns) : ℤ := t / 1000 % 1000000

/-- A trace as far as `shift_to_sample` is modelled: start time and number of samples (the
interpolated values are not modelled).  Stands for obspy trace, util.py:349-399. -/
structure Tr where
  start : Ns
  npts : ℕ

/-- `delta` of `shift_to_sample` (util.py:351-352): microseconds past the previous sample time;
`rate` in Hz. -/
def offSample (rate : ℚ) (t : Ns) : ℚ := fMod (microsecond t) (1000000 / rate)

/-- `time_shift` (util.py:361-364), in seconds. -/
def timeShift (rate : ℚ) (delta : ℚ) : ℚ :=
  (pyRound (delta / 1000000 * rate) : ℚ) / rate - delta / 1000000

/-- `starttime + s` for `s` in seconds (obspy rounds to nanoseconds).  Models util.py:370, 382. -/
def addSeconds (t : Ns) (s : ℚ) : Ns := t + pyRound (s * 1000000000)

/-- `Trace.interpolate` as far as start time and length go (obspy): samples from the new
start time to the end of the trace.  Models util.py:385-390. -/
def interpolate (rate : ℚ) (tr : Tr) (newStart : Ns) : Tr :=
  { start := newStart
    npts := (⌊((tr.start : ℚ) + ((tr.npts : ℚ) - 1) / rate * 1000000000 - newStart) / 1000000000 *
      rate⌋ + 1).toNat }

/-- Body of the loop of `shift_to_sample` (util.py:349-399) for one trace. `none` =
IndexError (`tr.data[-1]` of an empty trace). -/
def shiftTrace (rate : ℚ) (interp : Bool) (tr : Tr) : Option Tr :=
  let delta := offSample rate tr.start
  if delta = 0 then some tr
  else
    let shift := timeShift rate delta
    if interp = false then some { tr with start := addSeconds tr.start shift }
    else
      let new0 := addSeconds tr.start shift
      let new := if shift < 0 then addSeconds new0 (1 / rate) else new0
      let t := interpolate rate tr new
      if t.npts = 0 then none
      else if shift > 0 then some { t with npts := t.npts + 1 }
      else some { start := addSeconds t.start (-(1 / rate)), npts := t.npts + 1 }

/-! ## resample -/

/-- A trace as seen by `resample`: its sampling rate and the rest (identity, data).  Stands for obspy
trace, util.py:446-468. -/
structure RTr (α : Type) where
  rate : ℚ
  rest : α
deriving DecidableEq

/-- Effects on the data of filtering and decimating by a factor, and of upsampling;
not modelled here (see `upsampleData` below).  Stands for obspy filters called at util.py:479-518. -/
structure Dsp (α : Type) where
  dec : ℤ → α → α
  up : ℕ → α → α

/-- `util.decimate` (util.py:479-518): the new rate is the old one divided by
`int(rate / sampling_rate)`. -/
def decimate {α : Type} (D : Dsp α) (sr : ℚ) (tr : RTr α) : RTr α :=
  let f := pyInt (tr.rate / sr)
  ⟨tr.rate / f, D.dec f tr.rest⟩

/-- `util.upsample` (util.py:521-604) as far as the rate goes:
`int(upfactor * sampling_rate)`. -/
def upsampleRate {α : Type} (D : Dsp α) (u : ℕ) (tr : RTr α) : RTr α :=
  ⟨(pyInt (u * tr.rate) : ℚ), D.up u tr.rest⟩

/-- Body of the loop of `resample` (util.py:446-468) for one trace of the iterated copy:
`remove` takes out the first equal trace, `+=` appends. `none` =
BadUpfactorException. -/
def resampleStep {α : Type} [DecidableEq α] (D : Dsp α) (sr : ℚ) (resample : Bool) (up : Option ℕ)
    (st : List (RTr α)) (tr : RTr α) : Option (List (RTr α)) :=
  if sr = tr.rate then some st
  else if fMod tr.rate sr = 0 then some (st.erase tr ++ [decimate D sr tr])
  else
    match resample, up with
    | true, some u =>
      if fMod (pyInt (tr.rate * u)) sr ≠ 0 then none
      else some (st.erase tr ++ [decimate D sr (upsampleRate D u tr)])
    | _, _ => some st

/-- `util.resample` (util.py:404-476). The final trim, which does not touch sampling
rates, is `trim` (`none` = trace removed because nothing is left). -/
def resample {α : Type} [DecidableEq α] (D : Dsp α) (trim : α → Option α) (sr : ℚ) (rs : Bool)
    (up : Option ℕ) (stream : List (RTr α)) : Option (List (RTr α)) :=
  match stream.foldlM (fun st tr => resampleStep D sr rs up st tr) stream with
  | none => none
  | some st => some (st.filterMap (fun tr => (trim tr.rest).map (fun a => ⟨tr.rate, a⟩)))

/-! ## upsample -/

variable {K : Type} [Field K]

/-- `a[i::u] = vals` (shapes agree).  Models util.py:547-549. -/
def strideSet (i u : ℕ) (vals : List K) (a : List K) : List K :=
  a.mapIdx (fun j v => if i ≤ j ∧ (j - i) % u = 0 then vals.getD ((j - i) / u) v else v)

/-- `float(i)/u * data[1:] + float(u-i)/u * data[:-1]`.  Models util.py:550. -/
def blend (i u : ℕ) (data : List K) : List K :=
  List.zipWith (fun a b => (i : K) / u * a + ((u - i : ℕ) : K) / u * b) data.tail data.dropLast

/-- The upsampled data before padding (util.py:546-551). -/
def upsampleData (u : ℕ) (data : List K) : List K :=
  (List.range' 1 (u - 1)).foldl (fun d i => strideSet i u (blend i u data) d)
    (strideSet 0 u data (List.replicate ((data.length - 1) * u + 1) 0))

/-- A trace with data.  Stands for obspy trace, util.py:521-604. -/
structure UTr where
  start : ℚ
  rate : ℚ
  data : List ℚ

/-- `stats.endtime`.  Models util.py:576. -/
def UTr.stop (t : UTr) : ℚ := t.start + ((t.data.length : ℚ) - 1) / t.rate

/-- Number of padding samples for a gap (util.py:559-565, 579-584): `np.round` of the
gap in new samples if `0 < gap < delta`. -/
def padCount (gap rate : ℚ) (u : ℕ) : ℕ :=
  if 0 < gap ∧ gap < 1 / rate then (pyRound (gap * rate * u)).toNat else 0

/-- `upsample` before the final trim (util.py:546-592). The fill arrays have
`dtype=int`: the fill value is truncated. -/
def upsamplePadded (u : ℕ) (t0 t1 : ℚ) (t : UTr) : UTr :=
  let p := padCount (t.start - t0) t.rate u
  let q := padCount (t1 - t.stop) t.rate u
  { start := t.start - p / (t.rate * u)
    rate := (pyInt (u * t.rate) : ℚ)
    data := List.replicate p (pyInt (t.data.headD 0) : ℚ) ++ upsampleData u t.data ++
      List.replicate q (pyInt (t.data.getLastD 0) : ℚ) }

/-- obspy `Trace.trim(t0, t1, nearest_sample=False)` without padding: keep the samples
inside `[t0, t1]`.  Models util.py:599-601. -/
def trimInside (t0 t1 : ℚ) (t : UTr) : UTr :=
  let d := (⌈(t0 - t.start) * t.rate⌉).toNat
  let e := (-⌊(t1 - t.stop) * t.rate⌋).toNat
  { t with start := t.start + d / t.rate
           data := (t.data.take (t.data.length - e)).drop d }

/-- `util.upsample` (util.py:521-604). -/
def upsample (u : ℕ) (t0 t1 : ℚ) (t : UTr) : UTr :=
  trimInside (t0 - 1 / 100000) (t1 + 1 / 100000) (upsamplePadded u t0 t1 t)

end QM.Util
