import Verif.Model.Data

/-!
# Model of the use of gappy data: `STALTAOnset.calculate_onsets` (signal/onsets/stalta.py:412-462)

Channels that pass the availability check are tapered, merged and padded to the window.  The taper is a
parameter.  ObsPy's `merge` and `trim` are written out for traces of one channel without overlaps; their
rounding of sample counts to 7 digits is left out.
-/

namespace QM.GapFill

open QM.Data

/-- The options `calculate_onsets` passes to `check_availability` (signal/onsets/stalta.py:415-422). -/
def onsetOpts (allChannels allowGaps fullTimespan : Bool) (nChannels : ℕ) (rate : ℚ) : Opts :=
  ⟨allChannels, nChannels, allowGaps, fullTimespan, true, rate, false⟩

/-- `waveforms.taper(type="cosine", max_percentage=0.05)` (signal/onsets/stalta.py:448): sample `j` of `n` is
multiplied by `w n j`. -/
def taper (w : ℕ → ℕ → ℚ) (t : Trace) : Trace :=
  { t with data := t.data.mapIdx fun j v => w t.data.length j * v }

/-- Two traces joined, the gap filled: one step of `merge(method=1, fill_value)`
(signal/onsets/stalta.py:450). -/
def join (fill : ℚ) (a b : Trace) : Trace :=
  { a with data := a.data ++ List.replicate (pyRound ((b.start - a.stop) * a.rate) - 1).toNat fill ++ b.data }

/-- `waveforms.merge(method=1, fill_value=tiny)` for one channel (signal/onsets/stalta.py:450). -/
def merge (fill : ℚ) (trs : List Trace) : Option Trace :=
  match trs.insertionSort Trace.le with
  | [] => none
  | t :: ts => some (ts.foldl (join fill) t)

/-- `waveforms.trim(starttime - 0.00001, endtime + 0.00001, pad=True, fill_value=tiny,
nearest_sample=False)` (signal/onsets/stalta.py:455-461). -/
def padTrim (fill start stop : ℚ) (t : Trace) : List ℚ :=
  let k := ⌊(t.start - (start - 1 / 100000)) * t.rate⌋
  let d := if 0 ≤ k then List.replicate k.toNat fill ++ t.data else t.data.drop (-k).toNat
  let s := t.start - k / t.rate
  let n := (⌊(stop + 1 / 100000 - s) * t.rate⌋ + 1).toNat
  (d ++ List.replicate (n - d.length) fill).take n

/-- The samples of one channel that go into the onset function (signal/onsets/stalta.py:442-462): as they
are, or tapered, merged and padded. -/
def prepare (allowGaps fullTimespan : Bool) (w : ℕ → ℕ → ℚ) (fill start stop : ℚ) (trs : List Trace) :
    List (List ℚ) :=
  if allowGaps || !fullTimespan then
    match merge fill (trs.map (taper w)) with
    | none => []
    | some t => [padTrim fill start stop t]
  else trs.map Trace.data

end QM.GapFill
