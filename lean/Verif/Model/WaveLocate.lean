import Verif.Model.WaveDetect
import Verif.Model.Locate

/-!
# `locate` from the files of an archive (`signal/scan.py:472-693`)

As `Verif.Model.WaveDetect`, for the loop over triggered events.
-/

namespace QM.WaveDetect

open QM.Waveforms (readWaveformData)
open QM.Data (loadFromPath)
open QM.Pads

/-- The extra pads of `_read_event_waveform_data` (signal/scan.py:668-690).  `amp` is the padding asked for by the magnitude
calculation (`none` without magnitudes); a cut of `none` or 0 is not applied. -/
def eventPads (mw : ℚ) (pads : ℚ × ℚ) (amp : Option (ℚ × ℚ)) (preCut postCut : Option ℚ) : ℚ × ℚ :=
  let pre : ℚ := match amp with | none => 0 | some p => p.1
  let post : ℚ := match amp with | none => 0 | some p => p.2
  let pre := match preCut with | none => pre | some c => if c = 0 then pre else max pre c
  let post := match postCut with | none => post | some c => if c = 0 then post else max post c
  (max 0 (pre - mw - pads.1), max 0 (post - mw - pads.2))

/-- `archive.read_waveform_data(w_beg, w_end, pre_pad, post_pad)` (signal/scan.py:693, io/data.py:221-336). -/
def Scan.readEvent (s : Scan) (win extra : ℚ × ℚ) : Except Waveforms.Err (Waveforms.Out ℚ) :=
  readWaveformData s.order s.toSample ⟨win.1, win.2, extra.1, extra.2, s.readAll, s.stations⟩
    ((loadFromPath s.readAll s.stations (win.1 - extra.1) (win.2 + extra.2)).flatMap s.files)

/-- What happens for a triggered event (signal/scan.py:494-518, 593-647, io/event.py:229-241): a table with one row per time of
`mw_times`, which must be as many as the samples of the coalescence (pandas raises otherwise).  The slices of the 4-D map are
represented by what is computed from them. -/
noncomputable def Scan.locateOutcome (s : Scan) (mw : ℚ) (extra : ℚ × ℚ) (x : Locate.Trig) : Locate.Outcome ComputeStep.Out :=
  match s.readEvent (locateWindow x.time mw (scanPads s.windows s.ttmax s.rate (4 * mw))) extra with
  | .error .archiveEmpty => .archiveEmpty
  | .error .dataGap => .dataGap
  | .error .dataAvailability => .dataAvailability
  | .ok o =>
    match s.compute (4 * mw) (locateWindow x.time mw (scanPads s.windows s.ttmax s.rate (4 * mw))) o with
    | .ok out =>
      if out.length = (mwTimes x.time mw s.rate).length then
        .computed (List.zipWith (fun t r => ⟨t, s.fl r.maxCoa, s.fl r.norm⟩) (mwTimes x.time mw s.rate) out) out
      else .other
    | .error (.onset .dataAvailability) => .dataAvailability
    | .error _ => .other

/-- `_locate_events` (signal/scan.py:490-590) for the triggered events read; `later` is what the stages after the trimming do. -/
noncomputable def Scan.locate (s : Scan) (mw : ℚ) (amp : Option (ℚ × ℚ)) (preCut postCut : Option ℚ)
    (later : Locate.Trig → Locate.Later) (events : List Locate.Trig) : Locate.Result :=
  Locate.locateEvents mw
    (s.locateOutcome mw (eventPads mw (scanPads s.windows s.ttmax s.rate (4 * mw)) amp preCut postCut)) later events

end QM.WaveDetect
