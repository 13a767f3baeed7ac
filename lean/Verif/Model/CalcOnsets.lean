import Verif.Model.GapFill
import Verif.Model.Filters
import Verif.Model.Onset
import Verif.Model.Compute

/-!
# Model of `STALTAOnset.calculate_onsets` from waveforms to onset functions (signal/onsets/stalta.py:353-560)

The whole function: selection of channels, pre-processing, availability checks, filling of gaps, STA/LTA of every
channel, combination, stacking.  The signal processing of ObsPy (decimation, detrending, tapers, filters, the
analytic signal) is a parameter; so are `select`'s matches of channel map and station name.  The C backend is used
and no `timespan` is given, as in `QuakeScan._compute` (signal/scan.py:619).
-/

namespace QM.CalcOnsets

open QM.Data (Str Trace)
open QM.Util (RTr Dsp)

/-- A trace without its sampling rate: id, start time, samples.  Stands for the part of an ObsPy trace that
`resample` (util.py:446-468) does not read. -/
structure Body where
  id : Str
  start : ℚ
  data : List ℚ
deriving DecidableEq

/-- The trace as `resample` sees it (util.py:446-468). -/
def toR (t : Trace) : RTr Body := ⟨t.rate, ⟨t.id, t.start, t.data⟩⟩

/-- Back from `toR`; models no code of its own (util.py:446-468). -/
def ofR (r : RTr Body) : Trace := ⟨r.rest.id, r.rest.start, r.rate, r.rest.data⟩

/-- Settings of `STALTAOnset` (signal/onsets/stalta.py:299-335). `chan phase id` tells whether the channel map of the phase
matches the trace. -/
structure Cfg where
  phases : List Str
  chan : Str → Str → Bool
  count : Str → ℕ
  sta : Str → ℚ
  lta : Str → ℚ
  low : Str → ℚ
  high : Str → ℚ
  sr : ℚ
  allChannels : Bool
  allowGaps : Bool
  fullTimespan : Bool
  transform : StaLta.Transform ℝ
  pos : StaLta.Position
  minOnset : ℝ

/-- ObsPy and NumPy functions called by `pre_process` and `calculate_onsets`
(signal/onsets/stalta.py:188-211, 383, 412, 446-461): the parts of `util.resample` that act on samples, the trim to the
window, detrending-tapering-filtering for a phase with a filter design, the weights of the second taper, the fill value, and
`select(station=...)` on ids. -/
structure Ext where
  dsp : Dsp Body
  trim : ℚ → ℚ → Body → Option Body
  filt : Str → Filters.Design → ℚ → List ℚ → List ℚ
  weight : ℕ → ℕ → ℚ
  fill : ℚ
  ofStation : Str → Str → Bool

/-- `WaveformData` as read by `calculate_onsets` (io/data.py:418-470). -/
structure Data where
  waveforms : List Trace
  stations : List Str
  resample : Bool
  upfactor : Option ℕ
  start : ℚ
  stop : ℚ

/-- Exceptions out of `calculate_onsets` (signal/onsets/stalta.py:353-489); `fault` is an access outside an array in the
C library, `ragged` NumPy's refusal to stack rows of unequal length. -/
inductive Err where
  | pre (e : Filters.Err)
  | check (e : QM.Data.Err)
  | fault
  | ragged
  | dataAvailability
deriving DecidableEq

/-- Selection by channel map and `pre_process` for one phase (signal/onsets/stalta.py:389-408, 137-213). -/
def preStream (c : Cfg) (x : Ext) (d : Data) (phase : Str) : Except Err (List Trace) :=
  match Filters.preProcess x.dsp (x.trim d.start d.stop) c.sr d.resample d.upfactor (c.low phase) (c.high phase)
      ((d.waveforms.filter fun t => c.chan phase t.id).map toR) with
  | .error e => .error (.pre e)
  | .ok l => .ok (l.map fun p => ofR ⟨p.1.rate, { p.1.rest with data := x.filt phase p.2 p.1.rate p.1.rest.data }⟩)

/-- Removal of the channels that failed their checks (signal/onsets/stalta.py:434-437). -/
def dropFailed (av : List (Str × Bool)) (w : List Trace) : List Trace :=
  w.filter fun t => !(av.any fun e => decide (e.1 = t.id) && !e.2)

/-- The rows of `waveforms` that `_onset` gets, with their ids: as they are or tapered, merged and padded
(signal/onsets/stalta.py:442-462). -/
def rows (c : Cfg) (x : Ext) (d : Data) (w : List Trace) : List (Str × List ℚ) :=
  if c.allowGaps || !c.fullTimespan then
    (QM.Data.ids w).flatMap fun i =>
      (GapFill.prepare c.allowGaps c.fullTimespan x.weight x.fill d.start d.stop
        (w.filter fun t => t.id = i)).map fun r => (i, r)
  else w.map fun t => (t.id, t.data)

/-- `onset_fn(waveform, stw, ltw)` of the transformed data of one channel (signal/onsets/stalta.py:516-541); `none` = access
outside the array. -/
noncomputable def component (c : Cfg) (stw ltw : ℕ) (r : List ℚ) : Option (List (Option ℝ)) :=
  StaLta.onsetC c.pos (c.transform.apply (r.map fun v : ℚ => (v : ℝ))) stw ltw

/-- All channels in turn (signal/onsets/stalta.py:539-541). -/
noncomputable def components (c : Cfg) (stw ltw : ℕ) : List (Str × List ℚ) → Option (List (List (Option ℝ)))
  | [] => some []
  | r :: rs =>
    match component c stw ltw r.2 with
    | none => none
    | some o =>
      match components c stw ltw rs with
      | none => none
      | some os => some (o :: os)

/-- All rows have one length: what `np.array` and `np.stack` ask for (signal/onsets/stalta.py:539, 473). -/
def sameLength {α : Type} (l : List (List α)) : Bool :=
  match l with
  | [] => true
  | r :: rs => rs.all fun s => decide (s.length = r.length)

/-- The combined onset at one sample: root mean square over the channels, clipped; not finite if one of them is not
(signal/onsets/stalta.py:546-548). -/
noncomputable def combined (minv : ℝ) (vs : List (Option ℝ)) : Option ℝ :=
  if vs.all Option.isSome then some (max minv (Onset.rms (vs.filterMap id))) else none

/-- `_onset` (signal/onsets/stalta.py:491-550). -/
noncomputable def onset (c : Cfg) (phase : Str) (rs : List (Str × List ℚ)) : Except Err (List (Option ℝ)) :=
  match components c ((Pads.time2sample (c.sta phase) c.sr + 1).toNat) ((Pads.time2sample (c.lta phase) c.sr + 1).toNat) rs with
  | none => .error .fault
  | some os =>
    if sameLength os then
      .ok ((List.range ((os.headD []).length)).map fun i => combined c.minOnset (os.map fun o => o.getD i none))
    else .error .ragged

/-- The body of the loop over stations (signal/onsets/stalta.py:411-466): the rows and the onset function, or `none` if
the phase is not available at the station. -/
noncomputable def stationPhase (c : Cfg) (x : Ext) (d : Data) (phase : Str) (filtered : List Trace) (station : Str) :
    Except Err (Option (List (Str × List ℚ) × List (Option ℝ))) :=
  let w := filtered.filter fun t => x.ofStation station t.id
  match QM.Data.checkAvailability (GapFill.onsetOpts c.allChannels c.allowGaps c.fullTimespan (c.count phase) c.sr)
      d.start d.stop w with
  | .error e => .error (.check e)
  | .ok (false, _) => .ok none
  | .ok (true, av) =>
    let rs := rows c x d (dropFailed av w)
    match onset c phase rs with
    | .error e => .error e
    | .ok o => .ok (some (rs, o))

/-- What `calculate_onsets` accumulates (signal/onsets/stalta.py:383-386): availability, onset functions in the order of
`np.stack` with the station and phase they belong to, and the waveforms used. -/
structure Out where
  availability : List (Str × ℕ)
  onsets : List ((Str × Str) × List (Option ℝ))
  used : List (Str × List ℚ)

/-- The loop over stations for one phase (signal/onsets/stalta.py:411-466). -/
noncomputable def stationLoop (c : Cfg) (x : Ext) (d : Data) (phase : Str) (filtered : List Trace) :
    List Str → Out → Except Err Out
  | [], o => .ok o
  | s :: rest, o =>
    match stationPhase c x d phase filtered s with
    | .error e => .error e
    | .ok none => stationLoop c x d phase filtered rest
        { o with availability := Compute.dictSet o.availability (Compute.key s phase) 0 }
    | .ok (some (rs, f)) => stationLoop c x d phase filtered rest
        ⟨Compute.dictSet o.availability (Compute.key s phase) 1, o.onsets ++ [((s, phase), f)], o.used ++ rs⟩

/-- The loop over phases (signal/onsets/stalta.py:388-466). -/
noncomputable def phaseLoop (c : Cfg) (x : Ext) (d : Data) : List Str → Out → Except Err Out
  | [], o => .ok o
  | p :: rest, o =>
    match preStream c x d p with
    | .error e => .error e
    | .ok filtered =>
      match stationLoop c x d p filtered d.stations o with
      | .error e => .error e
      | .ok o => phaseLoop c x d rest o

/-- `calculate_onsets(data)` (signal/onsets/stalta.py:353-489). -/
noncomputable def calculateOnsets (c : Cfg) (x : Ext) (d : Data) : Except Err Out :=
  match phaseLoop c x d c.phases ⟨[], [], []⟩ with
  | .error e => .error e
  | .ok o =>
    if (o.availability.map Prod.snd).sum = 0 then .error .dataAvailability
    else if sameLength (o.onsets.map Prod.snd) then .ok o
    else .error .ragged

end QM.CalcOnsets
