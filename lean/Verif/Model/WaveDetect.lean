import Verif.Model.WaveScan
import Verif.Model.Waveforms
import Verif.Model.DetectRuns

/-!
# `detect` from the files of an archive (`signal/scan.py:297-470`)

`Verif.Model.Waveforms` from the files to the data of a window, `Verif.Model.WaveScan` from there to coalescence, and
`Verif.Model.Detect` for the loop over windows, as one call.
-/

namespace QM.WaveDetect

open QM.Waveforms (Rec readWaveformData)
open QM.Data (Str Query loadFromPath)
open QM.Compute (Lut)
open QM.Migrate QM.Pads

/-- A `QuakeScan` object with its archive, onset object and lookup table (signal/scan.py:248-295).  `files` are the contents
of the files that a pattern matches (`none`: not readable); `order` is the order in which a set of identifiers is iterated
(util.py:628-632); `toSample` stands for `shift_to_sample` (util.py:317-401); `sched` and `sched'` are the orders in which the
threads of the C functions run for a window; `fl` is the double computed for a real number; `proj` the projection of the grid
to longitude and latitude. -/
structure Scan where
  files : Query → List (Option (List (Rec ℚ)))
  readAll : Bool
  stations : List Str
  resample : Bool
  upfactor : Option ℕ
  order : List Str → List Str
  toSample : Rec ℚ → Rec ℚ
  onset : CalcOnsets.Cfg
  ext : CalcOnsets.Ext
  windows : Windows
  ttmax : ℚ
  lut : Lut
  grid : Grid.Grid
  rate : ℕ
  sched : ℚ × ℚ → List (ℕ × Op)
  sched' : ℚ × ℚ → List (ℕ × FOp)
  fl : ℝ → ℚ
  proj : Grid.V3 ℚ → ℚ × ℚ × ℚ

/-- `archive.read_waveform_data(w_beg, w_end)` (signal/scan.py:447, io/data.py:221-336). -/
def Scan.read (s : Scan) (win : ℚ × ℚ) : Except Waveforms.Err (Waveforms.Out ℚ) :=
  readWaveformData s.order s.toSample ⟨win.1, win.2, 0, 0, s.readAll, s.stations⟩
    ((loadFromPath s.readAll s.stations win.1 win.2).flatMap s.files)

/-- A trace in the form of the checks; models no code of its own (io/data.py:331). -/
def toTrace (r : Rec ℚ) : Data.Trace := ⟨r.id, r.tr.start, r.rate, r.tr.vals⟩

/-- The `WaveformData` of a window (io/data.py:263-276, 331). -/
def Scan.data (s : Scan) (win : ℚ × ℚ) (o : Waveforms.Out ℚ) : CalcOnsets.Data :=
  ⟨o.waveforms.map toTrace, s.stations, s.resample, s.upfactor, win.1, win.2⟩

/-- `_compute(data)` (signal/scan.py:448, 593-644) with the pads of a stage whose windows span `ts` seconds. -/
noncomputable def Scan.compute (s : Scan) (ts : ℚ) (win : ℚ × ℚ) (o : Waveforms.Out ℚ) :
    Except WaveScan.Err (List ComputeStep.Out) :=
  WaveScan.compute s.onset s.ext s.lut s.grid (scanPads s.windows s.ttmax s.rate ts) (s.sched win) (s.sched' win)
    (s.data win o)

/-- The values of one sample handed to `append` (signal/scan.py:448-452). -/
def Scan.sample (s : Scan) (r : ComputeStep.Out) : ScanMseed.Sample :=
  ⟨s.fl r.maxCoa, s.fl r.norm, (s.proj r.xyz).1, (s.proj r.xyz).2.1, (s.proj r.xyz).2.2⟩

/-- `onset_data.availability` as a row of the table (signal/scan.py:453). -/
noncomputable def Scan.availability (s : Scan) (win : ℚ × ℚ) (o : Waveforms.Out ℚ) (col : String) : ℕ :=
  match CalcOnsets.calculateOnsets s.onset s.ext (s.data win o) with
  | .error _ => 0
  | .ok r => (r.availability.lookup col.toList).getD 0

/-- What happens in one timestep (signal/scan.py:446-462). -/
noncomputable def Scan.outcome (s : Scan) (ts : ℚ) (win : ℚ × ℚ) : Detect.Outcome :=
  match s.read win with
  | .error .archiveEmpty => .archiveEmpty
  | .error .dataGap => .dataGap
  | .error .dataAvailability => .dataAvailability
  | .ok o =>
    match s.compute ts win o with
    | .ok out => .ok (out.map s.sample) (s.availability win o)
    | .error (.onset .dataAvailability) => .dataAvailability
    | .error _ => .other

/-- `availability_cols` (signal/scan.py:426-431). -/
def Scan.columns (s : Scan) : List Str :=
  s.onset.phases.flatMap fun p => s.stations.map fun a => Compute.key a p

/-- The call of `detect` (signal/scan.py:297-335, 425-470). -/
noncomputable def Scan.call (s : Scan) (ts start stop : ℚ) (cols : List String) (ucf : ℚ) (cw : Bool)
    (killed : DetectRuns.Stop) : DetectRuns.Call :=
  ⟨⟨ts, s.rate, (scanPads s.windows s.ttmax s.rate ts).1, (scanPads s.windows s.ttmax s.rate ts).2, cols, ucf⟩, start, stop,
    s.outcome ts, cw, killed⟩

/-- `detect(starttime, endtime)` up to the files (signal/scan.py:297-335, 425-470). -/
noncomputable def Scan.detect (s : Scan) (ts start stop : ℚ) (cols : List String) (ucf : ℚ) : Option Detect.Result :=
  Detect.detect (s.call ts start stop cols ucf false .never).cfg start stop (s.outcome ts)

end QM.WaveDetect
