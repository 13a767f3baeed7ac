import Verif.Model.ScanMseed
import Mathlib.Data.List.Sort

/-!
# Model of reading waveforms: `Archive.read_waveform_data` (io/data.py:221-336) and
`util.merge_stream` (util.py:607-640)

Times are rational seconds.  A record is one trace as found in a file.  The merge of obspy
(`Stream.merge(method=-1)`, that is `Stream._cleanup`) is modelled for records whose samples
share a grid or not; its correction of misalignments below one per cent of a sample is not.
`shift_to_sample` (C43) is a parameter.
-/

namespace QM.Waveforms

open QM.ScanMseed (Trace)

/-- Text, as in io/data.py:313. -/
abbrev Str := List Char

/-- The station code in a SEED id `network.station.location.channel` (obspy, io/data.py:314). -/
def stationCode (id : Str) : Str := (id.splitOn '.').getD 1 []

/-- One trace of a file: SEED id, sampling rate (Hz), start and samples (obspy trace,
io/data.py:289-294). -/
structure Rec (V : Type) where
  id : Str
  rate : ℚ
  tr : Trace V
deriving DecidableEq, Repr

/-- `stats.delta` (obspy, reached from util.py:634). -/
def Rec.delta {V : Type} (r : Rec V) : ℚ := 1 / r.rate

/-- The timestamped samples of a record (obspy, io/data.py:289-294). -/
def Rec.samples {V : Type} (r : Rec V) : List (ℚ × V) := r.tr.samples r.delta

/-- `stats.endtime` (obspy, reached from util.py:634). -/
def Rec.stop {V : Type} (r : Rec V) : ℚ := r.tr.stop r.delta

/-- `Trace.trim(a, b, nearest_sample=True)` (obspy, io/data.py:289-294, 321). -/
def Rec.trim {V : Type} (a b : ℚ) (r : Rec V) : Rec V := { r with tr := r.tr.slice r.delta a b }

/-- `bool(tr)`: whether there are samples (obspy, io/data.py:322). -/
def Rec.full {V : Type} (r : Rec V) : Bool := !r.tr.vals.isEmpty

/-- `read(file, starttime=a, endtime=b, nearest_sample=True)` (obspy, io/data.py:289-294) of a
file with the given records. -/
def readFile {V : Type} (a b : ℚ) (recs : List (Rec V)) : List (Rec V) :=
  (recs.map (Rec.trim a b)).filter Rec.full

/-- Two consecutive records of the loop of `Stream._cleanup` (obspy, reached from util.py:634):
joined if the second continues the first or overlaps it with the same values.  The common part
is `cur[k:]` against the start of the second. -/
def join {V : Type} [DecidableEq V] (δ : ℚ) (cur tr : Trace V) : Option (Trace V) :=
  let k := ⌊(tr.start - cur.start) / δ⌋
  if cur.start + (k : ℚ) * δ ≠ tr.start then none          -- samples not on one grid
  else if k < 0 then none
  else if (cur.vals.length : ℤ) < k then none               -- a gap
  else if (cur.vals.drop k.toNat).zip tr.vals |>.all (fun p : V × V => decide (p.1 = p.2)) then
    some ⟨cur.start, cur.vals ++ tr.vals.drop (cur.vals.length - k.toNat)⟩
  else none

/-- The loop of `Stream._cleanup` over the records of one channel (obspy, reached from
util.py:634). -/
def cleanup {V : Type} [DecidableEq V] (δ : ℚ) : Trace V → List (Trace V) → List (Trace V)
  | cur, [] => [cur]
  | cur, tr :: l =>
    match join δ cur tr with
    | some t => cleanup δ t l
    | none => cur :: cleanup δ tr l

/-- Sort order of `Stream._cleanup` within a channel: start time, then end time (obspy, reached
from util.py:634). -/
def before {V : Type} (a b : Rec V) : Prop := a.tr.start < b.tr.start ∨
  (a.tr.start = b.tr.start ∧ a.stop ≤ b.stop)

instance {V : Type} : DecidableRel (before (V := V)) := fun a b =>
  inferInstanceAs (Decidable (a.tr.start < b.tr.start ∨ (a.tr.start = b.tr.start ∧ a.stop ≤ b.stop)))

/-- `stream.select(id=seed_id).merge(method=-1)` (util.py:634); `none` = UserWarning for records
of different sampling rates (data type and calibration, also checked by obspy, are not
modelled). -/
def mergeChannel {V : Type} [DecidableEq V] (l : List (Rec V)) : Option (List (Rec V)) :=
  match (l.filter Rec.full).insertionSort before with
  | [] => some []
  | r :: rs =>
    if rs.all (fun s : Rec V => decide (s.rate = r.rate)) then
      some ((cleanup r.delta r.tr (rs.map Rec.tr)).map fun t => { r with tr := t })
    else none

/-- `util.merge_stream` (util.py:607-640).  `order` is the iteration order of the Python set of
identifiers. -/
def mergeStream {V : Type} [DecidableEq V] (order : List Str → List Str) (st : List (Rec V)) :
    List (Rec V) :=
  (order (st.map Rec.id)).flatMap fun i =>
    (mergeChannel (st.filter fun r : Rec V => decide (r.id = i))).getD []

/-- What `read_waveform_data` raises (io/data.py:328, 334) or is documented to raise
(io/data.py:249-255). -/
inductive Err where
  | archiveEmpty | dataGap | dataAvailability
deriving DecidableEq, Repr

/-- Arguments and settings of a query (io/data.py:221, 259-276). -/
structure Req where
  start : ℚ
  stop : ℚ
  pre : ℚ
  post : ℚ
  readAll : Bool
  stations : List Str
deriving Repr

/-- The pads after io/data.py:259-261. -/
def Req.prePad (q : Req) : ℚ := if q.pre < 0 then 0 else q.pre

/-- The pads after io/data.py:259-261. -/
def Req.postPad (q : Req) : ℚ := if q.post < 0 then 0 else q.post

/-- `raw_waveforms` and `waveforms` (io/data.py:303, 331). -/
structure Out (V : Type) where
  raw : List (Rec V)
  waveforms : List (Rec V)
deriving DecidableEq

/-- Records read from all files, before merging (io/data.py:284-297); `none` is a file that
obspy cannot read (TypeError, skipped). -/
def readAllFiles {V : Type} (q : Req) (files : List (Option (List (Rec V)))) : List (Rec V) :=
  files.flatMap fun f =>
    match f with
    | none => []
    | some recs => readFile (q.start - q.prePad) (q.stop + q.postPad) recs

/-- Selection of the stations asked for (io/data.py:310-316); obspy compares station codes as
patterns without regard to case, here they are compared literally. -/
def selectStations {V : Type} (q : Req) (st : List (Rec V)) : List (Rec V) :=
  if q.readAll then
    q.stations.flatMap fun s => st.filter fun r : Rec V => decide (stationCode r.id = s)
  else st

/-- Trimming to the window (io/data.py:318-323). -/
def trimWindow {V : Type} (q : Req) (st : List (Rec V)) : List (Rec V) :=
  if q.prePad ≠ 0 ∨ q.postPad ≠ 0 then readFile q.start q.stop st else st

/-- `read_waveform_data` (io/data.py:221-336) on the files found by `_load_from_path`. -/
def readWaveformData {V : Type} [DecidableEq V] (order : List Str → List Str)
    (shift : Rec V → Rec V) (q : Req) (files : List (Option (List (Rec V)))) :
    Except Err (Out V) :=
  if files = [] then .error .archiveEmpty
  else
    let merged := mergeStream order (readAllFiles q files)
    let st := trimWindow q (selectStations q (merged.map shift))
    if st = [] then .error .dataGap else .ok ⟨merged, st⟩

end QM.Waveforms
