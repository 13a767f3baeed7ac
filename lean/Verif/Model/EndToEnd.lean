import Verif.Model.ComputeStep
import Verif.Model.Pipeline

/-!
# `detect` and `locate` from onset functions

What `_compute` gives (`signal/scan.py:593-644`) for the windows of `detect` (scan.py:434-466) and of `locate`
(scan.py:495-525), handed on as in the models of these two.
-/

namespace QM.EndToEnd
open QM.Compute QM.Migrate QM.Pads QM.ComputeStep

/-- Why a window has no data: `ArchiveEmptyException` or `DataGapException`.  Models signal/scan.py:455-460. -/
inductive Missing where
  | archiveEmpty
  | dataGap
deriving DecidableEq

/-- A `QuakeScan` object with its lookup table, onset object and archive.  Models signal/scan.py:248-295.  `onset win`
are the onset functions computed from what the archive returns for a window, `sched` and `sched'` the orders in which
the threads run for it in a stage with a given time span; `fl` is the double computed for a real number, `proj` the projection of the grid to longitude
and latitude.  `missing win` is the exception that the archive raises for a window, `av win` the availability of the
pairs of a station and a phase in its data. -/
structure Scan where
  L : Lut
  g : Grid.Grid
  w : Windows
  ttmax : ℚ
  sr : ℕ
  phases : List Str
  stations : List Str
  missing : ℚ × ℚ → Option Missing
  av : ℚ × ℚ → Str → Str → ℕ
  onset : ℚ × ℚ → Str → Str → ℕ → ℝ
  sched : ℚ → ℚ × ℚ → List (ℕ × Op)
  sched' : ℚ → ℚ × ℚ → List (ℕ × FOp)
  fl : ℝ → ℚ
  proj : Grid.V3 ℚ → ℚ × ℚ × ℚ
  avail : ℚ × ℚ → String → ℕ    -- the row of the availability table

/-- The pads of a stage whose windows span `timespan` seconds.  Models signal/scan.py:425, 494. -/
def Scan.pads (c : Scan) (timespan : ℚ) : ℚ × ℚ := scanPads c.w c.ttmax c.sr timespan

/-- `_compute` for the data of one window.  Models signal/scan.py:616-638. -/
noncomputable def Scan.compute (c : Scan) (timespan : ℚ) (win : ℚ × ℚ) : Except ComputeStep.Err (List Out) :=
  ComputeStep.compute c.L c.g c.sr (c.pads timespan) c.phases c.stations (c.av win) (c.onset win)
    (onsetLength 0 c.sr win.1 win.2).toNat (c.sched timespan win) (c.sched' timespan win)

/-- `max_coa[s], max_coa_n[s], coord[s]`.  Models signal/scan.py:637-644. -/
def Scan.sample (c : Scan) (o : Out) : ScanMseed.Sample :=
  ⟨c.fl o.maxCoa, c.fl o.norm, (c.proj o.xyz).1, (c.proj o.xyz).2.1, (c.proj o.xyz).2.2⟩

/-- What happens in one timestep of `detect`.  Models signal/scan.py:446-462. -/
noncomputable def Scan.detectOutcome (c : Scan) (timestep : ℚ) (win : ℚ × ℚ) : Detect.Outcome :=
  match c.missing win with
  | some .archiveEmpty => .archiveEmpty
  | some .dataGap => .dataGap
  | none =>
    match c.compute timestep win with
    | .ok out => .ok (out.map c.sample) (c.avail win)
    | .error (.input .dataAvailability) => .dataAvailability
    | .error _ => .other

/-- The call of `detect`.  Models signal/scan.py:297-335, 425-470. -/
noncomputable def Scan.call (c : Scan) (timestep start stop : ℚ) (cols : List String) (ucf : ℚ) (cw : Bool) :
    DetectRuns.Call :=
  ⟨⟨timestep, c.sr, (c.pads timestep).1, (c.pads timestep).2, cols, ucf⟩, start, stop, c.detectOutcome timestep, cw,
    .never⟩

/-- What `locate` computes for a triggered event: a table with one row per time of `mw_times`, which must be as many as
the samples of the coalescence (pandas raises otherwise).  Models signal/scan.py:498-518, io/event.py:229-241.  The
slices of the 4-D map are represented by what is computed from them. -/
noncomputable def Scan.locateOutcome (c : Scan) (mw : ℚ) (x : Locate.Trig) : Locate.Outcome Out :=
  match c.missing (locateWindow x.time mw (c.pads (4 * mw))) with
  | some .archiveEmpty => .archiveEmpty
  | some .dataGap => .dataGap
  | none =>
    match c.compute (4 * mw) (locateWindow x.time mw (c.pads (4 * mw))) with
    | .ok out =>
      if out.length = (mwTimes x.time mw c.sr).length then
        .computed (List.zipWith (fun t o => ⟨t, c.fl o.maxCoa, c.fl o.norm⟩) (mwTimes x.time mw c.sr) out) out
      else .other
    | .error (.input .dataAvailability) => .dataAvailability
    | .error _ => .other

end QM.EndToEnd
