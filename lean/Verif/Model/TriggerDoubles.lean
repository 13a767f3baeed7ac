import Verif.Model.Doubles
import Verif.Model.Trigger

/-!
# Triggering in doubles

`Verif/Model/Trigger.lean` computes thresholds with rationals.  Here the threshold and the comparisons
with it are computed in the arithmetic the code runs in: double precision, each operation rounded.  The
times are those of the rational model (`UTCDateTime` counts whole nanoseconds).
-/

namespace QM.Doubles

open QM.Trigger

/-- One row as `read_scanmseed` hands it over: each column a whole number divided by a power of ten
(io/scanmseed.py:306-310), in doubles. -/
def readRow (r : Row) : Row :=
  { r with coa := fl r.coa, coaN := fl r.coaN, x := fl r.x, y := fl r.y, z := fl r.z }

/-- `numpy.median` of doubles (signal/trigger.py:465, util.py:204-205): the mean of the two middle
values, which are the same value for an odd number of them. -/
def median (l : List ℚ) : ℚ :=
  let s := l.insertionSort (· ≤ ·)
  fl (fl ((s[(l.length - 1) / 2]?).getD 0 + (s[l.length / 2]?).getD 0) / 2)

/-- `util.calculate_mad` (util.py:175-207) on data without NaN. -/
def calculateMad (x : List ℚ) : ℚ :=
  fl (fl (14826 / 10000) * median (x.map fun v => |fl (v - median x)|))

/-- `_get_threshold` (signal/trigger.py:436-484); the parameters of the method are doubles. -/
def getThreshold (m : Method) (data : List ℚ) (sr : ℚ) : List ℚ :=
  match m with
  | .static t => data.map (fun _ => fl (0 + t))
  | .mad window mult =>
    let w := pyInt (fl (window * sr))
    List.zipWith (fun med mad => fl (med + fl (mad * mult))) (chunkTrace median data w)
      (chunkTrace calculateMad data w)
  | .medianRatio window mult =>
    (chunkTrace median data (pyInt (fl (window * sr)))).map (fun med => fl (med * mult))

/-- `_trigger_batch` (signal/trigger.py:318-401) after reading and without smoothing, as in
`Trigger.triggerBatch`; `sd` holds the numbers in the file, before they are read into doubles, and
`region` is in doubles. -/
def triggerBatch (cfg : Cfg) (m : Method) (region : Option Region) (batchstart batchend : ℚ)
    (sd : ScanData) : List Cand × List Cand :=
  let stop := if isMidnight batchend then batchend - sd.delta else batchend
  let data := sd.rows.map readRow
  let thr := getThreshold m (data.map (Row.trig cfg.norm)) sd.sr
  let cands := identifyCandidates cfg data thr
  let refined := (refineCandidates cfg cands).zipIdx
  let kept := filterEvents refined batchstart stop region
  (kept.map (·.1), (discardedEvents refined kept).map (·.1))

/-- The batches in order, as `Trigger.runBatches` (signal/trigger.py:309-314, 339-341). -/
def runBatches (cfg : Cfg) (m : Method) (region : Option Region) (read : ℚ → ℚ → Option ScanData) :
    List (ℚ × ℚ) → List ((ℚ × ℚ) × List Cand) × Option TriggerError
  | [] => ([], none)
  | b :: bs =>
    match read b.1 b.2 with
    | none => ([], some .noScanData)
    | some sd =>
      let rest := runBatches cfg m region read bs
      ((b, (triggerBatch cfg m region b.1 b.2 sd).1) :: rest.1, rest.2)

/-- `trigger` (signal/trigger.py:273-316) in doubles. -/
def trigger (cfg : Cfg) (m : Method) (region : Option Region) (read : ℚ → ℚ → Option ScanData) (s e : ℚ) :
    List ((ℚ × ℚ) × List Cand) × Option TriggerError :=
  if s > e then ([], some .timeSpan)
  else runBatches cfg m region read (batches s e)

end QM.Doubles
