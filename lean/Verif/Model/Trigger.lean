import Verif.Py

/-!
# Model of `quakemigrate/signal/trigger.py`
-/

namespace QM.Trigger

/-- One row of the scan data read by `read_scanmseed`
(columns DT, COA, COA_N, X, Y, Z; signal/trigger.py:494-497). -/
structure Row where
  dt : ℚ
  coa : ℚ
  coaN : ℚ
  x : ℚ
  y : ℚ
  z : ℚ
deriving Repr, DecidableEq

/-- `data[trigger_on]` (signal/trigger.py:353): COA_N if `normalise_coalescence`. -/
def Row.trig (norm : Bool) (r : Row) : ℚ := if norm then r.coaN else r.coa

/-- One candidate event; CANDIDATES_COLS, signal/trigger.py:50-61 (EventNum is kept
separately as the group number in `eventNums`). -/
structure Cand where
  coaTime : ℚ
  trigCoa : ℚ
  x : ℚ
  y : ℚ
  z : ℚ
  minTime : ℚ
  maxTime : ℚ
  coa : ℚ
  coaN : ℚ
deriving Repr, DecidableEq

/-- Parameters of the Trigger object used by the pure functions
(signal/trigger.py:216-230). -/
structure Cfg where
  mw : ℚ            -- marginal_window
  mei : ℚ           -- min_event_interval
  norm : Bool       -- normalise_coalescence
deriving Repr

/-- `thresholded = scandata[scandata[trigger_on] >= threshold]`
(signal/trigger.py:517), each row with its index in `scandata`. -/
def thresholded (cfg : Cfg) (data : List Row) (thr : List ℚ) : List (ℕ × Row) :=
  (((data.zip thr).zipIdx).filter (fun p => p.1.2 ≤ p.1.1.trig cfg.norm)).map
    (fun p => (p.2, p.1.1))

/-- `thresholded.groupby(thresholded.index - r)` with `r = arange(len)`
(signal/trigger.py:518-519). -/
def candidateRuns (cfg : Cfg) (data : List Row) (thr : List ℚ) :
    List (List (ℕ × Row)) :=
  (pdGroupBy (fun p : (ℕ × Row) × ℕ => (p.1.1 : ℤ) - (p.2 : ℤ))
    (thresholded cfg data thr).zipIdx).map (fun g => g.map (·.1))

/-- Body of the loop over candidates (signal/trigger.py:522-557).  `none` only for an
empty run, which `groupby` never produces. -/
def candidateOf (cfg : Cfg) (run : List (ℕ × Row)) : Option Cand :=
  match firstMaxBy (fun p : ℕ × Row => p.2.coa) run, run.head?, run.getLast? with
  | some (_, peak), some (_, first), some (_, last) =>
    let minDt := if peak.dt - first.dt < cfg.mw then peak.dt - cfg.mei
      else first.dt - (cfg.mei - cfg.mw)
    let maxDt := if last.dt - peak.dt < cfg.mw then peak.dt + cfg.mei
      else last.dt + (cfg.mei - cfg.mw)
    some { coaTime := peak.dt, trigCoa := peak.trig cfg.norm,
           x := peak.x, y := peak.y, z := peak.z,
           minTime := minDt, maxTime := maxDt, coa := peak.coa, coaN := peak.coaN }
  | _, _, _ => none

/-- `_identify_candidates` (signal/trigger.py:487-567). -/
def identifyCandidates (cfg : Cfg) (data : List Row) (thr : List ℚ) : List Cand :=
  (candidateRuns cfg data thr).filterMap (candidateOf cfg)

/-- The test at signal/trigger.py:602-607 that starts a new event. -/
def separated (cfg : Cfg) (e1 e2 : Cand) : Bool :=
  decide (e1.maxTime < e2.coaTime - cfg.mw) && decide (e2.minTime > e1.coaTime + cfg.mw)

/-- The loop at signal/trigger.py:596-608: each candidate paired with its EventNum. -/
def eventNums (cfg : Cfg) : ℤ → List Cand → List (ℤ × Cand)
  | _, [] => []
  | n, [c] => [(n, c)]
  | n, c :: d :: l =>
    (n, c) :: eventNums cfg (if separated cfg c d then n + 1 else n) (d :: l)

/-- `merged_candidates` (signal/trigger.py:611-613). -/
def mergedGroups (cfg : Cfg) (cs : List Cand) : List (List Cand) :=
  (pdGroupBy (fun p : ℤ × Cand => p.1) (eventNums cfg 1 cs)).map (fun g => g.map (·.2))

/-- Smallest / largest element (`Series.min()`, `Series.max()`).  Models
signal/trigger.py:486-640. -/
def minOf : List ℚ → Option ℚ
  | [] => none
  | a :: l => some (l.foldl min a)
/-- Models signal/trigger.py:486-640. -/
def maxOf : List ℚ → Option ℚ
  | [] => none
  | a :: l => some (l.foldl max a)

/-- Body of the loop at signal/trigger.py:617-628 except the EventID string (modelled
in `Verif/Model/EventId.lean`). -/
def mergeGroup (g : List Cand) : Option Cand :=
  match firstMaxBy Cand.trigCoa g, minOf (g.map Cand.minTime), maxOf (g.map Cand.maxTime) with
  | some e, some mn, some mx => some { e with minTime := mn, maxTime := mx }
  | _, _, _ => none

/-- `_refine_candidates` (signal/trigger.py:570-638). -/
def refineCandidates (cfg : Cfg) (cs : List Cand) : List Cand :=
  (mergedGroups cfg cs).filterMap mergeGroup

/-- `region` argument: [Xmin, Ymin, Zmin, Xmax, Ymax, Zmax] (signal/trigger.py:283-287). -/
structure Region where
  xmin : ℚ
  ymin : ℚ
  zmin : ℚ
  xmax : ℚ
  ymax : ℚ
  zmax : ℚ
deriving Repr

/-- Row filter of `_filter_events` (signal/trigger.py:671-684). -/
def keepEvent (start stop : ℚ) (region : Option Region) (e : Cand) : Bool :=
  decide (e.coaTime ≥ start) && decide (e.coaTime ≤ stop) &&
  match region with
  | none => true
  | some r =>
    decide (e.x ≥ r.xmin) && decide (e.y ≥ r.ymin) && decide (e.z ≥ r.zmin) &&
    decide (e.x ≤ r.xmax) && decide (e.y ≤ r.ymax) && decide (e.z ≤ r.zmax)

/-- `_filter_events` (signal/trigger.py:641-686), rows keep their DataFrame index. -/
def filterEvents (events : List (Cand × ℕ)) (start stop : ℚ) (region : Option Region) :
    List (Cand × ℕ) :=
  events.filter (fun p => keepEvent start stop region p.1)

/-- `discarded = refined_events[~refined_events.index.isin(events.index)]`
(signal/trigger.py:369-371).  `.dropna()` is the identity: rows carry no NaN. -/
def discardedEvents (refined kept : List (Cand × ℕ)) : List (Cand × ℕ) :=
  refined.filter (fun p => !(kept.map (·.2)).contains p.2)

/-- Threshold methods (signal/trigger.py:707-719). -/
inductive Method where
  | static (threshold : ℚ)
  | mad (window multiplier : ℚ)
  | medianRatio (window multiplier : ℚ)
deriving Repr

/-- `util.calculate_mad` (util.py:175-207) on data without NaN; scale 1.4826. -/
def calculateMad (x : List ℚ) : ℚ :=
  (14826 / 10000) * npMedian (x.map (fun v => |v - npMedian x|))

/-- `breaks = arange(n); breaks[breaks % w == 0][1:]` (signal/trigger.py:456-461). -/
def breaksOf (n : ℕ) (w : ℤ) : List ℕ :=
  ((List.range n).filter (fun i : ℕ => npMod (i : ℤ) w = 0)).drop 1

/-- `chunks2trace(a, (n_chunks, chunk_length))` (signal/trigger.py:26-47). -/
def chunks2trace (a : List ℚ) (chunkLength : ℕ) : List ℚ :=
  (a.map (fun v => List.replicate chunkLength v)).flatten

/-- One value per chunk, spread over the trace and cut to its length
(signal/trigger.py:461-467 and 471-473). -/
def chunkTrace (f : List ℚ → ℚ) (data : List ℚ) (w : ℤ) : List ℚ :=
  let chunks := npSplit data (breaksOf data.length w)
  (chunks2trace (chunks.map f) ((chunks.head?.map List.length).getD 0)).take data.length

/-- `_get_threshold` (signal/trigger.py:436-484). -/
def getThreshold (m : Method) (data : List ℚ) (sr : ℚ) : List ℚ :=
  match m with
  | .static t => data.map (fun _ => 0 + t)
  | .mad window mult =>
    let w := pyInt (window * sr)
    List.zipWith (fun med mad => med + mad * mult)
      (chunkTrace npMedian data w) (chunkTrace calculateMad data w)
  | .medianRatio window mult =>
    (chunkTrace npMedian data (pyInt (window * sr))).map (fun med => med * mult)

/-- What `read_scanmseed` hands to one batch: the data and `stats.delta`,
`stats.sampling_rate`.  Models signal/trigger.py:339-341. -/
structure ScanData where
  rows : List Row
  delta : ℚ
  sr : ℚ

/-- `_trigger_batch` (signal/trigger.py:318-401) after reading: the end of the batch is
reduced by one sample at midnight, then threshold, identify, refine, filter.
`smooth` stands for `_smooth_coa` (the identity when smoothing is off).
Returns (events, discarded). Plotting is not modelled; the file write is modelled
in `Verif/Model/TriggerFiles.lean`. -/
def triggerBatch (cfg : Cfg) (m : Method) (smooth : List Row → List Row)
    (region : Option Region) (batchstart batchend : ℚ) (sd : ScanData) :
    List Cand × List Cand :=
  let stop := if isMidnight batchend then batchend - sd.delta else batchend
  let data := smooth sd.rows
  let thr := getThreshold m (data.map (Row.trig cfg.norm)) sd.sr
  let cands := identifyCandidates cfg data thr
  let refined := (refineCandidates cfg cands).zipIdx
  let kept := filterEvents refined batchstart stop region
  (kept.map (·.1), (discardedEvents refined kept).map (·.1))

theorem batch_decreases {s e : ℚ} (h : s < e) :
    (⌈e / DAY⌉ - ⌊(dayStart s + DAY) / DAY⌋).toNat < (⌈e / DAY⌉ - ⌊s / DAY⌋).toNat := by
  have h1 : (dayStart s + DAY) / DAY = ((⌊s / DAY⌋ + 1 : ℤ) : ℚ) := by
    unfold dayStart DAY; push_cast; ring
  rw [h1, Int.floor_intCast]
  have h2 : ⌊s / DAY⌋ < ⌈e / DAY⌉ := by
    rw [Int.floor_lt]
    have h3 : s / DAY < e / DAY := by unfold DAY; linarith [h]
    exact lt_of_lt_of_le h3 (Int.le_ceil _)
  omega

/-- The `while batchstart < endtime` loop of `trigger` (signal/trigger.py:309-314): the
list of (batchstart, batchend) passed to `_trigger_batch`. -/
def batches (s e : ℚ) : List (ℚ × ℚ) :=
  if _h : s < e then
    let nextDay := dayStart s + DAY
    (s, if nextDay ≤ e then nextDay else e) :: batches nextDay e
  else []
termination_by (⌈e / DAY⌉ - ⌊s / DAY⌋).toNat
decreasing_by exact batch_decreases ‹s < e›

/-- Exceptions that leave `trigger`.  Raised in signal/trigger.py:336-402. -/
inductive TriggerError where
  | timeSpan      -- util.TimeSpanException (signal/trigger.py:299-300)
  | noScanData    -- util.NoScanMseedDataException from `read_scanmseed`
deriving Repr, DecidableEq

/-- The batches handled in order; `read` is what `read_scanmseed` returns for a
batch (`none`: it raises, which ends the run, signal/trigger.py:339-341).  Returns the
completed batches with the events each reports, and the exception if any. -/
def runBatches (cfg : Cfg) (m : Method) (smooth : List Row → List Row)
    (region : Option Region) (read : ℚ → ℚ → Option ScanData) :
    List (ℚ × ℚ) → List ((ℚ × ℚ) × List Cand) × Option TriggerError
  | [] => ([], none)
  | b :: bs =>
    match read b.1 b.2 with
    | none => ([], some .noScanData)
    | some sd =>
      let rest := runBatches cfg m smooth region read bs
      ((b, (triggerBatch cfg m smooth region b.1 b.2 sd).1) :: rest.1, rest.2)

/-- `trigger` (signal/trigger.py:273-316). -/
def trigger (cfg : Cfg) (m : Method) (smooth : List Row → List Row)
    (region : Option Region) (read : ℚ → ℚ → Option ScanData) (s e : ℚ) :
    List ((ℚ × ℚ) × List Cand) × Option TriggerError :=
  if s > e then ([], some .timeSpan)
  else runBatches cfg m smooth region read (batches s e)

end QM.Trigger
