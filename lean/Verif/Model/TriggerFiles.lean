import Verif.Model.Trigger

/-!
# Model of `quakemigrate/io/triggered_events.py` and of the file effects of `trigger`
-/

namespace QM.TriggerFiles
open QM.Trigger

/-- `OUTPUT_COLS` (triggered_events.py:22-31). -/
def OUTPUT_COLS : List String :=
  ["EventID", "CoaTime", "TRIG_COA", "COA_X", "COA_Y", "COA_Z", "COA", "COA_NORM"]

/-- `write_triggered_events` (triggered_events.py:126-132), column handling:
`output_cols = OUTPUT_COLS` aliases the module-level list, so `extend` mutates
it.  State: the module global.  Returns (new global, columns written). -/
def writeCols (global : List String) (writeWindows : Bool) : List String × List String :=
  let outputCols := if writeWindows then global ++ ["MinTime", "MaxTime"] else global
  (outputCols, outputCols)

/-- The columns written by each call of a sequence of writes in one process.  Models
io/triggered_events.py:128-130. -/
def writeHistory : List String → List Bool → List (List String)
  | _, [] => []
  | g, w :: ws => (writeCols g w).2 :: writeHistory (writeCols g w).1 ws

/-- The `*_TriggeredEvents.csv` files of a run, by day number.  Models
io/triggered_events.py:136-138. -/
abbrev Files := ℤ → Option (List Cand)

/-- Day number of a time (the file name is `{year}_{julday}`).  Models
io/triggered_events.py:66-78, 136. -/
def dayNum (t : ℚ) : ℤ := ⌊t / DAY⌋

/-- `to_csv` replaces the whole file (triggered_events.py:136-138). -/
def Files.write (f : Files) (d : ℤ) (evs : List Cand) : Files :=
  fun d' => if d' = d then some evs else f d'

/-- File effect of one `_trigger_batch` (signal/trigger.py:357-380): nothing is written
when there is no candidate event; otherwise the file of `batchstart`'s day is
replaced. -/
def batchWrite (f : Files) (batchstart : ℚ) (cands events : List Cand) : Files :=
  if cands = [] then f else f.write (dayNum batchstart) events

/-- The sequence of batches of one `trigger` call, with the candidates found and
the events kept in each.  Stands for one call per batch, io/triggered_events.py:105-138. -/
def runWrites (f : Files) (l : List (ℚ × List Cand × List Cand)) : Files :=
  l.foldl (fun f b => batchWrite f b.1 b.2.1 b.2.2) f

theorem readDays_dec {d : ℤ} {e : ℚ} (h : DAY * (d : ℚ) ≤ e) :
    (⌊e / DAY⌋ + 1 - (d + 1)).toNat < (⌊e / DAY⌋ + 1 - d).toNat := by
  have : d ≤ ⌊e / DAY⌋ := by
    rw [Int.le_floor]
    unfold DAY at *
    rw [le_div_iff₀ (by norm_num)]
    linarith
  omega

/-- Days visited by `while readstart <= endtime` (triggered_events.py:66-78). -/
def readDays (d : ℤ) (e : ℚ) : List ℤ :=
  if _h : DAY * (d : ℚ) ≤ e then d :: readDays (d + 1) e else []
termination_by (⌊e / DAY⌋ + 1 - d).toNat
decreasing_by exact readDays_dec ‹_›

/-- `read_triggered_events` without `trigger_file` (triggered_events.py:58-101);
`none` = NoTriggerFilesFound. -/
def readTriggered (f : Files) (start stop : ℚ) : Option (List Cand) :=
  let found := (readDays (dayNum start) stop).filterMap f
  if found = [] then none
  else
    let events := found.flatten
    if isMidnight stop then
      some (events.filter (fun e => decide (e.coaTime ≥ start) && decide (e.coaTime < stop)))
    else
      some (events.filter (fun e => decide (e.coaTime ≥ start) && decide (e.coaTime ≤ stop)))

end QM.TriggerFiles
