import Verif.Model.Detect
import Verif.Model.Availability

/-!
# Several detect calls into one run directory (`signal/scan.py:297-470`)
-/

namespace QM.DetectRuns
open QM.ScanMseed QM.Detect

/-- Where the process ends, if it is killed.  Models crash points of signal/scan.py:434-470. -/
inductive Stop where
  | never
  | afterAppends (k : ℕ)      -- before anything that follows the `k`-th append
  | beforeAvailability        -- after scan.py:468-469, before scan.py:470
deriving DecidableEq

/-- One call of `detect`, with what the archive and `_compute` give for it and the point at which
the process is killed.  Models signal/scan.py:297-328, 425-470. -/
structure Call where
  cfg : Detect.Cfg
  start : ℚ
  stop : ℚ
  outcome : ℚ × ℚ → Outcome
  cw : Bool                   -- `continuous_scanmseed_write`
  killed : Stop

/-- The `detect` directory of a run: scanmseed and availability files by day.  Models
io/scanmseed.py:208-219 and io/availability.py:139-150. -/
structure Dir where
  scan : ScanMseed.Files Enc
  avail : Availability.Files

/-- `availability` as handed to `write_availability`.  Models signal/scan.py:426-432, 453-466,
470. -/
def table (c : Detect.Cfg) (rows : Rows) : Availability.Table :=
  ⟨c.cols.map String.toList, rows.map fun r => (r.1, r.2.map fun n : ℕ => some (n : ℤ))⟩

/-- What of the loop has been done when the process is killed.  Models signal/scan.py:434-466. -/
def cut (r : Result) : Stop → Result
  | .afterAppends k => ⟨r.blocks.take k, r.rows.take k, false⟩
  | _ => r

/-- One call (signal/scan.py:319-328, 425-470).  `order t` is the order in which the set of dates of a
table is iterated (io/availability.py:140-142).  A call that raises TimeSpanException
writes nothing; `none`: an exception leaves the scanmseed writer. -/
def call (jul : ℤ → ℕ) (order : Availability.Table → List ℤ) (dir : Dir) (k : Call) : Option Dir :=
  match detect k.cfg k.start k.stop k.outcome with
  | none => some dir
  | some r =>
    let r := cut r k.killed
    match detectFiles k.cfg jul k.cw dir.scan r with
    | none => none
    | some s =>
      if r.completed && decide (k.killed = .never) then
        some ⟨s.files, Availability.write dir.avail (table k.cfg r.rows) (order (table k.cfg r.rows))⟩
      else some ⟨s.files, dir.avail⟩

/-- Calls one after another.  Models a history of calls of signal/scan.py:297. -/
def calls (jul : ℤ → ℕ) (order : Availability.Table → List ℤ) : Dir → List Call → Option Dir
  | dir, [] => some dir
  | dir, k :: ks =>
    match call jul order dir k with
    | none => none
    | some dir => calls jul order dir ks

end QM.DetectRuns
