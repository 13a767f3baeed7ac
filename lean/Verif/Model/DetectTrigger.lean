import Verif.Model.DetectRuns
import Verif.Model.Trigger

/-!
# Triggering from the files of a detect run (`signal/trigger.py:339-341`, `io/scanmseed.py:244-325`)
-/

namespace QM.DetectTrigger
open QM.ScanMseed QM.Detect

/-- One row of the data frame.  Models io/scanmseed.py:304-310. -/
def rowAt (ucf : ℚ) (p : ℚ × Enc) : Trigger.Row :=
  let s := decode ucf p.2
  ⟨p.1, s.coa, s.coaN, s.x, s.y, s.z⟩

/-- The data and header handed to one batch.  Models signal/trigger.py:339-341 and
io/scanmseed.py:301-310; `none` is NoScanMseedDataException.  All files of the run have the
sampling rate `rate` of the detect call (io/scanmseed.py:106-130). -/
def readBatch (rate : ℕ) (ucf pad : ℚ) (files : Files Enc) (a b : ℚ) : Option Trigger.ScanData :=
  (readScanMseed (1 / (rate : ℚ)) files a b pad).map
    fun L => ⟨L.map (rowAt ucf), 1 / (rate : ℚ), rate⟩

/-- `detect` into the directory, then `trigger` with the same lookup table.  Models a call of
signal/scan.py:297 followed by one of signal/trigger.py:258.  `none`: an exception leaves the
scanmseed writer.  `smooth` is what signal/trigger.py:426-431 does to the data of each batch (`id` if
`smooth_coa` is off). -/
def detectTrigger (jul : ℤ → ℕ) (order : Availability.Table → List ℤ) (dir : DetectRuns.Dir)
    (k : DetectRuns.Call) (cfg : Trigger.Cfg) (m : Trigger.Method)
    (smooth : List Trigger.Row → List Trigger.Row) (region : Option Trigger.Region) (pad s e : ℚ) :
    Option (List ((ℚ × ℚ) × List Trigger.Cand) × Option Trigger.TriggerError) :=
  match DetectRuns.call jul order dir k with
  | none => none
  | some dir =>
    some (Trigger.trigger cfg m smooth region (readBatch k.cfg.scanRate k.cfg.ucf pad dir.scan) s e)

end QM.DetectTrigger
