import Verif.Model.DetectTrigger
import Verif.Model.TriggerFiles
import Verif.Model.Locate

/-!
# From the triggered-event files to located events

The file effects of `trigger` (`signal/trigger.py:309-380`) and a call of `locate`
(`signal/scan.py:367-412, 472-591`) over the same period.
-/

namespace QM.Pipeline
open QM.Trigger QM.TriggerFiles

/-- File effect of the batches, handled in order; a batch whose data cannot be read ends the run.  Models
signal/trigger.py:309-314, 339-380. -/
def triggerWrites (cfg : Cfg) (m : Method) (smooth : List Row → List Row) (region : Option Region)
    (read : ℚ → ℚ → Option ScanData) : Files → List (ℚ × ℚ) → Files × Option TriggerError
  | f, [] => (f, none)
  | f, b :: bs =>
    match read b.1 b.2 with
    | none => (f, some .noScanData)
    | some sd =>
      let data := smooth sd.rows
      let cands := identifyCandidates cfg data (getThreshold m (data.map (Row.trig cfg.norm)) sd.sr)
      triggerWrites cfg m smooth region read
        (batchWrite f b.1 cands (triggerBatch cfg m smooth region b.1 b.2 sd).1) bs

/-- `trigger` (signal/trigger.py:273-316), its effect on the triggered-event files. -/
def triggerToFiles (cfg : Cfg) (m : Method) (smooth : List Row → List Row) (region : Option Region)
    (read : ℚ → ℚ → Option ScanData) (f : Files) (s e : ℚ) : Files × Option TriggerError :=
  if s > e then (f, some .timeSpan) else triggerWrites cfg m smooth region read f (batches s e)

/-- The event constructed from a row of the files (io/event.py:168-176); `uid` is the EventID written with the row
(see EventId.lean). -/
def toTrig (uid : ℚ → ℕ) (c : Cand) : Locate.Trig := ⟨uid c.coaTime, c.coaTime⟩

/-- How a sequence of calls of `detect`, `trigger` and `locate` ends.  Stands for the exceptions of
signal/scan.py:297-412 and signal/trigger.py:273-316. -/
inductive Ended where
  | detect                      -- the scanmseed writer raised
  | trigger (e : TriggerError)
  | noTriggerFiles              -- util.NoTriggerFilesFound from `locate`
  | located (r : Locate.Result)

/-- `detect` into a run directory, `trigger` and `locate` over one period.  Models signal/scan.py:297-335,
signal/trigger.py:273-316, signal/scan.py:367-412.  `outcome` and `later` are what happens to a triggered event in
`locate`.  `trigger` and `locate` have the same marginal window. -/
def pipeline {σ : Type} (jul : ℤ → ℕ) (order : Availability.Table → List ℤ) (dir : DetectRuns.Dir)
    (k : DetectRuns.Call) (cfg : Cfg) (m : Method) (smooth : List Row → List Row) (region : Option Region)
    (pad : ℚ) (events : Files) (uid : ℚ → ℕ) (outcome : Locate.Trig → Locate.Outcome σ) (later : Locate.Trig → Locate.Later)
    (s e : ℚ) : Ended :=
  match DetectRuns.call jul order dir k with
  | none => .detect
  | some dir =>
    match triggerToFiles cfg m smooth region (DetectTrigger.readBatch k.cfg.scanRate k.cfg.ucf pad dir.scan)
        events s e with
    | (_, some err) => .trigger err
    | (f, none) =>
      match readTriggered f s e with
      | none => .noTriggerFiles
      | some evs => .located (Locate.locateEvents cfg.mw outcome later (evs.map (toTrig uid)))

end QM.Pipeline
