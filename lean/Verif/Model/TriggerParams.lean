import Verif.Py

/-! # Model of the Trigger parameter setters (`signal/trigger.py:216-235, 688-737`) -/

namespace QM.TriggerParams

/-- The two attributes whose consistency the setters check.  Models signal/trigger.py:220-223. -/
structure Params where
  mw : ℚ     -- marginal_window (a plain attribute)
  mei : ℚ    -- _min_event_interval
deriving Repr, DecidableEq

/-- Assignments a user can make on a Trigger object.  Models signal/trigger.py:220, 694-699,
728-737. -/
inductive Op where
  | setMarginalWindow (v : ℚ)       -- plain attribute, no setter
  | setMinEventInterval (v : ℚ)     -- property setter, signal/trigger.py:694-699
  | setMinimumRepeat (v : ℚ)        -- deprecated setter, signal/trigger.py:728-737
deriving Repr, DecidableEq

/-- One assignment: new state and whether it was accepted (`false` = ValueError).  Models
signal/trigger.py:694-699, 728-737. -/
def step (p : Params) : Op → Params × Bool
  | .setMarginalWindow v => ({ p with mw := v }, true)
  | .setMinEventInterval v => if v < 2 * p.mw then (p, false) else ({ p with mei := v }, true)
  | .setMinimumRepeat v => if v < 2 * p.mw then (p, false) else ({ p with mei := v }, true)

/-- `Trigger.__init__`, signal/trigger.py:220-223.  `none` for an absent keyword; a
`minimum_repeat` of 0 is falsy and ignored.  `none` result = ValueError. -/
def init (mw mei minRepeat : Option ℚ) : Option Params :=
  let mw := mw.getD 2
  let mei := mei.getD 4
  if mei < 2 * mw then none
  else match minRepeat with
    | none => some ⟨mw, mei⟩
    | some r => if r = 0 then some ⟨mw, mei⟩ else if r < 2 * mw then none else some ⟨mw, r⟩

/-- A history of assignments (a rejected one raises; the user may carry on).  Stands for successive
assignments, signal/trigger.py:694-699, 728-737. -/
def run (p : Params) (ops : List Op) : Params := ops.foldl (fun p op => (step p op).1) p

end QM.TriggerParams
