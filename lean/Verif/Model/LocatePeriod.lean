import Verif.Model.WaveLocate
import Verif.Model.ScanObject

/-!
# A whole call of `locate` on an archive (`signal/scan.py:351-403, 472-590`)

From the arguments, the trigger files and the archive to the events written.
-/

namespace QM.WaveDetect

open QM.TriggerFiles QM.Trigger

/-- `locate(starttime, endtime)` (signal/scan.py:351-403, 472-590): the checks of the arguments and the reading of the trigger
files, then the loop over the events read.  An error is one raised before the loop.  `trig` is what the loop uses of a row of the
trigger files: its identifier and its time. -/
noncomputable def Scan.locatePeriod (s : Scan) (mw : ℚ) (amp : Option (ℚ × ℚ)) (preCut postCut : Option ℚ)
    (later : Locate.Trig → Locate.Later) (trig : Cand → Locate.Trig) (ofNone : Except ScanObject.Err ℚ) (files : Files)
    (start stop : ℚ) : Except ScanObject.Err Locate.Result :=
  match ScanObject.locateCall ofNone files (some start) (some stop) none with
  | .error e => .error e
  | .ok evs => .ok (s.locate mw amp preCut postCut later (evs.map trig))

end QM.WaveDetect
