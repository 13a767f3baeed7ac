import Verif.Model.Pads
import Verif.Model.TriggerFiles

/-!
# Model of `QuakeScan` and `STALTAOnset` objects and of the arguments of `locate`

Objects are entries of a store and are shared by reference, as in Python: several
scans can use one onset object.  `QuakeScan.__init__` (signal/scan.py:204-273), the
properties of both classes (scan.py:1080-1145; signal/onsets/stalta.py:600-635;
signal/onsets/base.py:47-55) and the parts of `_continuous_compute` and
`_locate_events` that read them.
-/

namespace QM.ScanObject

open QM.Pads QM.Trigger QM.TriggerFiles

/-- Exceptions of signal/scan.py:210-243, 376-383, 1086-1113. -/
inductive Err where
  | onsetType        -- util.OnsetTypeError
  | attribute        -- AttributeError
  | value            -- ValueError
  | timeSpan         -- util.TimeSpanException
  | runtime          -- RuntimeError
  | type             -- TypeError
  | noTriggerFiles   -- util.NoTriggerFilesFound
deriving DecidableEq, Repr

/-- An `STALTAOnset`: sampling rate, window lengths and the attributes behind the
properties `pre_pad` and `post_pad` (signal/onsets/base.py:50-55, stalta.py:318-320). -/
structure Onset where
  rate : ℚ
  windows : Windows
  preAttr : ℚ
  postAttr : ℚ

/-- A `QuakeScan` (signal/scan.py:207-247): its onset object (by reference), the largest
traveltime of its lookup table, scan rate, timestep and threads. -/
structure Scan where
  onset : ℕ
  ttmax : ℚ
  rate : ℚ
  timestep : ℚ
  threads : ℤ

/-- The objects of a Python session.  Stands for the heap used by signal/scan.py:204-273. -/
structure Store where
  onsets : ℕ → Option Onset
  scans : ℕ → Option Scan

/-- No objects yet.  Stands for a fresh session, signal/scan.py:204. -/
def Store.empty : Store := ⟨fun _ => none, fun _ => none⟩

/-- Bind an onset object.  Stands for assignments of attributes, signal/scan.py:210-213. -/
def Store.setOnset (s : Store) (i : ℕ) (o : Onset) : Store :=
  { s with onsets := fun j => if j = i then some o else s.onsets j }

/-- Bind a scan object.  Stands for assignments of attributes, signal/scan.py:207-273. -/
def Store.setScan (s : Store) (i : ℕ) (q : Scan) : Store :=
  { s with scans := fun j => if j = i then some q else s.scans j }

/-- Getter of `pre_pad` (stalta.py:600-608): computed from the windows, whatever was assigned. -/
def Onset.prePad (o : Onset) : ℚ := Pads.prePad o.windows

/-- Setter of `pre_pad` (stalta.py:610-614). -/
def Onset.setPrePad (o : Onset) (v : ℚ) : Onset := { o with preAttr := v }

/-- Getter of `post_pad` (stalta.py:616-624). -/
def Onset.postPad (o : Onset) : ℚ := o.postAttr

/-- Setter of `post_pad` (stalta.py:626-635): the value is taken for the largest traveltime. -/
def Onset.setPostPad (o : Onset) (v : ℚ) : Onset := { o with postAttr := Pads.postPad o.windows v }

/-- `STALTAOnset(sampling_rate=..., sta_lta_windows=...)` (signal/onsets/base.py:47-55,
stalta.py:300-331); other parameters are not modelled. -/
def newOnset (rate : Option ℚ) (w : Windows) : Except Err Onset :=
  match rate with
  | none => .error .value
  | some r => .ok ⟨r, w, 0, 0⟩

/-- The keyword arguments of `QuakeScan` that are modelled (scan.py:235-247): `timestep`,
`threads` and the deprecated `time_step`, `n_cores`, `sampling_rate`; `none` = not given. -/
structure Kwargs where
  timestep : Option ℚ
  timeStepOld : Option ℚ
  threads : Option ℤ
  nCores : Option ℤ
  samplingRate : Option ℚ

/-- `QuakeScan.__init__` (scan.py:207-247).  The padding of the onset object is set first
(line 213).  The setter of `sampling_rate` (scan.py:1104-1113) prints `self.scan_rate`, which
has no value before line 247: AttributeError. -/
def newScan (s : Store) (i o : ℕ) (ttmax : ℚ) (k : Kwargs) : Store × Except Err Unit :=
  match s.onsets o with
  | none => (s, .error .onsetType)
  | some on =>
    let s := s.setOnset o (on.setPostPad ttmax)
    match k.samplingRate with
    | some _ => (s, .error .attribute)
    | none =>
      (s.setScan i ⟨o, ttmax, on.rate, k.timeStepOld.getD (k.timestep.getD 120),
        k.nCores.getD (k.threads.getD 1)⟩, .ok ())

/-- What a user can do with the objects: construct, assign to attributes.  Assigning the
scan rate goes through the setter of scan.py:1086-1098, which accepts the rate of the
onset object only.  Models stalta.py:600-635, scan.py:1080-1145. -/
inductive Action where
  | onset (i : ℕ) (rate : Option ℚ) (w : Windows)
  | scan (i o : ℕ) (ttmax : ℚ) (k : Kwargs)
  | setRate (o : ℕ) (r : ℚ)
  | setWindows (o : ℕ) (w : Windows)
  | setPre (o : ℕ) (v : ℚ)
  | setPost (o : ℕ) (v : ℚ)
  | setScanRate (i : ℕ) (r : ℚ)
  | setTimestep (i : ℕ) (t : ℚ)

/-- Effect of one action; one that raises leaves what it did before (signal/scan.py:204-273,
1080-1145, stalta.py:600-635). -/
def act (s : Store) : Action → Store
  | .onset i r w =>
    match newOnset r w with
    | .ok o => s.setOnset i o
    | .error _ => s
  | .scan i o ttmax k => (newScan s i o ttmax k).1
  | .setRate o r =>
    match s.onsets o with
    | some on => s.setOnset o { on with rate := r }
    | none => s
  | .setWindows o w =>
    match s.onsets o with
    | some on => s.setOnset o { on with windows := w }
    | none => s
  | .setPre o v =>
    match s.onsets o with
    | some on => s.setOnset o (on.setPrePad v)
    | none => s
  | .setPost o v =>
    match s.onsets o with
    | some on => s.setOnset o (on.setPostPad v)
    | none => s
  | .setScanRate i r =>
    match s.scans i with
    | none => s
    | some q =>
      match s.onsets q.onset with
      | none => s
      | some on => if r = on.rate then s.setScan i { q with rate := r } else s
  | .setTimestep i t =>
    match s.scans i with
    | none => s
    | some q => s.setScan i { q with timestep := t }

/-- A session.  Stands for a sequence of statements using signal/scan.py:204-273. -/
def acts (s : Store) (l : List Action) : Store := l.foldl act s

/-- What a stage works with: padding, scan rate, sampling rate of the onset functions.  Models
signal/scan.py:420-438, 493-499. -/
structure Settings where
  pads : ℚ × ℚ
  scanRate : ℚ
  onsetRate : ℚ
deriving DecidableEq

/-- The settings with which scan `i` computes a window of `timespan` seconds: `self.onset.pad(...)`
(scan.py:425, 494; signal/onsets/base.py:82-93), `self.scan_rate` and the rate of the onset. -/
def settings (s : Store) (i : ℕ) (timespan : ℚ) : Option Settings :=
  match s.scans i with
  | none => none
  | some q =>
    match s.onsets q.onset with
    | none => none
    | some on => some ⟨pad on.prePad on.postPad on.rate timespan, q.rate, on.rate⟩

/-! ## The arguments of `locate` -/

/-- `UTCDateTime(x)` of an optional argument; `ofNone` is what obspy does with `None` (it raises
TypeError; left open here).  Stands for the calls of signal/scan.py:377. -/
def utc (ofNone : Except Err ℚ) : Option ℚ → Except Err ℚ
  | some t => .ok t
  | none => ofNone

/-- `raise util.NoTriggerFilesFound` (io/triggered_events.py:77-78). -/
def orNoFiles : Option (List Cand) → Except Err (List Cand)
  | none => .error .noTriggerFiles
  | some evs => .ok evs

/-- `read_triggered_events` (io/triggered_events.py:58-101) as called by `locate`: with a trigger file
only the file is passed on (scan.py:405-408). -/
def readEvents (files : Files) (triggerFile : Option (List Cand)) (span : Option (ℚ × ℚ)) :
    Except Err (List Cand) :=
  match triggerFile with
  | some evs => .ok evs
  | none =>
    match span with
    | none => .error .attribute
    | some (a, b) => orNoFiles (readTriggered files a b)

/-- Lines 376-379 of signal/scan.py: the conversion of the times, done unless both are missing. -/
def locateTimes (ofNone : Except Err ℚ) (start stop : Option ℚ) :
    Except Err (Option (ℚ × ℚ)) :=
  if start.isNone && stop.isNone then .ok none
  else
    match utc ofNone start with
    | .error e => .error e
    | .ok a =>
      match utc ofNone stop with
      | .error e => .error e
      | .ok b => if a > b then .error .timeSpan else .ok (some (a, b))

/-- `QuakeScan.locate` (scan.py:376-408): the events it will locate.  Line 382's test can no longer
succeed, as the times are both set or both `None` by then. -/
def locateCall (ofNone : Except Err ℚ) (files : Files) (start stop : Option ℚ)
    (triggerFile : Option (List Cand)) : Except Err (List Cand) :=
  match locateTimes ofNone start stop with
  | .error e => .error e
  | .ok span =>
    if triggerFile.isNone && span.isNone then .error .runtime
    else readEvents files triggerFile span

end QM.ScanObject
