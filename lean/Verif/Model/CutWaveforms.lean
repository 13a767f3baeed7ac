import Mathlib.Data.Rat.Defs

/-!
# Model of cut waveforms: `write_cut_waveforms`, `get_waveforms` (io/cut_waveforms.py:44-181),
`WaveformData.get_real_waveform`, `get_wa_waveform` (io/data.py:648-785) and their callers

Traces are of any type `T`.
-/

namespace QM.CutWaveforms

/-- What obspy does with a trace, and the response inventory.
- `real v t`: response removed, as velocity if `v`; `none` = response not found or not removable
  (io/data.py:683-732);
- `wa t`: Wood-Anderson response simulated (io/data.py:770-777);
- `cut a b t`: trimmed to start `a` seconds before and end `b` seconds after the origin time
  (io/cut_waveforms.py:95-100); `none` = not trimmed on that side;
- `isEmpty t`, `isFlat t`: no samples; all samples equal (io/cut_waveforms.py:104, 168). -/
structure Ops (T : Type) where
  real : Bool → T → Option T
  wa : T → T
  cut : Option ℚ → Option ℚ → T → T
  isEmpty : T → Bool
  isFlat : T → Bool
  inventory : Bool

/-- The waveforms held by `WaveformData` (io/data.py:504-507). -/
structure Data (T : Type) where
  raw : List T
  real : Option (List T)
  wa : Option (List T)

/-- Exceptions: no inventory (AttributeError), response not found or not removable.  Models
io/data.py:677-678, 691, 733. -/
inductive Err where
  | attribute | response
deriving DecidableEq, Repr

variable {T : Type} (o : Ops T)

/-- Append to a cache, which is created if it is `None` (io/data.py:734-738, 779-783). -/
def push (l : Option (List T)) (t : T) : Option (List T) := some (l.getD [] ++ [t])

/-- `get_real_waveform` (io/data.py:648-740). -/
def getReal (vel : Bool) (d : Data T) (t : T) : Except Err (T × Data T) :=
  if ¬ o.inventory then .error .attribute
  else
    match o.real vel t with
    | none => .error .response
    | some r => .ok (r, { d with real := push d.real r })

/-- `get_wa_waveform` (io/data.py:742-785). -/
def getWa (vel : Bool) (d : Data T) (t : T) : Except Err (T × Data T) :=
  match getReal o vel d t with
  | .error e => .error e
  | .ok (r, d) => .ok (o.wa r, { d with wa := push d.wa (o.wa r) })

/-- The corrections made while measuring amplitudes (signal/local_mag/amplitude.py:335-342), for the
traces trimmed and selected there; a response error skips the trace. -/
def ampStage : Data T → List T → Except Err (Data T)
  | d, [] => .ok d
  | d, t :: ts =>
    match getWa o false d t with
    | .error .attribute => .error .attribute
    | .error .response => ampStage d ts
    | .ok (_, d) => ampStage d ts

/-- Kinds of cut waveforms with corrected response (io/cut_waveforms.py:107). -/
inductive Kind where
  | real | wa
deriving DecidableEq, Repr

/-- The loop of `get_waveforms` (io/cut_waveforms.py:166-180). -/
def getWaveforms (k : Kind) (vel : Bool) : Data T → List T → Except Err (List T × Data T)
  | d, [] => .ok ([], d)
  | d, t :: ts =>
    if ¬ o.isEmpty t ∧ ¬ o.isFlat t then
      match (match k with | .real => getReal o vel d t | .wa => getWa o vel d t) with
      | .error .attribute => .error .attribute
      | .error .response => getWaveforms k vel d ts
      | .ok (r, d) =>
        match getWaveforms k vel d ts with
        | .error e => .error e
        | .ok (rs, d) => .ok (r :: rs, d)
    else getWaveforms k vel d ts

/-- `if pre_cut:` is false for `None` and for 0 (io/cut_waveforms.py:94-100). -/
def truthy (c : Option ℚ) : Option ℚ :=
  match c with
  | some x => if x = 0 then none else some x
  | none => none

/-- Trimming of the raw waveforms in place, and removal of empty traces
(io/cut_waveforms.py:92-105). -/
def cutRaw (pre post : Option ℚ) (d : Data T) : Data T :=
  { d with raw := (d.raw.map fun t =>
      if (truthy pre).isSome ∨ (truthy post).isSome then o.cut (truthy pre) (truthy post) t
      else t).filter fun t => ¬ o.isEmpty t }

/-- `write_cut_waveforms(waveform_type="raw")` (io/cut_waveforms.py:86-134). -/
def writeRaw (pre post : Option ℚ) (d : Data T) : Option (List T) × Data T :=
  let d := cutRaw o pre post d
  (if d.raw.isEmpty then none else some d.raw, d)

/-- `write_cut_waveforms(waveform_type="real" or "wa")` (io/cut_waveforms.py:86-134). -/
def writeCorrected (k : Kind) (vel : Bool) (pre post : Option ℚ) (d : Data T) :
    Except Err (Option (List T) × Data T) :=
  let d := cutRaw o pre post d
  match (match k with | .real => d.real | .wa => d.wa), truthy pre, truthy post with
  | some cached, none, none => .ok (if cached.isEmpty then none else some cached, d)
  | _, _, _ =>
    match getWaveforms o k vel d d.raw with
    | .error e => .error e
    | .ok (st, d) => .ok (if st.isEmpty then none else some st, d)

/-- Settings (signal/scan.py:255-280): which files, units (velocity?), cuts, and whether magnitudes are
calculated. -/
structure Cfg where
  raw : Bool
  real : Option Bool
  wa : Option Bool
  pre : Option ℚ
  post : Option ℚ
  mags : Bool

/-- The data once the magnitude stage is over (signal/scan.py:542-544). -/
def afterMags (c : Cfg) (raw amp : List T) : Except Err (Data T) :=
  if c.mags then ampStage o ⟨raw, none, none⟩ amp else .ok ⟨raw, none, none⟩

/-- `if write_cut_waveforms: ...` for the raw waveforms (signal/scan.py:561-568). -/
def rawFile (c : Cfg) (d : Data T) : Option (List T) × Data T :=
  if c.raw then writeRaw o c.pre c.post d else (none, d)

/-- The same for the real and the Wood-Anderson waveforms, if asked for
(signal/scan.py:569-588). -/
def correctedFile (k : Kind) (units : Option Bool) (c : Cfg) (d : Data T) :
    Except Err (Option (List T) × Data T) :=
  match units with
  | some vel => writeCorrected o k vel c.pre c.post d
  | none => .ok (none, d)

/-- The three files of an event (signal/scan.py:535-588).  `amp` are the traces used for the amplitude
measurements (signal/local_mag/amplitude.py:310-333). -/
def locateWrites (c : Cfg) (raw amp : List T) :
    Except Err (Option (List T) × Option (List T) × Option (List T)) :=
  match afterMags o c raw amp with
  | .error e => .error e
  | .ok d0 =>
    let (f1, d1) := rawFile o c d0
    match correctedFile o .real c.real c d1 with
    | .error e => .error e
    | .ok (f2, d2) =>
      match correctedFile o .wa c.wa c d2 with
      | .error e => .error e
      | .ok (f3, _) => .ok (f1, f2, f3)

end QM.CutWaveforms
