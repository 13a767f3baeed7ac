import Verif.Model.TriggerFiles
import Mathlib.Data.List.Sort

/-!
# Model of `quakemigrate/io/data.py`: archive query and availability check
-/

namespace QM.Data

open QM.TriggerFiles (dayNum readDays)

/-- Text, as in io/data.py:364-387. -/
abbrev Str := List Char

/-! ## Archive query -/

/-- A file pattern asked for: day, and the station (`none` = `*`).  Models io/data.py:364-387. -/
structure Query where
  day : ℤ
  station : Option Str
deriving DecidableEq, Repr

/-- `Archive._load_from_path` (data.py:364-387) with a format set: the patterns handed to
`glob`, in order.  The loop `while loadstart <= endtime` over days is that of
`TriggerFiles.readDays`. -/
def loadFromPath (readAll : Bool) (stations : List Str) (start stop : ℚ) : List Query :=
  (readDays (dayNum start) stop).flatMap fun d =>
    if readAll then [⟨d, none⟩] else stations.map fun s => ⟨d, some s⟩

/-! ## Waveform data -/

/-- A trace: SEED id, start time (s), sampling rate (Hz), samples.  Stands for obspy trace, as used
in io/data.py:505-620. -/
structure Trace where
  id : Str
  start : ℚ
  rate : ℚ
  data : List ℚ
deriving DecidableEq, Repr

/-- `stats.endtime`: time of the last sample.  Stands for obspy endtime, as used in
io/data.py:582-604. -/
def Trace.stop (t : Trace) : ℚ := t.start + ((t.data.length : ℚ) - 1) / t.rate

/-- `tr.data.max() == tr.data.min()`; `none` = ValueError for no data.  Models io/data.py:582. -/
def Trace.flat (t : Trace) : Option Bool :=
  match t.data with
  | [] => none
  | x :: xs => some (decide (xs.foldl (fun a b => if a < b then b else a) x =
      xs.foldl (fun a b => if b < a then b else a) x))

/-- Order of obspy's `Stream.sort` for traces of one id: start time, then end time.  Stands for obspy
sort, reached from io/data.py:582-604. -/
def Trace.le (a b : Trace) : Prop := a.start < b.start ∨ (a.start = b.start ∧ a.stop ≤ b.stop)

instance : DecidableRel Trace.le := fun a b => by unfold Trace.le; infer_instance

/-- Time from the expected next sample of `a` to the start of `b`, as in obspy's
`Stream.get_gaps`; an overlap is cut at the length of `b`.  Stands for obspy `get_gaps`, used at
io/data.py:582-604. -/
def delta (a b : Trace) : ℚ :=
  let d := b.start - (a.stop + 1 / a.rate)
  if d < 0 then
    let temp := b.stop - b.start
    if -d > temp then -temp else d
  else d

/-- Whether obspy's `get_gaps(max_gap=maxGap)` lists the pair `a`, `b`.  Stands for obspy `get_gaps`,
used at io/data.py:582-604. -/
def listed (maxGap : Option ℚ) (a b : Trace) : Bool :=
  let d := delta a b
  let kept := match maxGap with
    | none => true
    | some m => decide (d ≤ m)
  kept && !(decide (a.rate = b.rate) && decide (pyRound (|d| * a.rate) = 0))

/-- `st.get_gaps(max_gap=maxGap)` of traces with one id: the pairs listed.  Stands for obspy
`get_gaps`, used at io/data.py:582-604. -/
def getGaps (maxGap : Option ℚ) (trs : List Trace) : List (Trace × Trace) :=
  let s := trs.insertionSort Trace.le
  (s.zip s.tail).filter fun p => listed maxGap p.1 p.2

/-- Options of `check_availability` (data.py:509-519); 0 counts as not given. -/
structure Opts where
  allChannels : Bool
  nChannels : ℕ
  allowGaps : Bool
  fullTimespan : Bool
  checkRate : Bool
  rate : ℚ
  checkTimes : Bool

/-- Raised in io/data.py:505-620. -/
inductive Err where
  | typeError
  | valueError
deriving DecidableEq, Repr

/-- `any(tr.data.max() == tr.data.min() for tr in st_id)` (data.py:582). -/
def anyFlat : List Trace → Option Bool
  | [] => some false
  | t :: ts =>
    match t.flat with
    | none => none
    | some true => some true
    | some false => anyFlat ts

/-- The checks for one id (data.py:581-627), in order; `st_id` is `trs`. -/
def checkId (o : Opts) (start stop : ℚ) (trs : List Trace) : Except Err Bool :=
  match anyFlat trs with
  | none => .error .valueError
  | some true => .ok false
  | some false =>
    if (getGaps (some (-1 / 1000000)) trs).length ≠ 0 then .ok false
    else if !o.allowGaps && decide ((getGaps none trs).length ≠ 0) then .ok false
    else if o.checkRate && decide (o.rate = 0) then .error .typeError
    else if o.checkRate && trs.any (fun t => decide (t.rate ≠ o.rate)) then .ok false
    else
      match trs with
      | [] => .ok true
      | t :: rest =>
        if o.fullTimespan && (decide (rest ≠ []) ||
            decide ((t.data.length : ℚ) < (stop - start) * t.rate + 1)) then .ok false
        else if o.checkTimes && (decide (rest ≠ []) || decide (t.start ≠ start) ||
            decide (t.stop ≠ stop)) then .ok false
        else .ok true

/-- `sorted(set(tr.id for tr in st))` (data.py:577). -/
def ids (st : List Trace) : List Str := (st.map Trace.id).dedup.insertionSort (· ≤ ·)

/-- The loop over ids (data.py:577-627): the dict `availability`. -/
def checkIds (o : Opts) (start stop : ℚ) (st : List Trace) : List Str → Except Err (List (Str × Bool))
  | [] => .ok []
  | i :: rest =>
    match checkId o start stop (st.filter fun t => t.id = i) with
    | .error e => .error e
    | .ok a =>
      match checkIds o start stop st rest with
      | .error e => .error e
      | .ok l => .ok ((i, a) :: l)

/-- `WaveformData.check_availability` (data.py:570-646).  `select(id=...)` is taken to
match the id exactly. -/
def checkAvailability (o : Opts) (start stop : ℚ) (st : List Trace) :
    Except Err (Bool × List (Str × Bool)) :=
  if st = [] then .ok (false, [])
  else
    match checkIds o start stop st (ids st) with
    | .error e => .error e
    | .ok av =>
      if av.all Prod.snd then
        if o.allChannels then
          if o.nChannels = 0 then .error .typeError
          else .ok (decide (av.length = o.nChannels), av)
        else .ok (true, av)
      else if !o.allChannels && av.any Prod.snd then .ok (true, av)
      else .ok (false, av)

end QM.Data
