import Verif.Model.Export

/-!
# Model of `sac_mfast` (export/to_mfast.py:25-138): which files are written, and what they contain

The distance, azimuth and orientation entries of the header, which depend on nothing else, are left out;
the station elevation is C80.
-/

namespace QM.Mfast

open QM.Stations (Str)
open QM.Export

/-- A trace of the cut waveform file; `comp` is the last letter of its channel, by which it is selected
(export/to_mfast.py:73, 122). -/
structure Trace where
  station : Str
  comp : Char
  start : ℚ
  data : List ℚ
deriving DecidableEq, Repr

/-- A SAC file: its name is made of the station and component (export/to_mfast.py:125-126); `start` and
`data` are those of the trace; `t0`, `a`, `o` are the S arrival, the P arrival and the origin time, in
seconds after `start` (export/to_mfast.py:113-119). -/
structure File where
  station : Str
  comp : Char
  start : ℚ
  data : List ℚ
  t0 : ℚ
  a : Option ℚ
  o : ℚ
deriving DecidableEq, Repr

/-- `[0]` of an empty stream (export/to_mfast.py:98, 122). -/
inductive Err where
  | indexError
deriving DecidableEq, Repr

/-- The loop over the components (export/to_mfast.py:121-138): the files written before an exception
stay. -/
def writeComps (st : List Trace) (station : Str) (t0 : ℚ) (a : Option ℚ) (o : ℚ) :
    List Char → List File × Option Err
  | [] => ([], none)
  | c :: cs =>
    match (st.filter fun t => t.comp = c).head? with
    | none => ([], some .indexError)
    | some t =>
      let r := writeComps st station t0 a o cs
      (⟨station, c, t.start, t.data, t0, a, o⟩ :: r.1, r.2)

/-- The body of the loop over the stations (export/to_mfast.py:72-138).  The start of the first trace of
the station is the reference of all times. -/
def station (stream : List Trace) (picks : List Pick) (origin : ℚ) (name : Str) : List File × Option Err :=
  let st := stream.filter fun t => t.station = name
  if (picks.filter fun p => p.station = name) = [] then ([], none)
  else
    match st.head? with
    | none => ([], some .indexError)
    | some first =>
      match mfastHeader first.start picks name with
      | none => ([], none)
      | some h => writeComps st name h.1 h.2 (origin - first.start) ['Z', 'N', 'E']

/-- The loop over the stations (export/to_mfast.py:72): an exception ends it. -/
def sacMfast (stream : List Trace) (picks : List Pick) (origin : ℚ) : List Str → List File × Option Err
  | [] => ([], none)
  | s :: ss =>
    match station stream picks origin s with
    | (fs, some e) => (fs, some e)
    | (fs, none) =>
      let r := sacMfast stream picks origin ss
      (fs ++ r.1, r.2)

end QM.Mfast
