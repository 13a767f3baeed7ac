import Verif.Model.Archive

/-!
# Model of `Run` (io/core.py:188-276) and of the places of the output files

Paths are lists of components below the `run_path` given by the user.  Names are single components
(no `/`).  Log files are in Logging.lean.  Not modelled: plots.
-/

namespace QM.Paths

open QM.Archive (Day)
open QM.EventId (padDigits)

/-- Text (io/core.py:229). -/
abbrev Str := List Char

/-- A path, as its components (pathlib, io/core.py:240). -/
abbrev Path := List Str

/-- `name.replace(".", "_")` (io/core.py:237-238). -/
def undot (s : Str) : Str := s.map fun c => if c = '.' then '_' else c

/-- A `Run` object (io/core.py:229-245). -/
structure Run where
  base : Str
  subname : Str
deriving DecidableEq, Repr

/-- `Run(path, name, subname)` (io/core.py:229-245). -/
def mkRun (name subname : Str) : Run :=
  if '.' ∈ name ∨ '.' ∈ subname then ⟨undot name, undot subname⟩ else ⟨name, subname⟩

/-- `Run.name` (io/core.py:270-276). -/
def Run.name (r : Run) : Str := if r.subname = [] then r.base else r.base ++ '_' :: r.subname

/-- `path / s` (pathlib, io/event.py:455): an empty component is dropped. -/
def join (p : Path) (s : Str) : Path := if s = [] then p else p ++ [s]

/-- Position after the last dot, `rfind(".")` (pathlib `suffix`, io/event.py:507): the part before
the last dot and the suffix with it; no suffix if the dot is first or last. -/
def splitSuffix (s : Str) : Str × Str :=
  let tail := s.reverse.takeWhile (· ≠ '.')
  let stem := (s.reverse.dropWhile (· ≠ '.')).tail.reverse
  if '.' ∈ s ∧ tail ≠ [] ∧ stem ≠ [] then (stem, '.' :: tail.reverse) else (s, [])

/-- `(dir / stem).with_suffix(suffix)` (pathlib, io/event.py:507); `none` = ValueError for an empty
name. -/
def withSuffix (dir : Path) (stem suffix : Str) : Option Path :=
  if stem = [] then none else some (dir ++ [(splitSuffix stem).1 ++ suffix])

/-- Kinds of cut waveforms (io/cut_waveforms.py:88, signal/scan.py:561-588). -/
inductive WfType where
  | raw | real | wa
deriving DecidableEq, Repr

/-- Waveform file formats (io/cut_waveforms.py:200-210). -/
inductive Fmt where
  | mseed | sac | segy | gse2 | other
deriving DecidableEq, Repr

/-- The suffix of a waveform file (io/cut_waveforms.py:200-210). -/
def Fmt.suffix : Fmt → Str
  | .mseed => ".m".toList
  | .sac => ".sac".toList
  | .segy => ".segy".toList
  | .gse2 => ".gse2".toList
  | .other => ".waveforms".toList

/-- The directory of cut waveforms (io/cut_waveforms.py:88). -/
def WfType.dir : WfType → Str
  | .raw => "raw_cut_waveforms".toList
  | .real => "real_cut_waveforms".toList
  | .wa => "wa_cut_waveforms".toList

/-- The files of one event written by locate (io/event.py:455-507; signal/pickers/base.py:75-88;
io/amplitudes.py:38-67; io/coalescence.py:58-64; io/cut_waveforms.py:88-90, 200-212). -/
inductive EventKind where
  | event | picks | amps | map | marginalMap | cut (t : WfType) (f : Fmt)
deriving DecidableEq, Repr

/-- The directory of a kind of file (see `EventKind`; io/event.py:455, signal/pickers/base.py:75,
io/amplitudes.py:38, io/coalescence.py:58-61, io/cut_waveforms.py:88). -/
def EventKind.dir : EventKind → Str
  | .event => "events".toList
  | .picks => "picks".toList
  | .amps => "amplitudes".toList
  | .map => "coalescence_maps".toList
  | .marginalMap => "marginalised_coalescence_maps".toList
  | .cut t _ => t.dir

/-- The suffix of a kind of file (see `EventKind`; io/event.py:507, signal/pickers/base.py:88,
io/amplitudes.py:67, io/coalescence.py:64, io/cut_waveforms.py:200-212). -/
def EventKind.suffix : EventKind → Str
  | .event => ".event".toList
  | .picks => ".picks".toList
  | .amps => ".amps".toList
  | .map => ".npy".toList
  | .marginalMap => ".npy".toList
  | .cut _ f => f.suffix

/-- Where a file of an event is written (see `EventKind`; io/event.py:455-507). -/
def eventFile (r : Run) (k : EventKind) (uid : Str) : Option Path :=
  withSuffix (join [r.base, "locate".toList] r.subname ++ [k.dir]) uid k.suffix

/-- `{year}_{julday:03d}`; years of four digits (io/triggered_events.py:136). -/
def dayStr (d : Day) : Str := padDigits 4 d.year ++ '_' :: padDigits 3 d.jday

/-- The triggered events of a day (io/triggered_events.py:125-137, read at 61-70). -/
def triggeredFile (r : Run) (d : Day) : Option Path :=
  withSuffix (join [r.base, "trigger".toList] r.subname ++ ["events".toList])
    (r.name ++ '_' :: dayStr d ++ "_TriggeredEvents".toList) ".csv".toList

/-- The coalescence stream of a day (io/scanmseed.py:200-210, read at 288-289). -/
def scanmseedFile (r : Run) (d : Day) : Option Path :=
  withSuffix [r.base, "detect".toList, "scanmseed".toList] (dayStr d) ".scanmseed".toList

/-- The availability of a day (io/availability.py:136-148, read at 49-50). -/
def availabilityFile (r : Run) (d : Day) : Option Path :=
  withSuffix [r.base, "detect".toList, "availability".toList]
    (dayStr d ++ "_StationAvailability".toList) ".csv".toList

end QM.Paths
