import Mathlib.Data.List.Basic
import Mathlib.Logic.Function.Basic

/-!
# Model of the files of the method `1dnlloc`: `_compute_1d_nlloc` (lut/create_lut.py:389-534) and
`_write_control_file` (lut/create_lut.py:536-594)

Files only: what is read from the time grids is modelled in Grid.lean.  `Vel2Grid` and `Grid2Time` are
parameters that say which files they write.
-/

namespace QM.NllocRun

/-- Text (lut/create_lut.py:501). -/
abbrev Str := List Char

/-- The directories concerned (lut/create_lut.py:461-463): the working directory with everything below
but the two others, `time` and `model`. -/
inductive Dir where
  | work | time | model
deriving DecidableEq, Repr

/-- A file: directory and path below it (lut/create_lut.py:461-463). -/
abbrev Path := Dir × Str

/-- Contents of files (lut/create_lut.py:461-463). -/
abbrev FS := Path → Option Str

/-- Writing a file (lut/create_lut.py:593-594). -/
def write (fs : FS) (p : Path) (c : Str) : FS := Function.update fs p (some c)

/-- The files a program writes in a directory (lut/create_lut.py:496-499). -/
def writeAll (fs : FS) (d : Dir) : List (Str × Str) → FS
  | [] => fs
  | f :: l => writeAll (write fs (d, f.1) f.2) d l

/-- Removing the files a condition holds of (lut/create_lut.py:516-524). -/
def removeIf (fs : FS) (P : Path → Bool) : FS := fun p => if P p then none else fs p

/-- `control.in` (lut/create_lut.py:497, 516, 593). -/
def controlFile : Path := (.work, "control.in".toList)

/-- The start of the pattern `layer.{phase}.{station}.time*` (lut/create_lut.py:518). -/
def timePrefix (phase station : Str) : Str :=
  "layer.".toList ++ phase ++ ".".toList ++ station ++ ".time".toList

/-- The start of the pattern `layer.{phase}.mod.*` (lut/create_lut.py:520). -/
def modPrefix (phase : Str) : Str := "layer.".toList ++ phase ++ ".mod.".toList

/-- The programs of NonLinLoc (lut/create_lut.py:496-499): files written in `model` for a phase, and in
`time` for a phase and a station; `none` is an error. -/
structure Progs where
  vel2grid : Str → Option (List (Str × Str))
  grid2time : Str → Str → Option (List (Str × Str))
  controlText : Str → Str → Str

/-- The two programs for one station (lut/create_lut.py:485-499): the files, and whether both ran. -/
def runStation (pr : Progs) (phase : Str) (fs : FS) (station : Str) : FS × Bool :=
  let fs := write fs controlFile (pr.controlText phase station)
  match pr.vel2grid phase with
  | none => (fs, false)
  | some m =>
    let fs := writeAll fs .model m
    match pr.grid2time phase station with
    | none => (fs, false)
    | some t => (writeAll fs .time t, true)

/-- Tidying up after a station (lut/create_lut.py:515-521). -/
def tidyStation (retain : Bool) (phase station : Str) (fs : FS) : FS :=
  let fs := removeIf fs fun p => decide (p = controlFile)
  if !retain then
    let fs := removeIf fs fun p => decide (p.1 = .time) && (timePrefix phase station).isPrefixOf p.2
    removeIf fs fun p => decide (p.1 = .time) && (modPrefix phase).isPrefixOf p.2
  else fs

/-- The loop over stations (lut/create_lut.py:465-521). -/
def stationLoop (pr : Progs) (retain : Bool) (phase : Str) : FS → List Str → FS × Bool
  | fs, [] => (fs, true)
  | fs, s :: l =>
    match runStation pr phase fs s with
    | (fs, false) => (fs, false)
    | (fs, true) => stationLoop pr retain phase (tidyStation retain phase s fs) l

/-- `_compute_1d_nlloc` (lut/create_lut.py:461-534): `time` is removed only if it is empty, which removes
no file. -/
def compute1dNlloc (pr : Progs) (retain : Bool) (stations : List Str) (fs : FS) (phase : Str) :
    FS × Bool :=
  match stationLoop pr retain phase fs stations with
  | (fs, false) => (fs, false)
  | (fs, true) => (if !retain then removeIf fs fun p => decide (p.1 = .model) else fs, true)

/-- The loop over phases (lut/create_lut.py:225-227). -/
def phaseLoop (pr : Progs) (retain : Bool) (stations : List Str) : FS → List Str → FS × Bool
  | fs, [] => (fs, true)
  | fs, p :: l =>
    match compute1dNlloc pr retain stations fs p with
    | (fs, false) => (fs, false)
    | (fs, true) => phaseLoop pr retain stations fs l

end QM.NllocRun
