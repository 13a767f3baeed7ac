import Verif.Py
import Mathlib.Data.Nat.Digits.Defs

/-!
# Model of the headers check of `quakemigrate/io/core.py` and of `export/to_snuffler.py`
-/

namespace QM.Stations

/-- Text, as in io/core.py:88-100. -/
abbrev Str := List Char

/-- Models io/core.py:93, 183. -/
inductive Err where
  | stationFileHeader               -- StationFileHeaderException
  | velocityModelHeader             -- InvalidVelocityModelHeader
  | keyError
deriving DecidableEq, Repr

/-- A station file after `pd.read_csv`: column names and rows of cells.  Stands for pandas frame of
io/core.py:90, 180. -/
structure File where
  cols : List String
  rows : List (List ℚ)
deriving DecidableEq, Repr

/-- `x[0] or x[1] or ...` on strings: the first non-empty one (Python's `or`).  Models
io/core.py:92. -/
def pyOr : List String → String
  | [] => ""
  | [a] => a
  | a :: rest => if a = "" then pyOr rest else a

/-- `read_stations` (io/core.py:88-100).  Cells are numbers; names are converted to strings
(`astype`), which fails like the change of sign if the column is missing. -/
def readStations (f : File) : Except Err File :=
  if pyOr ["Latitude", "Longitude", "Elevation", "Name"] ∉ f.cols then .error .stationFileHeader
  else
    match f.cols.findIdx? (fun c => c = "Elevation") with
    | none => .error .keyError
    | some i =>
      let rows := f.rows.map fun r => r.modify i (fun x => -1 * x)
      if "Name" ∉ f.cols then .error .keyError
      else .ok { f with rows := rows }

/-- `read_vmodel` (io/core.py:180-185). -/
def readVmodel (f : File) : Except Err File :=
  if "Depth" ∉ f.cols then .error .velocityModelHeader else .ok f

/-- A row of the station table for `snuffler_stations`; `network` is absent when the
table has no `Network` column.  Models export/to_snuffler.py:38-55. -/
structure Station where
  name : Str
  network : Option Str
deriving DecidableEq, Repr

/-- `snuffler_stations` (to_snuffler.py:38-55): (network, name) of the lines written.  The
argument `network_code` is overwritten in the loop. -/
def snufflerStations : Option Str → List Station → List (Str × Str)
  | _, [] => []
  | code, s :: rest =>
    let code := match code with
      | some c => c
      | none => match s.network with
        | some n => n
        | none => []
    (code, s.name) :: snufflerStations (some code) rest

/-- Decimal digits of a number, most significant first, as `str(n)`.  Stands for number formatting,
export/to_snuffler.py:94-103. -/
def decDigits (n : ℕ) : List ℕ := if n = 0 then [0] else (Nat.digits 10 n).reverse

/-- The part after the decimal point of the seconds in `snuffler_markers`
(to_snuffler.py:94-103, 114-126): `msec=pick.time.microsecond` without leading zeros. -/
def markerFraction (micro : ℕ) : List ℕ := decDigits micro

/-- The channel in `snuffler_markers` (to_snuffler.py:109-113); `none` = UnboundLocalError.
The channel of the previous pick is kept for other phases. -/
def markerChannels : Option Str → List Str → Option (List Str)
  | _, [] => some []
  | prev, ph :: rest =>
    let comp := if ph = ['P'] then some ['B', 'H', 'Z']
      else if ph = ['S'] then some ['B', 'H', 'N'] else prev
    match comp with
    | none => none
    | some c => (markerChannels (some c) rest).map (c :: ·)

end QM.Stations
