import Verif.Model.Data
import Verif.Model.EventId

/-!
# Model of the archive formats of `quakemigrate/io/data.py`

File patterns as handed to `pathlib.Path.glob`.  A `*` matches any characters within one
component of a path; station names are taken to hold no pattern characters.
-/

namespace QM.Archive

open QM.Data (Str Query)
open QM.EventId (padDigits)

/-- A character of a pattern.  Stands for glob patterns built at io/data.py:364-387. -/
inductive Tok where
  | lit (c : Char)
  | star
deriving DecidableEq, Repr

/-- Text without pattern characters.  Stands for glob patterns, io/data.py:384. -/
def lits (s : Str) : List Tok := s.map Tok.lit

/-- Whether a name matches a pattern (`fnmatch` with `*` only).  Stands for pathlib glob, called at
io/data.py:384. -/
def matchComp : List Tok → Str → Bool
  | [], s => decide (s = [])
  | .lit _ :: _, [] => false
  | .lit c :: p, d :: s => decide (d = c) && matchComp p s
  | .star :: p, s => s.tails.any (matchComp p)

/-- Whether a path matches a pattern, component by component.  Stands for pathlib glob, called at
io/data.py:384. -/
def matchPath : List (List Tok) → List Str → Bool
  | [], [] => true
  | p :: ps, s :: ss => matchComp p s && matchPath ps ss
  | _, _ => false

/-- Calendar fields used in the formats (data.py:369-376). -/
structure Day where
  year : ℕ
  jday : ℕ
  month : ℕ
  day : ℕ
deriving DecidableEq, Repr

/-- Built-in archive formats (data.py:201-217). -/
inductive Format where
  | seisComp3
  | yearJdAnyStationAny      -- "YEAR/JD/*_STATION_*"
  | yearJdStation            -- "YEAR/JD/STATION"
  | stationYearJd            -- "STATION.YEAR.JULIANDAY"
  | stationDate              -- "/STATION/STATION.YearMonthDay"
  | yearJdUStation           -- "YEAR_JD/STATION*"
  | yearJdUStationU          -- "YEAR_JD/STATION_*"
deriving DecidableEq, Repr

/-- The pattern for one station and day (data.py:201-217, 369-384); years of four digits,
`channels="*"`. -/
def pattern (f : Format) (st : Str) (d : Day) : List (List Tok) :=
  let y := lits (padDigits 4 d.year)
  let j := lits (padDigits 3 d.jday)
  let s := lits st
  match f with
  | .seisComp3 => [y, [.star], s, [.star],
      .star :: lits ['.'] ++ s ++ lits ['.'] ++ .star :: lits ['.'] ++ .star :: lits ['.', 'D', '.'] ++ y ++
        lits ['.'] ++ j]
  | .yearJdAnyStationAny => [y, j, .star :: lits ['_'] ++ s ++ lits ['_'] ++ [.star]]
  | .yearJdStation => [y, j, s ++ [.star]]
  | .stationYearJd => [.star :: s ++ lits ['.'] ++ .star :: lits ['.'] ++ y ++ lits ['.'] ++ j]
  | .stationDate => [s, s ++ lits ['.'] ++ y ++ lits (padDigits 2 d.month) ++ lits (padDigits 2 d.day)]
  | .yearJdUStation => [y ++ lits ['_'] ++ j, s ++ [.star]]
  | .yearJdUStationU => [y ++ lits ['_'] ++ j, s ++ lits ['_'] ++ [.star]]

/-- The files of the archive read for a window (data.py:278-298, 364-387), with multiplicity;
`cal` gives the calendar fields of a day number. -/
def filesRead (f : Format) (cal : ℤ → Day) (archive : List (List Str)) (stations : List Str)
    (start stop : ℚ) : List (List Str) :=
  (Data.loadFromPath false stations start stop).flatMap fun q =>
    match q.station with
    | none => []
    | some s => archive.filter fun p => matchPath (pattern f s (cal q.day)) p

end QM.Archive
