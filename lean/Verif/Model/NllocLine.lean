import Verif.Model.Export
import Verif.Model.EventFile

/-!
# Model of the lines of a NonLinLoc phase file (export/to_nlloc.py:56-103)

A line is the list of the values shown: numbers as rounded by the format.  Simplified: the number of
seconds is exact before it is rounded (in the code it is a double, export/to_nlloc.py:74).
-/

namespace QM.NllocLine

open QM.Stations (Str)
open QM.Export
open QM.EventFile (roundTo sigDigits)

/-- The values of a line (export/to_nlloc.py:84-99); the fields that are always the same are left out. -/
structure Line where
  station : Str
  component : Char
  onset : Char
  phase : Str
  polarity : Char
  date : ℤ
  hour : ℤ
  minute : ℤ
  seconds : ℚ
  error : ℚ
deriving DecidableEq, Repr

/-- `pick.time.strftime("%Y%m%d")` (export/to_nlloc.py:72): days since the epoch. -/
def dateOf (t : ℚ) : ℤ := ⌊t / 86400⌋

/-- The hour of `strftime("%H%M")` (export/to_nlloc.py:73). -/
def hourOf (t : ℚ) : ℤ := ⌊(t - 86400 * dateOf t) / 3600⌋

/-- The minute of `strftime("%H%M")` (export/to_nlloc.py:73). -/
def minuteOf (t : ℚ) : ℤ := ⌊(t - 86400 * dateOf t - 3600 * hourOf t) / 60⌋

/-- `pick.time.second + pick.time.microsecond * 1e-6` (export/to_nlloc.py:74): whole microseconds. -/
def secondsOf (t : ℚ) : ℚ :=
  (⌊(t - 86400 * dateOf t - 3600 * hourOf t - 60 * minuteOf t) * 1000000⌋ : ℚ) / 1000000

/-- `pick.time_errors.uncertainty or -1` (export/to_nlloc.py:75-83).  Picks read by `read_quakemigrate`
have no upper and lower uncertainties, so that the fall-back raises and is passed over. -/
def timeError (e : Option ℚ) : ℚ :=
  match e with
  | none => -1
  | some v => if v = 0 then -1 else v

/-- `fmt.format(...)` (export/to_nlloc.py:56-59, 64-99).  Picks read by `read_quakemigrate` have no
channel, onset or polarity (export/to_obspy.py:225-234), which are shown as `?`. -/
def lineOf (p : Pick) : Line :=
  { station := if p.station = [] then ['?'] else p.station
    component := '?'
    onset := '?'
    phase := if p.phase = [] then ['?'] else p.phase
    polarity := '?'
    date := dateOf p.time
    hour := hourOf p.time
    minute := minuteOf p.time
    seconds := roundTo 4 (secondsOf p.time)
    error := sigDigits 3 (timeError p.error) }

/-- The lines of the file, before they are sorted (export/to_nlloc.py:61-100). -/
def lines (autopick : Bool) (picks : List Pick) : List Line :=
  let m := if autopick then Method.autopick else Method.modelled
  (picks.filter fun p => p.method = m).map lineOf

end QM.NllocLine
