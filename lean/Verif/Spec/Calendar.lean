import Verif.Model.EventId

/-!
# Specification: calendar dates and absolute time

The proleptic Gregorian calendar as used by Python's `datetime`
(`_ymd2ord`), independent of the model of the event identifier.
-/

namespace QM.Spec
open QM.EventId (Stamp)

def isLeap (y : ℕ) : Bool := y % 4 == 0 && (y % 100 != 0 || y % 400 == 0)

def daysInMonth (y m : ℕ) : ℕ :=
  match m with
  | 1 => 31
  | 2 => if isLeap y then 29 else 28
  | 3 => 31
  | 4 => 30
  | 5 => 31
  | 6 => 30
  | 7 => 31
  | 8 => 31
  | 9 => 30
  | 10 => 31
  | 11 => 30
  | 12 => 31
  | _ => 0

/-- Days in the months before month `m`. -/
def daysBeforeMonth (y : ℕ) : ℕ → ℕ
  | 0 => 0
  | m + 1 => daysBeforeMonth y m + daysInMonth y m

/-- Days in the years `1 .. y-1`. -/
def daysBeforeYear : ℕ → ℕ
  | 0 => 0
  | y + 1 => daysBeforeYear y + (if isLeap y then 366 else 365)

/-- A real calendar time with a four-digit year. -/
structure ValidStamp (s : Stamp) : Prop where
  year : 1000 ≤ s.year ∧ s.year ≤ 9999
  month : 1 ≤ s.month ∧ s.month ≤ 12
  day : 1 ≤ s.day ∧ s.day ≤ daysInMonth s.year s.month
  hour : s.hour < 24
  minute : s.minute < 60
  second : s.second < 60
  micro : s.micro < 1000000

/-- Microseconds since the calendar's origin. -/
def microsOf (s : Stamp) : ℕ :=
  (((daysBeforeYear s.year + daysBeforeMonth s.year s.month + s.day) * 24 + s.hour) * 60 + s.minute) * 60000000
    + s.second * 1000000 + s.micro

end QM.Spec
