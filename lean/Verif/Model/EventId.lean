import Verif.Py

/-!
# Model of the EventID string (`signal/trigger.py:623-628`)

`str(UTCDateTime)` is obspy's fixed format `YYYY-MM-DDTHH:MM:SS.ffffffZ`.
-/

namespace QM.EventId

/-- Calendar fields of a `UTCDateTime` (microsecond precision, obspy default).  Models
signal/trigger.py:624. -/
structure Stamp where
  year : ℕ
  month : ℕ
  day : ℕ
  hour : ℕ
  minute : ℕ
  second : ℕ
  micro : ℕ
deriving Repr, DecidableEq

/-- Decimal digit character.  Stands for formatting of signal/trigger.py:624. -/
def digit (n : ℕ) : Char := Char.ofNat (48 + n % 10)

/-- `%0wd` formatting of a number below `10^w`.  Stands for formatting of signal/trigger.py:624. -/
def padDigits : ℕ → ℕ → List Char
  | 0, _ => []
  | w + 1, n => padDigits w (n / 10) ++ [digit n]

/-- `str(UTCDateTime)`.  Models `str(UTCDateTime)`, used at signal/trigger.py:624. -/
def str (s : Stamp) : List Char :=
  padDigits 4 s.year ++ ['-'] ++ padDigits 2 s.month ++ ['-'] ++ padDigits 2 s.day ++ ['T'] ++
  padDigits 2 s.hour ++ [':'] ++ padDigits 2 s.minute ++ [':'] ++ padDigits 2 s.second ++ ['.'] ++
  padDigits 6 s.micro ++ ['Z']

/-- signal/trigger.py:624-628: drop the separators, keep 17 characters, pad with zeros. -/
def eventId (s : Stamp) : List Char :=
  let uid := ['-', ':', '.', ' ', 'Z', 'T'].foldl (fun l c => l.filter (fun x => x ≠ c)) (str s)
  let cut := uid.take 17
  cut ++ List.replicate (17 - cut.length) '0'

end QM.EventId
