import Mathlib.Data.List.Basic

/-!
# Model of the time labels of the figures

`util.DateFormatter` (util.py:210-243) with the format of the figures (plot/event.py:283, 314; plot/trigger.py:294, 321).
A time is the number of microseconds since midnight, what `num2date` gives; the illegal date 0 is not modelled.
-/

namespace QM.TimeLabel

/-- A decimal digit.  Stands for `strftime`, util.py:241-243. -/
def digit (n : ℕ) : Char := Nat.digitChar (n % 10)

/-- `%H`, `%M` and `%S`: two digits (util.py:243). -/
def two (n : ℕ) : List Char := [digit (n / 10), digit n]

/-- `%f`: six digits (util.py:241). -/
def six (n : ℕ) : List Char :=
  [digit (n / 100000), digit (n / 10000), digit (n / 1000), digit (n / 100), digit (n / 10), digit n]

/-- `DateFormatter("%H:%M:%S.{ms}", precision)(x)` (util.py:234-243). -/
def label (precision t : ℕ) : List Char :=
  let sec := t / 1000000
  let ms := (six (t % 1000000)).take precision
  two (sec / 3600) ++ [':'] ++ two (sec / 60 % 60) ++ [':'] ++ two (sec % 60) ++ ['.'] ++ ms

end QM.TimeLabel
