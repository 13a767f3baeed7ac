import Mathlib.Data.Rat.Floor
import Mathlib.Tactic.Linarith
import Mathlib.Tactic.Ring
import Mathlib.Tactic.NormNum
import Mathlib.Data.List.Sort
import Mathlib.Data.List.Dedup

/-!
# Python / numpy / pandas primitives used by the model

These are models of library behaviour, not of QuakeMigrate code.  Floats are
idealised as rationals.
-/

namespace QM

/-- Python `round(x)` / `numpy.round` / `numpy.rint` of a float to an integer:
round half to even. -/
def pyRound (q : ℚ) : ℤ :=
  if q - ⌊q⌋ < 1 / 2 then ⌊q⌋
  else if 1 / 2 < q - ⌊q⌋ then ⌊q⌋ + 1
  else if ⌊q⌋ % 2 = 0 then ⌊q⌋ else ⌊q⌋ + 1

/-- Python `int(x)` of a float: truncation towards zero. -/
def pyInt (q : ℚ) : ℤ := if 0 ≤ q then ⌊q⌋ else ⌈q⌉

/-- numpy's integer remainder `a % b` for arrays: floored, and `0` (with a
RuntimeWarning, not an exception) when `b = 0`. -/
def npMod (a b : ℤ) : ℤ := if b = 0 then 0 else a.fmod b

/-- Position and value of the first maximum of `key` in a list (`pandas`
`idxmax`, `numpy.argmax`): scan from the left and replace on a strictly larger
value.  `none` on an empty list (where the library raises). -/
def firstMaxBy {α : Type} (key : α → ℚ) : List α → Option α
  | [] => none
  | a :: l => some (l.foldl (fun best b => if key best < key b then b else best) a)

/-- pandas `groupby(key)`: one group per distinct key value, the groups sorted
by key, each group keeping the rows in order. -/
def pdGroupBy {α : Type} (key : α → ℤ) (l : List α) : List (List α) :=
  (((l.map key).dedup).insertionSort (· ≤ ·)).map
    (fun k => l.filter (fun a => key a = k))

/-- `numpy.split(l, breaks)`: the pieces between consecutive break indices
(breaks ascending). `off` is the index of the head of `l` in the array. -/
def npSplitFrom {α : Type} (off : ℕ) (l : List α) : List ℕ → List (List α)
  | [] => [l]
  | b :: bs => l.take (b - off) :: npSplitFrom b (l.drop (b - off)) bs

def npSplit {α : Type} (l : List α) (breaks : List ℕ) : List (List α) :=
  npSplitFrom 0 l breaks

/-- `numpy.median` of a non-empty list: mean of the two middle order statistics
(`0` on the empty list, where numpy gives NaN; never used there). -/
def npMedian (l : List ℚ) : ℚ :=
  let s := l.insertionSort (· ≤ ·)
  ((s[(l.length - 1) / 2]?).getD 0 + (s[l.length / 2]?).getD 0) / 2

/-- Seconds in a day. -/
def DAY : ℚ := 86400

/-- `UTCDateTime(t.date)`: the midnight at or before `t` (times are seconds since
some midnight). -/
def dayStart (t : ℚ) : ℚ := DAY * ⌊t / DAY⌋

/-- `t.time == time(0, 0)`. -/
def isMidnight (t : ℚ) : Prop := dayStart t = t

instance (t : ℚ) : Decidable (isMidnight t) := by unfold isMidnight; infer_instance

end QM
