import Verif.Model.Picker

/-!
# Model of the settings of `GaussianPicker` objects

The constructor (signal/pickers/gaussian.py:69-99), attributes assigned afterwards, the handlers of the
old names `fraction_tt` and `pick_threshold` (signal/pickers/gaussian.py:614-637), and what `pick_phases`
makes of the settings (signal/pickers/gaussian.py:146-149, 189-191, 348-355).

Simplifications: the values of the settings are numbers (not `None`, except `fraction_tt`); rationals, not
floating-point numbers.  Not modelled: `plot_picks`, `write_seed_ids`.
-/

namespace QM.PickerSettings

/-- Text, as in signal/pickers/gaussian.py:76. -/
abbrev Str := List Char

/-- What constructing, assigning or picking raises (signal/pickers/gaussian.py:84, 348-357, 633). -/
inductive Err where
  | invalidMethod    -- `InvalidPickThresholdMethodException`
  | attributeError
  | unboundLocal
  | valueError       -- `np.percentile` outside [0, 100]
  | picking (e : Picker.Err)
deriving DecidableEq, Repr

/-- The keyword arguments; `none` = not given (signal/pickers/gaussian.py:76-99). -/
structure Args where
  method : Option Str := none
  percentile : Option ℚ := none
  mad : Option ℚ := none
  pickThreshold : Option ℚ := none
  fraction : Option ℚ := none

/-- The attributes of the object; `percentile` and `mad` are `none` if the object has no such attribute
(signal/pickers/gaussian.py:76-99). -/
structure Settings where
  method : Str
  percentile : Option ℚ
  mad : Option ℚ
  fraction : Option ℚ
deriving DecidableEq, Repr

/-- The constructor, up to line 84: the method and its threshold (signal/pickers/gaussian.py:76-84, 99). -/
def readMethod (a : Args) : Except Err Settings :=
  if a.method.getD "MAD".toList = "percentile".toList then
    .ok ⟨"percentile".toList, some (a.percentile.getD 1), none, a.fraction⟩
  else if a.method.getD "MAD".toList = "MAD".toList then
    .ok ⟨"MAD".toList, none, some (a.mad.getD 8), a.fraction⟩
  else .error .invalidMethod

/-- The constructor: `if kwargs.get("pick_threshold")` is false for 0 (signal/pickers/gaussian.py:69-99). -/
def construct (a : Args) : Except Err Settings :=
  match readMethod a with
  | .error e => .error e
  | .ok s =>
    match a.pickThreshold with
    | none => .ok s
    | some v => if v = 0 then .ok s else .error .attributeError

/-- An assignment `picker.name = value` (signal/pickers/gaussian.py:76-82, 619-637). -/
inductive Assign where
  | method (m : Str)
  | percentile (p : ℚ)
  | mad (k : ℚ)
  | fraction (f : Option ℚ)
  | pickThreshold (v : ℚ)
deriving DecidableEq, Repr

/-- One assignment; only `pick_threshold` is refused (signal/pickers/gaussian.py:619-637). -/
def assign (s : Settings) : Assign → Except Err Settings
  | .method m => .ok { s with method := m }
  | .percentile p => .ok { s with percentile := some p }
  | .mad k => .ok { s with mad := some k }
  | .fraction f => .ok { s with fraction := f }
  | .pickThreshold _ => .error .attributeError

/-- The assignments of a script, in order (signal/pickers/gaussian.py:619-637). -/
def assignAll (s : Settings) : List Assign → Except Err Settings
  | [] => .ok s
  | x :: xs =>
    match assign s x with
    | .error e => .error e
    | .ok s' => assignAll s' xs

/-- Which threshold `_find_pick_threshold` computes (signal/pickers/gaussian.py:348-357); `pct q l` stands
for `np.percentile(l, 100 * q)`. -/
def methodOf (pct : ℚ → List ℚ → Option ℚ) (s : Settings) : Except Err Picker.Method :=
  if s.method = "percentile".toList then
    match s.percentile with
    | none => .error .attributeError
    | some p => if 0 ≤ p ∧ p ≤ 1 then .ok (.percentile (pct p)) else .error .valueError
  else if s.method = "MAD".toList then
    match s.mad with
    | none => .error .attributeError
    | some k => .ok (.mad k)
  else .error .unboundLocal

/-- What `pick_phases` takes from elsewhere: the event, the lookup table, scipy
(signal/pickers/gaussian.py:140-151). -/
structure Env where
  otime : ℚ
  starttime : ℚ
  sr : ℚ
  mw : ℚ
  lutFraction : ℚ
  traveltime : Str → Str → ℚ
  fit : Str → Str → List ℚ → List ℚ → ℚ → Picker.Fit

/-- `pick_phases` of an object with these settings (signal/pickers/gaussian.py:140-228).  A station
without onsets fails before the threshold is computed. -/
def pickPhases (pct : ℚ → List ℚ → Option ℚ) (s : Settings) (v : Env)
    (onsets : List (Str × List (Str × List ℚ))) : Except Err (List Picker.Row) :=
  match methodOf pct s with
  | .ok m =>
    (Picker.pickPhases ⟨v.otime, v.starttime, v.sr, v.mw, s.fraction.getD v.lutFraction, m,
      v.traveltime, v.fit⟩ onsets).mapError .picking
  | .error e =>
    match onsets with
    | [] => .ok []
    | st :: _ => if st.2 = [] then .error (.picking .keyError) else .error e

end QM.PickerSettings
