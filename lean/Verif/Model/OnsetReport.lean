import Verif.Model.Reports
import Verif.Model.CalcOnsets

/-!
# The report of the settings of an onset object

`STALTAOnset.__str__` (signal/onsets/stalta.py:336-352), logged by detect and locate (signal/scan.py:344, 393).  `sh` is
the text Python prints for a number, of type `N`, and `val` its value.  Simplification: dictionaries are lists of their
entries in order of insertion, filters and windows have been given as lists, and names of phases have no quotes or
backslashes, which Python would print in another way.
-/

namespace QM.OnsetReport

open QM.Reports (unlines)
open QM.Compute (Str)

/-- The settings of a `STALTAOnset` (signal/onsets/stalta.py:299-335, signal/onsets/base.py:52-57): filters
[low, high, corners] and windows [STA, LTA] by phase, and the settings `hidden` that the report does not show. -/
structure Settings (N H : Type) where
  position : StaLta.Position
  rate : N
  phases : List Str
  filters : List (Str × N × N × N)
  windows : List (Str × N × N)
  hidden : H

/-- The settings that the report does not show (signal/onsets/stalta.py:306-328). -/
structure Hidden where
  chan : Str → Str → Bool
  count : Str → ℕ
  allChannels : Bool
  allowGaps : Bool
  fullTimespan : Bool
  transform : StaLta.Transform ℝ
  minOnset : ℝ

/-- The text of `position` (signal/onsets/stalta.py:306, 340). -/
def positionText : StaLta.Position → Str
  | .classic => "classic".toList
  | .centred => "centred".toList

/-- The rest of a printed list after an element: Python's `str` of a list (signal/onsets/stalta.py:342, 345, 348). -/
def listTail : List Str → Str
  | [] => [']']
  | a :: l => ',' :: ' ' :: (a ++ listTail l)

/-- Python's `str` of a list whose elements print as `l` (signal/onsets/stalta.py:342, 345, 348). -/
def listText : List Str → Str
  | [] => ['[', ']']
  | a :: l => '[' :: (a ++ listTail l)

/-- A name within a printed list (signal/onsets/stalta.py:342). -/
def quoted (s : Str) : Str := '\'' :: (s ++ ['\''])

/-- The line on the filter of a phase (signal/onsets/stalta.py:344-345). -/
def filterLine {N : Type} (sh : N → Str) (e : Str × N × N × N) : Str :=
  "\t\t".toList ++ (e.1 ++ (" bandpass filter  = ".toList ++ (listText [sh e.2.1, sh e.2.2.1, sh e.2.2.2] ++
    " (Hz, Hz, -)".toList)))

/-- The line on the windows of a phase (signal/onsets/stalta.py:347-348). -/
def windowLine {N : Type} (sh : N → Str) (e : Str × N × N) : Str :=
  "\t\t".toList ++ (e.1 ++ (" onset [STA, LTA] = ".toList ++ (listText [sh e.2.1, sh e.2.2] ++ " (s, s)".toList)))

/-- `STALTAOnset.__str__` (signal/onsets/stalta.py:336-352). -/
def onsetReport {N H : Type} (sh : N → Str) (s : Settings N H) : Str :=
  unlines (["\tOnset parameters - using the ".toList ++ (positionText s.position ++ " STA/LTA onset".toList),
      "\t\tOnset function sampling rate = ".toList ++ (sh s.rate ++ " Hz".toList),
      "\t\tPhase(s) = ".toList ++ listText (s.phases.map quoted), []] ++ s.filters.map (filterLine sh) ++ [[]] ++
    s.windows.map (windowLine sh))

/-- `bandpass_filters[phase]`, `sta_lta_windows[phase]` (signal/onsets/stalta.py:394, 406). -/
def entry {α : Type} (l : List (Str × α)) (phase : Str) : Option α := (l.find? fun e => e.1 = phase).map Prod.snd

/-- The number of corners of the filter of a phase (signal/onsets/stalta.py:206-211, 406). -/
def corners {N H : Type} (val : N → ℚ) (s : Settings N H) (phase : Str) : ℚ :=
  ((entry s.filters phase).map fun f => val f.2.2).getD 0

/-- What `calculate_onsets` uses of the settings (signal/onsets/stalta.py:383-466, 516-548).  Simplification: a phase
without filter or windows, a KeyError, has zeros. -/
def cfg {N : Type} (val : N → ℚ) (s : Settings N Hidden) : CalcOnsets.Cfg where
  phases := s.phases
  chan := s.hidden.chan
  count := s.hidden.count
  sta := fun p => ((entry s.windows p).map fun w => val w.1).getD 0
  lta := fun p => ((entry s.windows p).map fun w => val w.2).getD 0
  low := fun p => ((entry s.filters p).map fun f => val f.1).getD 0
  high := fun p => ((entry s.filters p).map fun f => val f.2.1).getD 0
  sr := val s.rate
  allChannels := s.hidden.allChannels
  allowGaps := s.hidden.allowGaps
  fullTimespan := s.hidden.fullTimespan
  transform := s.hidden.transform
  pos := s.position
  minOnset := s.hidden.minOnset

end QM.OnsetReport
