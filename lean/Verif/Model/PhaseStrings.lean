import Mathlib.Data.List.Basic

/-!
# Model of the choice of the components shown on the panels of the summary plots

`get_phase_component_strings` (util.py:672-748), which the pick summary (plot/phase_picks.py:132-134) and
the waveform gather of the event summary (plot/event.py:246-261) use to choose the traces of each panel
with `Stream.select(component=...)`.

Simplifications: `str.isnumeric` is a parameter `num` on characters; the glob of `Stream.select` on a
component is that of a bracketed list of characters without ranges and negation; component codes are
upper-case (`select` ignores the case).  Not modelled: the logged messages, the labels of the legend, and
everything else in the plots.
-/

namespace QM.PhaseStrings

/-- Text, as in util.py:708. -/
abbrev Str := List Char

/-- What the function raises: a missing phase in the dictionary (util.py:708-709). -/
inductive Err where
  | keyError
deriving DecidableEq, Repr

/-- `s.rstrip(c)` for one character (util.py:708-709, 744-746). -/
def rstrip (c : Char) (s : Str) : Str := (s.reverse.dropWhile (· == c)).reverse

/-- `s.strip(c)` for one character (util.py:708-709). -/
def strip (c : Char) (s : Str) : Str := rstrip c (s.dropWhile (· == c))

/-- `l[::2]` (util.py:708-709). -/
def everySecond : Str → Str
  | [] => []
  | [a] => [a]
  | a :: _ :: l => a :: everySecond l

/-- The components read from the pattern of one phase (util.py:708-709). -/
def components (s : Str) : Str := everySecond (strip ']' (strip '[' (strip '*' s)))

/-- `for c in comps: out += f"{c},"` (util.py:711-712). -/
def commas : Str → Str
  | [] => []
  | c :: l => c :: ',' :: commas l

/-- The two strings for S before the brackets are put on (util.py:713-742).  The pairs after the second,
and the components after the second of a single kind, are passed over. -/
def sStrings (num : Char → Bool) (s : Str) : Str × Str :=
  if !(s.filter fun c => !num c).isEmpty && !(s.filter num).isEmpty then
    (match ((s.filter fun c => !num c).zip (s.filter num))[0]? with
      | some (a, n) => [a, ',', n, ','] | none => [],
     match ((s.filter fun c => !num c).zip (s.filter num))[1]? with
      | some (a, n) => [a, ',', n, ','] | none => [])
  else
    (commas ((s.filter fun c => !num c).take 1) ++ commas ((s.filter num).take 1),
     commas (((s.filter fun c => !num c).drop 1).take 1) ++ commas (((s.filter num).drop 1).take 1))

/-- `f"[{s.rstrip(',')}]"` (util.py:744-746). -/
def bracket (s : Str) : Str := '[' :: rstrip ',' s ++ [']']

/-- `get_phase_component_strings`: the patterns of the P panel and of the two S panels; the dictionary of
channel maps is given as its look-up function (util.py:672-748). -/
def phaseStrings (num : Char → Bool) (maps : Char → Option Str) : Except Err (Str × Str × Str) :=
  match maps 'P' with
  | none => .error .keyError
  | some p =>
    match maps 'S' with
    | none => .error .keyError
    | some s =>
      .ok (bracket (commas (components p)),
        bracket (sStrings num (components s)).1, bracket (sStrings num (components s)).2)

/-- `select(component=pat)` for a bracketed pattern: `[` characters `]`; a pattern `[]` has an empty list,
which the glob takes literally, and matches no single character (plot/phase_picks.py:134,
plot/event.py:261). -/
def selects (pat : Str) (c : Char) : Bool :=
  match pat with
  | '[' :: rest => rest.dropLast.contains c
  | _ => false

/-- The components shown on a panel, of those at a station (plot/phase_picks.py:133-148,
plot/event.py:258-283). -/
def panel (pat : Str) (available : Str) : Str := available.filter (selects pat)

/-- What the three panels show of the components at a station (plot/phase_picks.py:132-148,
plot/event.py:246-283). -/
def panels (num : Char → Bool) (maps : Char → Option Str) (available : Str) :
    Except Err (Str × Str × Str) :=
  match phaseStrings num maps with
  | .error e => .error e
  | .ok (p, s1, s2) => .ok (panel p available, panel s1 available, panel s2 available)

/-- `waveforms.select(channel=pattern)` for the onset function: a pattern that is a single character or a
bracketed list after `*`, on the last character of the channel code (signal/onsets/stalta.py:391). -/
def used (pattern : Str) (available : Str) : Str :=
  match pattern with
  | ['*', c] => available.filter (· == c)
  | '*' :: pat => available.filter (selects pat)
  | _ => []

end QM.PhaseStrings
