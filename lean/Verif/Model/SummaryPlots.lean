import Verif.Model.Availability
import Verif.Model.EventFile

/-!
# Model of the numbers shown in the summary figures: `plot/trigger.py` (station availability panel
and station list) and `plot/event.py` (rows of the waveform gather, text of the location)

Modelled is the data passed to matplotlib, not how it is drawn.  Colours, limits and legends are left
out.
-/

namespace QM.SummaryPlots

open QM.Availability (Str Table splitUnderscore)

/-- Raised while the panel is made (plot/trigger.py:234, 252-253, 282). -/
inductive Err where
  | indexError
  | shapeMismatch
deriving DecidableEq, Repr

/-- One line of the panel: its label and the points passed to `ax.step` (plot/trigger.py:285). -/
structure Curve where
  label : Str
  points : List (ℚ × ℤ)
deriving DecidableEq, Repr

/-- `col_name.split("_")[1]` (plot/trigger.py:234); `none` = IndexError. -/
def phaseOf (c : Str) : Option Str := (splitUnderscore c)[1]?

/-- `sorted(set(...))` (plot/trigger.py:234). -/
def phasesOf (cols : List Str) : Option (List Str) :=
  (cols.mapM phaseOf).map fun l => l.dedup.insertionSort (· ≤ ·)

/-- Does `filter(like="_<phase>")` keep the column?  (plot/trigger.py:252-253). -/
def like (p c : Str) : Bool := decide (('_' :: p) <:+: c)

/-- Does `filter(regex="_<phase>$")` keep the column?  `_*$` matches every name.  Phase names are taken
to have no character that is special in a regular expression, and not to be `*`
(plot/trigger.py:269). -/
def ends (p c : Str) : Bool := if p = ['*'] then true else decide (('_' :: p) <:+ c)

/-- The values of a row in the columns kept (plot/trigger.py:252-253, 269). -/
def pick (keep : Str → Bool) (cols : List Str) (vals : List (Option ℤ)) : List (Option ℤ) :=
  ((cols.zip vals).filter fun cv => keep cv.1).map Prod.snd

/-- Equality of two cells; a missing value (NaN) equals nothing (plot/trigger.py:252-253). -/
def eqCell : Option ℤ → Option ℤ → Bool
  | some a, some b => decide (a = b)
  | _, _ => false

/-- Equality of rows with broadcasting of a single column (plot/trigger.py:252-253); `none` = the
shapes do not match, which NumPy reports by an exception. -/
def eqRow (a b : List (Option ℤ)) : Option Bool :=
  if a.length = b.length then some ((a.zip b).all fun x => eqCell x.1 x.2)
  else match a, b with
    | [x], b => some (b.all fun y => eqCell x y)
    | a, [y] => some (a.all fun x => eqCell x y)
    | _, _ => none

/-- `(....values == ....values).all()` (plot/trigger.py:251-254). -/
def identical (t : Table) (p q : Str) : Option Bool :=
  (t.rows.mapM fun r => eqRow (pick (like p) t.cols r.2) (pick (like q) t.cols r.2)).map
    fun l => l.all id

/-- `ph_availability.sum(axis=1).astype(int)`; missing values are skipped (plot/trigger.py:271). -/
def total (keep : Str → Bool) (cols : List Str) (vals : List (Option ℤ)) : ℤ :=
  ((pick keep cols vals).map fun v => v.getD 0).sum

/-- The loop over phases (plot/trigger.py:268-285).  `divideby` is used for the label `*` only;
division and `astype(int)` truncate. -/
def curve (t : Table) (endtime : ℚ) (divideby : ℤ) (phase : Str) : Except Err Curve :=
  let points := t.rows.map fun r =>
    (r.1, if phase = ['*'] then (total (ends phase) t.cols r.2).tdiv divideby
      else total (ends phase) t.cols r.2)
  match points.getLast? with
  | none => .error .indexError
  | some p => .ok ⟨phase, points ++ [(endtime, p.2)]⟩

/-- `_plot_station_availability` (plot/trigger.py:234-288). -/
def panel (t : Table) (endtime : ℚ) : Except Err (List Curve) :=
  match phasesOf t.cols with
  | none => .error .indexError
  | some phases =>
    if 2 < phases.length then
      -- `phases` is replaced before its length is taken (lines 243-245)
      [['*']].mapM (curve t endtime ([['*']] : List Str).length)
    else
      match phases with
      | [p] => [p].mapM (curve t endtime 1)
      | [p, q] =>
        match identical t p q with
        | none => .error .shapeMismatch
        | some true => [['*']].mapM (curve t endtime [p, q].length)
        | some false => [p, q].mapM (curve t endtime 1)
      | _ => .error .indexError

/-- The stations passed to `lut.plot`: `list(set(...))`, in any order (plot/trigger.py:127-137). -/
def stationList (plotAll : Bool) (t : Table) : List Str :=
  if plotAll then (t.cols.map fun c => (splitUnderscore c).headD []).dedup
  else ((t.cols.zipIdx.filter fun ci => t.rows.any fun r => decide (r.2[ci.2]? = some (some 1))).map
    fun ci => (splitUnderscore ci.1).headD []).dedup

/-- `range_order` (plot/event.py:221) of a station, given its place among the sorted arrivals,
`np.argsort(np.argsort(arrivals[0]))`. -/
def gatherRow (n place : ℕ) : ℤ := |(place : ℤ) - n| * 2

/-- One sample of a waveform as drawn: normalised and shifted to its row (plot/event.py:276). -/
def drawn (row : ℤ) (norm sample : ℚ) : ℚ := sample / norm + row

/-- The norm of a trace: the largest absolute value of the samples from `mint` to one and a half times
the largest traveltime (plot/event.py:269-270); `none` = ValueError (no samples). -/
def gatherNorm (data : List ℚ) (mint maxt : ℕ) : Option ℚ :=
  ((data.take maxt).drop mint).foldl
    (fun m x => match m with
      | none => some |x|
      | some y => some (if y < |x| then |x| else y)) none

/-- `km_cf`: grid units per kilometre (plot/event.py:337).  The unit conversion factor is the length
of a grid unit in metres. -/
def kmCf (km : Bool) : ℚ := 1000 / (if km then 1000 else 1)

/-- The depth shown, in km (plot/event.py:339-342, 347): rounded in grid units, then
converted. -/
def shownDepth (l : EventFile.Lut) (z : ℚ) : ℚ :=
  EventFile.roundTo (EventFile.decimalsZ l.km (EventFile.precision l.sz)) z / kmCf l.km

/-- A location uncertainty shown, in km (plot/event.py:340, 343-347): converted, then rounded. -/
def shownUncertainty (l : EventFile.Lut) (err : ℚ) : ℚ :=
  EventFile.roundTo (EventFile.decimalsZ l.km (EventFile.precision l.sz)) (err / kmCf l.km)

/-- The longitude or latitude shown; `spacing` is that of the axis (plot/event.py:338, 342,
345-346). -/
def shownCoordinate (spacing x : ℚ) : ℚ :=
  EventFile.roundTo (EventFile.decimalsXY (EventFile.precision spacing)) x

end QM.SummaryPlots
