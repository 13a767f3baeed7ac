import Verif.Model.SummaryPlots
import Verif.Model.PickPlot

/-!
# Model of the exceptions of the event summary: `event_summary` (plot/event.py:24-183)

Represented: the list of stations, the traveltimes asked of the lookup table, the norms of the waveforms, and what an
exception means for the run.  Not modelled: exceptions of matplotlib, of the files with lines to draw (`xy_files`) and of
an empty stream; the shapes of the panels are in MapPlot.lean.
-/

namespace QM.EventSummary

open QM.Availability (Str splitUnderscore)

/-- What leaves `event_summary` (plot/event.py:87-101, 215-276). -/
inductive Err where
  | valueError
  | keyError
deriving DecidableEq, Repr

/-- `station_list` (plot/event.py:87-98): the stations of the archive, or those of the keys of the availability that are 1;
`station, _ = key.split("_")` needs exactly two parts.  A set, in any order. -/
def stationList (plotAll : Bool) (stations : List Str) (avail : List (Str × ℤ)) : Except Err (List Str) :=
  if plotAll then .ok stations
  else if avail.all fun ka => decide ((splitUnderscore ka.1).length = 2) then
    .ok ((avail.filter fun ka => decide (ka.2 = 1)).map fun ka => (splitUnderscore ka.1).headD []).dedup
  else .error .valueError

/-- `lut.traveltime_to(phase, idx_max, stations)` for all phases (plot/event.py:215-218; lut/lut.py:540-603): `lut s p` is
the traveltime at the node, `none` = KeyError; stacking nothing is a ValueError. -/
def traveltimes (lut : Str → Str → Option ℚ) (phases stations : List Str) : Except Err (List (List ℚ)) :=
  if stations = [] then .error .valueError
  else phases.mapM fun p => stations.mapM fun s =>
    match lut s p with
    | some t => .ok t
    | none => .error .keyError

/-- `max(traveltimes[:, i])` (plot/event.py:269).  Traveltimes are taken not to be negative. -/
def maxTT (lut : Str → Str → Option ℚ) (phases : List Str) (s : Str) : ℚ :=
  (phases.filterMap fun p => lut s p).foldl max 0

/-- Can the norm of a waveform be computed?  (plot/event.py:253-254, 269-270). -/
def normOk (start sr otime : ℚ) (n : ℕ) (tt : ℚ) (data : List ℚ) : Bool :=
  match PickPlot.nearest start sr n (otime - 1 / 10), PickPlot.nearest start sr n (otime + 3 / 2 * tt) with
  | some a, some b => (SummaryPlots.gatherNorm data a b).isSome
  | _, _ => false

/-- `event_summary` (plot/event.py:24-183).  `n` is the number of samples of the first waveform, `traces` are the
waveforms of the components shown, with their stations. -/
def eventSummary (plotAll : Bool) (stations : List Str) (avail : List (Str × ℤ)) (lut : Str → Str → Option ℚ)
    (phases : List Str) (traces : List (Str × List ℚ)) (start sr otime : ℚ) (n : ℕ) : Except Err Unit :=
  match stationList plotAll stations avail with
  | .error e => .error e
  | .ok sts =>
    match traveltimes lut phases sts with
    | .error e => .error e
    | .ok _ =>
      if (traces.filter fun t => decide (t.1 ∈ sts)).all fun t => normOk start sr otime n (maxTT lut phases t.1) t.2 then
        .ok ()
      else .error .valueError

/-- What the summary means for the event (signal/scan.py:546-556): it is made after the event file is written. -/
def later (r : Except Err Unit) : Locate.Later :=
  match r with
  | .ok _ => .fine
  | .error _ => .raisesAfterWrite

end QM.EventSummary
