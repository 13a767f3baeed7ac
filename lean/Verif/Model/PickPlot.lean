import Verif.Model.Picker
import Verif.Model.Locate

/-!
# Model of the pick figure: `quakemigrate/plot/phase_picks.py` and `GaussianPicker.plot`

Represented: which samples, windows, arrivals and picks go on which of the five axes (0: P data, 1 and 2: S data, 3: P
onset, 4: S onset), the horizontal limits, and the exceptions of indexing and of `max`.  Not modelled: text, colours,
legend, vertical limits other than the `max` in them, values that are not finite, which components go on which axis
(Components.lean).
-/

namespace QM.PickPlot

open QM.Picker

/-- What leaves `pick_summary` (plot/phase_picks.py:98-299): an index out of range, `max` or `argmin` of nothing. -/
inductive Err where
  | indexError
  | valueError
deriving DecidableEq, Repr

/-- One phase of the station: its name, onset function, modelled traveltime and pick window
(signal/pickers/gaussian.py:236-241, 593-608). -/
structure Phase where
  name : Str
  onset : List ℚ
  tt : ℚ
  win : Win

/-- A row of the station's picks: phase, and time and error if a pick was made (plot/phase_picks.py:261-271). -/
structure PickRow where
  phase : Str
  pick : Option (ℚ × ℚ)

/-- What is drawn on one of the axes: the phase whose arrival and window are shown, the modelled arrival, the first and
last time of the window, and the lines of the picks (plot/phase_picks.py:239-271, 317-321). -/
structure Panel where
  axis : ℕ
  phase : Str
  arrival : ℚ
  span : ℚ × ℚ
  picks : List (Str × ℚ)

/-- The figure: limits, the axes with onset functions, the panels (plot/phase_picks.py:68-299). -/
structure Figure where
  xlim : ℚ × ℚ
  onsets : List (ℕ × Str)
  panels : List Panel

/-- Time of sample `i` (plot/phase_picks.py:99-100). -/
def timeOf (start sr : ℚ) (i : ℤ) : ℚ := start + i / sr

/-- `dtimes[i]` (plot/phase_picks.py:255): negative numbers count from the end. -/
def at_ (start sr : ℚ) (n : ℕ) (i : ℤ) : Except Err ℚ :=
  if 0 ≤ i ∧ i < n then .ok (timeOf start sr i)
  else if i < 0 ∧ 0 ≤ i + n then .ok (timeOf start sr (i + n))
  else .error .indexError

/-- `np.argmin([abs(t - x) for t in times])` (plot/phase_picks.py:109-110). -/
def nearest (start sr : ℚ) (n : ℕ) (x : ℚ) : Option ℕ :=
  firstMaxBy (fun i : ℕ => -|timeOf start sr i - x|) (List.range n)

/-- `min_idx` and `max_idx` (plot/phase_picks.py:106-129). -/
def limits (n : ℕ) (tLo tHi : ℕ) (lo hi : ℤ) : ℤ × ℤ :=
  let a := min (tLo : ℤ) (lo - 10)
  let b := max (tHi : ℤ) (hi + 10)
  (if a < 0 then 0 else a, if b ≥ n then n - 1 else b)

/-- The axes with arrivals, windows and picks (plot/phase_picks.py:228-237). -/
def axisList (phases : List Phase) : List ℕ :=
  match phases with
  | [p] => if p.name = ['P'] then [0, 3] else [1, 2, 4]
  | _ => [0, 1, 2, 3, 4]

/-- The axes with onset functions and their phases (plot/phase_picks.py:170-176). -/
def onsetAxes (phases : List Phase) : List (ℕ × Phase) :=
  match phases with
  | [p] => if p.name = ['S'] then [(4, p)] else [(3, p)]
  | _ => [3, 4].zip phases

/-- `max(...)` of a sequence (plot/phase_picks.py:166, 223). -/
def maxOf (l : List ℚ) : Except Err Unit := if l = [] then .error .valueError else .ok ()

/-- Stop at the first exception (plot/phase_picks.py:132-258, the order of statements). -/
def allOk : List (Except Err Unit) → Except Err Unit
  | [] => .ok ()
  | .ok _ :: l => allOk l
  | .error e :: _ => .error e

/-- One panel (plot/phase_picks.py:239-271). -/
def panel (start sr otime : ℚ) (n : ℕ) (first last : Phase) (picks : List PickRow) (axis : ℕ) : Except Err Panel :=
  let p := if axis % 3 = 0 then first else last
  match at_ start sr n p.win.lo, at_ start sr n p.win.hi with
  | .ok a, .ok b =>
    .ok ⟨axis, p.name, otime + p.tt, (a, b), picks.filterMap fun r => r.pick.map fun q => (r.phase, q.1)⟩
  | .error e, _ => .error e
  | _, .error e => .error e

/-- `pick_summary` (plot/phase_picks.py:21-299).  `n` is the number of samples of the first waveform of the station,
`traces` the last waveform drawn on each of the axes for data that has one. -/
def pickSummary (start sr otime : ℚ) (n : ℕ) (phases : List Phase) (traces : List (List ℚ)) (picks : List PickRow) :
    Except Err Figure :=
  match phases.head?, phases.getLast?, (phases.map fun p => p.win.lo).min?, (phases.map fun p => p.win.hi).max? with
  | some first, some last, some lo, some hi =>
    match nearest start sr n (otime + 1 / 2 * first.tt), nearest start sr n (otime + 3 / 2 * last.tt) with
    | some tLo, some tHi =>
      match allOk (traces.map fun y => maxOf (pySlice y (lo - 10) (hi + 10 + 1))) with
      | .error e => .error e
      | .ok _ =>
        match allOk ((onsetAxes phases).map fun o => maxOf (pySlice o.2.onset o.2.win.lo (o.2.win.hi + 1))) with
        | .error e => .error e
        | .ok _ =>
          match (axisList phases).mapM (panel start sr otime n first last picks) with
          | .error e => .error e
          | .ok ps =>
            .ok
              { xlim := (timeOf start sr (limits n tLo tHi lo hi).1, timeOf start sr (limits n tLo tHi lo hi).2)
                onsets := (onsetAxes phases).map fun o => (o.1, o.2.name)
                panels := ps }
    | _, _ => .error .valueError
  | _, _, _, _ => .error .valueError

/-- What the figures of an event mean for it (signal/pickers/gaussian.py:234-241, signal/scan.py:539-546): an exception
in one of them leaves `locate` before the event file is written. -/
def later (figures : List (Except Err Figure)) : Locate.Later :=
  if figures.all fun f => match f with | .ok _ => true | .error _ => false then .fine else .raisesBeforeWrite

end QM.PickPlot
