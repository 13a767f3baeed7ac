import Verif.Model.Magnitude
import Verif.Model.Locate

/-!
# Model of the amplitude figure: `plot_amplitudes` of `quakemigrate/signal/local_mag/magnitude.py`,
`quakemigrate/plot/amplitudes.py`, and the call of it in `LocalMag.calc_magnitude`

What is drawn is represented by the numbers passed to matplotlib.  Not modelled: fonts, colours, legend, titles, the
file itself, and infinite values.
-/

namespace QM.AmplitudePlot

open QM.Magnitude

/-- A text passed to `ax.annotate`: `stn[c1,c2,...]` and where it stands (plot/amplitudes.py:214-233). -/
structure Label (α β : Type) where
  stn : Str
  comps : Str
  dist : Option β
  amp : Option α
deriving DecidableEq

/-- One observation as passed to `label_stations`: trace id, amplitude, distance (plot/amplitudes.py:113-120). -/
structure Mark (α β : Type) where
  id : Str
  amp : α
  dist : β
deriving DecidableEq

/-- The local variables of `label_stations` (plot/amplitudes.py:204-206), and the labels drawn so far.  `stn` is empty
before the first observation (`None` in the code). -/
structure State (α β : Type) where
  stn : Str
  start : ℕ
  comps : Str
  stns : List Str
  labels : List (Label α β)

variable {α β : Type} [LinearOrder α]

/-- One pass of the loop of `label_stations` (plot/amplitudes.py:207-282): observation `i` of `all`. -/
def labelStep (all : List (Mark α β)) (i : ℕ) (m : Mark α β) (s : State α β) : State α β :=
  if s.stn = [] then
    { s with stn := m.id.dropLast, start := 0, comps := s.comps ++ m.id.getLast?.toList }
  else if m.id.dropLast ≠ s.stn then
    if i = all.length - 1 then
      { stn := m.id.dropLast
        start := i
        comps := m.id.getLast?.toList
        stns := s.stns ++ [s.stn]
        labels := s.labels ++
          [⟨s.stn, s.comps, (all[i - 1]?).map Mark.dist, (((all.take i).drop s.start).map Mark.amp).max?⟩,
           ⟨m.id.dropLast, m.id.getLast?.toList, (all[i]?).map Mark.dist, ((all.drop i).map Mark.amp).max?⟩] }
    else
      { stn := m.id.dropLast
        start := i
        comps := m.id.getLast?.toList
        stns := s.stns ++ [s.stn]
        labels := s.labels ++
          [⟨s.stn, s.comps, (all[i - 1]?).map Mark.dist, (((all.take i).drop s.start).map Mark.amp).max?⟩] }
  else if i = all.length - 1 then
    { s with
      comps := s.comps ++ m.id.getLast?.toList
      stns := s.stns ++ [s.stn]
      labels := s.labels ++
        [⟨s.stn, s.comps ++ m.id.getLast?.toList, (all[i]?).map Mark.dist, ((all.drop s.start).map Mark.amp).max?⟩] }
  else { s with comps := s.comps ++ m.id.getLast?.toList }

/-- `for i, tr_id in enumerate(tr_ids)` from observation `i` on (plot/amplitudes.py:207). -/
def labelLoop (all : List (Mark α β)) : ℕ → List (Mark α β) → State α β → State α β
  | _, [], s => s
  | i, m :: ms, s => labelLoop all (i + 1) ms (labelStep all i m s)

/-- `label_stations` (plot/amplitudes.py:177-284): the labels drawn and the stations returned. -/
def labelStations (ms : List (Mark α β)) : List (Label α β) × List Str :=
  let s := labelLoop ms 0 ms ⟨[], 0, [], [], []⟩
  (s.labels, s.stns)

/-- All labels of the figure, black and grey (plot/amplitudes.py:113-120, 140-160): the used observations, then the
rejected ones of stations that `label_stations` did not return. -/
def allLabels (used rejected : List (Mark α β)) : List (Label α β) × List (Label α β) :=
  ((labelStations used).1,
    if rejected = [] then []
    else (labelStations (rejected.filter fun m => decide (m.id.dropLast ∉ (labelStations used).2))).1)

/-- `magnitudes["Dist"]` (magnitude.py:787-789, 496). -/
noncomputable def distOf (c : Cfg) (r : Row) : Option ℝ := nonZero (rawDist c r.obs)

/-- The noise amplitude drawn (magnitude.py:490-494, plot/amplitudes.py:73-77). -/
noncomputable def noiseShown (c : Cfg) (r : Row) : ℝ :=
  r.obs.noise.getD 0 * c.mult * (10 : ℝ) ^ correction c r.obs.id

/-- The signal amplitude drawn (magnitude.py:485-489, plot/amplitudes.py:101-105, 127-131). -/
noncomputable def ampShown (c : Cfg) (r : Row) : ℝ :=
  r.obs.amp.getD 0 * c.mult * (10 : ℝ) ^ correction c r.obs.id

/-- `predicted_amp` for a magnitude at a distance (magnitude.py:518-525). -/
noncomputable def predicted (c : Cfg) (mag d : ℝ) : ℝ := (10 : ℝ) ^ (mag - c.A0 d)

/-- `np.linspace(dist_min, dist_max, 10000)` (magnitude.py:519). -/
noncomputable def distances (lo hi : ℝ) : List ℝ :=
  (List.range 10000).map fun i : ℕ => lo + (i : ℝ) * ((hi - lo) / 9999)

/-- `dist_err` (magnitude.py:473-483): from the uncertainties in grid units and `km_cf`. -/
noncomputable def distErr (useHyp : Bool) (x y z kmCf : ℝ) : ℝ :=
  let epi := √((x / kmCf) ^ 2 + (y / kmCf) ^ 2)
  if useHyp then √(epi ^ 2 + (z / kmCf) ^ 2) else epi

/-- A cross with its error bars (plot/amplitudes.py:100-111, 127-138). -/
structure Point where
  id : Str
  dist : Option ℝ
  amp : ℝ
  xerr : ℝ
  yerr : ℝ
  used : Bool

/-- The figure: crosses, labels, the magnitudes of the full and of the dashed curves (not drawn if not finite), the
distances at which the curves are drawn, and the limits of the axes.  Models
signal/local_mag/magnitude.py:498-549. -/
structure Figure where
  points : List Point
  labels : List (Label ℝ (Option ℝ)) × List (Label ℝ (Option ℝ))
  mag : ℝ
  band : Option (ℝ × ℝ)
  at_ : List ℝ
  xlim : ℝ × ℝ
  ylim : ℝ × ℝ

/-- What leaves `calc_magnitude` as an exception: the missing variable of C65 (magnitude.py:857-891), or matplotlib's
"Axis limits cannot be NaN or Inf" (magnitude.py:548-549). -/
inductive Err where
  | attribute
  | nanLimit

/-- The marks of a set of rows.  Models plot/amplitudes.py:113-120. -/
noncomputable def marks (c : Cfg) (rows : List Row) : List (Mark ℝ (Option ℝ)) :=
  rows.map fun r => ⟨r.obs.id, ampShown c r, distOf c r⟩

/-- `plot_amplitudes` for the filtered table (magnitude.py:469-549, plot/amplitudes.py:68-174).  `derr` is the error of
the distance.  The pandas minima and maxima skip NaN; that of the distances is NaN if there is no distance.  A NaN
magnitude makes the largest predicted amplitude NaN, and `max(nan, amps_max)` is NaN. -/
noncomputable def plotAmplitudes (c : Cfg) (rows : List Row) (mean : Option ℝ) (err : Magnitude.Err) (derr : ℝ) :
    Except Err Figure :=
  let dist := rows.filterMap (distOf c)
  match dist.min?, dist.max?, mean, (rows.map (ampShown c)).max?, (rows.map (noiseShown c)).min? with
  | some dmin, some dmax, some m, some amax, some nmin =>
    let xs := distances (dmin / 2) (dmax * (3 / 2))
    .ok
      { points := rows.map fun r => ⟨r.obs.id, distOf c r, ampShown c r, derr, noiseShown c r, Magnitude.used c r⟩
        labels := allLabels (marks c (rows.filter (Magnitude.used c)))
          (marks c (rows.filter fun r => !Magnitude.used c r))
        mag := m
        band := match err with
          | .fin e => some (m - e, m + e)
          | _ => none
        at_ := xs
        xlim := (dmin / 2, dmax * (3 / 2))
        ylim := (nmin / 10, max (((xs.map (predicted c m)).max?).getD 0) (amax * 5)) }
  | _, _, _, _, _ => .error .nanLimit

/-- `calc_magnitude` (local_mag.py:176-208): the network magnitude, its error and r-squared, and the figure if there is
one.  `mag is not np.nan` compares objects: only the `np.nan` returned when no observation is used
(magnitude.py:395-401) is that object, a NaN that was computed is not. -/
noncomputable def calcMagnitude (c : Cfg) (plot : Bool) (derr : ℝ) (t : List Obs) :
    Except Err (Mean × Option Figure) :=
  if t.all fun o => o.amp.isNone then .ok (⟨none, .nan, none⟩, none)
  else
    match meanMagnitude c (calculate c t) with
    | none => .error .attribute
    | some M =>
      if plot && !((filterMags (calculate c t)).filter (Magnitude.used c)).isEmpty then
        match plotAmplitudes c (filterMags (calculate c t)) M.mean M.err derr with
        | .ok fig => .ok (M, some fig)
        | .error e => .error e
      else .ok (M, none)

/-- What the magnitude step means for the event: an exception leaves `locate` before the event file is written.  Models
signal/scan.py:542-546. -/
noncomputable def later (c : Cfg) (plot : Bool) (derr : ℝ) (t : List Obs) : Locate.Later :=
  match calcMagnitude c plot derr t with
  | .ok _ => .fine
  | .error _ => .raisesBeforeWrite

end QM.AmplitudePlot
