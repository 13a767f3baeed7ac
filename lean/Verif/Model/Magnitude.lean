import Mathlib.Analysis.SpecialFunctions.Log.Base
import Mathlib.Analysis.SpecialFunctions.Pow.Real
import Mathlib.Analysis.SpecialFunctions.Exp

/-!
# Model of the local magnitude calculation (signal/local_mag/magnitude.py)

Real arithmetic; `none` stands for NaN.  Not modelled: plots, columns that are
only passed through.  Amplitudes, filter gains and `amp_multiplier` are taken
to be numbers for which the logarithms below make sense; where the code would
produce an infinity inside the r-squared statistic (amplitude 0) the model is
silent, and the theorems assume positive amplitudes there.
-/

namespace QM.Magnitude

open Classical

/-- Text, as in signal/local_mag/magnitude.py:759-773. -/
abbrev Str := List Char

/-- A float that may be NaN or plus infinity (`ML_Err`).  Models
signal/local_mag/magnitude.py:423, 617. -/
inductive Err where
  | nan
  | inf
  | fin (x : ℝ)

/-- A row of the amplitudes table: trace id, distances, the amplitude of the
chosen feature, the noise amplitude, the gain of the filter at the frequency
of the amplitude, and whether a phase was picked.  Models
signal/local_mag/magnitude.py:205-256. -/
structure Obs where
  id : Str
  epi : Option ℝ
  z : ℝ
  amp : Option ℝ
  noise : Option ℝ
  gain : Option ℝ
  picked : Bool

/-- Attributes of `Magnitude` (magnitude.py:105-121).  `A0` is the attenuation
function; `view` tells whether `Series.values` shares memory with the table. -/
structure Cfg where
  A0 : ℝ → ℝ
  useHyp : Bool
  corr : Str → Option ℝ
  mult : ℝ
  weighted : Bool
  trace : Option (Str → Bool)
  noiseF : ℝ
  station : Option (List Str)
  distF : Option ℝ
  pickF : Bool
  onlyUsed : Bool
  view : Bool

/-- `self.station_corrections[t] if t in ... else 0.0` (magnitude.py:376-381, 602-606). -/
noncomputable def correction (c : Cfg) (id : Str) : ℝ := (c.corr id).getD 0

/-- Noise amplitude with the filter gain removed (magnitude.py:229-235, 387-389): unless
all gains are null, divided by the gain (null if that is). -/
noncomputable def noiseGain (t : List Obs) (o : Obs) : Option ℝ :=
  if t.any (fun o => o.gain.isSome) then
    match o.noise, o.gain with
    | some n, some g => some (n / g)
    | _, _ => none
  else o.noise

/-- Epicentral or hypocentral distance (magnitude.py:243-248, 775-780). -/
noncomputable def rawDist (c : Cfg) (o : Obs) : Option ℝ :=
  if c.useHyp then o.epi.map fun e => √(e ^ 2 + o.z ^ 2) else o.epi

/-- `dist[dist == 0.0] = np.nan` (magnitude.py:249, 788). -/
noncomputable def nonZero (d : Option ℝ) : Option ℝ :=
  match d with
  | some x => if x = 0 then none else some x
  | none => none

/-- Amplitude used for the magnitude (magnitude.py:228, 239-241). -/
noncomputable def signalAmp (c : Cfg) (t : List Obs) (o : Obs) : Option ℝ :=
  match o.amp with
  | none => none
  | some a =>
    let a := a * c.mult
    match (noiseGain t o).map (· * c.mult) with
    | some n => if a < n then none else if a = 0 then none else some a
    | none => if a = 0 then none else some a

/-- `np.log10`; NaN for a negative number.  Models signal/local_mag/magnitude.py:611. -/
noncomputable def log10 (x : ℝ) : Option ℝ := if 0 < x then some (Real.logb 10 x) else none

/-- Attenuation term: `A0` of the distance (magnitude.py:621-643). -/
noncomputable def atten (c : Cfg) (o : Obs) : Option ℝ := (nonZero (rawDist c o)).map c.A0

/-- `_calc_mags`: the magnitude (magnitude.py:608-611). -/
noncomputable def ml (c : Cfg) (t : List Obs) (o : Obs) : Option ℝ :=
  match (signalAmp c t o).bind log10, atten c o with
  | some l, some att => some (l + att + correction c o.id)
  | _, _ => none

/-- `_calc_mags`: its error (magnitude.py:613-617).  The attenuation and the correction
cancel. -/
noncomputable def mlErr (c : Cfg) (t : List Obs) (o : Obs) : Err :=
  match signalAmp c t o, (noiseGain t o).map (· * c.mult), atten c o with
  | some a, some n, some _ =>
    if a + n ≤ 0 then .nan
    else if a - n < 0 then .nan
    else if a - n = 0 then .inf
    else .fin (Real.logb 10 (a + n) - Real.logb 10 (a - n))
  | _, _, _ => .nan

/-- A row of the magnitudes table.  Models signal/local_mag/magnitude.py:254-256. -/
structure Row where
  obs : Obs
  ml : Option ℝ
  err : Err

/-- `calculate_magnitudes` (magnitude.py:150-258).  Line 249 writes into the table itself when
`dist` is a view of its column. -/
noncomputable def calculate (c : Cfg) (t : List Obs) : List Row :=
  t.map fun o =>
    ⟨if c.view ∧ ¬ c.useHyp then { o with epi := nonZero o.epi } else o, ml c t o, mlErr c t o⟩

/-- The noise column after `mean_magnitude` has removed the filter gain in place
(magnitude.py:387-389). -/
noncomputable def corrected (rows : List Row) : List Row :=
  rows.map fun r => { r with obs := { r.obs with noise := noiseGain (rows.map Row.obs) r.obs } }

/-- `magnitudes.dropna(...)` (magnitude.py:747). -/
def dropna (rows : List Row) : List Row :=
  rows.filter fun r => r.obs.amp.isSome && r.obs.noise.isSome

/-- `Noise_Filter` (magnitude.py:749-757). -/
noncomputable def noiseOK (c : Cfg) (r : Row) : Bool :=
  match r.obs.amp, r.obs.noise with
  | some a, some n => decide (a > n * c.noiseF)
  | _, _ => false

/-- `Trace_Filter` (magnitude.py:759-764). -/
def traceOK (c : Cfg) (r : Row) : Bool :=
  match c.trace with
  | none => true
  | some f => f r.obs.id

/-- `Station_Filter` (magnitude.py:766-773): the name between dots, anywhere in the id. -/
noncomputable def stationOK (c : Cfg) (r : Row) : Bool :=
  match c.station with
  | none => true
  | some l => l.all fun s => !decide (('.' :: s ++ ['.']) <:+: r.obs.id)

/-- `Dist_Filter` (magnitude.py:782-785); switched off by `False` and 0. -/
noncomputable def distOK (c : Cfg) (r : Row) : Bool :=
  match c.distF with
  | none => true
  | some d => if d = 0 then true else
    match rawDist c r.obs with
    | none => false
    | some x => decide (x ≤ d)

/-- `Used` (magnitude.py:791-802). -/
noncomputable def used (c : Cfg) (r : Row) : Bool :=
  traceOK c r && stationOK c r && distOK c r && (!c.pickF || r.obs.picked) &&
    (if c.noiseF = 0 then true else noiseOK c r)

/-- The table after `_filter_mags` (magnitude.py:708-804), its `Used` column being `used`. -/
noncomputable def filterMags (rows : List Row) : List Row := dropna (corrected rows)

/-- `(1 / ML_Err) ** 2` (magnitude.py:405-409). -/
noncomputable def weight : Err → Err
  | .nan => .nan
  | .inf => .fin 0
  | .fin x => if x = 0 then .inf else .fin ((1 / x) ^ 2)

/-- Unweighted mean of a numpy array (magnitude.py:409, 415): NaN if one is NaN. -/
noncomputable def plainMean (l : List (Option ℝ)) : Option ℝ :=
  if l.all Option.isSome then some ((l.map fun m => m.getD 0).sum / l.length) else none

/-- Unweighted standard deviation (magnitude.py:418-421). -/
noncomputable def plainStd (l : List (Option ℝ)) : Err :=
  match plainMean l with
  | none => .nan
  | some μ => .fin √((l.map fun m => (m.getD 0 - μ) ^ 2).sum / l.length)

/-- `np.sum(weights)`: a pandas sum, which skips NaN; `none` = infinity.  Models
signal/local_mag/magnitude.py:415. -/
noncomputable def sumW (l : List (Option ℝ × Err)) : Option ℝ :=
  if l.any (fun e => match weight e.2 with | .inf => true | _ => false) then none
  else some (l.map fun e => match weight e.2 with | .fin w => w | _ => 0).sum

/-- Sum of `f m * g w` over the rows where neither is NaN (the pandas sums of
magnitude.py:415 and 420). -/
noncomputable def sumMW (f : ℝ → ℝ) (l : List (Option ℝ × Err)) : ℝ :=
  (l.map fun e => match e.1, weight e.2 with | some m, .fin w => f (m * w) | _, _ => 0).sum

/-- Weighted mean (magnitude.py:415).  With an infinite weight, `inf / inf` is NaN unless every
magnitude of infinite weight is 0 (then `0 * inf` is NaN and skipped). -/
noncomputable def weightedMean (l : List (Option ℝ × Err)) : Option ℝ :=
  match sumW l with
  | none =>
    if l.any (fun e => match e.1, weight e.2 with | some m, .inf => decide (m ≠ 0) | _, _ => false)
    then none else some 0
  | some w => if w = 0 then none else some (sumMW id l / w)

/-- The error of the weighted mean (magnitude.py:418-421): the deviation is multiplied by the
weight before it is squared. -/
noncomputable def weightedStd (l : List (Option ℝ × Err)) : Err :=
  match sumW l with
  | none => .fin 0
  | some w => if w = 0 then .nan else
    match weightedMean l with
    | none => .nan
    | some μ => .fin √(sumMW (· ^ 2) (l.map fun e => (e.1.map (· - μ), e.2)) / w)

/-- Amplitude with corrections for the r-squared statistic (magnitude.py:893-898). -/
noncomputable def r2Amp (c : Cfg) (r : Row) : ℝ :=
  r.obs.amp.getD 0 * c.mult * (10 : ℝ) ^ correction c r.obs.id

/-- Squared deviation of a log amplitude from the predicted one (magnitude.py:918-921); NaN,
which the sum skips, if the mean magnitude or the distance is NaN. -/
noncomputable def modTerm (c : Cfg) (mean : Option ℝ) (r : Row) : ℝ :=
  match mean, atten c r.obs with
  | some m, some att => (Real.logb 10 (r2Amp c r) - (m - att)) ^ 2
  | _, _ => 0

/-- The statistic for given rows (magnitude.py:900-928).  The sums are pandas sums and
skip NaN. -/
noncomputable def r2Stat (c : Cfg) (mean : Option ℝ) (rows : List Row) : Option ℝ :=
  let amps := rows.map (r2Amp c)
  if rows.length < 2 ∨ (∀ a ∈ amps, ∀ b ∈ amps, a = b) then none
  else
    let logs := amps.map (Real.logb 10)
    let μ := logs.sum / logs.length
    let var := (logs.map fun l => (l - μ) ^ 2).sum
    let mod := (rows.map (modTerm c mean)).sum
    some ((var - mod) / var)

/-- The rows used (magnitude.py:857-891).  `none` = AttributeError.  The result of
`magnitudes.drop(...)` in the loop of lines 876-890 is not assigned, so the loop has no
effect. -/
noncomputable def r2Rows (c : Cfg) (rows : List Row) : Option (List Row) :=
  if c.onlyUsed then some (rows.filter (used c))
  else
    let rows := rows.filter (traceOK c)
    let rows := rows.filter (stationOK c)
    let rows := rows.filter (distOK c)
    if c.noiseF ≤ 0 then none else some rows

/-- What `mean_magnitude` returns, without the table.  Models signal/local_mag/magnitude.py:431. -/
structure Mean where
  mean : Option ℝ
  err : Err
  r2 : Option ℝ

/-- `mean_magnitude` (magnitude.py:260-431). `none` = AttributeError. -/
noncomputable def meanMagnitude (c : Cfg) (rows : List Row) : Option Mean :=
  let rows := filterMags rows
  let us := rows.filter (used c)
  if us = [] then some ⟨none, .nan, none⟩
  else
    let l := us.map fun r => (r.ml, r.err)
    let mean := if c.weighted then weightedMean l else plainMean (l.map Prod.fst)
    let err :=
      match l with
      | [e] => e.2
      | _ => if c.weighted then weightedStd l else plainStd (l.map Prod.fst)
    (r2Rows c rows).map fun sel => ⟨mean, err, r2Stat c mean sel⟩

/-- The built-in attenuation functions (`_logA0`, magnitude.py:682-706); `none` = ValueError. -/
noncomputable def logA0 (name : String) (d : ℝ) : Option ℝ :=
  if name = "keir2006" then
    some (1.196997 * Real.logb 10 (d / 17) + 0.001066 * (d - 17) + 2)
  else if name = "Danakil2017" then
    some (1.274336 * Real.logb 10 (d / 17) - 0.000273 * (d - 17) + 2)
  else if name = "Greenfield2018_askja" then
    some (1.4406 * Real.logb 10 (d / 17) + 0.003 * (d - 17) + 2)
  else if name = "Greenfield2018_bardarbunga" then
    some (1.2534 * Real.logb 10 (d / 17) + 0.0032 * (d - 17) + 2)
  else if name = "Greenfield2018_comb" then
    some (1.1999 * Real.logb 10 (d / 17) + 0.0016 * (d - 17) + 2)
  else if name = "Hutton-Boore" then
    some (1.11 * Real.logb 10 (d / 100) + 0.00189 * (d - 100) + 3)
  else if name = "Langston1998" then
    some (0.776 * Real.logb 10 (d / 17) + 0.000902 * (d - 17) + 2)
  else if name = "UK" then
    some (1.11 * Real.logb 10 d + 0.00189 * d - 1.16 * Real.exp (-0.2 * d) - 2.09)
  else none

end QM.Magnitude
