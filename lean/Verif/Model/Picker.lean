import Verif.Model.Trigger
import Verif.Model.Pads

/-!
# Model of the Gaussian phase picker (signal/pickers/gaussian.py)

Not modelled: the curve fit of scipy (a parameter), plots, the SEED identifiers
written with `write_seed_ids`.
-/

namespace QM.Picker

/-- Text, as in signal/pickers/gaussian.py:172-228. -/
abbrev Str := List Char

/-- What a call raises.  Raised in signal/pickers/gaussian.py:285-346. -/
inductive Err where
  | valueError      -- `max` of an empty sequence
  | unboundLocal    -- `popt` used after a caught `TypeError`
  | keyError        -- a station without onsets
deriving DecidableEq, Repr

/-- A pick window `[lower, arrival, upper]`, in samples of the onset function.  Models
signal/pickers/gaussian.py:285. -/
structure Win where
  lo : ℤ
  arr : ℤ
  hi : ℤ
deriving DecidableEq, Repr

/-- `_determine_window` (gaussian.py:245-285). Times in seconds. -/
def determineWindow (otime starttime sr mw tt fraction : ℚ) : Win :=
  let a := Pads.time2sample (otime + tt - starttime) sr
  let s := Pads.time2sample (tt * fraction + mw) sr
  ⟨a - s, a, a + s⟩

/-- The pairwise loop of `_distinguish_windows` (gaussian.py:308-313), over the
windows in the order of the phases; `int(x / 2)` truncates towards zero. -/
def pairsFrom : Win → List Win → List Win
  | w1, [] => [w1]
  | w1, w2 :: ws =>
    let mid := (w1.arr + w2.arr).tdiv 2
    { w1 with hi := min mid w1.hi } :: pairsFrom { w2 with lo := max mid w2.lo } ws

/-- Models signal/pickers/gaussian.py:308-313. -/
def distinguishPairs : List Win → List Win
  | [] => []
  | w :: ws => pairsFrom w ws

/-- First key (gaussian.py:304-306). -/
def clampFirst : List Win → List Win
  | [] => []
  | w :: ws => { w with lo := if w.lo < 0 then 0 else w.lo } :: ws

/-- Last key (gaussian.py:315-317). -/
def clampLast (samples : ℤ) : List Win → List Win
  | [] => []
  | [w] => [{ w with hi := if w.hi > samples then samples else w.hi }]
  | w :: w' :: ws => w :: clampLast samples (w' :: ws)

/-- `_distinguish_windows` (gaussian.py:287-317). -/
def distinguish (samples : ℤ) (ws : List Win) : List Win :=
  clampLast samples (distinguishPairs (clampFirst ws))

/-- A slice bound of Python: negative ones count from the end; clipped to the list.  Stands for numpy
indexing, signal/pickers/gaussian.py:341-346. -/
def pyIdx (n : ℕ) (i : ℤ) : ℕ := if 0 ≤ i then min i.toNat n else (i + n).toNat

/-- `l[a:b]`.  Stands for numpy slicing, signal/pickers/gaussian.py:341-346. -/
def pySlice {α : Type} (l : List α) (a b : ℤ) : List α :=
  (l.take (pyIdx l.length b)).drop (pyIdx l.length a)

/-- `l[a:b] = v`.  Models signal/pickers/gaussian.py:343. -/
def pySliceSet (l : List ℚ) (a b : ℤ) (v : ℚ) : List ℚ :=
  l.mapIdx fun i x => if pyIdx l.length a ≤ i ∧ i < pyIdx l.length b then v else x

/-- The noise samples (gaussian.py:341-346). -/
def noise (onset : List ℚ) (ws : List Win) : List ℚ :=
  (ws.foldl (fun l w => pySliceSet l w.lo w.hi (-1)) onset).filter fun v => 1 < v

/-- `threshold_method` with its parameter. The percentile of numpy is a parameter.  Models
signal/pickers/gaussian.py:348. -/
inductive Method where
  | mad (multiplier : ℚ)
  | percentile (f : List ℚ → Option ℚ)

/-- `_find_pick_threshold` (gaussian.py:319-357); `none` = NaN (no noise samples). -/
def findThreshold (m : Method) (onset : List ℚ) (ws : List Win) : Option ℚ :=
  let l := noise onset ws
  match m with
  | .percentile f => f l
  | .mad k => if l = [] then none else some (npMedian l + Trigger.calculateMad l * k)

/-- `exceedence` (gaussian.py:536). -/
def exceedence (w : List ℚ) (thr : ℚ) : List ℕ :=
  (List.range w.length).filter fun i => ∃ v ∈ w[i]?, thr < v

/-- `np.where(np.diff(l) != 1)[0] + 1` (gaussian.py:544). -/
def runBreaks (l : List ℕ) : List ℕ :=
  (List.range' 1 (l.length - 1)).filter fun j => l.getD j 0 ≠ l.getD (j - 1) 0 + 1

/-- `np.argmax`.  Models signal/pickers/gaussian.py:547. -/
def argmax (w : List ℚ) : Option ℕ := (firstMaxBy Prod.fst w.zipIdx).map Prod.snd

/-- `_find_peak` (gaussian.py:501-560); `none` = `NoOnsetPeak`. If no peak contained
the maximum the loop variable would stay at the last one. A NaN threshold is
exceeded by nothing. -/
def findPeak (w : List ℚ) (thr : Option ℚ) : Option (ℕ × ℕ) :=
  match thr with
  | none => none
  | some t =>
    let ex := exceedence w t
    if ex = [] then none
    else
      let peaks := npSplit ex (runBreaks ex)
      match argmax w with
      | none => none
      | some m =>
        match (peaks.find? fun p => m ∈ p) <|> peaks.getLast? with
        | none => none
        | some p =>
          if p.length < 2 then none
          else
            match p.head?, p.getLast? with
            | some a, some b => some (a, b + 1)
            | _, _ => none

/-- What `scipy.optimize.curve_fit` does: raise one of the caught exceptions or
return height, mean (`none` = not finite) and sigma.  Stands for `scipy.optimize.curve_fit`,
signal/pickers/gaussian.py:359-471. -/
inductive Fit where
  | valueOrRuntimeError
  | typeError
  | ok (height : ℚ) (mean : Option ℚ) (sigma : ℚ)

/-- Return value of `_fit_gaussian`: failure (all `-1`) or a pick, `mean` in seconds
after the start of the onset function.  Models signal/pickers/gaussian.py:359-471. -/
inductive Pick where
  | failed
  | at (mean sigma snr : ℚ)
deriving DecidableEq, Repr

/-- `_fit_gaussian` (gaussian.py:359-471). `fit` gets the x and y data and the initial
mean; the other initial parameters are not passed on. -/
def fitGaussian (fit : List ℚ → List ℚ → ℚ → Fit) (onset : List ℚ) (sr : ℚ) (thr : Option ℚ)
    (w : Win) : Except Err Pick :=
  match findPeak (pySlice onset w.lo w.hi) thr with
  | none => .ok .failed
  | some (a, b) =>
    let p0 : ℤ := w.lo + ((a : ℤ) - 1)
    let p1 : ℤ := w.lo + ((b : ℤ) + 1)
    let x := (List.range (p1 - p0).toNat).map fun k => ((p0 + (k : ℤ) : ℤ) : ℚ) / sr
    let y := pySlice onset p0 p1
    match argmax y with
    | none => .error .valueError
    | some m =>
      match fit x y (((p0 + (m : ℤ) : ℤ) : ℚ) / sr) with
      | .valueOrRuntimeError => .ok .failed
      | .typeError => .error .unboundLocal
      | .ok _ none _ => .ok .failed
      | .ok h (some μ) σ =>
        if (w.lo : ℚ) < μ * sr ∧ μ * sr < w.hi then .ok (.at μ |σ| h) else .ok .failed

/-- A row of the picks table.  Models signal/pickers/gaussian.py:218-227. -/
structure Row where
  station : Str
  phase : Str
  modelled : ℚ
  pick : Option ℚ        -- `none` = -1
  residual : Option ℚ    -- `none` = -1
deriving DecidableEq, Repr

/-- Parameters of `pick_phases` fixed for one event.  Models signal/pickers/gaussian.py:172-228. -/
structure Ctx where
  otime : ℚ
  starttime : ℚ
  sr : ℚ
  mw : ℚ
  fraction : ℚ
  method : Method
  traveltime : Str → Str → ℚ      -- station, phase
  fit : Str → Str → List ℚ → List ℚ → ℚ → Fit

/-- The windows of a station before adjustment (gaussian.py:172-181). -/
def rawWindows (c : Ctx) (station : Str) (onsets : List (Str × List ℚ)) : List Win :=
  onsets.map fun o =>
    determineWindow c.otime c.starttime c.sr c.mw (c.traveltime station o.1) c.fraction

/-- The windows of a station (gaussian.py:172-185); `n_samples` is the length of the last onset. -/
def stationWindows (c : Ctx) (station : Str) (onsets : List (Str × List ℚ)) : List Win :=
  distinguish ((onsets.getLast?.map fun o => o.2.length).getD 0 : ℕ) (rawWindows c station onsets)

/-- One phase (gaussian.py:187-228). -/
def pickOne (c : Ctx) (station : Str) (ws : List Win) (o : (Str × List ℚ) × Win) :
    Except Err Row :=
  match fitGaussian (c.fit station o.1.1) o.1.2 c.sr (findThreshold c.method o.1.2 ws) o.2 with
  | .error e => .error e
  | .ok r =>
    let m := c.otime + c.traveltime station o.1.1
    match r with
    | .failed => .ok ⟨station, o.1.1, m, none, none⟩
    | .at μ _ _ => .ok ⟨station, o.1.1, m, some (c.starttime + μ), some (c.starttime + μ - m)⟩

/-- One station (gaussian.py:172-228). -/
def pickStation (c : Ctx) (s : Str × List (Str × List ℚ)) : Except Err (List Row) :=
  if s.2 = [] then .error .keyError
  else
    let ws := stationWindows c s.1 s.2
    (s.2.zip ws).mapM (pickOne c s.1 ws)

/-- `pick_phases` (gaussian.py:114-243): the rows of the table, in order. -/
def pickPhases (c : Ctx) (onsets : List (Str × List (Str × List ℚ))) : Except Err (List Row) :=
  (onsets.mapM (pickStation c)).map List.flatten

end QM.Picker
