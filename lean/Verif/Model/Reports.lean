import Verif.Model.Trigger
import Verif.Model.Magnitude
import Verif.Model.PickerSettings
import Verif.Model.Filters
import Verif.Model.Grid

/-!
# The reports of the settings in use

`trigger`, `detect` and `locate` log a report of their settings (signal/trigger.py:307, signal/scan.py:343-344,
387-400).  A report is a text; here it is put together line by line, each line without its newline.  `sh` is the text
Python prints for a number, of type `N`, and `val` its value.
-/

namespace QM.Reports

/-- Texts.  Stands for Python `str`, signal/trigger.py:241. -/
abbrev Str := List Char

/-- The lines printed one after the other, each ended by a newline (signal/trigger.py:241-267). -/
def unlines (l : List Str) : Str := l.flatMap fun s => s ++ ['\n']

/-! ## Trigger -/

/-- The values `threshold_method` can have (signal/trigger.py:707-719). -/
inductive MethodName where
  | static | mad | medianRatio
deriving DecidableEq, Repr

/-- The text of `threshold_method` (signal/trigger.py:709). -/
def MethodName.text : MethodName → Str
  | .static => "static".toList
  | .mad => "mad".toList
  | .medianRatio => "median_ratio".toList

/-- The attributes of a `Trigger` object that triggering uses (signal/trigger.py:213-230). -/
structure TriggerSettings (N : Type) where
  method : MethodName
  staticThreshold : N
  madWindow : N
  madMultiplier : N
  medianWindow : N
  medianMultiplier : N
  marginalWindow : N
  minEventInterval : N
  normalise : Bool
  padding : N
  smooth : Bool
  sigma : N
  width : N

/-- The lines on the threshold (signal/trigger.py:251-262). -/
def thresholdLines {N : Type} (sh : N → Str) (t : TriggerSettings N) : List Str :=
  match t.method with
  | .static => ["\t\tStatic threshold = ".toList ++ sh t.staticThreshold, []]
  | .mad => ["\t\tMAD Window     = ".toList ++ sh t.madWindow, "\t\tMAD Multiplier = ".toList ++ sh t.madMultiplier, []]
  | .medianRatio => ["\t\tMedian Window     = ".toList ++ sh t.medianWindow,
      "\t\tMedian Multiplier = ".toList ++ sh t.medianMultiplier, []]

/-- The lines on smoothing (signal/trigger.py:263-269). -/
def smoothLines {N : Type} (sh : N → Str) (t : TriggerSettings N) : List Str :=
  if t.smooth then
    ["\t\tApplying gaussian smoothing to the coalescence trace.".toList,
     "\t\tGaussian kernel sigma = ".toList ++ sh t.sigma ++ " s".toList,
     "\t\tGaussian kernel truncated at ".toList ++ sh t.width ++ " standard deviations.".toList]
  else []

/-- `Trigger.__str__` (signal/trigger.py:238-271), logged at line 307. -/
def triggerReport {N : Type} (sh : N → Str) (t : TriggerSettings N) : Str :=
  unlines (["\tTrigger parameters:".toList,
    "\t\tPre/post pad = ".toList ++ sh t.padding ++ " s".toList,
    "\t\tMarginal window = ".toList ++ sh t.marginalWindow ++ " s".toList,
    "\t\tMinimum event interval  = ".toList ++ sh t.minEventInterval ++ " s".toList,
    [],
    "\t\tTriggering from the ".toList ++ (if t.normalise then "normalised ".toList else []) ++
      "maximum coalescence trace.".toList,
    [],
    "\t\tTrigger threshold method: ".toList ++ t.method.text] ++ thresholdLines sh t ++ smoothLines sh t)

/-- What `_get_threshold` computes with these settings (signal/trigger.py:454-481). -/
def thresholdOf {N : Type} (val : N → ℚ) (t : TriggerSettings N) : Trigger.Method :=
  match t.method with
  | .static => .static (val t.staticThreshold)
  | .mad => .mad (val t.madWindow) (val t.madMultiplier)
  | .medianRatio => .medianRatio (val t.medianWindow) (val t.medianMultiplier)

/-- `trigger` of an object with these settings (signal/trigger.py:273-316).  `smooth` is `_smooth_coa` with the given
standard deviation and truncation (lines 419-434), `read` is `read_scanmseed` with the given padding (lines
339-341). -/
def triggerRun {N : Type} (val : N → ℚ) (smooth : ℚ → ℚ → List Trigger.Row → List Trigger.Row)
    (region : Option Trigger.Region) (read : ℚ → ℚ → ℚ → Option Trigger.ScanData) (s e : ℚ) (t : TriggerSettings N) :
    List ((ℚ × ℚ) × List Trigger.Cand) × Option Trigger.TriggerError :=
  Trigger.trigger ⟨val t.marginalWindow, val t.minEventInterval, t.normalise⟩ (thresholdOf val t)
    (if t.smooth then smooth (val t.sigma) (val t.width) else id) region (read (val t.padding)) s e

/-- `_threshold_method_string`, the legend of the summary figure (signal/trigger.py:403-417). -/
def thresholdLegend {N : Type} (sh : N → Str) (t : TriggerSettings N) : Str :=
  match t.method with
  | .static => sh t.staticThreshold ++ " (static)".toList
  | .mad => "MAD (".toList ++ sh t.madWindow ++ " s / ".toList ++ sh t.madMultiplier ++ "x)".toList
  | .medianRatio => "Median Ratio (".toList ++ sh t.medianWindow ++ " s / ".toList ++ sh t.medianMultiplier ++
      "x)".toList

/-! ## Lookup table -/

/-- A lookup table as printed: `toCoord` is `coord2grid(…, inverse=True)`, which returns longitude, latitude and depth
(lut/lut.py:208-215; the coordinate projection is longitude/latitude). -/
structure LutView where
  grid : Grid.Grid
  toCoord : Grid.V3 ℚ → Grid.V3 ℚ
  unitName : Str

/-- The line for one corner (lut/lut.py:477-480, 487-494): the fields `lat` and `lon` get the first and second
coordinate. -/
def cornerLine (f5 f3 : ℚ → Str) (name : Str) (unit : Str) (c : Grid.V3 ℚ) : Str :=
  name ++ f5 (c 0) ++ "°N ".toList ++ f5 (c 1) ++ "°E ".toList ++ f3 (c 2) ++ " ".toList ++ unit

/-- `LUT.__str__`, its lines on the grid (lut/lut.py:470-495).  `f5`, `f3` are the formats `10.5f`, `10.3f`; `shc`,
`shs` print the arrays of node counts and spacings.  The velocity model that follows is not modelled. -/
def lutLines (f5 f3 : ℚ → Str) (shc : Grid.V3 ℕ → Str) (shs : Grid.V3 ℚ → Str) (L : LutView) : List Str :=
  let corners := (Grid.gridCorners L.grid).map L.toCoord
  ["QuakeMigrate traveltime lookup table".toList, "Grid parameters".toList,
   cornerLine f5 f3 "\tLower-left corner  : ".toList L.unitName (corners.headD 0),
   cornerLine f5 f3 "\tUpper-right corner : ".toList L.unitName (corners.getLastD 0),
   "\tNumber of nodes    : ".toList ++ shc L.grid.count,
   "\tNode spacing       : ".toList ++ shs L.grid.spacing ++ " ".toList ++ L.unitName]

/-! ## Amplitudes -/

/-- The filter of an `Amplitude` object: both flags are attributes, the constructor refuses both at once
(signal/local_mag/amplitude.py:110-130). -/
structure AmpSettings (N : Type) where
  signal : N
  noise : N
  noiseMeasure : Str
  locMethod : Str
  prominence : N
  highpass : Bool
  highpassFreq : N
  bandpass : Bool
  lowcut : N
  highcut : N
  corners : N

/-- `Amplitude.__str__` (signal/local_mag/amplitude.py:145-172). -/
def ampReport {N : Type} (val : N → ℚ) (sh : N → Str) (a : AmpSettings N) : Str :=
  unlines (["\t    Amplitude parameters:".toList,
    "\t\tSignal window    = ".toList ++ sh a.signal ++ " s".toList,
    "\t\tNoise window     = ".toList ++ sh a.noise ++ " s".toList,
    "\t\tNoise measure    = ".toList ++ a.noiseMeasure,
    "\t\tLocation used    = ".toList ++ a.locMethod] ++
    (if val a.prominence ≠ 0 then ["\t\tProminence multiplier = ".toList ++ sh a.prominence] else []) ++
    (if a.highpass then
      ["\t\tHighpass filter: ".toList, "\t\t    Filter frequency = ".toList ++ sh a.highpassFreq ++ " Hz".toList,
       "\t\t    Filter corners   = ".toList ++ sh a.corners]
    else if a.bandpass then
      ["\t\tBandpass filter: ".toList, "\t\t    Lowcut frequency  = ".toList ++ sh a.lowcut ++ " Hz".toList,
       "\t\t    Highcut frequency = ".toList ++ sh a.highcut ++ " Hz".toList,
       "\t\t    Filter corners    = ".toList ++ sh a.corners]
    else []))

/-- The filter applied to the waveforms, with its number of corners (signal/local_mag/amplitude.py:344, 432-440):
`bandpass_filter` is looked at first. -/
def ampFilter {N : Type} (val : N → ℚ) (a : AmpSettings N) : Option (Filters.Setting × ℚ) :=
  if a.bandpass || a.highpass then
    some (if a.bandpass then .bandpass (val a.lowcut) (val a.highcut) else .highpass (val a.highpassFreq), val a.corners)
  else none

/-! ## Magnitudes -/

/-- The attributes of a `Magnitude` object (signal/local_mag/magnitude.py:104-121); a false `dist_filter` is `none`. -/
structure MagSettings (N : Type) where
  a0 : Str
  useHyp : Bool
  feature : Str
  corrections : List (Str × N)
  multiplier : N
  weighted : Bool
  traceFilter : Option Str
  noiseFilter : N
  stationFilter : Option (List Str)
  distFilter : Option N
  pickFilter : Bool
  r2OnlyUsed : Bool

/-- How Python prints a Boolean.  Stands for f-string of a bool, signal/local_mag/magnitude.py:129, 136. -/
def shBool (b : Bool) : Str := if b then "True".toList else "False".toList

/-- `Magnitude.__str__` (signal/local_mag/magnitude.py:123-148); `shl` prints a list of names. -/
def magReport {N : Type} (sh : N → Str) (shl : List Str → Str) (m : MagSettings N) : Str :=
  unlines (["\t    Magnitude parameters:".toList,
    "\t\tA0 attenuation function = ".toList ++ m.a0,
    "\t\tUse hyp distance        = ".toList ++ shBool m.useHyp,
    "\t\tAmplitude feature       = ".toList ++ m.feature] ++
    (if m.corrections ≠ [] then ["\t\tUsing user-provided station corrections".toList] else []) ++
    ["\t\tAmplitude multiplier    = ".toList ++ sh m.multiplier,
     "\t\tUse weighted mean       = ".toList ++ shBool m.weighted] ++
    (match m.traceFilter with
     | some f => ["\t\tTrace filter            = ".toList ++ f]
     | none => []) ++
    ["\t\tNoise filter            = ".toList ++ sh m.noiseFilter ++ " x".toList] ++
    (match m.stationFilter with
     | some f => ["\t\tStation filter          = ".toList ++ shl f]
     | none => []) ++
    (match m.distFilter with
     | some f => ["\t\tDistance filter         = ".toList ++ sh f ++ " km".toList]
     | none => []) ++
    (if m.pickFilter then ["\t\tUsing only Amplitudes from picked traces.".toList] else []))

/-- The settings as the calculation uses them (signal/local_mag/magnitude.py:104-121, 376-381, 602-606): `curve` is the
attenuation function of a name, `hit` the regular expression search of `str.contains` (line 763). -/
noncomputable def magCfg {N : Type} (val : N → ℝ) (curve : Str → ℝ → ℝ) (hit : Str → Str → Bool) (view : Bool)
    (m : MagSettings N) : Magnitude.Cfg where
  A0 := curve m.a0
  useHyp := m.useHyp
  corr := fun id => ((m.corrections.find? fun e => e.1 = id).map fun e => val e.2)
  mult := val m.multiplier
  weighted := m.weighted
  trace := m.traceFilter.map hit
  noiseF := val m.noiseFilter
  station := m.stationFilter
  distF := m.distFilter.map val
  pickF := m.pickFilter
  onlyUsed := m.r2OnlyUsed
  view := view

/-! ## Picker -/

/-- `GaussianPicker.__str__` (signal/pickers/gaussian.py:101-111); `sh` prints a number. -/
def pickerReport (sh : ℚ → Str) (s : PickerSettings.Settings) : Str :=
  unlines (["\tPhase picking by fitting a 1-D Gaussian to onsets".toList] ++
    (if s.method = "percentile".toList then ["\t\tPercentile threshold  = ".toList ++ sh (s.percentile.getD 0)]
     else if s.method = "MAD".toList then ["\t\tMAD multiplier  = ".toList ++ sh (s.mad.getD 0)]
     else []) ++
    (match s.fraction with
     | some f => ["\t\tSearch window   = ".toList ++ sh (f * 100) ++ "% of traveltime".toList]
     | none => []))

end QM.Reports
