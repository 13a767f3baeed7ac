import Verif.Py
import Mathlib.Data.Int.Log

/-!
# Model of writing the `.event` file: `Event.write` (io/event.py:441-508) and `LUT.precision`
(lut/lut.py:337-349)
-/

namespace QM.EventFile

/-- Text (column names, identifiers), as in io/event.py:23-44. -/
abbrev Str := List Char

/-- A value of the table: text, a finite number, or a number that is not finite (NaN, inf).
Values of the dictionary of io/event.py:458-470. -/
inductive Cell where
  | text (s : Str)
  | num (q : ℚ)
  | nonfinite
deriving DecidableEq, Repr

/-- A Python dictionary with text keys, in order of insertion (io/event.py:458-470). -/
abbrev Dict := List (Str × Cell)

/-- `d[k]`, `none` = KeyError (io/event.py:477); the last value given for a key counts, as in
`{**a, **b}`. -/
def Dict.get (d : Dict) (k : Str) : Option Cell := (d.reverse.find? (fun e => e.1 = k)).map Prod.snd

/-- `EVENT_FILE_COLS` (io/event.py:23-44). -/
def EVENT_FILE_COLS : List Str :=
  ["EventID".toList, "DT".toList, "X".toList, "Y".toList, "Z".toList, "COA".toList,
    "COA_NORM".toList, "GAU_X".toList, "GAU_Y".toList, "GAU_Z".toList, "GAU_ErrX".toList,
    "GAU_ErrY".toList, "GAU_ErrZ".toList, "COV_ErrX".toList, "COV_ErrY".toList,
    "COV_ErrZ".toList, "COV_Err_XYZ".toList, "TRIG_COA".toList, "DEC_COA".toList,
    "DEC_COA_NORM".toList]

/-- The location results, trigger information and magnitude held by an `Event` object
(io/event.py:244-310, 344-370, 558-611).  `locations` have keys in the order in which
`add_*_location` insert them. -/
structure Event where
  uid : Str
  triggerInfo : Dict
  localmag : Dict
  maxCoalescence : Dict
  spline : Dict
  gaussian : Dict
  covariance : Dict

/-- `add_spline_location` (io/event.py:296-308). -/
def splineDict (x y z : Cell) : Dict := [("X".toList, x), ("Y".toList, y), ("Z".toList, z)]

/-- `add_gaussian_location` (io/event.py:287-294). -/
def gaussianDict (x y z ex ey ez : Cell) : Dict :=
  [("X".toList, x), ("Y".toList, y), ("Z".toList, z), ("ErrX".toList, ex), ("ErrY".toList, ey),
    ("ErrZ".toList, ez)]

/-- `add_covariance_location` (io/event.py:260-270); `exyz` is the geometric mean of the three
uncertainties. -/
def covarianceDict (x y z ex ey ez exyz : Cell) : Dict :=
  [("X".toList, x), ("Y".toList, y), ("Z".toList, z), ("ErrX".toList, ex), ("ErrY".toList, ey),
    ("ErrZ".toList, ez), ("Err_XYZ".toList, exyz)]

/-- `_parse_triggered_event` (io/event.py:578-611); `none` = KeyError. -/
def parseTriggered (row : Dict) : Option Dict :=
  match row.get "TRIG_COA".toList, row.get "COA".toList, row.get "COA_NORM".toList with
  | some a, some b, some c =>
    some [("TRIG_COA".toList, a), ("DEC_COA".toList, b), ("DEC_COA_NORM".toList, c)]
  | _, _, _ =>
    match row.get "COA_V".toList, row.get "COA".toList, row.get "COA_NORM".toList with
    | some a, some b, some c =>
      some [("TRIG_COA".toList, a), ("DEC_COA".toList, b), ("DEC_COA_NORM".toList, c)]
    | some a, _, _ =>
      some [("TRIG_COA".toList, a), ("DEC_COA".toList, .nonfinite),
        ("DEC_COA_NORM".toList, .nonfinite)]
    | none, _, _ => none

/-- The dictionary `out` (io/event.py:458-470). -/
def outDict (e : Event) : Dict :=
  [("EventID".toList, .text e.uid)] ++ e.triggerInfo ++ e.localmag ++ e.maxCoalescence ++ e.spline ++
    e.gaussian.map (fun kv => ("GAU_".toList ++ kv.1, kv.2)) ++
    (e.covariance.drop 3).map (fun kv => ("COV_".toList ++ kv.1, kv.2))

/-- The columns to write (io/event.py:472-475).  `localmag.get("ML")` is never `None` once a
magnitude has been added, whether it is NaN or not. -/
def columns (e : Event) : List Str :=
  if (e.localmag.get "ML".toList).isSome then
    EVENT_FILE_COLS ++ ["ML".toList, "ML_Err".toList, "ML_r2".toList]
  else EVENT_FILE_COLS

/-- Rounding to `d` decimals, `Series.round(decimals=d)` (pandas, io/event.py:495). -/
def roundTo (d : ℤ) (q : ℚ) : ℚ := (pyRound (q * (10 : ℚ) ^ d) : ℚ) / (10 : ℚ) ^ d

/-- `f"{x:.ng}"` as a number (Python, io/event.py:481, 503): rounded to `n` significant digits. -/
def sigDigits (n : ℕ) (q : ℚ) : ℚ := roundTo ((n : ℤ) - 1 - Int.log 10 |q|) q

/-- `map(lambda x: f"{x:.ng}", na_action="ignore")` (io/event.py:481, 502-504). -/
def Cell.sig (n : ℕ) : Cell → Cell
  | .num q => .num (sigDigits n q)
  | c => c

/-- What `write` raises (io/event.py:477, 497). -/
inductive Err where
  | keyError | intCasting
deriving DecidableEq, Repr

/-- `round`, then `astype(int)` if there are no decimals (io/event.py:494-497); converting a value
that is not finite to an integer raises. -/
def Cell.round (d : ℤ) : Cell → Except Err Cell
  | .num q => .ok (.num (roundTo d q))
  | .nonfinite => if d ≤ 0 then .error .intCasting else .ok .nonfinite
  | .text s => .ok (.text s)

/-- Replace the values of one column (io/event.py:481, 495-497, 502). -/
def mapCol (c : Str) (f : Cell → Except Err Cell) (t : Dict) : Except Err Dict :=
  t.mapM fun e => if e.1 = c then (f e.2).map (fun v => (e.1, v)) else .ok e

/-- The names containing `Err` followed by one of `X , Y Z` (regular expression `Err[X,Y,Z]`,
io/event.py:490). -/
def isErr (c : Str) : Bool := ['X', ',', 'Y', 'Z'].any fun a =>
  decide (("Err".toList ++ [a]) <:+: c)

/-- The Python comparison `max(a, b)` of integers (io/event.py:489, 493). -/
def pyMax (a b : ℤ) : ℤ := if b > a then b else a

/-- Decimals of the Z axis and of the uncertainties (io/event.py:488-489). -/
def decimalsZ (km : Bool) (precision : ℤ) : ℤ := pyMax (precision + 2) (if km then 3 else 0)

/-- Decimals of the X and Y axes (io/event.py:493). -/
def decimalsXY (precision : ℤ) : ℤ := pyMax (precision + 2) 6

/-- `LUT.precision` for one axis (lut/lut.py:345-349): minus the decimal exponent of the node
spacing in coordinates. -/
def precision (spacing : ℚ) : ℤ := -Int.log 10 |spacing|

/-- `LUT` properties used: spacing of neighbouring nodes in coordinates, and whether the unit is km
(lut/lut.py:337-363). -/
structure Lut where
  sx : ℚ
  sy : ℚ
  sz : ℚ
  km : Bool

/-- Results of locating an event: what is passed to `Event(...)`, `add_compute_output`,
`add_spline_location`, `add_gaussian_location`, `add_covariance_location` and, if magnitudes are
calculated, `add_local_magnitude` (io/event.py:160-370). -/
structure Results where
  uid : Str
  trigCoa : Cell
  decCoa : Cell
  decCoaNorm : Cell
  dt : Str
  coa : Cell
  coaNorm : Cell
  x : Cell
  y : Cell
  z : Cell
  gx : Cell
  gy : Cell
  gz : Cell
  gex : Cell
  gey : Cell
  gez : Cell
  cx : Cell
  cy : Cell
  cz : Cell
  cex : Cell
  cey : Cell
  cez : Cell
  cexyz : Cell
  ml : Option (Cell × Cell × Cell)

/-- The `Event` object holding the results (io/event.py:160-370, 548-556). -/
def Results.event (r : Results) : Event where
  uid := r.uid
  triggerInfo := [("TRIG_COA".toList, r.trigCoa), ("DEC_COA".toList, r.decCoa),
    ("DEC_COA_NORM".toList, r.decCoaNorm)]
  localmag := match r.ml with
    | none => []
    | some (a, b, c) => [("ML".toList, a), ("ML_Err".toList, b), ("ML_r2".toList, c)]
  maxCoalescence := [("DT".toList, .text r.dt), ("COA".toList, r.coa),
    ("COA_NORM".toList, r.coaNorm)]
  spline := splineDict r.x r.y r.z
  gaussian := gaussianDict r.gx r.gy r.gz r.gex r.gey r.gez
  covariance := covarianceDict r.cx r.cy r.cz r.cex r.cey r.cez r.cexyz

/-- Rounding of a list of columns in turn (io/event.py:494-497). -/
def roundCols (d : ℤ) : List Str → Dict → Except Err Dict
  | [], t => .ok t
  | c :: cs, t => do roundCols d cs (← mapCol c (Cell.round d) t)

/-- `Event.write` (io/event.py:441-508): the row of the table written. -/
def write (e : Event) (l : Lut) : Except Err Dict :=
  match (columns e).mapM (fun c => ((outDict e).get c).map (fun v => (c, v))) with
  | none => .error .keyError
  | some t => do
    -- io/event.py:479-481
    let t := t.map fun kv => (kv.1, if "COA".toList <:+: kv.1 then kv.2.sig 4 else kv.2)
    -- io/event.py:483-497
    let t ← roundCols (decimalsXY (precision l.sx)) ["X".toList, "GAU_X".toList] t
    let t ← roundCols (decimalsXY (precision l.sy)) ["Y".toList, "GAU_Y".toList] t
    let t ← roundCols (decimalsZ l.km (precision l.sz))
      (["Z".toList, "GAU_Z".toList] ++ (t.map Prod.fst).filter isErr ++ ["COV_Err_XYZ".toList]) t
    -- io/event.py:499-504
    let t := if (e.localmag.get "ML".toList).isSome then
        t.map fun kv => (kv.1, if kv.1 ∈ ["ML".toList, "ML_Err".toList, "ML_r2".toList] then
          kv.2.sig 3 else kv.2)
      else t
    pure t

end QM.EventFile
