import Verif.Model.EventFile
import Verif.Model.Stations

/-!
# Model of the writing of `.amps` and `.picks` files, and of the distances in the former

`write_amplitudes` (io/amplitudes.py:14-69), `PhasePicker.write` (signal/pickers/base.py:56-89) and
`Amplitude._get_distances` (signal/local_mag/amplitude.py:373-410).  Numbers are rationals.
-/

namespace QM.AmpsWrite

open QM.EventFile (Str Cell)

/-- A pandas table: names of the columns and rows of cells (io/amplitudes.py:41). -/
structure Table where
  cols : List Str
  rows : List (List Cell)
deriving DecidableEq, Repr

/-- `table[col] = table[col].map(lambda x: f"{x:.ng}", na_action="ignore")` (io/amplitudes.py:54);
`none` = KeyError. -/
def Table.sigCol (t : Table) (col : Str) (n : ℕ) : Option Table :=
  if col ∈ t.cols then
    some { t with rows := t.rows.map fun r =>
      List.zipWith (fun c v => if c = col then Cell.sig n v else v) t.cols r }
  else none

/-- The loops over columns (io/amplitudes.py:44-64, signal/pickers/base.py:82-85). -/
def Table.sigCols (t : Table) : List (Str × ℕ) → Option Table
  | [] => some t
  | (c, n) :: rest =>
    match t.sigCol c n with
    | none => none
    | some t' => t'.sigCols rest

/-- The formats of the columns of amplitudes (io/amplitudes.py:44-58). -/
def ampFormats : List (Str × ℕ) :=
  [("epi_dist".toList, 5), ("z_dist".toList, 5), ("P_amp".toList, 5), ("P_avg_amp".toList, 5),
    ("S_amp".toList, 5), ("S_avg_amp".toList, 5), ("Noise_amp".toList, 5), ("P_freq".toList, 2),
    ("S_freq".toList, 2), ("P_filter_gain".toList, 3), ("S_filter_gain".toList, 3)]

/-- The formats of the columns of magnitudes (io/amplitudes.py:59-64). -/
def magFormats (cols : List Str) : List (Str × ℕ) :=
  if "ML".toList ∈ cols then [("ML".toList, 3), ("ML_Err".toList, 3)] else []

/-- `write_amplitudes` (io/amplitudes.py:41-69): the table written to the file, and the table of the
caller afterwards, which is the one given since a copy is changed. -/
def writeAmplitudes (t : Table) : Option (Table × Table) :=
  match t.sigCols (ampFormats ++ magFormats t.cols) with
  | none => none
  | some t' => some (t', t)

/-- `PhasePicker.write` (signal/pickers/base.py:78-89). -/
def writePicks (t : Table) : Option (Table × Table) :=
  match t.sigCols [("PickError".toList, 3), ("SNR".toList, 3)] with
  | none => none
  | some t' => some (t', t)

/-- `_get_distances` (amplitude.py:396-410): epicentral and vertical distance in kilometres.  `gps` is
`gps2dist_azimuth(lat1, lon1, lat2, lon2)[0]` in metres, `ucf` the unit conversion factor of the grid
projection, locations are longitude, latitude and depth; the station's third value is what the column
`Elevation` of the table of stations holds. -/
def getDistances (gps : ℚ → ℚ → ℚ → ℚ → ℚ) (ucf : ℚ) (evlo evla evdp stla stlo stel : ℚ) : ℚ × ℚ :=
  let kmCf := 1000 / ucf
  (gps evla evlo stla stlo / 1000, (evdp - stel) / kmCf)

end QM.AmpsWrite
