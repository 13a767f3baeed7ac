import Verif.Model.Stations

/-!
# Model of the lines of the station file for snuffler

`snuffler_stations` (export/to_snuffler.py:14-55), with all fields of a line.
-/

namespace QM.SnufflerFile

open QM.Stations

/-- A row of the table of stations (export/to_snuffler.py:38-52). -/
structure Row where
  station : Station
  lat : ℚ
  lon : ℚ
  elevation : ℚ
deriving DecidableEq

/-- A line of the file: `{nw}.{stat}. {lat} {lon} {elev} {dep}` (export/to_snuffler.py:35, 46-53). -/
structure Line where
  nw : Str
  stat : Str
  lat : ℚ
  lon : ℚ
  elev : ℚ
  dep : ℚ
deriving DecidableEq

/-- The loop of `snuffler_stations` (export/to_snuffler.py:38-55); `network_code` is overwritten in it. -/
def lines : Option Str → List Row → List Line
  | _, [] => []
  | code, r :: rest =>
    let code := match code with
      | some c => c
      | none => match r.station.network with
        | some n => n
        | none => []
    ⟨code, r.station.name, r.lat, r.lon, r.elevation, 0⟩ :: lines (some code) rest

/-- The table of stations that `read_stations` makes of a row of a station file with latitude, longitude, elevation and
name, for a printing of names (io/core.py:90-98). -/
def tableRow (name : ℚ → Str) (r : List ℚ) : Row :=
  ⟨⟨name (r.getD 3 0), none⟩, r.getD 0 0, r.getD 1 0, r.getD 2 0⟩

end QM.SnufflerFile
