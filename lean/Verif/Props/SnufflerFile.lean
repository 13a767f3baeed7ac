import Verif.Model.SnufflerFile

/-!
# C192: the station file for snuffler
-/

namespace QM
open QM.Stations QM.SnufflerFile

/-- A station file with the columns in the documented order. -/
def Spec.stationFile (rows : List (ℚ × ℚ × ℚ × ℚ)) : File :=
  ⟨["Latitude", "Longitude", "Elevation", "Name"], rows.map fun r => [r.1, r.2.1, r.2.2.1, r.2.2.2]⟩

private theorem lines_map (code : Option Str) (l : List Row) :
    (lines code l).map (fun x => (x.stat, x.lat, x.lon, x.elev, x.dep)) =
      l.map fun r => (r.station.name, r.lat, r.lon, r.elevation, 0) := by
  induction l generalizing code with
  | nil => rfl
  | cons r l ih =>
    simp only [lines, List.map_cons, ih]

private theorem read_rows (rows : List (ℚ × ℚ × ℚ × ℚ)) :
    readStations (Spec.stationFile rows) =
      .ok ⟨["Latitude", "Longitude", "Elevation", "Name"], rows.map fun r => [r.1, r.2.1, -1 * r.2.2.1, r.2.2.2]⟩ := by
  have e : pyOr ["Latitude", "Longitude", "Elevation", "Name"] = "Latitude" := by decide
  unfold readStations Spec.stationFile
  rw [e]
  simp only [List.mem_cons, true_or, not_true_eq_false, if_false]
  have hi : List.findIdx? (fun c => decide (c = "Elevation")) ["Latitude", "Longitude", "Elevation", "Name"] = some 2 := by
    decide
  rw [hi]
  simp only [List.not_mem_nil, or_false, List.map_map]
  rw [if_neg (by decide)]
  rfl

/-- C192 (partial): a station file, read and written for snuffler, gives one line per station, in the order of the file,
with its own name, latitude and longitude and with zero depth; the network code is the one given, if one is given.  The
elevation written is minus that of the file.  Missing: the elevation, see `C192_violated`. -/
theorem C192_lines_partial (name : ℚ → Str) (code : Option Str) (rows : List (ℚ × ℚ × ℚ × ℚ)) :
    ∃ t, readStations (Spec.stationFile rows) = .ok t ∧
      (lines code (t.rows.map (tableRow name))).map (fun x => (x.stat, x.lat, x.lon, x.elev, x.dep)) =
        rows.map (fun r => (name r.2.2.2, r.1, r.2.1, -r.2.2.1, 0)) ∧
      ∀ c, code = some c → ∀ x ∈ lines code (t.rows.map (tableRow name)), x.nw = c := by
  refine ⟨_, read_rows rows, ?_, ?_⟩
  · rw [lines_map, List.map_map, List.map_map]
    refine List.map_congr_left fun r _ => ?_
    simp [tableRow]
  · rintro c rfl
    generalize (List.map (tableRow name) _) = l
    induction l with
    | nil => simp [lines]
    | cons r l ih =>
      intro x hx
      simp only [lines, List.mem_cons] at hx
      rcases hx with rfl | hx
      · rfl
      · exact ih x hx

/-- C192 is violated: no station that is above or below sea level gets its elevation, in whatever positive unit `u` the
line is read. -/
theorem C192_violated (name : ℚ → Str) (code : Option Str) (lat lon elevation n u : ℚ) (he : elevation ≠ 0) (hu : 0 < u) :
    ∃ t, readStations (Spec.stationFile [(lat, lon, elevation, n)]) = .ok t ∧
      ∃ x, lines code (t.rows.map (tableRow name)) = [x] ∧ x.elev * u ≠ elevation := by
  refine ⟨_, read_rows _, _, rfl, ?_⟩
  change (-1 * elevation) * u ≠ elevation
  intro h
  have : elevation * (1 + u) = 0 := by linarith
  rcases mul_eq_zero.1 this with h1 | h1
  · exact he h1
  · linarith

/-- Two stations; the first is 500 m above sea level. -/
example : (readStations (Spec.stationFile [(60, 10, 500, 1), (61, 11, 0, 2)])).toOption.map
      (fun t => lines none (t.rows.map (tableRow fun _ => ['A']))) =
    some [⟨[], ['A'], 60, 10, -500, 0⟩, ⟨[], ['A'], 61, 11, 0, 0⟩] := by decide +kernel

end QM
