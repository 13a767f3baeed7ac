import Verif.Model.Grid
import Mathlib.Tactic.Linarith

/-!
# Model of the grid and the network in geographical coordinates

`Grid3D.__init__` with its projected corners (lut/lut.py:87-100), `index2coord` (lut/lut.py:211-243),
`get_grid_extent` (lut/lut.py:298-324), `LUT.max_extent` (lut/lut.py:825-839) and `LUT.station_extent`
(lut/lut.py:847-853).  The map projection (pyproj) is a pair of functions.  Rationals, not doubles.
-/

namespace QM.Extent

open QM.Grid

/-- A projection: `proj` to grid coordinates, `inv` back (lut/lut.py:182-209). -/
structure Projection where
  proj : V3 ℚ → V3 ℚ
  inv : V3 ℚ → V3 ℚ

/-- `Grid3D.__init__`: the two corners are projected (lut/lut.py:87-100). -/
def mkGridGeo (P : Projection) (ll ur : V3 ℚ) (nodeSpacing : List ℚ) : Except Err Grid :=
  mkGrid (P.proj ll) (P.proj ur) nodeSpacing

/-- `index2coord(ijk)` (lut/lut.py:239-241). -/
def index2coord (P : Projection) (g : Grid) (ijk : V3 ℤ) : V3 ℚ := P.inv (index2grid g ijk)

/-- `index2coord(xyz, inverse=True)` (lut/lut.py:236-238). -/
def coord2index (P : Projection) (g : Grid) (c : V3 ℚ) : V3 ℤ := grid2index g (P.proj c)

/-- `index2coord(f, unravel=True)` (lut/lut.py:239-241). -/
def flat2coord (P : Projection) (g : Grid) (f : ℕ) : Except Err (V3 ℚ) :=
  match flat2grid g f with
  | .error e => .error e
  | .ok x => .ok (P.inv x)

/-- `ll, ur = grid_corners[0], grid_corners[-1]` (lut/lut.py:318). -/
def endCorners (g : Grid) : V3 ℚ × V3 ℚ :=
  ((gridCorners g).headD 0, (gridCorners g).getLastD 0)

/-- `get_grid_extent(cells)` (lut/lut.py:298-324). -/
def gridExtent (P : Projection) (g : Grid) (cells : Bool) : V3 ℚ × V3 ℚ :=
  let e := endCorners g
  if cells then
    (P.inv (fun a => e.1 a - g.spacing a / 2), P.inv (fun a => e.2 a + g.spacing a / 2))
  else (P.inv e.1, P.inv e.2)

/-- `station_extent` (lut/lut.py:847-853); `none` = `ValueError` (no stations). -/
def stationExtent (stations : List (V3 ℚ)) : Option (V3 ℚ × V3 ℚ) :=
  match stations with
  | [] => none
  | s :: ss => some (fun a => ss.foldl (fun m t => min m (t a)) (s a),
      fun a => ss.foldl (fun m t => max m (t a)) (s a))

/-- `max_extent` (lut/lut.py:825-839). -/
def maxExtent (P : Projection) (g : Grid) (stations : List (V3 ℚ)) : Option (V3 ℚ × V3 ℚ) :=
  match stationExtent stations with
  | none => none
  | some (smin, smax) =>
    let e := gridExtent P g true
    let lo : V3 ℚ := fun a => min (smin a) (e.1 a)
    let hi : V3 ℚ := fun a => max (smax a) (e.2 a)
    some (fun a => lo a - 5 / 100 * |hi a - lo a|, fun a => hi a + 5 / 100 * |hi a - lo a|)

end QM.Extent
