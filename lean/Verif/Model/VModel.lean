import Verif.Model.Grid
import Mathlib.Data.List.Sort
import Mathlib.Data.List.MinMax

/-!
# Model of 1-D velocity models: `_compute_1d_fmm` (lut/create_lut.py:268-328), `_eikonal_fmm`
(lut/create_lut.py:331-384), `_vmodel_string` and `_velocity_gradient` (lut/create_lut.py:765-839)

Floats are idealised as rationals.  The solver of the eikonal equation (scikit-fmm) is a parameter, and
so is the largest float.  Rows of the velocity model are numbered from zero, as `read_vmodel` returns
them (io/core.py:180-185); the numbers in the text written for NonLinLoc are exact.
-/

namespace QM.VModel

open QM.Grid

/-- Text (lut/create_lut.py:294). -/
abbrev Str := List Char

/-- One row of the velocity model: depth, and velocity of the phase in question
(lut/create_lut.py:294). -/
structure Row where
  depth : ℚ
  vel : ℚ
deriving DecidableEq, Repr

/-- Raised by `_compute_1d_fmm`: a missing column (lut/create_lut.py:296), no rows (IndexError,
lut/create_lut.py:300), stations out of the grid or a depth out of the range of floats
(lut/create_lut.py:306-313, 317). -/
inductive Err where
  | header | indexError | valueError
deriving DecidableEq, Repr

/-- `np.interp`, which `interp1d` uses here (scipy, called at lut/create_lut.py:316-317), from a row that
is not below `z`: the last row not below, and the line to the next. -/
def interpFrom (r : Row) : List Row → ℚ → ℚ
  | [], _ => r.vel
  | s :: rs, z =>
    if s.depth ≤ z then interpFrom s rs z
    else (s.vel - r.vel) / (s.depth - r.depth) * (z - r.depth) + r.vel

/-- `interp1d(depths, vmodel)(z)` (scipy, called at lut/create_lut.py:316-317): sorts by depth, refuses
depths out of range. -/
def interp1d (rows : List Row) (z : ℚ) : Except Err ℚ :=
  match rows.insertionSort (fun a b => a.depth ≤ b.depth) with
  | [] => .error .valueError
  | r :: rs =>
    if z < r.depth ∨ ((rs.getLast?).getD r).depth < z then .error .valueError
    else .ok (interpFrom r rs z)

/-- The model with a row at either end of the range of floats (lut/create_lut.py:298-300); `big` is
`np.finfo(float).max`. -/
def extend (big : ℚ) (rows : List Row) : Except Err (List Row) :=
  match rows.head?, rows.getLast? with
  | some r, some l => .ok (⟨-big, r.vel⟩ :: (rows ++ [⟨big, l.vel⟩]))
  | _, _ => .error .indexError

/-- The velocity at depth `z` of the grid given to the solver (lut/create_lut.py:298-300, 316-317). -/
def velocityAt (big : ℚ) (rows : List Row) (z : ℚ) : Except Err ℚ :=
  match extend big rows with
  | .error e => .error e
  | .ok l => interp1d l z

/-- `abs(...) + abs(...) + abs(...)` (lut/create_lut.py:379-383). -/
def taxicab (g : Grid) (station : V3 ℚ) (v : V3 ℕ) : ℚ :=
  let x := index2grid g (fun a => (v a : ℤ))
  |x 0 - station 0| + |x 1 - station 1| + |x 2 - station 2|

/-- The node where the wave starts (lut/create_lut.py:377-384): the first with the least distance. -/
def sourceNode (g : Grid) (station : V3 ℚ) : Option (V3 ℕ) := (allNodes g.count).argmin (taxicab g station)

/-- Whether some station is out of the grid (lut/create_lut.py:306-308); `ur` is the corner asked for,
which the nodes reach or exceed. -/
def outside (ll ur : V3 ℚ) (stations : List (Str × V3 ℚ)) : Bool :=
  stations.any fun s => decide ((s.2 0 < ll 0 ∨ s.2 1 < ll 1 ∨ s.2 2 < ll 2) ∨
    (ur 0 < s.2 0 ∨ ur 1 < s.2 1 ∨ ur 2 < s.2 2))

/-- `_compute_1d_fmm` (lut/create_lut.py:268-328).  `column` is the column of the phase, absent if the
header lacks it or the depths; `eikonal` the solver, given velocities and the node the wave starts
from.  Simplified: the velocities are an opaque function of depth, and errors of `interp1d` at the
nodes are left to `velocityAt`. -/
def compute1dFmm {T : Type} (eikonal : (ℚ → Except Err ℚ) → V3 ℕ → T) (big : ℚ) (g : Grid) (ur : V3 ℚ)
    (column : Option (List Row)) (stations : List (Str × V3 ℚ)) :
    Except Err (List (Str × Option T)) :=
  match column with
  | none => .error .header
  | some rows =>
    if rows = [] then .error .indexError
    else if outside g.ll ur stations then .error .valueError
    else .ok (stations.map fun s =>
      (s.1, (sourceNode g s.2).map (eikonal (velocityAt big rows))))

/-- A line `LAYER depth v gradient v gradient 0.0 0.0` (lut/create_lut.py:788). -/
structure Layer where
  depth : ℚ
  vel : ℚ
  grad : ℚ
deriving DecidableEq, Repr

/-- `_velocity_gradient(i, vmodel, phase)` (lut/create_lut.py:815-839), `none` = KeyError: there is no
row `i + 1`. -/
def gradient (rows : List Row) (i : ℕ) : Option ℚ :=
  match rows[i + 1]?, rows[i]? with
  | some s, some r => some ((s.vel - r.vel) / (s.depth - r.depth))
  | _, _ => none

/-- `_vmodel_string` (lut/create_lut.py:788-812) as a list of layers. -/
def layers (block : Bool) (rows : List Row) : List Layer :=
  (List.range rows.length).filterMap fun i =>
    match rows[i]? with
    | none => none
    | some r =>
      let dvdx := if !block then (gradient rows i).getD 0 else 0
      some ⟨r.depth, r.vel, dvdx⟩

/-- `vmodel / km_cf` (lut/create_lut.py:458), `km_cf` being 1000 for a grid in metres and 1 for one in
kilometres. -/
def toKm (cf : ℚ) (rows : List Row) : List Row := rows.map fun r => ⟨r.depth / cf, r.vel / cf⟩

end QM.VModel
