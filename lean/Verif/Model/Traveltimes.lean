import Verif.Model.Grid
import Mathlib.Analysis.Real.Sqrt

/-!
# Model of traveltimes: `LUT.traveltime_to` (lut/lut.py:540-576) and its use for modelled arrivals,
`compute_traveltimes` (lut/create_lut.py:115-238), `_compute_homogeneous`
(lut/create_lut.py:241-265)

Floats are idealised as reals.  Positions are in grid coordinates; the map projection is left out, as
in Grid.lean.  The tables of the methods `1dfmm` and `1dnlloc` are parameters.
-/

namespace QM.Traveltimes

open QM.Grid

/-- Text (lut/create_lut.py:118). -/
abbrev Str := List Char

/-- A table of traveltimes: one value per node (lut/create_lut.py:265). -/
abbrev TableR := V3 ℕ → ℝ

/-- Coordinates of a node, `lut.grid_xyz` (lut/create_lut.py:256; lut/lut.py:328-336). -/
noncomputable def nodeXyz (ll spacing : V3 ℝ) (v : V3 ℕ) : V3 ℝ := fun a => ll a + (v a : ℝ) * spacing a

/-- `dist / velocity` (lut/create_lut.py:262-265). -/
noncomputable def homogeneous (ll spacing station : V3 ℝ) (velocity : ℝ) : TableR := fun v =>
  let d : V3 ℝ := fun a => nodeXyz ll spacing v a - station a
  Real.sqrt (d 0 ^ 2 + d 1 ^ 2 + d 2 ^ 2) / velocity

/-- Raised by `compute_traveltimes` (lut/create_lut.py:192, 204, 211, 221, 228). -/
inductive Err where
  | typeError | notImplemented | valueError
deriving DecidableEq, Repr

/-- The tables of one phase for all stations (lut/create_lut.py:259-265, 318-328). -/
abbrev PhaseTables := List (Str × TableR)

/-- Arguments of `compute_traveltimes` (lut/create_lut.py:115-124).  `velocity` looks up `vp`, `vs`, ...
among the keyword arguments; `vmod` tells whether a velocity model is given; `fmm` and `nlloc` are
the tables these methods compute. -/
structure Args where
  ll : V3 ℝ
  spacing : V3 ℝ
  stations : List (Str × V3 ℝ)
  velocity : Str → Option ℝ
  vmod : Bool
  fmm : Str → PhaseTables
  nlloc : Str → PhaseTables

/-- `phase.lower()` for the letters of phases (lut/create_lut.py:190). -/
def lower (s : Str) : Str := s.map Char.toLower

/-- The loop over phases of the method `homogeneous` (lut/create_lut.py:189-196). -/
noncomputable def homogeneousPhases (a : Args) : List Str → Except Err (List (Str × PhaseTables))
  | [] => .ok []
  | p :: ps =>
    match a.velocity ('v' :: lower p) with
    | none => .error .typeError
    | some v =>
      match homogeneousPhases a ps with
      | .error e => .error e
      | .ok l =>
        .ok ((p, a.stations.map fun s => (s.1, homogeneous a.ll a.spacing s.2 v)) :: l)

/-- The method `homogeneous`, `1dfmm`, ... (lut/create_lut.py:176-232); `1dsweep` is an old name of
`1dnlloc`. -/
noncomputable def computeTraveltimes (a : Args) (method : Str) (phases : List Str) :
    Except Err (List (Str × PhaseTables)) :=
  let method := if method = "1dsweep".toList then "1dnlloc".toList else method
  if method = "homogeneous".toList then homogeneousPhases a phases
  else if method = "1dfmm".toList then
    if ¬ a.vmod then .error .typeError else .ok (phases.map fun p => (p, a.fmm p))
  else if method = "3dfmm".toList then .error .notImplemented
  else if method = "1dnlloc".toList then
    if ¬ a.vmod then .error .typeError else .ok (phases.map fun p => (p, a.nlloc p))
  else .error .valueError

/-- The cell of `RegularGridInterpolator` on one axis with nodes 0, 1, ..., n - 1: `searchsorted - 1`,
clipped so that there is a next node.  Stands for scipy, called at lut/lut.py:570-574. -/
noncomputable def cell (n : ℕ) (x : ℝ) : ℕ := min (⌈x⌉ - 1).toNat (n - 2)

/-- `RegularGridInterpolator(grid, table, bounds_error=False, fill_value=None)(x)` with at least two
nodes on each axis: linear in each direction, and extrapolated.  Stands for scipy, called at
lut/lut.py:570-574. -/
noncomputable def interpolate (n : V3 ℕ) (t : TableR) (x : V3 ℝ) : ℝ :=
  let i : V3 ℕ := fun a => cell (n a) (x a)
  let w : V3 ℝ := fun a => x a - (i a : ℝ)
  (1 - w 0) * ((1 - w 1) * ((1 - w 2) * t ![i 0, i 1, i 2] + w 2 * t ![i 0, i 1, i 2 + 1]) +
      w 1 * ((1 - w 2) * t ![i 0, i 1 + 1, i 2] + w 2 * t ![i 0, i 1 + 1, i 2 + 1])) +
    w 0 * ((1 - w 1) * ((1 - w 2) * t ![i 0 + 1, i 1, i 2] + w 2 * t ![i 0 + 1, i 1, i 2 + 1]) +
      w 1 * ((1 - w 2) * t ![i 0 + 1, i 1 + 1, i 2] + w 2 * t ![i 0 + 1, i 1 + 1, i 2 + 1]))

/-- `np.rint` (lut/lut.py:171): the nearest integer, the even one of two. -/
noncomputable def rintR (x : ℝ) : ℤ :=
  if x - ⌊x⌋ < 1 / 2 then ⌊x⌋
  else if 1 / 2 < x - ⌊x⌋ then ⌊x⌋ + 1
  else if ⌊x⌋ % 2 = 0 then ⌊x⌋ else ⌊x⌋ + 1

/-- `lut.index2coord(location, inverse=True)[0]` (signal/pickers/gaussian.py:151,
signal/local_mag/amplitude.py:262; lut/lut.py:170-172). -/
noncomputable def nodeOf (ll spacing x : V3 ℝ) : V3 ℤ := fun a => rintR ((x a - ll a) / spacing a)

/-- The modelled traveltime of an event (signal/pickers/gaussian.py:151, 173;
signal/local_mag/amplitude.py:262-265). -/
noncomputable def modelled (ll spacing : V3 ℝ) (n : V3 ℕ) (t : TableR) (hypocentre : V3 ℝ) : ℝ :=
  interpolate n t (fun a => (nodeOf ll spacing hypocentre a : ℝ))

end QM.Traveltimes
