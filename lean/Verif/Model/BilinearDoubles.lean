import Verif.Model.Doubles
import Verif.Model.Grid

/-!
# Interpolating the 2-D tables of NonLinLoc, in double precision

As `Grid.bilinear` and `Grid.nllocShape`, with every operation rounded to doubles, and with the origin and the spacing as
they come back from the files of NonLinLoc: printed with six decimals in its control file (lut/create_lut.py:862) and read
from the header of its grids (`NllocRead`), where they are assumed to be printed with six decimals again.
-/

namespace QM.BilinearDoubles

open QM.Doubles QM.Grid

/-- A double printed with `{:f}` and read again (lut/create_lut.py:862, 636-638). -/
def reread (x : ℚ) : ℚ := fl ((pyRound (x * 1000000) : ℚ) / 1000000)

/-- `np.remainder(x, d)` for doubles, `d > 0`: the C library's `fmod`, which is exact, and `d` added if that is negative
(lut/create_lut.py:749). -/
def remainder (x d : ℚ) : ℚ :=
  let r := x - d * pyInt (x / d)
  if r < 0 then fl (r + d) else r

/-- `np.floor((x - x0) / d)` (lut/create_lut.py:746). -/
def index (x x0 d : ℚ) : ℤ := ⌊fl (fl (x - x0) / d)⌋

/-- `np.remainder(x, d) / d` (lut/create_lut.py:749). -/
def frac (x d : ℚ) : ℚ := fl (remainder x d / d)

/-- `c * (1 - w) + c' * w` (lut/create_lut.py:758-762). -/
def mix (c c' w : ℚ) : ℚ := fl (fl (c * fl (1 - w)) + fl (c' * w))

/-- `_bilinear_interpolate` for one point (lut/create_lut.py:745-762). -/
def bilinear (t : Table2) (x0 z0 dx dz x z : ℚ) : Except Err ℚ :=
  let i := index x x0 dx
  let k := index z z0 dz
  match t.get i k with
  | .error e => .error e
  | .ok c00 =>
    match t.get (i + 1) k with
    | .error e => .error e
    | .ok c10 =>
      match t.get (i + 1) (k + 1) with
      | .error e => .error e
      | .ok c11 =>
        match t.get i (k + 1) with
        | .error e => .error e
        | .ok c01 => .ok (mix (mix c00 c10 (frac x dx)) (mix c01 c11 (frac x dx)) (frac z dz))

/-- The traveltime of a node at distance `x` and depth `z`, from the table of a section that starts at depth `z1` with
spacing `d` (lut/create_lut.py:483-513). -/
def nodeTime (t : Table2) (z1 d x z : ℚ) : Except Err ℚ := bilinear t 0 (reread z1) (reread d) (reread d) x z

end QM.BilinearDoubles
