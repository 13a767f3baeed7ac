import Verif.Model.Doubles

/-!
# The grid of a lookup table in double precision, along one axis

As `Grid.mkGrid`, `Grid.index2grid` and `Grid.grid2index`, with every operation rounded to doubles.  Corners and spacing are
doubles in the units of the grid.
-/

namespace QM.GridDoubles

open QM.Doubles

/-- `np.ceil(grid_dims / node_spacing) + 1`, made an integer by the setter (lut/lut.py:98-100, 259-263). -/
def count (ll ur sp : ℚ) : ℤ := ⌈fl (fl (ur - ll) / sp)⌉ + 1

/-- `ll_corner + (value * node_spacing)` (lut/lut.py:174). -/
def node (ll sp : ℚ) (i : ℤ) : ℚ := fl (ll + fl (i * sp))

/-- `np.rint((value - ll_corner) / node_spacing)` (lut/lut.py:171-172). -/
def indexOf (ll sp x : ℚ) : ℤ := pyRound (fl (fl (x - ll) / sp))

end QM.GridDoubles
