import Verif.Model.Extent
import Mathlib.Data.Rat.Floor

/-!
# Model of the scale of the maps

The aspect ratio and the scale bar of `LUT.plot` (lut/lut.py:680-689, 753-760).  Rationals, not doubles.  The label is the
length itself: its printing to three digits is not modelled.
-/

namespace QM.MapScale

open QM.Grid QM.Extent

/-- `extent` (lut/lut.py:682-683). -/
def extent (P : Projection) (g : Grid.Grid) (a : Fin 3) : ℚ :=
  |(gridExtent P g true).2 a - (gridExtent P g true).1 a|

/-- `grid_size` (lut/lut.py:686). -/
def gridSize (g : Grid.Grid) (a : Fin 3) : ℚ := g.spacing a * g.count a

/-- `aspect` (lut/lut.py:687). -/
def aspect (P : Projection) (g : Grid.Grid) : ℚ :=
  extent P g 0 * gridSize g 1 / (extent P g 1 * gridSize g 0)

/-- `length`, the label of the scale bar (lut/lut.py:754-755). -/
def barLength (g : Grid.Grid) : ℚ := (⌈(g.count 0 : ℚ) / 10⌉ : ℤ) * g.spacing 0

/-- `size`, the width of the scale bar in the units of the axis (lut/lut.py:756). -/
def barSize (P : Projection) (g : Grid.Grid) : ℚ := extent P g 0 * barLength g / gridSize g 0

end QM.MapScale
