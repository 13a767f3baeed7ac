import Verif.Model.Grid
import Verif.Model.ComputeStep

/-!
# The lookup table as the scan sees it

`LUT` objects (`Grid.Lut`) hold their traveltimes as nested dictionaries of 3-D arrays; the scan reads them through
`self[station][phase]` and flattens the arrays in C order.
-/

namespace QM.DecimatedScan
open QM.Grid

/-- Value of a 3-D array at position `node` of its C-order flattening; core/lib.py:87-101 passes the stacked
arrays to C as contiguous memory.  Positions outside the array are never read (they give 0 here). -/
def flatAt (n : V3 ℕ) (t : Table) (node : ℕ) : ℚ :=
  (t.at (node / n 2 / n 1) (node / n 2 % n 1) (node % n 2)).getD 0

/-- What a scan reads of a `LUT`: the stations of `station_data` (lut/lut.py:592), `phases` (lut/lut.py:845),
`self[station][phase]` (lut/lut.py:596-602, 921-943) and the number of nodes (lut/lut.py:253-263). -/
def toScan (L : Lut) : Compute.Lut where
  stations := L.stationData
  phases := L.phases
  table := fun s => (dictGet L.traveltimes s).map fun d p => (dictGet d p).map (flatAt L.grid.count)
  nNodes := L.grid.count 0 * L.grid.count 1 * L.grid.count 2

end QM.DecimatedScan
