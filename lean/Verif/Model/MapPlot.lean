import Verif.Model.Extent
import Verif.Lemmas.Lists

/-!
# Model of the map and the sections of the event summary

The slices of `event_summary` (plot/event.py:66-73), the three panels of `LUT.plot` (lut/lut.py:683-711) and the ellipses
of `_make_ellipses` (plot/event.py:376-432).  Represented: the numbers passed to matplotlib.  Not modelled: stations (see
SummaryPlots.lean), scale bar, aspect, labels, colours.  Rationals, not doubles; the map projection is a parameter.
-/

namespace QM.MapPlot

open QM.Grid QM.Extent

/-- The nodes in C order, the order of `np.where` (plot/event.py:68). -/
def nodes (n : V3 ℕ) : List (V3 ℕ) :=
  (List.range (n 0)).flatMap fun i => (List.range (n 1)).flatMap fun j => (List.range (n 2)).map fun k => ![i, j, k]

/-- `idx_max` (plot/event.py:67-68): the first node with the largest valid value; `none` in the map is a value that is
not finite, and so masked.  `none` = IndexError, there is no valid value. -/
def maxNode (n : V3 ℕ) (coa : V3 ℕ → Option ℚ) : Option (V3 ℕ) :=
  firstMaxBy (fun v => (coa v).getD 0) ((nodes n).filter fun v => (coa v).isSome)

/-- A two-dimensional array with its shape (plot/event.py:69-73). -/
structure Slice where
  shape : ℕ × ℕ
  val : ℕ → ℕ → Option ℚ

/-- `slices` (plot/event.py:69-73).  The last is transposed. -/
def slices (n : V3 ℕ) (coa : V3 ℕ → Option ℚ) (v : V3 ℕ) : List Slice :=
  [⟨(n 0, n 1), fun p q => coa ![p, q, v 2]⟩,
   ⟨(n 0, n 2), fun p q => coa ![p, v 1, q]⟩,
   ⟨(n 2, n 1), fun p q => coa ![v 0, q, p]⟩]

/-- One panel: limits, cross-hair, edges of the mesh and colours of its cells (lut/lut.py:692-711). -/
structure Panel where
  xlim : ℚ × ℚ
  ylim : ℚ × ℚ
  cross : ℚ × ℚ
  shape : ℕ × ℕ
  xEdge : ℕ → ℚ
  yEdge : ℕ → ℚ
  colour : ℕ → ℕ → Option ℚ

/-- Entry `p` of `np.mgrid[lo : hi : m * 1j]` (lut/lut.py:710): `m` points from `lo` to `hi`. -/
def mgrid (lo hi : ℚ) (m p : ℕ) : ℚ := lo + p * ((hi - lo) / ((m : ℚ) - 1))

/-- The body of the loop (lut/lut.py:692-711); `none` = IndexError, there is no such slice. -/
def panel (ext : V3 ℚ × V3 ℚ) (hypo : V3 ℚ) (sl : List Slice) (i j : Fin 3) : Option Panel :=
  match sl[i.val + j.val - 1]? with
  | none => none
  | some s =>
    some
      { xlim := (ext.1 i, ext.2 i)
        ylim := (ext.1 j, ext.2 j)
        cross := (hypo i, hypo j)
        shape := s.shape
        xEdge := mgrid (ext.1 i) (ext.2 i) (s.shape.1 + 1)
        yEdge := mgrid (ext.1 j) (ext.2 j) (s.shape.2 + 1)
        colour := s.val }

/-- Map, section along the first axis, section along the second (lut/lut.py:692; plot/event.py:66-73, 99). -/
def mapPanels (P : Projection) (g : Grid.Grid) (coa : V3 ℕ → Option ℚ) (hypo : V3 ℚ) : Option (List Panel) :=
  match maxNode g.count coa with
  | none => none
  | some v => ([(0, 1), (0, 2), (2, 1)] : List (Fin 3 × Fin 3)).mapM fun ij =>
      panel (gridExtent P g true) hypo (slices g.count coa v) ij.1 ij.2

/-- An ellipse: centre, width and height (plot/event.py:410-429). -/
structure Ellipse where
  centre : ℚ × ℚ
  width : ℚ
  height : ℚ
deriving DecidableEq

/-- `_make_ellipses` (plot/event.py:405-432), in the order of the panels.  `coord` is the location and `error` its
uncertainty in grid units. -/
def makeEllipses (P : Projection) (coord error : V3 ℚ) : List Ellipse :=
  let xyz := P.proj coord
  let moved := P.inv fun a => xyz a + error a
  let d : V3 ℚ := fun a => |coord a - moved a|
  let xy : Ellipse := ⟨(coord 0, coord 1), 2 * d 0, 2 * d 1⟩
  let yz : Ellipse := ⟨(coord 2, coord 1), 2 * d 2, 2 * d 1⟩
  let xz : Ellipse := ⟨(coord 0, coord 2), 2 * d 0, 2 * d 2⟩
  [xy, xz, yz]

end QM.MapPlot
