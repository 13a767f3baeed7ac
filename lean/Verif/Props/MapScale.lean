import Verif.Model.MapScale
import Verif.Props.MapPlot
import Mathlib.Tactic.FieldSimp

/-!
# C194: proportions and scale bar of the maps
-/

namespace QM
open QM.Grid QM.Extent QM.MapScale

/-! ## Specification -/

/-- Where an axis with this aspect ratio shows a point, `unit` being the width of one unit of the horizontal axis. -/
def Spec.onPage (unit aspect : ℚ) (c : V3 ℚ) : ℚ × ℚ := (unit * c 0, unit * aspect * c 1)

/-! ## Proof -/

/-- C194: whatever the projection, the map is as wide and as high as the grid is long on its two axes, and the scale bar
covers the part of the width of the map that its label is of the length of the grid; its length is a whole number of
cells, a tenth of the grid at least and less than one cell longer. -/
theorem C194_frame (P : Projection) (g : Grid.Grid) (hs : ∀ a, 0 < g.spacing a) (hc : ∀ a, 0 < g.count a)
    (he : ∀ a, (gridExtent P g true).1 a ≠ (gridExtent P g true).2 a) (unit : ℚ) (hu : 0 < unit) :
    ∃ k : ℚ, 0 < k ∧
      |(Spec.onPage unit (aspect P g) (gridExtent P g true).2).1 - (Spec.onPage unit (aspect P g) (gridExtent P g true).1).1| =
        k * (g.spacing 0 * g.count 0) ∧
      |(Spec.onPage unit (aspect P g) (gridExtent P g true).2).2 - (Spec.onPage unit (aspect P g) (gridExtent P g true).1).2| =
        k * (g.spacing 1 * g.count 1) ∧
      unit * barSize P g = k * barLength g ∧
      (∃ m : ℕ, barLength g = m * g.spacing 0) ∧
      g.spacing 0 * g.count 0 ≤ 10 * barLength g ∧ 10 * barLength g < g.spacing 0 * g.count 0 + 10 * g.spacing 0 := by
  have hE : ∀ a, 0 < extent P g a := fun a => abs_pos.2 (sub_ne_zero.2 (he a).symm)
  have hG : ∀ a, 0 < gridSize g a := fun a => mul_pos (hs a) (by exact_mod_cast hc a)
  have hA : 0 < aspect P g := div_pos (mul_pos (hE 0) (hG 1)) (mul_pos (hE 1) (hG 0))
  have e0 := hE 0
  have e1 := hE 1
  have g0 := hG 0
  have g1 := hG 1
  refine ⟨unit * extent P g 0 / gridSize g 0, by positivity, ?_, ?_, ?_, ?_, ?_, ?_⟩
  · unfold Spec.onPage
    rw [← mul_sub, abs_mul, abs_of_pos hu]
    change unit * extent P g 0 = _ * gridSize g 0
    field_simp
  · unfold Spec.onPage
    rw [← mul_sub, abs_mul, abs_of_pos (mul_pos hu hA)]
    change unit * aspect P g * extent P g 1 = _ * gridSize g 1
    unfold aspect
    field_simp
  · unfold barSize
    field_simp
  · have hpos : 0 ≤ ⌈(g.count 0 : ℚ) / 10⌉ := Int.ceil_nonneg (by positivity)
    obtain ⟨m, hm⟩ := Int.eq_ofNat_of_zero_le hpos
    exact ⟨m, by unfold barLength; rw [hm]; norm_cast⟩
  · unfold barLength
    have h1 := Int.le_ceil ((g.count 0 : ℚ) / 10)
    have h2 := hs 0
    nlinarith
  · unfold barLength
    have h1 := Int.ceil_lt_add_one ((g.count 0 : ℚ) / 10)
    have h2 := hs 0
    nlinarith

/-- C194: for a projection that is a straight line on every axis, equal distances in the grid are equal on the page, along
either axis and anywhere on the map, and the scale bar has the length on the page that its label has.  Missing: curved
projections. -/
theorem C194_distances_partial (P : Projection) (slope : Fin 3 → ℚ) (hP : Spec.Straight P slope) (g : Grid.Grid)
    (hs : ∀ a, 0 < g.spacing a) (hc : ∀ a, 0 < g.count a) (unit : ℚ) (hu : 0 < unit) :
    ∃ k : ℚ, 0 < k ∧ unit * barSize P g = k * barLength g ∧ ∀ x y : V3 ℚ,
      |(Spec.onPage unit (aspect P g) (P.inv x)).1 - (Spec.onPage unit (aspect P g) (P.inv y)).1| = k * |x 0 - y 0| ∧
      |(Spec.onPage unit (aspect P g) (P.inv x)).2 - (Spec.onPage unit (aspect P g) (P.inv y)).2| = k * |x 1 - y 1| := by
  obtain ⟨hne, c, hinv⟩ := hP
  have hx : ∀ a, extent P g a = |slope a| * gridSize g a := by
    intro a
    have hca : (0 : ℚ) < g.count a := by exact_mod_cast hc a
    unfold extent gridExtent
    simp only [if_true, endCorners_eq, hinv]
    unfold gridSize
    rw [← abs_of_pos (mul_pos (hs a) hca), ← abs_mul]
    congr 1
    ring
  have hG : ∀ a, 0 < gridSize g a := fun a => mul_pos (hs a) (by exact_mod_cast hc a)
  have g0 := hG 0
  have g1 := hG 1
  have s0 : 0 < |slope 0| := abs_pos.2 (hne 0)
  have s1 : 0 < |slope 1| := abs_pos.2 (hne 1)
  have hA : aspect P g = |slope 0| / |slope 1| := by
    unfold aspect
    rw [hx, hx]
    field_simp
  refine ⟨unit * |slope 0|, by positivity, ?_, fun x y => ⟨?_, ?_⟩⟩
  · unfold barSize
    rw [hx]
    field_simp
  · unfold Spec.onPage
    rw [← mul_sub, abs_mul, abs_of_pos hu, hinv, hinv, mul_assoc, ← abs_mul]
    congr 2
    ring
  · unfold Spec.onPage
    rw [← mul_sub, abs_mul, hA, abs_of_pos (by positivity), hinv, hinv]
    have : c 1 + slope 1 * x 1 - (c 1 + slope 1 * y 1) = slope 1 * (x 1 - y 1) := by ring
    rw [this, abs_mul]
    field_simp

/-- C194 is false of the code for curved projections: on this map (coordinates are squares of grid coordinates on the
first axis) the scale bar labelled 2 is three times as long as the distance of 2 at the left edge of the grid. -/
theorem C194_violated (unit asp : ℚ) :
    barLength ⟨![1, 0, 0], ![2, 1, 1], ![3, 1, 1]⟩ = 2 ∧
    unit * barSize squares ⟨![1, 0, 0], ![2, 1, 1], ![3, 1, 1]⟩ =
      3 * ((Spec.onPage unit asp (squares.inv ![2, 0, 0])).1 - (Spec.onPage unit asp (squares.inv ![0, 0, 0])).1) := by
  have h1 : barLength ⟨![1, 0, 0], ![2, 1, 1], ![3, 1, 1]⟩ = 2 := by decide +kernel
  have h2 : barSize squares ⟨![1, 0, 0], ![2, 1, 1], ![3, 1, 1]⟩ = 12 := by decide +kernel
  refine ⟨h1, ?_⟩
  rw [h2]
  simp [Spec.onPage, squares]
  ring

/-- A grid of 25 by 10 cells of 2 by 1 units: the scale bar has three cells. -/
example : barLength ⟨![1, 0, 0], ![2, 1, 1], ![25, 10, 4]⟩ = 6 ∧ aspect squares ⟨![1, 0, 0], ![2, 1, 1], ![25, 10, 4]⟩ = 50 ∧
    ∀ a, (gridExtent squares ⟨![1, 0, 0], ![2, 1, 1], ![25, 10, 4]⟩ true).1 a ≠
      (gridExtent squares ⟨![1, 0, 0], ![2, 1, 1], ![25, 10, 4]⟩ true).2 a := by decide +kernel

end QM
