import Verif.Model.MapPlot
import Verif.Props.Extent

/-!
# C153: the map and sections of the event summary
-/

namespace QM

open Grid Extent MapPlot

/-- The panels of the figure: horizontal axis, vertical axis, and the axis cut by the plane shown. -/
def Spec.panelAxes : List (Fin 3 × Fin 3 × Fin 3) := [(0, 1, 2), (0, 2, 1), (2, 1, 0)]

/-- Axes one by one, each by a straight line that is not constant. -/
def Spec.Straight (P : Projection) (slope : Fin 3 → ℚ) : Prop :=
  (∀ a, slope a ≠ 0) ∧ ∃ c : Fin 3 → ℚ, ∀ x a, P.inv x a = c a + slope a * x a

theorem mem_mapNodes {n v : V3 ℕ} : v ∈ nodes n ↔ ∀ a, v a < n a := by
  unfold nodes
  simp only [List.mem_flatMap, List.mem_map, List.mem_range]
  constructor
  · rintro ⟨i, hi, j, hj, k, hk, rfl⟩ a
    fin_cases a
    · exact hi
    · exact hj
    · exact hk
  · intro h
    refine ⟨v 0, h 0, v 1, h 1, v 2, h 2, ?_⟩
    funext a
    fin_cases a <;> rfl

theorem mapNode_eta (v : V3 ℕ) : ![v 0, v 1, v 2] = v := by
  funext a
  fin_cases a <;> rfl

theorem mapMax_spec {n : V3 ℕ} {coa : V3 ℕ → Option ℚ} {v : V3 ℕ} (h : maxNode n coa = some v) :
    (∀ a, v a < n a) ∧ ∃ M, coa v = some M ∧ ∀ u, (∀ a, u a < n a) → ∀ x, coa u = some x → x ≤ M := by
  obtain ⟨pre, post, h1, h2, h3⟩ := firstMaxBy_spec h
  have hv : v ∈ (nodes n).filter fun v => (coa v).isSome := by rw [h1]; simp
  obtain ⟨hv1, hv2⟩ := List.mem_filter.1 hv
  obtain ⟨M, hM⟩ := Option.isSome_iff_exists.1 hv2
  refine ⟨mem_mapNodes.1 hv1, M, hM, ?_⟩
  intro u hu x hx
  have hm : u ∈ (nodes n).filter fun v => (coa v).isSome := List.mem_filter.2 ⟨mem_mapNodes.2 hu, by simp [hx]⟩
  rw [h1] at hm
  rcases List.mem_append.1 hm with hm | hm
  · have := h2 u hm
    simp only [hx, hM, Option.getD_some] at this
    exact this.le
  · rcases List.mem_cons.1 hm with rfl | hm
    · rw [hx] at hM
      simp only [Option.some.injEq] at hM
      exact hM.le
    · have := h3 u hm
      simpa only [hx, hM, Option.getD_some] using this

theorem mapMax_isSome {n : V3 ℕ} {coa : V3 ℕ → Option ℚ} {u : V3 ℕ} (hu : ∀ a, u a < n a) {x : ℚ} (hx : coa u = some x) :
    ∃ v, maxNode n coa = some v := by
  apply firstMaxBy_isSome
  intro h
  have : u ∈ (nodes n).filter fun v => (coa v).isSome := List.mem_filter.2 ⟨mem_mapNodes.2 hu, by simp [hx]⟩
  rw [h] at this
  simp at this

/-- C153: if the map has any valid value there is a figure; its map and sections are planes through one and the same
node, at which the coalescence is largest, every cell has the value of its node, and the cross-hair is at the
hypocentre. -/
theorem C153_planes (P : Projection) (g : Grid.Grid) (coa : V3 ℕ → Option ℚ) (hypo : V3 ℚ)
    (hv : ∃ u : V3 ℕ, (∀ a, u a < g.count a) ∧ ∃ x, coa u = some x) :
    ∃ ps v M, mapPanels P g coa hypo = some ps ∧ (∀ a, v a < g.count a) ∧ coa v = some M ∧
      (∀ u, (∀ a, u a < g.count a) → ∀ x, coa u = some x → x ≤ M) ∧
      List.Forall₂ (fun (ax : Fin 3 × Fin 3 × Fin 3) (pn : MapPlot.Panel) =>
        pn.shape = (g.count ax.1, g.count ax.2.1) ∧ pn.cross = (hypo ax.1, hypo ax.2.1) ∧
        ∀ u : V3 ℕ, u ax.2.2 = v ax.2.2 → pn.colour (u ax.1) (u ax.2.1) = coa u) Spec.panelAxes ps := by
  obtain ⟨u, hu, x, hx⟩ := hv
  obtain ⟨v, hv⟩ := mapMax_isSome hu hx
  obtain ⟨h1, M, h2, h3⟩ := mapMax_spec hv
  obtain ⟨ps, hps⟩ : ∃ ps, mapPanels P g coa hypo = some ps := by
    unfold mapPanels
    rw [hv]
    exact ⟨_, rfl⟩
  refine ⟨ps, v, M, hps, h1, h2, h3, ?_⟩
  · unfold mapPanels at hps
    rw [hv] at hps
    simp only at hps
    have h' : some _ = some ps := hps
    rw [Option.some.injEq] at h'
    rw [← h']
    refine .cons ⟨rfl, rfl, ?_⟩ (.cons ⟨rfl, rfl, ?_⟩ (.cons ⟨rfl, rfl, ?_⟩ .nil))
    · intro u hu
      show coa ![u 0, u 1, v 2] = coa u
      rw [← show u 2 = v 2 from hu, mapNode_eta]
    · intro u hu
      show coa ![u 0, v 1, u 2] = coa u
      rw [← show u 1 = v 1 from hu, mapNode_eta]
    · intro u hu
      show coa ![v 0, u 1, u 2] = coa u
      rw [← show u 0 = v 0 from hu, mapNode_eta]

theorem mapPanels_edges {P : Projection} {g : Grid.Grid} {coa : V3 ℕ → Option ℚ} {hypo : V3 ℚ} {ps : List MapPlot.Panel}
    (h : mapPanels P g coa hypo = some ps) :
    List.Forall₂ (fun (ax : Fin 3 × Fin 3 × Fin 3) (pn : MapPlot.Panel) =>
      pn.xlim = ((gridExtent P g true).1 ax.1, (gridExtent P g true).2 ax.1) ∧
      pn.ylim = ((gridExtent P g true).1 ax.2.1, (gridExtent P g true).2 ax.2.1) ∧
      pn.xEdge = mgrid ((gridExtent P g true).1 ax.1) ((gridExtent P g true).2 ax.1) (g.count ax.1 + 1) ∧
      pn.yEdge = mgrid ((gridExtent P g true).1 ax.2.1) ((gridExtent P g true).2 ax.2.1) (g.count ax.2.1 + 1))
      Spec.panelAxes ps := by
  unfold mapPanels at h
  cases hv : maxNode g.count coa with
  | none => rw [hv] at h; simp at h
  | some v =>
    rw [hv] at h
    simp only at h
    have h' : some _ = some ps := h
    rw [Option.some.injEq] at h'
    rw [← h']
    exact .cons ⟨rfl, rfl, rfl, rfl⟩ (.cons ⟨rfl, rfl, rfl, rfl⟩ (.cons ⟨rfl, rfl, rfl, rfl⟩ .nil))

theorem mgrid_extent {P : Projection} {slope : Fin 3 → ℚ} (hP : Spec.Straight P slope) (g : Grid.Grid) (a : Fin 3) (p : ℕ)
    (hc : 0 < g.count a) :
    mgrid ((gridExtent P g true).1 a) ((gridExtent P g true).2 a) (g.count a + 1) p =
      (gridExtent P g true).1 a + p * (slope a * g.spacing a) ∧
    ∀ u : V3 ℤ, index2coord P g u a = (gridExtent P g true).1 a + (u a + 1 / 2) * (slope a * g.spacing a) := by
  obtain ⟨hs, c, hc'⟩ := hP
  have h1 : (gridExtent P g true).1 a = c a + slope a * (g.ll a - g.spacing a / 2) := by
    unfold gridExtent
    rw [endCorners_eq]
    simp only [if_true]
    rw [hc']
  have h2 : (gridExtent P g true).2 a = c a + slope a * (g.ll a + ((g.count a : ℚ) - 1) * g.spacing a + g.spacing a / 2) := by
    unfold gridExtent
    rw [endCorners_eq]
    simp only [if_true]
    rw [hc']
  have hn : (g.count a : ℚ) ≠ 0 := by exact_mod_cast hc.ne'
  constructor
  · unfold mgrid
    rw [h1, h2]
    push_cast
    rw [add_sub_cancel_right]
    field_simp
    ring
  · intro u
    unfold index2coord index2grid
    rw [hc', h1]
    ring

/-- C153: for a projection that is a straight line on every axis, each cell has its node at its centre, and the limits
are the outer edges of the outermost cells.  Missing: curved projections. -/
theorem C153_cells_partial (P : Projection) (slope : Fin 3 → ℚ) (hP : Spec.Straight P slope) (g : Grid.Grid)
    (hcount : ∀ a, 0 < g.count a) (coa : V3 ℕ → Option ℚ) (hypo : V3 ℚ) (ps : List MapPlot.Panel)
    (h : mapPanels P g coa hypo = some ps) :
    List.Forall₂ (fun (ax : Fin 3 × Fin 3 × Fin 3) (pn : MapPlot.Panel) =>
      (∀ u : V3 ℕ, (pn.xEdge (u ax.1) + pn.xEdge (u ax.1 + 1)) / 2 = index2coord P g (fun a => u a) ax.1 ∧
        (pn.yEdge (u ax.2.1) + pn.yEdge (u ax.2.1 + 1)) / 2 = index2coord P g (fun a => u a) ax.2.1) ∧
      (∀ p, pn.xEdge (p + 1) - pn.xEdge p = slope ax.1 * g.spacing ax.1) ∧
      (∀ p, pn.yEdge (p + 1) - pn.yEdge p = slope ax.2.1 * g.spacing ax.2.1) ∧
      pn.xlim = (pn.xEdge 0, pn.xEdge (g.count ax.1)) ∧ pn.ylim = (pn.yEdge 0, pn.yEdge (g.count ax.2.1)))
      Spec.panelAxes ps := by
  have key : ∀ a, (∀ u : V3 ℕ, (mgrid ((gridExtent P g true).1 a) ((gridExtent P g true).2 a) (g.count a + 1) (u a) +
        mgrid ((gridExtent P g true).1 a) ((gridExtent P g true).2 a) (g.count a + 1) (u a + 1)) / 2 =
        index2coord P g (fun a => u a) a) ∧
      (∀ p, mgrid ((gridExtent P g true).1 a) ((gridExtent P g true).2 a) (g.count a + 1) (p + 1) -
        mgrid ((gridExtent P g true).1 a) ((gridExtent P g true).2 a) (g.count a + 1) p = slope a * g.spacing a) ∧
      ((gridExtent P g true).1 a, (gridExtent P g true).2 a) =
        (mgrid ((gridExtent P g true).1 a) ((gridExtent P g true).2 a) (g.count a + 1) 0,
          mgrid ((gridExtent P g true).1 a) ((gridExtent P g true).2 a) (g.count a + 1) (g.count a)) := by
    intro a
    refine ⟨?_, ?_, ?_⟩
    · intro u
      rw [(mgrid_extent hP g a (u a) (hcount a)).1, (mgrid_extent hP g a (u a + 1) (hcount a)).1,
        (mgrid_extent hP g a 0 (hcount a)).2]
      push_cast
      ring
    · intro p
      rw [(mgrid_extent hP g a p (hcount a)).1, (mgrid_extent hP g a (p + 1) (hcount a)).1]
      push_cast
      ring
    · have hn : (g.count a : ℚ) ≠ 0 := by exact_mod_cast (hcount a).ne'
      unfold mgrid
      rw [Prod.ext_iff]
      constructor
      · simp
      · push_cast
        rw [add_sub_cancel_right]
        field_simp
        ring
  refine (mapPanels_edges h).imp ?_
  rintro ⟨a, b, c⟩ pn ⟨h1, h2, h3, h4⟩
  simp only at h1 h2 h3 h4 ⊢
  rw [h1, h2, h3, h4]
  exact ⟨fun u => ⟨(key a).1 u, (key b).1 u⟩, (key a).2.1, (key b).2.1, (key a).2.2, (key b).2.2⟩

/-- C153: for such a projection the ellipses are centred on the location, and their half-widths are the uncertainties, in
the units of the axes. -/
theorem C153_ellipses_partial (P : Projection) (slope : Fin 3 → ℚ) (hP : Spec.Straight P slope)
    (hinv : ∀ c, P.inv (P.proj c) = c) (coord error : V3 ℚ) (he : ∀ a, 0 ≤ error a) :
    List.Forall₂ (fun (ax : Fin 3 × Fin 3 × Fin 3) (e : MapPlot.Ellipse) =>
      e.centre = (coord ax.1, coord ax.2.1) ∧ e.width / 2 = |slope ax.1| * error ax.1 ∧
        e.height / 2 = |slope ax.2.1| * error ax.2.1) Spec.panelAxes (makeEllipses P coord error) := by
  obtain ⟨-, c, hc⟩ := hP
  have key : ∀ a, |coord a - P.inv (fun a => P.proj coord a + error a) a| = |slope a| * error a := by
    intro a
    have h1 : coord a = c a + slope a * P.proj coord a := by rw [← hc, hinv]
    rw [hc]
    conv_lhs => rw [h1]
    rw [show c a + slope a * P.proj coord a - (c a + slope a * (P.proj coord a + error a)) = -(slope a * error a) by ring,
      abs_neg, abs_mul, abs_of_nonneg (he a)]
  unfold makeEllipses
  simp only [Spec.panelAxes, key]
  refine .cons ⟨rfl, ?_, ?_⟩ (.cons ⟨rfl, ?_, ?_⟩ (.cons ⟨rfl, ?_, ?_⟩ .nil)) <;> simp only <;> ring

/-- C153 is false of the code where meridians converge: the ellipse of an uncertainty of one unit to the east and nine to
the north has no width, at 10 degrees west. -/
theorem C153_violated_ellipse (lat : ℚ) (h : lat < 80) :
    ∃ e ∈ makeEllipses meridians ![-10, lat, 0] ![1, 9, 1], e.centre = (-10, lat) ∧ e.width = 0 := by
  refine ⟨_, List.mem_cons_self, rfl, ?_⟩
  show 2 * |(-10 : ℚ) - (-10 * (90 - lat) / 90 + 1) * 90 / (90 - (lat + 9))| = 0
  have h1 : (90 : ℚ) - (lat + 9) ≠ 0 := by linarith
  rw [show (-10 : ℚ) - (-10 * (90 - lat) / 90 + 1) * 90 / (90 - (lat + 9)) = 0 by field_simp; ring]
  simp

/-- A projection of the examples, increasing on every axis: coordinates are squares of grid coordinates on the first. -/
def squares : Projection where
  proj c := c
  inv x := ![x 0 * x 0, x 1, x 2]

/-- C153 is false of the code for curved projections: the cell of the second of three nodes, at coordinate 9, is shown
from 12 to 24. -/
theorem C153_violated_cells (coa : V3 ℕ → Option ℚ) (hypo : V3 ℚ) (ps : List MapPlot.Panel)
    (h : mapPanels squares ⟨![1, 0, 0], ![2, 1, 1], ![3, 1, 1]⟩ coa hypo = some ps) :
    ∃ pn ∈ ps, pn.xEdge 1 = 12 ∧ pn.xEdge 2 = 24 ∧ index2coord squares ⟨![1, 0, 0], ![2, 1, 1], ![3, 1, 1]⟩ ![1, 0, 0] 0 = 9 := by
  have h1 := mapPanels_edges h
  rcases h1 with _ | ⟨⟨-, -, h3, -⟩, -⟩
  refine ⟨_, List.mem_cons_self, ?_, ?_, ?_⟩
  · rw [h3]
    norm_num [mgrid, gridExtent, endCorners_eq, squares]
  · rw [h3]
    norm_num [mgrid, gridExtent, endCorners_eq, squares]
  · norm_num [index2coord, index2grid, squares]

/-! ## Examples -/

/-- A straight projection: degrees of 100 grid units, depths unchanged. -/
def degrees : Projection where
  proj c := ![c 0 * 100, c 1 * 100, c 2]
  inv x := ![x 0 / 100, x 1 / 100, x 2]

/-- The hypotheses on the projection are met. -/
theorem degrees_straight : Spec.Straight degrees ![1 / 100, 1 / 100, 1] ∧ ∀ c, degrees.inv (degrees.proj c) = c := by
  refine ⟨⟨?_, 0, ?_⟩, ?_⟩
  · intro a; fin_cases a <;> simp
  · intro x a
    fin_cases a <;> simp [degrees] <;> ring
  · intro c
    funext a
    fin_cases a <;> simp [degrees]

/-- A map with a value. -/
example : ∃ u : V3 ℕ, (∀ a, u a < (![3, 4, 5] : V3 ℕ) a) ∧ ∃ x, (fun v : V3 ℕ => if v 0 = 1 then some (v 1 : ℚ) else none) u = some x :=
  ⟨![1, 3, 2], by intro a; fin_cases a <;> decide, 3, by simp⟩

/-- Its first maximum. -/
example : maxNode ![3, 4, 5] (fun v => if v 0 = 1 then some (v 1 : ℚ) else none) = some ![1, 3, 0] := by decide +kernel

end QM
