import Verif.Model.Extent
import Verif.Props.Lut

/-!
# C134: the grid covers the region asked for, and the reported extents cover the grid

In geographical coordinates.  A projection that treats the axes one by one and does not turn them round
(`AxisWise`) is the case for which this holds.
-/

namespace QM
open Grid Extent

namespace Extent

/-- Coordinate by coordinate, and increasing in each. -/
def AxisWise (f : V3 ℚ → V3 ℚ) : Prop :=
  ∃ h : Fin 3 → ℚ → ℚ, (∀ a, Monotone (h a)) ∧ ∀ v a, f v a = h a (v a)

/-- `x` lies in the box spanned by two corners. -/
def Between (e : V3 ℚ × V3 ℚ) (x : V3 ℚ) : Prop := ∀ a, e.1 a ≤ x a ∧ x a ≤ e.2 a

/-- `x` (grid coordinates) belongs to the cell of node `ijk`: within half a spacing of it on every axis. -/
def InCell (g : Grid.Grid) (ijk : V3 ℕ) (x : V3 ℚ) : Prop :=
  ∀ a, |x a - (g.ll a + ijk a * g.spacing a)| ≤ g.spacing a / 2

end Extent

/-- C134: a node has a position, and the position has that node: converting an index to geographical
coordinates and back gives the index again, and for flattened indices the position is that of the node. -/
theorem C134_round_trip (P : Projection) (g : Grid.Grid) (hs : ∀ a, 0 < g.spacing a)
    (hP : ∀ x, P.proj (P.inv x) = x) :
    (∀ ijk, coord2index P g (index2coord P g ijk) = ijk) ∧
    ∀ ijk : V3 ℕ, (∀ a, ijk a < g.count a) →
      flat2coord P g ((ijk 0 * g.count 1 + ijk 1) * g.count 2 + ijk 2) =
        .ok (index2coord P g fun a => (ijk a : ℤ)) := by
  refine ⟨fun ijk => ?_, fun ijk h => ?_⟩
  · unfold coord2index index2coord
    rw [hP]
    exact C47_index_round_trip g hs ijk
  · unfold flat2coord flat2grid
    rw [(C47_ijk_to_flat g.count ijk h).2]
    rfl

theorem endCorners_eq (g : Grid.Grid) :
    endCorners g = (g.ll, fun a => g.ll a + ((g.count a : ℚ) - 1) * g.spacing a) := by
  unfold endCorners gridCorners
  simp only [List.flatMap_cons, List.flatMap_nil, List.map_cons, List.map_nil, List.append_nil,
    List.cons_append, List.nil_append, List.headD_cons, List.getLastD_cons]
  refine Prod.ext ?_ ?_
  · funext a; fin_cases a <;> simp [index2grid]
  · funext a; fin_cases a <;> simp [index2grid, List.getLastD]

/-- C134, the extents, for an inverse projection that is axis-wise: every node lies between the two corners
reported, and with `cells=True` so does every point of every cell. -/
theorem C134_extent_partial (P : Projection) (g : Grid.Grid) (hs : ∀ a, 0 < g.spacing a)
    (hP : AxisWise P.inv) (ijk : V3 ℕ) (h : ∀ a, ijk a < g.count a) :
    Between (gridExtent P g false) (index2coord P g fun a => (ijk a : ℤ)) ∧
    ∀ x, InCell g ijk x → Between (gridExtent P g true) (P.inv x) := by
  obtain ⟨f, hf, he⟩ := hP
  have hb : ∀ a, (0 : ℚ) ≤ ijk a ∧ (ijk a : ℚ) ≤ (g.count a : ℚ) - 1 := fun a => by
    have := h a
    have h1 : (ijk a : ℚ) + 1 ≤ g.count a := by exact_mod_cast this
    exact ⟨by positivity, by linarith⟩
  have hlo : ∀ a, (0 : ℚ) ≤ ijk a * g.spacing a := fun a => mul_nonneg (hb a).1 (hs a).le
  have hhi : ∀ a, (ijk a : ℚ) * g.spacing a ≤ ((g.count a : ℚ) - 1) * g.spacing a := fun a =>
    mul_le_mul_of_nonneg_right (hb a).2 (hs a).le
  constructor
  · intro a
    unfold gridExtent
    rw [endCorners_eq]
    simp only [Bool.false_eq_true, if_false, index2coord, he, index2grid]
    constructor
    · apply hf; push_cast; linarith [hlo a]
    · apply hf; push_cast; linarith [hhi a]
  · intro x hx a
    unfold gridExtent
    rw [endCorners_eq]
    simp only [if_true, he]
    have := abs_le.mp (hx a)
    constructor
    · apply hf; linarith [hlo a]
    · apply hf; linarith [hhi a]

/-- C134, the region, for a projection that is axis-wise: whatever lies between the two geographical
corners given for the grid belongs to the cell of a node of the grid - the one that `index2coord` returns
for it. -/
theorem C134_covered_partial (P : Projection) (hP : AxisWise P.proj) (ll ur : V3 ℚ) (req : List ℚ)
    (g : Grid.Grid) (h : mkGridGeo P ll ur req = .ok g) (c : V3 ℚ) (hc : Between (ll, ur) c) :
    ∃ ijk : V3 ℕ, (∀ a, ijk a < g.count a) ∧ InCell g ijk (P.proj c) ∧
      coord2index P g c = fun a => (ijk a : ℤ) := by
  obtain ⟨f, hf, he⟩ := hP
  obtain ⟨-, hs, h0, h1⟩ := C48_covers _ _ _ _ h
  have hll : g.ll = P.proj ll := by
    rw [← h0]; funext a; simp [index2grid]
  have hin : ∀ a, 0 ≤ grid2index g (P.proj c) a ∧ grid2index g (P.proj c) a < g.count a := fun a => by
    apply C47_inside g hs
    · rw [hll, he, he]; exact hf a (hc a).1
    · have h2 := (h1 a).2.1
      have h3 : P.proj c a ≤ P.proj ur a := by rw [he, he]; exact hf a (hc a).2
      unfold index2grid at h2
      linarith
  refine ⟨fun a => (grid2index g (P.proj c) a).toNat, fun a => ?_, fun a => ?_, ?_⟩
  · show (grid2index g (P.proj c) a).toNat < g.count a
    have := hin a
    omega
  · have hz : ((grid2index g (P.proj c) a).toNat : ℚ) = (grid2index g (P.proj c) a : ℚ) := by
      have : ((grid2index g (P.proj c) a).toNat : ℤ) = grid2index g (P.proj c) a := Int.toNat_of_nonneg (hin a).1
      exact_mod_cast this
    rw [hz, abs_sub_comm]
    exact C47_nearest_node g hs (P.proj c) a
  · funext a
    exact (Int.toNat_of_nonneg (hin a).1).symm

private theorem foldl_min_le (a : Fin 3) (l : List (V3 ℚ)) : ∀ m : ℚ,
    l.foldl (fun m t => min m (t a)) m ≤ m ∧ ∀ t ∈ l, l.foldl (fun m t => min m (t a)) m ≤ t a := by
  induction l with
  | nil => intro m; exact ⟨le_rfl, fun t ht => absurd ht List.not_mem_nil⟩
  | cons x xs ih =>
    intro m
    obtain ⟨h1, h2⟩ := ih (min m (x a))
    refine ⟨h1.trans (min_le_left _ _), fun t ht => ?_⟩
    rcases List.mem_cons.mp ht with rfl | ht
    · exact h1.trans (min_le_right _ _)
    · exact h2 t ht

private theorem le_foldl_max (a : Fin 3) (l : List (V3 ℚ)) : ∀ m : ℚ,
    m ≤ l.foldl (fun m t => max m (t a)) m ∧ ∀ t ∈ l, t a ≤ l.foldl (fun m t => max m (t a)) m := by
  induction l with
  | nil => intro m; exact ⟨le_rfl, fun t ht => absurd ht List.not_mem_nil⟩
  | cons x xs ih =>
    intro m
    obtain ⟨h1, h2⟩ := ih (max m (x a))
    refine ⟨(le_max_left _ _).trans h1, fun t ht => ?_⟩
    rcases List.mem_cons.mp ht with rfl | ht
    · exact (le_max_right _ _).trans h1
    · exact h2 t ht

private theorem foldl_min_mem (a : Fin 3) (l : List (V3 ℚ)) : ∀ m : ℚ,
    l.foldl (fun m t => min m (t a)) m = m ∨ ∃ t ∈ l, l.foldl (fun m t => min m (t a)) m = t a := by
  induction l with
  | nil => intro m; exact .inl rfl
  | cons x xs ih =>
    intro m
    rcases ih (min m (x a)) with h | ⟨t, ht, h⟩
    · rcases min_choice m (x a) with e | e
      · exact .inl (h.trans e)
      · exact .inr ⟨x, List.mem_cons_self, h.trans e⟩
    · exact .inr ⟨t, List.mem_cons_of_mem _ ht, h⟩

private theorem foldl_max_mem (a : Fin 3) (l : List (V3 ℚ)) : ∀ m : ℚ,
    l.foldl (fun m t => max m (t a)) m = m ∨ ∃ t ∈ l, l.foldl (fun m t => max m (t a)) m = t a := by
  induction l with
  | nil => intro m; exact .inl rfl
  | cons x xs ih =>
    intro m
    rcases ih (max m (x a)) with h | ⟨t, ht, h⟩
    · rcases max_choice m (x a) with e | e
      · exact .inl (h.trans e)
      · exact .inr ⟨x, List.mem_cons_self, h.trans e⟩
    · exact .inr ⟨t, List.mem_cons_of_mem _ ht, h⟩

/-- C134, the network: the station extent is the smallest box round the stations - it holds every station,
and each of its six faces touches one. -/
theorem C134_stations (stations : List (V3 ℚ)) (hne : stations ≠ []) :
    ∃ e, stationExtent stations = some e ∧ (∀ s ∈ stations, Between e s) ∧
      ∀ a, (∃ s ∈ stations, e.1 a = s a) ∧ ∃ s ∈ stations, e.2 a = s a := by
  match stations, hne with
  | s :: ss, _ =>
    refine ⟨_, rfl, fun t ht a => ?_, fun a => ⟨?_, ?_⟩⟩
    · rcases List.mem_cons.mp ht with rfl | ht
      · exact ⟨(foldl_min_le a ss _).1, (le_foldl_max a ss _).1⟩
      · exact ⟨(foldl_min_le a ss _).2 t ht, (le_foldl_max a ss _).2 t ht⟩
    · rcases foldl_min_mem a ss (s a) with h | ⟨t, ht, h⟩
      · exact ⟨s, List.mem_cons_self, h⟩
      · exact ⟨t, List.mem_cons_of_mem _ ht, h⟩
    · rcases foldl_max_mem a ss (s a) with h | ⟨t, ht, h⟩
      · exact ⟨s, List.mem_cons_self, h⟩
      · exact ⟨t, List.mem_cons_of_mem _ ht, h⟩

/-- C134, stations and grid: the maximal extent holds every station (for any projection), and for an
axis-wise one every point of every cell; with a margin on each side, a twentieth of the width of the
network at least. -/
theorem C134_max_partial (P : Projection) (g : Grid.Grid) (hs : ∀ a, 0 < g.spacing a)
    (stations : List (V3 ℚ)) (hne : stations ≠ []) :
    ∃ e, maxExtent P g stations = some e ∧ (∀ s ∈ stations, Between e s) ∧
      (AxisWise P.inv → ∀ ijk : V3 ℕ, (∀ a, ijk a < g.count a) → ∀ x, InCell g ijk x →
        Between e (P.inv x)) ∧
      ∀ s ∈ stations, ∀ t ∈ stations, ∀ a, e.1 a ≤ s a - (t a - s a) / 20 ∧
        t a + (t a - s a) / 20 ≤ e.2 a := by
  obtain ⟨⟨smin, smax⟩, h1, h2, -⟩ := C134_stations stations hne
  refine ⟨_, by unfold maxExtent; rw [h1], ?_, ?_, ?_⟩
  · intro s hs' a
    have hb := h2 s hs' a
    have p := abs_nonneg (max (smax a) ((gridExtent P g true).2 a) - min (smin a) ((gridExtent P g true).1 a))
    have q1 := min_le_left (smin a) ((gridExtent P g true).1 a)
    have q2 := le_max_left (smax a) ((gridExtent P g true).2 a)
    exact ⟨by linarith [hb.1], by linarith [hb.2]⟩
  · intro hP ijk hi x hx a
    have hb := (C134_extent_partial P g hs hP ijk hi).2 x hx a
    have p := abs_nonneg (max (smax a) ((gridExtent P g true).2 a) - min (smin a) ((gridExtent P g true).1 a))
    have q1 := min_le_right (smin a) ((gridExtent P g true).1 a)
    have q2 := le_max_right (smax a) ((gridExtent P g true).2 a)
    exact ⟨by linarith [hb.1], by linarith [hb.2]⟩
  · intro s hs' t ht a
    have hb := h2 s hs' a
    have hc := h2 t ht a
    have p := le_abs_self (max (smax a) ((gridExtent P g true).2 a) - min (smin a) ((gridExtent P g true).1 a))
    have q1 := min_le_left (smin a) ((gridExtent P g true).1 a)
    have q2 := le_max_left (smax a) ((gridExtent P g true).2 a)
    simp only at hb hc
    exact ⟨by linarith [hb.1, hc.2, hb.2, hc.1], by linarith [hb.1, hc.2, hb.2, hc.1]⟩

/-! ## Where the meridians meet -/

/-- A map on which the meridians meet at the pole, as on any conic or transverse projection: the distance
between them shrinks with the latitude. -/
def meridians : Projection where
  proj c := ![c 0 * (90 - c 1) / 90, c 1, c 2]
  inv x := ![x 0 * 90 / (90 - x 1), x 1, x 2]

/-- It is a projection: below the pole the two directions undo one another. -/
theorem meridians_inv (c : V3 ℚ) (h : c 1 < 90) :
    meridians.inv (meridians.proj c) = c ∧ meridians.proj (meridians.inv c) = c := by
  have : 90 - c 1 ≠ 0 := by linarith
  constructor
  · funext a
    fin_cases a
    · simp [meridians]; field_simp
    · rfl
    · rfl
  · funext a
    fin_cases a
    · simp [meridians]; field_simp
    · rfl
    · rfl

/-- C134 fails where meridians converge, whatever the spacing (up to one unit): the south-east corner of
the region asked for, 0°-10° E, 40°-60° N, is in no cell of the grid. -/
theorem C134_violated_region (s : ℚ) (h0 : 0 < s) (h1 : s ≤ 1) :
    ∃ g, mkGridGeo meridians ![0, 40, 0] ![10, 60, 10] [s] = .ok g ∧
      Between (![0, 40, 0], ![10, 60, 10]) ![10, 40, 0] ∧
      ∀ ijk : V3 ℕ, (∀ a, ijk a < g.count a) → ¬InCell g ijk (meridians.proj ![10, 40, 0]) := by
  have hmk : ∃ g, mkGridGeo meridians ![0, 40, 0] ![10, 60, 10] [s] = .ok g := by
    unfold mkGridGeo mkGrid
    have e : setSpacing [s] = .ok fun _ => s := by unfold setSpacing; simp only; rw [if_pos h0]
    rw [e]
    simp only
    unfold setCount
    rw [if_pos]
    · exact ⟨_, rfl⟩
    · have hp : ∀ x y : ℚ, y ≤ x → 0 < ⌈(x - y) / s⌉ + 1 := fun x y hxy => by
        have : (0 : ℤ) ≤ ⌈(x - y) / s⌉ := Int.ceil_nonneg (div_nonneg (by linarith) h0.le)
        omega
      refine ⟨hp _ _ ?_, hp _ _ ?_, hp _ _ ?_⟩
      · norm_num [meridians]
      · norm_num [meridians]
      · show (0 : ℚ) ≤ 10
        norm_num
  obtain ⟨g, hg⟩ := hmk
  refine ⟨g, hg, ?_, fun ijk hi hc => ?_⟩
  · intro a; fin_cases a <;> norm_num
  · obtain ⟨hsp, hs, hll, hu⟩ := C48_covers _ _ _ _ hg
    have hsp0 : g.spacing 0 = s := by
      rcases hsp with h | ⟨h, -⟩
      · exact absurd (congrArg List.length h) (by simp)
      · exact (List.cons.inj h).1.symm
    have hh := (hu 0).2.2
    have hc0 := abs_le.mp (hc 0)
    have hi0 : (ijk 0 : ℚ) + 1 ≤ g.count 0 := by exact_mod_cast hi 0
    unfold index2grid at hh
    rw [hsp0] at hh hc0
    have m : (ijk 0 : ℚ) * s ≤ ((g.count 0 : ℚ) - 1) * s :=
      mul_le_mul_of_nonneg_right (by linarith) h0.le
    simp [meridians] at hh hc0
    push_cast at hh
    norm_num at hh hc0
    linarith [hc0.2]

/-- C134 fails where meridians converge: for a grid over 10°-0° W, 40°-60° N, the north-west node lies far
outside the extent reported. -/
theorem C134_violated_extent : ∃ g, mkGridGeo meridians ![-10, 40, 0] ![0, 60, 10] [5 / 9] = .ok g ∧
    ∃ ijk : V3 ℕ, (∀ a, ijk a < g.count a) ∧
      ¬Between (gridExtent meridians g true) (index2coord meridians g fun a => (ijk a : ℤ)) := by
  have e : setSpacing [5 / 9] = .ok fun _ => (5 / 9 : ℚ) := by
    unfold setSpacing; simp only; rw [if_pos (by norm_num)]
  have hmk : mkGridGeo meridians ![-10, 40, 0] ![0, 60, 10] [5 / 9] =
      .ok ⟨![-50 / 9, 40, 0], fun _ => 5 / 9, ![11, 37, 19]⟩ := by
    unfold mkGridGeo mkGrid
    rw [e]
    simp only
    have hc : (fun a => ⌈(meridians.proj ![0, 60, 10] a - meridians.proj ![-10, 40, 0] a) / (5 / 9)⌉ + 1) =
        (![11, 37, 19] : V3 ℤ) := by
      funext a
      fin_cases a
      · norm_num [meridians]
      · norm_num [meridians]
      · show ⌈((10 : ℚ) - 0) / (5 / 9)⌉ + 1 = 19
        norm_num
    have hl : meridians.proj ![-10, 40, 0] = ![-50 / 9, 40, 0] := by
      funext a
      fin_cases a
      · norm_num [meridians]
      · rfl
      · rfl
    rw [hc, hl]
    unfold setCount
    rw [if_pos (by decide)]
    refine congrArg Except.ok ?_
    congr 1
    funext a
    fin_cases a <;> rfl
  refine ⟨_, hmk, ![0, 36, 0], ?_, fun h => ?_⟩
  · intro a; fin_cases a <;> decide
  · have h0 := (h 0).1
    unfold gridExtent at h0
    rw [endCorners_eq] at h0
    norm_num [meridians, index2coord, index2grid] at h0

/-! The hypotheses are met. -/

/-- Longitude and latitude used as they are, scaled to kilometres: axis-wise in both directions. -/
def plate : Projection where
  proj c := fun a => c a * 111
  inv x := fun a => x a / 111

example : AxisWise plate.proj ∧ AxisWise plate.inv ∧ (∀ x, plate.proj (plate.inv x) = x) :=
  ⟨⟨fun _ x => x * 111, fun _ _ _ h => by simpa using h, fun _ _ => rfl⟩,
    ⟨fun _ x => x / 111, fun _ x y h => div_le_div_of_nonneg_right h (by norm_num), fun _ _ => rfl⟩,
    fun x => by funext a; simp [plate]⟩

example : Between (![0, 40, 0], ![10, 60, 10]) ![3, 45, 2] := by
  intro a; fin_cases a <;> norm_num

example : stationExtent [![1, 2, 3], ![0, 5, -1]] ≠ none := by simp [stationExtent]

end QM
