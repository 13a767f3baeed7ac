import Verif.Lemmas.Grid
import Verif.Lemmas.Compute

/-!
# The grid and the traveltime lookup table: C47-C53
-/

namespace QM
open QM.Grid
open QM.Compute (Str)

/-! ## C47: indices and coordinates -/

/-- C47: every flattened index of the grid is the C-order index of exactly one `(i, j, k)`
in the grid, and that is what unravelling returns. -/
theorem C47_flat_to_ijk (n : V3 ℕ) (f : ℕ) (hf : f < n 0 * n 1 * n 2) :
    ∃ ijk : V3 ℕ, unravel n f = .ok ijk ∧ (∀ a, ijk a < n a) ∧
      f = (ijk 0 * n 1 + ijk 1) * n 2 + ijk 2 ∧
      ∀ ijk' : V3 ℕ, (∀ a, ijk' a < n a) → f = (ijk' 0 * n 1 + ijk' 1) * n 2 + ijk' 2 →
        ijk' = ijk := by
  obtain ⟨ijk, h1, h2, h3⟩ := unravel_spec hf
  refine ⟨ijk, h1, h2, h3.symm, fun ijk' hb he => ?_⟩
  have h := unravel_ravel hb
  have : ravel n ijk' = f := he.symm
  rw [this, h1] at h
  exact (Except.ok.inj h).symm

/-- C47: and every `(i, j, k)` in the grid comes from one flattened index. -/
theorem C47_ijk_to_flat (n ijk : V3 ℕ) (h : ∀ a, ijk a < n a) :
    (ijk 0 * n 1 + ijk 1) * n 2 + ijk 2 < n 0 * n 1 * n 2 ∧
      unravel n ((ijk 0 * n 1 + ijk 1) * n 2 + ijk 2) = .ok ijk :=
  ⟨ravel_lt h, unravel_ravel h⟩

/-- C47: a flattened index outside the grid is an error. -/
theorem C47_out_of_range (n : V3 ℕ) (f : ℕ) (hf : n 0 * n 1 * n 2 ≤ f) :
    unravel n f = .error .valueError := by
  unfold unravel; rw [if_neg (by omega)]

/-- C47: the order is that of the migrated map: after reshaping the flat map to the shape of
the grid, the value of node `f` sits at the unravelled position of `f`. -/
theorem C47_map_order {α : Type} (n : V3 ℕ) (l : List α) (hl : l.length = n 0 * n 1 * n 2)
    (f : ℕ) (hf : f < l.length) (ijk : V3 ℕ) (h : unravel n f = .ok ijk) :
    ∃ plane row, (reshape n l)[ijk 0]? = some plane ∧ plane[ijk 1]? = some row ∧
      row[ijk 2]? = some l[f]? := by
  obtain ⟨ijk', h1, h2, h3⟩ := unravel_spec (n := n) (f := f) (by omega)
  rw [h] at h1
  have e := Except.ok.inj h1
  subst e
  refine ⟨(List.range (n 1)).map fun j => (List.range (n 2)).map fun k =>
      l[(ijk 0 * n 1 + j) * n 2 + k]?,
    (List.range (n 2)).map fun k => l[(ijk 0 * n 1 + ijk 1) * n 2 + k]?, ?_, ?_, ?_⟩
  · unfold reshape
    rw [List.getElem?_map, List.getElem?_range (h2 0)]; rfl
  · rw [List.getElem?_map, List.getElem?_range (h2 1)]; rfl
  · rw [List.getElem?_map, List.getElem?_range (h2 2)]
    simp only [Option.map_some]
    have : (ijk 0 * n 1 + ijk 1) * n 2 + ijk 2 = f := h3
    rw [this]

/-- C47: index → coordinates → index is the identity. -/
theorem C47_index_round_trip (g : Grid.Grid) (hs : ∀ a, 0 < g.spacing a) (ijk : V3 ℤ) :
    grid2index g (index2grid g ijk) = ijk := by
  funext a
  have h : (g.ll a + ijk a * g.spacing a - g.ll a) / g.spacing a = (ijk a : ℚ) := by
    have := (hs a).ne'
    field_simp
    ring
  show pyRound ((g.ll a + ijk a * g.spacing a - g.ll a) / g.spacing a) = _
  rw [h, pyRound_int]

/-- C47: the index returned for any point is that of a node within half a spacing of it on
every axis. -/
theorem C47_nearest_node (g : Grid.Grid) (hs : ∀ a, 0 < g.spacing a) (xyz : V3 ℚ) (a : Fin 3) :
    |index2grid g (grid2index g xyz) a - xyz a| ≤ g.spacing a / 2 := by
  have h := abs_pyRound_sub_le ((xyz a - g.ll a) / g.spacing a)
  have e : index2grid g (grid2index g xyz) a - xyz a =
      ((pyRound ((xyz a - g.ll a) / g.spacing a) : ℚ) - (xyz a - g.ll a) / g.spacing a) *
        g.spacing a := by
    have := (hs a).ne'
    show g.ll a + (pyRound ((xyz a - g.ll a) / g.spacing a) : ℚ) * g.spacing a - xyz a = _
    field_simp
    ring
  rw [e, abs_mul, abs_of_pos (hs a)]
  have := mul_le_mul_of_nonneg_right h (hs a).le
  linarith

/-- C47: a point inside the grid gets a node of the grid. -/
theorem C47_inside (g : Grid.Grid) (hs : ∀ a, 0 < g.spacing a) (xyz : V3 ℚ) (a : Fin 3)
    (h1 : g.ll a ≤ xyz a) (h2 : xyz a ≤ g.ll a + ((g.count a : ℤ) - 1 : ℤ) * g.spacing a) :
    0 ≤ grid2index g xyz a ∧ grid2index g xyz a < g.count a := by
  have p := hs a
  constructor
  · have : pyRound ((0 : ℤ) : ℚ) ≤ grid2index g xyz a := by
      apply pyRound_mono
      rw [Int.cast_zero]
      exact div_nonneg (by linarith) p.le
    rwa [pyRound_int] at this
  · have : grid2index g xyz a ≤ pyRound (((g.count a : ℤ) - 1 : ℤ) : ℚ) := by
      apply pyRound_mono
      rw [div_le_iff₀ p]
      linarith
    rw [pyRound_int] at this
    omega

/-- C47: the coordinates listed for all nodes (`grid_xyz`) are, in order of flattened index,
the coordinates of those indices. -/
theorem C47_listed_in_order (g : Grid.Grid) :
    (gridXyz g).length = g.count 0 * g.count 1 * g.count 2 ∧
    ∀ f < g.count 0 * g.count 1 * g.count 2, ∃ xyz, flat2grid g f = .ok xyz ∧
      (gridXyz g)[f]? = some xyz := by
  refine ⟨by unfold gridXyz; rw [List.length_map, allNodes_length], fun f hf => ?_⟩
  obtain ⟨ijk, h1, h2, h3⟩ := unravel_spec hf
  refine ⟨index2grid g (fun a => (ijk a : ℤ)), by unfold flat2grid; rw [h1], ?_⟩
  unfold gridXyz
  rw [List.getElem?_map, ← h3, allNodes_get h2]
  rfl

/-- A 3 × 2 × 4 grid. -/
def exGrid : Grid.Grid := ⟨![-1, 0, 2], ![1 / 2, 1, 2], ![3, 2, 4]⟩

example : unravel exGrid.count 13 = .ok ![1, 1, 1] ∧ (flat2grid exGrid 13).map (fun v => [v 0, v 1, v 2]) = .ok [-(1 / 2), 1, 4] ∧
    grid2index exGrid ![-(1 / 5), 3 / 5, 29 / 10] = ![2, 1, 0] ∧
    (∀ a, 0 < exGrid.spacing a) := by decide +kernel

/-! ## C48: the grid made from two corners -/

/-- C48: spacing requested, as a list of one (same on each axis) or three values. -/
def SpacingIs (req : List ℚ) (s : V3 ℚ) : Prop :=
  req = [s 0, s 1, s 2] ∨ (req = [s 0] ∧ s 1 = s 0 ∧ s 2 = s 0)

theorem setSpacing_ok {req : List ℚ} {s : V3 ℚ} (h : setSpacing req = .ok s) :
    SpacingIs req s ∧ ∀ a, 0 < s a := by
  unfold setSpacing at h
  split at h
  · split_ifs at h with h0
    have e := Except.ok.inj h
    subst e
    exact ⟨Or.inr ⟨rfl, rfl, rfl⟩, fun _ => h0⟩
  · split_ifs at h with h0
    have e := Except.ok.inj h
    subst e
    refine ⟨Or.inl rfl, fun a => ?_⟩
    fin_cases a
    · exact h0.1
    · exact h0.2.1
    · exact h0.2.2
  · exact absurd h (by simp)

/-- C48: a grid, once made, starts at the requested lower corner, has exactly the requested
(positive) spacing and, on every axis, reaches the requested upper corner overshooting it by
less than one spacing (`ur` not below `ll`). -/
theorem C48_covers (ll ur : V3 ℚ) (req : List ℚ) (g : Grid.Grid)
    (h : mkGrid ll ur req = .ok g) :
    SpacingIs req g.spacing ∧ (∀ a, 0 < g.spacing a) ∧
    index2grid g (fun _ => 0) = ll ∧
    ∀ a, 0 < g.count a ∧
      ur a ≤ index2grid g (fun a => (g.count a : ℤ) - 1) a ∧
      index2grid g (fun a => (g.count a : ℤ) - 1) a < ur a + g.spacing a := by
  unfold mkGrid at h
  cases hs : setSpacing req with
  | error e => rw [hs] at h; simp at h
  | ok sp =>
    rw [hs] at h
    simp only at h
    obtain ⟨hsp, hpos⟩ := setSpacing_ok hs
    unfold setCount at h
    split at h
    · exact absurd h (by simp)
    · rename_i n hn
      split_ifs at hn with hc
      have e := Except.ok.inj h
      have en := Except.ok.inj hn
      subst e
      subst en
      refine ⟨hsp, hpos, ?_, ?_⟩
      · funext a; show ll a + ((0 : ℤ) : ℚ) * sp a = ll a; simp
      · intro a
        have hpa := hpos a
        have hca : 0 < ⌈(ur a - ll a) / sp a⌉ + 1 := by
          fin_cases a
          · exact hc.1
          · exact hc.2.1
          · exact hc.2.2
        have hcast : (((⌈(ur a - ll a) / sp a⌉ + 1).toNat : ℤ) - 1 : ℤ) = ⌈(ur a - ll a) / sp a⌉ := by
          omega
        have h1 := Int.le_ceil ((ur a - ll a) / sp a)
        have h2 := Int.ceil_lt_add_one ((ur a - ll a) / sp a)
        rw [div_le_iff₀ hpa] at h1
        have h2' := mul_lt_mul_of_pos_right h2 hpa
        rw [add_mul, div_mul_cancel₀ _ hpa.ne'] at h2'
        refine ⟨by show 0 < (⌈(ur a - ll a) / sp a⌉ + 1).toNat; omega, ?_, ?_⟩
        · show ur a ≤ ll a + ((((⌈(ur a - ll a) / sp a⌉ + 1).toNat : ℤ) - 1 : ℤ) : ℚ) * sp a
          rw [hcast]; linarith
        · show ll a + ((((⌈(ur a - ll a) / sp a⌉ + 1).toNat : ℤ) - 1 : ℤ) : ℚ) * sp a < ur a + sp a
          rw [hcast]; linarith

/-- C48: the corners reported for a grid are the points that have the first or the last coordinate of the grid on each
axis; they are nodes of the grid, and every node lies between them. -/
theorem C48_corners (g : Grid.Grid) (hc : ∀ a, 0 < g.count a) (hs : ∀ a, 0 < g.spacing a) :
    (gridCorners g).length = 8 ∧
    (∀ c, c ∈ gridCorners g ↔ ∀ a, c a = g.ll a ∨ c a = g.ll a + (g.count a - 1) * g.spacing a) ∧
    (∀ c ∈ gridCorners g, c ∈ gridXyz g) ∧
    ∀ x ∈ gridXyz g, ∀ a, g.ll a ≤ x a ∧ x a ≤ g.ll a + (g.count a - 1) * g.spacing a := by
  have hmem : ∀ c, c ∈ gridCorners g ↔ ∀ a, c a = g.ll a ∨ c a = g.ll a + (g.count a - 1) * g.spacing a := by
    intro c
    simp only [gridCorners, List.mem_flatMap, List.mem_map, List.mem_cons, List.not_mem_nil, or_false]
    constructor
    · rintro ⟨i, hi, j, hj, k, hk, rfl⟩ a
      simp only [index2grid]
      fin_cases a
      · rcases hi with rfl | rfl <;> simp
      · rcases hj with rfl | rfl <;> simp
      · rcases hk with rfl | rfl <;> simp
    · intro h
      have key : ∀ a, ∃ i : ℤ, (i = 0 ∨ i = (g.count a : ℤ) - 1) ∧ c a = g.ll a + (i : ℚ) * g.spacing a := by
        intro a
        rcases h a with h | h
        · exact ⟨0, Or.inl rfl, by simp [h]⟩
        · exact ⟨(g.count a : ℤ) - 1, Or.inr rfl, by simp [h]⟩
      obtain ⟨i, hi, ei⟩ := key 0
      obtain ⟨j, hj, ej⟩ := key 1
      obtain ⟨k, hk, ek⟩ := key 2
      refine ⟨i, hi, j, hj, k, hk, ?_⟩
      funext a
      simp only [index2grid]
      fin_cases a
      · simp [ei]
      · simp [ej]
      · simp [ek]
  refine ⟨by simp [gridCorners], hmem, ?_, ?_⟩
  · intro c h
    rw [hmem] at h
    have key : ∀ a, ∃ i : ℕ, i < g.count a ∧ c a = g.ll a + (i : ℚ) * g.spacing a := by
      intro a
      rcases h a with h | h
      · exact ⟨0, hc a, by simp [h]⟩
      · refine ⟨g.count a - 1, by have := hc a; omega, ?_⟩
        rw [h, Nat.cast_sub (hc a)]
        simp
    obtain ⟨i, hi, ei⟩ := key 0
    obtain ⟨j, hj, ej⟩ := key 1
    obtain ⟨k, hk, ek⟩ := key 2
    simp only [gridXyz, List.mem_map, allNodes, List.mem_flatMap, List.mem_range]
    refine ⟨![i, j, k], ⟨i, hi, j, hj, k, hk, rfl⟩, ?_⟩
    funext a
    simp only [index2grid]
    fin_cases a
    · simp [ei]
    · simp [ej]
    · simp [ek]
  · intro x hx a
    simp only [gridXyz, List.mem_map, allNodes, List.mem_flatMap, List.mem_range] at hx
    obtain ⟨v, ⟨i, hi, j, hj, k, hk, rfl⟩, rfl⟩ := hx
    have hlt : (![i, j, k] : V3 ℕ) a < g.count a := by fin_cases a <;> simpa
    simp only [index2grid]
    generalize (![i, j, k] : V3 ℕ) a = m at hlt ⊢
    have h1 : (m : ℚ) ≤ g.count a - 1 := by
      have : (m : ℚ) + 1 ≤ g.count a := by exact_mod_cast hlt
      linarith
    have h2 := hs a
    have h0 : (0 : ℚ) ≤ m := Nat.cast_nonneg m
    constructor
    · push_cast; nlinarith
    · push_cast; nlinarith

/-- C48: corners in the right order and a positive spacing always give a grid. -/
theorem C48_made (ll ur s : V3 ℚ) (h : ∀ a, ll a ≤ ur a) (hs : ∀ a, 0 < s a) :
    ∃ g, mkGrid ll ur [s 0, s 1, s 2] = .ok g ∧ g.spacing = s := by
  have e : setSpacing [s 0, s 1, s 2] = .ok s := by
    unfold setSpacing
    simp only
    rw [if_pos ⟨hs 0, hs 1, hs 2⟩]
    congr 1
    funext a
    fin_cases a <;> rfl
  have hc : ∀ a, 0 < ⌈(ur a - ll a) / s a⌉ + 1 := by
    intro a
    have : (0 : ℤ) ≤ ⌈(ur a - ll a) / s a⌉ :=
      Int.ceil_nonneg (div_nonneg (by linarith [h a]) (hs a).le)
    omega
  refine ⟨⟨ll, s, fun a => (⌈(ur a - ll a) / s a⌉ + 1).toNat⟩, ?_, rfl⟩
  unfold mkGrid
  rw [e]
  simp only
  unfold setCount
  rw [if_pos ⟨hc 0, hc 1, hc 2⟩]

/-- C48: a spacing that is not positive on some axis, or an upper corner at least one spacing
below the lower one, is refused. -/
theorem C48_refused (ll ur s : V3 ℚ) (a : Fin 3) (h : s a ≤ 0 ∨ ur a ≤ ll a - s a) :
    mkGrid ll ur [s 0, s 1, s 2] = .error .assertion := by
  unfold mkGrid setSpacing
  simp only
  by_cases hp : 0 < s 0 ∧ 0 < s 1 ∧ 0 < s 2
  · rw [if_pos hp]
    have hpa : 0 < s a := by
      fin_cases a
      · exact hp.1
      · exact hp.2.1
      · exact hp.2.2
    have hu : ur a ≤ ll a - s a := by
      rcases h with h | h
      · exact absurd h (not_le.2 hpa)
      · exact h
    have hneg : ⌈(ur a - ll a) / s a⌉ ≤ -1 := by
      rw [Int.ceil_le, div_le_iff₀ hpa]
      push_cast
      linarith
    have hneg' : ¬ 0 < ⌈(ur a - ll a) / (![s 0, s 1, s 2] : V3 ℚ) a⌉ + 1 := by
      have : (![s 0, s 1, s 2] : V3 ℚ) a = s a := by fin_cases a <;> rfl
      rw [this]; omega
    simp only
    unfold setCount
    rw [if_neg]
    rintro ⟨h0, h1, h2⟩
    fin_cases a
    · exact hneg' h0
    · exact hneg' h1
    · exact hneg' h2
  · rw [if_neg hp]

example : (mkGrid ![0, -1, 0] ![10, 1, 3] [3, 1 / 2, 1]).map
      (fun g => [g.count 0, g.count 1, g.count 2]) = .ok [5, 5, 4] ∧
    (mkGrid ![0, -1, 0] ![10, 1, 3] [2]).map
      (fun g => [g.count 0, g.count 1, g.count 2]) = .ok [6, 2, 3] := by decide +kernel

/-! ## C49: decimation -/

/-- A lookup table whose arrays all have the shape of its grid. -/
def ShapesMatch (L : Grid.Lut) : Prop :=
  ∀ st tables, (st, tables) ∈ L.traveltimes → ∀ ph t, (ph, t) ∈ tables → t.HasShape L.grid.count

/-- C49: after decimation the traveltime arrays still have the shape of the grid. -/
theorem C49_shapes (L : Grid.Lut) (df : V3 ℕ) (hd : ∀ a, 0 < df a)
    (hn : ∀ a, 0 < L.grid.count a) (hL : ShapesMatch L) : ShapesMatch (decimate L df) := by
  intro st tables hm ph t ht
  obtain ⟨⟨st', tables'⟩, hm', e⟩ := List.mem_map.1 hm
  simp only [Prod.mk.injEq] at e
  obtain ⟨rfl, rfl⟩ := e
  obtain ⟨⟨ph', t'⟩, ht', e⟩ := List.mem_map.1 ht
  simp only [Prod.mk.injEq] at e
  obtain ⟨rfl, rfl⟩ := e
  exact decTable_shape hn hd (hL _ _ hm' _ _ ht')

/-- C49: node `(i, j, k)` of a decimated table carries the traveltime of an original node: the
one `c + i·df` on each axis, `c` half the number of nodes left over. -/
theorem C49_carries (L : Grid.Lut) (df : V3 ℕ) (hd : ∀ a, 0 < df a)
    (hn : ∀ a, 0 < L.grid.count a) (st ph : Str) (tables' : List (Str × Table)) (t' : Table)
    (hm : (st, tables') ∈ (decimate L df).traveltimes) (ht : (ph, t') ∈ tables') :
    ∃ tables t, (st, tables) ∈ L.traveltimes ∧ (ph, t) ∈ tables ∧
      ∀ i j k, t'.at i j k = t.at ((L.grid.count 0 - 1) % df 0 / 2 + i * df 0)
        ((L.grid.count 1 - 1) % df 1 / 2 + j * df 1) ((L.grid.count 2 - 1) % df 2 / 2 + k * df 2) := by
  obtain ⟨⟨st0, tables0⟩, hm', e⟩ := List.mem_map.1 hm
  simp only [Prod.mk.injEq] at e
  obtain ⟨rfl, rfl⟩ := e
  obtain ⟨⟨ph0, t0⟩, ht', e⟩ := List.mem_map.1 ht
  simp only [Prod.mk.injEq] at e
  obtain ⟨rfl, rfl⟩ := e
  refine ⟨tables0, t0, hm', ht', fun i j k => ?_⟩
  rw [← decStart_eq _ _ (hd 0) (hn 0), ← decStart_eq _ _ (hd 1) (hn 1),
    ← decStart_eq _ _ (hd 2) (hn 2)]
  exact decTable_at hd t0 i j k

/-- C49: how far the coordinates of a decimated node are from those of the original node whose
traveltime it carries: `c` original spacings on each axis, `c` half the number of nodes left
over (rounded down). -/
theorem C49_coordinate_offset (L : Grid.Lut) (df : V3 ℕ) (ijk : V3 ℕ) (a : Fin 3) :
    index2grid L.grid (fun a => (((L.grid.count a - 1) % df a / 2 + ijk a * df a : ℕ) : ℤ)) a -
      index2grid (decimate L df).grid (fun a => (ijk a : ℤ)) a =
      (((L.grid.count a - 1) % df a / 2 : ℕ) : ℚ) * L.grid.spacing a := by
  show L.grid.ll a + (((((L.grid.count a - 1) % df a / 2 + ijk a * df a : ℕ) : ℤ)) : ℚ) *
      L.grid.spacing a - (L.grid.ll a + (((ijk a : ℕ) : ℤ) : ℚ) * (L.grid.spacing a * df a)) = _
  rw [Int.cast_natCast, Int.cast_natCast, Nat.cast_add, Nat.cast_mul]
  ring

/-- C49, coordinates, when at most one node is left over on each axis (in particular when the
factor divides the number of cells): each decimated node has the coordinates of the original
node whose traveltimes it carries. -/
theorem C49_coordinates_partial (L : Grid.Lut) (df : V3 ℕ) (hd : ∀ a, 0 < df a)
    (hn : ∀ a, 0 < L.grid.count a) (hr : ∀ a, (L.grid.count a - 1) % df a ≤ 1)
    (st ph : Str) (tables' : List (Str × Table)) (t' : Table)
    (hm : (st, tables') ∈ (decimate L df).traveltimes) (ht : (ph, t') ∈ tables') :
    ∃ tables t, (st, tables) ∈ L.traveltimes ∧ (ph, t) ∈ tables ∧ ∀ ijk : V3 ℕ,
      t'.at (ijk 0) (ijk 1) (ijk 2) = t.at (ijk 0 * df 0) (ijk 1 * df 1) (ijk 2 * df 2) ∧
      index2grid (decimate L df).grid (fun a => (ijk a : ℤ)) =
        index2grid L.grid (fun a => ((ijk a * df a : ℕ) : ℤ)) := by
  obtain ⟨tables, t, h1, h2, h3⟩ := C49_carries L df hd hn st ph tables' t' hm ht
  have z : ∀ a, (L.grid.count a - 1) % df a / 2 = 0 := fun a => by have := hr a; omega
  refine ⟨tables, t, h1, h2, fun ijk => ⟨?_, ?_⟩⟩
  · rw [h3, z 0, z 1, z 2, Nat.zero_add, Nat.zero_add, Nat.zero_add]
  · funext a
    have := C49_coordinate_offset L df ijk a
    rw [z a, Nat.cast_zero, zero_mul, sub_eq_zero] at this
    rw [← this]
    show L.grid.ll a + _ = L.grid.ll a + _
    simp only [z a, Nat.zero_add]

/-- A 3 × 1 × 1 lookup table with one station. -/
def exDecLut : Grid.Lut :=
  { grid := ⟨![0, 0, 0], ![1, 1, 1], ![3, 1, 1]⟩
    gridProj := 0
    coordProj := 0
    traveltimes := [(['A'], [(['P'], [[[0]], [[1]], [[2]]])])]
    phases := [['P']]
    stationData := [['A']] }

/-- C49 is violated: decimating three nodes by three keeps the middle node (1, 0, 0) but gives it
the coordinates of the first. -/
theorem C49_violated : ShapesMatch exDecLut ∧
    (decimate exDecLut ![3, 1, 1]).traveltimes = [(['A'], [(['P'], [[[1]]])])] ∧
    index2grid (decimate exDecLut ![3, 1, 1]).grid (fun _ => 0) = ![0, 0, 0] ∧
    (Table.at [[[0]], [[1]], [[2]]] 1 0 0 = some 1 ∧
      index2grid exDecLut.grid ![1, 0, 0] = ![1, 0, 0]) := by
  refine ⟨?_, by rfl, by decide +kernel, by decide +kernel, by decide +kernel⟩
  intro st tables hm ph t ht
  simp only [exDecLut, List.mem_singleton, Prod.mk.injEq] at hm
  obtain ⟨rfl, rfl⟩ := hm
  simp only [List.mem_singleton, Prod.mk.injEq] at ht
  obtain ⟨rfl, rfl⟩ := ht
  refine ⟨rfl, ?_⟩
  intro p hp
  simp only [List.mem_cons, List.not_mem_nil, or_false] at hp
  rcases hp with rfl | rfl | rfl <;> exact ⟨rfl, by intro r hr; simp at hr; subst hr; rfl⟩

example : (∀ a, (exDecLut.grid.count a - 1) % (![2, 1, 1] : V3 ℕ) a ≤ 1) ∧
    (decimate exDecLut ![2, 1, 1]).traveltimes = [(['A'], [(['P'], [[[0]], [[2]]])])] :=
  ⟨by decide +kernel, by rfl⟩

/-! ## C50: served traveltimes -/

/-- C50: one table per available station/phase, in the order of the availability, each the
table of that station and phase rounded to the nearest sample; non-negative if the table is.
The int32 cast is exact for traveltimes below 2^31 samples. -/
theorem C50_served (L : Compute.Lut) (sr : ℚ) (avail : List (Str × ℕ)) (out : List (ℕ → ℤ))
    (h : Compute.serveTraveltimes L sr avail = .ok out) :
    List.Forall₂ (fun (e : Str × ℕ) (tt : ℕ → ℤ) =>
      ∃ station phase table, e.1 = station ++ '_' :: phase ∧
        Compute.lookup L station phase = .ok table ∧
        ∀ node, |(tt node : ℚ) - table node * sr| ≤ 1 / 2 ∧
          (0 ≤ sr → 0 ≤ table node → 0 ≤ tt node))
      (avail.filter (fun e => e.2 = 1)) out := by
  unfold Compute.serveTraveltimes at h
  cases hs : Compute.serve L avail with
  | error e => rw [hs] at h; simp at h
  | ok gs =>
    rw [hs] at h
    have ho : out = gs.map (Compute.toSamples sr) := by
      cases gs with
      | nil => simp at h
      | cons g gs => exact (Except.ok.inj h).symm
    subst ho
    rw [List.forall₂_map_right_iff]
    refine (Compute.serve_forall₂ L avail gs hs).imp ?_
    rintro e g ⟨s, p, h1, h2⟩
    exact ⟨s, p, g, h1, h2, fun node => Compute.toSamples_spec sr g node⟩

/-- C50: without an availability, all phases of the table for all stations, phase by phase. -/
theorem C50_served_all (L : Compute.Lut) (sr : ℚ) (out : List (ℕ → ℤ))
    (h : Compute.serveAll L sr = .ok out) :
    List.Forall₂ (fun (e : Str × Str) (tt : ℕ → ℤ) =>
      ∃ table, Compute.lookup L e.2 e.1 = .ok table ∧
        ∀ node, |(tt node : ℚ) - table node * sr| ≤ 1 / 2 ∧
          (0 ≤ sr → 0 ≤ table node → 0 ≤ tt node))
      (L.phases.product L.stations) out := by
  unfold Compute.serveAll at h
  cases hs : Compute.serveList L (L.phases.flatMap fun p => L.stations.map fun s => (s, p)) with
  | error e => rw [hs] at h; simp at h
  | ok gs =>
    rw [hs] at h
    have ho : out = gs.map (Compute.toSamples sr) := by
      cases gs with
      | nil => simp at h
      | cons g gs => exact (Except.ok.inj h).symm
    subst ho
    rw [List.forall₂_map_right_iff]
    have e : L.phases.flatMap (fun p => L.stations.map fun s => (s, p)) =
        (L.phases.product L.stations).map Prod.swap := by
      unfold List.product
      rw [List.map_flatMap]
      simp [Function.comp_def]
    rw [e] at hs
    have := Compute.serveList_forall₂ L _ gs hs
    rw [List.forall₂_map_left_iff] at this
    refine this.imp ?_
    rintro ⟨p, s⟩ g h2
    exact ⟨g, h2, fun node => Compute.toSamples_spec sr g node⟩

/-- Two stations, one phase, two nodes. -/
def exServeLut : Compute.Lut :=
  { stations := [['A'], ['B']]
    phases := [['P']]
    table := fun s => if s = ['A'] then some (fun p => if p = ['P'] then
        some (fun n => if n = 0 then 1 / 3 else 1) else none)
      else if s = ['B'] then some (fun p => if p = "TIME_P".toList then
        some (fun _ => 2 / 100) else none) else none
    nNodes := 2 }

example : ((Compute.serveTraveltimes exServeLut 50 [("A_P".toList, 1), ("B_P".toList, 1)]).map
      fun l => l.map fun t => [t 0, t 1]) = .ok [[17, 50], [1, 1]] ∧
    ((Compute.serveTraveltimes exServeLut 50 [("A_P".toList, 0), ("B_P".toList, 1)]).map
      fun l => l.map fun t => [t 0, t 1]) = .ok [[1, 1]] ∧
    ((Compute.serveAll exServeLut 50).map fun l => l.map fun t => [t 0, t 1]) =
      .ok [[17, 50], [1, 1]] := by decide +kernel

/-! ## C51: adding lookup tables -/

/-- A lookup table as Python can hold it: no station twice, at least one node per axis, positive
spacing. -/
structure WellFormed (L : Grid.Lut) : Prop where
  nodup : (L.traveltimes.map Prod.fst).Nodup
  count : ∀ a, 0 < L.grid.count a
  spacing : ∀ a, 0 < L.grid.spacing a

/-- C51: two lookup tables compare equal exactly when their grids (lower corner, spacing and
number of nodes on each axis) and their projections are the same. -/
theorem C51_equal_iff (a b : Grid.Lut) (ha : WellFormed a) (hb : WellFormed b) :
    lutEq a b = true ↔ a.grid = b.grid ∧ a.gridProj = b.gridProj ∧ a.coordProj = b.coordProj := by
  unfold lutEq
  simp only [Bool.and_eq_true, decide_eq_true_eq]
  constructor
  · rintro ⟨⟨hc, hs⟩, hp⟩
    refine ⟨?_, hp⟩
    obtain ⟨⟨all, asp, an⟩, _, _, _, _, _⟩ := a
    obtain ⟨⟨bll, bsp, bn⟩, _, _, _, _, _⟩ := b
    simp only at hs
    subst hs
    simp only [gridCorners, List.flatMap_cons, List.map_cons, List.map_nil, List.flatMap_nil,
      List.append_nil, List.cons_append, List.nil_append, List.cons.injEq, and_true] at hc
    obtain ⟨h000, -, -, -, -, -, -, h111⟩ := hc
    have hll : all = bll := by
      funext x
      have := congrFun h000 x
      simp only [index2grid] at this
      fin_cases x <;> simpa using this
    subst hll
    have hn : an = bn := by
      funext x
      have h1 := congrFun h111 x
      have hx := ha.spacing x
      have h2 := ha.count x
      have h3 := hb.count x
      simp only [index2grid] at h1 hx h2 h3
      have h4 : ((((an x : ℤ) - 1 : ℤ) : ℚ)) = (((bn x : ℤ) - 1 : ℤ) : ℚ) := by
        have h5 : ((((an x : ℤ) - 1 : ℤ) : ℚ)) * asp x = (((bn x : ℤ) - 1 : ℤ) : ℚ) * asp x := by
          fin_cases x <;> simpa using h1
        exact mul_right_cancel₀ hx.ne' h5
      have h6 : ((an x : ℤ) - 1 : ℤ) = (bn x : ℤ) - 1 := by exact_mod_cast h4
      omega
    rw [hn]
  · rintro ⟨hg, hp⟩
    exact ⟨⟨by rw [hg], by rw [hg]⟩, hp⟩

/-- C51: with the same grid the sum has a table for every station of either and for no other. -/
theorem C51_all_stations (a b : Grid.Lut) (hb : WellFormed b) (h : lutEq a b = true) :
    ∃ r, lutAdd a (some b) = (r, some r) ∧ r.grid = a.grid ∧
      ∀ st, (dictGet r.traveltimes st).isSome ↔
        (dictGet a.traveltimes st).isSome ∨ (dictGet b.traveltimes st).isSome := by
  refine ⟨{ a with traveltimes := dictUpdate a.traveltimes b.traveltimes }, ?_, rfl, ?_⟩
  · unfold lutAdd; simp only; rw [if_pos h]
  · intro st
    show (dictGet (dictUpdate a.traveltimes b.traveltimes) st).isSome ↔ _
    rw [dictGet_dictUpdate _ hb.nodup]
    cases dictGet b.traveltimes st <;> simp

/-- C51 for a station in at most one of the two tables: its traveltimes are kept or added
unchanged.  Missing: a station in both keeps `a`'s table (it does not, below). -/
theorem C51_tables_partial (a b : Grid.Lut) (hb : WellFormed b) (h : lutEq a b = true)
    (st : Str) (hst : dictGet a.traveltimes st = none ∨ dictGet b.traveltimes st = none) :
    dictGet (lutAdd a (some b)).1.traveltimes st =
      (dictGet a.traveltimes st).or (dictGet b.traveltimes st) := by
  unfold lutAdd
  simp only
  rw [if_pos h]
  show dictGet (dictUpdate a.traveltimes b.traveltimes) st = _
  rw [dictGet_dictUpdate _ hb.nodup]
  rcases hst with hst | hst <;> rw [hst] <;> simp

/-- C51: what the code does for a station in both: the second table wins. -/
theorem C51_second_wins (a b : Grid.Lut) (hb : WellFormed b) (h : lutEq a b = true)
    (st : Str) (t : List (Str × Table)) (ht : dictGet b.traveltimes st = some t) :
    dictGet (lutAdd a (some b)).1.traveltimes st = some t := by
  unfold lutAdd
  simp only
  rw [if_pos h]
  show dictGet (dictUpdate a.traveltimes b.traveltimes) st = _
  rw [dictGet_dictUpdate _ hb.nodup, ht]
  rfl

/-- C51: different grids or projections, or something that is not a lookup table: nothing is
modified. -/
theorem C51_mismatch_unchanged (a b : Grid.Lut) (h : lutEq a b = false) :
    lutAdd a (some b) = (a, none) ∧ lutAdd a none = (a, some a) := by
  refine ⟨?_, rfl⟩
  unfold lutAdd
  simp only
  rw [if_neg (by simp [h])]

/-- C51: the station table and the list of phases are never extended. -/
theorem C51_station_table_kept (a : Grid.Lut) (b : Option Grid.Lut) :
    (lutAdd a b).1.stationData = a.stationData ∧ (lutAdd a b).1.phases = a.phases := by
  unfold lutAdd
  cases b with
  | none => exact ⟨rfl, rfl⟩
  | some b =>
    simp only
    split_ifs <;> exact ⟨rfl, rfl⟩

/-- `exDecLut` with other traveltimes for the same station, and one more station. -/
def exDecLut2 : Grid.Lut :=
  { exDecLut with
    traveltimes := [(['A'], [(['P'], [[[5]], [[6]], [[7]]])]), (['B'], [(['P'], [[[1]], [[1]], [[1]]])])]
    stationData := [['A'], ['B']] }

/-- C51 is violated: the first table's traveltimes for a shared station are overwritten, and a
station added is missing from the station table. -/
theorem C51_violated : WellFormed exDecLut ∧ WellFormed exDecLut2 ∧
    lutEq exDecLut exDecLut2 = true ∧
    dictGet exDecLut.traveltimes ['A'] = some [(['P'], [[[0]], [[1]], [[2]]])] ∧
    dictGet (lutAdd exDecLut (some exDecLut2)).1.traveltimes ['A'] =
      some [(['P'], [[[5]], [[6]], [[7]]])] ∧
    (dictGet (lutAdd exDecLut (some exDecLut2)).1.traveltimes ['B']).isSome ∧
    (lutAdd exDecLut (some exDecLut2)).1.stationData = [['A']] :=
  ⟨⟨by decide +kernel, by decide +kernel, by decide +kernel⟩,
   ⟨by decide +kernel, by decide +kernel, by decide +kernel⟩,
   by decide +kernel, by decide +kernel, by decide +kernel, by decide +kernel, by decide +kernel⟩

example : lutEq exDecLut { exDecLut with grid := exGrid } = false := by decide +kernel

/-! ## C52: saving and loading -/

/-- C52: reading a saved table with `read_lut` restores every saved attribute (the keys of a
`__dict__` are distinct). -/
theorem C52_read_lut_restores {V : Type} (d : Grid.Defaults V) (o : Obj V)
    (ho : (o.map Prod.fst).Nodup) (attr : Str) (v : V) (h : dictGet o attr = some v) :
    dictGet (readLut d (save o)) attr = some v := by
  unfold readLut save
  rw [dictGet_dictUpdate _ ho, h]; rfl

/-- C52: and so does `load` on an existing object. -/
theorem C52_load_restores {V : Type} (p o : Obj V) (ho : (o.map Prod.fst).Nodup) (attr : Str) (v : V)
    (h : dictGet o attr = some v) : dictGet (load p (save o)) attr = some v := by
  unfold load save
  rw [dictGet_dictUpdate _ ho, h]; rfl

/-- C52 through the constructor (`LUT(lut_file=...)`): every saved attribute except the station
information. -/
theorem C52_constructor_partial {V : Type} (d : Grid.Defaults V) (o : Obj V)
    (ho : (o.map Prod.fst).Nodup) (attr : Str) (v : V) (h : dictGet o attr = some v)
    (hattr : attr ≠ "station_data".toList) :
    dictGet (initFromFile d (some (save o))) attr = some v := by
  unfold initFromFile save
  simp only
  rw [dictGet_dictSet, if_neg hattr, dictGet_dictUpdate _ ho, h]; rfl

/-- C52 is violated through the constructor: whatever station information was saved, the loaded
table has none. -/
theorem C52_violated {V : Type} (d : Grid.Defaults V) (o : Obj V) :
    dictGet (initFromFile d (some (save o))) "station_data".toList = some d.emptyFrame := by
  unfold initFromFile
  simp only
  rw [dictGet_dictSet, if_pos rfl]

example : let d : Grid.Defaults ℕ := ⟨10, 20, 0⟩
    let o : Obj ℕ := [("phases".toList, 21), ("traveltimes".toList, 5), ("station_data".toList, 3)]
    dictGet (readLut d (save o)) "station_data".toList = some 3 ∧
    dictGet (readLut d (save o)) "phases".toList = some 21 ∧
    dictGet (initFromFile d (some (save o))) "station_data".toList = some 0 ∧
    dictGet (initFromFile d (some (save o))) "phases".toList = some 21 := by decide +kernel

/-! ## C53: interpolating the 2-D table -/

/-- C53: for the table requested for a station (`_grid_string`), every node of the grid (at a
distance up to `maxDist` and a depth between `z1` and `z2`) reads four neighbouring entries
inside the table that surround it, and the result lies between them. -/
theorem C53_inside_between (t : Table2) (maxDist z1 z2 dx x z : ℚ) (hdx : 0 < dx)
    (hshape : ((t.nx : ℤ), (t.nz : ℤ)) = nllocShape maxDist z1 z2 dx)
    (hx0 : 0 ≤ x) (hx : x ≤ maxDist) (hz0 : z1 ≤ z) (hz : z ≤ z2) :
    ∃ i k : ℕ, i + 1 < t.nx ∧ k + 1 < t.nz ∧
      i * dx ≤ x ∧ x < (i + 1) * dx ∧ z1 + k * dx ≤ z ∧ z < z1 + (k + 1) * dx ∧
      ∃ v, bilinear t 0 z1 dx dx x z = .ok v ∧
        ∀ lo hi : ℚ, (∀ i' ∈ [i, i + 1], ∀ k' ∈ [k, k + 1], lo ≤ t.val i' k' ∧ t.val i' k' ≤ hi) →
          lo ≤ v ∧ v ≤ hi := by
  obtain ⟨i, k, a, b, h⟩ := nlloc_reads t maxDist z1 z2 dx x z hdx hshape hx0 hx hz0 hz
  refine ⟨i, k, a.1, a.2, b.1, b.2.1, b.2.2.1, b.2.2.2, _, h, ?_⟩
  intro lo hi hb
  simp only [List.mem_cons, List.not_mem_nil, or_false, forall_eq_or_imp, forall_eq] at hb
  obtain ⟨⟨h00, h01⟩, h10, h11⟩ := hb
  have fx := frac_mem x dx hdx
  have fz := frac_mem z dx hdx
  have c0 := convex_between (remainder x dx / dx) fx.1 fx.2.le h00.1 h00.2 h10.1 h10.2
  have c1 := convex_between (remainder x dx / dx) fx.1 fx.2.le h01.1 h01.2 h11.1 h11.2
  exact convex_between (remainder z dx / dx) fz.1 fz.2.le c0.1 c0.2 c1.1 c1.2

/-- C53: the value at a table node in general: the vertical weights are off by the part of the
table's top `z1` that is not a whole number of spacings. -/
theorem C53_node_value (t : Table2) (z1 dx : ℚ) (hdx : 0 < dx) (i k : ℕ) (hi : i + 1 < t.nx)
    (hk : k + 1 < t.nz) :
    bilinear t 0 z1 dx dx (i * dx) (z1 + k * dx) =
      .ok (t.val i k * (1 - Int.fract (z1 / dx)) + t.val i (k + 1) * Int.fract (z1 / dx)) := by
  rw [bilinear_eq t 0 z1 dx dx (i * dx) (z1 + k * dx) hi hk
    (by rw [sub_zero, mul_div_cancel_right₀ _ hdx.ne']; simp)
    (by rw [add_sub_cancel_left, mul_div_cancel_right₀ _ hdx.ne']; simp)]
  rw [remainder_div _ _ hdx, remainder_div _ _ hdx, mul_div_cancel_right₀ _ hdx.ne', add_div,
    mul_div_cancel_right₀ _ hdx.ne', Int.fract_add_natCast, Int.fract_natCast]
  congr 1
  ring

/-- C53 when the top of the table is a whole number of spacings: the interpolation is the
bilinear one, hence exact at table nodes. -/
theorem C53_bilinear_partial (t : Table2) (maxDist z1 z2 dx x z : ℚ) (hdx : 0 < dx)
    (hshape : ((t.nx : ℤ), (t.nz : ℤ)) = nllocShape maxDist z1 z2 dx)
    (hx0 : 0 ≤ x) (hx : x ≤ maxDist) (hz0 : z1 ≤ z) (hz : z ≤ z2) (m : ℤ) (hm : z1 = m * dx) :
    ∃ (i k : ℕ) (a b : ℚ), x = (i + a) * dx ∧ z = z1 + (k + b) * dx ∧
      0 ≤ a ∧ a < 1 ∧ 0 ≤ b ∧ b < 1 ∧
      bilinear t 0 z1 dx dx x z = .ok ((1 - b) * ((1 - a) * t.val i k + a * t.val (i + 1) k) +
        b * ((1 - a) * t.val i (k + 1) + a * t.val (i + 1) (k + 1))) := by
  obtain ⟨i, k, h1, h2, h⟩ := nlloc_reads t maxDist z1 z2 dx x z hdx hshape hx0 hx hz0 hz
  have ex : remainder x dx / dx = x / dx - i := by
    rw [remainder_div _ _ hdx]
    have : ⌊x / dx⌋ = i := by
      rw [Int.floor_eq_iff, le_div_iff₀ hdx, div_lt_iff₀ hdx]
      exact ⟨by exact_mod_cast h2.1, by exact_mod_cast h2.2.1⟩
    rw [Int.fract, this]; simp
  have ez : remainder z dx / dx = (z - z1) / dx - k := by
    rw [remainder_div _ _ hdx]
    have e : z / dx = (z - z1) / dx + m := by
      rw [hm]; field_simp; ring
    have : ⌊(z - z1) / dx⌋ = k := by
      rw [Int.floor_eq_iff, le_div_iff₀ hdx, div_lt_iff₀ hdx]
      refine ⟨?_, ?_⟩
      · have := h2.2.2.1; push_cast; linarith
      · have := h2.2.2.2; push_cast; linarith
    rw [e, Int.fract_add_intCast, Int.fract, this]; simp
  have fx := frac_mem x dx hdx
  have fz := frac_mem z dx hdx
  refine ⟨i, k, remainder x dx / dx, remainder z dx / dx, ?_, ?_, fx.1, fx.2, fz.1, fz.2, ?_⟩
  · rw [ex]; field_simp; ring
  · rw [ez]; field_simp; ring
  · rw [h]
    congr 1
    ring

/-- A 7 × 7 table whose entry is its depth index. -/
def exTable2 : Table2 := ⟨7, 7, fun _ k => k⟩

/-- C53 is violated when the top of the table is not a whole number of spacings (a station
elevation usually is not): at the topmost node, where the table says 0, the result is 1/2. -/
theorem C53_violated :
    ((exTable2.nx : ℤ), (exTable2.nz : ℤ)) = nllocShape 2 (-(1 / 2)) (3 / 2) 1 ∧
    exTable2.val 0 0 = 0 ∧ bilinear exTable2 0 (-(1 / 2)) 1 1 0 (-(1 / 2)) = .ok (1 / 2) := by
  decide +kernel

/-- C53: used on points outside the table the function is not safe: beyond the last node it
raises, before the first it silently reads the opposite edge. -/
theorem C53_outside : bilinear exTable2 0 0 1 1 6 0 = .error .indexError ∧
    bilinear exTable2 0 0 1 1 0 (-(1 / 4)) = .ok (3 / 2) := by decide +kernel

example : bilinear exTable2 0 (-1) 1 1 (3 / 2) (1 / 4) = .ok (5 / 4) := by decide +kernel

end QM
