import Verif.Model.DecimatedScan
import Verif.Props.ComputeStep

/-!
# C155: scanning with a decimated lookup table
-/

namespace QM
open QM.Compute QM.Migrate QM.Pads QM.ComputeStep QM.Grid QM.DecimatedScan

/-! ## Specification -/

/-- Position in the C-order list of the nodes of a grid of `n` nodes of the node with indices `v`. -/
def Spec.flatIndex (n v : V3 ℕ) : ℕ := (v 0 * n 1 + v 1) * n 2 + v 2

/-- Number of nodes skipped on one axis before the first one that is kept: half of those left over. -/
def Spec.skipped (n df : ℕ) : ℕ := (n - 1) % df / 2

/-- The node of the original grid that node `v` of the decimated grid stands for. -/
def Spec.standsFor (n df v : V3 ℕ) : V3 ℕ := fun a => Spec.skipped (n a) (df a) + v a * df a

/-- Coordinates of a node. -/
def Spec.nodeXyz (g : Grid.Grid) (v : V3 ℕ) : V3 ℚ := fun a => g.ll a + v a * g.spacing a

/-! ## Proof -/

private theorem pair_lt {i i' j j' n : ℕ} (hj : j < n) (hj' : j' < n) :
    i * n + j < i' * n + j' ↔ i < i' ∨ (i = i' ∧ j < j') := by
  rcases lt_trichotomy i i' with h | h | h
  · have : (i + 1) * n ≤ i' * n := Nat.mul_le_mul_right n h
    rw [add_mul] at this
    constructor
    · intro _; exact Or.inl h
    · intro _; omega
  · subst h
    constructor
    · intro h; exact Or.inr ⟨rfl, by omega⟩
    · rintro (h | ⟨-, h⟩) <;> omega
  · have : (i' + 1) * n ≤ i * n := Nat.mul_le_mul_right n h
    rw [add_mul] at this
    constructor
    · intro _; omega
    · rintro (h' | ⟨h', -⟩) <;> omega

/-- The order of the nodes is the lexicographic order of their indices. -/
theorem flatIndex_lt_iff {n v v' : V3 ℕ} (hv : ∀ a, v a < n a) (hv' : ∀ a, v' a < n a) :
    Spec.flatIndex n v < Spec.flatIndex n v' ↔
      (v 0 < v' 0 ∨ (v 0 = v' 0 ∧ v 1 < v' 1)) ∨ ((v 0 = v' 0 ∧ v 1 = v' 1) ∧ v 2 < v' 2) := by
  unfold Spec.flatIndex
  rw [pair_lt (hv 2) (hv' 2), pair_lt (hv 1) (hv' 1)]
  have : v 0 * n 1 + v 1 = v' 0 * n 1 + v' 1 ↔ v 0 = v' 0 ∧ v 1 = v' 1 := by
    constructor
    · intro h
      have h1 := (pair_lt (i := v 0) (i' := v' 0) (hv 1) (hv' 1)).not.1 (by omega)
      have h2 := (pair_lt (i := v' 0) (i' := v 0) (hv' 1) (hv 1)).not.1 (by omega)
      omega
    · rintro ⟨h, h'⟩; rw [h, h']
  rw [this]

theorem standsFor_lt {n df v : V3 ℕ} (hn : ∀ a, 0 < n a)
    (hv : ∀ a, v a < decCount (n a) (df a)) (a : Fin 3) : Spec.standsFor n df v a < n a := by
  have h1 : v a ≤ (n a - 1) / df a := by have := hv a; unfold decCount at this; omega
  have h2 := Nat.div_add_mod (n a - 1) (df a)
  have h3 : v a * df a ≤ df a * ((n a - 1) / df a) := by
    rw [mul_comm]; exact Nat.mul_le_mul_left _ h1
  have h4 := hn a
  unfold Spec.standsFor Spec.skipped
  omega

theorem standsFor_order {n df v v' : V3 ℕ} (hn : ∀ a, 0 < n a) (hd : ∀ a, 0 < df a)
    (hv : ∀ a, v a < decCount (n a) (df a)) (hv' : ∀ a, v' a < decCount (n a) (df a)) :
    Spec.flatIndex n (Spec.standsFor n df v) < Spec.flatIndex n (Spec.standsFor n df v') ↔
      Spec.flatIndex (fun a => decCount (n a) (df a)) v < Spec.flatIndex (fun a => decCount (n a) (df a)) v' := by
  rw [flatIndex_lt_iff (standsFor_lt hn hv) (standsFor_lt hn hv'), flatIndex_lt_iff hv hv']
  have e : ∀ a, Spec.standsFor n df v a = Spec.standsFor n df v' a ↔ v a = v' a := by
    intro a
    unfold Spec.standsFor
    constructor
    · intro h
      exact Nat.eq_of_mul_eq_mul_right (hd a) (by omega)
    · intro h; rw [h]
  have l : ∀ a, Spec.standsFor n df v a < Spec.standsFor n df v' a ↔ v a < v' a := by
    intro a
    unfold Spec.standsFor
    rw [Nat.add_lt_add_iff_left, Nat.mul_lt_mul_right (hd a)]
  simp only [e, l]

theorem node_exists {n : V3 ℕ} {f : ℕ} (h : f < n 0 * n 1 * n 2) :
    ∃ v : V3 ℕ, (∀ a, v a < n a) ∧ Spec.flatIndex n v = f := by
  obtain ⟨v, -, h1, h2⟩ := unravel_spec h
  exact ⟨v, h1, h2⟩

theorem flatAt_flatIndex {n v : V3 ℕ} (hv : ∀ a, v a < n a) (t : Table) :
    flatAt n t (Spec.flatIndex n v) = (t.at (v 0) (v 1) (v 2)).getD 0 := by
  have h := unravel_ravel hv
  unfold unravel at h
  rw [if_pos (ravel_lt hv)] at h
  have e := Except.ok.inj h
  have e0 := congrFun e 0
  have e1 := congrFun e 1
  have e2 := congrFun e 2
  simp only [Matrix.cons_val_zero, Matrix.cons_val_one, Matrix.cons_val_two, Matrix.head_cons, Matrix.tail_cons,
    Matrix.cons_val] at e0 e1 e2
  unfold flatAt
  show (t.at (ravel n v / n 2 / n 1) (ravel n v / n 2 % n 1) (ravel n v % n 2)).getD 0 = _
  rw [e0, e1, e2]

theorem flatAt_decTable {n df v : V3 ℕ} (hn : ∀ a, 0 < n a) (hd : ∀ a, 0 < df a)
    (hv : ∀ a, v a < decCount (n a) (df a)) (t : Table) :
    flatAt (fun a => decCount (n a) (df a)) (decTable n df t) (Spec.flatIndex (fun a => decCount (n a) (df a)) v) =
      flatAt n t (Spec.flatIndex n (Spec.standsFor n df v)) := by
  rw [flatAt_flatIndex hv, flatAt_flatIndex (standsFor_lt hn hv), decTable_at hd, decStart_eq _ _ (hd 0) (hn 0),
    decStart_eq _ _ (hd 1) (hn 1), decStart_eq _ _ (hd 2) (hn 2)]
  rfl

theorem dictGet_map {α β : Type} (d : List (Str × α)) (f : α → β) (k : Str) :
    dictGet (d.map fun e => (e.1, f e.2)) k = (dictGet d k).map f := by
  unfold dictGet
  induction d with
  | nil => rfl
  | cons e d ih =>
    simp only [List.map_cons, List.find?_cons]
    by_cases h : e.1 = k
    · simp [h]
    · simp only [h, decide_false]
      exact ih

theorem decimate_traveltimes (L : Grid.Lut) (df : V3 ℕ) :
    (decimate L df).traveltimes = L.traveltimes.map fun s => (s.1, s.2.map fun p =>
      (p.1, decTable L.grid.count df p.2)) := rfl

theorem lookup_toScan (L : Grid.Lut) (s p : Str) :
    Compute.lookup (toScan L) s p =
      match dictGet L.traveltimes s with
      | none => .error .typeError
      | some d =>
        match dictGet d p with
        | some t => .ok (flatAt L.grid.count t)
        | none =>
          match dictGet d ("TIME_".toList ++ p) with
          | some t => .ok (flatAt L.grid.count t)
          | none => .error .lutPhases := by
  unfold Compute.lookup
  have e : (toScan L).table s = (dictGet L.traveltimes s).map
    fun d p => (dictGet d p).map (flatAt L.grid.count) := rfl
  rw [e]
  cases dictGet L.traveltimes s with
  | none => rfl
  | some d =>
    simp only [Option.map_some]
    cases dictGet d p with
    | some t => rfl
    | none =>
      simp only [Option.map_none]
      cases dictGet d ("TIME_".toList ++ p) with
      | some t => rfl
      | none => rfl

/-- The decimated table has the traveltimes of the nodes it stands for, and no other station or phase. -/
theorem lookup_decimate (L : Grid.Lut) (df : V3 ℕ) (s p : Str) :
    (∀ f, Compute.lookup (toScan L) s p = .ok f → ∃ t, f = flatAt L.grid.count t ∧
      Compute.lookup (toScan (decimate L df)) s p = .ok (flatAt (decimate L df).grid.count
        (decTable L.grid.count df t))) ∧
    ∀ f', Compute.lookup (toScan (decimate L df)) s p = .ok f' → ∃ t, f' = flatAt (decimate L df).grid.count
        (decTable L.grid.count df t) ∧ Compute.lookup (toScan L) s p = .ok (flatAt L.grid.count t) := by
  rw [lookup_toScan, lookup_toScan, decimate_traveltimes,
    dictGet_map L.traveltimes (fun d => d.map fun p => (p.1, decTable L.grid.count df p.2))]
  cases dictGet L.traveltimes s with
  | none => exact ⟨fun f h => by simp at h, fun f h => by simp at h⟩
  | some d =>
    simp only [Option.map_some]
    rw [dictGet_map d (decTable L.grid.count df), dictGet_map d (decTable L.grid.count df)]
    cases dictGet d p with
    | some t =>
      simp only [Option.map_some, Except.ok.injEq]
      exact ⟨fun f h => ⟨t, h.symm, rfl⟩, fun f h => ⟨t, h.symm, rfl⟩⟩
    | none =>
      simp only [Option.map_none]
      cases dictGet d ("TIME_".toList ++ p) with
      | some t =>
        simp only [Option.map_some, Except.ok.injEq]
        exact ⟨fun f h => ⟨t, h.symm, rfl⟩, fun f h => ⟨t, h.symm, rfl⟩⟩
      | none => exact ⟨fun f h => by simp at h, fun f h => by simp at h⟩

/-- Every table has a traveltime that is not negative at every node. -/
def Spec.NonnegTimes (L : Grid.Lut) : Prop :=
  ∀ s p f, Compute.lookup (toScan L) s p = .ok f →
    ∀ node < L.grid.count 0 * L.grid.count 1 * L.grid.count 2, 0 ≤ f node

/-- C155: the longest traveltime of a decimated table, which sets the data read around each timestep, is found
whenever that of the original is, is not longer, and is that of a node that is kept. -/
theorem C155_longest_traveltime (L : Grid.Lut) (df : V3 ℕ) (hd : ∀ a, 0 < df a) (hn : ∀ a, 0 < L.grid.count a)
    (ttmax : ℚ) (h : maxTraveltime (toScan L) = some ttmax) :
    ∃ ttmax', maxTraveltime (toScan (decimate L df)) = some ttmax' ∧ ttmax' ≤ ttmax ∧
      ∃ s ∈ L.stationData, ∃ p ∈ L.phases, ∃ f, Compute.lookup (toScan L) s p = .ok f ∧
        ∃ v : V3 ℕ, (∀ a, v a < (decimate L df).grid.count a) ∧
          f (Spec.flatIndex L.grid.count (Spec.standsFor L.grid.count df v)) = ttmax' := by
  obtain ⟨h1, ⟨p, hp, s, hs, f, node, hf, -, -⟩, h3⟩ := (C27_largest_traveltime _ _).1 h
  have hcount : ∀ a, 0 < (decimate L df).grid.count a := fun a =>
    Nat.lt_of_lt_of_le Nat.one_pos (Nat.le_add_right _ _)
  have hok : ∀ p ∈ L.phases, ∀ s ∈ L.stationData, ∃ t, Compute.lookup (toScan L) s p = .ok (flatAt L.grid.count t) ∧
      Compute.lookup (toScan (decimate L df)) s p = .ok (flatAt (decimate L df).grid.count
        (decTable L.grid.count df t)) := by
    intro p hp s hs
    obtain ⟨f, hf⟩ := h1 p hp s hs
    obtain ⟨t, e, h⟩ := (lookup_decimate L df s p).1 f hf
    exact ⟨t, by rw [← e]; exact hf, h⟩
  -- the maximum exists
  have hex : ∃ m, maxTraveltime (toScan (decimate L df)) = some m := by
    unfold maxTraveltime
    simp only
    rw [if_pos]
    · rw [← Option.isSome_iff_exists, List.isSome_max?_iff]
      intro hnil
      obtain ⟨t, -, ht⟩ := hok p hp s hs
      have : flatAt (decimate L df).grid.count (decTable L.grid.count df t) 0 ∈ ([] : List ℚ) := by
        rw [← hnil]
        refine List.mem_flatMap.2 ⟨_, List.mem_flatMap.2 ⟨p, hp, List.mem_map.2 ⟨s, hs, ht⟩⟩, ?_⟩
        refine List.mem_map.2 ⟨0, List.mem_range.2 ?_, rfl⟩
        exact Nat.mul_pos (Nat.mul_pos (hcount 0) (hcount 1)) (hcount 2)
      simp at this
    · rw [List.all_eq_true]
      intro g hg
      obtain ⟨p, hp, hg⟩ := List.mem_flatMap.1 hg
      obtain ⟨s, hs, rfl⟩ := List.mem_map.1 hg
      obtain ⟨t, -, ht⟩ := hok p hp s hs
      rw [ht]; rfl
  obtain ⟨m, hm⟩ := hex
  obtain ⟨-, ⟨p, hp, s, hs, f, node, hf, hnode, e⟩, -⟩ := (C27_largest_traveltime _ _).1 hm
  obtain ⟨v, hv, rfl⟩ := node_exists (n := (decimate L df).grid.count) hnode
  obtain ⟨t, ht, ht'⟩ := hok p hp s hs
  rw [ht'] at hf
  cases hf
  have e2 := flatAt_decTable hn hd hv t
  have e3 : flatAt L.grid.count t (Spec.flatIndex L.grid.count (Spec.standsFor L.grid.count df v)) = m := by
    rw [← e2]; exact e
  refine ⟨m, hm, ?_, s, hs, p, hp, _, ht, v, hv, e3⟩
  rw [← e3]
  exact h3 p hp s hs _ ht _ (ravel_lt (standsFor_lt hn hv))

theorem setup_decimate {L : Grid.Lut} {df : V3 ℕ} (hd : ∀ a, 0 < df a) (hn : ∀ a, 0 < L.grid.count a)
    (hnn : Spec.NonnegTimes L) {w : Windows} {ttmax ttmax' : ℚ} {sr : ℕ} {phases stations : List Str}
    {av : Str → Str → ℕ} {G : Str → Str → ℕ → ℚ}
    (S : Spec.ScanSetup (toScan L) L.grid w ttmax sr phases stations av G)
    (h' : maxTraveltime (toScan (decimate L df)) = some ttmax') :
    ∃ G', Spec.ScanSetup (toScan (decimate L df)) (decimate L df).grid w ttmax' sr phases stations av G' ∧
      ∀ s ∈ stations, ∀ p ∈ phases, av s p = 1 → ∀ v : V3 ℕ, (∀ a, v a < (decimate L df).grid.count a) →
        G' s p (Spec.flatIndex (decimate L df).grid.count v) =
          G s p (Spec.flatIndex L.grid.count (Spec.standsFor L.grid.count df v)) := by
  have hcount : ∀ a, 0 < (decimate L df).grid.count a := fun a =>
    Nat.lt_of_lt_of_le Nat.one_pos (Nat.le_add_right _ _)
  obtain ⟨m, hm, -, s, hs, p, hp, f, hf, v, hv, e⟩ := C155_longest_traveltime L df hd hn ttmax S.longest
  rw [h'] at hm
  cases hm
  have hpos : 0 ≤ ttmax' := by
    rw [← e]; exact hnn s p f hf _ (ravel_lt (standsFor_lt hn hv))
  refine ⟨fun s p => match Compute.lookup (toScan (decimate L df)) s p with
    | .ok f => f
    | .error _ => fun _ => 0, ⟨rfl, Nat.mul_pos (Nat.mul_pos (hcount 0) (hcount 1)) (hcount 2), S.win, h', hpos, S.rate,
      S.phNodup, S.stNodup, S.phName, S.stName, S.phLut, S.stLut, S.avail, S.someAvail, ?_⟩, ?_⟩
  · intro s hs p hp h1
    obtain ⟨t, -, ht⟩ := (lookup_decimate L df s p).1 _ (S.table s hs p hp h1)
    rw [ht]
  · intro s hs p hp h1 v hv
    obtain ⟨t, e, ht⟩ := (lookup_decimate L df s p).1 _ (S.table s hs p hp h1)
    simp only [ht]
    rw [e]
    exact flatAt_decTable hn hd hv t

theorem coalescence_congr {pairs : List (Str × Str)} {O : Str → Str → ℤ → ℝ} {d d' : Str → Str → ℕ → ℤ} {k k' : ℕ}
    (h : ∀ sp ∈ pairs, d sp.1 sp.2 k = d' sp.1 sp.2 k') (T : ℤ) :
    Spec.coalescence pairs O d k T = Spec.coalescence pairs O d' k' T := by
  unfold Spec.coalescence
  congr 2
  apply List.map_congr_left
  intro sp hsp
  rw [h sp hsp]

theorem xyz_of_flat {g : Grid.Grid} {v : V3 ℕ} (hv : ∀ a, v a < g.count a) :
    (gridXyz g)[Spec.flatIndex g.count v]? = some (Spec.nodeXyz g v) := by
  show (gridXyz g)[ravel g.count v]? = _
  unfold gridXyz
  rw [List.getElem?_map, allNodes_get hv]
  simp only [Option.map_some, Option.some.injEq]
  funext a
  simp [index2grid, Spec.nodeXyz]

theorem nodeXyz_inj {g : Grid.Grid} (hs : ∀ a, 0 < g.spacing a) {v v' : V3 ℕ}
    (h : Spec.nodeXyz g v = Spec.nodeXyz g v') : v = v' := by
  funext a
  have := congrFun h a
  simp only [Spec.nodeXyz, add_right_inj] at this
  have h2 := mul_right_cancel₀ (hs a).ne' this
  exact_mod_cast h2

/-- The peak over the kept nodes against the peak over all. -/
theorem peak_decimate {g g' : Grid.Grid} {df : V3 ℕ} (hn : ∀ a, 0 < g.count a) (hd : ∀ a, 0 < df a)
    (hs : ∀ a, 0 < g.spacing a)
    (hg : g'.count = fun a => decCount (g.count a) (df a)) {f f' : ℕ → ℝ}
    (hf : ∀ v : V3 ℕ, (∀ a, v a < g'.count a) →
      f' (Spec.flatIndex g'.count v) = f (Spec.flatIndex g.count (Spec.standsFor g.count df v)))
    {o o' : Out} (ho : Spec.ReportsPeak g f o) (ho' : Spec.ReportsPeak g' f' o') :
    o'.maxCoa ≤ o.maxCoa ∧
    (∃ v : V3 ℕ, (∀ a, v a < g'.count a) ∧ o'.xyz = Spec.nodeXyz g' v ∧
      o'.maxCoa = f (Spec.flatIndex g.count (Spec.standsFor g.count df v)) ∧
      ∀ v' : V3 ℕ, (∀ a, v' a < g'.count a) →
        f (Spec.flatIndex g.count (Spec.standsFor g.count df v')) ≤ o'.maxCoa) ∧
    ∀ v : V3 ℕ, (∀ a, v a < g'.count a) → o.xyz = Spec.nodeXyz g (Spec.standsFor g.count df v) →
      o'.maxCoa = o.maxCoa ∧ o'.xyz = Spec.nodeXyz g' v := by
  obtain ⟨k', hk', e', hfirst', hx'⟩ := ho'.node
  obtain ⟨v', hv', rfl⟩ := node_exists hk'
  rw [hf v' hv'] at e'
  have hb : ∀ v : V3 ℕ, (∀ a, v a < g'.count a) → ∀ a, Spec.standsFor g.count df v a < g.count a := by
    intro v hv
    rw [hg] at hv
    exact standsFor_lt hn hv
  have hle : o'.maxCoa ≤ o.maxCoa := by
    rw [e']; exact ho.largest _ (ravel_lt (hb v' hv'))
  have hlarge : ∀ v : V3 ℕ, (∀ a, v a < g'.count a) →
      f (Spec.flatIndex g.count (Spec.standsFor g.count df v)) ≤ o'.maxCoa := by
    intro v hv
    rw [← hf v hv]; exact ho'.largest _ (ravel_lt hv)
  rw [xyz_of_flat hv'] at hx'
  have hx'' := Option.some.inj hx'
  refine ⟨hle, ⟨v', hv', hx''.symm, e', hlarge⟩, ?_⟩
  intro v hv hxyz
  obtain ⟨k, hk, e, hfirst, hx⟩ := ho.node
  obtain ⟨u, hu, rfl⟩ := node_exists hk
  rw [xyz_of_flat hu] at hx
  have hu' := nodeXyz_inj hs ((Option.some.inj hx).trans hxyz)
  subst hu'
  have heq : o'.maxCoa = o.maxCoa := le_antisymm hle (by rw [e]; exact hlarge v hv)
  refine ⟨heq, ?_⟩
  have hord := fun (x y : V3 ℕ) (hx : ∀ a, x a < g'.count a) (hy : ∀ a, y a < g'.count a) =>
    standsFor_order (v := x) (v' := y) hn hd (by rw [hg] at hx; exact hx) (by rw [hg] at hy; exact hy)
  have hsame : f (Spec.flatIndex g.count (Spec.standsFor g.count df v')) =
      f (Spec.flatIndex g.count (Spec.standsFor g.count df v)) := by rw [← e', ← e, heq]
  rcases lt_trichotomy (Spec.flatIndex g'.count v') (Spec.flatIndex g'.count v) with h | h | h
  · have h1 := (hord v' v hv' hv).2 (by rw [← hg]; exact h)
    have := hfirst _ h1
    rw [hsame] at this
    exact absurd this (lt_irrefl _)
  · rw [← hx'']
    have := xyz_of_flat (g := g') hv'
    rw [h, xyz_of_flat hv] at this
    exact (Option.some.inj this).symm
  · have := hfirst' _ h
    rw [hf v hv, hf v' hv', hsame] at this
    exact absurd this (lt_irrefl _)

/-- C155: at any instant that a scan with a lookup table and a scan with the decimated table both cover, with the
same available pairs and onset functions: the decimated scan reports the largest of the coalescence values that the
nodes it keeps have in the full scan, so never more than the full scan reports; and if the full scan's peak is at a
node that is kept, the decimated scan reports the same coalescence, at the node that stands for it.  Missing: a pre-pad
halfway between two samples (as in C114); the coordinates given to that node are those of C155_location. -/
theorem C155_decimated_scan_partial (L : Grid.Lut) (df : V3 ℕ) (hd : ∀ a, 0 < df a)
    (hn : ∀ a, 0 < L.grid.count a) (hsp : ∀ a, 0 < L.grid.spacing a) (hnn : Spec.NonnegTimes L)
    (w : Windows) (ttmax ttmax' : ℚ) (sr : ℕ)
    (phases stations : List Str) (av : Str → Str → ℕ) (G : Str → Str → ℕ → ℚ)
    (S : Spec.ScanSetup (toScan L) L.grid w ttmax sr phases stations av G)
    (htt : maxTraveltime (toScan (decimate L df)) = some ttmax')
    (O : Str → Str → ℤ → ℝ) (origin : ℚ)
    (start timestep : ℚ) (a : ℤ) (n i : ℕ) (out : List Out)
    (h : Spec.DetectStep (toScan L) L.grid w ttmax sr phases stations av O origin start timestep a n i out)
    (start' timestep' : ℚ) (a' : ℤ) (n' i' : ℕ) (out' : List Out)
    (h' : Spec.DetectStep (toScan (decimate L df)) (decimate L df).grid w ttmax' sr phases stations av O origin
      start' timestep' a' n' i' out')
    (m m' : ℕ) (hm : m < n) (hm' : m' < n') (T : ℤ) (hT : a + i * n + m = T) (hT' : a' + i' * n' + m' = T) :
    ∃ o o', out[m]? = some o ∧ out'[m']? = some o' ∧ o'.maxCoa ≤ o.maxCoa ∧
      (∃ v : V3 ℕ, (∀ a, v a < (decimate L df).grid.count a) ∧ o'.xyz = Spec.nodeXyz (decimate L df).grid v ∧
        o'.maxCoa = Spec.coalescence (Spec.migratedPairs phases stations av) O
          (fun s p node => pyRound (G s p node * sr))
          (Spec.flatIndex L.grid.count (Spec.standsFor L.grid.count df v)) T ∧
        ∀ v' : V3 ℕ, (∀ a, v' a < (decimate L df).grid.count a) →
          Spec.coalescence (Spec.migratedPairs phases stations av) O (fun s p node => pyRound (G s p node * sr))
            (Spec.flatIndex L.grid.count (Spec.standsFor L.grid.count df v')) T ≤ o'.maxCoa) ∧
      ∀ v : V3 ℕ, (∀ a, v a < (decimate L df).grid.count a) →
        o.xyz = Spec.nodeXyz L.grid (Spec.standsFor L.grid.count df v) →
        o'.maxCoa = o.maxCoa ∧ o'.xyz = Spec.nodeXyz (decimate L df).grid v := by
  obtain ⟨G', S', hG⟩ := setup_decimate hd hn hnn S htt
  obtain ⟨cols, onset, sc, sc', h1, h2, h3, h4, h5⟩ := h.run
  obtain ⟨cols', onset', sd, sd', h1', h2', h3', h4', h5'⟩ := h'.run
  obtain ⟨q, e1, -, e3⟩ := C114_detect_value_partial _ _ w ttmax sr phases stations av G S origin start timestep a
    h.onGrid n h.whole i _ rfl h.tie _ rfl cols h1 h2 O onset h3 sc sc' h4
  obtain ⟨q', e1', -, e3'⟩ := C114_detect_value_partial _ _ w ttmax' sr phases stations av G' S' origin start'
    timestep' a' h'.onGrid n' h'.whole i' _ rfl h'.tie _ rfl cols' h1' h2' O onset' h3' sd sd' h4'
  rw [h5] at e1; rw [h5'] at e1'
  cases e1; cases e1'
  obtain ⟨o, q1, q2⟩ := e3 m hm
  obtain ⟨o', q1', q2'⟩ := e3' m' hm'
  rw [hT] at q2
  rw [hT'] at q2'
  refine ⟨o, o', q1, q1', peak_decimate hn hd hsp rfl ?_ q2 q2'⟩
  intro v hv
  apply coalescence_congr
  intro sp hsp
  obtain ⟨m1, m2, m3⟩ := mem_migratedPairs hsp
  rw [hG _ m1 _ m2 m3 v hv]

/-- C155, where the decimated scan puts a peak: its coordinates for a node are those of the node it stands for, moved
back by the nodes skipped on each axis.  They are the same exactly when no node was skipped. -/
theorem C155_location (L : Grid.Lut) (df : V3 ℕ) (hsp : ∀ a, 0 < L.grid.spacing a) (v : V3 ℕ) (a : Fin 3) :
    Spec.nodeXyz (decimate L df).grid v a = Spec.nodeXyz L.grid (Spec.standsFor L.grid.count df v) a -
      Spec.skipped (L.grid.count a) (df a) * L.grid.spacing a ∧
    (Spec.nodeXyz (decimate L df).grid v a = Spec.nodeXyz L.grid (Spec.standsFor L.grid.count df v) a ↔
      (L.grid.count a - 1) % df a ≤ 1) := by
  have e : Spec.nodeXyz (decimate L df).grid v a = Spec.nodeXyz L.grid (Spec.standsFor L.grid.count df v) a -
      Spec.skipped (L.grid.count a) (df a) * L.grid.spacing a := by
    show L.grid.ll a + v a * (L.grid.spacing a * df a) = _
    unfold Spec.nodeXyz Spec.standsFor
    push_cast
    ring
  refine ⟨e, ?_⟩
  rw [e, sub_eq_self, mul_eq_zero]
  have h1 := (hsp a).ne'
  simp only [h1, or_false, Nat.cast_eq_zero, Spec.skipped]
  omega

/-- C155, the whole report for a peak at a kept node: with at most one node left over on each axis the decimated scan
reports the same coalescence at the same coordinates.  Missing: more nodes left over (see C155_violated). -/
theorem C155_same_peak_partial (L : Grid.Lut) (df : V3 ℕ) (hd : ∀ a, 0 < df a)
    (hn : ∀ a, 0 < L.grid.count a) (hsp : ∀ a, 0 < L.grid.spacing a) (hnn : Spec.NonnegTimes L)
    (hleft : ∀ a, (L.grid.count a - 1) % df a ≤ 1)
    (w : Windows) (ttmax ttmax' : ℚ) (sr : ℕ)
    (phases stations : List Str) (av : Str → Str → ℕ) (G : Str → Str → ℕ → ℚ)
    (S : Spec.ScanSetup (toScan L) L.grid w ttmax sr phases stations av G)
    (htt : maxTraveltime (toScan (decimate L df)) = some ttmax')
    (O : Str → Str → ℤ → ℝ) (origin : ℚ)
    (start timestep : ℚ) (a : ℤ) (n i : ℕ) (out : List Out)
    (h : Spec.DetectStep (toScan L) L.grid w ttmax sr phases stations av O origin start timestep a n i out)
    (start' timestep' : ℚ) (a' : ℤ) (n' i' : ℕ) (out' : List Out)
    (h' : Spec.DetectStep (toScan (decimate L df)) (decimate L df).grid w ttmax' sr phases stations av O origin
      start' timestep' a' n' i' out')
    (m m' : ℕ) (hm : m < n) (hm' : m' < n') (hT : a + i * n + m = a' + i' * n' + m')
    (o : Out) (ho : out[m]? = some o) (v : V3 ℕ)
    (hv : ∀ a, v a * df a < L.grid.count a) (hpeak : o.xyz = fun a => L.grid.ll a + (v a * df a : ℕ) * L.grid.spacing a) :
    ∃ o', out'[m']? = some o' ∧ o'.maxCoa = o.maxCoa ∧ o'.xyz = o.xyz := by
  obtain ⟨q, o', e1, e2, -, -, e3⟩ := C155_decimated_scan_partial L df hd hn hsp hnn w ttmax ttmax' sr phases stations
    av G S htt O origin start timestep a n i out h start' timestep' a' n' i' out' h' m m' hm hm' _ rfl hT.symm
  rw [ho] at e1
  cases e1
  have hst : Spec.standsFor L.grid.count df v = fun a => v a * df a := by
    funext a
    have := hleft a
    unfold Spec.standsFor Spec.skipped
    omega
  have hv' : ∀ a, v a < (decimate L df).grid.count a := by
    intro a
    show v a < 1 + (L.grid.count a - 1) / df a
    have : v a ≤ (L.grid.count a - 1) / df a := by
      rw [Nat.le_div_iff_mul_le (hd a)]
      have := hv a
      omega
    omega
  have hx : o.xyz = Spec.nodeXyz L.grid (Spec.standsFor L.grid.count df v) := by
    rw [hst]; exact hpeak
  obtain ⟨e4, e5⟩ := e3 v hv' hx
  refine ⟨o', e2, e4, ?_⟩
  rw [e5, hx]
  funext a
  exact ((C155_location L df hsp v a).2).2 (hleft a)

/-! ## Instances -/

/-- Timesteps run, at the usual sampling rates. -/
theorem timestep_runs {L : Compute.Lut} {g : Grid.Grid} {w : Windows} {ttmax : ℚ} {phases stations : List Str}
    {av : Str → Str → ℕ} {G : Str → Str → ℕ → ℚ} (S : Spec.ScanSetup L g w ttmax 50 phases stations av G)
    (O : Str → Str → ℤ → ℝ) (start ts : ℚ) (a : ℤ) (n i : ℕ) (h1 : start = 0 + a / (50 : ℕ))
    (h2 : ts * (50 : ℕ) = n) (h3 : 0 ≤ ts) (cols : ℕ)
    (h4 : onsetLength 0 50 (detectWindow start ts 50 (scanPads w ttmax (50 : ℕ) ts) i).1
      (detectWindow start ts 50 (scanPads w ttmax (50 : ℕ) ts) i).2 = cols)
    (h6 : (Spec.migratedPairs phases stations av).length * cols ≤ 2 ^ 31) :
    ∃ out, Spec.DetectStep L g w ttmax 50 phases stations av O 0 start ts a n i out ∧
      ∀ m < n, ∃ o, out[m]? = some o ∧
        Spec.ReportsPeak g (fun node => Spec.coalescence (Spec.migratedPairs phases stations av) O
          (fun s p node => pyRound (G s p node * (50 : ℕ))) node (a + i * n + m)) o := by
  have htie := fun z => C22_usual_rates w S.win ttmax S.ttpos 50 (by norm_num) (Or.inl ⟨20, rfl⟩) ts h3 z
  have hO : Spec.OnsetsOf 0 50 (detectWindow start ts 50 (scanPads w ttmax (50 : ℕ) ts) i)
      (scanPads w ttmax (50 : ℕ) ts) ttmax (Spec.migratedPairs phases stations av) O (fun s p j => O s p
        ((readRange 0 50 (detectWindow start ts 50 (scanPads w ttmax (50 : ℕ) ts) i).1
          (detectWindow start ts 50 (scanPads w ttmax (50 : ℕ) ts) i).2).1 + j)) := fun _ _ _ _ _ => rfl
  have hs := And.intro (serial_isInterleaving L.nNodes (nodeProg (V := ℝ) ⟨[], [],
      (time2sample (scanPads w ttmax (50 : ℕ) ts).1 (50 : ℕ)).toNat,
      (time2sample (scanPads w ttmax (50 : ℕ) ts).2 (50 : ℕ)).toNat,
      cols - (time2sample (scanPads w ttmax (50 : ℕ) ts).1 (50 : ℕ)).toNat -
      (time2sample (scanPads w ttmax (50 : ℕ) ts).2 (50 : ℕ)).toNat,
      (Spec.migratedPairs phases stations av).length,
      (Spec.migratedPairs phases stations av).length, L.nNodes⟩))
    (serial_isInterleaving (cols - (time2sample (scanPads w ttmax (50 : ℕ) ts).1 (50 : ℕ)).toNat -
      (time2sample (scanPads w ttmax (50 : ℕ) ts).2 (50 : ℕ)).toNat) (sampleProg L.nNodes))
  obtain ⟨out, h7, -, h8⟩ := C114_detect_value_partial L g w ttmax 50 _ _ av G S 0 start
    ts a h1 n h2 i _ rfl htie _ rfl cols h4 h6 O _ hO _ _ hs
  exact ⟨out, ⟨h1, h2, htie, cols, _, _, _, h4, h6, hO, hs, h7⟩, h8⟩

/-- Traveltimes 0, 1 and 2 s to the three nodes of `exDecLut`. -/
def decG : Str → Str → ℕ → ℚ := fun _ _ => flatAt ![3, 1, 1] [[[0]], [[1]], [[2]]]

theorem exDec_lookup {s p : Str} {f : ℕ → ℚ} (h : Compute.lookup (toScan exDecLut) s p = .ok f) :
    f = flatAt ![3, 1, 1] [[[0]], [[1]], [[2]]] := by
  rw [lookup_toScan] at h
  by_cases hs : s = ['A']
  · subst hs
    have e : dictGet exDecLut.traveltimes ['A'] = some [(['P'], [[[0]], [[1]], [[2]]])] := by rfl
    rw [e] at h
    simp only at h
    by_cases hp : p = ['P']
    · subst hp
      have e : dictGet [(['P'], ([[[0]], [[1]], [[2]]] : Table))] ['P'] = some [[[0]], [[1]], [[2]]] := by rfl
      rw [e] at h
      exact (Except.ok.inj h).symm
    · have e : dictGet [(['P'], ([[[0]], [[1]], [[2]]] : Table))] p = none := by
        simp [dictGet, List.find?, Ne.symm hp, eq_comm, hp]
      have e' : dictGet [(['P'], ([[[0]], [[1]], [[2]]] : Table))] ("TIME_".toList ++ p) = none := by
        simp [dictGet, List.find?, eq_comm]
      rw [e, e'] at h
      simp at h
  · have e : dictGet exDecLut.traveltimes s = none := by
      simp [exDecLut, dictGet, List.find?, eq_comm, hs]
    rw [e] at h
    simp at h

theorem exDec_nonneg : Spec.NonnegTimes exDecLut := by
  intro s p f h node hnode
  rw [exDec_lookup h]
  have : ∀ k < 3, 0 ≤ flatAt ![3, 1, 1] [[[0]], [[1]], [[2]]] k := by decide +kernel
  exact this node hnode

theorem decSetup : Spec.ScanSetup (toScan exDecLut) exDecLut.grid stepWindows 2 50 [['P']] [['A']] (fun _ _ => 1)
    decG where
  nodes := rfl
  pos := by decide
  win := ⟨by norm_num [stepWindows], by simp [stepWindows]⟩
  longest := by decide +kernel
  ttpos := by norm_num
  rate := by norm_num
  phNodup := by decide
  stNodup := by decide
  phName := by decide
  stName := by decide
  phLut := by decide
  stLut := by decide
  avail := fun _ _ => le_refl 1
  someAvail := ⟨['A'], by decide, ['P'], by decide, rfl⟩
  table := by
    intro s hs p hp _
    simp only [List.mem_singleton] at hs hp
    subst hs; subst hp
    rfl

/-- Onset functions with one peak, at sample `t₀`. -/
noncomputable def oneOnset (t₀ : ℤ) : Str → Str → ℤ → ℝ := fun _ _ t => if t = t₀ then 5 else 1

theorem oneOnset_coalescence (T t₀ : ℤ) (k : ℕ) (hk : k < 3) :
    Spec.coalescence (Spec.migratedPairs [['P']] [['A']] (fun _ _ => 1)) (oneOnset t₀)
      (fun s p node => pyRound (decG s p node * (50 : ℕ))) k T = if T + 50 * k = t₀ then 5 else 1 := by
  have e : Spec.migratedPairs [['P']] [['A']] (fun _ _ => 1) = [(['A'], ['P'])] := by decide
  have h : ∀ k < 3, max 0 (pyRound (flatAt ![3, 1, 1] [[[0]], [[1]], [[2]]] k * (50 : ℕ))) = 50 * (k : ℤ) := by
    decide +kernel
  rw [e]
  unfold Spec.coalescence oneOnset decG
  simp only [List.map_cons, List.map_nil, List.prod_cons, List.prod_nil, h k hk]
  split_ifs <;> norm_num

/-- The peak of a full scan is at node `j` when the onset arrives from there. -/
theorem oneOnset_peak (T : ℤ) (j : ℕ) (hj : j < 3) (o : Out)
    (h : Spec.ReportsPeak exDecLut.grid (fun node => Spec.coalescence
      (Spec.migratedPairs [['P']] [['A']] (fun _ _ => 1)) (oneOnset (T + 50 * j))
      (fun s p node => pyRound (decG s p node * (50 : ℕ))) node T) o) :
    o.xyz = Spec.nodeXyz exDecLut.grid ![j, 0, 0] ∧ o.maxCoa = 5 := by
  obtain ⟨k, hk, e, -, hx⟩ := h.node
  have hk3 : k < 3 := hk
  have h5 := h.largest j hj
  rw [oneOnset_coalescence _ _ _ hj, if_pos rfl] at h5
  rw [oneOnset_coalescence _ _ _ hk3] at e
  have hkj : k = j := by
    by_contra hne
    rw [if_neg (by omega)] at e
    rw [e] at h5
    norm_num at h5
  subst hkj
  rw [if_pos rfl] at e
  refine ⟨?_, e⟩
  have hv : ∀ a, (![k, 0, 0] : V3 ℕ) a < exDecLut.grid.count a := by
    intro a; fin_cases a
    · exact hk3
    · show 0 < 1; omega
    · show 0 < 1; omega
  have := xyz_of_flat (g := exDecLut.grid) hv
  have e2 : Spec.flatIndex exDecLut.grid.count ![k, 0, 0] = k := by
    show (k * 1 + 0) * 1 + 0 = k; omega
  rw [e2, hx] at this
  exact Option.some.inj this

/-- Decimating the example by `d` on the first axis: both scans of two seconds run, from sample 50 of the archive;
the full one has its peak for sample 153 at node `j`. -/
theorem decRuns (d : ℕ) (hd : d = 2 ∨ d = 3) (j : ℕ) (hj : j < 3) :
    ∃ ttmax', maxTraveltime (toScan (decimate exDecLut ![d, 1, 1])) = some ttmax' ∧ ∃ out out' o,
      Spec.DetectStep (toScan exDecLut) exDecLut.grid stepWindows 2 50 [['P']] [['A']] (fun _ _ => 1)
        (oneOnset (153 + 50 * j)) 0 1 2 50 100 1 out ∧
      Spec.DetectStep (toScan (decimate exDecLut ![d, 1, 1])) (decimate exDecLut ![d, 1, 1]).grid stepWindows ttmax' 50
        [['P']] [['A']] (fun _ _ => 1) (oneOnset (153 + 50 * j)) 0 1 2 50 100 1 out' ∧
      out[3]? = some o ∧ o.xyz = Spec.nodeXyz exDecLut.grid ![j, 0, 0] ∧ o.maxCoa = 5 := by
  have hdp : ∀ a, 0 < (![d, 1, 1] : V3 ℕ) a := by
    intro a; fin_cases a
    · show 0 < d; omega
    · show 0 < 1; omega
    · show 0 < 1; omega
  have hn : ∀ a, 0 < exDecLut.grid.count a := by decide
  have hl : (Spec.migratedPairs [['P']] [['A']] (fun _ _ => 1)).length = 1 := by decide
  obtain ⟨out, h1, h2⟩ := timestep_runs decSetup (oneOnset (153 + 50 * j)) 1 2 50 100 1 (by norm_num) (by norm_num)
    (by norm_num) 480 (by decide +kernel) (by rw [hl]; norm_num)
  obtain ⟨o, h3, h4⟩ := h2 3 (by norm_num)
  have h5 := oneOnset_peak 153 j hj o (by
    have e : (50 : ℤ) + (1 : ℕ) * (100 : ℕ) + (3 : ℕ) = 153 := by norm_num
    rw [e] at h4
    exact h4)
  have key : ∃ ttmax' cols, maxTraveltime (toScan (decimate exDecLut ![d, 1, 1])) = some ttmax' ∧
      onsetLength 0 50 (detectWindow 1 2 50 (scanPads stepWindows ttmax' (50 : ℕ) 2) 1).1
        (detectWindow 1 2 50 (scanPads stepWindows ttmax' (50 : ℕ) 2) 1).2 = (cols : ℕ) ∧ cols ≤ 10000 := by
    rcases hd with rfl | rfl
    · exact ⟨2, 480, by decide +kernel, by decide +kernel, by norm_num⟩
    · exact ⟨1, 430, by decide +kernel, by decide +kernel, by norm_num⟩
  obtain ⟨ttmax', cols, h6, h7, h8⟩ := key
  obtain ⟨G', S', -⟩ := setup_decimate hdp hn exDec_nonneg decSetup h6
  obtain ⟨out', h9, -⟩ := timestep_runs S' (oneOnset (153 + 50 * j)) 1 2 50 100 1 (by norm_num) (by norm_num)
    (by norm_num) cols h7 (by rw [hl]; omega)
  exact ⟨ttmax', h6, out, out', o, h1, h9, h3, h5⟩

/-- C155_same_peak_partial applies: three nodes decimated by two, peak at the last, which is kept. -/
example : ∃ ttmax' out out' o o',
    Spec.DetectStep (toScan exDecLut) exDecLut.grid stepWindows 2 50 [['P']] [['A']] (fun _ _ => 1)
      (oneOnset 253) 0 1 2 50 100 1 out ∧
    Spec.DetectStep (toScan (decimate exDecLut ![2, 1, 1])) (decimate exDecLut ![2, 1, 1]).grid stepWindows ttmax' 50
      [['P']] [['A']] (fun _ _ => 1) (oneOnset 253) 0 1 2 50 100 1 out' ∧
    out[3]? = some o ∧ out'[3]? = some o' ∧ o.maxCoa = 5 ∧ o'.maxCoa = 5 ∧ o'.xyz = o.xyz := by
  obtain ⟨tt, h1, out, out', o, h2, h3, h4, h5, h6⟩ := decRuns 2 (Or.inl rfl) 2 (by norm_num)
  obtain ⟨o', e2, e3, e4⟩ := C155_same_peak_partial exDecLut ![2, 1, 1] (by decide) (by decide)
    (by decide +kernel) exDec_nonneg (by decide) stepWindows 2 tt 50 _ _ _ decG decSetup h1 _ 0 1 2 50 100 1 out h2 1 2
    50 100 1 out' h3 3 3 (by norm_num) (by norm_num) rfl o h4 ![1, 0, 0] (by decide) (by
      rw [h5]
      have : ∀ a, (![1, 0, 0] : V3 ℕ) a * (![2, 1, 1] : V3 ℕ) a = (![2, 0, 0] : V3 ℕ) a := by decide
      funext a
      rw [this a]
      rfl)
  exact ⟨tt, out, out', o, o', h2, h3, h4, e2, h6, by rw [e3, h6], e4⟩

/-- C155 is violated as to the location: three nodes decimated by three.  The full scan has its peak at the middle
node, which is the node kept; the decimated scan reports the same coalescence, but at the first node. -/
theorem C155_violated : ∃ ttmax', maxTraveltime (toScan (decimate exDecLut ![3, 1, 1])) = some ttmax' ∧
    ∃ out out' o o',
      Spec.DetectStep (toScan exDecLut) exDecLut.grid stepWindows 2 50 [['P']] [['A']] (fun _ _ => 1)
        (oneOnset 203) 0 1 2 50 100 1 out ∧
      Spec.DetectStep (toScan (decimate exDecLut ![3, 1, 1])) (decimate exDecLut ![3, 1, 1]).grid stepWindows ttmax' 50
        [['P']] [['A']] (fun _ _ => 1) (oneOnset 203) 0 1 2 50 100 1 out' ∧
      out[3]? = some o ∧ out'[3]? = some o' ∧ o.maxCoa = 5 ∧ o'.maxCoa = 5 ∧ o.xyz = ![1, 0, 0] ∧
      o'.xyz = ![0, 0, 0] := by
  obtain ⟨tt, h1, out, out', o, h2, h3, h4, h5, h6⟩ := decRuns 3 (Or.inr rfl) 1 (by norm_num)
  have hT : (50 : ℤ) + (1 : ℕ) * (100 : ℕ) + (3 : ℕ) = 153 := by norm_num
  obtain ⟨q, o', e1, e2, -, -, e3⟩ := C155_decimated_scan_partial exDecLut ![3, 1, 1] (by decide) (by decide)
    (by decide +kernel) exDec_nonneg stepWindows 2 tt 50 _ _ _ decG decSetup h1 _ 0 1 2 50 100 1 out h2 1 2 50 100 1 out'
    h3 3 3 (by norm_num) (by norm_num) 153 hT hT
  rw [h4] at e1
  cases e1
  obtain ⟨e4, e5⟩ := e3 ![0, 0, 0] (by decide) (by
    rw [h5]
    congr 1
    decide)
  refine ⟨tt, h1, out, out', o, o', h2, h3, h4, e2, h6, by rw [e4, h6], ?_, ?_⟩
  · rw [h5]; decide +kernel
  · rw [e5]; decide +kernel

end QM
