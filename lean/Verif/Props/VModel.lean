import Verif.Model.VModel
import Verif.Lemmas.Locate
import Mathlib.Tactic.Linarith
import Mathlib.Tactic.FieldSimp
import Mathlib.Tactic.Ring
import Mathlib.Tactic.NormNum

/-!
# C97, C98: traveltimes from 1-D velocity models
-/

namespace QM

open QM.Grid QM.VModel

/-! ## C97: what a velocity model means -/

/-- The velocity at depth `z` is `v`: that of the first row above it, that of the last row from it on,
and on the straight line between consecutive rows in between. -/
def Profile (rows : List VModel.Row) (z v : ℚ) : Prop :=
  (∃ r, rows.head? = some r ∧ z < r.depth ∧ v = r.vel) ∨
  (∃ (i : ℕ) (r s : VModel.Row), rows[i]? = some r ∧ rows[i + 1]? = some s ∧ r.depth ≤ z ∧ z < s.depth ∧
    (v - r.vel) * (s.depth - r.depth) = (s.vel - r.vel) * (z - r.depth)) ∨
  (∃ r, rows.getLast? = some r ∧ r.depth ≤ z ∧ v = r.vel)

/-- The meaning of the layers of a NonLinLoc control file: in a layer, which reaches down to the next
one, the velocity is that at its top plus gradient times depth below the top. -/
def LayersSay (L : List Layer) (z v : ℚ) : Prop :=
  ∃ (i : ℕ) (l : Layer), L[i]? = some l ∧ l.depth ≤ z ∧ (∀ m, L[i + 1]? = some m → z < m.depth) ∧
    v = l.vel + l.grad * (z - l.depth)

/-- Rows in order of depth. -/
def Deepening (rows : List VModel.Row) : Prop := rows.Pairwise fun a b => a.depth ≤ b.depth

theorem deepening_le {rows : List VModel.Row} (h : Deepening rows) {i j : ℕ} {r s : VModel.Row} (hij : i ≤ j)
    (hi : rows[i]? = some r) (hj : rows[j]? = some s) : r.depth ≤ s.depth := by
  obtain ⟨hi', rfl⟩ := List.getElem?_eq_some_iff.mp hi
  obtain ⟨hj', rfl⟩ := List.getElem?_eq_some_iff.mp hj
  rcases eq_or_lt_of_le hij with rfl | hlt
  · exact le_refl _
  · exact List.pairwise_iff_getElem.mp h i j hi' hj' hlt

theorem profile_unique {rows : List VModel.Row} (h : Deepening rows) {z v w : ℚ} (hv : Profile rows z v)
    (hw : Profile rows z w) : v = w := by
  have hlast : ∀ r, rows.getLast? = some r → rows[rows.length - 1]? = some r := by
    intro r hr; rw [← List.getLast?_eq_getElem?]; exact hr
  have hhead : ∀ r, rows.head? = some r → rows[0]? = some r := by
    intro r hr; rw [← List.head?_eq_getElem?]; exact hr
  have len : ∀ {i : ℕ} {r : VModel.Row}, rows[i]? = some r → i < rows.length := fun h =>
    (List.getElem?_eq_some_iff.mp h).1
  rcases hv with ⟨r, h1, h2, rfl⟩ | ⟨i, r, s, h1, h2, h3, h4, h5⟩ | ⟨r, h1, h2, rfl⟩ <;>
    rcases hw with ⟨r', k1, k2, rfl⟩ | ⟨j, r', s', k1, k2, k3, k4, k5⟩ | ⟨r', k1, k2, rfl⟩
  · rw [h1] at k1; rw [Option.some.inj k1]
  · have := deepening_le h (Nat.zero_le j) (hhead r h1) k1; linarith
  · have := deepening_le h (Nat.zero_le _) (hhead r h1) (hlast _ k1); linarith
  · have := deepening_le h (Nat.zero_le i) (hhead r' k1) h1; linarith
  · rcases lt_trichotomy i j with hij | rfl | hij
    · have := deepening_le h (show i + 1 ≤ j by omega) h2 k1; linarith
    · rw [h1] at k1; rw [h2] at k2
      obtain rfl := Option.some.inj k1
      obtain rfl := Option.some.inj k2
      have : v - r.vel = w - r.vel :=
        mul_right_cancel₀ (show s.depth - r.depth ≠ 0 by linarith) (h5.trans k5.symm)
      linarith
    · have := deepening_le h (show j + 1 ≤ i by omega) k2 h1; linarith
  · have := deepening_le h (show i + 1 ≤ rows.length - 1 by have := len h2; omega) h2 (hlast _ k1)
    linarith
  · have := deepening_le h (Nat.zero_le _) (hhead _ k1) (hlast _ h1); linarith
  · have := deepening_le h (show j + 1 ≤ rows.length - 1 by have := len k2; omega) k2 (hlast _ h1)
    linarith
  · rw [h1] at k1; rw [Option.some.inj k1]

theorem interpFrom_profile (big : ℚ) : ∀ (rs : List VModel.Row) (r l : VModel.Row),
    (r :: rs).getLast? = some l → ∀ z, r.depth ≤ z → z ≤ big → Profile (r :: rs) z (interpFrom r (rs ++ [⟨big, l.vel⟩]) z) := by
  intro rs
  induction rs with
  | nil =>
    intro r l hl z h1 _
    obtain rfl : r = l := by simpa using hl
    refine Or.inr (Or.inr ⟨r, rfl, h1, ?_⟩)
    rw [List.nil_append, interpFrom]
    split
    · rfl
    · simp
  | cons s rs ih =>
    intro r l hl z h1 h2
    rw [List.cons_append, interpFrom]
    split
    · next h =>
      have hp := ih s l (by simpa using hl) z h h2
      rcases hp with ⟨q, a, b, c⟩ | ⟨i, q, q', a, b, c⟩ | ⟨q, a, b, c⟩
      · obtain rfl : s = q := by simpa using a
        linarith
      · exact Or.inr (Or.inl ⟨i + 1, q, q', by simpa using a, by simpa using b, c⟩)
      · exact Or.inr (Or.inr ⟨q, by simpa using a, b, c⟩)
    · next h =>
      have hs : z < s.depth := not_le.mp h
      refine Or.inr (Or.inl ⟨0, r, s, rfl, rfl, h1, hs, ?_⟩)
      have : s.depth - r.depth ≠ 0 := by linarith
      field_simp
      ring

theorem velocityAt_profile (big : ℚ) (rows : List VModel.Row) (hne : rows ≠ []) (h : Deepening rows)
    (hb : ∀ r ∈ rows, -big < r.depth ∧ r.depth < big) (z : ℚ) (h1 : -big ≤ z) (h2 : z ≤ big) :
    ∃ v, velocityAt big rows z = .ok v ∧ Profile rows z v := by
  obtain ⟨r, rs, rfl⟩ := List.exists_cons_of_ne_nil hne
  obtain ⟨l, hl⟩ : ∃ l, (r :: rs).getLast? = some l := ⟨_, List.getLast?_eq_some_getLast (by simp)⟩
  have hlm : l ∈ r :: rs := List.mem_of_getLast? hl
  have hbig : -big ≤ big := by linarith [(hb r (by simp)).1, (hb r (by simp)).2]
  have hsort : (⟨-big, r.vel⟩ :: ((r :: rs) ++ [⟨big, l.vel⟩]) : List VModel.Row).insertionSort
      (fun a b => a.depth ≤ b.depth) = ⟨-big, r.vel⟩ :: ((r :: rs) ++ [⟨big, l.vel⟩]) := by
    apply List.Pairwise.insertionSort_eq
    refine List.pairwise_cons.mpr ⟨?_, List.pairwise_append.mpr ⟨h, List.pairwise_singleton _ _, ?_⟩⟩
    · intro x hx
      rcases List.mem_append.mp hx with hx | hx
      · exact (hb x hx).1.le
      · rw [List.mem_singleton.mp hx]; exact hbig
    · intro x hx y hy
      rw [List.mem_singleton.mp hy]; exact (hb x hx).2.le
  unfold velocityAt extend
  rw [hl]
  simp only [List.head?_cons]
  unfold interp1d
  rw [hsort]
  simp only
  rw [if_neg]
  · refine ⟨_, rfl, ?_⟩
    rw [List.cons_append, interpFrom]
    split
    · next hz => exact interpFrom_profile big rs r l hl z hz h2
    · next hz => exact Or.inl ⟨r, rfl, not_le.mp hz, by simp⟩
  · rw [List.getLast?_append]
    simp only [List.getLast?_singleton, Option.some_or, Option.getD_some]
    push Not
    exact ⟨h1, h2⟩

/-- C97, fast marching: for a velocity model in order of depth (steps, that is repeated depths, are
allowed) the velocity at every depth is that of the profile. -/
theorem C97_fmm_profile (big : ℚ) (rows : List VModel.Row) (hne : rows ≠ []) (h : Deepening rows)
    (hb : ∀ r ∈ rows, -big < r.depth ∧ r.depth < big) (z : ℚ) (h1 : -big ≤ z) (h2 : z ≤ big) (v : ℚ) :
    velocityAt big rows z = .ok v ↔ Profile rows z v := by
  obtain ⟨w, hw, hp⟩ := velocityAt_profile big rows hne h hb z h1 h2
  constructor
  · intro hv; rw [hw] at hv; rw [← Except.ok.inj hv]; exact hp
  · intro hv; rw [hw, profile_unique h hv hp]

theorem layers_get (block : Bool) (rows : List VModel.Row) (i : ℕ) :
    (layers block rows)[i]? = rows[i]?.map fun r =>
      ⟨r.depth, r.vel, if !block then (gradient rows i).getD 0 else 0⟩ := by
  have key : layers block rows = rows.zipIdx.map fun p : VModel.Row × ℕ =>
      ⟨p.1.depth, p.1.vel, if !block then (gradient rows p.2).getD 0 else 0⟩ := by
    unfold layers
    have e : rows.zipIdx = (List.range rows.length).filterMap fun i => rows[i]?.map fun r => (r, i) := by
      have h2 : ∀ i ∈ List.range rows.length, (rows[i]?.map fun r => (r, i)) =
          (some ∘ fun i => (rows.getD i ⟨0, 0⟩, i)) i := by
        intro i hi
        have := List.mem_range.mp hi
        simp [this]
      rw [List.filterMap_congr h2, List.filterMap_eq_map]
      apply List.ext_getElem (by simp)
      intro i h1 h2
      simp at h1
      simp [h1]
    rw [e, List.map_filterMap]
    apply List.filterMap_congr
    intro i _
    cases rows[i]? <;> rfl
  rw [key, List.getElem?_map, List.getElem?_zipIdx]
  cases rows[i]? <;> simp

/-- C97, NonLinLoc: for a velocity model strictly in order of depth, from its first depth on, the layers
written for NonLinLoc mean the same profile, in kilometres. -/
theorem C97_nlloc_profile (cf : ℚ) (hcf : 0 < cf) (rows : List VModel.Row)
    (h : rows.Pairwise fun a b => a.depth < b.depth) (z v : ℚ)
    (hz : ∀ r, rows.head? = some r → r.depth ≤ z) :
    LayersSay (layers false (toKm cf rows)) (z / cf) (v / cf) ↔ Profile rows z v := by
  have hle : ∀ a b : ℚ, a / cf ≤ b / cf ↔ a ≤ b := fun a b => div_le_div_iff_of_pos_right hcf
  have hlt : ∀ a b : ℚ, a / cf < b / cf ↔ a < b := fun a b => div_lt_div_iff_of_pos_right hcf
  have hget : ∀ i : ℕ, (toKm cf rows)[i]? =
      Option.map (fun r : VModel.Row => (⟨r.depth / cf, r.vel / cf⟩ : VModel.Row)) rows[i]? := by
    intro i; unfold toKm; rw [List.getElem?_map]
  have step : ∀ (i : ℕ) (r s : VModel.Row), rows[i]? = some r → rows[i + 1]? = some s →
      r.depth < s.depth := by
    intro i r s hi hj
    obtain ⟨hi', rfl⟩ := List.getElem?_eq_some_iff.mp hi
    obtain ⟨hj', rfl⟩ := List.getElem?_eq_some_iff.mp hj
    exact List.pairwise_iff_getElem.mp h i (i + 1) hi' hj' (by omega)
  have hcf' := hcf.ne'
  constructor
  · rintro ⟨i, l, h1, h2, h3, h4⟩
    rw [layers_get, hget] at h1
    rcases hr : rows[i]? with _ | r
    · rw [hr] at h1; simp at h1
    rw [hr] at h1
    simp only [Option.map_some, Option.some.injEq] at h1
    subst h1
    simp only at h2 h4
    rw [hle] at h2
    rcases hs : rows[i + 1]? with _ | s
    · right; right
      have hlast : rows.getLast? = some r := by
        have a := (List.getElem?_eq_some_iff.mp hr).1
        have b := List.getElem?_eq_none_iff.mp hs
        rw [List.getLast?_eq_getElem?, show rows.length - 1 = i by omega, hr]
      refine ⟨r, hlast, h2, ?_⟩
      have : gradient (toKm cf rows) i = none := by
        unfold gradient; rw [hget (i + 1), hs]; rfl
      rw [this] at h4
      simp at h4
      field_simp at h4
      exact h4
    · right; left
      have hd := step i r s hr hs
      have hz' := h3 _ (by rw [layers_get, hget, hs]; rfl)
      simp only [hlt] at hz'
      refine ⟨i, r, s, hr, hs, h2, hz', ?_⟩
      have : gradient (toKm cf rows) i =
          some ((s.vel / cf - r.vel / cf) / (s.depth / cf - r.depth / cf)) := by
        unfold gradient; rw [hget (i + 1), hget i, hs, hr]; rfl
      rw [this] at h4
      have hne : s.depth - r.depth ≠ 0 := by linarith
      have e : s.depth / cf - r.depth / cf = (s.depth - r.depth) / cf := by ring
      simp only [Bool.not_false, if_true, Option.getD_some] at h4
      rw [e] at h4
      field_simp at h4
      linarith
  · rintro (⟨r, h1, h2, -⟩ | ⟨i, r, s, h1, h2, h3, h4, h5⟩ | ⟨r, h1, h2, rfl⟩)
    · have := hz r h1; linarith
    · have hne : s.depth - r.depth ≠ 0 := by linarith
      have hg : gradient (toKm cf rows) i =
          some ((s.vel / cf - r.vel / cf) / (s.depth / cf - r.depth / cf)) := by
        unfold gradient; rw [hget (i + 1), hget i, h2, h1]; rfl
      refine ⟨i, _, by rw [layers_get, hget, h1]; rfl, (hle _ _).mpr h3, ?_, ?_⟩
      · intro m hm
        rw [layers_get, hget, h2] at hm
        simp only [Option.map_some, Option.some.injEq] at hm
        subst hm
        exact (hlt _ _).mpr h4
      · rw [hg]
        simp only [Bool.not_false, if_true, Option.getD_some]
        have e : s.depth / cf - r.depth / cf = (s.depth - r.depth) / cf := by ring
        rw [e]
        field_simp
        linarith
    · rw [List.getLast?_eq_getElem?] at h1
      have hn : rows[rows.length - 1 + 1]? = none := List.getElem?_eq_none_iff.mpr (by omega)
      have hg : gradient (toKm cf rows) (rows.length - 1) = none := by
        unfold gradient; rw [hget, hn]; rfl
      refine ⟨rows.length - 1, _, by rw [layers_get, hget, h1]; rfl, (hle _ _).mpr h2, ?_, ?_⟩
      · intro m hm
        rw [layers_get, hget, hn] at hm
        simp at hm
      · rw [hg]; simp

/-- C97, NonLinLoc: with `block_model` the velocity of a row holds down to the next. -/
theorem C97_nlloc_blocks (rows : List VModel.Row) (z v : ℚ) :
    LayersSay (layers true rows) z v ↔ ∃ (i : ℕ) (r : VModel.Row), rows[i]? = some r ∧ r.depth ≤ z ∧
      (∀ s, rows[i + 1]? = some s → z < s.depth) ∧ v = r.vel := by
  constructor
  · rintro ⟨i, l, h1, h2, h3, h4⟩
    rw [layers_get] at h1
    rcases hr : rows[i]? with _ | r
    · rw [hr] at h1; simp at h1
    rw [hr] at h1
    simp only [Option.map_some, Option.some.injEq] at h1
    subst h1
    refine ⟨i, r, hr, h2, fun s hs => h3 _ (by rw [layers_get, hs]; rfl), by simpa using h4⟩
  · rintro ⟨i, r, h1, h2, h3, rfl⟩
    refine ⟨i, _, by rw [layers_get, h1]; rfl, h2, ?_, by simp⟩
    intro m hm
    rw [layers_get] at hm
    rcases hs : rows[i + 1]? with _ | s
    · rw [hs] at hm; simp at hm
    · rw [hs] at hm
      simp only [Option.map_some, Option.some.injEq] at hm
      subst hm
      exact h3 s hs

/-- Three layers. -/
def exVRows : List VModel.Row := [⟨0, 2000⟩, ⟨5000, 4000⟩, ⟨20000, 7000⟩]

/-- The model meets the hypotheses; half-way down the first layer the velocity is 3000 for both. -/
example : exVRows.Pairwise (fun a b => a.depth < b.depth) ∧ Deepening exVRows ∧
    velocityAt (10 ^ 300) exVRows 2500 = .ok 3000 ∧
    LayersSay (layers false (toKm 1000 exVRows)) (2500 / 1000) (3000 / 1000) := by
  refine ⟨?_, ?_, by decide +kernel, ⟨0, ⟨0, 2, 2 / 5⟩, ?_⟩⟩
  · simp [exVRows]; norm_num
  · simp [exVRows, Deepening]; norm_num
  · refine ⟨by decide +kernel, by norm_num, ?_, by norm_num⟩
    intro m hm
    have : (layers false (toKm 1000 exVRows))[0 + 1]? = some ⟨5, 4, 1 / 5⟩ := by decide +kernel
    rw [this] at hm
    obtain rfl := Option.some.inj hm
    norm_num

/-! ## C98: where the wave starts -/

/-- Coordinate of node number `k` along axis `a`. -/
def nodeCoord (g : Grid) (a : Fin 3) (k : ℕ) : ℚ := g.ll a + k * g.spacing a

theorem mkGrid_ok {ll ur : V3 ℚ} {sp : List ℚ} {g : Grid} (h : mkGrid ll ur sp = .ok g) :
    g.ll = ll ∧ (∀ a, 0 < g.spacing a) ∧ (∀ a, 0 < g.count a) ∧
      ∀ a, (ur a - ll a) / g.spacing a ≤ (g.count a : ℚ) - 1 := by
  unfold mkGrid at h
  split at h
  · cases h
  next s hs =>
  split at h
  · cases h
  next n hn =>
  obtain rfl := Except.ok.inj h
  have hpos : ∀ a, 0 < s a := by
    unfold setSpacing at hs
    split at hs
    · split at hs
      · next h0 => obtain rfl := Except.ok.inj hs; exact fun _ => h0
      · cases hs
    · split at hs
      · next h0 =>
        obtain rfl := Except.ok.inj hs
        intro a; fin_cases a
        · exact h0.1
        · exact h0.2.1
        · exact h0.2.2
      · cases hs
    · cases hs
  unfold setCount at hn
  split at hn
  · next h0 =>
    obtain rfl := Except.ok.inj hn
    have h0' : ∀ a : Fin 3, 0 < ⌈(ur a - ll a) / s a⌉ + 1 := by
      intro a; fin_cases a
      · exact h0.1
      · exact h0.2.1
      · exact h0.2.2
    refine ⟨rfl, hpos, fun a => ?_, fun a => ?_⟩
    · have := h0' a
      change 0 < (⌈(ur a - ll a) / s a⌉ + 1).toNat
      omega
    · have e : (((⌈(ur a - ll a) / s a⌉ + 1).toNat : ℤ) : ℚ) = ⌈(ur a - ll a) / s a⌉ + 1 := by
        rw [Int.toNat_of_nonneg (h0' a).le]; push_cast; ring
      have e' : (((⌈(ur a - ll a) / s a⌉ + 1).toNat : ℕ) : ℚ) = ⌈(ur a - ll a) / s a⌉ + 1 := by
        rw [← e]; norm_cast
      change (ur a - ll a) / s a ≤ (((⌈(ur a - ll a) / s a⌉ + 1).toNat : ℕ) : ℚ) - 1
      rw [e']
      linarith [Int.le_ceil ((ur a - ll a) / s a)]
  · cases hn

theorem taxicab_eq (g : Grid) (st : V3 ℚ) (v : V3 ℕ) : taxicab g st v =
    |nodeCoord g 0 (v 0) - st 0| + |nodeCoord g 1 (v 1) - st 1| + |nodeCoord g 2 (v 2) - st 2| := by
  unfold taxicab index2grid nodeCoord
  norm_cast

/-- C98: on a grid made from corners, the wave from a station within the corners starts at a node such
that no node is nearer to the station along any axis; it is at most half a node away along each. -/
theorem C98_source_nearest (ll ur : V3 ℚ) (sp : List ℚ) (g : Grid) (hg : mkGrid ll ur sp = .ok g)
    (st : V3 ℚ) (hst : ∀ a, ll a ≤ st a ∧ st a ≤ ur a) :
    ∃ v, sourceNode g st = some v ∧ (∀ a, v a < g.count a) ∧
      (∀ a k, k < g.count a → |nodeCoord g a (v a) - st a| ≤ |nodeCoord g a k - st a|) ∧
      ∀ a, |nodeCoord g a (v a) - st a| ≤ g.spacing a / 2 := by
  obtain ⟨hll, hs, hn, hur⟩ := mkGrid_ok hg
  obtain ⟨v, hv⟩ : ∃ v, sourceNode g st = some v := by
    rcases h : sourceNode g st with _ | v
    · unfold sourceNode at h
      rw [List.argmin_eq_none] at h
      have : (fun _ => 0 : V3 ℕ) ∈ allNodes g.count := Locate.mem_allNodes.mpr hn
      rw [h] at this; cases this
    · exact ⟨v, rfl⟩
  have hnode : ∀ a, v a < g.count a := Locate.mem_allNodes.mp (List.argmin_mem hv)
  have hmin : ∀ a k, k < g.count a → |nodeCoord g a (v a) - st a| ≤ |nodeCoord g a k - st a| := by
    intro a k hk
    have hu : Function.update v a k ∈ allNodes g.count := by
      rw [Locate.mem_allNodes]
      intro b
      by_cases hb : b = a
      · subst hb; simpa using hk
      · simpa [hb] using hnode b
    have := List.le_of_mem_argmin hu hv
    rw [taxicab_eq, taxicab_eq] at this
    fin_cases a <;> simp [Function.update] at this ⊢ <;> linarith
  refine ⟨v, hv, hnode, hmin, fun a => ?_⟩
  -- the nearest node along the axis
  obtain ⟨h1, h2⟩ := hst a
  have hsa := hs a
  set x := (st a - ll a) / g.spacing a with hx
  have hst' : st a = ll a + x * g.spacing a := by rw [hx]; field_simp; ring
  have hx0 : 0 ≤ x := div_nonneg (by linarith) hsa.le
  have hx1 : x ≤ (g.count a : ℚ) - 1 :=
    le_trans (div_le_div_of_nonneg_right (by linarith) hsa.le) (hur a)
  have hf1 := Int.floor_le (x + 1 / 2)
  have hf2 := Int.lt_floor_add_one (x + 1 / 2)
  have hk0 : 0 ≤ ⌊x + 1 / 2⌋ := Int.floor_nonneg.mpr (by linarith)
  have hkc : ((⌊x + 1 / 2⌋.toNat : ℕ) : ℚ) = (⌊x + 1 / 2⌋ : ℚ) := by
    exact_mod_cast congrArg (fun i : ℤ => (i : ℚ)) (Int.toNat_of_nonneg hk0)
  have hkn : ⌊x + 1 / 2⌋.toNat < g.count a := by
    have : (⌊x + 1 / 2⌋ : ℚ) < (g.count a : ℚ) := by linarith
    have : ⌊x + 1 / 2⌋ < (g.count a : ℤ) := by exact_mod_cast this
    omega
  refine le_trans (hmin a _ hkn) ?_
  unfold nodeCoord
  rw [hkc, hll, hst', abs_le]
  constructor <;> nlinarith

/-- C98: the tables of the fast-marching method.  A missing column and a station out of the corners are
refused; otherwise each station, in order, gets the solution for the wave that starts at its nearest
node, in the velocities of the profile. -/
theorem C98_fmm_tables {T : Type} (eikonal : (ℚ → Except VModel.Err ℚ) → V3 ℕ → T) (big : ℚ)
    (ll ur : V3 ℚ) (sp : List ℚ) (g : Grid) (hg : mkGrid ll ur sp = .ok g)
    (stations : List (VModel.Str × V3 ℚ)) :
    compute1dFmm eikonal big g ur none stations = .error .header ∧
    ∀ rows : List VModel.Row, rows ≠ [] →
      ((∃ s ∈ stations, ∃ a, s.2 a < ll a ∨ ur a < s.2 a) ↔
        compute1dFmm eikonal big g ur (some rows) stations = .error .valueError) ∧
      ∀ tables, compute1dFmm eikonal big g ur (some rows) stations = .ok tables →
        List.Forall₂ (fun s t => t.1 = s.1 ∧ ∃ v : V3 ℕ, (∀ a, v a < g.count a) ∧
          (∀ a k, k < g.count a → |nodeCoord g a (v a) - s.2 a| ≤ |nodeCoord g a k - s.2 a|) ∧
          t.2 = some (eikonal (velocityAt big rows) v)) stations tables := by
  have hll := (mkGrid_ok hg).1
  have hout : outside g.ll ur stations = true ↔ ∃ s ∈ stations, ∃ a, s.2 a < ll a ∨ ur a < s.2 a := by
    unfold outside
    rw [List.any_eq_true, hll]
    refine exists_congr fun s => and_congr_right fun _ => ?_
    rw [decide_eq_true_eq, Fin.exists_fin_succ, Fin.exists_fin_succ, Fin.exists_fin_succ]
    simp
    tauto
  refine ⟨rfl, fun rows hne => ⟨?_, ?_⟩⟩
  · rw [← hout]
    unfold compute1dFmm
    simp only [if_neg hne]
    split
    · next hc => simp [hc]
    · next hc => simp [hc]
  · intro tables ht
    unfold compute1dFmm at ht
    simp only [if_neg hne] at ht
    split at ht
    · cases ht
    next hin =>
    obtain rfl := Except.ok.inj ht
    rw [List.forall₂_map_right_iff]
    refine List.forall₂_same.mpr fun s hs => ⟨rfl, ?_⟩
    obtain ⟨v, h1, h2, h3, -⟩ := C98_source_nearest ll ur sp g hg s.2 (by
      intro a
      rw [hout] at hin
      push Not at hin
      exact hin s hs a)
    exact ⟨v, h2, h3, by simp only [h1]; rfl⟩

/-- A station in a grid of 2 km spacing, whose nodes exceed the corner asked for. -/
def exVGrid : Grid := ⟨![0, 0, 0], ![2, 2, 2], ![4, 4, 3]⟩

example : mkGrid ![0, 0, 0] ![5, 5, 3] [2] = .ok exVGrid ∧
    ∀ a, (![0, 0, 0] : V3 ℚ) a ≤ (![9 / 2, 11 / 10, 0] : V3 ℚ) a ∧
      (![9 / 2, 11 / 10, 0] : V3 ℚ) a ≤ (![5, 5, 3] : V3 ℚ) a := by
  constructor
  · have hs : setSpacing [2] = .ok ![2, 2, 2] := by
      change (if (0 : ℚ) < 2 then Except.ok (fun _ => 2) else Except.error Grid.Err.assertion) = _
      rw [if_pos (by norm_num)]
      congr 1; funext a; fin_cases a <;> rfl
    unfold mkGrid
    rw [hs]
    have e : (fun a : Fin 3 => ⌈((![5, 5, 3] : V3 ℚ) a - (![0, 0, 0] : V3 ℚ) a) /
        (![2, 2, 2] : V3 ℚ) a⌉ + 1) = ![4, 4, 3] := by
      funext a; fin_cases a <;> decide +kernel
    simp only [e]
    unfold setCount
    rw [if_pos (by simp)]
    simp only [exVGrid, Except.ok.injEq, Grid.mk.injEq, true_and]
    funext a; fin_cases a <;> rfl
  · intro a; fin_cases a <;> norm_num

end QM
