import Verif.Model.Grid
import Verif.Lemmas.Round
import Mathlib.Tactic.FinCases
import Mathlib.Tactic.FieldSimp
import Mathlib.Tactic.Positivity

namespace QM.Grid
open QM.Compute (Str)

/-! ## Indices -/

theorem ravel_lt {n ijk : V3 ℕ} (h : ∀ a, ijk a < n a) : ravel n ijk < n 0 * n 1 * n 2 := by
  have h0 := h 0
  have h1 := h 1
  have h2 := h 2
  have e1 : ijk 0 * n 1 + ijk 1 < n 0 * n 1 := by
    calc ijk 0 * n 1 + ijk 1 < ijk 0 * n 1 + n 1 := by omega
      _ = (ijk 0 + 1) * n 1 := by ring
      _ ≤ n 0 * n 1 := Nat.mul_le_mul_right _ h0
  unfold ravel
  calc (ijk 0 * n 1 + ijk 1) * n 2 + ijk 2 < (ijk 0 * n 1 + ijk 1) * n 2 + n 2 := by omega
    _ = (ijk 0 * n 1 + ijk 1 + 1) * n 2 := by ring
    _ ≤ n 0 * n 1 * n 2 := Nat.mul_le_mul_right _ e1

theorem unravel_ravel {n ijk : V3 ℕ} (h : ∀ a, ijk a < n a) :
    unravel n (ravel n ijk) = .ok ijk := by
  unfold unravel
  rw [if_pos (ravel_lt h)]
  have h1 := h 1
  have h2 := h 2
  have e2 : ravel n ijk / n 2 = ijk 0 * n 1 + ijk 1 := by
    unfold ravel
    rw [mul_comm, Nat.mul_add_div (by omega), Nat.div_eq_of_lt h2, Nat.add_zero]
  have e3 : ravel n ijk % n 2 = ijk 2 := by
    unfold ravel
    rw [mul_comm, Nat.mul_add_mod, Nat.mod_eq_of_lt h2]
  have e4 : (ijk 0 * n 1 + ijk 1) / n 1 = ijk 0 := by
    rw [mul_comm, Nat.mul_add_div (by omega), Nat.div_eq_of_lt h1, Nat.add_zero]
  have e5 : (ijk 0 * n 1 + ijk 1) % n 1 = ijk 1 := by
    rw [mul_comm, Nat.mul_add_mod, Nat.mod_eq_of_lt h1]
  rw [e2, e3, e4, e5]
  congr 1
  funext a
  fin_cases a <;> rfl

theorem unravel_spec {n : V3 ℕ} {f : ℕ} (h : f < n 0 * n 1 * n 2) :
    ∃ ijk : V3 ℕ, unravel n f = .ok ijk ∧ (∀ a, ijk a < n a) ∧ ravel n ijk = f := by
  have p2 : 0 < n 2 := by
    rcases Nat.eq_zero_or_pos (n 2) with e | e
    · rw [e, Nat.mul_zero] at h; omega
    · exact e
  have p1 : 0 < n 1 := by
    rcases Nat.eq_zero_or_pos (n 1) with e | e
    · rw [e, Nat.mul_zero, Nat.zero_mul] at h; omega
    · exact e
  have b0 : f / n 2 / n 1 < n 0 := by
    rw [Nat.div_lt_iff_lt_mul p1, Nat.div_lt_iff_lt_mul p2]; exact h
  refine ⟨![f / n 2 / n 1, f / n 2 % n 1, f % n 2], by unfold unravel; rw [if_pos h], ?_, ?_⟩
  · intro a
    fin_cases a
    · exact b0
    · exact Nat.mod_lt _ p1
    · exact Nat.mod_lt _ p2
  · show (f / n 2 / n 1 * n 1 + f / n 2 % n 1) * n 2 + f % n 2 = f
    rw [Nat.div_add_mod', Nat.div_add_mod']

/-- Looking up position `i * m + j` in a flatMap of equal-length blocks. -/
theorem getElem?_flatMap_range {α : Type} (f : ℕ → List α) (m : ℕ) (hf : ∀ i, (f i).length = m) :
    ∀ (n i j : ℕ), i < n → j < m → ((List.range n).flatMap f)[i * m + j]? = (f i)[j]?
  | 0, _, _, h, _ => absurd h (Nat.not_lt_zero _)
  | n + 1, i, j, h, hj => by
    have hlen : ((List.range n).flatMap f).length = n * m := by
      rw [List.length_flatMap]
      simp [hf]
    rw [List.range_succ, List.flatMap_append]
    by_cases hi : i < n
    · have hb : i * m + j < n * m := by
        calc i * m + j < i * m + m := by omega
          _ = (i + 1) * m := by ring
          _ ≤ n * m := Nat.mul_le_mul_right _ hi
      rw [List.getElem?_append_left (by rw [hlen]; exact hb)]
      exact getElem?_flatMap_range f m hf n i j hi hj
    · have : i = n := by omega
      subst this
      rw [List.getElem?_append_right (by rw [hlen]; omega), hlen, Nat.add_sub_cancel_left]
      simp

theorem allNodes_get {n ijk : V3 ℕ} (h : ∀ a, ijk a < n a) :
    (allNodes n)[ravel n ijk]? = some ijk := by
  have hin : ∀ i j, ((List.range (n 2)).map fun k => (![i, j, k] : V3 ℕ)).length = n 2 := by
    intro i j; simp
  have hmid : ∀ i, ((List.range (n 1)).flatMap fun j =>
      (List.range (n 2)).map fun k => (![i, j, k] : V3 ℕ)).length = n 1 * n 2 := by
    intro i; rw [List.length_flatMap]; simp
  have e : ravel n ijk = ijk 0 * (n 1 * n 2) + (ijk 1 * n 2 + ijk 2) := by unfold ravel; ring
  have hj : ijk 1 * n 2 + ijk 2 < n 1 * n 2 := by
    have h1 := h 1
    have h2 := h 2
    calc ijk 1 * n 2 + ijk 2 < ijk 1 * n 2 + n 2 := by omega
      _ = (ijk 1 + 1) * n 2 := by ring
      _ ≤ n 1 * n 2 := Nat.mul_le_mul_right _ h1
  unfold allNodes
  rw [e, getElem?_flatMap_range _ _ hmid _ _ _ (h 0) hj,
    getElem?_flatMap_range _ _ (hin (ijk 0)) _ _ _ (h 1) (h 2)]
  rw [List.getElem?_map, List.getElem?_range (h 2)]
  simp only [Option.map_some, Option.some.injEq]
  funext a
  fin_cases a <;> rfl

theorem allNodes_length (n : V3 ℕ) : (allNodes n).length = n 0 * n 1 * n 2 := by
  unfold allNodes
  rw [List.length_flatMap]
  simp [List.length_flatMap, mul_assoc]

/-! ## Decimation -/

theorem decStart_eq (n df : ℕ) (hd : 0 < df) (hn : 0 < n) : decStart n df = (n - 1) % df / 2 := by
  unfold decStart decCount
  have := Nat.div_add_mod (n - 1) df
  rw [Nat.add_sub_cancel_left]
  congr 1
  omega

theorem slice_count (n df : ℕ) (hd : 0 < df) (hn : 0 < n) :
    (n - decStart n df + df - 1) / df = decCount n df := by
  rw [decStart_eq n df hd hn]
  unfold decCount
  have h := Nat.div_add_mod (n - 1) df
  have hm := Nat.mod_lt (n - 1) hd
  set q := (n - 1) / df
  set r := (n - 1) % df
  apply Nat.div_eq_of_lt_le
  · rw [add_mul, mul_comm q]; omega
  · rw [show (1 + q + 1) * df = df * q + df + df by ring]; omega

theorem filterMap_range_get {α : Type} (f : ℕ → Option α) :
    ∀ (m : ℕ), (∀ i < m, (f i).isSome) →
      ((List.range m).filterMap f).length = m ∧
      ∀ i < m, ((List.range m).filterMap f)[i]? = f i
  | 0, _ => by simp
  | m + 1, h => by
    obtain ⟨hl, hg⟩ := filterMap_range_get f m (fun i hi => h i (by omega))
    obtain ⟨x, hx⟩ := Option.isSome_iff_exists.1 (h m (by omega))
    rw [List.range_succ, List.filterMap_append]
    have e : List.filterMap f [m] = [x] := by simp [hx]
    rw [e]
    refine ⟨by simp [hl], ?_⟩
    intro i hi
    by_cases him : i < m
    · rw [List.getElem?_append_left (by omega), hg i him]
    · have : i = m := by omega
      subst this
      rw [List.getElem?_append_right (by omega), hl, hx]
      simp

theorem slice_spec {α : Type} (c d : ℕ) (hd : 0 < d) (l : List α) :
    (slice c d l).length = (l.length - c + d - 1) / d ∧
      ∀ i, (slice c d l)[i]? = l[c + i * d]? := by
  have key : ∀ i, i < (l.length - c + d - 1) / d ↔ c + i * d < l.length := by
    intro i
    rw [Nat.lt_iff_add_one_le, Nat.le_div_iff_mul_le hd, add_mul]
    omega
  obtain ⟨hl, hg⟩ := filterMap_range_get (fun i => l[c + i * d]?) _ (fun i hi => by
    have := (key i).1 hi
    simp [this])
  refine ⟨hl, fun i => ?_⟩
  by_cases hi : i < (l.length - c + d - 1) / d
  · exact hg i hi
  · rw [List.getElem?_eq_none (by unfold slice; omega),
      List.getElem?_eq_none (by have := (key i).not.1 hi; omega)]

/-- The retained table of one station and phase. -/
def decTable (n df : V3 ℕ) (t : Table) : Table :=
  (slice (decStart (n 0) (df 0)) (df 0) t).map fun pl =>
    (slice (decStart (n 1) (df 1)) (df 1) pl).map fun r =>
      slice (decStart (n 2) (df 2)) (df 2) r

theorem mem_slice {α : Type} {c d : ℕ} {l : List α} {x : α} (h : x ∈ slice c d l) : x ∈ l := by
  unfold slice at h
  obtain ⟨i, -, hi⟩ := List.mem_filterMap.1 h
  exact List.mem_of_getElem? hi

theorem decTable_shape {n df : V3 ℕ} (hn : ∀ a, 0 < n a) (hd : ∀ a, 0 < df a) {t : Table}
    (ht : t.HasShape n) : (decTable n df t).HasShape (fun a => decCount (n a) (df a)) := by
  obtain ⟨h0, h⟩ := ht
  unfold decTable
  refine ⟨?_, ?_⟩
  · rw [List.length_map, (slice_spec _ _ (hd 0) t).1, h0, slice_count _ _ (hd 0) (hn 0)]
  · intro p hp
    obtain ⟨pl, hpl, rfl⟩ := List.mem_map.1 hp
    obtain ⟨h1, h2⟩ := h pl (mem_slice hpl)
    refine ⟨?_, ?_⟩
    · rw [List.length_map, (slice_spec _ _ (hd 1) pl).1, h1, slice_count _ _ (hd 1) (hn 1)]
    · intro r hr
      obtain ⟨r', hr', rfl⟩ := List.mem_map.1 hr
      rw [(slice_spec _ _ (hd 2) r').1, h2 r' (mem_slice hr'), slice_count _ _ (hd 2) (hn 2)]

theorem decTable_at {n df : V3 ℕ} (hd : ∀ a, 0 < df a) (t : Table) (i j k : ℕ) :
    (decTable n df t).at i j k = t.at (decStart (n 0) (df 0) + i * df 0)
      (decStart (n 1) (df 1) + j * df 1) (decStart (n 2) (df 2) + k * df 2) := by
  unfold decTable Table.at
  simp only [List.getElem?_map, (slice_spec _ _ (hd 0) t).2]
  cases t[decStart (n 0) (df 0) + i * df 0]? with
  | none => rfl
  | some pl =>
    simp only [Option.map_some, Option.bind_eq_bind, Option.bind_some, List.getElem?_map,
      (slice_spec _ _ (hd 1) pl).2]
    cases pl[decStart (n 1) (df 1) + j * df 1]? with
    | none => rfl
    | some r =>
      simp only [Option.map_some, Option.bind_some, (slice_spec _ _ (hd 2) r).2]

/-! ## Dicts -/

theorem dictGet_dictSet {α : Type} (d : List (Str × α)) (k k' : Str) (v : α) :
    dictGet (Compute.dictSet d k v) k' = if k' = k then some v else dictGet d k' := by
  unfold Compute.dictSet
  by_cases hk : d.any (fun e => e.1 = k) = true
  · rw [if_pos hk]
    induction d with
    | nil => simp at hk
    | cons e d ih =>
      unfold dictGet at ih ⊢
      rw [List.map_cons]
      by_cases he : e.1 = k
      · rw [if_pos he]
        by_cases hkk : k' = k
        · subst hkk; simp
        · rw [if_neg hkk]
          have h1 : ¬ k = k' := fun h => hkk h.symm
          have h2 : ¬ e.1 = k' := fun h => hkk (h ▸ he ▸ rfl)
          rw [List.find?_cons_of_neg (by simpa using h1), List.find?_cons_of_neg (by simpa using h2)]
          by_cases hd : d.any (fun e => e.1 = k) = true
          · rw [ih hd, if_neg hkk]
          · have hm : d.map (fun e => if e.1 = k then (k, v) else e) = d := by
              conv_rhs => rw [← List.map_id d]
              apply List.map_congr_left
              intro x hx
              have : ¬ x.1 = k := fun h => hd (List.any_eq_true.2 ⟨x, hx, by simpa using h⟩)
              rw [if_neg this]; rfl
            rw [hm]
      · rw [if_neg he]
        have hd : d.any (fun e => e.1 = k) = true := by
          rw [List.any_cons] at hk
          simpa [he] using hk
        by_cases hek : e.1 = k'
        · have : ¬ k' = k := fun h => he (hek.trans h)
          rw [List.find?_cons_of_pos (by simpa using hek), if_neg this,
            List.find?_cons_of_pos (by simpa using hek)]
        · rw [List.find?_cons_of_neg (by simpa using hek), List.find?_cons_of_neg (by simpa using hek)]
          exact ih hd
  · rw [if_neg hk]
    unfold dictGet
    rw [List.find?_append]
    by_cases hkk : k' = k
    · subst hkk
      rw [if_pos rfl]
      have : d.find? (fun e => decide (e.1 = k')) = none := by
        rw [List.find?_eq_none]
        intro x hx h
        exact hk (List.any_eq_true.2 ⟨x, hx, h⟩)
      rw [this]; simp
    · rw [if_neg hkk]
      have h1 : ¬ k = k' := fun h => hkk h.symm
      cases d.find? (fun e => decide (e.1 = k')) with
      | none => simp [h1]
      | some x => simp

theorem dictUpdate_cons {α : Type} (d : List (Str × α)) (kv : Str × α) (e : List (Str × α)) :
    dictUpdate d (kv :: e) = dictUpdate (Compute.dictSet d kv.1 kv.2) e := rfl

/-- `d.update(e)` for a dict `e` (distinct keys): entries of `e` win. -/
theorem dictGet_dictUpdate {α : Type} (e : List (Str × α)) (he : (e.map Prod.fst).Nodup) :
    ∀ (d : List (Str × α)) (k : Str), dictGet (dictUpdate d e) k = (dictGet e k).or (dictGet d k) := by
  induction e with
  | nil => intro d k; simp [dictUpdate, dictGet]
  | cons kv e ih =>
    intro d k
    rw [List.map_cons, List.nodup_cons] at he
    rw [dictUpdate_cons, ih he.2, dictGet_dictSet]
    by_cases hk : k = kv.1
    · subst hk
      have h1 : dictGet e kv.1 = none := by
        unfold dictGet
        rw [Option.map_eq_none_iff, List.find?_eq_none]
        intro x hx h
        exact he.1 (List.mem_map.2 ⟨x, hx, by simpa using h⟩)
      have h2 : dictGet (kv :: e) kv.1 = some kv.2 := by
        unfold dictGet; rw [List.find?_cons_of_pos (by simp)]; rfl
      rw [h1, h2, if_pos rfl]; rfl
    · have h2 : dictGet (kv :: e) k = dictGet e k := by
        unfold dictGet
        rw [List.find?_cons_of_neg (by simpa using fun h : kv.1 = k => hk h.symm)]
      rw [h2, if_neg hk]

/-! ## Interpolation -/

theorem remainder_div (x d : ℚ) (hd : 0 < d) : remainder x d / d = Int.fract (x / d) := by
  unfold remainder Int.fract
  field_simp

theorem frac_mem (x d : ℚ) (hd : 0 < d) : 0 ≤ remainder x d / d ∧ remainder x d / d < 1 := by
  rw [remainder_div x d hd]
  exact ⟨Int.fract_nonneg _, Int.fract_lt_one _⟩

theorem convex_between {lo hi a b : ℚ} (w : ℚ) (h0 : 0 ≤ w) (h1 : w ≤ 1) (ha : lo ≤ a)
    (ha' : a ≤ hi) (hb : lo ≤ b) (hb' : b ≤ hi) :
    lo ≤ a * (1 - w) + b * w ∧ a * (1 - w) + b * w ≤ hi := by
  constructor
  · nlinarith [mul_nonneg (sub_nonneg.2 ha) (sub_nonneg.2 h1), mul_nonneg (sub_nonneg.2 hb) h0]
  · nlinarith [mul_nonneg (sub_nonneg.2 ha') (sub_nonneg.2 h1), mul_nonneg (sub_nonneg.2 hb') h0]

theorem Table2.get_nat (t : Table2) {i k : ℕ} (hi : i < t.nx) (hk : k < t.nz) :
    t.get (i : ℤ) (k : ℤ) = .ok (t.val i k) := by
  unfold Table2.get npIndex
  have h1 : (0 : ℤ) ≤ (i : ℤ) := by omega
  have h2 : (i : ℤ) < (t.nx : ℤ) := by omega
  have h3 : (0 : ℤ) ≤ (k : ℤ) := by omega
  have h4 : (k : ℤ) < (t.nz : ℤ) := by omega
  simp only [if_pos h1, if_pos h2, if_pos h3, if_pos h4, Int.toNat_natCast]

theorem bilinear_eq (t : Table2) (x0 z0 dx dz x z : ℚ) {i k : ℕ} (hi : i + 1 < t.nx)
    (hk : k + 1 < t.nz) (ei : ⌊(x - x0) / dx⌋ = i) (ek : ⌊(z - z0) / dz⌋ = k) :
    bilinear t x0 z0 dx dz x z =
      .ok ((t.val i k * (1 - remainder x dx / dx) + t.val (i + 1) k * (remainder x dx / dx)) *
          (1 - remainder z dz / dz) +
        (t.val i (k + 1) * (1 - remainder x dx / dx) + t.val (i + 1) (k + 1) * (remainder x dx / dx)) *
          (remainder z dz / dz)) := by
  have e1 : ((i : ℤ) + 1) = ((i + 1 : ℕ) : ℤ) := by push_cast; ring
  have e2 : ((k : ℤ) + 1) = ((k + 1 : ℕ) : ℤ) := by push_cast; ring
  unfold bilinear
  simp only [ei, ek, e1, e2, t.get_nat (show i < t.nx by omega) (show k < t.nz by omega),
    t.get_nat hi (show k < t.nz by omega), t.get_nat hi hk,
    t.get_nat (show i < t.nx by omega) hk]

theorem nlloc_reads (t : Table2) (maxDist z1 z2 dx x z : ℚ) (hdx : 0 < dx)
    (hshape : ((t.nx : ℤ), (t.nz : ℤ)) = nllocShape maxDist z1 z2 dx)
    (hx0 : 0 ≤ x) (hx : x ≤ maxDist) (hz0 : z1 ≤ z) (hz : z ≤ z2) :
    ∃ i k : ℕ, (i + 1 < t.nx ∧ k + 1 < t.nz) ∧
      (i * dx ≤ x ∧ x < (i + 1) * dx ∧ z1 + k * dx ≤ z ∧ z < z1 + (k + 1) * dx) ∧
      bilinear t 0 z1 dx dx x z =
      .ok ((t.val i k * (1 - remainder x dx / dx) + t.val (i + 1) k * (remainder x dx / dx)) *
          (1 - remainder z dx / dx) +
        (t.val i (k + 1) * (1 - remainder x dx / dx) + t.val (i + 1) (k + 1) * (remainder x dx / dx)) *
          (remainder z dx / dx)) := by
  unfold nllocShape at hshape
  simp only [Prod.mk.injEq] at hshape
  obtain ⟨hnx, hnz⟩ := hshape
  have fi0 : 0 ≤ ⌊(x - 0) / dx⌋ := Int.floor_nonneg.2 (div_nonneg (by linarith) hdx.le)
  have fk0 : 0 ≤ ⌊(z - z1) / dx⌋ := Int.floor_nonneg.2 (div_nonneg (by linarith) hdx.le)
  obtain ⟨i, hi⟩ := Int.eq_ofNat_of_zero_le fi0
  obtain ⟨k, hk⟩ := Int.eq_ofNat_of_zero_le fk0
  have ub : ∀ {p q : ℚ}, p ≤ q → ⌊p / dx⌋ ≤ ⌈q / dx⌉ := by
    intro p q hpq
    have h1 := Int.floor_le (p / dx)
    have h2 := Int.le_ceil (q / dx)
    have h3 : p / dx ≤ q / dx := div_le_div_of_nonneg_right hpq hdx.le
    have : (⌊p / dx⌋ : ℚ) ≤ (⌈q / dx⌉ : ℚ) := by linarith
    exact_mod_cast this
  have bi : i + 1 < t.nx := by
    have := ub (show x - 0 ≤ maxDist by linarith)
    omega
  have bk : k + 1 < t.nz := by
    have := ub (show z - z1 ≤ z2 - z1 by linarith)
    omega
  refine ⟨i, k, ⟨bi, bk⟩, ?_, bilinear_eq t 0 z1 dx dx x z bi bk hi hk⟩
  have h1 := Int.floor_le ((x - 0) / dx)
  have h2 := Int.lt_floor_add_one ((x - 0) / dx)
  have h3 := Int.floor_le ((z - z1) / dx)
  have h4 := Int.lt_floor_add_one ((z - z1) / dx)
  rw [hi] at h1 h2
  rw [hk] at h3 h4
  rw [le_div_iff₀ hdx] at h1 h3
  rw [div_lt_iff₀ hdx] at h2 h4
  push_cast at h1 h2 h3 h4
  refine ⟨by linarith, by linarith, by linarith, by linarith⟩

end QM.Grid

namespace QM.Compute

theorem splitU_join : ∀ s : Str, ['_'].intercalate (splitU s) = s
  | [] => by simp [splitU]
  | c :: cs => by
    have ih := splitU_join cs
    unfold splitU
    split_ifs with hc
    · subst hc
      cases h : splitU cs with
      | nil => exact absurd h (by cases cs with
          | nil => simp [splitU]
          | cons d ds => unfold splitU; split_ifs <;> [simp; (split <;> simp)])
      | cons w ws =>
        rw [h] at ih
        rw [List.intercalate_cons_cons, ih]; rfl
    · cases h : splitU cs with
      | nil =>
        rw [h] at ih
        simp at ih
        subst ih
        simp
      | cons w ws =>
        rw [h] at ih
        simp only
        cases ws with
        | nil => simp at ih ⊢; exact ih
        | cons w' ws =>
          rw [List.intercalate_cons_cons] at ih ⊢
          rw [List.append_assoc] at ih ⊢
          rw [List.cons_append, ih]

theorem splitU_pair {k s p : Str} (h : splitU k = [s, p]) : k = s ++ '_' :: p := by
  have := splitU_join k
  rw [h] at this
  rw [← this]
  simp [List.intercalate]

theorem serve_forall₂ (L : Lut) : ∀ (avail : List (Str × ℕ)) (gs : List (ℕ → ℚ)),
    serve L avail = .ok gs →
    List.Forall₂ (fun (e : Str × ℕ) g => ∃ s p, e.1 = s ++ '_' :: p ∧ lookup L s p = .ok g)
      (avail.filter (fun e => e.2 = 1)) gs
  | [], gs, h => by
    have := Except.ok.inj h
    subst this
    exact List.Forall₂.nil
  | (k, v) :: rest, gs, h => by
    unfold serve at h
    split at h
    · rename_i s p hs
      split_ifs at h with hv
      · cases hl : lookup L s p with
        | error e => rw [hl] at h; simp at h
        | ok g =>
          rw [hl] at h
          cases hr : serve L rest with
          | error e => rw [hr] at h; simp at h
          | ok gs' =>
            rw [hr] at h
            have := Except.ok.inj h
            subst this
            rw [List.filter_cons_of_pos (by simpa using hv)]
            exact List.Forall₂.cons ⟨s, p, splitU_pair hs, hl⟩ (serve_forall₂ L rest gs' hr)
      · rw [List.filter_cons_of_neg (by simpa using hv)]
        exact serve_forall₂ L rest gs h
    · simp at h

theorem serveList_forall₂ (L : Lut) : ∀ (l : List (Str × Str)) (gs : List (ℕ → ℚ)),
    serveList L l = .ok gs → List.Forall₂ (fun (e : Str × Str) g => lookup L e.1 e.2 = .ok g) l gs
  | [], gs, h => by
    have := Except.ok.inj h
    subst this
    exact List.Forall₂.nil
  | (s, p) :: rest, gs, h => by
    unfold serveList at h
    cases hl : lookup L s p with
    | error e => rw [hl] at h; simp at h
    | ok g =>
      rw [hl] at h
      cases hr : serveList L rest with
      | error e => rw [hr] at h; simp at h
      | ok gs' =>
        rw [hr] at h
        have := Except.ok.inj h
        subst this
        exact List.Forall₂.cons hl (serveList_forall₂ L rest gs' hr)

theorem toSamples_spec (sr : ℚ) (g : ℕ → ℚ) (node : ℕ) :
    |(toSamples sr g node : ℚ) - g node * sr| ≤ 1 / 2 ∧
      (0 ≤ sr → 0 ≤ g node → 0 ≤ toSamples sr g node) := by
  refine ⟨abs_pyRound_sub_le _, fun h1 h2 => ?_⟩
  have : pyRound ((0 : ℤ) : ℚ) ≤ toSamples sr g node := by
    apply pyRound_mono
    rw [Int.cast_zero]
    exact mul_nonneg h2 h1
  rwa [pyRound_int] at this

end QM.Compute
