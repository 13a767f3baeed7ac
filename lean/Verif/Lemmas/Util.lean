import Verif.Model.Util
import Verif.Lemmas.Pads
import Verif.Lemmas.Round
import Mathlib.Tactic

namespace QM.Util

/-! ### shift_to_sample -/

theorem start_decomp (t : ℤ) : t = 1000000000 * (t / 1000 / 1000000) + 1000 * microsecond t + t % 1000 := by
  unfold microsecond; omega

theorem offSample_eq {q : ℤ} (hq : 0 < q) {rate : ℚ} (hr : rate = 1000000000 / q) (t : ℤ) :
    ∃ D : ℤ, offSample rate t = D / 1000 ∧ 0 ≤ D ∧ D < q ∧ q ∣ 1000 * microsecond t - D := by
  have hq' : (0 : ℚ) < q := by exact_mod_cast hq
  refine ⟨1000 * microsecond t - q * ⌊(microsecond t : ℚ) / (1000000 / rate)⌋, ?_, ?_, ?_, ?_⟩
  · unfold offSample fMod
    rw [hr]
    push_cast
    field_simp
    ring
  all_goals
    have e : (microsecond t : ℚ) / (1000000 / rate) = 1000 * microsecond t / q := by
      rw [hr]; field_simp; ring
    rw [e]
    have h1 := Int.floor_le (1000 * (microsecond t : ℚ) / q)
    have h2 := Int.lt_floor_add_one (1000 * (microsecond t : ℚ) / q)
  · rw [le_div_iff₀ hq'] at h1
    have : (⌊1000 * (microsecond t : ℚ) / q⌋ * q : ℤ) ≤ 1000 * microsecond t := by exact_mod_cast h1
    linarith
  · rw [div_lt_iff₀ hq'] at h2
    have : 1000 * microsecond t < (⌊1000 * (microsecond t : ℚ) / q⌋ + 1) * q := by exact_mod_cast h2
    linarith
  · exact ⟨⌊1000 * (microsecond t : ℚ) / q⌋, by ring⟩

/-- New start time of an off-sample trace. -/
theorem shift_start {q : ℤ} (hq : 0 < q) {rate : ℚ} (hr : rate = 1000000000 / q) {D : ℤ}
    (t : ℤ) : timeShift rate (D / 1000) * 1000000000 = ((pyRound ((D : ℚ) / q) * q - D : ℤ) : ℚ) ∧
      addSeconds t (timeShift rate (D / 1000)) = t + (pyRound ((D : ℚ) / q) * q - D) := by
  have hq' : (q : ℚ) ≠ 0 := by exact_mod_cast hq.ne'
  have e0 : (D : ℚ) / 1000 / 1000000 * rate = D / q := by rw [hr]; field_simp; ring
  have e1 : timeShift rate (D / 1000) * 1000000000 = ((pyRound ((D : ℚ) / q) * q - D : ℤ) : ℚ) := by
    unfold timeShift
    rw [e0, hr]
    push_cast
    field_simp
    ring
  refine ⟨e1, ?_⟩
  unfold addSeconds
  rw [e1, pyRound_int]

theorem addSeconds_period {q : ℤ} (hq : 0 < q) {rate : ℚ} (hr : rate = 1000000000 / q) (t : ℤ) :
    addSeconds t (1 / rate) = t + q ∧ addSeconds t (-(1 / rate)) = t - q := by
  have hq' : (q : ℚ) ≠ 0 := by exact_mod_cast hq.ne'
  have e : (1 / rate) * 1000000000 = (q : ℚ) := by rw [hr]; field_simp
  unfold addSeconds
  constructor
  · rw [e, pyRound_int]
  · rw [neg_mul, e, ← Int.cast_neg, pyRound_int]; ring

theorem interpolate_npts {q : ℤ} (hq : 0 < q) {rate : ℚ} (hr : rate = 1000000000 / q) (tr : Tr)
    (s : ℤ) (k : ℤ) (h1 : k * q ≤ (tr.npts - 1) * q - s) (h2 : (tr.npts - 1) * q - s < (k + 1) * q) :
    (interpolate rate tr (tr.start + s)).npts = (k + 1).toNat := by
  have hq' : (0 : ℚ) < q := by exact_mod_cast hq
  unfold interpolate
  simp only
  have e : ((tr.start : ℚ) + ((tr.npts : ℚ) - 1) / rate * 1000000000 - ((tr.start + s : ℤ) : ℚ)) /
      1000000000 * rate = (((tr.npts : ℤ) - 1) * q - s : ℤ) / q := by
    rw [hr]; push_cast; field_simp; ring
  rw [e]
  have : ⌊((((tr.npts : ℤ) - 1) * q - s : ℤ) : ℚ) / q⌋ = k := by
    rw [Int.floor_eq_iff, le_div_iff₀ hq', div_lt_iff₀ hq']
    constructor
    · exact_mod_cast h1
    · exact_mod_cast h2
  rw [this]

/-! ### upsample -/

variable {K : Type} [Field K]

theorem strideSet_length (i u : ℕ) (vals a : List K) : (strideSet i u vals a).length = a.length := by
  simp [strideSet]

theorem strideSet_get (i u : ℕ) (vals a : List K) (j : ℕ) (h : j < a.length) :
    (strideSet i u vals a)[j]? =
      some (if i ≤ j ∧ (j - i) % u = 0 then vals.getD ((j - i) / u) a[j] else a[j]) := by
  simp [strideSet, List.getElem?_mapIdx, List.getElem?_eq_getElem h]

theorem fold_stride_length (u : ℕ) (data : List K) (l : List ℕ) (a : List K) :
    (l.foldl (fun d i => strideSet i u (blend i u data) d) a).length = a.length := by
  induction l generalizing a with
  | nil => rfl
  | cons i l ih => rw [List.foldl_cons, ih, strideSet_length]

theorem upsampleData_length (u : ℕ) (data : List K) :
    (upsampleData u data).length = (data.length - 1) * u + 1 := by
  unfold upsampleData
  rw [fold_stride_length, strideSet_length, List.length_replicate]

theorem fold_stride_skip (u : ℕ) (data : List K) (l : List ℕ) (a : List K) (j : ℕ) (hj : j < a.length)
    (hl : ∀ i ∈ l, i < u) (h : j % u ∉ l) :
    (l.foldl (fun d i => strideSet i u (blend i u data) d) a)[j]? = a[j]? := by
  induction l generalizing a with
  | nil => rfl
  | cons i l ih =>
    rw [List.foldl_cons, ih _ (by rw [strideSet_length]; exact hj)
      (fun k hk => hl k (List.mem_cons_of_mem _ hk)) (fun hk => h (List.mem_cons_of_mem _ hk)),
      strideSet_get _ _ _ _ _ hj, if_neg, List.getElem?_eq_getElem hj]
    rintro ⟨h1, h2⟩
    apply h
    have hi := hl i (List.mem_cons_self)
    have : j % u = i := by
      obtain ⟨c, hc⟩ := Nat.dvd_of_mod_eq_zero h2
      have : j = i + u * c := by omega
      rw [this, Nat.add_mul_mod_self_left, Nat.mod_eq_of_lt hi]
    rw [this]; exact List.mem_cons_self

theorem fold_stride_hit (u : ℕ) (data : List K) (l : List ℕ) (hnd : l.Nodup) (a : List K) (j : ℕ)
    (hj : j < a.length) (hl : ∀ i ∈ l, i < u) (h : j % u ∈ l) (v : K)
    (hv : (blend (j % u) u data)[j / u]? = some v) :
    (l.foldl (fun d i => strideSet i u (blend i u data) d) a)[j]? = some v := by
  induction l generalizing a with
  | nil => simp at h
  | cons i l ih =>
    rw [List.foldl_cons]
    by_cases hi : j % u = i
    · have hni : j % u ∉ l := by rw [hi]; exact (List.nodup_cons.1 hnd).1
      rw [fold_stride_skip u data l _ j (by rw [strideSet_length]; exact hj)
        (fun k hk => hl k (List.mem_cons_of_mem _ hk)) hni, strideSet_get _ _ _ _ _ hj]
      have hu : 0 < u := lt_of_le_of_lt (Nat.zero_le _) (hl i List.mem_cons_self)
      have hd := Nat.mod_add_div j u
      have e1 : j - i = u * (j / u) := by omega
      rw [if_pos ⟨by have := Nat.mod_le j u; omega, by rw [e1, Nat.mul_mod_right]⟩, e1,
        Nat.mul_div_cancel_left _ hu, List.getD_eq_getElem?_getD, ← hi, hv]
      rfl
    · exact ih (List.nodup_cons.1 hnd).2 _ (by rw [strideSet_length]; exact hj)
        (fun k hk => hl k (List.mem_cons_of_mem _ hk))
        (by rcases List.mem_cons.1 h with h | h
            · exact absurd h hi
            · exact h)

theorem upsampleData_keep (u : ℕ) (hu : 0 < u) (data : List K) (k : ℕ) (hk : k < data.length) :
    (upsampleData u data)[k * u]? = some data[k] := by
  have hlen : k * u < (data.length - 1) * u + 1 := by
    have : k * u ≤ (data.length - 1) * u := Nat.mul_le_mul_right _ (by omega)
    omega
  unfold upsampleData
  rw [fold_stride_skip u data _ _ _ (by rw [strideSet_length, List.length_replicate]; exact hlen)
    (by intro i hi; rw [List.mem_range'_1] at hi; omega)
    (by rw [List.mem_range'_1, Nat.mul_mod_left]; omega),
    strideSet_get _ _ _ _ _ (by rw [List.length_replicate]; exact hlen),
    if_pos ⟨Nat.zero_le _, by rw [Nat.sub_zero, Nat.mul_mod_left]⟩, Nat.sub_zero,
    Nat.mul_div_cancel _ hu, List.getD_eq_getElem?_getD, List.getElem?_eq_getElem hk]
  rfl

theorem upsampleData_between (u : ℕ) (data : List K) (k i : ℕ) (hk : k + 1 < data.length)
    (hi0 : 0 < i) (hiu : i < u) :
    (upsampleData u data)[k * u + i]? =
      some ((i : K) / u * data[k + 1] + ((u - i : ℕ) : K) / u * data[k]) := by
  have hlen : k * u + i < (data.length - 1) * u + 1 := by
    have : (k + 1) * u ≤ (data.length - 1) * u := Nat.mul_le_mul_right _ (by omega)
    rw [Nat.add_mul] at this; omega
  have hm : (k * u + i) % u = i := by
    rw [Nat.add_comm, Nat.add_mul_mod_self_right, Nat.mod_eq_of_lt hiu]
  have hdv : (k * u + i) / u = k := by
    rw [Nat.add_comm, Nat.add_mul_div_right _ _ (by omega), Nat.div_eq_of_lt hiu, zero_add]
  unfold upsampleData
  apply fold_stride_hit u data _ List.nodup_range' _ _
    (by rw [strideSet_length, List.length_replicate]; exact hlen)
    (by intro i hi; rw [List.mem_range'_1] at hi; omega)
    (by rw [List.mem_range'_1, hm]; omega)
  rw [hm, hdv]
  unfold blend
  rw [List.getElem?_zipWith, List.getElem?_tail, List.getElem?_eq_getElem hk,
    List.getElem?_dropLast, if_pos (by omega), List.getElem?_eq_getElem (by omega)]

theorem mapIdx_filter_window {α β : Type} (p : β → Bool) (l : List α) :
    ∀ (a b : ℕ) (f : ℕ → α → β), (∀ k v, p (f k v) = true ↔ a ≤ k ∧ k < b) →
      (l.mapIdx f).filter p = ((l.take b).drop a).mapIdx (fun k v => f (k + a) v) := by
  induction l with
  | nil => intro a b f _; simp
  | cons x l ih =>
    intro a b f h
    rw [List.mapIdx_cons]
    cases b with
    | zero =>
      have h0 : ∀ y ∈ (f 0 x :: l.mapIdx (fun i => f (i + 1))), ¬ p y = true := by
        intro y hy
        rcases List.mem_cons.1 hy with e | e
        · rw [e, h]; omega
        · obtain ⟨i, hi, e⟩ := List.mem_mapIdx.1 e
          rw [← e, h]; omega
      rw [List.filter_eq_nil_iff.2 h0]; simp
    | succ b =>
      cases a with
      | zero =>
        rw [List.filter_cons_of_pos ((h 0 x).2 ⟨le_rfl, by omega⟩),
          ih 0 b (fun i => f (i + 1)) (by intro k v; rw [h]; omega)]
        simp [List.mapIdx_cons]
      | succ a =>
        rw [List.filter_cons_of_neg (by rw [h]; omega),
          ih a b (fun i => f (i + 1)) (by intro k v; rw [h]; omega)]
        simp only [List.take_succ_cons, List.drop_succ_cons]
        rfl

end QM.Util
