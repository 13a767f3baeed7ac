import Verif.Model.Waveforms
import Verif.Lemmas.ScanMseed

/-! # Lemmas on trimming and merging records -/

namespace QM.Waveforms
open QM.ScanMseed (Trace roundAway)

variable {V : Type}

theorem mem_samples_iff {δ : ℚ} {tr : Trace V} {p : ℚ × V} :
    p ∈ tr.samples δ ↔ ∃ i : ℕ, tr.vals[i]? = some p.2 ∧ p.1 = tr.start + (i : ℚ) * δ := by
  unfold Trace.samples
  simp only [List.mem_map, Prod.exists]
  constructor
  · rintro ⟨a, i, h, rfl⟩
    exact ⟨i, List.mem_zipIdx_iff_getElem?.mp h, rfl⟩
  · rintro ⟨i, h, h2⟩
    exact ⟨p.2, i, List.mem_zipIdx_iff_getElem?.mpr h, by rw [← h2]⟩

theorem roundAway_ge (q : ℚ) : q - 1 / 2 ≤ roundAway q := by
  unfold roundAway
  split
  · have := Int.lt_floor_add_one (q + 1 / 2); linarith
  · exact Int.le_ceil _

theorem roundAway_le (q : ℚ) : (roundAway q : ℚ) ≤ q + 1 / 2 := by
  unfold roundAway
  split
  · exact Int.floor_le _
  · have := Int.ceil_lt_add_one (q - 1 / 2); linarith

theorem roundAway_le_int {q : ℚ} {n : ℤ} (h : q ≤ n) : roundAway q ≤ n := by
  unfold roundAway
  split
  · rw [← Int.lt_add_one_iff, Int.floor_lt]; push_cast; linarith
  · exact Int.ceil_le.mpr (by linarith)

theorem int_le_roundAway {q : ℚ} {n : ℤ} (h : (n : ℚ) ≤ q) : n ≤ roundAway q := by
  unfold roundAway
  split
  · exact Int.le_floor.mpr (by linarith)
  · rw [← Int.sub_one_lt_iff, Int.lt_ceil]; push_cast; linarith

/-- What left trimming keeps. -/
theorem ltrim_eq (δ a : ℚ) (tr : Trace V) :
    tr.ltrim δ a = ⟨tr.start + ((roundAway ((a - tr.start) / δ)).toNat : ℚ) * δ,
      tr.vals.drop (roundAway ((a - tr.start) / δ)).toNat⟩ := by
  unfold Trace.ltrim
  simp only
  split
  · next h => rw [Int.toNat_of_nonpos h]; simp
  · next h =>
    congr 2
    have : ((roundAway ((a - tr.start) / δ)).toNat : ℤ) = roundAway ((a - tr.start) / δ) :=
      Int.toNat_of_nonneg (by omega)
    rw [← Int.cast_natCast, this]

theorem mem_ltrim {δ a : ℚ} (hδ : 0 < δ) {tr : Trace V} {p : ℚ × V} :
    (p ∈ (tr.ltrim δ a).samples δ → p ∈ tr.samples δ ∧ a - δ / 2 ≤ p.1) ∧
    (p ∈ tr.samples δ → a ≤ p.1 → p ∈ (tr.ltrim δ a).samples δ) := by
  rw [ltrim_eq]
  have hge := roundAway_ge ((a - tr.start) / δ)
  have hle : ∀ {n : ℤ}, (a - tr.start) / δ ≤ n → roundAway ((a - tr.start) / δ) ≤ n :=
    fun h => roundAway_le_int h
  generalize roundAway ((a - tr.start) / δ) = d at hge hle
  simp only [mem_samples_iff, List.getElem?_drop]
  constructor
  · rintro ⟨i, h1, h2⟩
    refine ⟨⟨d.toNat + i, h1, by rw [h2]; push_cast; ring⟩, ?_⟩
    have e1 : (a - tr.start) / δ - 1 / 2 ≤ ((d.toNat : ℕ) : ℚ) := by
      have : (d : ℚ) ≤ ((d.toNat : ℕ) : ℚ) := by exact_mod_cast Int.self_le_toNat d
      linarith
    have e2 : a - tr.start - δ / 2 ≤ (d.toNat : ℚ) * δ := by
      have := mul_le_mul_of_nonneg_right e1 hδ.le
      have e3 : ((a - tr.start) / δ - 1 / 2) * δ = a - tr.start - δ / 2 := by
        field_simp
      linarith
    have e4 : 0 ≤ (i : ℚ) * δ := by positivity
    rw [h2]; linarith
  · rintro ⟨i, h1, h2⟩ ha
    have e1 : (a - tr.start) / δ ≤ ((i : ℤ) : ℚ) := by
      rw [div_le_iff₀ hδ]; push_cast; linarith
    have e2 : d ≤ i := hle e1
    refine ⟨i - d.toNat, by rw [← h1]; congr 1; omega, ?_⟩
    rw [h2, Nat.cast_sub (by omega)]; ring

/-- What right trimming keeps: a prefix. -/
theorem rtrim_eq (δ b : ℚ) (tr : Trace V) :
    ∃ n : ℕ, tr.rtrim δ b = ⟨tr.start, tr.vals.take n⟩ := by
  unfold Trace.rtrim
  simp only
  split
  · exact ⟨tr.vals.length, by simp⟩
  · split
    · exact ⟨0, by simp⟩
    · exact ⟨_, rfl⟩

theorem mem_rtrim {δ b : ℚ} (hδ : 0 < δ) {tr : Trace V} {p : ℚ × V} :
    (p ∈ (tr.rtrim δ b).samples δ → p ∈ tr.samples δ ∧ p.1 ≤ b + δ / 2) ∧
    (p ∈ tr.samples δ → p.1 ≤ b → p ∈ (tr.rtrim δ b).samples δ) := by
  have hle := roundAway_le ((b - tr.start) / δ)
  have hge : ∀ {n : ℤ}, (n : ℚ) ≤ (b - tr.start) / δ → n ≤ roundAway ((b - tr.start) / δ) :=
    fun h => int_le_roundAway h
  have hidx : ∀ i : ℕ, (i : ℤ) ≤ roundAway ((b - tr.start) / δ) →
      tr.start + (i : ℚ) * δ ≤ b + δ / 2 := by
    intro i hi
    have e1 : (i : ℚ) ≤ (b - tr.start) / δ + 1 / 2 := by
      have : (i : ℚ) ≤ (roundAway ((b - tr.start) / δ) : ℚ) := by exact_mod_cast hi
      linarith
    have := mul_le_mul_of_nonneg_right e1 hδ.le
    have e3 : ((b - tr.start) / δ + 1 / 2) * δ = b - tr.start + δ / 2 := by field_simp
    linarith
  unfold Trace.rtrim
  simp only
  split
  · next h =>
    refine ⟨fun hp => ⟨hp, ?_⟩, fun hp _ => hp⟩
    obtain ⟨i, h1, h2⟩ := mem_samples_iff.mp hp
    obtain ⟨hi, -⟩ := List.getElem?_eq_some_iff.mp h1
    rw [h2]; exact hidx i (by omega)
  · next h =>
    split
    · next hb =>
      refine ⟨fun hp => ?_, fun hp hpb => ?_⟩
      · simp [Trace.samples] at hp
      · obtain ⟨i, h1, h2⟩ := mem_samples_iff.mp hp
        have : 0 ≤ (i : ℚ) * δ := by positivity
        exfalso; linarith
    · next hb =>
      constructor
      · intro hp
        obtain ⟨i, h1, h2⟩ := mem_samples_iff.mp hp
        simp only [List.getElem?_take] at h1
        split at h1
        · next hi =>
          refine ⟨mem_samples_iff.mpr ⟨i, h1, h2⟩, ?_⟩
          rw [h2]; exact hidx i (by omega)
        · simp at h1
      · intro hp hpb
        obtain ⟨i, h1, h2⟩ := mem_samples_iff.mp hp
        refine mem_samples_iff.mpr ⟨i, ?_, h2⟩
        simp only [List.getElem?_take]
        have : ((i : ℤ) : ℚ) ≤ (b - tr.start) / δ := by
          rw [le_div_iff₀ hδ]; push_cast; linarith
        have := hge this
        rw [if_pos (by omega)]; exact h1

/-- Trimming to a window: nothing inside is lost, nothing kept is more than half a sample
outside. -/
theorem mem_slice {δ a b : ℚ} (hδ : 0 < δ) {tr : Trace V} {p : ℚ × V} :
    (p ∈ (tr.slice δ a b).samples δ →
      p ∈ tr.samples δ ∧ a - δ / 2 ≤ p.1 ∧ p.1 ≤ b + δ / 2) ∧
    (p ∈ tr.samples δ → a ≤ p.1 → p.1 ≤ b → p ∈ (tr.slice δ a b).samples δ) := by
  unfold Trace.slice
  constructor
  · intro h
    obtain ⟨h1, h2⟩ := (mem_rtrim hδ).1 h
    obtain ⟨h3, h4⟩ := (mem_ltrim hδ).1 h1
    exact ⟨h3, h4, h2⟩
  · intro h h1 h2
    exact (mem_rtrim hδ).2 ((mem_ltrim hδ).2 h h1) h2

/-- A trimmed trace starts a whole number of samples later, and no longer. -/
theorem slice_shape (δ a b : ℚ) (tr : Trace V) :
    ∃ n m : ℕ, tr.slice δ a b = ⟨tr.start + (n : ℚ) * δ, (tr.vals.drop n).take m⟩ := by
  unfold Trace.slice
  rw [ltrim_eq]
  obtain ⟨m, hm⟩ := rtrim_eq δ b
    (⟨tr.start + ((roundAway ((a - tr.start) / δ)).toNat : ℚ) * δ,
      tr.vals.drop (roundAway ((a - tr.start) / δ)).toNat⟩ : Trace V)
  exact ⟨_, m, hm⟩

/-! ## Merging -/

variable [DecidableEq V]

/-- What a successful join amounts to. -/
theorem join_some {δ : ℚ} {cur tr t : Trace V} (h : join δ cur tr = some t) :
    ∃ k : ℕ, cur.start + (k : ℚ) * δ = tr.start ∧ k ≤ cur.vals.length ∧
      (∀ i v w, cur.vals[k + i]? = some v → tr.vals[i]? = some w → v = w) ∧
      t = ⟨cur.start, cur.vals ++ tr.vals.drop (cur.vals.length - k)⟩ := by
  unfold join at h
  simp only at h
  generalize ⌊(tr.start - cur.start) / δ⌋ = z at h
  split at h
  · simp at h
  next h1 =>
  split at h
  · simp at h
  next h2 =>
  split at h
  · simp at h
  next h3 =>
  split at h
  · next h4 =>
    injection h with h
    obtain ⟨k, rfl⟩ := Int.eq_ofNat_of_zero_le (by omega : 0 ≤ z)
    simp only [Int.toNat_natCast] at h h4
    refine ⟨k, ?_, by omega, ?_, h.symm⟩
    · push Not at h1; exact_mod_cast h1
    · intro i v w hv hw
      rw [List.all_eq_true] at h4
      have hmem : (v, w) ∈ (cur.vals.drop k).zip tr.vals := by
        apply List.mem_of_getElem? (i := i)
        rw [List.getElem?_zip_eq_some]
        exact ⟨by rw [List.getElem?_drop]; exact hv, hw⟩
      simpa using h4 _ hmem
  · simp at h

/-- A failed join of traces on one grid, the second not before the first and not in conflict, is
a gap. -/
theorem join_none {δ : ℚ} (hδ : 0 < δ) {cur tr : Trace V} (h : join δ cur tr = none) (k : ℕ)
    (hk : cur.start + (k : ℚ) * δ = tr.start)
    (hag : ∀ i v w, cur.vals[k + i]? = some v → tr.vals[i]? = some w → v = w) :
    cur.vals.length < k := by
  unfold join at h
  have hz : ⌊(tr.start - cur.start) / δ⌋ = (k : ℤ) := by
    rw [← hk, add_sub_cancel_left, mul_div_cancel_right₀ _ hδ.ne']
    exact Int.floor_natCast k
  simp only [hz, Int.cast_natCast, hk, ne_eq, not_true_eq_false, if_false, Int.toNat_natCast] at h
  rw [if_neg (by omega)] at h
  by_contra hc
  rw [if_neg (by omega), if_pos] at h
  · simp at h
  · rw [List.all_eq_true]
    rintro ⟨v, w⟩ hm
    obtain ⟨i, hi⟩ := List.mem_iff_getElem?.mp hm
    rw [List.getElem?_zip_eq_some, List.getElem?_drop] at hi
    simpa using hag i v w hi.1 hi.2

theorem mem_join {δ : ℚ} (hδ : 0 < δ) {cur tr t : Trace V} (h : join δ cur tr = some t)
    {p : ℚ × V} : p ∈ t.samples δ ↔ p ∈ cur.samples δ ∨ p ∈ tr.samples δ := by
  obtain ⟨k, hk, hkl, hag, rfl⟩ := join_some h
  simp only [mem_samples_iff]
  constructor
  · rintro ⟨i, h1, h2⟩
    rw [List.getElem?_append] at h1
    split at h1
    · exact Or.inl ⟨i, h1, h2⟩
    · next hi =>
      rw [List.getElem?_drop] at h1
      refine Or.inr ⟨i - k, by rw [← h1]; congr 1; omega, ?_⟩
      rw [h2, ← hk, Nat.cast_sub (by omega)]; ring
  · rintro (⟨i, h1, h2⟩ | ⟨i, h1, h2⟩)
    · obtain ⟨hi, -⟩ := List.getElem?_eq_some_iff.mp h1
      exact ⟨i, by rw [List.getElem?_append_left hi]; exact h1, h2⟩
    · refine ⟨k + i, ?_, by rw [h2, ← hk]; push_cast; ring⟩
      rw [List.getElem?_append]
      split
      · next hi =>
        obtain ⟨v, hv⟩ : ∃ v, cur.vals[k + i]? = some v := ⟨_, List.getElem?_eq_getElem hi⟩
        rw [hv, hag i v p.2 hv h1]
      · next hi =>
        rw [List.getElem?_drop, ← h1]; congr 1; omega

/-- Merging neither loses nor invents a sample. -/
theorem mem_cleanup {δ : ℚ} (hδ : 0 < δ) (l : List (Trace V)) (cur : Trace V) {p : ℚ × V} :
    (∃ t ∈ cleanup δ cur l, p ∈ t.samples δ) ↔
      p ∈ cur.samples δ ∨ ∃ t ∈ l, p ∈ t.samples δ := by
  induction l generalizing cur with
  | nil => simp [cleanup]
  | cons tr l ih =>
    unfold cleanup
    cases hj : join δ cur tr with
    | some t =>
      simp only [ih, mem_join hδ hj, List.mem_cons, exists_eq_or_imp]
      tauto
    | none =>
      simp only [List.mem_cons, exists_eq_or_imp, ih]

/-- Merging sorted traces on one grid that do not contradict each other leaves traces separated
by gaps. -/
theorem cleanup_separated {δ : ℚ} (hδ : 0 < δ) (l : List (Trace V)) (cur : Trace V)
    (hne : ∀ t ∈ cur :: l, t.vals ≠ [])
    (hal : ∀ t ∈ l, ∃ k : ℤ, t.start = cur.start + (k : ℚ) * δ)
    (hs : (cur :: l).Pairwise (fun a b : Trace V => a.start ≤ b.start))
    (hc : ∀ t ∈ cur :: l, ∀ t' ∈ cur :: l, ∀ (x : ℚ) (v w : V), (x, v) ∈ t.samples δ →
      (x, w) ∈ t'.samples δ → v = w) :
    (cleanup δ cur l).Pairwise (fun a b : Trace V => a.stop δ + δ < b.start) ∧
    ∀ t ∈ cleanup δ cur l, cur.start ≤ t.start ∧ t.vals ≠ [] ∧
      ∃ k : ℤ, t.start = cur.start + (k : ℚ) * δ := by
  induction l generalizing cur with
  | nil =>
    simp only [cleanup, List.pairwise_singleton, true_and]
    intro t ht
    obtain rfl : t = cur := by simpa using ht
    exact ⟨le_refl _, hne t (by simp), 0, by simp⟩
  | cons tr l ih =>
    obtain ⟨hs1, hs2⟩ := List.pairwise_cons.mp hs
    obtain ⟨hs3, -⟩ := List.pairwise_cons.mp hs2
    have hle : cur.start ≤ tr.start := hs1 tr (by simp)
    unfold cleanup
    cases hj : join δ cur tr with
    | some t =>
      have hst : t.start = cur.start := by
        obtain ⟨k, -, -, -, rfl⟩ := join_some hj; rfl
      have hmem := fun p => @mem_join V _ δ hδ cur tr t hj p
      have hsub : ∀ s ∈ t :: l, ∀ p, p ∈ s.samples δ → ∃ u ∈ cur :: tr :: l, p ∈ u.samples δ := by
        intro s hs p hp
        rcases List.mem_cons.mp hs with rfl | h
        · rcases (hmem p).mp hp with h | h
          · exact ⟨cur, by simp, h⟩
          · exact ⟨tr, by simp, h⟩
        · exact ⟨s, by simp [h], hp⟩
      have := ih t ?_ ?_ ?_ ?_
      · refine ⟨this.1, fun s hs => ?_⟩
        have h := this.2 s hs
        rw [hst] at h; exact h
      · intro s hs
        rcases List.mem_cons.mp hs with rfl | h
        · obtain ⟨k, -, -, -, rfl⟩ := join_some hj
          have := hne cur (by simp)
          simp [this]
        · exact hne s (by simp [h])
      · intro s hs
        obtain ⟨k, hk⟩ := hal s (by simp [hs])
        exact ⟨k, by rw [hst, hk]⟩
      · refine List.pairwise_cons.mpr ⟨fun s hs => ?_, (List.pairwise_cons.mp hs2).2⟩
        rw [hst]; exact hs1 s (by simp [hs])
      · intro s hs s' hs' x v w h1 h2
        obtain ⟨u, hu, hu2⟩ := hsub s hs _ h1
        obtain ⟨u', hu', hu2'⟩ := hsub s' hs' _ h2
        exact hc u hu u' hu' x v w hu2 hu2'
    | none =>
      obtain ⟨z, hz⟩ := hal tr (by simp)
      have hz0 : 0 ≤ z := by
        by_contra hneg
        have : (z : ℚ) ≤ -1 := by exact_mod_cast (by omega : z ≤ -1)
        have : (z : ℚ) * δ ≤ -1 * δ := mul_le_mul_of_nonneg_right this hδ.le
        rw [hz] at hle; linarith
      obtain ⟨k, rfl⟩ := Int.eq_ofNat_of_zero_le hz0
      have hz' : cur.start + (k : ℚ) * δ = tr.start := by rw [hz]; push_cast; ring
      have hgap := join_none hδ hj k hz' (by
        intro i v w hv hw
        refine hc cur (by simp) tr (by simp) (tr.start + (i : ℚ) * δ) v w ?_ ?_
        · exact mem_samples_iff.mpr ⟨k + i, hv, by simp only [← hz']; push_cast; ring⟩
        · exact mem_samples_iff.mpr ⟨i, hw, rfl⟩)
      have hlt : cur.stop δ + δ < tr.start := by
        have h1 : (cur.vals.length : ℚ) < k := by exact_mod_cast hgap
        have h2 := mul_lt_mul_of_pos_right h1 hδ
        unfold Trace.stop
        rw [← hz']; linarith
      have := ih tr (fun t ht => hne t (by simp [List.mem_cons.mp ht])) ?_ hs2 ?_
      · constructor
        · refine List.pairwise_cons.mpr ⟨fun s hs => ?_, this.1⟩
          exact lt_of_lt_of_le hlt (this.2 s hs).1
        · intro s hs
          rcases List.mem_cons.mp hs with rfl | h
          · exact ⟨le_refl _, hne s (by simp), 0, by simp⟩
          · obtain ⟨h1, h2, j, h3⟩ := this.2 s h
            refine ⟨le_trans hle h1, h2, (k : ℤ) + j, ?_⟩
            rw [h3, ← hz']; push_cast; ring
      · intro s hs
        obtain ⟨j, hj⟩ := hal s (by simp [hs])
        refine ⟨j - k, ?_⟩
        rw [hj, ← hz']; push_cast; ring
      · intro t ht t' ht'
        exact hc t (by simp [List.mem_cons.mp ht]) t' (by simp [List.mem_cons.mp ht'])

/-! ## Channels -/

theorem before_trans (a b c : Rec V) (h : before a b) (h' : before b c) : before a c := by
  unfold before at *
  rcases h with h | ⟨h, h2⟩ <;> rcases h' with h' | ⟨h', h2'⟩
  · exact Or.inl (h.trans h')
  · exact Or.inl (by rw [← h']; exact h)
  · exact Or.inl (by rw [h]; exact h')
  · exact Or.inr ⟨h.trans h', h2.trans h2'⟩

theorem before_total (a b : Rec V) : before a b ∨ before b a := by
  unfold before
  rcases lt_trichotomy a.tr.start b.tr.start with h | h | h
  · exact Or.inl (Or.inl h)
  · rcases le_total a.stop b.stop with h2 | h2
    · exact Or.inl (Or.inr ⟨h, h2⟩)
    · exact Or.inr (Or.inr ⟨h.symm, h2⟩)
  · exact Or.inr (Or.inl h)

theorem full_iff (r : Rec V) : r.full = true ↔ r.tr.vals ≠ [] := by
  simp [Rec.full, List.isEmpty_iff]

theorem sorted_full (l : List (Rec V)) :
    ((l.filter Rec.full).insertionSort before).Pairwise
      (fun a b : Rec V => a.tr.start ≤ b.tr.start) := by
  haveI : Std.Total (before (V := V)) := ⟨before_total⟩
  haveI : IsTrans (Rec V) before := ⟨before_trans⟩
  have := List.pairwise_insertionSort before (l.filter Rec.full)
  refine this.imp ?_
  intro a b h
  rcases h with h | ⟨h, -⟩
  · exact h.le
  · exact h.le

theorem mem_sorted_full (l : List (Rec V)) (r : Rec V) :
    r ∈ (l.filter Rec.full).insertionSort before ↔ r ∈ l ∧ r.tr.vals ≠ [] := by
  rw [(List.perm_insertionSort before _).mem_iff, List.mem_filter, full_iff]

/-- Records of one channel and one rate: what merging gives. -/
theorem mergeChannel_spec {i : Str} {ρ : ℚ} (hρ : 0 < ρ) (l : List (Rec V))
    (hid : ∀ r ∈ l, r.id = i) (hrate : ∀ r ∈ l, r.rate = ρ) :
    ∃ m, mergeChannel l = some m ∧ (∀ r ∈ m, r.id = i ∧ r.rate = ρ) ∧
      (∀ p : ℚ × V, (∃ r ∈ m, p ∈ r.samples) ↔ ∃ r ∈ l, p ∈ r.samples) ∧
      ((∀ r ∈ l, ∃ k : ℤ, r.tr.start = (k : ℚ) * (1 / ρ)) →
        (∀ r ∈ l, ∀ r' ∈ l, ∀ (x : ℚ) (v w : V), (x, v) ∈ r.samples → (x, w) ∈ r'.samples → v = w) →
        m.Pairwise (fun a b : Rec V => a.stop + 1 / ρ < b.tr.start) ∧
        ∀ r ∈ m, r.tr.vals ≠ [] ∧ ∃ k : ℤ, r.tr.start = (k : ℚ) * (1 / ρ)) := by
  have hδ : 0 < 1 / ρ := by positivity
  have hsam : ∀ r : Rec V, r.rate = ρ → r.samples = r.tr.samples (1 / ρ) := by
    intro r hr; unfold Rec.samples Rec.delta; rw [hr]
  have hsorted := sorted_full l
  have hmemS := mem_sorted_full l
  unfold mergeChannel
  generalize (l.filter Rec.full).insertionSort before = S at hsorted hmemS
  cases S with
  | nil =>
    refine ⟨[], rfl, by simp, ?_, by simp⟩
    intro p
    simp only [List.not_mem_nil, false_and, exists_false, false_iff]
    rintro ⟨r, hr, hp⟩
    have : r.tr.vals = [] := by
      by_contra hne
      exact (List.not_mem_nil (a := r)) ((hmemS r).mpr ⟨hr, hne⟩)
    rw [hsam r (hrate r hr), mem_samples_iff] at hp
    obtain ⟨j, hj, -⟩ := hp
    rw [this] at hj; simp at hj
  | cons r rs =>
    have hin : ∀ s ∈ r :: rs, s ∈ l := fun s hs => ((hmemS s).mp hs).1
    have hrr : r.rate = ρ := hrate r (hin r (by simp))
    have hdelta : r.delta = 1 / ρ := by unfold Rec.delta; rw [hrr]
    have hrs : ∀ s ∈ rs, s.rate = ρ := fun s hs => hrate s (hin s (by simp [hs]))
    have hall : rs.all (fun s : Rec V => decide (s.rate = r.rate)) = true := by
      rw [List.all_eq_true]; intro s hs; simp [hrs s hs, hrr]
    simp only [hall, if_true]
    refine ⟨_, rfl, ?_, ?_, ?_⟩
    · intro s hs
      obtain ⟨t, -, rfl⟩ := List.mem_map.mp hs
      exact ⟨hid r (hin r (by simp)), hrr⟩
    · intro p
      rw [hdelta]
      have h1 : (∃ s ∈ (cleanup (1 / ρ) r.tr (rs.map Rec.tr)).map
          (fun t => ({ r with tr := t } : Rec V)), p ∈ s.samples) ↔
          ∃ t ∈ cleanup (1 / ρ) r.tr (rs.map Rec.tr), p ∈ t.samples (1 / ρ) := by
        constructor
        · rintro ⟨s, hs, hp⟩
          obtain ⟨t, ht, rfl⟩ := List.mem_map.mp hs
          refine ⟨t, ht, ?_⟩
          rw [hsam _ (by exact hrr)] at hp; exact hp
        · rintro ⟨t, ht, hp⟩
          refine ⟨_, List.mem_map.mpr ⟨t, ht, rfl⟩, ?_⟩
          rw [hsam _ (by exact hrr)]; exact hp
      rw [h1, mem_cleanup hδ]
      constructor
      · rintro (h | ⟨t, ht, h⟩)
        · exact ⟨r, hin r (by simp), by rw [hsam r hrr]; exact h⟩
        · obtain ⟨s, hs, rfl⟩ := List.mem_map.mp ht
          exact ⟨s, hin s (by simp [hs]), by rw [hsam s (hrs s hs)]; exact h⟩
      · rintro ⟨s, hs, h⟩
        have hne : s.tr.vals ≠ [] := by
          intro hnil
          rw [hsam s (hrate s hs), mem_samples_iff] at h
          obtain ⟨j, hj, -⟩ := h
          rw [hnil] at hj; simp at hj
        rcases List.mem_cons.mp ((hmemS s).mpr ⟨hs, hne⟩) with rfl | hs'
        · left; rw [hsam s hrr] at h; exact h
        · right
          refine ⟨s.tr, List.mem_map.mpr ⟨s, hs', rfl⟩, ?_⟩
          rw [hsam s (hrs s hs')] at h; exact h
    · intro hgrid hcf
      rw [hdelta]
      have hrateall : ∀ s ∈ r :: rs, s.rate = ρ := fun s hs => hrate s (hin s hs)
      obtain ⟨k0, hk0⟩ := hgrid r (hin r (by simp))
      have hcs := cleanup_separated hδ (rs.map Rec.tr) r.tr ?_ ?_ ?_ ?_
      · constructor
        · rw [List.pairwise_map]
          refine hcs.1.imp ?_
          intro a b hab
          unfold Rec.stop Rec.delta
          simp only [hrr]; exact hab
        · intro s hs
          obtain ⟨t, ht, rfl⟩ := List.mem_map.mp hs
          obtain ⟨-, h2, k, h3⟩ := hcs.2 t ht
          exact ⟨h2, k0 + k, by simp only [h3, hk0]; push_cast; ring⟩
      · intro t ht
        rw [← List.map_cons (f := Rec.tr)] at ht
        obtain ⟨s, hs, rfl⟩ := List.mem_map.mp ht
        exact ((hmemS s).mp hs).2
      · intro t ht
        obtain ⟨s, hs, rfl⟩ := List.mem_map.mp ht
        obtain ⟨k, hk⟩ := hgrid s (hin s (by simp [hs]))
        exact ⟨k - k0, by rw [hk, hk0]; push_cast; ring⟩
      · rw [← List.map_cons (f := Rec.tr), List.pairwise_map]
        exact hsorted
      · intro t ht t' ht' x v w h1 h2
        rw [← List.map_cons (f := Rec.tr)] at ht ht'
        obtain ⟨s, hs, rfl⟩ := List.mem_map.mp ht
        obtain ⟨s', hs', rfl⟩ := List.mem_map.mp ht'
        refine hcf s (hin s hs) s' (hin s' hs') x v w ?_ ?_
        · rw [hsam s (hrateall s hs)]; exact h1
        · rw [hsam s' (hrateall s' hs')]; exact h2

/-- Merging keeps the identifier. -/
theorem mergeChannel_id {i : Str} (l : List (Rec V)) (hid : ∀ r ∈ l, r.id = i) :
    ∀ r ∈ (mergeChannel l).getD [], r.id = i := by
  have hmemS := mem_sorted_full l
  unfold mergeChannel
  generalize (l.filter Rec.full).insertionSort before = S at hmemS
  cases S with
  | nil => simp
  | cons r rs =>
    intro s hs
    simp only at hs
    split at hs
    · simp only [Option.getD_some] at hs
      obtain ⟨t, -, rfl⟩ := List.mem_map.mp hs
      exact hid r ((hmemS r).mp (by simp)).1
    · simp at hs

theorem cleanup_nonempty {δ : ℚ} (l : List (Trace V)) (cur : Trace V)
    (hne : ∀ t ∈ cur :: l, t.vals ≠ []) : ∀ t ∈ cleanup δ cur l, t.vals ≠ [] := by
  induction l generalizing cur with
  | nil =>
    intro t ht
    obtain rfl : t = cur := by simpa [cleanup] using ht
    exact hne t (by simp)
  | cons tr l ih =>
    intro t ht
    unfold cleanup at ht
    cases hj : join δ cur tr with
    | some u =>
      rw [hj] at ht
      refine ih u ?_ t ht
      intro s hs
      rcases List.mem_cons.mp hs with rfl | h
      · obtain ⟨k, -, -, -, rfl⟩ := join_some hj
        have := hne cur (by simp)
        simp [this]
      · exact hne s (by simp [h])
    | none =>
      rw [hj] at ht
      rcases List.mem_cons.mp ht with rfl | h
      · exact hne t (by simp)
      · exact ih tr (fun s hs => hne s (by simp [List.mem_cons.mp hs])) t h

/-- Merging gives no empty records. -/
theorem mergeChannel_nonempty (l : List (Rec V)) :
    ∀ r ∈ (mergeChannel l).getD [], r.tr.vals ≠ [] := by
  have hmemS := mem_sorted_full l
  unfold mergeChannel
  generalize (l.filter Rec.full).insertionSort before = S at hmemS
  cases S with
  | nil => simp
  | cons r rs =>
    intro s hs
    simp only at hs
    split at hs
    · simp only [Option.getD_some] at hs
      obtain ⟨t, ht, rfl⟩ := List.mem_map.mp hs
      refine cleanup_nonempty _ _ ?_ t ht
      intro u hu
      rw [← List.map_cons (f := Rec.tr)] at hu
      obtain ⟨w, hw, rfl⟩ := List.mem_map.mp hu
      exact ((hmemS w).mp hw).2
    · simp at hs

theorem filter_flatMap {α β : Type} (l : List α) (f : α → List β) (P : β → Bool) :
    (l.flatMap f).filter P = l.flatMap fun a => (f a).filter P := by
  induction l with
  | nil => rfl
  | cons a l ih => simp [ih]

theorem flatMap_single {α β : Type} [DecidableEq α] (l : List α) (hl : l.Nodup) (i : α)
    (f : α → List β) (hf : ∀ a, a ≠ i → f a = []) :
    l.flatMap f = if i ∈ l then f i else [] := by
  induction l with
  | nil => simp
  | cons a l ih =>
    obtain ⟨h1, h2⟩ := List.nodup_cons.mp hl
    rw [List.flatMap_cons, ih h2]
    by_cases ha : a = i
    · subst ha; simp [h1]
    · rw [hf a ha, List.nil_append]
      simp [List.mem_cons, Ne.symm ha]

/-- Iteration order of a Python set: every member once. -/
def SetOrder (order : List Str → List Str) : Prop :=
  ∀ l : List Str, (order l).Nodup ∧ ∀ i, i ∈ order l ↔ i ∈ l

/-- A channel of the merged stream depends only on the records of that channel. -/
theorem mergeStream_channel {order : List Str → List Str} (ho : SetOrder order)
    (st : List (Rec V)) (i : Str) :
    (mergeStream order st).filter (fun r : Rec V => decide (r.id = i)) =
      (mergeChannel (st.filter fun r : Rec V => decide (r.id = i))).getD [] := by
  unfold mergeStream
  have hid : ∀ j, ∀ r ∈ (mergeChannel (st.filter fun r : Rec V => decide (r.id = j))).getD [],
      r.id = j := by
    intro j
    apply mergeChannel_id
    intro r hr
    simpa using (List.mem_filter.mp hr).2
  rw [filter_flatMap, flatMap_single (order (st.map Rec.id)) (ho _).1 i]
  · split
    · rw [List.filter_eq_self]
      intro r hr; simpa using hid i r hr
    · next h =>
      rw [(ho _).2] at h
      have : st.filter (fun r : Rec V => decide (r.id = i)) = [] := by
        rw [List.filter_eq_nil_iff]
        intro r hr hri
        exact h (List.mem_map.mpr ⟨r, hr, by simpa using hri⟩)
      rw [this]; rfl
  · intro j hj
    rw [List.filter_eq_nil_iff]
    intro r hr hri
    exact hj ((hid j r hr).symm.trans (by simpa using hri))

end QM.Waveforms
