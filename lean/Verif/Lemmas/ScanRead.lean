import Verif.Lemmas.ScanMseed
import Mathlib.Data.List.Chain

namespace QM.ScanMseed
open QM

variable {V : Type}

/-- Filtering in two steps when everything in `p` comes before everything in `q`. -/
theorem filter_or_of_sorted {α : Type} (p q : α → Bool) (l : List α)
    (h : l.Pairwise (fun a b => ¬ (q a = true ∧ p b = true)))
    (hd : ∀ a, ¬ (p a = true ∧ q a = true)) :
    l.filter (fun a => p a || q a) = l.filter p ++ l.filter q := by
  induction l with
  | nil => rfl
  | cons a l ih =>
    rw [List.pairwise_cons] at h
    have ih' := ih h.2
    by_cases hq : q a = true
    · have hp : p a = false := by
        have := hd a; simp only [hq, and_true] at this; simpa using this
      have hno : l.filter p = [] := by
        rw [List.filter_eq_nil_iff]
        intro b hb hpb
        exact h.1 b hb ⟨hq, hpb⟩
      simp only [List.filter_cons, hp, hq, Bool.false_or, if_true, Bool.false_eq_true, if_false, ih', hno,
        List.nil_append]
    · have hq' : q a = false := by simpa using hq
      cases hp : p a <;>
        simp only [List.filter_cons, hp, hq', Bool.or_false, if_true, Bool.false_eq_true,
          if_false, ih', List.cons_append, Bool.or_self]

theorem flatten_day_filters {α : Type} (key : α → ℤ) (l : List α)
    (h : l.Pairwise (fun a b => key a ≤ key b)) (d0 : ℤ) (n : ℕ) :
    ((List.range n).map (fun i : ℕ => l.filter (fun a => decide (key a = d0 + i)))).flatten =
      l.filter (fun a => decide (d0 ≤ key a ∧ key a < d0 + n)) := by
  induction n with
  | zero =>
    symm
    simp only [List.range_zero, List.map_nil, List.flatten_nil]
    rw [List.filter_eq_nil_iff]
    intro a _
    simp
  | succ n ih =>
    rw [List.range_succ, List.map_append, List.flatten_append, ih]
    simp only [List.map_cons, List.map_nil, List.flatten_cons, List.flatten_nil, List.append_nil]
    rw [← filter_or_of_sorted]
    · apply List.filter_congr
      intro a _
      rw [Bool.eq_iff_iff, Bool.or_eq_true, decide_eq_true_eq, decide_eq_true_eq, decide_eq_true_eq]
      push_cast; omega
    · refine h.imp ?_
      intro a b hab hc
      rw [decide_eq_true_eq, decide_eq_true_eq] at hc
      omega
    · intro a hc
      rw [decide_eq_true_eq, decide_eq_true_eq] at hc
      omega

theorem samples_pairwise_lt {δ : ℚ} (hδ : 0 < δ) (tr : Trace V) :
    (tr.samples δ).Pairwise (fun p q => p.1 < q.1) := by
  unfold Trace.samples
  rw [List.pairwise_map, List.pairwise_iff_getElem]
  intro i j hi hj hij
  simp only [List.getElem_zipIdx, Nat.zero_add]
  have : (i : ℚ) < j := by exact_mod_cast hij
  have := mul_lt_mul_of_pos_right this hδ
  linarith

theorem firstSegment_cons_samples (δ t : ℚ) (v : List V) :
    firstSegment δ ((⟨t, v⟩ : Trace V).samples δ) = (⟨t, v⟩ : Trace V).samples δ := by
  induction v generalizing t with
  | nil => rfl
  | cons a v ih =>
    have h1 : (⟨t, a :: v⟩ : Trace V).samples δ = (t, a) :: (⟨t + δ, v⟩ : Trace V).samples δ := by
      have := samples_append δ t [a] v
      simpa [Trace.samples] using this
    rw [h1]
    cases v with
    | nil => rfl
    | cons b v =>
      have h2 : (⟨t + δ, b :: v⟩ : Trace V).samples δ =
          (t + δ, b) :: (⟨t + δ + δ, v⟩ : Trace V).samples δ := by
        have := samples_append δ (t + δ) [b] v
        simpa [Trace.samples] using this
      have h3 := ih (t + δ)
      rw [h2] at h3 ⊢
      rw [firstSegment, if_pos rfl, h3]

/-- `firstSegment` of a contiguous list is the list. -/
theorem firstSegment_eq_self (δ : ℚ) (l : List (ℚ × V))
    (h : l.IsChain (fun p q => q.1 = p.1 + δ)) : firstSegment δ l = l := by
  induction l with
  | nil => rfl
  | cons a l ih =>
    cases l with
    | nil => rfl
    | cons b l =>
      rw [List.isChain_cons_cons] at h
      rw [firstSegment, if_pos h.1, ih h.2]

/-- `firstSegment` stops at the first gap. -/
theorem firstSegment_gap (δ : ℚ) (l m : List (ℚ × V)) (p q : ℚ × V)
    (hl : (l ++ [p]).IsChain (fun p q => q.1 = p.1 + δ)) (hg : q.1 ≠ p.1 + δ) :
    firstSegment δ (l ++ p :: q :: m) = l ++ [p] := by
  induction l with
  | nil => rw [List.nil_append, List.nil_append, firstSegment, if_neg hg]
  | cons a l ih =>
    cases l with
    | nil =>
      simp only [List.cons_append, List.nil_append] at *
      rw [List.isChain_cons_cons] at hl
      rw [firstSegment, if_pos hl.1, ih hl.2]
    | cons b l =>
      simp only [List.cons_append] at *
      rw [List.isChain_cons_cons] at hl
      rw [firstSegment, if_pos hl.1, ih hl.2]

theorem slice_samples {N : ℕ} {δ : ℚ} (hN : 0 < N) (hδ : DAY = N * δ) (k a b : ℤ) (v : List V)
    (hab : a ≤ b) :
    ((⟨(k : ℚ) * δ, v⟩ : Trace V).slice δ ((a : ℚ) * δ) ((b : ℚ) * δ)).samples δ =
      ((⟨(k : ℚ) * δ, v⟩ : Trace V).samples δ).filter
        (fun p => decide ((a : ℚ) * δ ≤ p.1) && decide (p.1 ≤ (b : ℚ) * δ)) := by
  have hdp := delta_pos hN hδ
  have hP : ∀ i : ℤ, ((decide ((a : ℚ) * δ ≤ (i : ℚ) * δ) && decide ((i : ℚ) * δ ≤ (b : ℚ) * δ)) = true
      ↔ a ≤ i ∧ i ≤ b) := by
    intro i
    rw [Bool.and_eq_true, decide_eq_true_eq, decide_eq_true_eq, mul_le_mul_iff_left₀ hdp,
      mul_le_mul_iff_left₀ hdp]
    norm_cast
  have hnil : (∀ i : ℤ, k ≤ i → i < k + v.length → ¬ (a ≤ i ∧ i ≤ b)) →
      ((⟨(k : ℚ) * δ, v⟩ : Trace V).samples δ).filter
        (fun p => decide ((a : ℚ) * δ ≤ p.1) && decide (p.1 ≤ (b : ℚ) * δ)) = [] := by
    intro h
    rw [List.filter_eq_nil_iff]
    intro p hp
    obtain ⟨i, hi1, hi2, hi3⟩ := mem_samples hp
    rw [hi3, hP i]
    exact h i hi1 hi2
  unfold Trace.slice Trace.ltrim
  simp only [roundAway_idx hN hδ]
  split
  · -- window starts at or before the trace
    rename_i hak
    unfold Trace.rtrim
    simp only [roundAway_idx hN hδ]
    split
    · rename_i hbk
      symm
      rw [List.filter_eq_self]
      intro p hp
      obtain ⟨i, hi1, hi2, hi3⟩ := mem_samples hp
      rw [hi3, hP i]; omega
    · rename_i hbk
      split
      · rename_i hlt
        have : b < k := by
          have := (mul_lt_mul_iff_left₀ hdp).mp hlt
          exact_mod_cast this
        rw [hnil (by intro i; omega)]
        rfl
      · rename_i hlt
        have hkb : k ≤ b := by
          push Not at hlt
          have := (mul_le_mul_iff_left₀ hdp).mp hlt
          exact_mod_cast this
        have := samples_filter_range k k (b + 1) v le_rfl (by omega) (by omega)
          (fun t => decide ((a : ℚ) * δ ≤ t) && decide (t ≤ (b : ℚ) * δ))
          (by intro i hi1 hi2; rw [hP i]; omega)
        rw [this]
        congr 2
        rw [sub_self]
        simp only [Int.toNat_zero, List.drop_zero]
        congr 2; omega
  · rename_i hak
    have hst : (k : ℚ) * δ + ((a - k : ℤ) : ℚ) * δ = (a : ℚ) * δ := by push_cast; ring
    rw [hst]
    unfold Trace.rtrim
    simp only [roundAway_idx hN hδ, List.length_drop]
    by_cases hend : k + (v.length : ℤ) ≤ a
    · have hd : v.drop (a - k).toNat = [] := by
        apply List.drop_eq_nil_of_le; omega
      rw [if_pos (by omega), hd, hnil (by intro i; omega)]
      rfl
    · split
      · rename_i hbk
        have := samples_filter_range k a (k + v.length) v (by omega) (by omega) (by omega)
          (fun t => decide ((a : ℚ) * δ ≤ t) && decide (t ≤ (b : ℚ) * δ))
          (by intro i hi1 hi2; rw [hP i]; omega)
        rw [this]
        congr 2
        rw [List.take_of_length_le (by omega)]
      · rename_i hbk
        rw [if_neg]
        · have := samples_filter_range k a (b + 1) v (by omega) (by omega) (by omega)
            (fun t => decide ((a : ℚ) * δ ≤ t) && decide (t ≤ (b : ℚ) * δ))
            (by intro i hi1 hi2; rw [hP i]; omega)
          rw [this]
          congr 2
          rw [List.drop_take]
          congr 2; omega
        · push Not
          rw [mul_le_mul_iff_left₀ hdp]
          exact_mod_cast hab

/-- Everything `read_scanmseed` collects before the merge. -/
def collected (δ : ℚ) (files : Files V) (a b : ℚ) : List (ℚ × V) :=
  ((((List.range (dayOf b - dayOf a + 1).toNat).map (fun i : ℕ => dayOf a + (i : ℤ))).filterMap
    files).map (fun tr => (tr.slice δ a b).samples δ)).flatten

theorem readScanMseed_eq (δ : ℚ) (files : Files V) (s e pad : ℚ) :
    readScanMseed δ files s e pad =
      if collected δ files (s - pad) (e + pad) = [] then none
      else some (firstSegment δ (collected δ files (s - pad) (e + pad))) := by
  unfold readScanMseed collected dayOf
  have : ∀ dy : ℕ, ⌊(s - pad + (dy : ℚ) * DAY) / DAY⌋ = ⌊(s - pad) / DAY⌋ + dy := by
    intro dy
    rw [add_div, mul_div_cancel_right₀ _ (by unfold DAY; norm_num : DAY ≠ 0), Int.floor_add_natCast]
  simp only [this]

end QM.ScanMseed
