import Verif.Model.FindPeaks
import Verif.Spec.Amplitude
import Verif.Lemmas.Amplitude

namespace QM.FindPeaks
open QM.Spec QM.Amplitude

theorem ahead_spec (x : ℕ → ℚ) (imax i : ℕ) : ∀ f j, i < j → j ≤ imax → imax ≤ j + f →
    (∀ k, i ≤ k → k < j → x k = x i) →
    j ≤ ahead x imax i f j ∧ ahead x imax i f j ≤ imax ∧
    (∀ k, i ≤ k → k < ahead x imax i f j → x k = x i) ∧
    (ahead x imax i f j = imax ∨ x (ahead x imax i f j) ≠ x i) := by
  intro f
  induction f with
  | zero => intro j h1 h2 h3 h4; exact ⟨le_refl _, h2, h4, Or.inl (by simp only [ahead]; omega)⟩
  | succ f ih =>
    intro j h1 h2 h3 h4
    rw [ahead]
    split_ifs with h
    · obtain ⟨a, b, c, d⟩ := ih (j + 1) (by omega) (by omega) (by omega) (by
        intro k hk hk'
        rcases Nat.lt_succ_iff_lt_or_eq.1 hk' with hlt | rfl
        · exact h4 k hk hlt
        · exact h.2)
      exact ⟨by omega, b, c, d⟩
    · refine ⟨le_refl _, h2, h4, ?_⟩
      by_cases hj : j < imax
      · right; intro e; exact h ⟨hj, e⟩
      · left; omega

theorem _root_.QM.Spec.IsPeak.right_unique {x : ℕ → ℚ} {n l r r' : ℕ} (h : IsPeak x n l r) (h' : IsPeak x n l r') :
    r = r' := by
  rcases lt_trichotomy r r' with hlt | rfl | hlt
  · exact absurd (h'.flat (r + 1) (by have := h.le; omega) (by omega)) (ne_of_lt h.after)
  · rfl
  · exact absurd (h.flat (r' + 1) (by have := h'.le; omega) (by omega)) (ne_of_lt h'.after)

theorem maximaFrom_mem (x : ℕ → ℚ) (n : ℕ) : ∀ f i, 1 ≤ i → n ≤ i + f → ∀ p : ℕ × ℕ,
    p ∈ maximaFrom x (n - 1) f i ↔ i ≤ p.1 ∧ IsPeak x n p.1 p.2 := by
  intro f
  induction f with
  | zero =>
    intro i hi hn p
    simp only [maximaFrom, List.not_mem_nil, false_iff]
    rintro ⟨h1, h2⟩
    have := h2.lt; have := h2.le; omega
  | succ f ih =>
    intro i hi hn p
    rw [maximaFrom]
    split_ifs with h1 h2
    · obtain ⟨a1, a2, a3, a4⟩ := ahead_spec x (n - 1) i (n - 1) (i + 1) (by omega) (by omega) (by omega)
        (by intro k hk hk'; rw [show k = i by omega])
      simp only
      set a := ahead x (n - 1) i (n - 1) (i + 1)
      split_ifs with h3
      · have hpk : IsPeak x n i (a - 1) :=
          ⟨hi, by omega, by omega, h2, fun k hk hk' => a3 k hk (by omega),
            by rw [show a - 1 + 1 = a by omega]; exact h3⟩
        rw [List.mem_cons, ih (a + 1) (by omega) (by omega)]
        constructor
        · rintro (rfl | ⟨h, h'⟩)
          · exact ⟨le_refl _, hpk⟩
          · exact ⟨by omega, h'⟩
        · rintro ⟨h, h'⟩
          by_cases e : p.1 = i
          · left
            rw [e] at h'
            exact Prod.ext e (h'.right_unique hpk)
          · right
            refine ⟨?_, h'⟩
            by_contra hc
            have hb := h'.before
            by_cases ha : p.1 = a
            · rw [ha, a3 (a - 1) (by omega) (by omega)] at hb
              exact absurd hb (not_lt.2 h3.le)
            · rw [a3 p.1 (by omega) (by omega), a3 (p.1 - 1) (by omega) (by omega)] at hb
              exact lt_irrefl _ hb
      · rw [ih (i + 1) (by omega) (by omega)]
        constructor
        · rintro ⟨h, h'⟩; exact ⟨by omega, h'⟩
        · rintro ⟨h, h'⟩
          refine ⟨?_, h'⟩
          by_contra hc
          have e : p.1 = i := by omega
          rw [e] at h'
          rcases lt_trichotomy (p.2 + 1) a with hlt | he | hlt
          · exact absurd (a3 (p.2 + 1) (by have := h'.le; omega) hlt) (ne_of_lt h'.after)
          · exact h3 (he ▸ h'.after)
          · have e2 := h'.flat a (by omega) (by omega)
            rcases a4 with e3 | e3
            · have := h'.lt; omega
            · exact e3 e2
    · rw [ih (i + 1) (by omega) (by omega)]
      constructor
      · rintro ⟨h, h'⟩; exact ⟨by omega, h'⟩
      · rintro ⟨h, h'⟩
        refine ⟨?_, h'⟩
        by_contra hc
        have e : p.1 = i := by omega
        exact h2 (e ▸ h'.before)
    · simp only [List.not_mem_nil, false_iff]
      rintro ⟨h, h'⟩
      have := h'.lt; have := h'.le; omega

theorem maxima_mem (x : ℕ → ℚ) (n : ℕ) (p : ℕ × ℕ) : p ∈ maxima x n ↔ IsPeak x n p.1 p.2 := by
  unfold maxima
  rw [maximaFrom_mem x n n 1 (le_refl _) (by omega)]
  exact ⟨fun h => h.2, fun h => ⟨h.pos, h⟩⟩

theorem maximaFrom_sorted (x : ℕ → ℚ) (n : ℕ) : ∀ f i, 1 ≤ i → n ≤ i + f →
    (maximaFrom x (n - 1) f i).Pairwise fun p q => p.2 < q.1 := by
  intro f
  induction f with
  | zero => intro i hi hn; exact List.Pairwise.nil
  | succ f ih =>
    intro i hi hn
    rw [maximaFrom]
    split_ifs with h1 h2
    · simp only
      obtain ⟨a1, a2, a3, a4⟩ := ahead_spec x (n - 1) i (n - 1) (i + 1) (by omega) (by omega) (by omega)
        (by intro k hk hk'; rw [show k = i by omega])
      set a := ahead x (n - 1) i (n - 1) (i + 1)
      split_ifs with h3
      · refine List.pairwise_cons.2 ⟨?_, ih _ (by omega) (by omega)⟩
        intro q hq
        have := ((maximaFrom_mem x n f (a + 1) (by omega) (by omega) q).1 hq).1
        simp only
        omega
      · exact ih _ (by omega) (by omega)
    · exact ih _ (by omega) (by omega)
    · exact List.Pairwise.nil

theorem maxima_sorted (x : ℕ → ℚ) (n : ℕ) : ((maxima x n).map mid).Pairwise (· < ·) := by
  rw [List.pairwise_map]
  refine (maximaFrom_sorted x n n 1 (le_refl _) (by omega)).imp_of_mem ?_
  intro p q hp hq h
  have h1 := ((maxima_mem x n p).1 hp).le
  have h2 := ((maxima_mem x n q).1 hq).le
  unfold mid
  omega

theorem mid_bounds {x : ℕ → ℚ} {n l r : ℕ} (h : IsPeak x n l r) :
    l ≤ mid (l, r) ∧ mid (l, r) ≤ r := by
  have := h.le
  simp only [mid]
  omega

theorem mid_value {x : ℕ → ℚ} {n l r : ℕ} (h : IsPeak x n l r) : x (mid (l, r)) = x l :=
  h.flat _ (mid_bounds h).1 (mid_bounds h).2

/-- Samples that are the middle of a peak determine it. -/
theorem peak_unique {x : ℕ → ℚ} {n l r l' r' : ℕ} (h : IsPeak x n l r) (h' : IsPeak x n l' r')
    (hm : mid (l, r) = mid (l', r')) : l = l' ∧ r = r' := by
  have b := mid_bounds h
  have b' := mid_bounds h'
  have hv : x l = x l' := by rw [← mid_value h, ← mid_value h', hm]
  have hl : l = l' := by
    rcases lt_trichotomy l l' with hlt | e | hlt
    · have := h.flat (l' - 1) (by omega) (by omega)
      have h2 := h'.before
      rw [this, hv] at h2; exact absurd h2 (lt_irrefl _)
    · exact e
    · have := h'.flat (l - 1) (by omega) (by omega)
      have h2 := h.before
      rw [this, hv] at h2; exact absurd h2 (lt_irrefl _)
  subst hl
  exact ⟨rfl, h.right_unique h'⟩

/-- Two different peaks are apart: the later one begins after the earlier one. -/
theorem peaks_apart {x : ℕ → ℚ} {n l r l' r' : ℕ} (h : IsPeak x n l r) (h' : IsPeak x n l' r')
    (hm : mid (l, r) < mid (l', r')) : r + 1 < l' := by
  have b := mid_bounds h
  have b' := mid_bounds h'
  have hrl : r < l' := by
    by_contra hc
    have hl' : x l' = x l := by
      by_cases h1 : l ≤ l'
      · exact h.flat l' h1 (by omega)
      · rw [← h'.flat l (by omega) (by omega)]
    have hbef := h'.before
    rcases lt_trichotomy l l' with h1 | h1 | h1
    · rw [h.flat (l' - 1) (by omega) (by omega), hl'] at hbef; exact lt_irrefl _ hbef
    · subst h1
      have := h.right_unique h'; subst this; exact lt_irrefl _ hm
    · have hb := h.before
      rw [h'.flat (l - 1) (by omega) (by omega), hl'] at hb; exact lt_irrefl _ hb
  by_contra hc
  have e : l' = r + 1 := by omega
  have h1 := h.after
  have h2 := h'.before
  rw [e, Nat.add_sub_cancel, h.flat r h.le (le_refl _)] at h2
  exact absurd (lt_trans h1 h2) (lt_irrefl _)

/-- First sample of the minimum over an interval. -/
theorem exists_first_min (x : ℕ → ℚ) (a : ℕ) : ∀ k, ∃ j, a ≤ j ∧ j ≤ a + k ∧
    (∀ i, a ≤ i → i ≤ a + k → x j ≤ x i) ∧ ∀ i, a ≤ i → i < j → x j < x i := by
  intro k
  induction k with
  | zero =>
    exact ⟨a, le_refl _, le_refl _, fun i h1 h2 => by rw [show i = a by omega],
      fun i h1 h2 => by omega⟩
  | succ k ih =>
    obtain ⟨j, h1, h2, h3, h4⟩ := ih
    by_cases h : x (a + (k + 1)) < x j
    · refine ⟨a + (k + 1), by omega, le_refl _, ?_, ?_⟩
      · intro i hi hi'
        by_cases e : i = a + (k + 1)
        · rw [e]
        · exact h.le.trans (h3 i hi (by omega))
      · intro i hi hi'
        exact lt_of_lt_of_le h (h3 i hi (by omega))
    · refine ⟨j, h1, by omega, ?_, h4⟩
      intro i hi hi'
      by_cases e : i = a + (k + 1)
      · rw [e]; exact not_lt.1 h
      · exact h3 i hi (by omega)

/-- Last sample of the plateau that begins at `a`, up to `b`. -/
theorem exists_plateau (x : ℕ → ℚ) (a : ℕ) : ∀ k, ∃ r, a ≤ r ∧ r ≤ a + k ∧
    (∀ i, a ≤ i → i ≤ r → x i = x a) ∧ (r = a + k ∨ x (r + 1) ≠ x a) := by
  intro k
  induction k with
  | zero => exact ⟨a, le_refl _, le_refl _, fun i h1 h2 => by rw [show i = a by omega], Or.inl rfl⟩
  | succ k ih =>
    obtain ⟨r, h1, h2, h3, h4⟩ := ih
    by_cases e : r = a + k ∧ x (r + 1) = x a
    · refine ⟨r + 1, by omega, by omega, ?_, Or.inl (by omega)⟩
      intro i hi hi'
      by_cases e2 : i = r + 1
      · rw [e2]; exact e.2
      · exact h3 i hi (by omega)
    · refine ⟨r, h1, by omega, h3, Or.inr ?_⟩
      rcases h4 with h4 | h4
      · exact fun e3 => e ⟨h4, e3⟩
      · exact h4

/-- Between two peaks there is a trough, as deep as the lowest sample between them. -/
theorem trough_between {x : ℕ → ℚ} {n l r l' r' : ℕ} (h : IsPeak x n l r) (h' : IsPeak x n l' r')
    (hm : mid (l, r) < mid (l', r')) :
    ∃ a b, IsPeak (fun i => - x i) n a b ∧ r < a ∧ b < l' ∧
      ∀ i, l ≤ i → i ≤ r' → x a ≤ x i := by
  have hap := peaks_apart h h' hm
  obtain ⟨a, a1, a2, a3, a4⟩ := exists_first_min x (r + 1) (l' - 1 - (r + 1))
  obtain ⟨b, b1, b2, b3, b4⟩ := exists_plateau x a (l' - 1 - a)
  have hxr : x r = x l := h.flat r h.le (le_refl _)
  have hr1 := a3 (r + 1) (le_refl _) (by omega)
  have hl1 := a3 (l' - 1) (by omega) (by omega)
  have hbefore : x a < x (a - 1) := by
    by_cases e : a = r + 1
    · rw [e, Nat.add_sub_cancel, hxr]; exact h.after
    · exact a4 (a - 1) (by omega) (by omega)
  have hafter : x a < x (b + 1) := by
    by_cases e : b = l' - 1
    · rw [e, show l' - 1 + 1 = l' by omega]; exact lt_of_le_of_lt hl1 h'.before
    · refine lt_of_le_of_ne (a3 (b + 1) (by omega) (by omega)) ?_
      rcases b4 with b4 | b4
      · omega
      · exact fun e => b4 e.symm
  refine ⟨a, b, ⟨by omega, b1, ?_, by simpa using hbefore, ?_, by simpa using hafter⟩, by omega,
    by omega, ?_⟩
  · have := h'.lt; have := h'.le; omega
  · intro k hk hk'; simp only [b3 k hk hk']
  · intro i hi hi'
    by_cases c1 : i ≤ r
    · rw [h.flat i hi c1]; exact hr1.trans h.after.le
    · by_cases c2 : i < l'
      · exact a3 i (by omega) (by omega)
      · rw [h'.flat i (by omega) hi']; exact hl1.trans h'.before.le

/-! ### Prominence -/

theorem leftMin_le (x : ℕ → ℚ) (h : ℚ) : ∀ i m, leftMin x h i m ≤ m := by
  intro i
  induction i with
  | zero => intro m; rw [leftMin]; split_ifs with h1 h2 <;> [exact h2.le; exact le_refl _; exact le_refl _]
  | succ i ih =>
    intro m; rw [leftMin]
    split_ifs with h1 h2
    · exact (ih _).trans h2.le
    · exact ih _
    · exact le_refl _

theorem rightMin_le (x : ℕ → ℚ) (h : ℚ) : ∀ f i m, rightMin x h f i m ≤ m := by
  intro f
  induction f with
  | zero => intro i m; exact le_refl _
  | succ f ih =>
    intro i m; rw [rightMin]
    split_ifs with h1 h2
    · exact (ih _ _).trans h2.le
    · exact ih _ _
    · exact le_refl _

theorem prominence_nonneg (x : ℕ → ℚ) (n p : ℕ) : 0 ≤ prominence x n p := by
  have h1 := leftMin_le x (x p) p (x p)
  have h2 := rightMin_le x (x p) (n - p) p (x p)
  unfold prominence
  simp only
  split_ifs <;> linarith

/-- The search to the left reaches every sample up to which nothing is higher. -/
theorem leftMin_reach (x : ℕ → ℚ) (h : ℚ) (j : ℕ) : ∀ i m, j ≤ i → (∀ k, j ≤ k → k ≤ i → x k ≤ h) →
    leftMin x h i m ≤ x j := by
  intro i
  induction i with
  | zero =>
    intro m hj hk
    rw [show j = 0 by omega] at *
    rw [leftMin, if_pos (hk 0 (le_refl _) (le_refl _))]
    split_ifs with h1
    · exact le_refl _
    · exact not_lt.1 h1
  | succ i ih =>
    intro m hj hk
    rw [leftMin, if_pos (hk _ hj (le_refl _))]
    by_cases e : j = i + 1
    · rw [e]
      refine (leftMin_le _ _ _ _).trans ?_
      split_ifs with h1
      · exact le_refl _
      · exact not_lt.1 h1
    · exact ih _ (by omega) fun k hk1 hk2 => hk k hk1 (by omega)

theorem rightMin_reach (x : ℕ → ℚ) (h : ℚ) (j : ℕ) : ∀ f i m, i ≤ j → j < i + f →
    (∀ k, i ≤ k → k ≤ j → x k ≤ h) → rightMin x h f i m ≤ x j := by
  intro f
  induction f with
  | zero => intro i m h1 h2; omega
  | succ f ih =>
    intro i m h1 h2 hk
    rw [rightMin, if_pos (hk i (le_refl _) h1)]
    by_cases e : j = i
    · rw [e]
      refine (rightMin_le _ _ _ _ _).trans ?_
      split_ifs with h1
      · exact le_refl _
      · exact not_lt.1 h1
    · exact ih _ _ (by omega) (by omega) fun k hk1 hk2 => hk k (by omega) hk2

/-- What the search to the left finds is a bound on samples not yet separated by a higher one. -/
theorem leftMin_attained (x : ℕ → ℚ) (h : ℚ) : ∀ i m, leftMin x h i m = m ∨
    ∃ j ≤ i, leftMin x h i m = x j ∧ ∀ k, j ≤ k → k ≤ i → x k ≤ h := by
  intro i
  induction i with
  | zero =>
    intro m; rw [leftMin]
    split_ifs with h1 h2
    · exact Or.inr ⟨0, le_refl _, rfl, fun k _ hk => by rw [show k = 0 by omega]; exact h1⟩
    · exact Or.inl rfl
    · exact Or.inl rfl
  | succ i ih =>
    intro m; rw [leftMin]
    split_ifs with h1 h2
    · rcases ih (x (i + 1)) with e | ⟨j, hj, e, hk⟩
      · exact Or.inr ⟨i + 1, le_refl _, e, fun k k1 k2 => by rw [show k = i + 1 by omega]; exact h1⟩
      · refine Or.inr ⟨j, by omega, e, fun k k1 k2 => ?_⟩
        by_cases e2 : k = i + 1
        · rw [e2]; exact h1
        · exact hk k k1 (by omega)
    · rcases ih m with e | ⟨j, hj, e, hk⟩
      · exact Or.inl e
      · refine Or.inr ⟨j, by omega, e, fun k k1 k2 => ?_⟩
        by_cases e2 : k = i + 1
        · rw [e2]; exact h1
        · exact hk k k1 (by omega)
    · exact Or.inl rfl

theorem rightMin_attained (x : ℕ → ℚ) (h : ℚ) : ∀ f i m, rightMin x h f i m = m ∨
    ∃ j, i ≤ j ∧ j < i + f ∧ rightMin x h f i m = x j ∧ ∀ k, i ≤ k → k ≤ j → x k ≤ h := by
  intro f
  induction f with
  | zero => intro i m; exact Or.inl rfl
  | succ f ih =>
    intro i m; rw [rightMin]
    have step : ∀ m', x i ≤ h → (rightMin x h f (i + 1) m' = m' ∨
        ∃ j, i ≤ j ∧ j < i + (f + 1) ∧ rightMin x h f (i + 1) m' = x j ∧
          ∀ k, i ≤ k → k ≤ j → x k ≤ h) := by
      intro m' h1
      rcases ih (i + 1) m' with e | ⟨j, j1, j2, e, hk⟩
      · exact Or.inl e
      · refine Or.inr ⟨j, by omega, by omega, e, fun k k1 k2 => ?_⟩
        by_cases e2 : k = i
        · rw [e2]; exact h1
        · exact hk k (by omega) k2
    split_ifs with h1 h2
    · rcases step (x i) h1 with e | e
      · exact Or.inr ⟨i, le_refl _, by omega, e, fun k k1 k2 => by rw [show k = i by omega]; exact h1⟩
      · exact Or.inr e
    · exact step m h1
    · exact Or.inl rfl

/-- A peak of prominence at least `P > 0` has samples lower by `P` on both sides, not separated from
it by a higher one. -/
theorem prominence_sides {x : ℕ → ℚ} {n p : ℕ} {P : ℚ} (hP : 0 < P) (h : P ≤ prominence x n p) :
    (∃ j ≤ p, x j ≤ x p - P ∧ ∀ k, j ≤ k → k ≤ p → x k ≤ x p) ∧
    (∃ j, p ≤ j ∧ j < n ∧ x j ≤ x p - P ∧ ∀ k, p ≤ k → k ≤ j → x k ≤ x p) := by
  unfold prominence at h
  simp only at h
  have hl : leftMin x (x p) p (x p) ≤ x p - P := by split_ifs at h <;> linarith
  have hr : rightMin x (x p) (n - p) p (x p) ≤ x p - P := by
    split_ifs at h with h1
    · linarith
    · linarith [not_lt.1 h1]
  constructor
  · rcases leftMin_attained x (x p) p (x p) with e | ⟨j, hj, e, hk⟩
    · linarith
    · exact ⟨j, hj, by rw [← e]; exact hl, hk⟩
  · rcases rightMin_attained x (x p) (n - p) p (x p) with e | ⟨j, hj, hj', e, hk⟩
    · linarith
    · exact ⟨j, hj, by omega, by rw [← e]; exact hr, hk⟩

/-- A peak is at least as prominent as its height above a level, if on both sides there are samples
at or below that level, not separated from it by a higher sample. -/
theorem le_prominence {x : ℕ → ℚ} {n p : ℕ} {v : ℚ} (i j : ℕ) (hi : i ≤ p) (hj : p ≤ j) (hn : j < n)
    (hv : x i ≤ v) (hv' : x j ≤ v) (hk : ∀ k, i ≤ k → k ≤ j → x k ≤ x p) :
    x p - v ≤ prominence x n p := by
  have h1 := leftMin_reach x (x p) i p (x p) hi fun k k1 k2 => hk k k1 (by omega)
  have h2 := rightMin_reach x (x p) j (n - p) p (x p) hj (by omega) fun k k1 k2 => hk k (by omega) k2
  unfold prominence
  simp only
  split_ifs <;> linarith

/-! ### Alternation -/

theorem evens_cons (a : ℕ) (l : List ℕ) : evens (a :: l) = a :: odds l := by
  cases l <;> rfl

/-- Two increasing lists, each with an element of the other between any two of its own, take turns. -/
theorem alternate_aux : ∀ (N : ℕ) (P T : List ℕ), P.length + T.length = N →
    P.Pairwise (· < ·) → T.Pairwise (· < ·) →
    (∀ a ∈ P, ∀ b ∈ P, a < b → ∃ t ∈ T, a < t ∧ t < b) →
    (∀ a ∈ T, ∀ b ∈ T, a < b → ∃ t ∈ P, a < t ∧ t < b) →
    (P = [] → T = []) → (∀ p ∈ P.head?, ∀ t ∈ T, p < t) →
    ∃ E : List ℕ, E.Pairwise (· < ·) ∧ P = evens E ∧ T = odds E ∧ ∀ e ∈ E, e ∈ P ∨ e ∈ T := by
  intro N
  induction N with
  | zero =>
    intro P T hN _ _ _ _ _ _
    have h1 : P = [] := List.length_eq_zero_iff.1 (by omega)
    have h2 : T = [] := List.length_eq_zero_iff.1 (by omega)
    subst h1; subst h2
    exact ⟨[], List.Pairwise.nil, rfl, rfl, by simp⟩
  | succ N ih =>
    intro P T hN hP hT hPT hTP h0 hh
    cases P with
    | nil => rw [h0 rfl] at hN; simp at hN
    | cons p P =>
      obtain ⟨hp1, hp2⟩ := List.pairwise_cons.1 hP
      have hpt : ∀ t ∈ T, p < t := hh p (by simp)
      obtain ⟨E, e1, e2, e3, e4⟩ := ih T P (by simp only [List.length_cons] at hN; omega) hT hp2
        (by
          intro a ha b hb hab
          obtain ⟨t, ht, h1, h2⟩ := hTP a ha b hb hab
          rcases List.mem_cons.1 ht with rfl | ht
          · have := hpt a ha; omega
          · exact ⟨t, ht, h1, h2⟩)
        (by
          intro a ha b hb hab
          exact hPT a (List.mem_cons_of_mem _ ha) b (List.mem_cons_of_mem _ hb) hab)
        (by
          intro e
          by_contra hne
          obtain ⟨q, hq⟩ := List.exists_mem_of_ne_nil _ hne
          obtain ⟨t, ht, -⟩ := hPT p (by simp) q (List.mem_cons_of_mem _ hq) (hp1 q hq)
          rw [e] at ht; simp at ht)
        (by
          intro t ht q hq
          obtain ⟨t', ht', h1, h2⟩ := hPT p (by simp) q (List.mem_cons_of_mem _ hq) (hp1 q hq)
          cases T with
          | nil => simp at ht
          | cons s T =>
            simp only [List.head?_cons, Option.mem_def, Option.some.injEq] at ht
            subst ht
            rcases List.mem_cons.1 ht' with rfl | ht'
            · exact h2
            · exact ((List.pairwise_cons.1 hT).1 t' ht').trans h2)
      refine ⟨p :: E, List.pairwise_cons.2 ⟨?_, e1⟩, ?_, ?_, ?_⟩
      · intro e he
        rcases e4 e he with h | h
        · exact hpt e h
        · exact hp1 e h
      · rw [evens_cons, e3]
      · exact e2
      · intro e he
        rcases List.mem_cons.1 he with rfl | he
        · left; simp
        · rcases e4 e he with h | h
          · exact Or.inr h
          · exact Or.inl (List.mem_cons_of_mem _ h)

theorem alternate_of_between (P T : List ℕ) (hP : P.Pairwise (· < ·)) (hT : T.Pairwise (· < ·))
    (hd : ∀ a ∈ P, a ∉ T)
    (hPT : ∀ a ∈ P, ∀ b ∈ P, a < b → ∃ t ∈ T, a < t ∧ t < b)
    (hTP : ∀ a ∈ T, ∀ b ∈ T, a < b → ∃ t ∈ P, a < t ∧ t < b) : ∃ E, Alternate E P T ∧
      ∀ e, e ∈ E ↔ e ∈ P ∨ e ∈ T := by
  have hmem : ∀ (E : List ℕ), ∀ e, e ∈ evens E ∨ e ∈ odds E → e ∈ E := by
    intro E
    induction E with
    | nil => intro e h; simp [evens, odds] at h
    | cons a E ih =>
      intro e h
      rw [evens_cons, show odds (a :: E) = evens E from rfl, List.mem_cons] at h
      rw [List.mem_cons]
      rcases h with (h | h) | h
      · exact Or.inl h
      · exact Or.inr (ih e (Or.inr h))
      · exact Or.inr (ih e (Or.inl h))
  have fwd : ∀ P T : List ℕ, P.Pairwise (· < ·) → T.Pairwise (· < ·) →
      (∀ a ∈ P, ∀ b ∈ P, a < b → ∃ t ∈ T, a < t ∧ t < b) →
      (∀ a ∈ T, ∀ b ∈ T, a < b → ∃ t ∈ P, a < t ∧ t < b) →
      (P = [] → T = []) → (∀ p ∈ P.head?, ∀ t ∈ T, p < t) →
      ∃ E : List ℕ, E.Pairwise (· < ·) ∧ P = evens E ∧ T = odds E ∧ ∀ e, e ∈ E ↔ e ∈ P ∨ e ∈ T := by
    intro P T h1 h2 h3 h4 h5 h6
    obtain ⟨E, e1, e2, e3, e4⟩ := alternate_aux _ P T rfl h1 h2 h3 h4 h5 h6
    refine ⟨E, e1, e2, e3, fun e => ⟨e4 e, fun h => hmem E e ?_⟩⟩
    rw [← e2, ← e3]; exact h
  have head_lt : ∀ (L : List ℕ) (a : ℕ), L.Pairwise (· < ·) → a ∈ L → ∀ h ∈ L.head?, h ≤ a := by
    intro L a hL ha h hh
    cases L with
    | nil => simp at hh
    | cons b L =>
      simp only [List.head?_cons, Option.mem_def, Option.some.injEq] at hh
      subst hh
      rcases List.mem_cons.1 ha with rfl | ha
      · exact le_refl _
      · exact ((List.pairwise_cons.1 hL).1 a ha).le
  cases P with
  | nil =>
    obtain ⟨E, e1, e2, e3, e4⟩ := fwd T [] hT List.Pairwise.nil (by
        intro a ha b hb hab; obtain ⟨t, ht, -⟩ := hTP a ha b hb hab; simp at ht) (by simp) (by simp)
        (by simp)
    exact ⟨E, ⟨e1, Or.inr ⟨e2, e3⟩⟩, fun e => by rw [e4]; simp⟩
  | cons p P =>
    cases T with
    | nil =>
      obtain ⟨E, e1, e2, e3, e4⟩ := fwd (p :: P) [] hP List.Pairwise.nil hPT (by simp) (by simp)
        (by simp)
      exact ⟨E, ⟨e1, Or.inl ⟨e2, e3⟩⟩, e4⟩
    | cons t T =>
      have hne : p ≠ t := fun e => hd p (by simp) (by simp [e])
      rcases lt_or_gt_of_ne hne with hlt | hlt
      · obtain ⟨E, e1, e2, e3, e4⟩ := fwd (p :: P) (t :: T) hP hT hPT hTP (by simp) (by
          intro q hq s hs
          simp only [List.head?_cons, Option.mem_def, Option.some.injEq] at hq
          have := head_lt _ s hT hs t (by simp)
          omega)
        exact ⟨E, ⟨e1, Or.inl ⟨e2, e3⟩⟩, e4⟩
      · obtain ⟨E, e1, e2, e3, e4⟩ := fwd (t :: T) (p :: P) hT hP hTP hPT (by simp) (by
          intro q hq s hs
          simp only [List.head?_cons, Option.mem_def, Option.some.injEq] at hq
          have := head_lt _ s hP hs p (by simp)
          omega)
        exact ⟨E, ⟨e1, Or.inr ⟨e2, e3⟩⟩, fun e => by rw [e4]; tauto⟩

theorem findPeaks_mem (x : ℕ → ℚ) (n : ℕ) (P : ℚ) (p : ℕ) : p ∈ findPeaks x n P ↔
    (∃ l r, IsPeak x n l r ∧ p = mid (l, r)) ∧ P ≤ prominence x n p := by
  unfold findPeaks
  rw [List.mem_filter, List.mem_map]
  simp only [decide_eq_true_eq]
  constructor
  · rintro ⟨⟨q, hq, rfl⟩, h⟩
    exact ⟨⟨q.1, q.2, (maxima_mem x n q).1 hq, rfl⟩, h⟩
  · rintro ⟨⟨l, r, h1, rfl⟩, h⟩
    exact ⟨⟨(l, r), (maxima_mem x n (l, r)).2 h1, rfl⟩, h⟩

theorem findPeaks_sorted (x : ℕ → ℚ) (n : ℕ) (P : ℚ) : (findPeaks x n P).Pairwise (· < ·) :=
  (maxima_sorted x n).filter _

/-- Between two peaks found there is a trough found, unless the two are equally high (for a positive
limit on the prominence). -/
theorem found_between {x : ℕ → ℚ} {n : ℕ} {P : ℚ} {p q : ℕ} (hp : p ∈ findPeaks x n P)
    (hq : q ∈ findPeaks x n P) (hpq : p < q) (hne : P ≤ 0 ∨ x p ≠ x q) :
    ∃ t ∈ findPeaks (fun i => - x i) n P, p < t ∧ t < q ∧ x t < x p ∧ x t < x q := by
  obtain ⟨⟨l, r, h, rfl⟩, hP⟩ := (findPeaks_mem x n P p).1 hp
  obtain ⟨⟨l', r', h', rfl⟩, hQ⟩ := (findPeaks_mem x n P q).1 hq
  obtain ⟨a, b, hab, h1, h2, h3⟩ := trough_between h h' hpq
  have m := mid_bounds h
  have m' := mid_bounds h'
  have ma := mid_bounds hab
  have va : x (mid (a, b)) = x a := by have := mid_value hab; simpa using this
  have lt1 : x a < x l := lt_of_le_of_lt (h3 (r + 1) (by omega) (by omega)) h.after
  have lt2 : x a < x l' :=
    lt_of_le_of_lt (h3 (l' - 1) (by have := h.le; omega) (by have := h'.le; omega)) h'.before
  have v1 := mid_value h
  have v2 := mid_value h'
  refine ⟨mid (a, b), (findPeaks_mem _ n P _).2 ⟨⟨a, b, hab, rfl⟩, ?_⟩, by omega, by omega,
    by rw [va, v1]; exact lt1, by rw [va, v2]; exact lt2⟩
  by_cases hP0 : P ≤ 0
  · exact hP0.trans (prominence_nonneg _ _ _)
  · have hP0' : 0 < P := not_le.1 hP0
    have hne' : x (mid (l, r)) ≠ x (mid (l', r')) := hne.resolve_left hP0
    have hlow : ∀ i, mid (l, r) ≤ i → i ≤ mid (l', r') → x a ≤ x i :=
      fun i i1 i2 => h3 i (by omega) (by omega)
    have key : ∀ v : ℚ, v ≤ x (mid (l, r)) → v ≤ x (mid (l', r')) → x a ≤ v - P →
        P ≤ prominence (fun i => - x i) n (mid (a, b)) := by
      intro v hv1 hv2 hv3
      have := le_prominence (x := fun i => - x i) (n := n) (p := mid (a, b)) (v := -v)
        (mid (l, r)) (mid (l', r')) (by omega) (by omega) (by have := h'.lt; omega)
        (by simpa using hv1) (by simpa using hv2)
        (fun k k1 k2 => by simp only [neg_le_neg_iff, va]; exact hlow k k1 k2)
      simp only [va] at this
      linarith
    rcases lt_or_gt_of_ne hne' with hlt | hlt
    · obtain ⟨-, j, j1, j2, j3, j4⟩ := prominence_sides hP0' hP
      have hj : j < mid (l', r') := by
        by_contra hc
        exact absurd (j4 (mid (l', r')) (by omega) (by omega)) (not_le.2 hlt)
      exact key _ (le_refl _) hlt.le ((hlow j j1 hj.le).trans j3)
    · obtain ⟨⟨j, j1, j3, j4⟩, -⟩ := prominence_sides hP0' hQ
      have hj : mid (l, r) < j := by
        by_contra hc
        exact absurd (j4 (mid (l, r)) (by omega) (by omega)) (not_le.2 hlt)
      exact key _ hlt.le (le_refl _) ((hlow j hj.le j1).trans j3)

/-- A sample cannot belong to a peak and to a trough. -/
theorem not_peak_and_trough {x : ℕ → ℚ} {n : ℕ} {P Q : ℚ} {p : ℕ} (h : p ∈ findPeaks x n P) :
    p ∉ findPeaks (fun i => - x i) n Q := by
  intro h'
  obtain ⟨⟨l, r, hl, rfl⟩, -⟩ := (findPeaks_mem x n P p).1 h
  obtain ⟨⟨l', r', hl', hm⟩, -⟩ := (findPeaks_mem _ n Q _).1 h'
  have b := mid_bounds hl
  have b' := mid_bounds hl'
  rw [← hm] at b'
  have f1 : ∀ k, l ≤ k → k ≤ r → x k = x l := hl.flat
  have f2 : ∀ k, l' ≤ k → k ≤ r' → x k = x l' := fun k k1 k2 => by
    have := hl'.flat k k1 k2; simpa using this
  have e : x l = x l' := by
    rw [← f1 (mid (l, r)) b.1 b.2, f2 (mid (l, r)) b'.1 b'.2]
  have c1 := hl.before
  have c2 := hl'.before
  simp only [neg_lt_neg_iff] at c2
  have p1 := hl.pos
  have p2 := hl'.pos
  rcases lt_trichotomy l l' with hlt | he | hlt
  · rw [f1 (l' - 1) (by omega) (by omega), e] at c2; exact lt_irrefl _ c2
  · subst he; exact absurd (c1.trans c2) (lt_irrefl _)
  · rw [f2 (l - 1) (by omega) (by omega), e] at c1; exact lt_irrefl _ c1

/-- A peak followed by a sample as high has a trough in between, as deep as the lowest sample. -/
theorem trough_before_high {x : ℕ → ℚ} {n l r i : ℕ} (h : IsPeak x n l r) (hi : r < i) (hn : i < n)
    (hx : x l ≤ x i) :
    ∃ a b, IsPeak (fun i => - x i) n a b ∧ r < a ∧ b < i ∧ ∀ k, l ≤ k → k ≤ i → x a ≤ x k := by
  obtain ⟨a, a1, a2, a3, a4⟩ := exists_first_min x (r + 1) (i - (r + 1))
  obtain ⟨b, b1, b2, b3, b4⟩ := exists_plateau x a (i - a)
  have hxr : x r = x l := h.flat r h.le (le_refl _)
  have hr1 := a3 (r + 1) (le_refl _) (by omega)
  have hal : x a < x l := lt_of_le_of_lt hr1 h.after
  have hbi : b ≠ i := by
    rintro rfl
    have := b3 b b1 (le_refl _)
    linarith
  have hbefore : x a < x (a - 1) := by
    by_cases e : a = r + 1
    · rw [e, Nat.add_sub_cancel, hxr]; exact h.after
    · exact a4 (a - 1) (by omega) (by omega)
  have hafter : x a < x (b + 1) := by
    refine lt_of_le_of_ne (a3 (b + 1) (by omega) (by omega)) ?_
    rcases b4 with b4 | b4
    · omega
    · exact fun e => b4 e.symm
  refine ⟨a, b, ⟨by omega, b1, by omega, by simpa using hbefore, ?_, by simpa using hafter⟩, by omega,
    by omega, ?_⟩
  · intro k hk hk'; simp only [b3 k hk hk']
  · intro k hk hk'
    by_cases c1 : k ≤ r
    · rw [h.flat k hk c1]; exact hal.le
    · exact a3 k (by omega) (by omega)

/-- A peak and a trough after it that is not lower have another trough between them. -/
theorem found_between_level {x : ℕ → ℚ} {n : ℕ} {P : ℚ} {p t : ℕ} (hp : p ∈ findPeaks x n P)
    (ht : t ∈ findPeaks (fun i => - x i) n P) (hpt : p < t) (hx : x p ≤ x t) :
    ∃ s ∈ findPeaks (fun i => - x i) n P, p < s ∧ s < t := by
  obtain ⟨⟨l, r, h, rfl⟩, hP⟩ := (findPeaks_mem x n P p).1 hp
  obtain ⟨⟨l', r', h', rfl⟩, hT⟩ := (findPeaks_mem _ n P t).1 ht
  have m := mid_bounds h
  have m' := mid_bounds h'
  have v := mid_value h
  have v' : x (mid (l', r')) = x l' := by have := mid_value h'; simpa using this
  have f' : ∀ k, l' ≤ k → k ≤ r' → x k = x l' := fun k k1 k2 => by
    have := h'.flat k k1 k2; simpa using this
  have before' : x l' < x (l' - 1) := by have := h'.before; simpa using this
  have hll : x l ≤ x l' := by rw [← v, ← v']; exact hx
  have pos' := h'.pos
  -- the trough begins after the peak has ended
  have hrl : r + 1 < l' := by
    have h1 : r < l' := by
      by_contra hc
      have e : x l = x l' := by
        by_cases c : l ≤ l'
        · rw [h.flat l' c (by omega)]
        · rw [f' l (by omega) (by omega)]
      by_cases c : l < l'
      · rw [h.flat (l' - 1) (by omega) (by omega), e] at before'; exact lt_irrefl _ before'
      · have hb := h.before
        by_cases c2 : l = l'
        · rw [← c2] at before'; linarith
        · rw [f' (l - 1) (by omega) (by omega), e] at hb; exact lt_irrefl _ hb
    by_contra hc
    have e : l' - 1 = r := by omega
    have ha := h.after
    rw [show r + 1 = l' by omega] at ha
    linarith
  -- a sample high above the trough, between the peak and the trough
  obtain ⟨i, i1, i2, i3, i4⟩ : ∃ i, r < i ∧ i < l' ∧ x l ≤ x i ∧
      (P ≤ 0 ∨ x l + P ≤ x i) := by
    by_cases hP0 : P ≤ 0
    · exact ⟨l' - 1, by omega, by omega, by linarith, Or.inl hP0⟩
    · obtain ⟨⟨j, j1, j3, j4⟩, -⟩ := prominence_sides (not_le.1 hP0) hT
      simp only [neg_le_neg_iff, v'] at j3 j4
      have hP0' := not_le.1 hP0
      have hj' : x l' + P ≤ x j := by linarith
      have c1 : j < l' := by
        by_contra hc
        have := f' j (by omega) (by omega)
        linarith
      have c2 : r < j := by
        by_contra hc
        have := j4 (r + 1) (by omega) (by omega)
        have := h.after
        linarith
      exact ⟨j, c2, c1, by linarith, Or.inr (by linarith)⟩
  obtain ⟨a, b, hab, h1, h2, h3⟩ := trough_before_high h i1
    (by have := h'.lt; have := h'.le; omega) i3
  have ma := mid_bounds hab
  have va : x (mid (a, b)) = x a := by have := mid_value hab; simpa using this
  refine ⟨mid (a, b), (findPeaks_mem _ n P _).2 ⟨⟨a, b, hab, rfl⟩, ?_⟩, by omega, by omega⟩
  by_cases hP0 : P ≤ 0
  · exact hP0.trans (prominence_nonneg _ _ _)
  · have hP0' := not_le.1 hP0
    obtain ⟨-, j, j1, j2, j3, j4⟩ := prominence_sides hP0' hP
    have hj : j < i := by
      by_contra hc
      have := j4 i (by omega) (by omega)
      have := i4.resolve_left hP0
      linarith
    have := le_prominence (x := fun i => - x i) (n := n) (p := mid (a, b)) (v := - x l)
      (mid (l, r)) i (by omega) (by omega) (by have := h'.lt; have := h'.le; omega)
      (by simp only [v]; exact le_refl _) (by simpa using i3)
      (fun k k1 k2 => by simp only [neg_le_neg_iff, va]; exact h3 k (by omega) k2)
    simp only [va] at this
    have := h3 j (by omega) (by omega)
    linarith

theorem neighbours_adjacent : ∀ (E : List ℕ), E.Pairwise (· < ·) → ∀ p ∈ neighbours E,
    p.1 ∈ E ∧ p.2 ∈ E ∧ p.1 < p.2 ∧ ∀ e ∈ E, ¬ (p.1 < e ∧ e < p.2)
  | [], _, p, hp => by simp [neighbours] at hp
  | [a], _, p, hp => by simp [neighbours] at hp
  | a :: b :: l, hE, p, hp => by
    obtain ⟨h1, h2⟩ := List.pairwise_cons.1 hE
    have e : neighbours (a :: b :: l) = (a, b) :: neighbours (b :: l) := by simp [neighbours]
    rw [e, List.mem_cons] at hp
    rcases hp with rfl | hp
    · refine ⟨by simp, by simp, h1 b (by simp), ?_⟩
      intro e he
      rcases List.mem_cons.1 he with rfl | he
      · simp
      · rcases List.mem_cons.1 he with rfl | he
        · simp
        · have := (List.pairwise_cons.1 h2).1 e he
          simp only
          omega
    · obtain ⟨c1, c2, c3, c4⟩ := neighbours_adjacent (b :: l) h2 p hp
      refine ⟨List.mem_cons_of_mem _ c1, List.mem_cons_of_mem _ c2, c3, ?_⟩
      intro e he
      rcases List.mem_cons.1 he with rfl | he
      · have := h1 p.1 c1; omega
      · exact c4 e he

theorem neighbours_kinds {E P T : List ℕ} (h : Alternate E P T) {p : ℕ × ℕ} (hp : p ∈ neighbours E) :
    (p.1 ∈ P ∧ p.2 ∈ T) ∨ (p.1 ∈ T ∧ p.2 ∈ P) := by
  have key : (p.1 ∈ evens E ∧ p.2 ∈ odds E) ∨ (p.1 ∈ odds E ∧ p.2 ∈ evens E) := by
    rcases (mem_neighbours E p).1 hp with h | h
    · exact Or.inl ⟨(List.of_mem_zip h).1, (List.of_mem_zip h).2⟩
    · exact Or.inr ⟨(List.of_mem_zip h).2, List.mem_of_mem_tail (List.of_mem_zip h).1⟩
  obtain ⟨-, ⟨rfl, rfl⟩ | ⟨rfl, rfl⟩⟩ := h
  · exact key
  · exact key.symm

theorem neg_neg_fun (x : ℕ → ℚ) : (fun i => - (fun i => - x i) i) = x := by
  funext i; exact neg_neg _

/-- Neighbouring extrema have different values. -/
theorem neighbours_differ {x : ℕ → ℚ} {n : ℕ} {P : ℚ} {E : List ℕ}
    (h : Alternate E (findPeaks x n P) (findPeaks (fun i => - x i) n P))
    (hE : ∀ e, e ∈ E ↔ e ∈ findPeaks x n P ∨ e ∈ findPeaks (fun i => - x i) n P) :
    ∀ p ∈ neighbours E, x p.1 ≠ x p.2 := by
  intro p hp heq
  obtain ⟨-, -, hlt, hno⟩ := neighbours_adjacent E h.1 p hp
  rcases neighbours_kinds h hp with ⟨h1, h2⟩ | ⟨h1, h2⟩
  · obtain ⟨s, hs, s1, s2⟩ := found_between_level h1 h2 hlt heq.le
    exact hno s ((hE s).2 (Or.inr hs)) ⟨s1, s2⟩
  · have h2' : p.2 ∈ findPeaks (fun i => - (fun i => - x i) i) n P := by rw [neg_neg_fun]; exact h2
    obtain ⟨s, hs, s1, s2⟩ := found_between_level h1 h2' hlt (by simp [heq])
    rw [neg_neg_fun] at hs
    exact hno s ((hE s).2 (Or.inl hs)) ⟨s1, s2⟩

/-- Peaks and troughs found take turns, if no two peaks and no two troughs are level (or there is no
limit on the prominence). -/
theorem found_alternate (x : ℕ → ℚ) (n : ℕ) (P : ℚ)
    (h : P ≤ 0 ∨ ((∀ p ∈ findPeaks x n P, ∀ q ∈ findPeaks x n P, p ≠ q → x p ≠ x q) ∧
      ∀ p ∈ findPeaks (fun i => - x i) n P, ∀ q ∈ findPeaks (fun i => - x i) n P, p ≠ q → x p ≠ x q)) :
    ∃ E, Alternate E (findPeaks x n P) (findPeaks (fun i => - x i) n P) ∧
      ∀ e, e ∈ E ↔ e ∈ findPeaks x n P ∨ e ∈ findPeaks (fun i => - x i) n P := by
  refine alternate_of_between _ _ (findPeaks_sorted _ _ _) (findPeaks_sorted _ _ _)
    (fun a ha => not_peak_and_trough ha) ?_ ?_
  · intro a ha b hb hab
    obtain ⟨t, ht, h1, h2, -⟩ := found_between ha hb hab (h.imp id fun h => h.1 a ha b hb hab.ne)
    exact ⟨t, ht, h1, h2⟩
  · intro a ha b hb hab
    obtain ⟨t, ht, h1, h2, -⟩ := found_between ha hb hab
      (h.imp id fun h => by simpa using h.2 a ha b hb hab.ne)
    rw [neg_neg_fun] at ht
    exact ⟨t, ht, h1, h2⟩

end QM.FindPeaks
