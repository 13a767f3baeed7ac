import Verif.Props.Amplitude
import Verif.Lemmas.FindPeaks

/-!
# Amplitude of a window of data: C83
-/

namespace QM
open QM.Amplitude QM.Spec QM.FindPeaks

/-! ## C83: a measurement fails only for want of a peak or a trough -/

/-- A signal given by a list of samples. -/
def signal (data : List ℚ) : ℕ → ℚ := fun i => data.getD i 0

/-- The same upside down: its peaks are the troughs. -/
def flipped (data : List ℚ) : ℕ → ℚ := fun i => - data.getD i 0

/-- The sample in the middle of a local maximum. -/
def IsPeakAt (x : ℕ → ℚ) (n p : ℕ) : Prop := ∃ l r, IsPeak x n l r ∧ p = (l + r) / 2

/-- Without a limit on the prominence (the default), the samples found are exactly the middles of the
local maxima, in order. -/
theorem C83_peaks_are_local_maxima (x : ℕ → ℚ) (n : ℕ) :
    (∀ p, p ∈ findPeaks x n 0 ↔ IsPeakAt x n p) ∧ (findPeaks x n 0).Pairwise (· < ·) := by
  refine ⟨fun p => ?_, findPeaks_sorted _ _ _⟩
  rw [findPeaks_mem]
  exact ⟨fun h => h.1, fun h => ⟨h, prominence_nonneg _ _ _⟩⟩

/-- On both sides of `p`, and before it rises above `p`, the signal falls by at least `P`. -/
def StandsOut (x : ℕ → ℚ) (n p : ℕ) (P : ℚ) : Prop :=
  (∃ j ≤ p, x j ≤ x p - P ∧ ∀ k, j ≤ k → k ≤ p → x k ≤ x p) ∧
  (∃ j, p ≤ j ∧ j < n ∧ x j ≤ x p - P ∧ ∀ k, p ≤ k → k ≤ j → x k ≤ x p)

/-- With a limit on the prominence, the samples found are exactly the middles of the local maxima that
stand out by at least that limit. -/
theorem C83_prominence_filters (x : ℕ → ℚ) (n : ℕ) (pmin : ℚ) (p : ℕ) :
    p ∈ findPeaks x n pmin ↔ IsPeakAt x n p ∧ StandsOut x n p pmin := by
  rw [findPeaks_mem]
  constructor
  · rintro ⟨h1, h2⟩
    refine ⟨h1, ?_⟩
    by_cases hP : 0 < pmin
    · exact prominence_sides hP h2
    · obtain ⟨l, r, hp, rfl⟩ := h1
      have hb := mid_bounds hp
      have hr := hp.lt
      have e : ∀ k, mid (l, r) ≤ k → k ≤ mid (l, r) → x k ≤ x (mid (l, r)) := by
        intro k k1 k2
        rw [le_antisymm k2 k1]
      exact ⟨⟨_, le_rfl, by linarith, e⟩, _, le_rfl, by omega, by linarith, e⟩
  · rintro ⟨h1, ⟨i, hi, hv, hk⟩, j, hj, hn, hv', hk'⟩
    refine ⟨h1, ?_⟩
    have := le_prominence (v := x p - pmin) i j hi hj hn hv hv' (by
      intro k k1 k2
      rcases le_total k p with h | h
      · exact hk k k1 h
      · exact hk' k h k2)
    linarith

/-- The limit on the prominence is relative to the largest absolute value. -/
theorem maxAbs_eq (data : List ℚ) (M : ℚ) (hM : M ∈ data.map (fun v => |v|))
    (hle : ∀ v ∈ data, |v| ≤ M) : maxAbs data = M := by
  have hub : ∀ (l : List ℚ) (m : ℚ), m ≤ M → (∀ v ∈ l, |v| ≤ M) →
      l.foldl (fun m v => if m < |v| then |v| else m) m ≤ M := by
    intro l
    induction l with
    | nil => intro m h _; exact h
    | cons a l ih =>
      intro m h h2
      simp only [List.foldl_cons]
      apply ih
      · split_ifs
        · exact h2 a (by simp)
        · exact h
      · exact fun v hv => h2 v (by simp [hv])
  have hlb : ∀ (l : List ℚ) (m : ℚ),
      m ≤ l.foldl (fun m v => if m < |v| then |v| else m) m ∧
      ∀ v ∈ l, |v| ≤ l.foldl (fun m v => if m < |v| then |v| else m) m := by
    intro l
    induction l with
    | nil => intro m; simp
    | cons a l ih =>
      intro m
      simp only [List.foldl_cons]
      obtain ⟨h1, h2⟩ := ih (if m < |a| then |a| else m)
      have hm : m ≤ (if m < |a| then |a| else m) ∧ |a| ≤ (if m < |a| then |a| else m) := by
        split_ifs with h
        · exact ⟨h.le, le_rfl⟩
        · exact ⟨le_rfl, not_lt.mp h⟩
      refine ⟨hm.1.trans h1, ?_⟩
      intro v hv
      rcases List.mem_cons.mp hv with e | e
      · rw [e]; exact hm.2.trans h1
      · exact h2 v e
  obtain ⟨v, hv, rfl⟩ := List.mem_map.mp hM
  exact le_antisymm (hub data 0 (abs_nonneg v) hle) ((hlb data 0).2 v hv)

/-- C83 with the default settings: for every window of data, the measurement succeeds if the data have a
local maximum and a local minimum, and gives half the largest swing between neighbouring ones, with
the frequency and the time of that swing; otherwise it fails with the documented error. -/
theorem C83_default_measurement (data : List ℚ) (delta start : ℚ) (hdelta : 0 < delta) :
    ((∃ p, IsPeakAt (signal data) data.length p) ∧ (∃ t, IsPeakAt (flipped data) data.length t) →
      ∃ E : List ℕ, E.Pairwise (· < ·) ∧
        (∀ e, e ∈ E ↔ IsPeakAt (signal data) data.length e ∨ IsPeakAt (flipped data) data.length e) ∧
        ∃ i j, (i, j) ∈ neighbours E ∧
          (∀ p ∈ neighbours E, |signal data p.1 - signal data p.2| ≤ |signal data i - signal data j|) ∧
          windowAmplitude 0 data delta start =
            .ok ⟨|signal data i - signal data j| / 2 * 1000, 1 / (2 * (((j : ℚ) - i) * delta)),
              start + ((i : ℚ) + j) / 2 * delta⟩) ∧
    (¬ ((∃ p, IsPeakAt (signal data) data.length p) ∧ (∃ t, IsPeakAt (flipped data) data.length t)) →
      windowAmplitude 0 data delta start = .error .noPeaks) := by
  have e0 : windowAmplitude 0 data delta start = peakToTrough (signal data) delta start
      (findPeaks (signal data) data.length 0) (findPeaks (fun i => - signal data i) data.length 0) := by
    unfold windowAmplitude signal; simp only [zero_mul]
  have m1 := (C83_peaks_are_local_maxima (signal data) data.length).1
  have m2 : ∀ p, p ∈ findPeaks (fun i => - signal data i) data.length 0 ↔
      IsPeakAt (flipped data) data.length p :=
    (C83_peaks_are_local_maxima (flipped data) data.length).1
  constructor
  · rintro ⟨⟨p, hp⟩, t, ht⟩
    obtain ⟨E, hE, hmem⟩ := found_alternate (signal data) data.length 0 (Or.inl le_rfl)
    obtain ⟨i, j, h1, h2, h3⟩ := C62_half_swing (signal data) delta start hdelta E _ _ hE
      (List.ne_nil_of_mem ((m1 p).2 hp)) (List.ne_nil_of_mem ((m2 t).2 ht))
      (neighbours_differ hE hmem)
    exact ⟨E, hE.1, fun e => by rw [hmem, m1, m2], i, j, h1, h2, by rw [e0]; exact h3⟩
  · intro h
    rw [e0, (C62_failure_iff _ _ _ _ _).1]
    by_contra hc
    rw [not_or] at hc
    obtain ⟨p, hp⟩ := List.exists_mem_of_ne_nil _ hc.1
    obtain ⟨t, ht⟩ := List.exists_mem_of_ne_nil _ hc.2
    exact h ⟨⟨p, (m1 p).1 hp⟩, t, (m2 t).1 ht⟩

example : windowAmplitude 0 [0, 3, 3, -2, 5, -1, 0] (1 / 10) 100 =
    .ok ⟨3500, 5, 1003 / 10 + 1 / 20⟩ := by decide +kernel
example : windowAmplitude 0 [0, 1, 2, 3] (1 / 10) 100 = .error .noPeaks := by decide +kernel

/-- C83 with a limit on the prominence (partial: see `C83_violated`).  The limit is a multiple of the
largest absolute value `M` in the window.  The measurement fails for want of a peak or a trough that
stands out exactly if there is none.  Otherwise no peaks or troughs are found next to one another as
long as no two of the peaks, and no two of the troughs, are level; the amplitude is then half the
largest swing between neighbouring ones. -/
theorem C83_prominence_measurement_partial (mult : ℚ) (data : List ℚ) (delta start : ℚ)
    (hdelta : 0 < delta) (M : ℚ) (hM : M ∈ data.map (fun v => |v|)) (hle : ∀ v ∈ data, |v| ≤ M)
    (peak trough : ℕ → Prop)
    (hpeak : ∀ p, peak p ↔ IsPeakAt (signal data) data.length p ∧
      StandsOut (signal data) data.length p (mult * M))
    (htrough : ∀ p, trough p ↔ IsPeakAt (flipped data) data.length p ∧
      StandsOut (flipped data) data.length p (mult * M)) :
    ((¬ ∃ p, peak p) ∨ (¬ ∃ p, trough p) ↔
      windowAmplitude mult data delta start = .error .noPeaks) ∧
    ((∃ p, peak p) → (∃ p, trough p) →
      (∀ p q, peak p → peak q → p ≠ q → signal data p ≠ signal data q) →
      (∀ p q, trough p → trough q → p ≠ q → signal data p ≠ signal data q) →
      ∃ E : List ℕ, E.Pairwise (· < ·) ∧ (∀ e, e ∈ E ↔ peak e ∨ trough e) ∧
        ∃ i j, (i, j) ∈ neighbours E ∧
          (∀ p ∈ neighbours E,
            |signal data p.1 - signal data p.2| ≤ |signal data i - signal data j|) ∧
          windowAmplitude mult data delta start =
            .ok ⟨|signal data i - signal data j| / 2 * 1000, 1 / (2 * (((j : ℚ) - i) * delta)),
              start + ((i : ℚ) + j) / 2 * delta⟩) := by
  have ef : flipped data = fun i => - signal data i := rfl
  have e0 : windowAmplitude mult data delta start = peakToTrough (signal data) delta start
      (findPeaks (signal data) data.length (mult * M))
      (findPeaks (fun i => - signal data i) data.length (mult * M)) := by
    rw [← maxAbs_eq data M hM hle]; rfl
  have m1 : ∀ p, p ∈ findPeaks (signal data) data.length (mult * M) ↔ peak p := fun p => by
    rw [C83_prominence_filters, hpeak]
  have m2 : ∀ p, p ∈ findPeaks (fun i => - signal data i) data.length (mult * M) ↔ trough p :=
    fun p => by rw [C83_prominence_filters, htrough, ef]
  have n1 : findPeaks (signal data) data.length (mult * M) = [] ↔ ¬ ∃ p, peak p := by
    rw [List.eq_nil_iff_forall_not_mem, not_exists]
    exact forall_congr' fun p => not_congr (m1 p)
  have n2 : findPeaks (fun i => - signal data i) data.length (mult * M) = [] ↔ ¬ ∃ p, trough p := by
    rw [List.eq_nil_iff_forall_not_mem, not_exists]
    exact forall_congr' fun p => not_congr (m2 p)
  rw [e0]
  constructor
  · rw [(C62_failure_iff _ _ _ _ _).1, n1, n2]
  · intro hp ht hpd htd
    obtain ⟨E, hE, hmem⟩ := found_alternate (signal data) data.length (mult * M)
      (Or.inr ⟨fun p h1 q h2 => hpd p q ((m1 p).1 h1) ((m1 q).1 h2),
        fun p h1 q h2 => htd p q ((m2 p).1 h1) ((m2 q).1 h2)⟩)
    obtain ⟨i, j, h1, h2, h3⟩ := C62_half_swing (signal data) delta start hdelta E _ _ hE
      (fun h => n1.1 h hp) (fun h => n2.1 h ht) (neighbours_differ hE hmem)
    exact ⟨E, hE.1, fun e => by rw [hmem, m1, m2], i, j, h1, h2, h3⟩

def exLevelFree : List ℚ := [0, 10, 2, 4, 3, 12, 0, 5]
example : findPeaks (signal exLevelFree) 8 (1 / 4 * maxAbs exLevelFree) = [1, 5] ∧
    findPeaks (flipped exLevelFree) 8 (1 / 4 * maxAbs exLevelFree) = [2, 6] := by decide +kernel
example : windowAmplitude (1 / 4) exLevelFree 1 0 = .ok ⟨6000, 1 / 2, 11 / 2⟩ := by decide +kernel

/-- C83 is violated with a limit on the prominence: of two level peaks with a shallow dip between
them both count as prominent, the dip does not, and the measurement is given up although the data
have clear peaks and a clear trough. -/
theorem C83_violated :
    findPeaks (signal [0, 10, 9, 10, 0, 10, 0]) 7 (1 / 2 * maxAbs [0, 10, 9, 10, 0, 10, 0]) = [1, 3, 5] ∧
    findPeaks (flipped [0, 10, 9, 10, 0, 10, 0]) 7 (1 / 2 * maxAbs [0, 10, 9, 10, 0, 10, 0]) = [4] ∧
    ∀ delta start, windowAmplitude (1 / 2) [0, 10, 9, 10, 0, 10, 0] delta start =
      .error .consecutive := by
  refine ⟨by decide +kernel, by decide +kernel, fun delta start => ?_⟩
  have e0 : windowAmplitude (1 / 2) [0, 10, 9, 10, 0, 10, 0] delta start =
      peakToTrough (signal [0, 10, 9, 10, 0, 10, 0]) delta start
      (findPeaks (signal [0, 10, 9, 10, 0, 10, 0]) 7 (1 / 2 * maxAbs [0, 10, 9, 10, 0, 10, 0]))
      (findPeaks (flipped [0, 10, 9, 10, 0, 10, 0]) 7 (1 / 2 * maxAbs [0, 10, 9, 10, 0, 10, 0])) := rfl
  rw [e0, show findPeaks (signal [0, 10, 9, 10, 0, 10, 0]) 7
      (1 / 2 * maxAbs [0, 10, 9, 10, 0, 10, 0]) = [1, 3, 5] by decide +kernel,
    show findPeaks (flipped [0, 10, 9, 10, 0, 10, 0]) 7
      (1 / 2 * maxAbs [0, 10, 9, 10, 0, 10, 0]) = [4] by decide +kernel]
  exact (C62_failure_iff _ _ _ _ _).2.1.2 ⟨by simp, by simp, by simp⟩

end QM
