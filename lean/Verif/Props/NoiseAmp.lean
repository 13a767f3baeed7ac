import Verif.Model.NoiseAmp
import Mathlib.Tactic
import Mathlib.Algebra.BigOperators.Fin

/-!
# C128: the noise amplitude
-/

namespace QM

open QM.NoiseAmp Finset

/-- The data minus the straight line `a + b * k`. -/
noncomputable def Spec.minusLine (a b : ℝ) (d : List ℝ) : List ℝ := d.mapIdx fun k v => v - (a + b * k)

/-- Sum of squares. -/
noncomputable def Spec.sumSq (d : List ℝ) : ℝ := (d.map fun v => v ^ 2).sum

theorem map_mapIdx' (f : ℕ → ℝ → ℝ) (g : ℝ → ℝ) (d : List ℝ) :
    (d.mapIdx f).map g = d.mapIdx fun k v => g (f k v) := by
  apply List.ext_getElem?
  intro k
  simp [List.getElem?_mapIdx, Function.comp_def]

theorem mapIdx_map' (f : ℕ → ℝ → ℝ) (g : ℝ → ℝ) (d : List ℝ) :
    (d.map g).mapIdx f = d.mapIdx fun k v => f k (g v) := by
  apply List.ext_getElem?
  intro k
  simp [List.getElem?_mapIdx, Function.comp_def]

theorem sum_mapIdx (f : ℕ → ℝ → ℝ) (d : List ℝ) :
    (d.mapIdx f).sum = ∑ k ∈ range d.length, f k (d.getD k 0) := by
  induction d using List.reverseRecOn with
  | nil => simp
  | append_singleton l a ih =>
    rw [List.mapIdx_append, List.sum_append, ih, List.length_append, List.length_singleton, sum_range_succ]
    congr 1
    · apply sum_congr rfl
      intro k hk
      rw [mem_range] at hk
      rw [List.getD_eq_getElem?_getD, List.getD_eq_getElem?_getD, List.getElem?_append_left hk]
    · simp

theorem sum_getD (d : List ℝ) : d.sum = ∑ k ∈ range d.length, d.getD k 0 := by
  rw [← sum_mapIdx (fun _ v => v) d]
  congr 1
  apply List.ext_getElem?
  intro k
  simp [List.getElem?_mapIdx]

theorem sumSq_mapIdx (f : ℕ → ℝ → ℝ) (d : List ℝ) :
    Spec.sumSq (d.mapIdx f) = ∑ k ∈ range d.length, (f k (d.getD k 0)) ^ 2 := by
  unfold Spec.sumSq
  rw [map_mapIdx', sum_mapIdx]

theorem sum_time (n : ℕ) : ∑ k ∈ range n, time n k = 0 := by
  have h : ∀ m : ℕ, ∑ k ∈ range m, (k : ℝ) = m * (m - 1) / 2 := by
    intro m
    induction m with
    | zero => simp
    | succ m ih => rw [sum_range_succ, ih]; push_cast; ring
  unfold time
  rw [sum_sub_distrib, h, sum_const, card_range, nsmul_eq_mul]
  ring

/-- The detrended data are the data minus a straight line. -/
theorem detrend_line (d : List ℝ) :
    detrend d = Spec.minusLine (mean d - slope d * (((d.length : ℝ) - 1) / 2)) (slope d) d := by
  unfold detrend Spec.minusLine time
  congr 1
  funext k v
  ring

/-- Residuals of the best line. -/
noncomputable def resid (d : List ℝ) (k : ℕ) : ℝ := d.getD k 0 - (mean d + slope d * time d.length k)

theorem resid_sum (d : List ℝ) : ∑ k ∈ range d.length, resid d k = 0 := by
  rcases eq_or_ne d [] with rfl | hd
  · simp
  have hn : (d.length : ℝ) ≠ 0 := by
    have := List.length_pos_iff.mpr hd
    exact_mod_cast this.ne'
  unfold resid
  rw [sum_sub_distrib, sum_add_distrib, sum_const, card_range, nsmul_eq_mul, ← mul_sum, sum_time, mean,
    ← sum_getD]
  field_simp
  ring

theorem sum_time_sq_eq_zero {n : ℕ} (h : ∑ k ∈ range n, time n k ^ 2 = 0) : ∀ k < n, time n k = 0 := by
  intro k hk
  have := (sum_eq_zero_iff_of_nonneg (fun i _ => sq_nonneg (time n i))).mp h k (mem_range.mpr hk)
  exact pow_eq_zero_iff (by norm_num) |>.mp this

theorem resid_time (d : List ℝ) : ∑ k ∈ range d.length, time d.length k * resid d k = 0 := by
  set n := d.length with hnd
  set S := ∑ k ∈ range n, time n k ^ 2 with hS
  have hs : slope d = (∑ k ∈ range n, time n k * d.getD k 0) / S := by
    unfold slope
    rw [sum_mapIdx, sum_mapIdx]
  by_cases h0 : S = 0
  · apply sum_eq_zero
    intro k hk
    rw [sum_time_sq_eq_zero (hS ▸ h0) k (mem_range.mp hk), zero_mul]
  · have : ∀ k, time n k * resid d k =
        time n k * d.getD k 0 - (mean d * time n k + slope d * time n k ^ 2) := by
      intro k; unfold resid; rw [← hnd]; ring
    simp only [this]
    rw [sum_sub_distrib, sum_add_distrib, ← mul_sum, ← mul_sum, sum_time, ← hS, hs, mul_zero, zero_add,
      div_mul_cancel₀ _ h0, sub_self]

theorem sumSq_line (d : List ℝ) (a b : ℝ) :
    Spec.sumSq (Spec.minusLine a b d) = Spec.sumSq (detrend d) +
      ∑ k ∈ range d.length, ((a + b * k) - (mean d + slope d * time d.length k)) ^ 2 := by
  have h1 : Spec.sumSq (Spec.minusLine a b d) = ∑ k ∈ range d.length, (d.getD k 0 - (a + b * k)) ^ 2 :=
    sumSq_mapIdx _ d
  have h2 : Spec.sumSq (detrend d) = ∑ k ∈ range d.length, resid d k ^ 2 := sumSq_mapIdx _ d
  rw [h1, h2, ← sum_add_distrib]
  set n := d.length with hn
  set c := a + b * (((n : ℝ) - 1) / 2) - mean d with hc
  set e := b - slope d with he
  have hx : ∀ k : ℕ, (d.getD k 0 - (a + b * k)) ^ 2 =
      (resid d k ^ 2 + (a + b * k - (mean d + slope d * time n k)) ^ 2) +
        ((-2 * c) * resid d k + (-2 * e) * (time n k * resid d k)) := by
    intro k
    have : a + b * (k : ℝ) - (mean d + slope d * time n k) = c + e * time n k := by
      rw [hc, he]; unfold time; ring
    have hr : d.getD k 0 - (a + b * k) = resid d k - (c + e * time n k) := by
      rw [← this]; unfold resid; rw [← hn]; ring
    rw [this, hr]; ring
  simp only [hx]
  rw [sum_add_distrib, sum_add_distrib (f := fun k => -2 * c * resid d k), ← mul_sum, ← mul_sum,
    resid_sum, resid_time]
  ring

/-- **C128**: detrending subtracts the straight line that leaves the least sum of squares. -/
theorem C128_detrend (d : List ℝ) : ∃ a b, detrend d = Spec.minusLine a b d ∧
    ∀ a' b', Spec.sumSq (Spec.minusLine a b d) ≤ Spec.sumSq (Spec.minusLine a' b' d) := by
  refine ⟨_, _, detrend_line d, fun a' b' => ?_⟩
  rw [← detrend_line, sumSq_line d a' b']
  have : 0 ≤ ∑ k ∈ range d.length, ((a' + b' * k) - (mean d + slope d * time d.length k)) ^ 2 :=
    sum_nonneg fun _ _ => sq_nonneg _
  linarith

theorem detrend_length (d : List ℝ) : (detrend d).length = d.length := by simp [detrend]

theorem mean_detrend (d : List ℝ) : mean (detrend d) = 0 := by
  unfold mean
  have : (detrend d).sum = ∑ k ∈ range d.length, resid d k := sum_mapIdx _ d
  rw [this, resid_sum, zero_div]

/-- **C128**: the noise amplitude is NaN exactly if the window holds no data or a constant; otherwise, for the
measures RMS and STD alike, it is 1000 times the root of the mean square of the data about the straight line that
fits them best.  It is zero exactly for a straight line.  Other measures raise an exception if there are data. -/
theorem C128_noise (env : List ℝ → List ℝ) (m : Option Measure) (d : List ℝ) :
    ((d = [] ∨ ∃ c, ∀ v ∈ d, v = c) → noiseAmp env m d = some none) ∧
    (¬ (d = [] ∨ ∃ c, ∀ v ∈ d, v = c) →
      (m = none → noiseAmp env m d = none) ∧
      (m = some .rms ∨ m = some .std → ∃ q, noiseAmp env m d = some (some (1000 * Real.sqrt (q / d.length))) ∧
        IsLeast {s | ∃ a b, s = Spec.sumSq (Spec.minusLine a b d)} q ∧
        (q = 0 ↔ ∃ a b : ℝ, ∀ k < d.length, d.getD k 0 = a + b * k)) ∧
      (m = some .env → ∃ a b, (∀ a' b', Spec.sumSq (Spec.minusLine a b d) ≤ Spec.sumSq (Spec.minusLine a' b' d)) ∧
        noiseAmp env m d = some (some (1000 * ((env (Spec.minusLine a b d)).sum / (env (Spec.minusLine a b d)).length))))) := by
  have hnd : noData d ↔ (d = [] ∨ ∃ c, ∀ v ∈ d, v = c) := by
    unfold noData
    constructor
    · rintro (h | h)
      · exact Or.inl h
      · exact Or.inr ⟨_, h⟩
    · rintro (h | ⟨c, h⟩)
      · exact Or.inl h
      · cases d with
        | nil => exact Or.inl rfl
        | cons x xs =>
          right
          intro v hv
          rw [h v hv, List.headD_cons, h x (by simp)]
  refine ⟨fun h => ?_, fun h => ⟨?_, ?_, ?_⟩⟩
  · unfold noiseAmp; rw [if_pos (hnd.mpr h)]
  · rintro rfl
    unfold noiseAmp; rw [if_neg (fun c => h (hnd.mp c))]; rfl
  · intro hm
    refine ⟨Spec.sumSq (detrend d), ?_, ⟨⟨_, _, congrArg _ (detrend_line d)⟩, ?_⟩, ?_⟩
    · have h1 : mean ((detrend d).map fun v => v ^ 2) = Spec.sumSq (detrend d) / d.length := by
        unfold mean Spec.sumSq
        rw [List.length_map, detrend_length]
      unfold noiseAmp
      rw [if_neg (fun c => h (hnd.mp c))]
      rcases hm with rfl | rfl
      · simp only [averageAmplitude, h1]
        rw [mul_comm]
      · simp only [averageAmplitude, mean_detrend, sub_zero, h1]
        rw [mul_comm]
    · rintro s ⟨a, b, rfl⟩
      obtain ⟨a', b', h1, h2⟩ := C128_detrend d
      rw [h1]
      exact h2 a b
    · have hs : Spec.sumSq (detrend d) = ∑ k ∈ range d.length, resid d k ^ 2 := sumSq_mapIdx _ d
      constructor
      · intro h0
        refine ⟨mean d - slope d * (((d.length : ℝ) - 1) / 2), slope d, fun k hk => ?_⟩
        rw [hs] at h0
        have := (sum_eq_zero_iff_of_nonneg (fun i _ => sq_nonneg (resid d i))).mp h0 k (mem_range.mpr hk)
        have := pow_eq_zero_iff (by norm_num) |>.mp this
        unfold resid time at this
        linarith
      · rintro ⟨a, b, hab⟩
        have h0 : Spec.sumSq (Spec.minusLine a b d) = 0 := by
          unfold Spec.minusLine
          rw [sumSq_mapIdx]
          apply sum_eq_zero
          intro k hk
          rw [hab k (mem_range.mp hk)]
          ring
        have h1 := sumSq_line d a b
        have h2 : 0 ≤ ∑ k ∈ range d.length, ((a + b * k) - (mean d + slope d * time d.length k)) ^ 2 :=
          sum_nonneg fun _ _ => sq_nonneg _
        have h3 : 0 ≤ Spec.sumSq (detrend d) := by rw [hs]; exact sum_nonneg fun _ _ => sq_nonneg _
        linarith
  · rintro rfl
    refine ⟨mean d - slope d * (((d.length : ℝ) - 1) / 2), slope d, fun a' b' => ?_, ?_⟩
    rotate_left
    · unfold noiseAmp
      rw [if_neg (fun c => h (hnd.mp c)), detrend_line]
      simp only [averageAmplitude, mean]
      rw [mul_comm]
    · rw [← detrend_line, sumSq_line d a' b']
      have : 0 ≤ ∑ k ∈ range d.length, ((a' + b' * k) - (mean d + slope d * time d.length k)) ^ 2 :=
        sum_nonneg fun _ _ => sq_nonneg _
      linarith

theorem minusLine_getD (a b : ℝ) (d : List ℝ) (k : ℕ) (hk : k < d.length) :
    (Spec.minusLine a b d).getD k 0 = d.getD k 0 - (a + b * k) := by
  unfold Spec.minusLine
  rw [List.getD_eq_getElem?_getD, List.getElem?_mapIdx, List.getD_eq_getElem?_getD, List.getElem?_eq_getElem hk]
  rfl

theorem detrend_minusLine (a b : ℝ) (d : List ℝ) : detrend (Spec.minusLine a b d) = detrend d := by
  have hl : (Spec.minusLine a b d).length = d.length := by simp [Spec.minusLine]
  rcases eq_or_ne d [] with rfl | hd
  · rfl
  have hn : (d.length : ℝ) ≠ 0 := by
    have := List.length_pos_iff.mpr hd
    exact_mod_cast this.ne'
  have hm : mean (Spec.minusLine a b d) = mean d - (a + b * (((d.length : ℝ) - 1) / 2)) := by
    unfold mean
    rw [hl]
    have : (Spec.minusLine a b d).sum = d.sum - (a + b * (((d.length : ℝ) - 1) / 2)) * d.length := by
      unfold Spec.minusLine
      rw [sum_mapIdx, sum_sub_distrib, ← sum_getD]
      congr 1
      have : ∀ k : ℕ, a + b * (k : ℝ) = (a + b * (((d.length : ℝ) - 1) / 2)) + b * time d.length k := by
        intro k; unfold time; ring
      simp only [this]
      rw [sum_add_distrib, ← mul_sum, sum_time, sum_const, card_range, nsmul_eq_mul]
      ring
    rw [this]
    field_simp
  by_cases hS : ∑ k ∈ range d.length, time d.length k ^ 2 = 0
  · have ht := sum_time_sq_eq_zero hS
    apply List.ext_getElem?
    intro k
    by_cases hk : k < d.length
    · have e1 : (detrend (Spec.minusLine a b d))[k]? = some ((Spec.minusLine a b d).getD k 0 -
          (mean (Spec.minusLine a b d) + slope (Spec.minusLine a b d) * time d.length k)) := by
        unfold detrend
        rw [List.getElem?_mapIdx, hl, List.getD_eq_getElem?_getD, List.getElem?_eq_getElem (by rw [hl]; exact hk)]
        rfl
      have e2 : (detrend d)[k]? = some (d.getD k 0 - (mean d + slope d * time d.length k)) := by
        unfold detrend
        rw [List.getElem?_mapIdx, List.getD_eq_getElem?_getD, List.getElem?_eq_getElem hk]
        rfl
      rw [e1, e2, hm, minusLine_getD a b d k hk, ht k hk]
      have := ht k hk
      unfold time at this
      have h2 : (k : ℝ) = ((d.length : ℝ) - 1) / 2 := by linarith
      rw [h2]
      congr 1
      ring
    · rw [List.getElem?_eq_none (by rw [detrend_length, hl]; omega), List.getElem?_eq_none (by rw [detrend_length]; omega)]
  · have hsl : slope (Spec.minusLine a b d) = slope d - b := by
      unfold slope
      rw [sum_mapIdx, sum_mapIdx, sum_mapIdx, sum_mapIdx, hl]
      have : ∑ k ∈ range d.length, time d.length k * (Spec.minusLine a b d).getD k 0 =
          ∑ k ∈ range d.length, time d.length k * d.getD k 0 - b * ∑ k ∈ range d.length, time d.length k ^ 2 := by
        have e : ∀ k ∈ range d.length, time d.length k * (Spec.minusLine a b d).getD k 0 =
            time d.length k * d.getD k 0 - ((a + b * (((d.length : ℝ) - 1) / 2)) * time d.length k + b * time d.length k ^ 2) := by
          intro k hk
          rw [minusLine_getD a b d k (mem_range.mp hk)]
          unfold time; ring
        rw [sum_congr rfl e, sum_sub_distrib, sum_add_distrib, ← mul_sum, ← mul_sum, sum_time]
        ring
      rw [this, sub_div, mul_div_assoc, div_self hS, mul_one]
    unfold detrend
    rw [hl, hm, hsl]
    unfold Spec.minusLine
    rw [List.mapIdx_mapIdx]
    congr 1
    funext k v
    simp only [Function.comp]
    unfold time
    ring

/-- **C128**: an offset or a linear drift of the trace makes no difference (unless the rest is constant), for any
measure. -/
theorem C128_trend (env : List ℝ → List ℝ) (m : Option Measure) (d : List ℝ) (a b : ℝ)
    (h1 : ¬ (d = [] ∨ ∃ c, ∀ v ∈ d, v = c))
    (h2 : ¬ ∃ c, ∀ v ∈ Spec.minusLine a b d, v = c) :
    noiseAmp env m (Spec.minusLine a b d) = noiseAmp env m d := by
  have n1 : ¬ noData d := by
    rintro (h | h)
    · exact h1 (Or.inl h)
    · exact h1 (Or.inr ⟨_, h⟩)
  have n2 : ¬ noData (Spec.minusLine a b d) := by
    rintro (h | h)
    · exact h2 ⟨0, by rw [h]; simp⟩
    · exact h2 ⟨_, h⟩
  unfold noiseAmp
  rw [if_neg n1, if_neg n2, detrend_minusLine]

theorem detrend_scale (c : ℝ) (d : List ℝ) : detrend (d.map (c * ·)) = (detrend d).map (c * ·) := by
  have hm : mean (d.map (c * ·)) = c * mean d := by
    unfold mean; rw [List.sum_map_mul_left, List.length_map, List.map_id']; ring
  have hs : slope (d.map (c * ·)) = c * slope d := by
    unfold slope
    rw [mapIdx_map', mapIdx_map', sum_mapIdx, sum_mapIdx, sum_mapIdx, sum_mapIdx, List.length_map]
    have : ∀ k, time d.length k * (c * d.getD k 0) = c * (time d.length k * d.getD k 0) := fun k => by ring
    simp only [this, ← mul_sum]
    ring
  unfold detrend
  rw [hm, hs, mapIdx_map', map_mapIdx', List.length_map]
  congr 1
  funext k v
  ring

/-- **C128**: the noise amplitude scales with the data (RMS and STD; for the envelope if the
envelope does). -/
theorem C128_scale (env : List ℝ → List ℝ) (henv : ∀ c d, env (d.map (c * ·)) = (env d).map (|c| * ·)) (m : Measure)
    (d : List ℝ) (c : ℝ) (hc : c ≠ 0) :
    noiseAmp env (some m) (d.map (c * ·)) = (noiseAmp env (some m) d).map (Option.map (|c| * ·)) := by
  have hnd : noData (d.map (c * ·)) ↔ noData d := by
    unfold noData
    cases d with
    | nil => simp
    | cons x xs =>
      have hh : ((x :: xs).map (c * ·)).headD 0 = c * x := rfl
      have h1 : ¬ (x :: xs).map (c * ·) = [] := by simp
      rw [hh, List.headD_cons]
      constructor
      · rintro (h | h)
        · exact absurd h h1
        · exact Or.inr fun v hv => mul_left_cancel₀ hc (h _ (List.mem_map_of_mem hv))
      · rintro (h | h)
        · simp at h
        · right
          intro v hv
          obtain ⟨w, hw, rfl⟩ := List.mem_map.mp hv
          rw [h w hw]
  unfold noiseAmp
  by_cases h : noData d
  · rw [if_pos h, if_pos (hnd.mpr h)]; rfl
  · rw [if_neg h, if_neg (fun c => h (hnd.mp c)), detrend_scale]
    have hq : ∀ (f : ℝ → ℝ) (e : List ℝ), mean (e.map fun v => (c * f v) ^ 2) = c ^ 2 * mean (e.map fun v => (f v) ^ 2) := by
      intro f e
      unfold mean
      rw [List.length_map, List.length_map]
      have : (fun v => (c * f v) ^ 2) = fun v => c ^ 2 * (f v) ^ 2 := by funext v; ring
      rw [this, List.sum_map_mul_left]
      ring
    have hsq : ∀ x, Real.sqrt (c ^ 2 * x) = |c| * Real.sqrt x := by
      intro x; rw [Real.sqrt_mul (sq_nonneg c), Real.sqrt_sq_eq_abs]
    have hmean : ∀ (a : ℝ) (e : List ℝ), mean (e.map (a * ·)) = a * mean e := by
      intro a e
      unfold mean; rw [List.sum_map_mul_left, List.length_map, List.map_id']; ring
    cases m with
    | rms =>
      simp only [averageAmplitude, List.map_map, Function.comp_def, Option.map_some]
      rw [hq (fun v => v), hsq, mul_assoc]
    | std =>
      simp only [averageAmplitude, List.map_map, Function.comp_def, Option.map_some]
      rw [hmean]
      have : (fun v => (c * v - c * mean (detrend d)) ^ 2) = fun v => (c * (v - mean (detrend d))) ^ 2 := by
        funext v; ring
      rw [this, hq (fun v => v - mean (detrend d)), hsq, mul_assoc]
    | env =>
      simp only [averageAmplitude, henv, hmean, Option.map_some]
      rw [mul_assoc]

/-! ### A case that meets the hypotheses -/

/-- Three samples 0, 3, 0: the best line is the constant 1, the noise amplitude 1000 times the root of 2. -/
example : noiseAmp id (some .rms) [0, 3, 0] = some (some (1000 * Real.sqrt 2)) := by
  have h : ¬ (([0, 3, 0] : List ℝ) = [] ∨ ∃ c, ∀ v ∈ ([0, 3, 0] : List ℝ), v = c) := by
    rintro (h | ⟨c, h⟩)
    · simp at h
    · have h1 := h 0 (by simp)
      have h2 := h 3 (by simp)
      linarith
  obtain ⟨q, h1, ⟨⟨a, b, hq⟩, h3⟩, _⟩ := ((C128_noise id (some .rms) [0, 3, 0]).2 h).2.1 (Or.inl rfl)
  have hv : ∀ a b : ℝ, Spec.sumSq (Spec.minusLine a b [0, 3, 0]) = (a) ^ 2 + (3 - (a + b)) ^ 2 + (a + 2 * b) ^ 2 := by
    intro a b
    simp [Spec.sumSq, Spec.minusLine]
    ring
  have h4 : q ≤ 6 := h3 ⟨1, 0, by rw [hv]; norm_num⟩
  have h5 : 6 ≤ q := by
    rw [hq, hv]
    nlinarith [sq_nonneg (a + b - 1), sq_nonneg b]
  have : q = 6 := le_antisymm h4 h5
  rw [h1, this]
  norm_num

end QM
