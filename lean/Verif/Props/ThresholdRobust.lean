import Verif.Props.PipelineDynamic

/-!
# Thresholds that follow the data: large events (C144) and data gaps (C145)
-/

namespace QM
open QM.Trigger QM.Smooth QM.DetectRuns QM.DetectTrigger QM.ScanMseed QM.Detect
open Spec

/-! ## Specification -/

/-- More than half of the values lie between `lo` and `hi`. -/
def Spec.Mostly (lo hi : ℚ) (x : List ℚ) : Prop :=
  x.length < 2 * (x.filter (fun v => decide (lo ≤ v ∧ v ≤ hi))).length

/-- Less than half of the samples of each window of `n` samples of `D` lie between the times `u` and `v`. -/
def Spec.ShortInWindows (n : ℕ) (D : List Row) (u v : ℚ) : Prop :=
  ∀ i < D.length, 2 * (((D.drop (i / n * n)).take n).filter (fun r => decide (u ≤ r.dt ∧ r.dt ≤ v))).length <
    ((D.drop (i / n * n)).take n).length

/-- The static threshold, or the multiplier. -/
def Spec.multiplier : Method → ℚ
  | .static t => t
  | .mad _ mult => mult
  | .medianRatio _ mult => mult

/-- What a sample must reach to be triggered in a background between `lo` and `hi`. -/
def Spec.clearLevel (lo hi : ℚ) : Method → ℚ
  | .static t => t
  | .mad _ mult => hi + 14826 / 10000 * (hi - lo) * mult
  | .medianRatio _ mult => hi * mult

/-- The values are spread out: whichever level between `lo` and `hi` is chosen, more than half of them are at least `d`
away from it. -/
def Spec.SpreadOut (d lo hi : ℚ) (x : List ℚ) : Prop :=
  ∀ m, lo ≤ m → m ≤ hi → x.length < 2 * (x.filter (fun v => decide (d ≤ |v - m|))).length

/-- The detect call found no data for its timestep `i`. -/
def Spec.NoData (k : Call) (i : ℕ) : Prop :=
  k.outcome (window k.cfg k.start i) = .archiveEmpty ∨ k.outcome (window k.cfg k.start i) = .dataGap ∨
    k.outcome (window k.cfg k.start i) = .dataAvailability

/-! ## Medians -/

theorem mostly_ne {lo hi : ℚ} {x : List ℚ} (h : Spec.Mostly lo hi x) : x ≠ [] := by
  rintro rfl
  simp [Spec.Mostly] at h

theorem median_between {lo hi : ℚ} {x : List ℚ} (h : Spec.Mostly lo hi x) :
    lo ≤ npMedian x ∧ npMedian x ≤ hi := by
  obtain ⟨h1, h2⟩ := npMedian_halves (mostly_ne h)
  unfold Spec.Mostly at h
  constructor
  · by_contra hc
    have : (x.filter (fun v => decide (lo ≤ v ∧ v ≤ hi))).length ≤
        (x.filter (fun v => decide (npMedian x < v))).length := by
      rw [← List.countP_eq_length_filter, ← List.countP_eq_length_filter]
      apply List.countP_mono_left
      intro v _ hv
      simp only [decide_eq_true_eq] at hv ⊢
      linarith [not_le.1 hc]
    omega
  · by_contra hc
    have : (x.filter (fun v => decide (lo ≤ v ∧ v ≤ hi))).length ≤
        (x.filter (fun v => decide (v < npMedian x))).length := by
      rw [← List.countP_eq_length_filter, ← List.countP_eq_length_filter]
      apply List.countP_mono_left
      intro v _ hv
      simp only [decide_eq_true_eq] at hv ⊢
      linarith [not_le.1 hc]
    omega

theorem mad_between {lo hi : ℚ} {x : List ℚ} (h : Spec.Mostly lo hi x) :
    0 ≤ calculateMad x ∧ calculateMad x ≤ 14826 / 10000 * (hi - lo) := by
  have hm := median_between h
  have h1 : Spec.Mostly 0 (hi - lo) (x.map (fun v => |v - npMedian x|)) := by
    unfold Spec.Mostly at h ⊢
    rw [List.length_map, List.filter_map, List.length_map]
    have : (x.filter (fun v => decide (lo ≤ v ∧ v ≤ hi))).length ≤
        (x.filter ((fun v => decide (0 ≤ v ∧ v ≤ hi - lo)) ∘ fun v => |v - npMedian x|)).length := by
      rw [← List.countP_eq_length_filter, ← List.countP_eq_length_filter]
      apply List.countP_mono_left
      intro v _ hv
      simp only [Function.comp, decide_eq_true_eq] at hv ⊢
      refine ⟨abs_nonneg _, abs_le.2 ⟨?_, ?_⟩⟩ <;> linarith [hm.1, hm.2, hv.1, hv.2]
    omega
  have h2 := median_between h1
  unfold calculateMad
  constructor
  · exact mul_nonneg (by norm_num) h2.1
  · exact mul_le_mul_of_nonneg_left h2.2 (by norm_num)

/-- A median is not below what more than half of the values reach. -/
theorem median_ge {d : ℚ} {x : List ℚ} (h : x.length < 2 * (x.filter (fun v => decide (d ≤ v))).length) :
    d ≤ npMedian x := by
  have hne : x ≠ [] := by rintro rfl; simp at h
  obtain ⟨-, h2⟩ := npMedian_halves hne
  by_contra hc
  have : (x.filter (fun v => decide (d ≤ v))).length ≤ (x.filter (fun v => decide (npMedian x < v))).length := by
    rw [← List.countP_eq_length_filter, ← List.countP_eq_length_filter]
    apply List.countP_mono_left
    intro v _ hv
    simp only [decide_eq_true_eq] at hv ⊢
    linarith [not_le.1 hc]
  omega

theorem mad_ge {d lo hi : ℚ} {x : List ℚ} (h : Spec.Mostly lo hi x) (hs : Spec.SpreadOut d lo hi x) :
    14826 / 10000 * d ≤ calculateMad x := by
  obtain ⟨h1, h2⟩ := median_between h
  unfold calculateMad
  apply mul_le_mul_of_nonneg_left _ (by norm_num)
  apply median_ge
  rw [List.length_map, List.filter_map, List.length_map]
  exact hs _ h1 h2

/-! ## C144 -/

/-- **C144**, median ratio: the threshold at a sample is between the multiples of the bounds of the majority of the
values in its window. -/
theorem C144_median (window mult sr : ℚ) (data : List ℚ) (h : 1 ≤ window * sr) (hm : 0 ≤ mult) (lo hi : ℚ) (i : ℕ)
    (hi' : i < data.length) (hmost : Spec.Mostly lo hi (chunkAt data ⌊window * sr⌋.toNat i)) :
    ∃ t, (getThreshold (.medianRatio window mult) data sr)[i]? = some t ∧ lo * mult ≤ t ∧ t ≤ hi * mult := by
  obtain ⟨h1, h2⟩ := median_between hmost
  exact ⟨_, (C14_median_threshold window mult sr data h).2 i hi', mul_le_mul_of_nonneg_right h1 hm,
    mul_le_mul_of_nonneg_right h2 hm⟩

/-- **C144**, MAD: the threshold at a sample is bounded by the spread of the majority of the values in its window,
however large the others are. -/
theorem C144_mad (window mult sr : ℚ) (data : List ℚ) (h : 1 ≤ window * sr) (hm : 0 ≤ mult) (lo hi : ℚ) (i : ℕ)
    (hi' : i < data.length) (hmost : Spec.Mostly lo hi (chunkAt data ⌊window * sr⌋.toNat i)) :
    ∃ t, (getThreshold (.mad window mult) data sr)[i]? = some t ∧ lo ≤ t ∧
      t ≤ hi + 14826 / 10000 * (hi - lo) * mult := by
  obtain ⟨h1, h2⟩ := median_between hmost
  obtain ⟨h3, h4⟩ := mad_between hmost
  refine ⟨_, (C14_mad_threshold window mult sr data h).2 i hi', ?_, ?_⟩
  · linarith [mul_nonneg h3 hm]
  · linarith [mul_le_mul_of_nonneg_right h4 hm]

/-- **C144**, MAD: where the values in a window are spread out, the threshold is as much above the background as the
multiplier says. -/
theorem C144_mad_spread (window mult sr : ℚ) (data : List ℚ) (h : 1 ≤ window * sr) (hm : 0 ≤ mult) (d lo hi : ℚ) (i : ℕ)
    (hi' : i < data.length) (hmost : Spec.Mostly lo hi (chunkAt data ⌊window * sr⌋.toNat i))
    (hspread : Spec.SpreadOut d lo hi (chunkAt data ⌊window * sr⌋.toNat i)) :
    ∃ t, (getThreshold (.mad window mult) data sr)[i]? = some t ∧ lo + 14826 / 10000 * d * mult ≤ t ∧
      t ≤ hi + 14826 / 10000 * (hi - lo) * mult := by
  obtain ⟨h1, h2⟩ := median_between hmost
  obtain ⟨h3, h4⟩ := mad_between hmost
  have h5 := mad_ge hmost hspread
  refine ⟨_, (C14_mad_threshold window mult sr data h).2 i hi', ?_, ?_⟩
  · linarith [mul_le_mul_of_nonneg_right h5 hm]
  · linarith [mul_le_mul_of_nonneg_right h4 hm]

/-- Non-vacuity of `C144_mad_spread`: five values one apart, and one much larger. -/
example : Spec.Mostly 1 5 [1, 2, 100, 3, 4, 5] ∧ Spec.SpreadOut (1 / 2) 1 5 [1, 2, 100, 3, 4, 5] := by
  refine ⟨by unfold Spec.Mostly; decide +kernel, fun m h1 h2 => ?_⟩
  simp only [List.filter_cons, List.filter_nil, decide_eq_true_eq]
  have h100 : (1 / 2 : ℚ) ≤ |100 - m| := by rw [le_abs]; left; linarith
  have k : ∀ v w : ℚ, 1 ≤ |v - w| → ¬ (1 / 2 : ℚ) ≤ |v - m| → (1 / 2 : ℚ) ≤ |w - m| := by
    intro v w h4 h5
    rw [not_le, abs_lt] at h5
    rw [le_abs] at h4 ⊢
    rcases h4 with h4 | h4
    · right; linarith
    · left; linarith
  rw [if_pos h100]
  by_cases a1 : (1 / 2 : ℚ) ≤ |1 - m| <;> by_cases a2 : (1 / 2 : ℚ) ≤ |2 - m| <;>
    by_cases a3 : (1 / 2 : ℚ) ≤ |3 - m| <;> by_cases a4 : (1 / 2 : ℚ) ≤ |4 - m| <;>
    by_cases a5 : (1 / 2 : ℚ) ≤ |5 - m| <;> first
    | (simp only [a1, a2, a3, a4, a5, if_true, if_false]; norm_num; done)
    | exact absurd (k 1 2 (by norm_num) a1) a2
    | exact absurd (k 1 3 (by norm_num) a1) a3
    | exact absurd (k 1 4 (by norm_num) a1) a4
    | exact absurd (k 1 5 (by norm_num) a1) a5
    | exact absurd (k 2 3 (by norm_num) a2) a3
    | exact absurd (k 2 4 (by norm_num) a2) a4
    | exact absurd (k 2 5 (by norm_num) a2) a5
    | exact absurd (k 3 4 (by norm_num) a3) a4
    | exact absurd (k 3 5 (by norm_num) a3) a5
    | exact absurd (k 4 5 (by norm_num) a4) a5

theorem chunk_map (f : Row → ℚ) (D : List Row) (n i : ℕ) :
    chunkAt (D.map f) n i = ((D.drop (i / n * n)).take n).map f := by
  unfold chunkAt
  rw [← List.map_drop, ← List.map_take]

theorem mostly_of_short {n : ℕ} {D : List Row} {u v : ℚ} (hshort : Spec.ShortInWindows n D u v) {lo hi : ℚ}
    {f : Row → ℚ} (hback : ∀ r ∈ D, ¬ (u ≤ r.dt ∧ r.dt ≤ v) → lo ≤ f r ∧ f r ≤ hi) {i : ℕ} (hi' : i < D.length) :
    Spec.Mostly lo hi (chunkAt (D.map f) n i) := by
  have h := hshort i hi'
  rw [chunk_map]
  have hsub : ∀ r ∈ (D.drop (i / n * n)).take n, r ∈ D := fun r hr => List.mem_of_mem_drop (List.mem_of_mem_take hr)
  generalize (D.drop (i / n * n)).take n = C at h hsub
  unfold Spec.Mostly
  rw [List.length_map, List.filter_map, List.length_map]
  have h1 : (C.filter (fun r => !decide (u ≤ r.dt ∧ r.dt ≤ v))).length ≤
      (C.filter ((fun x => decide (lo ≤ x ∧ x ≤ hi)) ∘ f)).length := by
    rw [← List.countP_eq_length_filter, ← List.countP_eq_length_filter]
    apply List.countP_mono_left
    intro r hr hv
    simp only [Bool.not_eq_true', decide_eq_false_iff_not, Function.comp, decide_eq_true_eq] at hv ⊢
    exact hback r (hsub r hr) hv
  have h2 := List.length_eq_countP_add_countP (fun r : Row => decide (u ≤ r.dt ∧ r.dt ≤ v)) (l := C)
  rw [List.countP_eq_length_filter, List.countP_eq_length_filter] at h2
  have h3 : (C.filter (fun r => !decide (u ≤ r.dt ∧ r.dt ≤ v))) =
      C.filter (fun a => decide ¬(decide (u ≤ a.dt ∧ a.dt ≤ v)) = true) := by
    apply List.filter_congr
    intro r _
    by_cases h4 : u ≤ r.dt ∧ r.dt ≤ v <;> simp only [h4, decide_true, decide_false, not_true, not_false_iff] <;> rfl
  rw [h3] at h1
  omega

/-- **C144** (partial).  A burst between `u` and `v` in a background between `lo` and `hi`, that takes less than half
of each threshold window: whatever its values, if they are at least `hi * mult` (median ratio) or
`hi + 1.4826 * (hi - lo) * mult` (MAD), all its samples are at or above their thresholds.  Missing: the windows are
those of the record, the last of which is shorter than the others. -/
theorem C144_burst_partial (norm : Bool) (m : Method) (sr : ℚ) (n : ℕ) (hm : Spec.WindowSamples m sr n) (D : List Row)
    (u v lo hi : ℚ) (hshort : Spec.ShortInWindows n D u v)
    (hback : ∀ r ∈ D, ¬ (u ≤ r.dt ∧ r.dt ≤ v) → lo ≤ r.trig norm ∧ r.trig norm ≤ hi)
    (hmult : 0 ≤ Spec.multiplier m)
    (hburst : ∀ r ∈ D, u ≤ r.dt → r.dt ≤ v → Spec.clearLevel lo hi m ≤ r.trig norm) :
    ∀ r ∈ D, u ≤ r.dt → r.dt ≤ v → Spec.Triggers norm (getThreshold m (D.map (Row.trig norm)) sr) D r := by
  intro r hr h1 h2
  obtain ⟨i, hi'⟩ := List.mem_iff_getElem?.mp hr
  have hlt : i < D.length := (List.getElem?_eq_some_iff.mp hi').1
  have hlt' : i < (D.map (Row.trig norm)).length := by rw [List.length_map]; exact hlt
  have hmost := mostly_of_short hshort hback hlt
  have hb := hburst r hr h1 h2
  cases m with
  | static t =>
    refine ⟨i, t, hi', ?_, hb⟩
    rw [C14_static_threshold, List.getElem?_replicate, if_pos hlt']
  | mad window mult =>
    obtain ⟨hw, rfl⟩ := hm
    obtain ⟨t, ht, -, h3⟩ := C144_mad window mult sr _ hw hmult lo hi i hlt' hmost
    exact ⟨i, t, hi', ht, le_trans h3 hb⟩
  | medianRatio window mult =>
    obtain ⟨hw, rfl⟩ := hm
    obtain ⟨t, ht, -, h3⟩ := C144_median window mult sr _ hw hmult lo hi i hlt' hmost
    exact ⟨i, t, hi', ht, le_trans h3 hb⟩

/-- A burst, and what triggers, when all thresholds are between the background and the burst. -/
theorem burst_of_thresholds (norm : Bool) (m : Method) (sr : ℚ) (D : List Row) (u v hi level : ℚ)
    (hthr : ∀ i < D.length, ∃ t, (getThreshold m (D.map (Row.trig norm)) sr)[i]? = some t ∧ hi < t ∧ t ≤ level)
    (hback : ∀ r ∈ D, ¬ (u ≤ r.dt ∧ r.dt ≤ v) → r.trig norm ≤ hi)
    (hburst : ∀ r ∈ D, u ≤ r.dt → r.dt ≤ v → level ≤ r.trig norm)
    (q : Row) (hq : q ∈ D) (hq1 : u ≤ q.dt) (hq2 : q.dt ≤ v)
    (hmax : ∀ r ∈ D, u ≤ r.dt → r.dt ≤ v → r.coa ≤ q.coa) (hfirst : ∀ r ∈ D, u ≤ r.dt → r.dt < q.dt → r.coa < q.coa)
    (gap : ℚ) :
    (∀ r ∈ D, ¬ (u ≤ r.dt ∧ r.dt ≤ v) → ¬ Spec.Triggers norm (getThreshold m (D.map (Row.trig norm)) sr) D r) ∧
    Spec.Burst (Spec.Triggers norm (getThreshold m (D.map (Row.trig norm)) sr) D) gap D u v q := by
  have habove : ∀ r ∈ D, u ≤ r.dt → r.dt ≤ v → Spec.Triggers norm (getThreshold m (D.map (Row.trig norm)) sr) D r := by
    intro r hr h1 h2
    obtain ⟨i, hi'⟩ := List.mem_iff_getElem?.mp hr
    obtain ⟨t, h3, -, h4⟩ := hthr i (List.getElem?_eq_some_iff.mp hi').1
    exact ⟨i, t, hi', h3, le_trans h4 (hburst r hr h1 h2)⟩
  have hbelow : ∀ r ∈ D, ¬ (u ≤ r.dt ∧ r.dt ≤ v) →
      ¬ Spec.Triggers norm (getThreshold m (D.map (Row.trig norm)) sr) D r := by
    rintro r hr hout ⟨i, t, h1, h2, h3⟩
    obtain ⟨t', h4, h5, -⟩ := hthr i (List.getElem?_eq_some_iff.mp h1).1
    rw [h2] at h4
    cases h4
    have h6 : r.trig norm ≤ hi := hback r hr hout
    have h7 : t ≤ r.trig norm := h3
    linarith
  refine ⟨hbelow, hq, hq1, hq2, habove, hmax, hfirst, ?_, ?_⟩
  · intro r hr h1 h2
    exact absurd h2 (hbelow r hr (fun h => absurd h.2 (not_le.2 h1)))
  · intro r hr h1 h2
    exact absurd h2 (hbelow r hr (fun h => absurd h.1 (not_le.2 h1)))

/-- The thresholds between a quiet background and a burst, for a multiple of the median. -/
theorem thresholds_median (norm : Bool) (window mult sr : ℚ) (n : ℕ) (hw : 1 ≤ window * sr)
    (hn : n = ⌊window * sr⌋.toNat) (hmult : 0 ≤ mult) (D : List Row) (u v lo hi : ℚ) (hshort : Spec.ShortInWindows n D u v)
    (hback : ∀ r ∈ D, ¬ (u ≤ r.dt ∧ r.dt ≤ v) → lo ≤ r.trig norm ∧ r.trig norm ≤ hi) (hquiet : hi < lo * mult) :
    ∀ i < D.length, ∃ t, (getThreshold (.medianRatio window mult) (D.map (Row.trig norm)) sr)[i]? = some t ∧
      hi < t ∧ t ≤ hi * mult := by
  intro i hi'
  obtain ⟨t, h1, h2, h3⟩ := C144_median window mult sr (D.map (Row.trig norm)) hw hmult lo hi i
    (by rw [List.length_map]; exact hi') (hn ▸ mostly_of_short hshort hback hi')
  exact ⟨t, h1, lt_of_lt_of_le hquiet h2, h3⟩

/-- The thresholds between a spread out background and a burst, for the MAD. -/
theorem thresholds_mad (norm : Bool) (window mult sr : ℚ) (n : ℕ) (hw : 1 ≤ window * sr)
    (hn : n = ⌊window * sr⌋.toNat) (hmult : 0 ≤ mult) (D : List Row) (u v lo hi d : ℚ) (hshort : Spec.ShortInWindows n D u v)
    (hback : ∀ r ∈ D, ¬ (u ≤ r.dt ∧ r.dt ≤ v) → lo ≤ r.trig norm ∧ r.trig norm ≤ hi)
    (hspread : ∀ i < D.length, Spec.SpreadOut d lo hi (((D.drop (i / n * n)).take n).map (Row.trig norm)))
    (hwide : hi < lo + 14826 / 10000 * d * mult) :
    ∀ i < D.length, ∃ t, (getThreshold (.mad window mult) (D.map (Row.trig norm)) sr)[i]? = some t ∧
      hi < t ∧ t ≤ hi + 14826 / 10000 * (hi - lo) * mult := by
  intro i hi'
  obtain ⟨t, h1, h2, h3⟩ := C144_mad_spread window mult sr (D.map (Row.trig norm)) hw hmult d lo hi i
    (by rw [List.length_map]; exact hi') (hn ▸ mostly_of_short hshort hback hi')
    (by rw [← hn, chunk_map]; exact hspread i hi')
  exact ⟨t, h1, lt_of_lt_of_le hwide h2, h3⟩

/-- A trigger run over a record without gaps reports exactly one event, at the largest sample of the burst, when all
thresholds are between the background and the burst. -/
theorem one_event_of_thresholds (cfg : Trigger.Cfg) (hmw : 0 ≤ cfg.mw) (hmei : 0 ≤ cfg.mei) (m : Method) (sr : ℚ) (n : ℕ)
    (hm : Spec.WindowSamples m sr n) (region : Option Region)
    (D : List Row) (t0 δ : ℚ) (hδ : 0 < δ) (hD : Spec.Regular D t0 δ)
    (u v hi level : ℚ)
    (hthr : ∀ i < D.length, ∃ t, (getThreshold m (D.map (Row.trig cfg.norm)) sr)[i]? = some t ∧ hi < t ∧ t ≤ level)
    (hback : ∀ r ∈ D, ¬ (u ≤ r.dt ∧ r.dt ≤ v) → r.trig cfg.norm ≤ hi)
    (hburst : ∀ r ∈ D, u ≤ r.dt → r.dt ≤ v → level ≤ r.trig cfg.norm)
    (q : Row) (hq : q ∈ D) (hq1 : u ≤ q.dt) (hq2 : q.dt ≤ v)
    (hmax : ∀ r ∈ D, u ≤ r.dt → r.dt ≤ v → r.coa ≤ q.coa) (hfirst : ∀ r ∈ D, u ≤ r.dt → r.dt < q.dt → r.coa < q.coa)
    (hreg : Spec.RowIn region q)
    (pad : ℚ) (hpad : v - u + (cfg.mei + cfg.mw) + δ + n * δ ≤ pad) (s e : ℚ) (hs : s ≤ q.dt) (he : q.dt < e)
    (hal0 : ∃ k : ℤ, t0 = k * (n * δ)) (hald : ∃ k : ℤ, 86400 = k * (n * δ))
    (hals : ∃ k : ℤ, s = k * (n * δ)) (halp : ∃ k : ℤ, pad = k * (n * δ))
    (read : ℚ → ℚ → Option ScanData) (hread : Spec.ReadsFrom D pad read)
    (hrate : ∀ a b sd, read a b = some sd → sd.delta = δ ∧ sd.sr = sr)
    (hok : (trigger cfg m id region read s e).2 = none) :
    ∃ x, (trigger cfg m id region read s e).1.flatMap Prod.snd = [x] ∧
      x.coaTime = q.dt ∧ x.x = q.x ∧ x.y = q.y ∧ x.z = q.z ∧ x.coa = q.coa ∧ x.coaN = q.coaN := by
  obtain ⟨hbelow, hb⟩ := burst_of_thresholds cfg.norm m sr D u v hi level hthr hback hburst q hq
    hq1 hq2 hmax hfirst (cfg.mei + cfg.mw)
  have hb : Spec.Burst (Spec.Triggers cfg.norm (getThreshold m
      ((smoothCoa (fun _ => 1) 0 D).map (Row.trig cfg.norm)) sr) (smoothCoa (fun _ => 1) 0 D)) (cfg.mei + cfg.mw)
      (smoothCoa (fun _ => 1) 0 D) u v q := by
    rw [smoothCoa_none]
    exact hb
  have hpad' : v - u + (cfg.mei + cfg.mw) + δ + ((0 : ℕ) + 1) * (n * δ) ≤ pad := by push_cast; linarith
  have hse : s ≤ e := by linarith
  have hpad2 : ((0 : ℕ) + 1) * (n * δ) ≤ pad := by
    push_cast
    have : 0 ≤ v - u := by linarith
    linarith
  obtain ⟨h1, -⟩ := C112_dynamic_partial cfg hmw hmei m sr n hm region (fun _ => 1) 0 0 (by omega) D
    t0 δ hδ hD u v q hb pad hpad' s e hs he hal0 hald hals halp read hread hrate (by rw [smoothCoa_none]; exact hok)
  obtain ⟨h2, -⟩ := reported_triggers cfg hmw hmei m sr n hm region (fun _ => 1) 0 0 (by omega) D
    t0 δ hδ hD pad hpad2 s e hse hal0 hald hals halp read hread hrate (by rw [smoothCoa_none]; exact hok)
  rw [smoothCoa_none] at h1 h2
  obtain ⟨x, h3, h4, h5, h6, h7, h8, h9, h10, -⟩ := h1 hreg
  refine ⟨x, ?_, h4, h6, h7, h8, h9, h10⟩
  rw [← h3, eq_comm, List.filter_eq_self]
  intro y hy
  obtain ⟨z, hz, hz1, hz2⟩ := h2 y hy
  by_contra hc
  simp only [decide_eq_true_eq] at hc
  exact hbelow z hz (by rw [hz1]; exact hc) hz2

/-- **C144** (partial), median ratio: if moreover the background is less than `mult` times its lower bound, a trigger
run over a record without gaps reports exactly one event, at the largest sample of the burst.  Missing: as for
`C112_dynamic_partial`, the midnights, the start and the pad are whole numbers of threshold windows. -/
theorem C144_one_event_partial (cfg : Trigger.Cfg) (hmw : 0 ≤ cfg.mw) (hmei : 0 ≤ cfg.mei) (window mult sr : ℚ) (n : ℕ)
    (hw : 1 ≤ window * sr) (hn : n = ⌊window * sr⌋.toNat) (hmult : 0 ≤ mult) (region : Option Region)
    (D : List Row) (t0 δ : ℚ) (hδ : 0 < δ) (hD : Spec.Regular D t0 δ)
    (u v lo hi : ℚ) (hshort : Spec.ShortInWindows n D u v)
    (hback : ∀ r ∈ D, ¬ (u ≤ r.dt ∧ r.dt ≤ v) → lo ≤ r.trig cfg.norm ∧ r.trig cfg.norm ≤ hi) (hquiet : hi < lo * mult)
    (hburst : ∀ r ∈ D, u ≤ r.dt → r.dt ≤ v → hi * mult ≤ r.trig cfg.norm)
    (q : Row) (hq : q ∈ D) (hq1 : u ≤ q.dt) (hq2 : q.dt ≤ v)
    (hmax : ∀ r ∈ D, u ≤ r.dt → r.dt ≤ v → r.coa ≤ q.coa) (hfirst : ∀ r ∈ D, u ≤ r.dt → r.dt < q.dt → r.coa < q.coa)
    (hreg : Spec.RowIn region q)
    (pad : ℚ) (hpad : v - u + (cfg.mei + cfg.mw) + δ + n * δ ≤ pad) (s e : ℚ) (hs : s ≤ q.dt) (he : q.dt < e)
    (hal0 : ∃ k : ℤ, t0 = k * (n * δ)) (hald : ∃ k : ℤ, 86400 = k * (n * δ))
    (hals : ∃ k : ℤ, s = k * (n * δ)) (halp : ∃ k : ℤ, pad = k * (n * δ))
    (read : ℚ → ℚ → Option ScanData) (hread : Spec.ReadsFrom D pad read)
    (hrate : ∀ a b sd, read a b = some sd → sd.delta = δ ∧ sd.sr = sr)
    (hok : (trigger cfg (.medianRatio window mult) id region read s e).2 = none) :
    ∃ x, (trigger cfg (.medianRatio window mult) id region read s e).1.flatMap Prod.snd = [x] ∧
      x.coaTime = q.dt ∧ x.x = q.x ∧ x.y = q.y ∧ x.z = q.z ∧ x.coa = q.coa ∧ x.coaN = q.coaN := by
  exact one_event_of_thresholds cfg hmw hmei (.medianRatio window mult) sr n ⟨hw, hn⟩ region D t0 δ hδ hD u v hi (hi * mult)
    (thresholds_median cfg.norm window mult sr n hw hn hmult D u v lo hi hshort hback hquiet)
    (fun r hr h => (hback r hr h).2) hburst q hq hq1 hq2 hmax hfirst hreg pad hpad s e hs he hal0 hald hals halp read
    hread hrate hok

/-- **C144** (partial), MAD: if moreover the background of each window is spread out enough for the multiplier, a trigger
run over a record without gaps reports exactly one event, at the largest sample of the burst.  Missing: as for
`C112_dynamic_partial`, the midnights, the start and the pad are whole numbers of threshold windows. -/
theorem C144_one_event_mad_partial (cfg : Trigger.Cfg) (hmw : 0 ≤ cfg.mw) (hmei : 0 ≤ cfg.mei) (window mult sr : ℚ) (n : ℕ)
    (hw : 1 ≤ window * sr) (hn : n = ⌊window * sr⌋.toNat) (hmult : 0 ≤ mult) (region : Option Region)
    (D : List Row) (t0 δ : ℚ) (hδ : 0 < δ) (hD : Spec.Regular D t0 δ)
    (u v lo hi d : ℚ) (hshort : Spec.ShortInWindows n D u v)
    (hback : ∀ r ∈ D, ¬ (u ≤ r.dt ∧ r.dt ≤ v) → lo ≤ r.trig cfg.norm ∧ r.trig cfg.norm ≤ hi)
    (hspread : ∀ i < D.length, Spec.SpreadOut d lo hi (((D.drop (i / n * n)).take n).map (Row.trig cfg.norm)))
    (hwide : hi < lo + 14826 / 10000 * d * mult)
    (hburst : ∀ r ∈ D, u ≤ r.dt → r.dt ≤ v → hi + 14826 / 10000 * (hi - lo) * mult ≤ r.trig cfg.norm)
    (q : Row) (hq : q ∈ D) (hq1 : u ≤ q.dt) (hq2 : q.dt ≤ v)
    (hmax : ∀ r ∈ D, u ≤ r.dt → r.dt ≤ v → r.coa ≤ q.coa) (hfirst : ∀ r ∈ D, u ≤ r.dt → r.dt < q.dt → r.coa < q.coa)
    (hreg : Spec.RowIn region q)
    (pad : ℚ) (hpad : v - u + (cfg.mei + cfg.mw) + δ + n * δ ≤ pad) (s e : ℚ) (hs : s ≤ q.dt) (he : q.dt < e)
    (hal0 : ∃ k : ℤ, t0 = k * (n * δ)) (hald : ∃ k : ℤ, 86400 = k * (n * δ))
    (hals : ∃ k : ℤ, s = k * (n * δ)) (halp : ∃ k : ℤ, pad = k * (n * δ))
    (read : ℚ → ℚ → Option ScanData) (hread : Spec.ReadsFrom D pad read)
    (hrate : ∀ a b sd, read a b = some sd → sd.delta = δ ∧ sd.sr = sr)
    (hok : (trigger cfg (.mad window mult) id region read s e).2 = none) :
    ∃ x, (trigger cfg (.mad window mult) id region read s e).1.flatMap Prod.snd = [x] ∧
      x.coaTime = q.dt ∧ x.x = q.x ∧ x.y = q.y ∧ x.z = q.z ∧ x.coa = q.coa ∧ x.coaN = q.coaN := by
  exact one_event_of_thresholds cfg hmw hmei (.mad window mult) sr n ⟨hw, hn⟩ region D t0 δ hδ hD u v hi _
    (thresholds_mad cfg.norm window mult sr n hw hn hmult D u v lo hi d hshort hback hspread hwide)
    (fun r hr h => (hback r hr h).2) hburst q hq hq1 hq2 hmax hfirst hreg pad hpad s e hs he hal0 hald hals halp read
    hread hrate hok

/-- **C144** does not hold without the last window: a burst of two samples at the end of the record, when they are alone
in the last threshold window, is not triggered however large it is. -/
theorem C144_violated_last_window (window mult sr : ℚ) (hw : 2 ≤ window * sr) (hm : 3 / 2 ≤ mult) (back : List ℚ)
    (k : ℕ) (hk : back.length = k * ⌊window * sr⌋.toNat) (b : ℚ) (hb : 0 < b) :
    (∃ t, (getThreshold (.mad window mult) (back ++ [b, 2 * b]) sr)[back.length + 1]? = some t ∧ 2 * b < t) ∧
    (∃ t, (getThreshold (.medianRatio window mult) (back ++ [b, 2 * b]) sr)[back.length + 1]? = some t ∧ 2 * b < t) := by
  have hn : 2 ≤ ⌊window * sr⌋.toNat := by
    have : 2 ≤ ⌊window * sr⌋ := Int.le_floor.mpr (by exact_mod_cast hw)
    omega
  have hc : chunkAt (back ++ [b, 2 * b]) ⌊window * sr⌋.toNat (back.length + 1) = [b, 2 * b] := by
    unfold chunkAt
    generalize ⌊window * sr⌋.toNat = n at hk hn
    have h1 : (back.length + 1) / n * n = back.length := by
      rw [hk, Nat.add_comm, Nat.add_mul_div_right _ _ (by omega), Nat.div_eq_of_lt (by omega), Nat.zero_add]
    rw [h1, List.drop_left, List.take_of_length_le (by simpa using hn)]
  have hmed : npMedian [b, 2 * b] = 3 / 2 * b := by
    unfold npMedian
    have : [b, 2 * b].insertionSort (· ≤ ·) = [b, 2 * b] := by
      apply List.Pairwise.insertionSort_eq
      simp only [List.pairwise_cons, List.mem_singleton, forall_eq]
      refine ⟨by linarith, by simp, List.Pairwise.nil⟩
    simp only [this]
    simp
    ring
  have hmad : calculateMad [b, 2 * b] = 7413 / 10000 * b := by
    unfold calculateMad
    rw [hmed]
    have h1 : [b, 2 * b].map (fun v => |v - 3 / 2 * b|) = [b / 2, b / 2] := by
      simp only [List.map_cons, List.map_nil]
      rw [show b - 3 / 2 * b = -(b / 2) by ring, show 2 * b - 3 / 2 * b = b / 2 by ring, abs_neg,
        abs_of_pos (by linarith)]
    rw [h1]
    have h2 : npMedian [b / 2, b / 2] = b / 2 := by
      unfold npMedian
      have : [b / 2, b / 2].insertionSort (· ≤ ·) = [b / 2, b / 2] := by
        simp [List.insertionSort, List.orderedInsert]
      simp only [this]
      simp
    rw [h2]
    ring
  have hlen : back.length + 1 < (back ++ [b, 2 * b]).length := by simp
  constructor
  · refine ⟨_, (C14_mad_threshold window mult sr _ (by linarith)).2 _ hlen, ?_⟩
    rw [hc, hmed, hmad]
    nlinarith
  · refine ⟨_, (C14_median_threshold window mult sr _ (by linarith)).2 _ hlen, ?_⟩
    rw [hc, hmed]
    nlinarith

/-! ## C145 -/

theorem median_pos {x : List ℚ} (h : x.length < 2 * (x.filter (fun v => decide (0 < v))).length) : 0 < npMedian x := by
  have hne : x ≠ [] := by rintro rfl; simp at h
  obtain ⟨-, h2⟩ := npMedian_halves hne
  by_contra hc
  have : (x.filter (fun v => decide (0 < v))).length ≤ (x.filter (fun v => decide (npMedian x < v))).length := by
    rw [← List.countP_eq_length_filter, ← List.countP_eq_length_filter]
    apply List.countP_mono_left
    intro v _ hv
    simp only [decide_eq_true_eq] at hv ⊢
    linarith [not_lt.1 hc]
  omega

/-- A sample of a timestep without data is stored as zero. -/
private theorem gap_zero {sr : ℕ} {k : Call} (h : Spec.GoodCall sr k) {i : ℕ} (hgap : Spec.NoData k i) {p : ℚ × Sample}
    (hp : p ∈ Spec.computed k) (h1 : k.start + k.cfg.timestep * i ≤ p.1)
    (h2 : p.1 < k.start + k.cfg.timestep * (i + 1)) (norm : Bool) :
    Spec.trigValue norm (storedRow k.cfg.ucf p) = 0 := by
  have hsr : (0 : ℚ) < sr := by exact_mod_cast h.rate_pos
  obtain ⟨m, hm0, hm, hdata⟩ := h.whole
  have hts : 0 < k.cfg.timestep := by
    have h3 : (0 : ℚ) < m := by exact_mod_cast hm0
    by_contra hc
    have h4 := mul_nonpos_of_nonpos_of_nonneg (not_lt.1 hc) hsr.le
    linarith
  have hfl : ⌊k.cfg.timestep * (k.cfg.scanRate : ℚ)⌋.toNat = m := by
    rw [h.rate, hm]; simp
  unfold Spec.computed at hp
  obtain ⟨j, -, hp⟩ := List.mem_flatMap.mp hp
  unfold Spec.stepComputed at hp
  obtain ⟨⟨v, l⟩, hq, rfl⟩ := List.mem_map.mp hp
  have hq' := List.mem_zipIdx_iff_getElem?.mp hq
  simp only at hq' h1 h2
  have hl : l < m := by
    have h3 := (List.getElem?_eq_some_iff.mp hq').1
    revert h3
    cases ho : k.outcome (window k.cfg k.start j) with
    | ok data av => intro h3; rwa [hdata j data av ho] at h3
    | _ => intro h3; simp only [List.length_replicate, hfl] at h3; exact h3
  have hl' : (l : ℚ) / k.cfg.scanRate < k.cfg.timestep := by
    rw [h.rate, div_lt_iff₀ hsr, hm]
    exact_mod_cast hl
  have hl0 : (0 : ℚ) ≤ (l : ℚ) / k.cfg.scanRate := by positivity
  have hji : j = i := by
    have h3 : (i : ℚ) < j + 1 := by
      have : k.cfg.timestep * i < k.cfg.timestep * (j + 1) := by linarith
      exact lt_of_mul_lt_mul_left this hts.le
    have h4 : (j : ℚ) < i + 1 := by
      have : k.cfg.timestep * j < k.cfg.timestep * (i + 1) := by linarith
      exact lt_of_mul_lt_mul_left this hts.le
    have h5 : i < j + 1 := by exact_mod_cast h3
    have h6 : j < i + 1 := by exact_mod_cast h4
    omega
  subst hji
  have hv : v = ⟨0, 0, 0, 0, 0⟩ := by
    rcases hgap with hg | hg | hg <;>
    · rw [hg] at hq'
      simp only at hq'
      have h3 := List.mem_of_getElem? hq'
      exact List.eq_of_mem_replicate h3
  subst hv
  have h0 : data2int (clip 0) 100000 = 0 := by decide +kernel
  cases norm <;> simp [Spec.trigValue, storedRow, rowAt, decode, encode, h0]


/-- **C145** (partial), static threshold.  `detect` then `trigger` over a part of the period scanned: no event is
reported at a time for which `detect` found no data.  Missing: smoothing is off, and the other threshold methods. -/
theorem C145_static_partial (sr : ℕ) (k : Call) (h : Spec.GoodCall sr k) (hclean : Spec.Clean k)
    (halive : k.killed = .never) (jul : ℤ → ℕ) (hjul : ∀ d, jul d ≠ jul (d + 1)) (order : Availability.Table → List ℤ)
    (cfg : Trigger.Cfg) (hmw : 0 ≤ cfg.mw) (t : ℚ) (ht : 0 < t) (region : Option Region) (pad s e : ℚ)
    (hpad : ∃ i : ℕ, pad = i / (sr : ℚ)) (hs : ∃ i : ℤ, s = i / (sr : ℚ)) (he : ∃ i : ℤ, e = i / (sr : ℚ))
    (hfrom : k.start ≤ s) (hto : e ≤ k.start + k.cfg.timestep * (Spec.steps k : ℚ)) (hse : s ≤ e) :
    ∃ res, detectTrigger jul order Spec.newDir k cfg (.static t) id region pad s e = some (res, none) ∧
      ∀ x ∈ res.flatMap Prod.snd, ∀ i, Spec.NoData k i →
        ¬ (k.start + k.cfg.timestep * i ≤ x.coaTime ∧ x.coaTime < k.start + k.cfg.timestep * (i + 1)) := by
  obtain ⟨dir, read', hdir, htrig, hok, hreads, hdelta, hDsort, hCsort, -⟩ := detect_read h hclean halive jul
    hjul order cfg (.static t) id region pad s e hpad hs he hfrom hto hse
  refine ⟨(trigger cfg (.static t) id region read' s e).1, ?_, ?_⟩
  · unfold detectTrigger
    rw [hdir]
    simp only
    rw [htrig, ← hok]
  · rintro x hx i hgap ⟨h1, h2⟩
    obtain ⟨r, hr, h3, h4⟩ := event_level hmw hDsort hreads hse hx
    obtain ⟨p, hp, rfl⟩ := List.mem_map.mp hr
    have h5 : p.1 = x.coaTime := h3
    rw [gap_zero h hgap hp (by rw [h5]; exact h1) (by rw [h5]; exact h2)] at h4
    linarith

/-- **C145** (partial), thresholds that follow the data: no event is reported at a time without data if in every
threshold window more than half of the values are positive.  Missing: windows with fewer; smoothing is off; the
midnights, both starts and the pad are whole numbers of windows. -/
theorem C145_dynamic_partial (sr : ℕ) (k : Call) (h : Spec.GoodCall sr k) (hclean : Spec.Clean k)
    (halive : k.killed = .never) (jul : ℤ → ℕ) (hjul : ∀ d, jul d ≠ jul (d + 1)) (order : Availability.Table → List ℤ)
    (cfg : Trigger.Cfg) (hmw : 0 ≤ cfg.mw) (hmei : 0 ≤ cfg.mei) (m : Method) (n : ℕ) (hm : Spec.WindowSamples m sr n)
    (hmult : 0 < Spec.multiplier m)
    (region : Option Region) (pad s e : ℚ)
    (hald : ∃ i : ℤ, 86400 = i * (n * (1 / (sr : ℚ)))) (halk : ∃ i : ℤ, k.start = i * (n * (1 / (sr : ℚ))))
    (hals : ∃ i : ℤ, s = i * (n * (1 / (sr : ℚ)))) (halp : ∃ i : ℕ, pad = i * (n * (1 / (sr : ℚ))))
    (hpad1 : n * (1 / (sr : ℚ)) ≤ pad) (he : ∃ i : ℤ, e = i / (sr : ℚ))
    (hfrom : k.start ≤ s) (hto : e ≤ k.start + k.cfg.timestep * (Spec.steps k : ℚ)) (hse : s ≤ e)
    (hpos : ∀ i < (Spec.computed k).length,
      (chunkAt (((Spec.computed k).map (storedRow k.cfg.ucf)).map (Row.trig cfg.norm)) n i).length <
      2 * ((chunkAt (((Spec.computed k).map (storedRow k.cfg.ucf)).map (Row.trig cfg.norm)) n i).filter
        (fun v => decide (0 < v))).length) :
    ∃ res, detectTrigger jul order Spec.newDir k cfg m id region pad s e = some (res, none) ∧
      ∀ x ∈ res.flatMap Prod.snd, ∀ i, Spec.NoData k i →
        ¬ (k.start + k.cfg.timestep * i ≤ x.coaTime ∧ x.coaTime < k.start + k.cfg.timestep * (i + 1)) := by
  have hsr' : (0 : ℚ) < sr := by exact_mod_cast h.rate_pos
  have hpad : ∃ i : ℕ, pad = i / (sr : ℚ) := by
    obtain ⟨i, hi⟩ := halp
    exact ⟨i * n, by rw [hi]; push_cast; ring⟩
  have hs : ∃ i : ℤ, s = i / (sr : ℚ) := by
    obtain ⟨i, hi⟩ := hals
    exact ⟨i * n, by rw [hi]; push_cast; ring⟩
  obtain ⟨dir, read', hdir, htrig, hok, hreads, hdelta, hDsort, hCsort, -, hrate, hreg⟩ := detect_read h hclean
    halive jul hjul order cfg m id region pad s e hpad hs he hfrom hto hse
  refine ⟨(trigger cfg m id region read' s e).1, ?_, ?_⟩
  · unfold detectTrigger
    rw [hdir]
    simp only
    rw [htrig, ← hok]
  · rintro x hx i hgap ⟨h1, h2⟩
    obtain ⟨h3, -⟩ := reported_triggers cfg hmw hmei m sr n hm region (fun _ => 1) 0 0 (by omega) _ k.start
      (1 / (sr : ℚ)) (by positivity) hreg pad (by push_cast; linarith) s e hse halk hald hals
      (by obtain ⟨i, hi⟩ := halp; exact ⟨i, by rw [hi]; push_cast; ring⟩) read' hreads
      (fun a b sd hsd => ⟨hdelta a b sd hsd, hrate a b sd hsd⟩) (by rw [smoothCoa_none]; exact hok)
    rw [smoothCoa_none] at h3
    obtain ⟨y, hy, h4, j, t, h5, h6, h7⟩ := h3 x hx
    simp only [id] at hy h5 h6
    obtain ⟨p, hp, rfl⟩ := List.mem_map.mp hy
    have h8 : p.1 = x.coaTime := h4
    rw [gap_zero h hgap hp (by rw [h8]; exact h1) (by rw [h8]; exact h2)] at h7
    have hj : j < (Spec.computed k).length := by
      have := (List.getElem?_eq_some_iff.mp h5).1
      rwa [List.length_map] at this
    have hmed := median_pos (hpos j hj)
    have hne : chunkAt (((Spec.computed k).map (storedRow k.cfg.ucf)).map (Row.trig cfg.norm)) n j ≠ [] := by
      intro hc
      have := hpos j hj
      rw [hc] at this
      simp at this
    cases m with
    | static t0 =>
      rw [C14_static_threshold] at h6
      have := List.eq_of_mem_replicate (List.mem_of_getElem? h6)
      simp only [Spec.multiplier] at hmult
      linarith
    | mad wd mult =>
      obtain ⟨hw, rfl⟩ := hm
      rw [(C14_mad_threshold wd mult sr _ hw).2 j (by simpa using hj)] at h6
      cases h6
      have := mul_nonneg (C46_mad_equivariant _ _ hne (List.Perm.refl _) 0 0).1 (show 0 ≤ mult from hmult.le)
      linarith
    | medianRatio wd mult =>
      obtain ⟨hw, rfl⟩ := hm
      rw [(C14_median_threshold wd mult sr _ hw).2 j (by simpa using hj)] at h6
      cases h6
      have := mul_pos hmed (show 0 < mult from hmult)
      linarith

/-- **C145** does not hold for the thresholds that follow the data: with any multiplier, every sample of a window that is
zero for the most part has the threshold zero, and so is triggered. -/
theorem C145_violated_window (window mult sr : ℚ) (data : List ℚ) (h : 1 ≤ window * sr) (i : ℕ) (hi : i < data.length)
    (hmost : Spec.Mostly 0 0 (chunkAt data ⌊window * sr⌋.toNat i)) :
    (getThreshold (.mad window mult) data sr)[i]? = some 0 ∧
    (getThreshold (.medianRatio window mult) data sr)[i]? = some 0 := by
  obtain ⟨h1, h2⟩ := median_between hmost
  obtain ⟨h3, h4⟩ := mad_between hmost
  have h5 : npMedian (chunkAt data ⌊window * sr⌋.toNat i) = 0 := le_antisymm h2 h1
  have h6 : calculateMad (chunkAt data ⌊window * sr⌋.toNat i) = 0 := by linarith
  rw [(C14_mad_threshold window mult sr data h).2 i hi, (C14_median_threshold window mult sr data h).2 i hi, h5, h6]
  simp

/-- Data for four seconds, none for four, data for four. -/
def gapCall : Call :=
  ⟨exDetCfg2, 86400, 86412, fun w =>
    if w.1 + exDetCfg2.prePad = 86404 ∨ w.1 + exDetCfg2.prePad = 86406 then .archiveEmpty
    else if w.1 + exDetCfg2.prePad = 86400 ∨ w.1 + exDetCfg2.prePad = 86408 then
      .ok [⟨1, 1, 10, 20, 1⟩, ⟨2, 2, 10, 20, 1⟩] (fun _ => 1)
    else .ok [⟨3, 3, 10, 20, 1⟩, ⟨2, 2, 10, 20, 1⟩] (fun _ => 1), false, .never⟩

private theorem gap_batches : batches 86400 86412 = [(86400, 86412)] := by
  rw [batches_cons (by norm_num)]
  have h2 : dayStart 86400 = 86400 := by decide +kernel
  rw [h2]; simp only [DAY]; norm_num
  exact batches_of_le (by norm_num)

/-- **C145** does not hold for the thresholds that follow the data: an event is reported in the middle of a gap, at the
coordinates (0, 0, 0) and with coalescence zero, with the MAD method as with the median ratio. -/
theorem C145_violated (m : Method) (hm : m = .mad 4 8 ∨ m = .medianRatio 4 2) :
    Spec.NoData gapCall 2 ∧ ∃ ev, detectTrigger exJul exOrder Spec.newDir gapCall ⟨1, 2, false⟩ m id none 4 86400 86412 =
        some ([((86400, 86412), [ev])], none) ∧
      ev.coaTime = 86404 ∧ ev.coa = 0 ∧ ev.x = 0 ∧ ev.y = 0 ∧ ev.z = 0 := by
  refine ⟨Or.inl (if_pos (by decide +kernel)), ?_⟩
  have h1 : (DetectRuns.call exJul exOrder Spec.newDir gapCall).map (fun dir =>
      (readBatch 1 exDetCfg2.ucf 4 dir.scan 86400 86412).map fun sd =>
        (triggerBatch ⟨1, 2, false⟩ m id none 86400 86412 sd).1.map
          fun ev => [ev.coaTime, ev.coa, ev.x, ev.y, ev.z]) = some (some [[86404, 0, 0, 0, 0]]) := by
    rcases hm with rfl | rfl <;> decide +kernel
  cases hc : DetectRuns.call exJul exOrder Spec.newDir gapCall with
  | none => rw [hc] at h1; simp at h1
  | some dir =>
    rw [hc] at h1
    simp only [Option.map_some, Option.some.injEq] at h1
    cases hr : readBatch 1 exDetCfg2.ucf 4 dir.scan 86400 86412 with
    | none => rw [hr] at h1; simp at h1
    | some sd =>
      rw [hr] at h1
      simp only [Option.map_some, Option.some.injEq] at h1
      obtain ⟨ev, tl, h2, h3, h4⟩ := List.map_eq_cons_iff.mp h1
      rw [List.map_eq_nil_iff] at h4
      subst h4
      simp only [List.cons.injEq, and_true] at h3
      refine ⟨ev, ?_, h3⟩
      have h5 : readBatch gapCall.cfg.scanRate gapCall.cfg.ucf 4 dir.scan 86400 86412 = some sd := hr
      unfold detectTrigger
      rw [hc]
      simp only
      unfold trigger
      rw [if_neg (by norm_num), gap_batches]
      simp only [runBatches, h5, h2]

/-! ## The hypotheses are met -/

/-- The gap of `gapCall` takes none of the static threshold's attention. -/
example (jul : ℤ → ℕ) (hjul : ∀ d, jul d ≠ jul (d + 1)) (order : Availability.Table → List ℤ) : Spec.NoData gapCall 2 ∧
    ∃ res, detectTrigger jul order Spec.newDir gapCall ⟨1, 2, false⟩ (.static 2) id none 4 86400 86412 = some (res, none) ∧
      ∀ x ∈ res.flatMap Prod.snd, ∀ i, Spec.NoData gapCall i →
        ¬ (gapCall.start + gapCall.cfg.timestep * i ≤ x.coaTime ∧
          x.coaTime < gapCall.start + gapCall.cfg.timestep * (i + 1)) := by
  refine ⟨Or.inl (if_pos (by decide +kernel)), ?_⟩
  apply C145_static_partial 1 gapCall ?_ ?_ rfl jul hjul order _ (by norm_num) 2 (by norm_num) none 4 86400 86412
    ⟨4, by norm_num⟩ ⟨86400, by norm_num⟩ ⟨86412, by norm_num⟩ (by norm_num [gapCall]) (by decide +kernel) (by norm_num)
  · refine ⟨rfl, by norm_num, ⟨2, by norm_num, by norm_num [gapCall, exDetCfg2], ?_⟩,
      by norm_num [gapCall, exDetCfg2], ⟨86400, by simp [gapCall]⟩, by decide +kernel⟩
    intro w data avail hw
    simp only [gapCall] at hw
    split at hw
    · simp at hw
    split at hw
    · simp only [Outcome.ok.injEq] at hw; rw [← hw.1]; rfl
    · simp only [Outcome.ok.injEq] at hw; rw [← hw.1]; rfl
  · intro i _
    simp only [gapCall]
    split
    · simp
    split
    · simp
    · simp

/-- A coalescence that goes from 1 to 5 every five seconds, with a sample of 50 at midnight. -/
def swellScan : List Row :=
  (List.range 40).map fun i : ℕ =>
    if i = 20 then ⟨86400, 50, 50, 0, 0, 0⟩ else ⟨86380 + i, 1 + (i % 5 : ℕ), 1 + (i % 5 : ℕ), 0, 0, 0⟩

theorem spread_five (x : ℚ) (hx : x = 1 ∨ x = 50) : Spec.SpreadOut (1 / 2) 1 5 [x, 2, 3, 4, 5] := by
  intro m h1 h2
  simp only [List.filter_cons, List.filter_nil, decide_eq_true_eq]
  have k : ∀ v w : ℚ, 1 ≤ |v - w| → ¬ (1 / 2 : ℚ) ≤ |v - m| → (1 / 2 : ℚ) ≤ |w - m| := by
    intro v w h4 h5
    rw [not_le, abs_lt] at h5
    rw [le_abs] at h4 ⊢
    rcases h4 with h4 | h4
    · right; linarith
    · left; linarith
  have kx : ∀ w : ℚ, 2 ≤ w → w ≤ 5 → 1 ≤ |x - w| := by
    intro w h3 h4
    rw [le_abs]
    rcases hx with rfl | rfl
    · right; linarith
    · left; linarith
  by_cases a1 : (1 / 2 : ℚ) ≤ |x - m| <;> by_cases a2 : (1 / 2 : ℚ) ≤ |2 - m| <;>
    by_cases a3 : (1 / 2 : ℚ) ≤ |3 - m| <;> by_cases a4 : (1 / 2 : ℚ) ≤ |4 - m| <;>
    by_cases a5 : (1 / 2 : ℚ) ≤ |5 - m| <;> first
    | (simp only [a1, a2, a3, a4, a5, if_true, if_false]; norm_num; done)
    | exact absurd (k x 2 (kx 2 (by norm_num) (by norm_num)) a1) a2
    | exact absurd (k x 3 (kx 3 (by norm_num) (by norm_num)) a1) a3
    | exact absurd (k x 4 (kx 4 (by norm_num) (by norm_num)) a1) a4
    | exact absurd (k x 5 (kx 5 (by norm_num) (by norm_num)) a1) a5
    | exact absurd (k 2 3 (by norm_num) a2) a3
    | exact absurd (k 2 4 (by norm_num) a2) a4
    | exact absurd (k 2 5 (by norm_num) a2) a5
    | exact absurd (k 3 4 (by norm_num) a3) a4
    | exact absurd (k 3 5 (by norm_num) a3) a5
    | exact absurd (k 4 5 (by norm_num) a4) a5

/-- With a threshold of 6 MAD above the median of five seconds, this sample is the only event. -/
example : ∃ x, (trigger ⟨1, 2, true⟩ (.mad 5 6) id none (readScan swellScan 20) 86390 86410).1.flatMap Prod.snd = [x] ∧
    x.coaTime = 86400 := by
  have hrate : ∀ a b sd, readScan swellScan 20 a b = some sd → sd.delta = 1 ∧ sd.sr = 1 := by
    intro a b sd h
    simp only [readScan, Option.some.injEq] at h
    rw [← h]; exact ⟨rfl, rfl⟩
  have hreg : Spec.Regular swellScan 86380 1 := by
    intro i r h
    have hi := (List.getElem?_eq_some_iff.mp h).1
    simp only [swellScan, List.length_map, List.length_range] at hi
    simp only [swellScan, List.getElem?_map, List.getElem?_range hi, Option.map_some, Option.some.injEq] at h
    rw [← h]
    split
    · subst i; norm_num
    · simp
  have hwin : ∀ i < swellScan.length, ((swellScan.drop (i / 5 * 5)).take 5).map (Row.trig true) = [1, 2, 3, 4, 5] ∨
      ((swellScan.drop (i / 5 * 5)).take 5).map (Row.trig true) = [50, 2, 3, 4, 5] := by decide +kernel
  obtain ⟨x, h1, h2, -⟩ := C144_one_event_mad_partial ⟨1, 2, true⟩ (by norm_num) (by norm_num) 5 6 1 5 (by norm_num)
    (by decide +kernel) (by norm_num) none swellScan 86380 1 (by norm_num) hreg 86400 86400 1 5 (1 / 2)
    (by unfold Spec.ShortInWindows; decide +kernel) (by decide +kernel)
    (fun i hi => by
      rcases hwin i hi with h | h <;> rw [h]
      · exact spread_five 1 (Or.inl rfl)
      · exact spread_five 50 (Or.inr rfl)) (by norm_num) (by decide +kernel)
    ⟨86400, 50, 50, 0, 0, 0⟩ (by decide +kernel) (by norm_num) (by norm_num) (by decide +kernel) (by decide +kernel)
    (fun r hr => by simp at hr) 20 (by norm_num) 86390 86410 (by norm_num) (by norm_num)
    ⟨17276, by norm_num⟩ ⟨17280, by norm_num⟩ ⟨17278, by norm_num⟩ ⟨4, by norm_num⟩ _
    (readScan_reads _ _) hrate
    (by unfold trigger; rw [if_neg (by norm_num), two_batches]; simp [runBatches, readScan])
  exact ⟨x, h1, h2⟩

/-- One large sample at midnight in a background of 1, with a threshold of twice the median of five seconds. -/
example : ∃ x, (trigger ⟨1, 2, true⟩ (.medianRatio 5 2) id none (readScan spikeScan 20) 86390 86410).1.flatMap Prod.snd = [x] ∧
    x.coaTime = 86400 := by
  have hrate : ∀ a b sd, readScan spikeScan 20 a b = some sd → sd.delta = 1 ∧ sd.sr = 1 := by
    intro a b sd h
    simp only [readScan, Option.some.injEq] at h
    rw [← h]; exact ⟨rfl, rfl⟩
  obtain ⟨x, h1, h2, -⟩ := C144_one_event_partial ⟨1, 2, true⟩ (by norm_num) (by norm_num) 5 2 1 5 (by norm_num)
    (by decide +kernel) (by norm_num) none spikeScan 86380 1 (by norm_num) spike_regular 86400 86400 1 1
    (by unfold Spec.ShortInWindows; decide +kernel) (by decide +kernel) (by norm_num) (by decide +kernel)
    ⟨86400, 9, 9, 0, 0, 0⟩ (by decide +kernel) (by norm_num) (by norm_num) (by decide +kernel) (by decide +kernel)
    (fun r hr => by simp at hr) 20 (by norm_num) 86390 86410 (by norm_num) (by norm_num)
    ⟨17276, by norm_num⟩ ⟨17280, by norm_num⟩ ⟨17278, by norm_num⟩ ⟨4, by norm_num⟩ _
    (readScan_reads _ _) hrate
    (by unfold trigger; rw [if_neg (by norm_num), two_batches]; simp [runBatches, readScan])
  exact ⟨x, h1, h2⟩

/-- The hypotheses of `C145_dynamic_partial`: two seconds without data in a window of ten. -/
example (jul : ℤ → ℕ) (hjul : ∀ d, jul d ≠ jul (d + 1)) (order : Availability.Table → List ℤ) : Spec.NoData burstCall 7 ∧
    ∃ res, detectTrigger jul order Spec.newDir burstCall ⟨1, 2, true⟩ (.mad 10 8) id none 10 86390 86410 =
        some (res, none) ∧
      ∀ x ∈ res.flatMap Prod.snd, ∀ i, Spec.NoData burstCall i →
        ¬ (burstCall.start + burstCall.cfg.timestep * i ≤ x.coaTime ∧
          x.coaTime < burstCall.start + burstCall.cfg.timestep * (i + 1)) := by
  refine ⟨Or.inl (by
    simp only [burstCall]
    rw [if_neg (by decide +kernel), if_neg (by decide +kernel), if_pos (by decide +kernel)]), ?_⟩
  exact C145_dynamic_partial 1 burstCall burstCall_good burstCall_clean rfl jul hjul order ⟨1, 2, true⟩ (by norm_num)
    (by norm_num) (.mad 10 8) 10 ⟨by norm_num, by decide +kernel⟩ (by norm_num [Spec.multiplier]) none 10 86390 86410
    ⟨8640, by norm_num⟩ ⟨8639, by norm_num [burstCall]⟩ ⟨8639, by norm_num⟩ ⟨1, by norm_num⟩ (by norm_num)
    ⟨86410, by norm_num⟩ (by norm_num [burstCall]) (by decide +kernel) (by norm_num) (by decide +kernel)

end QM
