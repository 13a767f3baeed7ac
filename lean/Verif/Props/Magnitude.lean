import Verif.Lemmas.Magnitude
import Verif.Lemmas.Archive

/-!
# Network magnitudes: C63, C64, C65
-/

namespace QM
open QM.Magnitude Classical

/-- The rows that contribute to the network magnitude of a table of amplitudes. -/
noncomputable def usedRows (c : Magnitude.Cfg) (t : List Obs) : List Magnitude.Row :=
  (filterMags (calculate c t)).filter (used c)

/-- What `mean_magnitude` returns if some row is used. -/
theorem meanMagnitude_used {c : Magnitude.Cfg} {t : List Obs} {M : Mean}
    (h : meanMagnitude c (calculate c t) = some M) (hu : usedRows c t ≠ []) :
    (M.mean = if c.weighted then weightedMean ((usedRows c t).map fun r => (r.ml, r.err))
      else plainMean ((usedRows c t).map Row.ml)) ∧
    (2 ≤ (usedRows c t).length →
      M.err = if c.weighted then weightedStd ((usedRows c t).map fun r => (r.ml, r.err))
        else plainStd ((usedRows c t).map Row.ml)) ∧
    (∀ r, usedRows c t = [r] → M.err = r.err) ∧
    ∃ sel, r2Rows c (filterMags (calculate c t)) = some sel ∧ M.r2 = r2Stat c M.mean sel := by
  unfold meanMagnitude at h
  simp only at h
  change (if usedRows c t = [] then _ else _) = _ at h
  rw [if_neg hu] at h
  cases hsel : r2Rows c (filterMags (calculate c t)) with
  | none => rw [hsel] at h; simp at h
  | some sel =>
    rw [hsel] at h
    simp only [Option.map_some, Option.some.injEq] at h
    have e1 : M.mean = if c.weighted then weightedMean ((usedRows c t).map fun r => (r.ml, r.err))
      else plainMean ((usedRows c t).map Row.ml) := by
      rw [← h]
      simp only [List.map_map]
      rfl
    refine ⟨e1, ?_, ?_, sel, rfl, ?_⟩
    · intro h2
      rw [← h]
      simp only
      have : ∀ (l : List (Option ℝ × Magnitude.Err)) (a : Magnitude.Err), 2 ≤ l.length →
          (match l with | [e] => e.2 | _ => a) = a := by
        intro l a hl
        match l, hl with
        | x :: y :: l, _ => rfl
      have h2' : 2 ≤ ((usedRows c t).map fun r => (r.ml, r.err)).length := by
        rw [List.length_map]; exact h2
      refine (this _ _ h2').trans ?_
      rw [List.map_map]
      rfl
    · intro r hr
      rw [← h]
      change (match (usedRows c t).map fun r => (r.ml, r.err) with | [e] => e.2 | _ => _) = _
      rw [hr]
      rfl
    · rw [← h]

theorem usedRows_nan (c : Magnitude.Cfg) (t : List Obs) :
    ∀ e ∈ (usedRows c t).map (fun r => (r.ml, r.err)), e.1 = none → e.2 = .nan := by
  intro e he hn
  rw [List.mem_map] at he
  obtain ⟨r, hr, rfl⟩ := he
  obtain ⟨o, -, e1, e2⟩ := mem_filterMags (List.mem_filter.1 hr).1
  simp only at hn ⊢
  rw [e1] at hn
  rw [e2]
  exact err_nan_of_ml_none c t o hn

/-! ## C63 -/

/-- C63: the network magnitude lies between two of the station magnitudes used. -/
theorem C63_between (c : Magnitude.Cfg) (t : List Obs) (M : Mean)
    (h : meanMagnitude c (calculate c t) = some M) (μ : ℝ) (hμ : M.mean = some μ) :
    ∃ r ∈ usedRows c t, ∃ r' ∈ usedRows c t, ∃ a b, r.ml = some a ∧ r'.ml = some b ∧ a ≤ μ ∧ μ ≤ b := by
  by_cases hu : usedRows c t = []
  · unfold meanMagnitude at h
    change (if usedRows c t = [] then _ else _) = _ at h
    rw [if_pos hu] at h
    simp only [Option.some.injEq] at h
    rw [← h] at hμ
    simp at hμ
  · obtain ⟨h1, -, -, -⟩ := meanMagnitude_used h hu
    rw [hμ] at h1
    by_cases hw : c.weighted
    · rw [if_pos hw] at h1
      have hn := usedRows_nan c t
      rcases weightedMean_some hn h1.symm with ⟨⟨e, he, he0⟩, rfl⟩ | ⟨hs, hm⟩
      · rw [List.mem_map] at he
        obtain ⟨r, hr, rfl⟩ := he
        exact ⟨r, hr, r, hr, 0, 0, he0, he0, le_refl _, le_refl _⟩
      · obtain ⟨⟨e, he, p1, q1⟩, ⟨e', he', p2, q2⟩⟩ := average_between _
          (fun e : Option ℝ × Magnitude.Err => e.1.getD 0) (fun e => finW e.2)
          (fun e _ => finW_nonneg e.2) hs
        rw [← hm] at q1 q2
        have hsome : ∀ e ∈ (usedRows c t).map (fun r => (r.ml, r.err)), 0 < finW e.2 →
            e.1 = some (e.1.getD 0) := by
          intro e he hp
          cases hc : e.1 with
          | none =>
            rw [hn e he hc] at hp
            simp [finW, weight] at hp
          | some x => rfl
        have s1 := hsome e he p1
        have s2 := hsome e' he' p2
        rw [List.mem_map] at he he'
        obtain ⟨r, hr, rfl⟩ := he
        obtain ⟨r', hr', rfl⟩ := he'
        exact ⟨r, hr, r', hr', _, _, s1, s2, q1, q2⟩
    · rw [if_neg hw] at h1
      obtain ⟨hall, hm⟩ := plainMean_some h1.symm
      have hlen : ((usedRows c t).map Row.ml).length ≠ 0 := by
        rw [List.length_map]
        exact fun e => hu (List.length_eq_zero_iff.1 e)
      have e0 : (((usedRows c t).map Row.ml).map fun _ => (1 : ℝ)).sum =
          (((usedRows c t).map Row.ml).length : ℝ) := by
        rw [List.map_const', List.sum_replicate, nsmul_eq_mul, mul_one]
      obtain ⟨⟨e, he, -, q1⟩, ⟨e', he', -, q2⟩⟩ := average_between ((usedRows c t).map Row.ml)
        (fun m : Option ℝ => m.getD 0) (fun _ => 1) (fun _ _ => by norm_num) (by
          rw [e0]; exact_mod_cast hlen)
      simp only [mul_one, e0] at q1 q2
      rw [← hm] at q1 q2
      obtain ⟨x, rfl⟩ := hall e he
      obtain ⟨y, rfl⟩ := hall e' he'
      rw [List.mem_map] at he he'
      obtain ⟨r, hr, hr1⟩ := he
      obtain ⟨r', hr', hr1'⟩ := he'
      exact ⟨r, hr, r', hr', x, y, hr1, hr1', q1, q2⟩

/-- C63: without weights the network magnitude is the mean of the station magnitudes used. -/
theorem C63_mean (c : Magnitude.Cfg) (hw : c.weighted = false) (t : List Obs) (M : Mean)
    (h : meanMagnitude c (calculate c t) = some M) (hu : usedRows c t ≠ []) (ms : List ℝ)
    (hms : (usedRows c t).map Row.ml = ms.map some) :
    M.mean = some (Spec.mean ms) ∧ (2 ≤ ms.length → M.err = .fin (Spec.std ms)) := by
  obtain ⟨h1, h2, -, -⟩ := meanMagnitude_used h hu
  simp only [hw, Bool.false_eq_true, if_false, hms] at h1 h2
  have hlen : (usedRows c t).length = ms.length := by
    have := congrArg List.length hms
    simpa using this
  have e : plainMean (ms.map some) = some (Spec.mean ms) := by
    unfold plainMean Spec.mean
    rw [if_pos (by simp)]
    simp
  refine ⟨h1.trans e, fun h3 => ?_⟩
  rw [h2 (by omega)]
  unfold plainStd Spec.std
  rw [e]
  simp only [List.map_map, List.length_map]
  rfl

/-- C63: with weights the network magnitude is the mean weighted by one over the squared error. -/
theorem C63_weighted_mean (c : Magnitude.Cfg) (hw : c.weighted = true) (t : List Obs) (M : Mean)
    (h : meanMagnitude c (calculate c t) = some M) (l : List (ℝ × ℝ)) (hl : l ≠ [])
    (hms : (usedRows c t).map (fun r => (r.ml, r.err)) = l.map fun e => (some e.1, .fin e.2))
    (hpos : ∀ e ∈ l, 0 < e.2) :
    M.mean = some (Spec.wMean (l.map fun e => (e.1, (1 / e.2) ^ 2))) := by
  have hu : usedRows c t ≠ [] := by
    intro hc
    rw [hc] at hms
    simp at hms
    exact hl hms
  obtain ⟨h1, -, -, -⟩ := meanMagnitude_used h hu
  rw [hw, if_pos rfl, hms] at h1
  rw [h1]
  have hfin : ∀ e ∈ l, weight (.fin e.2) = .fin ((1 / e.2) ^ 2) := by
    intro e he
    simp only [weight, if_neg (hpos e he).ne']
  have hs : sumW (l.map fun e => (some e.1, Magnitude.Err.fin e.2)) =
      some ((l.map fun e => (1 / e.2) ^ 2).sum) := by
    rw [sumW_of_finite]
    · rw [List.map_map]
      congr 2
      apply List.map_congr_left
      intro e he
      simp only [Function.comp, finW, hfin e he]
    · intro e he
      rw [List.mem_map] at he
      obtain ⟨x, hx, rfl⟩ := he
      simp only [hfin x hx]
      simp
  have hne : (l.map fun e => (1 / e.2) ^ 2).sum ≠ 0 := by
    intro hz
    obtain ⟨e, he⟩ := List.exists_mem_of_ne_nil l hl
    have := sum_eq_zero_map l (fun e => (1 / e.2) ^ 2) (fun _ _ => by positivity) hz e he
    have h3 := hpos e he
    have : (0 : ℝ) < (1 / e.2) ^ 2 := by positivity
    linarith
  unfold weightedMean
  rw [hs]
  simp only [if_neg hne]
  unfold Spec.wMean sumMW
  simp only [List.map_map]
  congr 2
  congr 1
  apply List.map_congr_left
  intro e he
  simp only [Function.comp, hfin e he, id]

/-- C63: a single observation gives its own magnitude error. -/
theorem C63_single (c : Magnitude.Cfg) (t : List Obs) (M : Mean)
    (h : meanMagnitude c (calculate c t) = some M) (r : Magnitude.Row) (hr : usedRows c t = [r]) :
    M.err = r.err := by
  obtain ⟨-, -, h3, -⟩ := meanMagnitude_used h (by rw [hr]; simp)
  exact h3 r hr

/-- C63: the order of the observations does not matter. -/
theorem C63_order (c : Magnitude.Cfg) (t t' : List Obs) (h : t.Perm t') :
    meanMagnitude c (calculate c t) = meanMagnitude c (calculate c t') := by
  have hf := filterMags_perm (calculate_perm c h)
  have hu := hf.filter (used c)
  unfold meanMagnitude
  simp only
  have hl := hu.map fun r : Magnitude.Row => (r.ml, r.err)
  have hnil : (filterMags (calculate c t)).filter (used c) = [] ↔
      (filterMags (calculate c t')).filter (used c) = [] := by
    constructor <;> intro e
    · rw [e] at hu; exact hu.symm.eq_nil
    · rw [e] at hu; exact hu.eq_nil
  by_cases hn : (filterMags (calculate c t)).filter (used c) = []
  · rw [if_pos hn, if_pos (hnil.1 hn)]
  · rw [if_neg hn, if_neg (fun e => hn (hnil.2 e))]
    rw [weightedMean_perm hl, plainMean_perm (hl.map Prod.fst), weightedStd_perm hl,
      plainStd_perm (hl.map Prod.fst)]
    have herr : ∀ (l l' : List (Option ℝ × Magnitude.Err)) (a : Magnitude.Err), l.Perm l' →
        (match l with | [e] => e.2 | _ => a) = (match l' with | [e] => e.2 | _ => a) := by
      intro l l' a hp
      match l, l', hp with
      | [], l', hp => rw [hp.symm.eq_nil]
      | [x], l', hp => rw [hp.symm.eq_singleton]
      | x :: y :: l, [], hp => simpa using hp.length_eq
      | x :: y :: l, [z], hp => simpa using hp.length_eq
      | x :: y :: l, z :: w :: l', hp => rfl
    have herr' := herr _ _ (if c.weighted then
        weightedStd (((filterMags (calculate c t')).filter (used c)).map fun r => (r.ml, r.err))
      else plainStd ((((filterMags (calculate c t')).filter (used c)).map fun r => (r.ml, r.err)).map
        Prod.fst)) hl
    rcases r2Rows_perm c hf with ⟨e1, e2⟩ | ⟨s, s', e1, e2, hp⟩
    · rw [e1, e2]; rfl
    · rw [e1, e2]
      simp only [Option.map_some]
      rw [r2Stat_perm c _ hp]
      congr 2

/-- C63: with an attenuation function larger by `k` everywhere, the network magnitude is larger by
`k`, and its error and the r-squared statistic are the same.  With weights no error may be 0. -/
theorem C63_shift (c : Magnitude.Cfg) (k : ℝ) (t : List Obs)
    (hw : c.weighted = true → ∀ r ∈ usedRows c t, r.err ≠ .fin 0) :
    meanMagnitude { c with A0 := fun d => c.A0 d + k }
      (calculate { c with A0 := fun d => c.A0 d + k } t) =
    (meanMagnitude c (calculate c t)).map fun M => { M with mean := M.mean.map (· + k) } := by
  change meanMagnitude (c.shift k) (calculate (c.shift k) t) = _
  rw [calculate_shift]
  unfold meanMagnitude
  simp only
  rw [filterMags_shift]
  have hus : ((filterMags (calculate c t)).map (Row.shift k)).filter (used (c.shift k)) =
      (usedRows c t).map (Row.shift k) := by
    rw [List.filter_map]; rfl
  rw [hus, r2Rows_shift]
  change _ = Option.map _ (if usedRows c t = [] then _ else Option.map _ _)
  by_cases hn : usedRows c t = []
  · rw [if_pos hn, if_pos (by rw [hn]; rfl)]
    rfl
  · rw [if_neg hn, if_neg (by simpa using hn), Option.map_map, Option.map_map]
    congr 1
    funext sel
    simp only [Function.comp]
    have e1 : ((usedRows c t).map (Row.shift k)).map (fun r => (r.ml, r.err)) =
        ((usedRows c t).map fun r => (r.ml, r.err)).map (shiftP k) := by
      rw [List.map_map, List.map_map]; rfl
    have e2 : (((usedRows c t).map fun r => (r.ml, r.err)).map (shiftP k)).map Prod.fst =
        (((usedRows c t).map fun r => (r.ml, r.err)).map Prod.fst).map (Option.map (· + k)) := by
      simp only [List.map_map]; rfl
    have hne : ((usedRows c t).map fun r => (r.ml, r.err)).map Prod.fst ≠ [] := by simpa using hn
    have hM : (if (c.shift k).weighted then
          weightedMean (((usedRows c t).map fun r => (r.ml, r.err)).map (shiftP k))
        else plainMean ((((usedRows c t).map fun r => (r.ml, r.err)).map (shiftP k)).map Prod.fst)) =
        (if c.weighted then weightedMean ((usedRows c t).map fun r => (r.ml, r.err))
        else plainMean (((usedRows c t).map fun r => (r.ml, r.err)).map Prod.fst)).map (· + k) := by
      change (if c.weighted = true then _ else _) = _
      by_cases h : c.weighted = true
      · rw [if_pos h, if_pos h, weightedMean_shift k (usedRows_nan c t)]
        intro e he
        rw [List.mem_map] at he
        obtain ⟨r, hr, rfl⟩ := he
        exact hw h r hr
      · rw [if_neg h, if_neg h, e2, plainMean_shift k hne]
    rw [e1, hM]
    congr 1
    · have hS : (if (c.shift k).weighted then
            weightedStd (((usedRows c t).map fun r => (r.ml, r.err)).map (shiftP k))
          else plainStd ((((usedRows c t).map fun r => (r.ml, r.err)).map (shiftP k)).map Prod.fst)) =
          (if c.weighted then weightedStd ((usedRows c t).map fun r => (r.ml, r.err))
          else plainStd (((usedRows c t).map fun r => (r.ml, r.err)).map Prod.fst)) := by
        change (if c.weighted = true then _ else _) = _
        by_cases h : c.weighted = true
        · rw [if_pos h, if_pos h, weightedStd_shift k (usedRows_nan c t)]
          intro e he
          rw [List.mem_map] at he
          obtain ⟨r, hr, rfl⟩ := he
          exact hw h r hr
        · rw [if_neg h, if_neg h, e2, plainStd_shift k hne]
      rw [hS]
      have : ∀ (l : List (Option ℝ × Magnitude.Err)) (a : Magnitude.Err),
          (match l.map (shiftP k) with | [e] => e.2 | _ => a) = (match l with | [e] => e.2 | _ => a) := by
        intro l a
        match l with
        | [] => rfl
        | [x] => rfl
        | x :: y :: l => rfl
      exact this _ _
    · rw [r2Stat_shift]
      rfl

/-- C63: the error reported with weights is the root of the sum of the squared *weighted* deviations
over the sum of the weights. -/
theorem C63_weighted_error_partial (c : Magnitude.Cfg) (hw : c.weighted = true) (t : List Obs) (M : Mean)
    (h : meanMagnitude c (calculate c t) = some M) (l : List (ℝ × ℝ)) (hl : 2 ≤ l.length)
    (hms : (usedRows c t).map (fun r => (r.ml, r.err)) = l.map fun e => (some e.1, .fin e.2))
    (hpos : ∀ e ∈ l, 0 < e.2) :
    M.err = .fin √((l.map fun e => ((e.1 - Spec.wMean (l.map fun e => (e.1, (1 / e.2) ^ 2))) *
      (1 / e.2) ^ 2) ^ 2).sum / (l.map fun e => (1 / e.2) ^ 2).sum) := by
  have hl0 : l ≠ [] := by intro hc; rw [hc] at hl; simp at hl
  have hmean := C63_weighted_mean c hw t M h l hl0 hms hpos
  have hlen : (usedRows c t).length = l.length := by simpa using congrArg List.length hms
  have hu : usedRows c t ≠ [] := by
    intro hc; rw [hc] at hlen; simp at hlen; omega
  obtain ⟨h1, h2, -, -⟩ := meanMagnitude_used h hu
  rw [h2 (by omega), hw, if_pos rfl]
  rw [hw, if_pos rfl, hmean] at h1
  rw [hms] at h1 ⊢
  have hfin : ∀ e ∈ l, weight (.fin e.2) = .fin ((1 / e.2) ^ 2) := by
    intro e he
    simp only [weight, if_neg (hpos e he).ne']
  have hs : sumW (l.map fun e => (some e.1, Magnitude.Err.fin e.2)) =
      some ((l.map fun e => (1 / e.2) ^ 2).sum) := by
    rw [sumW_of_finite]
    · rw [List.map_map]
      congr 2
      apply List.map_congr_left
      intro e he
      simp only [Function.comp, finW, hfin e he]
    · intro e he
      rw [List.mem_map] at he
      obtain ⟨x, hx, rfl⟩ := he
      simp only [hfin x hx]
      simp
  have hne : (l.map fun e => (1 / e.2) ^ 2).sum ≠ 0 := by
    intro hz
    obtain ⟨e, he⟩ := List.exists_mem_of_ne_nil l hl0
    have := sum_eq_zero_map l (fun e => (1 / e.2) ^ 2) (fun _ _ => by positivity) hz e he
    have h3 := hpos e he
    have : (0 : ℝ) < (1 / e.2) ^ 2 := by positivity
    linarith
  unfold weightedStd
  rw [hs, ← h1]
  simp only [if_neg hne]
  congr 3
  unfold sumMW
  simp only [List.map_map]
  congr 1
  apply List.map_congr_left
  intro e he
  simp only [Function.comp, hfin e he, Option.map_some]

/-- Plain settings: no filter but the noise filter, attenuation 0 at every distance. -/
noncomputable def exMagCfgW (w : Bool) : Magnitude.Cfg where
  A0 := fun _ => 0
  useHyp := false
  corr := fun _ => none
  mult := 1
  weighted := w
  trace := none
  noiseF := 1
  station := none
  distF := none
  pickF := false
  onlyUsed := true
  view := false

/-- An observation at 10 km. -/
noncomputable def exObs (a n : ℝ) : Obs := ⟨['N', 'W', '.', 'A', 'B', 'C', '.', '.', 'H', 'H', 'E'], some 10, 5, some a, some n, none, true⟩

theorem exObs_used (w : Bool) (l : List (ℝ × ℝ)) (h : ∀ e ∈ l, 0 < e.2 ∧ e.2 < e.1) :
    (usedRows (exMagCfgW w) (l.map fun e => exObs e.1 e.2)).map
      (fun r => (r.ml, r.err)) =
    l.map fun e => (some (Real.logb 10 e.1),
      .fin (Real.logb 10 (e.1 + e.2) - Real.logb 10 (e.1 - e.2))) := by
  have hg : ∀ o, noiseGain (l.map fun e => exObs e.1 e.2) o = o.noise := by
    intro o
    unfold noiseGain
    rw [if_neg]
    rw [List.any_map, List.any_eq_true]
    rintro ⟨x, -, hx⟩
    simp [exObs] at hx
  obtain ⟨t, ht⟩ : ∃ t, t = l.map fun e => exObs e.1 e.2 := ⟨_, rfl⟩
  rw [← ht] at hg ⊢
  have hc : calculate (exMagCfgW w) t = l.map fun e =>
      ⟨exObs e.1 e.2, some (Real.logb 10 e.1),
        .fin (Real.logb 10 (e.1 + e.2) - Real.logb 10 (e.1 - e.2))⟩ := by
    unfold calculate
    conv_lhs => rw [ht]
    rw [List.map_map, ← ht]
    apply List.map_congr_left
    intro e he
    obtain ⟨h1, h2⟩ := h e he
    have h3 : 0 < e.1 := by linarith
    have ha : signalAmp (exMagCfgW w) t (exObs e.1 e.2) = some e.1 := by
      unfold signalAmp
      rw [hg]
      simp only [exObs, exMagCfgW, mul_one, Option.map_some]
      rw [if_neg (by linarith), if_neg h3.ne']
    have hat : atten (exMagCfgW w) (exObs e.1 e.2) = some 0 := by
      simp [atten, rawDist, nonZero, exObs, exMagCfgW]
    simp only [Function.comp]
    congr 1
    · unfold ml
      rw [ha, hat]
      simp [log10, h3, correction, exMagCfgW]
    · unfold mlErr
      rw [ha, hat, hg]
      simp only [exObs, exMagCfgW, mul_one, Option.map_some]
      rw [if_neg (by linarith), if_neg (by linarith), if_neg (by linarith)]
  have hf : filterMags (calculate (exMagCfgW w) t) =
      calculate (exMagCfgW w) t := by
    have hg' : ∀ o, noiseGain ((calculate (exMagCfgW w) t).map Row.obs) o = o.noise := by
      intro o
      rw [hc, List.map_map, ← hg o, ht]
      rfl
    unfold filterMags dropna corrected
    have : (calculate (exMagCfgW w) t).map (fun r => { r with obs := { r.obs with
        noise := noiseGain ((calculate (exMagCfgW w) t).map Row.obs) r.obs } }) =
        calculate (exMagCfgW w) t := by
      conv_rhs => rw [← List.map_id (calculate (exMagCfgW w) t)]
      apply List.map_congr_left
      intro r _
      rw [hg']
      rfl
    rw [this, List.filter_eq_self]
    rw [hc]
    intro r hr
    rw [List.mem_map] at hr
    obtain ⟨e, he, rfl⟩ := hr
    simp [exObs]
  unfold usedRows
  rw [hf]
  have : (calculate (exMagCfgW w) t).filter (used (exMagCfgW w)) =
      calculate (exMagCfgW w) t := by
    rw [List.filter_eq_self, hc]
    intro r hr
    rw [List.mem_map] at hr
    obtain ⟨e, he, rfl⟩ := hr
    simp [used, traceOK, stationOK, distOK, noiseOK, exObs, exMagCfgW, (h e he).2]
  rw [this, hc, List.map_map]
  rfl

theorem logb_10_100 : Real.logb 10 100 = 2 := by
  rw [show (100 : ℝ) = 10 ^ (2 : ℕ) by norm_num, Real.logb_pow]
  simp

/-- C63 is violated: with weights, the error reported is not the weighted standard deviation.  Two
observations of magnitudes 0 and 2, both with error 2: the weighted standard deviation is 1, the
error reported 1/2. -/
theorem C63_violated : ∃ (c : Magnitude.Cfg) (t : List Obs) (M : Mean) (l : List (ℝ × ℝ)),
    c.weighted = true ∧ meanMagnitude c (calculate c t) = some M ∧
    (usedRows c t).map (fun r => (r.ml, r.err)) = l.map (fun e => (some e.1, .fin e.2)) ∧
    l = [(0, 2), (2, 2)] ∧ M.mean = some 1 ∧
    Spec.wStd (l.map fun e => (e.1, (1 / e.2) ^ 2)) = 1 ∧ M.err = .fin (1 / 2) := by
  let c : Magnitude.Cfg := exMagCfgW true
  let t : List Obs := [((1 : ℝ), (99 / 101 : ℝ)), (100, 9900 / 101)].map fun e => exObs e.1 e.2
  have hus : (usedRows c t).map (fun r => (r.ml, r.err)) =
      [((0 : ℝ), (2 : ℝ)), (2, 2)].map (fun e => (some e.1, .fin e.2)) := by
    rw [exObs_used true _ (by intro e he; simp at he; rcases he with rfl | rfl <;> norm_num)]
    simp only [List.map_cons, List.map_nil, Real.logb_one, logb_10_100]
    rw [← Real.logb_div (by norm_num) (by norm_num), ← Real.logb_div (by norm_num) (by norm_num)]
    norm_num [logb_10_100]
  have hu : usedRows c t ≠ [] := by
    intro hc; rw [hc] at hus; simp at hus
  have hM : ∃ M, meanMagnitude c (calculate c t) = some M := by
    unfold meanMagnitude
    change ∃ M, (if usedRows c t = [] then _ else _) = some M
    rw [if_neg hu]
    exact ⟨_, rfl⟩
  obtain ⟨M, hM⟩ := hM
  have h1 := C63_weighted_mean c rfl t M hM _ (by simp) hus (by intro e he; simp at he; rcases he with rfl | rfl <;> norm_num)
  have h2 := C63_weighted_error_partial c rfl t M hM _ (by simp) hus (by intro e he; simp at he; rcases he with rfl | rfl <;> norm_num)
  have hwm : Spec.wMean ([((0 : ℝ), (2 : ℝ)), (2, 2)].map fun e => (e.1, (1 / e.2) ^ 2)) = 1 := by
    norm_num [Spec.wMean]
  refine ⟨c, t, M, _, rfl, hM, hus, rfl, by rw [h1, hwm], ?_, ?_⟩
  · unfold Spec.wStd
    rw [hwm]
    norm_num
  · rw [h2, hwm]
    norm_num
    rw [show (4 : ℝ) = 2 ^ 2 by norm_num, Real.sqrt_sq (by norm_num)]
    norm_num

/-- Two observations whose mean is defined. -/
example : ∃ M, meanMagnitude (exMagCfgW false) (calculate (exMagCfgW false) [exObs 1 (1/2), exObs 100 1]) = some M ∧
    M.mean = some 1 ∧ M.err = .fin 1 := by
  have hus := exObs_used false [(1, 1/2), (100, 1)]
    (by intro e he; simp at he; rcases he with rfl | rfl <;> norm_num)
  have hml : (usedRows (exMagCfgW false) [exObs 1 (1/2), exObs 100 1]).map Row.ml = [(0 : ℝ), 2].map some := by
    have := congrArg (List.map Prod.fst) hus
    simp only [List.map_map, List.map_cons, List.map_nil, Real.logb_one, logb_10_100] at this
    exact this
  have hu : usedRows (exMagCfgW false) [exObs 1 (1/2), exObs 100 1] ≠ [] := by
    intro hc; rw [hc] at hml; simp at hml
  have hM : ∃ M, meanMagnitude (exMagCfgW false) (calculate (exMagCfgW false) [exObs 1 (1/2), exObs 100 1]) = some M := by
    unfold meanMagnitude
    change ∃ M, (if usedRows (exMagCfgW false) [exObs 1 (1/2), exObs 100 1] = [] then _ else _) = some M
    rw [if_neg hu]
    exact ⟨_, rfl⟩
  obtain ⟨M, hM⟩ := hM
  obtain ⟨h1, h2⟩ := C63_mean (exMagCfgW false) rfl _ M hM hu _ hml
  refine ⟨M, hM, ?_, ?_⟩
  · rw [h1]; norm_num [Spec.mean]
  · rw [h2 (by simp)]; norm_num [Spec.std, Spec.mean]

/-! ## C64 -/

/-- What the filters ask of an observation `o` of the table `t`; noise is compared after removing the
filter gain. -/
structure PassesFilters (c : Magnitude.Cfg) (t : List Obs) (o : Obs) : Prop where
  /-- signal and noise are known, and the signal exceeds the noise by the factor asked for -/
  amplitude : ∃ a n, o.amp = some a ∧ noiseGain t o = some n ∧ (c.noiseF ≠ 0 → n * c.noiseF < a)
  trace : ∀ f, c.trace = some f → f o.id = true
  station : ∀ l, c.station = some l → ∀ s ∈ l, ¬ ('.' :: s ++ ['.']) <:+: o.id
  dist : ∀ d, c.distF = some d → d ≠ 0 →
    ∃ e, o.epi = some e ∧ (if c.useHyp then √(e ^ 2 + o.z ^ 2) else e) ≤ d
  pick : c.pickF = true → o.picked = true

/-- C64: the observations used are those that pass every filter, in the order of the table. -/
theorem C64_used (c : Magnitude.Cfg) (t : List Obs)
    (h0 : c.useHyp = false → ∀ o ∈ t, o.epi ≠ some 0) :
    (usedRows c t).map (fun r => (r.obs.id, r.ml, r.err)) =
      (t.filter fun o => decide (PassesFilters c t o)).map fun o => (o.id, ml c t o, mlErr c t o) := by
  let g : Obs → Magnitude.Row := fun o =>
    ⟨{ o with noise := noiseGain t o }, ml c t o, mlErr c t o⟩
  have hcalc : calculate c t = t.map fun o => (⟨o, ml c t o, mlErr c t o⟩ : Magnitude.Row) := by
    unfold calculate
    apply List.map_congr_left
    intro o ho
    congr 1
    by_cases hv : c.view = true ∧ ¬ c.useHyp = true
    · rw [if_pos hv]
      have := h0 (by simpa using hv.2) o ho
      cases he : o.epi with
      | none => simp only [nonZero]; rw [← he]
      | some x =>
        have hx : x ≠ 0 := fun hc => this (by rw [he, hc])
        simp only [nonZero, if_neg hx]
        rw [← he]
    · rw [if_neg hv]
  have hcorr : corrected (calculate c t) = t.map g := by
    unfold corrected
    have : (calculate c t).map Row.obs = t := by
      rw [hcalc, List.map_map]
      exact List.map_id t
    rw [this, hcalc, List.map_map]
    rfl
  unfold usedRows filterMags dropna
  rw [hcorr, List.filter_map, List.filter_map, List.map_map, List.filter_filter]
  congr 1
  apply List.filter_congr
  intro o ho
  rw [Bool.eq_iff_iff, decide_eq_true_iff]
  simp only [Function.comp, g, used, Bool.and_eq_true]
  have hdist : distOK c ⟨{ o with noise := noiseGain t o }, ml c t o, mlErr c t o⟩ = true ↔
      ∀ d, c.distF = some d → d ≠ 0 →
        ∃ e, o.epi = some e ∧ (if c.useHyp then √(e ^ 2 + o.z ^ 2) else e) ≤ d := by
    unfold distOK rawDist
    cases hd : c.distF with
    | none => simp
    | some d =>
      simp only [Option.some.injEq, forall_eq']
      by_cases hd0 : d = 0
      · simp [hd0]
      · rw [if_neg hd0]
        cases he : o.epi with
        | none => by_cases hh : c.useHyp = true <;> simp [hh, hd0]
        | some e => by_cases hh : c.useHyp = true <;> simp [hh, hd0]
  have hst : stationOK c ⟨{ o with noise := noiseGain t o }, ml c t o, mlErr c t o⟩ = true ↔
      ∀ l, c.station = some l → ∀ s ∈ l, ¬ ('.' :: s ++ ['.']) <:+: o.id := by
    unfold stationOK
    cases hl : c.station with
    | none => simp
    | some l => simp
  have htr : traceOK c ⟨{ o with noise := noiseGain t o }, ml c t o, mlErr c t o⟩ = true ↔
      ∀ f, c.trace = some f → f o.id = true := by
    unfold traceOK
    cases hl : c.trace with
    | none => simp
    | some l => simp
  have hpk : (!c.pickF || o.picked) = true ↔ (c.pickF = true → o.picked = true) := by
    cases c.pickF <;> simp
  have hno : ((o.amp.isSome = true ∧ (noiseGain t o).isSome = true) ∧
      (if c.noiseF = 0 then true else
        noiseOK c ⟨{ o with noise := noiseGain t o }, ml c t o, mlErr c t o⟩) = true) ↔
      ∃ a n, o.amp = some a ∧ noiseGain t o = some n ∧ (c.noiseF ≠ 0 → n * c.noiseF < a) := by
    unfold noiseOK
    cases ha : o.amp with
    | none => simp
    | some a =>
      cases hn : noiseGain t o with
      | none => simp
      | some n =>
        by_cases h : c.noiseF = 0
        · simp [h]
        · simp [h]
  rw [htr, hst, hdist, hpk]
  constructor
  · rintro ⟨⟨⟨⟨⟨h1, h2⟩, h3⟩, h4⟩, h5⟩, h6⟩
    exact ⟨hno.1 ⟨h6, h5⟩, h1, h2, h3, h4⟩
  · intro h
    obtain ⟨h6, h5⟩ := hno.2 h.amplitude
    exact ⟨⟨⟨⟨⟨h.trace, h.station⟩, h.dist⟩, h.pick⟩, h5⟩, h6⟩

/-- A name between dots occurs in the id of a trace iff it is the station or the location code. -/
theorem station_infix {net sta loc cha s : List Char} (h1 : '.' ∉ net) (h2 : '.' ∉ sta) (h3 : '.' ∉ loc)
    (h4 : '.' ∉ cha) (hs : '.' ∉ s) :
    ('.' :: s ++ ['.']) <:+: Spec.traceId net sta loc cha ↔ s = sta ∨ s = loc := by
  have hid : (Spec.traceId net sta loc cha).splitOn '.' = [net, sta, loc, cha] := by
    unfold Spec.traceId
    rw [List.splitOn_append_cons_self, List.splitOn_append_cons_self, List.splitOn_append_cons_self,
      List.splitOn_eq_singleton h1, List.splitOn_eq_singleton h2, List.splitOn_eq_singleton h3,
      List.splitOn_eq_singleton h4]
    rfl
  constructor
  · rintro ⟨a, b, hab⟩
    have e : a ++ ('.' :: s ++ ['.']) ++ b = a ++ '.' :: (s ++ '.' :: b) := by simp
    rw [e] at hab
    have h5 := congrArg (List.splitOn '.') hab
    rw [hid, List.splitOn_append_cons_self, List.splitOn_append_cons_self,
      List.splitOn_eq_singleton hs] at h5
    have ha : a.splitOn '.' ≠ [] := List.splitOn_ne_nil _ _
    have hb : b.splitOn '.' ≠ [] := List.splitOn_ne_nil _ _
    match a.splitOn '.', b.splitOn '.', ha, hb, h5 with
    | [x], y, _, _, h5 =>
      simp only [List.cons_append, List.nil_append, List.cons.injEq] at h5
      exact Or.inl h5.2.1
    | [x, x'], y, _, _, h5 =>
      simp only [List.cons_append, List.nil_append, List.cons.injEq] at h5
      exact Or.inr h5.2.2.1
    | x :: x' :: x'' :: l, y :: l', _, _, h5 =>
      have := congrArg List.length h5
      simp at this
      omega
  · rintro (rfl | rfl)
    · exact ⟨net, loc ++ '.' :: cha, by simp [Spec.traceId]⟩
    · exact ⟨net ++ '.' :: sta, cha, by simp [Spec.traceId]⟩

/-- C64: the station filter excludes the traces of the stations named and no others, provided no
location code is the name of an excluded station.  Missing: location codes equal to a listed name. -/
theorem C64_station_partial (c : Magnitude.Cfg) (r : Magnitude.Row) (net sta loc cha : List Char)
    (l : List (List Char)) (hc : c.station = some l) (hid : r.obs.id = Spec.traceId net sta loc cha)
    (h1 : '.' ∉ net) (h2 : '.' ∉ sta) (h3 : '.' ∉ loc) (h4 : '.' ∉ cha) (hl : ∀ s ∈ l, '.' ∉ s)
    (hloc : loc ∉ l) :
    used c r = true ↔ sta ∉ l ∧ used { c with station := none } r = true := by
  have key : stationOK c r = true ↔ sta ∉ l := by
    unfold stationOK
    rw [hc]
    simp only [List.all_eq_true, Bool.not_eq_true', decide_eq_false_iff_not, hid]
    constructor
    · intro h hc
      exact h sta hc ((station_infix h1 h2 h3 h4 h2).2 (Or.inl rfl))
    · intro h s hs hi
      rcases (station_infix h1 h2 h3 h4 (hl s hs)).1 hi with rfl | rfl
      · exact h hs
      · exact hloc hs
  have e : used { c with station := none } r =
      (traceOK c r && true && distOK c r && (!c.pickF || r.obs.picked) &&
        (if c.noiseF = 0 then true else noiseOK c r)) := rfl
  rw [e]
  unfold used
  simp only [Bool.and_eq_true, key]
  tauto

/-- C64: station "A" with location code "00" is excluded by a filter for a station called "00". -/
theorem C64_station_violated : ∃ (c : Magnitude.Cfg) (r : Magnitude.Row) (net sta loc cha : List Char)
    (l : List (List Char)), c.station = some l ∧ r.obs.id = Spec.traceId net sta loc cha ∧
    '.' ∉ net ∧ '.' ∉ sta ∧ '.' ∉ loc ∧ '.' ∉ cha ∧ (∀ s ∈ l, '.' ∉ s) ∧ sta ∉ l ∧
    used { c with station := none } r = true ∧ used c r = false := by
  refine ⟨{ exMagCfgW false with station := some [['0', '0']] },
    ⟨{ exObs 2 1 with id := Spec.traceId ['N'] ['A'] ['0', '0'] ['Z'] }, none, .nan⟩,
    ['N'], ['A'], ['0', '0'], ['Z'], [['0', '0']], rfl, rfl, by decide, by decide, by decide, by decide,
    by decide, by decide, ?_, ?_⟩
  · simp [used, traceOK, stationOK, distOK, noiseOK, exObs, exMagCfgW]
  · have h := (station_infix (net := ['N']) (sta := ['A']) (loc := ['0', '0']) (cha := ['Z'])
      (s := ['0', '0']) (by decide) (by decide) (by decide) (by decide) (by decide)).2 (Or.inr rfl)
    simp only [used, stationOK, List.all_cons, h]
    simp

/-- C64: if an observation is used, the network magnitude is a number.  Missing: noise filters below
1, negative noise, distances 0 or unknown and, with weights, noise 0. -/
theorem C64_defined_partial (c : Magnitude.Cfg) (t : List Obs) (hF : 1 ≤ c.noiseF) (hm : 0 < c.mult)
    (hn : ∀ o ∈ t, ∀ n, noiseGain t o = some n → if c.weighted then 0 < n else 0 ≤ n)
    (hd : ∀ o ∈ t, ∃ x, o.epi = some x ∧ 0 < x)
    (hu : usedRows c t ≠ []) :
    ∃ M μ, meanMagnitude c (calculate c t) = some M ∧ M.mean = some μ := by
  have hsel : ∃ sel, r2Rows c (filterMags (calculate c t)) = some sel := by
    unfold r2Rows
    split_ifs with h1 h2
    · exact ⟨_, rfl⟩
    · linarith
    · exact ⟨_, rfl⟩
  have hM : ∃ M, meanMagnitude c (calculate c t) = some M := by
    unfold meanMagnitude
    simp only
    change ∃ M, (if usedRows c t = [] then _ else _) = some M
    rw [if_neg hu]
    obtain ⟨sel, hsel⟩ := hsel
    rw [hsel]
    exact ⟨_, rfl⟩
  obtain ⟨M, hM⟩ := hM
  obtain ⟨h1, -, -, -⟩ := meanMagnitude_used hM hu
  -- every used row has a magnitude, and with weights a finite non-zero error
  have hrow : ∀ r ∈ usedRows c t, (∃ x, r.ml = some x) ∧
      (c.weighted = true → ∃ x, r.err = .fin x ∧ x ≠ 0) := by
    intro r hr
    have hmem : (r.obs.id, r.ml, r.err) ∈
        (usedRows c t).map (fun r => (r.obs.id, r.ml, r.err)) := List.mem_map.2 ⟨r, hr, rfl⟩
    rw [C64_used c t (by
      intro _ o ho hc
      obtain ⟨x, hx, hx0⟩ := hd o ho
      rw [hx] at hc
      simp only [Option.some.injEq] at hc
      linarith), List.mem_map] at hmem
    obtain ⟨o, ho, he⟩ := hmem
    rw [List.mem_filter, decide_eq_true_iff] at ho
    obtain ⟨hot, hp⟩ := ho
    simp only [Prod.mk.injEq] at he
    obtain ⟨-, he1, he2⟩ := he
    rw [← he1, ← he2]
    obtain ⟨a, n, ha, hno, hgt⟩ := hp.amplitude
    have hgt := hgt (by linarith)
    have hn0 : 0 ≤ n := by
      have := hn o hot n hno
      split_ifs at this <;> linarith
    have han : n < a := by nlinarith
    have ha0 : 0 < a := by linarith
    have hs : signalAmp c t o = some (a * c.mult) := by
      unfold signalAmp
      rw [ha, hno]
      simp only [Option.map_some]
      rw [if_neg (by nlinarith), if_neg (by positivity)]
    obtain ⟨x, hx, hx0⟩ := hd o hot
    have hat : ∃ y, atten c o = some y := by
      unfold atten rawDist nonZero
      rw [hx]
      by_cases hh : c.useHyp = true
      · have : √(x ^ 2 + o.z ^ 2) ≠ 0 := by
          have : 0 < x ^ 2 + o.z ^ 2 := by positivity
          exact (Real.sqrt_pos.2 this).ne'
        simp [hh, this]
      · simp [hh, hx0.ne']
    obtain ⟨y, hy⟩ := hat
    have hpos : 0 < a * c.mult := by positivity
    refine ⟨?_, ?_⟩
    · unfold ml
      rw [hs, hy]
      simp [log10, hpos]
    · intro hw
      have hn1 : 0 < n := by
        have := hn o hot n hno
        rw [hw, if_pos rfl] at this
        exact this
      have e1 : n * c.mult < a * c.mult := by nlinarith
      have e2 : 0 < n * c.mult := by positivity
      unfold mlErr
      rw [hs, hno, hy]
      simp only [Option.map_some]
      rw [if_neg (by linarith), if_neg (by linarith), if_neg (by linarith)]
      refine ⟨_, rfl, ?_⟩
      have := Real.logb_lt_logb (b := 10) (by norm_num)
        (show 0 < a * c.mult - n * c.mult by linarith)
        (show a * c.mult - n * c.mult < a * c.mult + n * c.mult by linarith)
      linarith
  by_cases hw : c.weighted = true
  · rw [if_pos hw] at h1
    have hsum : sumW ((usedRows c t).map fun r => (r.ml, r.err)) =
        some (((usedRows c t).map fun r => (r.ml, r.err)).map fun e => finW e.2).sum := by
      apply sumW_of_finite
      intro e he
      rw [List.mem_map] at he
      obtain ⟨r, hr, rfl⟩ := he
      obtain ⟨x, hx, hx0⟩ := (hrow r hr).2 hw
      simp [hx, weight, hx0]
    have hne : (((usedRows c t).map fun r => (r.ml, r.err)).map fun e => finW e.2).sum ≠ 0 := by
      intro hz
      obtain ⟨r, hr⟩ := List.exists_mem_of_ne_nil _ hu
      have := sum_eq_zero_map _ (fun e : Option ℝ × Magnitude.Err => finW e.2)
        (fun e _ => finW_nonneg e.2) hz (r.ml, r.err) (List.mem_map.2 ⟨r, hr, rfl⟩)
      obtain ⟨x, hx, hx0⟩ := (hrow r hr).2 hw
      simp [hx, finW, weight, hx0] at this
    unfold weightedMean at h1
    rw [hsum] at h1
    simp only [if_neg hne] at h1
    exact ⟨M, _, hM, h1⟩
  · rw [if_neg hw] at h1
    unfold plainMean at h1
    rw [if_pos (by
      rw [List.all_eq_true]
      intro m hm
      rw [List.mem_map] at hm
      obtain ⟨r, hr, rfl⟩ := hm
      obtain ⟨x, hx⟩ := (hrow r hr).1
      rw [hx]; rfl)] at h1
    exact ⟨M, _, hM, h1⟩

/-- The network magnitude of a table with the settings `exMagCfgW`, in terms of its used rows. -/
theorem exMag_some (w : Bool) (t : List Obs) : ∃ M, meanMagnitude (exMagCfgW w) (calculate (exMagCfgW w) t)
    = some M := by
  unfold meanMagnitude
  simp only
  split_ifs <;> exact ⟨_, rfl⟩

/-- The hypotheses of `C64_defined_partial` are met. -/
example : usedRows (exMagCfgW true) [exObs 1 (1/2), exObs 100 1] ≠ [] ∧
    (∀ o ∈ [exObs 1 (1/2), exObs 100 1], ∃ x, o.epi = some x ∧ 0 < x) := by
  have hus := exObs_used true [(1, 1/2), (100, 1)]
    (by intro e he; simp at he; rcases he with rfl | rfl <;> norm_num)
  refine ⟨?_, ?_⟩
  · intro hc
    rw [List.map_cons, List.map_cons, List.map_nil] at hus
    rw [hc] at hus
    simp at hus
  · intro o ho
    simp only [List.mem_cons, List.not_mem_nil, or_false] at ho
    rcases ho with rfl | rfl <;> exact ⟨10, rfl, by norm_num⟩

/-- C64 is violated without a noise filter: an observation below the noise is used, and makes the
network magnitude NaN. -/
theorem C64_violated_noise_filter : ∃ (c : Magnitude.Cfg) (t : List Obs) (M : Mean),
    usedRows c t ≠ [] ∧ meanMagnitude c (calculate c t) = some M ∧ M.mean = none := by
  let c : Magnitude.Cfg := { exMagCfgW false with noiseF := 0 }
  let t : List Obs := [exObs 2 1, exObs 1 2]
  have hg : ∀ o, noiseGain t o = o.noise := by
    intro o; simp [noiseGain, t, exObs]
  have hp : ∀ o ∈ t, PassesFilters c t o := by
    intro o ho
    simp only [t, List.mem_cons, List.not_mem_nil, or_false] at ho
    refine ⟨?_, by simp [c, exMagCfgW], by simp [c, exMagCfgW], by simp [c, exMagCfgW], by simp [c, exMagCfgW]⟩
    rcases ho with rfl | rfl
    · exact ⟨2, 1, rfl, by rw [hg]; rfl, fun h => absurd rfl h⟩
    · exact ⟨1, 2, rfl, by rw [hg]; rfl, fun h => absurd rfl h⟩
  have hur := C64_used c t (by
    intro _ o ho
    simp only [t, List.mem_cons, List.not_mem_nil, or_false] at ho
    rcases ho with rfl | rfl <;> simp [exObs])
  rw [List.filter_eq_self.2 (fun o ho => by simp [hp o ho])] at hur
  have hu : usedRows c t ≠ [] := by
    intro hc; rw [hc] at hur; simp [t] at hur
  have hM : ∃ M, meanMagnitude c (calculate c t) = some M := by
    unfold meanMagnitude
    change ∃ M, (if usedRows c t = [] then _ else _) = some M
    rw [if_neg hu]
    exact ⟨_, rfl⟩
  obtain ⟨M, hM⟩ := hM
  obtain ⟨h1, -, -, -⟩ := meanMagnitude_used hM hu
  refine ⟨c, t, M, hu, hM, ?_⟩
  rw [h1]
  change plainMean _ = none
  have hml : (usedRows c t).map Row.ml = t.map (ml c t) := by
    have := congrArg (List.map (fun e => e.2.1)) hur
    rw [List.map_map, List.map_map] at this
    exact this
  have hnone : ml c t (exObs 1 2) = none := by
    unfold ml signalAmp
    rw [hg]
    simp [exObs, c, exMagCfgW]
  rw [hml]
  unfold plainMean
  rw [if_neg]
  simp [t, hnone]

/-- C64 is violated for a station at the epicentre: it is used, and makes the network magnitude NaN. -/
theorem C64_violated_distance : ∃ (c : Magnitude.Cfg) (t : List Obs) (M : Mean),
    c.noiseF = 1 ∧ usedRows c t ≠ [] ∧ meanMagnitude c (calculate c t) = some M ∧ M.mean = none := by
  let c : Magnitude.Cfg := exMagCfgW false
  let o : Obs := { exObs 2 1 with epi := some 0 }
  let t : List Obs := [o, exObs 2 1]
  have hg : ∀ o, noiseGain t o = o.noise := by
    intro o'; simp [noiseGain, t, o, exObs]
  have hnone : ml c t o = none := by
    unfold ml atten rawDist
    simp [o, c, exMagCfgW, nonZero]
  have hcalc : calculate c t = [⟨o, none, mlErr c t o⟩, ⟨exObs 2 1, ml c t (exObs 2 1), mlErr c t (exObs 2 1)⟩] := by
    unfold calculate
    simp only [t, List.map_cons, List.map_nil]
    congr 2
  have hfil : filterMags (calculate c t) = calculate c t := by
    unfold filterMags corrected dropna
    rw [hcalc]
    simp [noiseGain, o, exObs]
  have hus : usedRows c t = calculate c t := by
    unfold usedRows
    rw [hfil, List.filter_eq_self, hcalc]
    intro r hr
    simp only [List.mem_cons, List.not_mem_nil, or_false] at hr
    rcases hr with rfl | rfl <;>
      simp [used, traceOK, stationOK, distOK, noiseOK, exObs, exMagCfgW, c, o]
  have hu : usedRows c t ≠ [] := by rw [hus, hcalc]; simp
  obtain ⟨M, hM⟩ := exMag_some false t
  obtain ⟨h1, -, -, -⟩ := meanMagnitude_used hM hu
  refine ⟨c, t, M, rfl, hu, hM, ?_⟩
  rw [h1]
  change plainMean ((usedRows c t).map Row.ml) = none
  rw [hus, hcalc]
  simp [plainMean]

/-- C64 is violated with weights for an observation without noise: its weight is infinite. -/
theorem C64_violated_weights : ∃ (c : Magnitude.Cfg) (t : List Obs) (M : Mean),
    c.noiseF = 1 ∧ usedRows c t ≠ [] ∧ meanMagnitude c (calculate c t) = some M ∧ M.mean = none := by
  let c : Magnitude.Cfg := exMagCfgW true
  let t : List Obs := [exObs 10 0]
  have hg : ∀ o, noiseGain t o = o.noise := by
    intro o'; simp [noiseGain, t, exObs]
  have hml : ml c t (exObs 10 0) = some 1 := by
    unfold ml signalAmp atten rawDist
    rw [hg]
    norm_num [exObs, c, exMagCfgW, nonZero, log10, correction]
  have herr : mlErr c t (exObs 10 0) = .fin 0 := by
    unfold mlErr signalAmp atten rawDist
    rw [hg]
    norm_num [exObs, c, exMagCfgW, nonZero]
  have hcalc : calculate c t = [⟨exObs 10 0, some 1, .fin 0⟩] := by
    unfold calculate
    simp only [t, List.map_cons, List.map_nil]
    congr 2
  have hfil : filterMags (calculate c t) = calculate c t := by
    unfold filterMags corrected dropna
    rw [hcalc]
    simp [noiseGain, exObs]
  have hus : usedRows c t = calculate c t := by
    unfold usedRows
    rw [hfil, List.filter_eq_self, hcalc]
    intro r hr
    simp only [List.mem_cons, List.not_mem_nil, or_false] at hr
    rcases hr with rfl
    simp [used, traceOK, stationOK, distOK, noiseOK, exObs, exMagCfgW, c]
  have hu : usedRows c t ≠ [] := by rw [hus, hcalc]; simp
  obtain ⟨M, hM⟩ := exMag_some true t
  obtain ⟨h1, -, -, -⟩ := meanMagnitude_used hM hu
  refine ⟨c, t, M, rfl, hu, hM, ?_⟩
  rw [h1]
  change weightedMean ((usedRows c t).map fun r => (r.ml, r.err)) = none
  rw [hus, hcalc]
  simp [weightedMean, sumW, weight]

/-! ## C65 -/

/-- Variance of the log amplitudes about their mean is positive unless all amplitudes are equal. -/
theorem r2_var_pos {l : List ℝ} (hpos : ∀ a ∈ l, 0 < a) (hne : ¬ ∀ a ∈ l, ∀ b ∈ l, a = b) (μ : ℝ) :
    0 < ((l.map (Real.logb 10)).map fun x => (x - μ) ^ 2).sum := by
  rw [List.map_map]
  have h0 := sum_nonneg_map l ((fun x => (x - μ) ^ 2) ∘ Real.logb 10) (fun _ _ => by
    simp only [Function.comp]; positivity)
  rcases h0.lt_or_eq with h | h
  · exact h
  · exfalso
    apply hne
    have hz := sum_eq_zero_map l ((fun x => (x - μ) ^ 2) ∘ Real.logb 10) (fun _ _ => by
      simp only [Function.comp]; positivity) h.symm
    have he : ∀ a ∈ l, Real.logb 10 a = μ := by
      intro a ha
      have := hz a ha
      simp only [Function.comp] at this
      have := pow_eq_zero_iff (two_ne_zero) |>.1 this
      linarith
    intro a ha b hb
    exact Real.logb_injOn_pos (by norm_num) (hpos a ha) (hpos b hb) ((he a ha).trans (he b hb).symm)

theorem modTerm_nonneg (c : Magnitude.Cfg) (m : Option ℝ) (r : Magnitude.Row) : 0 ≤ modTerm c m r := by
  unfold modTerm
  split
  · positivity
  · exact le_refl _

/-- The rows entering the r-squared statistic: the rows used or, on request, all rows that pass the
trace, station and distance filters. -/
noncomputable def r2Selected (c : Magnitude.Cfg) (t : List Obs) : List Magnitude.Row :=
  if c.onlyUsed then usedRows c t
  else (filterMags (calculate c t)).filter fun r => traceOK c r && stationOK c r && distOK c r

theorem r2Rows_eq {c : Magnitude.Cfg} {t : List Obs} {sel : List Magnitude.Row}
    (h : r2Rows c (filterMags (calculate c t)) = some sel) : sel = r2Selected c t := by
  unfold r2Rows at h
  unfold r2Selected
  split_ifs at h ⊢ with h1 h2
  · exact (Option.some.inj h).symm
  · rw [← Option.some.inj h, List.filter_filter, List.filter_filter]
    apply List.filter_congr
    intro r _
    cases traceOK c r <;> cases stationOK c r <;> cases distOK c r <;> rfl

/-- C65: the r-squared statistic is at most one. -/
theorem C65_at_most_one (c : Magnitude.Cfg) (t : List Obs) (M : Mean)
    (h : meanMagnitude c (calculate c t) = some M) (hu : usedRows c t ≠ []) (x : ℝ) (hx : M.r2 = some x)
    (hpos : ∀ r ∈ r2Selected c t, 0 < r2Amp c r) : x ≤ 1 := by
  obtain ⟨-, -, -, sel, hsel, h2⟩ := meanMagnitude_used h hu
  rw [hx, r2Rows_eq hsel] at h2
  unfold r2Stat at h2
  simp only at h2
  split_ifs at h2 with h3
  push Not at h3
  have hv := r2_var_pos (l := (r2Selected c t).map (r2Amp c)) (by
    intro a ha
    rw [List.mem_map] at ha
    obtain ⟨r, hr, rfl⟩ := ha
    exact hpos r hr) (by push Not; exact h3.2)
    ((((r2Selected c t).map (r2Amp c)).map (Real.logb 10)).sum /
      (((r2Selected c t).map (r2Amp c)).map (Real.logb 10)).length)
  have hm := sum_nonneg_map (r2Selected c t) (modTerm c M.mean) (fun r _ => modTerm_nonneg c _ r)
  have h4 := Option.some.inj h2
  rw [h4, div_le_one hv]
  linarith

/-- C65: the statistic is one iff the model reproduces every log amplitude, provided the network
magnitude and all distances are known.  Missing: see `C65_violated_nan`. -/
theorem C65_one_iff_partial (c : Magnitude.Cfg) (t : List Obs) (M : Mean)
    (h : meanMagnitude c (calculate c t) = some M) (hu : usedRows c t ≠ []) (x : ℝ) (hx : M.r2 = some x)
    (hpos : ∀ r ∈ r2Selected c t, 0 < r2Amp c r) (μ : ℝ) (hμ : M.mean = some μ)
    (hatt : ∀ r ∈ r2Selected c t, ∃ a, atten c r.obs = some a) :
    x = 1 ↔ ∀ r ∈ r2Selected c t, ∃ a, atten c r.obs = some a ∧ Real.logb 10 (r2Amp c r) = μ - a := by
  obtain ⟨-, -, -, sel, hsel, h2⟩ := meanMagnitude_used h hu
  rw [hx, r2Rows_eq hsel] at h2
  unfold r2Stat at h2
  simp only at h2
  split_ifs at h2 with h3
  push Not at h3
  have hv := r2_var_pos (l := (r2Selected c t).map (r2Amp c)) (by
    intro a ha
    rw [List.mem_map] at ha
    obtain ⟨r, hr, rfl⟩ := ha
    exact hpos r hr) (by push Not; exact h3.2)
    ((((r2Selected c t).map (r2Amp c)).map (Real.logb 10)).sum /
      (((r2Selected c t).map (r2Amp c)).map (Real.logb 10)).length)
  have h4 := Option.some.inj h2
  have hone : x = 1 ↔ ((r2Selected c t).map (modTerm c M.mean)).sum = 0 := by
    rw [h4, div_eq_one_iff_eq hv.ne']
    constructor <;> intro e <;> linarith
  rw [hone]
  constructor
  · intro hz r hr
    obtain ⟨a, ha⟩ := hatt r hr
    refine ⟨a, ha, ?_⟩
    have := sum_eq_zero_map _ (modTerm c M.mean) (fun r _ => modTerm_nonneg c _ r) hz r hr
    unfold modTerm at this
    rw [hμ, ha] at this
    simp only at this
    have := pow_eq_zero_iff (two_ne_zero) |>.1 this
    linarith
  · intro hall
    have : (r2Selected c t).map (modTerm c M.mean) = (r2Selected c t).map fun _ => (0 : ℝ) := by
      apply List.map_congr_left
      intro r hr
      obtain ⟨a, ha, he⟩ := hall r hr
      unfold modTerm
      rw [hμ, ha]
      simp [he]
    rw [this]
    simp

/-- C65: the statistic is undefined iff fewer than two observations, or only equal amplitudes, remain. -/
theorem C65_undefined_iff (c : Magnitude.Cfg) (t : List Obs) (M : Mean)
    (h : meanMagnitude c (calculate c t) = some M) (hu : usedRows c t ≠ []) :
    M.r2 = none ↔ (r2Selected c t).length < 2 ∨
      ∀ r ∈ r2Selected c t, ∀ r' ∈ r2Selected c t, r2Amp c r = r2Amp c r' := by
  obtain ⟨-, -, -, sel, hsel, h2⟩ := meanMagnitude_used h hu
  rw [r2Rows_eq hsel] at h2
  rw [h2]
  unfold r2Stat
  simp only [List.forall_mem_map]
  split_ifs with h3
  · exact iff_of_true rfl h3
  · exact iff_of_false (by simp) h3

/-- C65: an error is raised iff some observation is used, the statistic is not restricted to those used
and the noise filter is not positive. -/
theorem C65_error_iff (c : Magnitude.Cfg) (t : List Obs) :
    meanMagnitude c (calculate c t) = none ↔
      usedRows c t ≠ [] ∧ c.onlyUsed = false ∧ c.noiseF ≤ 0 := by
  unfold meanMagnitude
  simp only
  change (if usedRows c t = [] then _ else _) = none ↔ _
  by_cases hu : usedRows c t = []
  · rw [if_pos hu]
    simp [hu]
  · rw [if_neg hu, Option.map_eq_none_iff]
    unfold r2Rows
    by_cases h1 : c.onlyUsed = true
    · simp [h1]
    · by_cases h2 : c.noiseF ≤ 0
      · simp [h1, h2, hu]
      · simp [h1, h2]

/-- C65 is violated: when an observation at distance 0 makes the network magnitude NaN, the statistic is
one. -/
theorem C65_violated_nan : ∃ (c : Magnitude.Cfg) (t : List Obs) (M : Mean),
    meanMagnitude c (calculate c t) = some M ∧ M.mean = none ∧ M.r2 = some 1 := by
  let c : Magnitude.Cfg := exMagCfgW false
  let o : Obs := { exObs 3 1 with epi := some 0 }
  let t : List Obs := [o, exObs 2 1]
  have hnone : ml c t o = none := by
    unfold ml atten rawDist
    simp [o, c, exMagCfgW, nonZero]
  have hcalc : calculate c t = [⟨o, none, mlErr c t o⟩, ⟨exObs 2 1, ml c t (exObs 2 1), mlErr c t (exObs 2 1)⟩] := by
    unfold calculate
    simp only [t, List.map_cons, List.map_nil]
    congr 2
  have hfil : filterMags (calculate c t) = calculate c t := by
    unfold filterMags corrected dropna
    rw [hcalc]
    simp [noiseGain, o, exObs]
  have hus : usedRows c t = calculate c t := by
    unfold usedRows
    rw [hfil, List.filter_eq_self, hcalc]
    intro r hr
    simp only [List.mem_cons, List.not_mem_nil, or_false] at hr
    rcases hr with rfl | rfl
    · norm_num [used, traceOK, stationOK, distOK, noiseOK, exObs, exMagCfgW, c, o]
    · norm_num [used, traceOK, stationOK, distOK, noiseOK, exObs, exMagCfgW, c, o]
  have hu : usedRows c t ≠ [] := by rw [hus, hcalc]; simp
  obtain ⟨M, hM⟩ := exMag_some false t
  obtain ⟨h1, -, -, sel, hsel, h2⟩ := meanMagnitude_used hM hu
  have hmean : M.mean = none := by
    rw [h1]
    change plainMean ((usedRows c t).map Row.ml) = none
    rw [hus, hcalc]
    simp [plainMean]
  refine ⟨c, t, M, hM, hmean, ?_⟩
  rw [h2, r2Rows_eq hsel, hmean]
  have hs : r2Selected (exMagCfgW false) t = calculate c t := hus
  rw [hs]
  have ha : (calculate c t).map (r2Amp (exMagCfgW false)) = [3, 2] := by
    rw [hcalc]
    simp [r2Amp, exObs, o, exMagCfgW, correction]
  have hv := r2_var_pos (l := [3, 2]) (by intro a ha; simp at ha; rcases ha with rfl | rfl <;> norm_num)
    (by intro hc; have := hc 3 (by simp) 2 (by simp); norm_num at this)
    ((([3, 2] : List ℝ).map (Real.logb 10)).sum / (([3, 2] : List ℝ).map (Real.logb 10)).length)
  have hmod : ((calculate c t).map (modTerm (exMagCfgW false) none)).sum = 0 := by
    rw [hcalc]
    simp [modTerm]
  unfold r2Stat
  simp only [ha, hmod]
  rw [if_neg (by
    rw [not_or]
    refine ⟨by rw [hcalc]; simp, ?_⟩
    intro hc; have := hc 3 (by simp) 2 (by simp); norm_num at this)]
  rw [sub_zero, div_self hv.ne']

/-- C65 is violated: with the statistic not restricted to the observations used, an observation below the
noise filter is kept even though its predicted amplitude is below five times its noise. -/
theorem C65_violated_selection : ∃ (c : Magnitude.Cfg) (t : List Obs) (M : Mean) (μ : ℝ) (r : Magnitude.Row)
    (n a : ℝ), c.onlyUsed = false ∧ meanMagnitude c (calculate c t) = some M ∧ M.mean = some μ ∧
    r2Rows c (filterMags (calculate c t)) = some (r2Selected c t) ∧ r ∈ r2Selected c t ∧ r ∉ usedRows c t ∧
    noiseOK c r = false ∧ r.obs.noise = some n ∧ atten c r.obs = some a ∧
    (10 : ℝ) ^ (μ - a) / (n * c.mult * (10 : ℝ) ^ correction c r.obs.id) < 5 := by
  let c : Magnitude.Cfg := { exMagCfgW false with onlyUsed := false }
  let t : List Obs := [exObs 10 1, exObs 1 100]
  have hml : ml c t (exObs 10 1) = some 1 := by
    unfold ml signalAmp atten rawDist noiseGain
    norm_num [exObs, c, exMagCfgW, nonZero, log10, correction, t]
  have hcalc : calculate c t = [⟨exObs 10 1, some 1, mlErr c t (exObs 10 1)⟩,
      ⟨exObs 1 100, ml c t (exObs 1 100), mlErr c t (exObs 1 100)⟩] := by
    unfold calculate
    simp only [t, List.map_cons, List.map_nil]
    congr 2
  have hfil : filterMags (calculate c t) = calculate c t := by
    unfold filterMags corrected dropna
    rw [hcalc]
    simp [noiseGain, exObs]
  have hn : ∀ m e, used c ⟨exObs 1 100, m, e⟩ = false := by
    intro m e
    norm_num [used, traceOK, stationOK, distOK, noiseOK, exObs, exMagCfgW, c]
  have hy : ∀ m e, used c ⟨exObs 10 1, m, e⟩ = true := by
    intro m e
    norm_num [used, traceOK, stationOK, distOK, noiseOK, exObs, exMagCfgW, c]
  have hus : usedRows c t = [⟨exObs 10 1, some 1, mlErr c t (exObs 10 1)⟩] := by
    unfold usedRows
    rw [hfil, hcalc]
    simp only [List.filter_cons, List.filter_nil, hn, hy]
    simp
  have hu : usedRows c t ≠ [] := by rw [hus]; simp
  have hsel : r2Rows c (filterMags (calculate c t)) = some (r2Selected c t) := by
    have : ∃ s, r2Rows c (filterMags (calculate c t)) = some s := by
      unfold r2Rows
      rw [if_neg (by simp [c])]
      simp only
      rw [if_neg (by norm_num [c, exMagCfgW])]
      exact ⟨_, rfl⟩
    obtain ⟨s, hs⟩ := this
    rw [hs, r2Rows_eq hs]
  have hM : ∃ M, meanMagnitude c (calculate c t) = some M := by
    unfold meanMagnitude
    simp only
    change ∃ M, (if usedRows c t = [] then _ else _) = some M
    rw [if_neg hu, hsel]
    exact ⟨_, rfl⟩
  obtain ⟨M, hM⟩ := hM
  obtain ⟨h1, -, -, -⟩ := meanMagnitude_used hM hu
  have hmean : M.mean = some 1 := by
    rw [h1]
    change plainMean ((usedRows c t).map Row.ml) = some 1
    rw [hus]
    simp [plainMean]
  refine ⟨c, t, M, 1, ⟨exObs 1 100, ml c t (exObs 1 100), mlErr c t (exObs 1 100)⟩, 100, 0, rfl, hM, hmean,
    hsel, ?_, ?_, ?_, rfl, ?_, ?_⟩
  · unfold r2Selected
    rw [if_neg (by simp [c]), hfil, hcalc, List.mem_filter]
    simp [traceOK, stationOK, distOK, c, exMagCfgW]
  · rw [hus]
    intro hc
    have := congrArg (fun r => r.obs.amp) (List.mem_singleton.1 hc)
    norm_num [exObs] at this
  · norm_num [noiseOK, exObs, c, exMagCfgW]
  · simp [atten, rawDist, nonZero, exObs, c, exMagCfgW]
  · norm_num [c, exMagCfgW, correction]

/-- A table for which the statistic is defined: two different amplitudes. -/
example : ∃ M x, meanMagnitude (exMagCfgW false) (calculate (exMagCfgW false) [exObs 1 (1/2), exObs 100 1]) =
    some M ∧ M.r2 = some x ∧ x ≤ 1 := by
  have hus := exObs_used false [(1, 1/2), (100, 1)]
    (by intro e he; simp at he; rcases he with rfl | rfl <;> norm_num)
  simp only [List.map_cons, List.map_nil] at hus
  have hu : usedRows (exMagCfgW false) [exObs 1 (1/2), exObs 100 1] ≠ [] := by
    intro hc; rw [hc] at hus; simp at hus
  have hrows : (usedRows (exMagCfgW false) [exObs 1 (1/2), exObs 100 1]).map (r2Amp (exMagCfgW false)) = [1, 100] := by
    have hfil : filterMags (calculate (exMagCfgW false) [exObs 1 (1/2), exObs 100 1]) =
        calculate (exMagCfgW false) [exObs 1 (1/2), exObs 100 1] := by
      unfold filterMags corrected dropna calculate
      simp [noiseGain, exObs, exMagCfgW]
    unfold usedRows
    rw [hfil, List.filter_eq_self.2]
    · unfold calculate
      norm_num [r2Amp, exObs, exMagCfgW, correction]
    · intro r hr
      unfold calculate at hr
      simp only [List.map_cons, List.map_nil, List.mem_cons, List.not_mem_nil, or_false] at hr
      rcases hr with rfl | rfl
      · norm_num [used, traceOK, stationOK, distOK, noiseOK, exObs, exMagCfgW]
      · norm_num [used, traceOK, stationOK, distOK, noiseOK, exObs, exMagCfgW]
  obtain ⟨M, hM⟩ := exMag_some false [exObs 1 (1/2), exObs 100 1]
  have hr2 : M.r2 ≠ none := by
    rw [Ne, C65_undefined_iff _ _ M hM hu]
    have hs : r2Selected (exMagCfgW false) [exObs 1 (1/2), exObs 100 1] =
      usedRows (exMagCfgW false) [exObs 1 (1/2), exObs 100 1] := rfl
    rw [hs, not_or]
    constructor
    · have := congrArg List.length hrows
      simp only [List.length_map, List.length_cons, List.length_nil] at this
      omega
    · intro hall
      have h1 : ∀ a ∈ [(1 : ℝ), 100], ∀ b ∈ [(1 : ℝ), 100], a = b := by
        rw [← hrows]
        simpa only [List.forall_mem_map] using hall
      have := h1 1 (by simp) 100 (by simp)
      norm_num at this
  obtain ⟨x, hx⟩ := Option.ne_none_iff_exists'.1 hr2
  refine ⟨M, x, hM, hx, C65_at_most_one _ _ M hM hu x hx ?_⟩
  intro r hr
  have : r2Amp (exMagCfgW false) r ∈ [(1 : ℝ), 100] := by
    rw [← hrows]
    exact List.mem_map.2 ⟨r, hr, rfl⟩
  simp only [List.mem_cons, List.not_mem_nil, or_false] at this
  rcases this with h | h <;> rw [h] <;> norm_num

end QM
