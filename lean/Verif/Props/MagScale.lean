import Verif.Props.Magnitude

/-!
# C187: the scale of the amplitudes and the network magnitude
-/

namespace QM
open QM.Magnitude Classical

/-- An observation of a signal and noise `g` times as large. -/
noncomputable def Spec.louder (g : ℝ) (o : Obs) : Obs :=
  { o with amp := o.amp.map (g * ·), noise := o.noise.map (g * ·) }

/-- The result with the magnitude larger by `k`. -/
noncomputable def Spec.magnitudeUp (k : ℝ) (M : Mean) : Mean := { M with mean := M.mean.map (· + k) }

namespace MagScale

/-- The network magnitude of rows whose magnitudes are larger by `k` and whose log amplitudes are, too. -/
theorem mean_up (c c' : Magnitude.Cfg) (F : Magnitude.Row → Magnitude.Row) (k : ℝ) (rows rows' : List Magnitude.Row)
    (hrows : filterMags rows' = (filterMags rows).map F)
    (hwt : c'.weighted = c.weighted) (honly : c'.onlyUsed = c.onlyUsed) (hnf : c'.noiseF = c.noiseF)
    (hused : ∀ r, used c' (F r) = used c r) (htrace : ∀ r, traceOK c' (F r) = traceOK c r)
    (hstation : ∀ r, stationOK c' (F r) = stationOK c r) (hdist : ∀ r, distOK c' (F r) = distOK c r)
    (hatt : ∀ r, atten c' (F r).obs = atten c r.obs) (hml : ∀ r, (F r).ml = r.ml.map (· + k)) (herr : ∀ r, (F r).err = r.err)
    (hlog : ∀ r ∈ filterMags rows, Real.logb 10 (r2Amp c' (F r)) = Real.logb 10 (r2Amp c r) + k)
    (hinj : ∀ r r', r2Amp c' (F r) = r2Amp c' (F r') ↔ r2Amp c r = r2Amp c r')
    (hn : ∀ r ∈ (filterMags rows).filter (used c), r.ml = none → r.err = .nan)
    (hw : c.weighted = true → ∀ r ∈ (filterMags rows).filter (used c), r.err ≠ .fin 0) :
    meanMagnitude c' rows' = (meanMagnitude c rows).map (Spec.magnitudeUp k) := by
  have hfil : ∀ (p q : Magnitude.Row → Bool) (l : List Magnitude.Row), (∀ r, p (F r) = q r) → (l.map F).filter p = (l.filter q).map F := by
    intro p q l h
    rw [List.filter_map]
    congr 2
    funext r
    exact h r
  unfold meanMagnitude
  simp only
  rw [hrows, hfil _ _ _ hused]
  have hsel : r2Rows c' ((filterMags rows).map F) = (r2Rows c (filterMags rows)).map (List.map F) := by
    unfold r2Rows
    simp only
    rw [hfil _ _ _ hused, hfil _ _ _ htrace, hfil _ _ _ hstation, hfil _ _ _ hdist, honly, hnf]
    split_ifs <;> rfl
  have hsub : ∀ sel, r2Rows c (filterMags rows) = some sel → ∀ r ∈ sel, r ∈ filterMags rows := by
    intro sel h r hr
    unfold r2Rows at h
    simp only at h
    split_ifs at h
    · obtain rfl := Option.some.inj h
      exact List.mem_of_mem_filter hr
    · obtain rfl := Option.some.inj h
      exact List.mem_of_mem_filter (List.mem_of_mem_filter (List.mem_of_mem_filter hr))
  rw [hsel]
  generalize hus : (filterMags rows).filter (used c) = us at hn hw ⊢
  by_cases h0 : us = []
  · rw [if_pos h0, if_pos (by rw [h0]; rfl)]
    rfl
  · rw [if_neg h0, if_neg (by simpa using h0)]
    cases hs : r2Rows c (filterMags rows) with
    | none => rfl
    | some sel =>
      simp only [Option.map_some]
      have e1 : (us.map F).map (fun r => (r.ml, r.err)) = (us.map fun r => (r.ml, r.err)).map (shiftP k) := by
        rw [List.map_map, List.map_map]
        apply List.map_congr_left
        intro r _
        simp only [Function.comp, shiftP, hml, herr]
      have e2 : ((us.map fun r => (r.ml, r.err)).map (shiftP k)).map Prod.fst =
          ((us.map fun r => (r.ml, r.err)).map Prod.fst).map (Option.map (· + k)) := by
        simp only [List.map_map]; rfl
      have hne : (us.map fun r => (r.ml, r.err)).map Prod.fst ≠ [] := by simpa using h0
      have hnan : ∀ e ∈ us.map (fun r => (r.ml, r.err)), e.1 = none → e.2 = .nan := by
        intro e he
        obtain ⟨r, hr, rfl⟩ := List.mem_map.1 he
        exact hn r hr
      have hzero : c.weighted = true → ∀ e ∈ us.map (fun r => (r.ml, r.err)), e.2 ≠ .fin 0 := by
        intro h e he
        obtain ⟨r, hr, rfl⟩ := List.mem_map.1 he
        exact hw h r hr
      have hM : (if c'.weighted then weightedMean ((us.map fun r => (r.ml, r.err)).map (shiftP k))
            else plainMean (((us.map fun r => (r.ml, r.err)).map (shiftP k)).map Prod.fst)) =
          (if c.weighted then weightedMean (us.map fun r => (r.ml, r.err))
            else plainMean ((us.map fun r => (r.ml, r.err)).map Prod.fst)).map (· + k) := by
        rw [hwt]
        by_cases h : c.weighted = true
        · rw [if_pos h, if_pos h, weightedMean_shift k hnan (hzero h)]
        · rw [if_neg h, if_neg h, e2, plainMean_shift k hne]
      have hS : (if c'.weighted then weightedStd ((us.map fun r => (r.ml, r.err)).map (shiftP k))
            else plainStd (((us.map fun r => (r.ml, r.err)).map (shiftP k)).map Prod.fst)) =
          (if c.weighted then weightedStd (us.map fun r => (r.ml, r.err))
            else plainStd ((us.map fun r => (r.ml, r.err)).map Prod.fst)) := by
        rw [hwt]
        by_cases h : c.weighted = true
        · rw [if_pos h, if_pos h, weightedStd_shift k hnan (hzero h)]
        · rw [if_neg h, if_neg h, e2, plainStd_shift k hne]
      have hm : ∀ (l : List (Option ℝ × Magnitude.Err)) (a : Magnitude.Err),
          (match l.map (shiftP k) with | [e] => e.2 | _ => a) = (match l with | [e] => e.2 | _ => a) := by
        intro l a
        match l with
        | [] => rfl
        | [x] => rfl
        | x :: y :: l => rfl
      rw [e1, hM, hS]
      unfold Spec.magnitudeUp
      simp only
      congr 2
      · exact hm _ _
      · generalize (if c.weighted then weightedMean (us.map fun r => (r.ml, r.err))
            else plainMean ((us.map fun r => (r.ml, r.err)).map Prod.fst)) = m
        have hl := fun r hr => hlog r (hsub sel hs r hr)
        have hmod : (sel.map F).map (modTerm c' (m.map (· + k))) = sel.map (modTerm c m) := by
          rw [List.map_map]
          apply List.map_congr_left
          intro r hr
          simp only [Function.comp, modTerm, hatt, hl r hr]
          cases m with
          | none => rfl
          | some m =>
            cases atten c r.obs with
            | none => rfl
            | some a =>
              simp only [Option.map_some]
              ring
        have hlogs : ((sel.map F).map (r2Amp c')).map (Real.logb 10) = ((sel.map (r2Amp c)).map (Real.logb 10)).map (· + k) := by
          simp only [List.map_map]
          apply List.map_congr_left
          intro r hr
          exact hl r hr
        have hall : (∀ a ∈ (sel.map F).map (r2Amp c'), ∀ b ∈ (sel.map F).map (r2Amp c'), a = b) ↔
            ∀ a ∈ sel.map (r2Amp c), ∀ b ∈ sel.map (r2Amp c), a = b := by
          simp only [List.forall_mem_map]
          exact forall₂_congr fun r _ => forall₂_congr fun r' _ => hinj r r'
        unfold r2Stat
        simp only [hmod, hlogs, List.length_map]
        by_cases hc : sel.length < 2 ∨ ∀ a ∈ sel.map (r2Amp c), ∀ b ∈ sel.map (r2Amp c), a = b
        · rw [if_pos hc, if_pos (hc.imp id hall.2)]
        · rw [if_neg hc, if_neg fun h => hc (h.imp id hall.1)]
          have hlen : (sel.length : ℝ) ≠ 0 := by
            have : ¬ sel.length < 2 := fun h => hc (.inl h)
            have : sel.length ≠ 0 := by omega
            exact_mod_cast this
          have hmean : ((((sel.map (r2Amp c)).map (Real.logb 10)).map (· + k)).sum / (sel.length : ℝ)) =
              ((sel.map (r2Amp c)).map (Real.logb 10)).sum / sel.length + k := by
            have : ∀ l : List ℝ, (l.map (· + k)).sum = l.sum + l.length * k := by
              intro l
              induction l with
              | nil => simp
              | cons x l ih =>
                simp only [List.map_cons, List.sum_cons, ih, List.length_cons]
                push_cast
                ring
            rw [this]
            simp only [List.length_map]
            field_simp
          have hvar : ((((sel.map (r2Amp c)).map (Real.logb 10)).map (· + k)).map fun l =>
                (l - (((((sel.map (r2Amp c)).map (Real.logb 10)).map (· + k)).sum / (sel.length : ℝ)))) ^ 2) =
              ((sel.map (r2Amp c)).map (Real.logb 10)).map fun l =>
                (l - ((sel.map (r2Amp c)).map (Real.logb 10)).sum / sel.length) ^ 2 := by
            rw [hmean, List.map_map]
            apply List.map_congr_left
            intro x _
            simp only [Function.comp]
            ring
          rw [hvar]

variable {g : ℝ}

theorem noiseGain_louder (t : List Obs) (o : Obs) :
    noiseGain (t.map (Spec.louder g)) (Spec.louder g o) = (noiseGain t o).map (g * ·) := by
  unfold noiseGain
  rw [List.any_map]
  have : ((fun o : Obs => o.gain.isSome) ∘ Spec.louder g) = fun o : Obs => o.gain.isSome := rfl
  rw [this]
  split
  · have h1 : (Spec.louder g o).noise = o.noise.map (g * ·) := rfl
    have h2 : (Spec.louder g o).gain = o.gain := rfl
    rw [h1, h2]
    cases o.noise <;> cases o.gain <;> simp [mul_div_assoc]
  · rfl

theorem signalAmp_scaled {mult : ℝ} (hg : 0 < g) (a : Option ℝ) (n : Option ℝ) :
    (match a.map (g * ·) with
      | none => none
      | some a =>
        match (n.map (g * ·)).map (· * mult) with
        | some n => if a * mult < n then none else if a * mult = 0 then none else some (a * mult)
        | none => if a * mult = 0 then none else some (a * mult)) =
    (match a with
      | none => none
      | some a =>
        match n.map (· * mult) with
        | some n => if a * mult < n then none else if a * mult = 0 then none else some (a * mult)
        | none => if a * mult = 0 then none else some (a * mult)).map (g * ·) := by
  cases a with
  | none => rfl
  | some a =>
    have h0 : g * a * mult = 0 ↔ a * mult = 0 := by rw [mul_assoc]; simp [hg.ne']
    cases n with
    | none =>
      simp only [Option.map_some, Option.map_none, h0]
      split
      · rfl
      · simp [mul_assoc]
    | some n =>
      have h1 : g * a * mult < g * n * mult ↔ a * mult < n * mult := by
        rw [mul_assoc, mul_assoc]
        exact mul_lt_mul_iff_right₀ hg
      simp only [Option.map_some, h0, h1]
      split
      · rfl
      · split
        · rfl
        · simp [mul_assoc]

theorem signalAmp_louder (c : Magnitude.Cfg) (hg : 0 < g) (t : List Obs) (o : Obs) :
    signalAmp c (t.map (Spec.louder g)) (Spec.louder g o) = (signalAmp c t o).map (g * ·) := by
  unfold signalAmp
  rw [noiseGain_louder]
  exact signalAmp_scaled hg o.amp (noiseGain t o)

theorem log10_mul (hg : 0 < g) (x : ℝ) : log10 (g * x) = (log10 x).map (· + Real.logb 10 g) := by
  unfold log10
  by_cases h : 0 < x
  · rw [if_pos h, if_pos (mul_pos hg h), Real.logb_mul hg.ne' h.ne', Option.map_some, add_comm]
  · rw [if_neg h, if_neg fun h' => h ((mul_pos_iff_of_pos_left hg).1 h')]
    rfl

theorem atten_louder (c : Magnitude.Cfg) (o : Obs) : atten c (Spec.louder g o) = atten c o := rfl

/-- The magnitude and its error from an amplitude and a noise `g` times as large. -/
theorem ml_scaled (hg : 0 < g) (s : Option ℝ) (att : Option ℝ) (κ : ℝ) :
    (match (s.map (g * ·)).bind log10, att with
      | some l, some a => some (l + a + κ)
      | _, _ => none) =
    (match s.bind log10, att with
      | some l, some a => some (l + a + κ)
      | _, _ => none).map (· + Real.logb 10 g) := by
  cases s with
  | none => rfl
  | some x =>
    simp only [Option.map_some, Option.bind_some, log10_mul hg]
    cases log10 x with
    | none => rfl
    | some l =>
      cases att with
      | none => rfl
      | some a =>
        simp only [Option.map_some]
        congr 1
        ring

theorem err_scaled (hg : 0 < g) (s n : Option ℝ) (att : Option ℝ) :
    (match s.map (g * ·), n.map (g * ·), att with
      | some a, some n, some _ =>
        if a + n ≤ 0 then Magnitude.Err.nan
        else if a - n < 0 then .nan
        else if a - n = 0 then .inf
        else .fin (Real.logb 10 (a + n) - Real.logb 10 (a - n))
      | _, _, _ => .nan) =
    (match s, n, att with
      | some a, some n, some _ =>
        if a + n ≤ 0 then Magnitude.Err.nan
        else if a - n < 0 then .nan
        else if a - n = 0 then .inf
        else .fin (Real.logb 10 (a + n) - Real.logb 10 (a - n))
      | _, _, _ => .nan) := by
  cases s with
  | none => rfl
  | some a =>
    cases n with
    | none => rfl
    | some n =>
      cases att with
      | none => rfl
      | some _ =>
        simp only [Option.map_some, ← mul_add, ← mul_sub]
        by_cases h1 : a + n ≤ 0
        · rw [if_pos h1, if_pos (mul_nonpos_of_nonneg_of_nonpos hg.le h1)]
        · rw [if_neg h1, if_neg (not_le.2 (mul_pos hg (not_le.1 h1)))]
          by_cases h2 : a - n < 0
          · rw [if_pos h2, if_pos (mul_neg_of_pos_of_neg hg h2)]
          · rw [if_neg h2, if_neg (not_lt.2 (mul_nonneg hg.le (not_lt.1 h2)))]
            by_cases h3 : a - n = 0
            · rw [if_pos h3, if_pos (by rw [h3, mul_zero])]
            · rw [if_neg h3, if_neg (mul_ne_zero hg.ne' h3), Real.logb_mul hg.ne' (not_le.1 h1).ne', Real.logb_mul hg.ne' h3]
              congr 1
              ring

/-- A row of a louder signal. -/
noncomputable def rowUp (g : ℝ) (r : Magnitude.Row) : Magnitude.Row :=
  ⟨Spec.louder g r.obs, r.ml.map (· + Real.logb 10 g), r.err⟩

theorem calculate_louder (c : Magnitude.Cfg) (hg : 0 < g) (t : List Obs) :
    calculate c (t.map (Spec.louder g)) = (calculate c t).map (rowUp g) := by
  unfold calculate
  rw [List.map_map, List.map_map]
  apply List.map_congr_left
  intro o _
  have hm : ml c (t.map (Spec.louder g)) (Spec.louder g o) = (ml c t o).map (· + Real.logb 10 g) := by
    unfold ml
    rw [signalAmp_louder c hg, atten_louder]
    exact ml_scaled hg _ _ _
  have he : mlErr c (t.map (Spec.louder g)) (Spec.louder g o) = mlErr c t o := by
    unfold mlErr
    rw [signalAmp_louder c hg, atten_louder, noiseGain_louder, Option.map_map]
    have : ((fun x : ℝ => x * c.mult) ∘ fun x => g * x) = ((fun x => g * x) ∘ fun x : ℝ => x * c.mult) := by
      funext x
      simp only [Function.comp]
      ring
    rw [this, ← Option.map_map]
    exact err_scaled hg _ _ _
  simp only [Function.comp, rowUp, hm, he]
  congr 1
  split <;> rfl

theorem filterMags_louder (rows : List Magnitude.Row) :
    filterMags (rows.map (rowUp g)) = (filterMags rows).map (rowUp g) := by
  have hc : corrected (rows.map (rowUp g)) = (corrected rows).map (rowUp g) := by
    unfold corrected
    rw [List.map_map, List.map_map, List.map_map]
    apply List.map_congr_left
    intro r _
    have : rows.map (Row.obs ∘ rowUp g) = (rows.map Row.obs).map (Spec.louder g) := by rw [List.map_map]; rfl
    simp only [Function.comp, this]
    have h := noiseGain_louder (g := g) (rows.map Row.obs) r.obs
    have e : (rowUp g r).obs = Spec.louder g r.obs := rfl
    rw [e, h]
    rfl
  unfold filterMags
  rw [hc]
  unfold dropna
  rw [List.filter_map]
  congr 2
  funext r
  simp only [Function.comp, rowUp, Spec.louder, Option.isSome_map]

theorem used_louder (c : Magnitude.Cfg) (hg : 0 < g) (r : Magnitude.Row) : used c (rowUp g r) = used c r := by
  have hn : noiseOK c (rowUp g r) = noiseOK c r := by
    unfold noiseOK
    simp only [rowUp, Spec.louder]
    cases r.obs.amp with
    | none => rfl
    | some a =>
      cases r.obs.noise with
      | none => rfl
      | some n =>
        simp only [Option.map_some, decide_eq_decide, gt_iff_lt]
        rw [mul_assoc]
        exact mul_lt_mul_iff_right₀ hg
  unfold used
  rw [hn]
  rfl

theorem r2Amp_ne_zero (c : Magnitude.Cfg) (hmult : c.mult ≠ 0) (t : List Obs) (ha : ∀ o ∈ t, o.amp ≠ some 0)
    (r : Magnitude.Row) (hr : r ∈ filterMags (calculate c t)) : r2Amp c r ≠ 0 := by
  unfold filterMags dropna corrected calculate at hr
  rw [List.mem_filter] at hr
  obtain ⟨hr, hs⟩ := hr
  obtain ⟨r', hr', rfl⟩ := List.mem_map.1 hr
  obtain ⟨o, ho, rfl⟩ := List.mem_map.1 hr'
  rw [Bool.and_eq_true] at hs
  have hs' : o.amp.isSome = true := by
    have := hs.1
    simp only at this
    split at this <;> exact this
  obtain ⟨a, hoa⟩ := Option.isSome_iff_exists.1 hs'
  have h0 : a ≠ 0 := fun h => ha o ho (by rw [hoa, h])
  unfold r2Amp
  simp only
  have hsame : (if c.view = true ∧ ¬ c.useHyp = true then { o with epi := nonZero o.epi } else o).amp = some a := by
    split <;> exact hoa
  rw [hsame, Option.getD_some]
  exact mul_ne_zero (mul_ne_zero h0 hmult) (Real.rpow_pos_of_pos (by norm_num) _).ne'

end MagScale

/-- **C187.** With signal and noise `g` times as large everywhere, the network magnitude is larger by the logarithm of `g`: one
for every factor of ten.  Its error, the r-squared statistic and which observations are used stay the same.  No amplitude may be
0 and, with weights, no error. -/
theorem C187_louder (c : Magnitude.Cfg) (g : ℝ) (hg : 0 < g) (hmult : c.mult ≠ 0) (t : List Obs)
    (ha : ∀ o ∈ t, o.amp ≠ some 0) (hw : c.weighted = true → ∀ r ∈ usedRows c t, r.err ≠ .fin 0) :
    meanMagnitude c (calculate c (t.map (Spec.louder g))) =
      (meanMagnitude c (calculate c t)).map (Spec.magnitudeUp (Real.logb 10 g)) ∧
    (usedRows c (t.map (Spec.louder g))).map (fun r => r.obs.id) = (usedRows c t).map fun r => r.obs.id := by
  rw [MagScale.calculate_louder c hg]
  have hamp : ∀ r, r2Amp c (MagScale.rowUp g r) = g * r2Amp c r := by
    intro r
    unfold r2Amp
    simp only [MagScale.rowUp, Spec.louder]
    cases r.obs.amp <;> simp [mul_assoc]
  refine ⟨MagScale.mean_up c c (MagScale.rowUp g) _ _ _ (MagScale.filterMags_louder _) rfl rfl rfl (MagScale.used_louder c hg)
    (fun _ => rfl) (fun _ => rfl) (fun _ => rfl) (fun _ => rfl) (fun _ => rfl) (fun _ => rfl) ?_ ?_ ?_ hw, ?_⟩
  · intro r hr
    have hne := MagScale.r2Amp_ne_zero c hmult t ha r hr
    rw [hamp, Real.logb_mul hg.ne' hne, add_comm]
  · intro r r'
    rw [hamp, hamp]
    exact mul_right_inj' hg.ne'
  · intro r hr h
    exact usedRows_nan c t _ (List.mem_map.2 ⟨r, hr, rfl⟩) h
  · unfold usedRows
    rw [MagScale.calculate_louder c hg, MagScale.filterMags_louder, List.filter_map, List.map_map]
    have : (used c ∘ MagScale.rowUp g) = used c := by funext r; exact MagScale.used_louder c hg r
    rw [this]
    rfl

/-- C187: the amplitude multiplier acts as a louder signal. -/
theorem C187_multiplier (c : Magnitude.Cfg) (g : ℝ) (hg : 0 < g) (hmult : c.mult ≠ 0) (t : List Obs)
    (ha : ∀ o ∈ t, o.amp ≠ some 0) (hw : c.weighted = true → ∀ r ∈ usedRows c t, r.err ≠ .fin 0) :
    meanMagnitude { c with mult := g * c.mult } (calculate { c with mult := g * c.mult } t) =
      (meanMagnitude c (calculate c t)).map (Spec.magnitudeUp (Real.logb 10 g)) := by
  set c' : Magnitude.Cfg := { c with mult := g * c.mult } with hc'
  have hmap : ∀ x : Option ℝ, x.map (· * c'.mult) = (x.map (g * ·)).map (· * c.mult) := by
    intro x
    rw [Option.map_map]
    congr 1
    funext y
    simp only [Function.comp, hc']
    ring
  have hsig : ∀ o, signalAmp c' t o = (signalAmp c t o).map (g * ·) := by
    intro o
    rw [show (signalAmp c t o).map (g * ·) = _ from (MagScale.signalAmp_scaled hg o.amp (noiseGain t o)).symm]
    unfold signalAmp
    simp only [hmap]
    cases o.amp with
    | none => rfl
    | some a =>
      have : a * c'.mult = g * a * c.mult := by simp only [hc']; ring
      simp only [this, Option.map_some]
      cases noiseGain t o <;> rfl
  have hcalc : calculate c' t = (calculate c t).map (Row.shift (Real.logb 10 g)) := by
    unfold calculate
    rw [List.map_map]
    apply List.map_congr_left
    intro o _
    have hm : ml c' t o = (ml c t o).map (· + Real.logb 10 g) := by
      unfold ml
      rw [hsig]
      exact MagScale.ml_scaled hg _ _ _
    have he : mlErr c' t o = mlErr c t o := by
      unfold mlErr
      rw [hsig, hmap]
      have : ((noiseGain t o).map (g * ·)).map (· * c.mult) = ((noiseGain t o).map (· * c.mult)).map (g * ·) := by
        rw [Option.map_map, Option.map_map]
        congr 1
        funext x
        simp only [Function.comp]
        ring
      rw [this]
      exact MagScale.err_scaled hg _ _ _
    rw [hm, he]
    rfl
  have hamp : ∀ r, r2Amp c' (Row.shift (Real.logb 10 g) r) = g * r2Amp c r := by
    intro r
    unfold r2Amp
    simp only [Row.shift, hc']
    change _ * (g * c.mult) * (10 : ℝ) ^ correction c r.obs.id = _
    ring
  rw [hcalc]
  refine MagScale.mean_up c c' (Row.shift (Real.logb 10 g)) _ _ _ (filterMags_shift _ _) rfl rfl rfl
    (fun _ => rfl) (fun _ => rfl) (fun _ => rfl) (fun _ => rfl) (fun _ => rfl) (fun _ => rfl) (fun _ => rfl) ?_ ?_ ?_ hw
  · intro r hr
    rw [hamp, Real.logb_mul hg.ne' (MagScale.r2Amp_ne_zero c hmult t ha r hr), add_comm]
  · intro r r'
    rw [hamp, hamp]
    exact mul_right_inj' hg.ne'
  · intro r hr h
    exact usedRows_nan c t _ (List.mem_map.2 ⟨r, hr, rfl⟩) h

/-- C187: corrections larger by `k` for all traces make the network magnitude larger by `k`, and change nothing else. -/
theorem C187_corrections (c : Magnitude.Cfg) (k : ℝ) (hmult : c.mult ≠ 0) (t : List Obs)
    (ha : ∀ o ∈ t, o.amp ≠ some 0) (hw : c.weighted = true → ∀ r ∈ usedRows c t, r.err ≠ .fin 0) :
    meanMagnitude { c with corr := fun id => some ((c.corr id).getD 0 + k) }
        (calculate { c with corr := fun id => some ((c.corr id).getD 0 + k) } t) =
      (meanMagnitude c (calculate c t)).map (Spec.magnitudeUp k) := by
  set c' : Magnitude.Cfg := { c with corr := fun id => some ((c.corr id).getD 0 + k) } with hc'
  have hcor : ∀ id, correction c' id = correction c id + k := fun _ => rfl
  have hcalc : calculate c' t = (calculate c t).map (Row.shift k) := by
    unfold calculate
    rw [List.map_map]
    apply List.map_congr_left
    intro o _
    have hm : ml c' t o = (ml c t o).map (· + k) := by
      unfold ml
      rw [hcor, show signalAmp c' t o = signalAmp c t o from rfl, show atten c' o = atten c o from rfl]
      cases (signalAmp c t o).bind log10 with
      | none => rfl
      | some l =>
        cases atten c o with
        | none => rfl
        | some a =>
          simp only [Option.map_some]
          congr 1
          ring
    rw [hm]
    rfl
  have h10 : (0 : ℝ) < 10 ^ k := Real.rpow_pos_of_pos (by norm_num) _
  have hamp : ∀ r, r2Amp c' (Row.shift k r) = 10 ^ k * r2Amp c r := by
    intro r
    unfold r2Amp
    rw [show correction c' (Row.shift k r).obs.id = correction c r.obs.id + k from rfl, Real.rpow_add (by norm_num)]
    change r.obs.amp.getD 0 * c.mult * _ = _
    ring
  rw [hcalc]
  refine MagScale.mean_up c c' (Row.shift k) _ _ _ (filterMags_shift _ _) rfl rfl rfl
    (fun _ => rfl) (fun _ => rfl) (fun _ => rfl) (fun _ => rfl) (fun _ => rfl) (fun _ => rfl) (fun _ => rfl) ?_ ?_ ?_ hw
  · intro r hr
    rw [hamp, Real.logb_mul h10.ne' (MagScale.r2Amp_ne_zero c hmult t ha r hr), Real.logb_rpow (by norm_num) (by norm_num), add_comm]
  · intro r r'
    rw [hamp, hamp]
    exact mul_right_inj' h10.ne'
  · intro r hr h
    exact usedRows_nan c t _ (List.mem_map.2 ⟨r, hr, rfl⟩) h

/-- A table that meets the hypotheses; ten times the amplitudes give a magnitude of 2 instead of 1. -/
example : ∃ M, meanMagnitude (exMagCfgW false)
      (calculate (exMagCfgW false) ([exObs 1 (1/2), exObs 100 1].map (Spec.louder 10))) = some M ∧
    M.mean = some 2 ∧ M.err = .fin 1 := by
  have hus := exObs_used false [(1, 1/2), (100, 1)]
    (by intro e he; simp at he; rcases he with rfl | rfl <;> norm_num)
  have hml : (usedRows (exMagCfgW false) [exObs 1 (1/2), exObs 100 1]).map Row.ml = [(0 : ℝ), 2].map some := by
    have := congrArg (List.map Prod.fst) hus
    simp only [List.map_map, List.map_cons, List.map_nil, Real.logb_one, logb_10_100] at this
    exact this
  have hu : usedRows (exMagCfgW false) [exObs 1 (1/2), exObs 100 1] ≠ [] := by
    intro hc; rw [hc] at hml; simp at hml
  obtain ⟨M, hM⟩ := exMag_some false [exObs 1 (1/2), exObs 100 1]
  obtain ⟨h1, h2⟩ := C63_mean (exMagCfgW false) rfl _ M hM hu _ hml
  obtain ⟨h, -⟩ := C187_louder (exMagCfgW false) 10 (by norm_num) (by norm_num [exMagCfgW]) [exObs 1 (1/2), exObs 100 1]
    (by intro o ho; simp at ho; rcases ho with rfl | rfl <;> norm_num [exObs]) (by simp [exMagCfgW])
  refine ⟨_, by rw [h, hM]; rfl, ?_, ?_⟩
  · simp only [Spec.magnitudeUp, h1, Option.map_some]
    rw [Real.logb_self_eq_one (by norm_num)]
    norm_num [Spec.mean]
  · simp only [Spec.magnitudeUp, h2 (by simp : 2 ≤ [(0 : ℝ), 2].length)]
    norm_num [Spec.std, Spec.mean]

end QM
