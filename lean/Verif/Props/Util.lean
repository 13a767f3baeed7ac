import Verif.Lemmas.Util

/-!
# Sample arithmetic and resampling: C41-C45
-/

namespace QM
open QM.Util

/-! ## time2sample, trim2sample -/

/-- C41: `time2sample` is the nearest whole number of samples (within half a sample). -/
theorem C41_nearest (t : ℚ) (sr : ℕ) : |(Pads.time2sample t sr : ℚ) - t * sr| ≤ 1 / 2 := by
  rw [Pads.time2sample_nat]; exact abs_pyRound_sub_le _

/-- C41: exact on whole samples. -/
theorem C41_exact (n : ℤ) (sr : ℕ) (hsr : 0 < sr) : Pads.time2sample ((n : ℚ) / sr) sr = n := by
  have h : (n : ℚ) / sr * sr = n := by
    have : (sr : ℚ) ≠ 0 := by exact_mod_cast hsr.ne'
    field_simp
  rw [Pads.time2sample_nat, h, pyRound_int]

/-- C41: monotone in time. -/
theorem C41_monotone (s t : ℚ) (h : s ≤ t) (sr : ℕ) : Pads.time2sample s sr ≤ Pads.time2sample t sr := by
  rw [Pads.time2sample_nat, Pads.time2sample_nat]
  exact pyRound_mono (mul_le_mul_of_nonneg_right h (by positivity))

/-- C41 is restricted to integer rates for a reason: at 12.5 Hz ten seconds are 125 samples,
but `time2sample` gives 120. -/
theorem C41_fractional_rate : Pads.time2sample 10 (25 / 2) = 120 := by decide +kernel

example : Pads.time2sample (103 / 1000) 50 = 5 ∧ Pads.time2sample (-(1 / 10)) 50 = -5 := by
  decide +kernel

/-- C42 is violated for rates that do not divide 1000: one sample at 30 Hz comes back as
33 ms, which is less than a sample and not a whole number of samples. -/
theorem C42_violated : ∃ t : ℚ, 0 ≤ t ∧ Pads.trim2sample t 30 < t ∧
    ¬ ∃ k : ℤ, Pads.trim2sample t 30 = k / 30 := by
  refine ⟨1 / 30, by norm_num, by decide +kernel, ?_⟩
  rintro ⟨k, hk⟩
  have e : Pads.trim2sample (1 / 30) 30 = 33 / 1000 := by decide +kernel
  rw [e] at hk
  have : (k : ℚ) = 99 / 100 := by linarith
  have h2 : (k * 100 : ℤ) = 99 := by
    have : (k : ℚ) * 100 = 99 := by rw [this]; norm_num
    exact_mod_cast this
  omega

/-- C42 for sampling rates that divide 1000: the smallest whole number of samples not
shorter than the input. -/
theorem C42_whole_samples_partial (t : ℚ) (ht : 0 ≤ t) (sr : ℕ) (hsr : sr ∣ 1000) :
    ∃ k : ℤ, Pads.trim2sample t sr = k / sr ∧ t ≤ Pads.trim2sample t sr ∧
      Pads.trim2sample t sr < t + 1 / sr := by
  have h0 : 0 < sr := Nat.pos_of_dvd_of_pos hsr (by norm_num)
  have h0' : (0 : ℚ) < sr := by exact_mod_cast h0
  obtain ⟨k, hk, -, -, h⟩ := Pads.trim2sample_spec ht h0
  have e := h hsr
  refine ⟨k, e, ?_, ?_⟩
  · rw [e, le_div_iff₀ h0', hk]; exact Int.le_ceil _
  · rw [e, div_lt_iff₀ h0', add_mul, one_div, inv_mul_cancel₀ h0'.ne', hk]
    exact Int.ceil_lt_add_one _

/-- C42 for every rate: never more than a millisecond shorter than that. -/
theorem C42_within_millisecond_partial (t : ℚ) (ht : 0 ≤ t) (sr : ℕ) (hsr : 0 < sr) :
    (⌈t * sr⌉ : ℚ) / sr - 1 / 1000 < Pads.trim2sample t sr ∧
      Pads.trim2sample t sr ≤ (⌈t * sr⌉ : ℚ) / sr := by
  obtain ⟨k, hk, h1, h2, -⟩ := Pads.trim2sample_spec ht hsr
  rw [← hk]; exact ⟨h2, h1⟩

example : (50 : ℕ) ∣ 1000 ∧ Pads.trim2sample (11 / 1000) 50 = 2 / 100 := by
  refine ⟨⟨20, rfl⟩, by decide +kernel⟩

/-! ## shift_to_sample -/

/-- C43: traces that are on-sample are returned untouched. `q` is the sample period in
nanoseconds, which divides the second. -/
theorem C43_on_sample_untouched (q : ℤ) (hq : 0 < q) (hdvd : q ∣ 1000000000) (rate : ℚ)
    (hr : rate = 1000000000 / q) (interp : Bool) (tr : Tr) (hon : q ∣ tr.start - tr.start % 1000) :
    shiftTrace rate interp tr = some tr := by
  obtain ⟨D, h1, h2, h3, h4⟩ := offSample_eq hq hr tr.start
  have hd := start_decomp tr.start
  have h5 : q ∣ D := by
    have e : D = (tr.start - tr.start % 1000) - (1000 * microsecond tr.start - D) -
        1000000000 * (tr.start / 1000 / 1000000) := by linarith
    rw [e]
    exact dvd_sub (dvd_sub hon h4) (dvd_mul_of_dvd_left hdvd _)
  have : D = 0 := Int.eq_zero_of_dvd_of_nonneg_of_lt h2 h3 h5
  unfold shiftTrace
  simp only
  rw [h1, this]
  simp

/-- C43: after `shift_to_sample`, with or without interpolation, a trace of at least two
samples starts a whole number of samples after the second (up to the sub-microsecond part of its
original start, which obspy's `microsecond` ignores), was moved by at most half a sample, and
has as many samples as before. -/
theorem C43_shifted_on_sample (q : ℤ) (hq : 0 < q) (hdvd : q ∣ 1000000000) (rate : ℚ)
    (hr : rate = 1000000000 / q) (interp : Bool) (tr : Tr) (hn : 2 ≤ tr.npts) :
    ∃ tr', shiftTrace rate interp tr = some tr' ∧ q ∣ tr'.start - tr.start % 1000 ∧
      2 * |tr'.start - tr.start| ≤ q ∧ tr'.npts = tr.npts := by
  obtain ⟨D, h1, h2, h3, h4⟩ := offSample_eq hq hr tr.start
  have hd := start_decomp tr.start
  have hq' : (0 : ℚ) < q := by exact_mod_cast hq
  by_cases h0 : D = 0
  · have hon : q ∣ tr.start - tr.start % 1000 := by
      rw [h0, sub_zero] at h4
      have e : tr.start - tr.start % 1000 = 1000000000 * (tr.start / 1000 / 1000000) +
        1000 * microsecond tr.start := by linarith
      rw [e]
      exact dvd_add (dvd_mul_of_dvd_left hdvd _) h4
    refine ⟨tr, C43_on_sample_untouched q hq hdvd rate hr interp tr hon, hon, ?_, rfl⟩
    rw [sub_self, abs_zero, mul_zero]; exact hq.le
  set R := pyRound ((D : ℚ) / q) with hR
  set s := R * q - D with hs
  have hb : 2 * |s| ≤ q := by
    have h := abs_pyRound_sub_le ((D : ℚ) / q)
    have e : (s : ℚ) = (R - (D : ℚ) / q) * q := by rw [hs]; push_cast; field_simp
    have : |(s : ℚ)| ≤ 1 / 2 * q := by
      rw [e, abs_mul, abs_of_pos hq']
      exact mul_le_mul_of_nonneg_right h hq'.le
    have h2 : 2 * |(s : ℚ)| ≤ q := by linarith
    exact_mod_cast h2
  have hsne : s ≠ 0 := by
    intro h
    have : q ∣ D := ⟨R, by rw [hs] at h; linarith⟩
    exact h0 (Int.eq_zero_of_dvd_of_nonneg_of_lt h2 h3 this)
  obtain ⟨e1, e2⟩ := shift_start hq hr (D := D) tr.start
  rw [← hR, ← hs] at e1 e2
  have hdv : q ∣ tr.start + s - tr.start % 1000 := by
    have e : tr.start + s - tr.start % 1000 = 1000000000 * (tr.start / 1000 / 1000000) +
        (1000 * microsecond tr.start - D) + R * q := by rw [hs]; linarith
    rw [e]
    exact dvd_add (dvd_add (dvd_mul_of_dvd_left hdvd _) h4) (Dvd.intro_left _ rfl)
  have hD : ¬ (D : ℚ) / 1000 = 0 := by
    have : (D : ℚ) ≠ 0 := by exact_mod_cast h0
    positivity
  have hpos : timeShift rate ((D : ℚ) / 1000) > 0 ↔ 0 < s := by
    rw [← @Int.cast_pos ℚ, ← e1]; constructor <;> intro h <;> linarith
  have hneg : timeShift rate ((D : ℚ) / 1000) < 0 ↔ s < 0 := by
    rw [← @Int.cast_lt_zero ℚ, ← e1]; constructor <;> intro h <;> linarith
  have hs1 : 2 * s ≤ q := by have := le_abs_self s; omega
  have hs2 : -q ≤ 2 * s := by have := neg_abs_le s; omega
  unfold shiftTrace
  simp only
  rw [h1, if_neg hD, e2]
  cases interp with
  | false =>
    refine ⟨_, rfl, hdv, ?_, rfl⟩
    simpa using hb
  | true =>
    simp only [Bool.true_eq_false, if_false, hpos, hneg]
    by_cases hsp : 0 < s
    · have hn' : ¬ s < 0 := by omega
      have en : (interpolate rate tr (tr.start + s)).npts = tr.npts - 1 := by
        rw [interpolate_npts hq hr tr s (tr.npts - 2) (by nlinarith) (by nlinarith)]; omega
      rw [if_neg hn', en, if_neg (by omega), if_pos hsp]
      refine ⟨_, rfl, hdv, ?_, by simp only; omega⟩
      simpa [interpolate] using hb
    · have hn' : s < 0 := by omega
      have en : (interpolate rate tr (tr.start + s + q)).npts = tr.npts - 1 := by
        rw [show tr.start + s + q = tr.start + (s + q) by ring,
          interpolate_npts hq hr tr (s + q) (tr.npts - 2) (by nlinarith) (by nlinarith)]; omega
      rw [if_pos hn', (addSeconds_period hq hr _).1, en, if_neg (by omega), if_neg hsp]
      refine ⟨_, rfl, ?_, ?_, by simp only; omega⟩
      · simp only [interpolate]
        rw [(addSeconds_period hq hr _).2]
        simpa using hdv
      · simp only [interpolate]
        rw [(addSeconds_period hq hr _).2]
        simpa using hb

/-- 100 Hz (period 10 ms), start 3 ms after a sample: moved back 3 ms; start 7 ms after: forward. -/
example : (shiftTrace 100 false ⟨5023000000, 10⟩).map Tr.start = some 5020000000 ∧
    (shiftTrace 100 true ⟨5027000000, 10⟩).map (fun t => (t.start, t.npts)) = some (5030000000, 10) ∧
    (shiftTrace 100 true ⟨5023000000, 10⟩).map (fun t => (t.start, t.npts)) = some (5020000000, 10) ∧
    (shiftTrace 128 false ⟨5007813000, 10⟩).map Tr.start = some 5007812500 := by decide +kernel

/-! ## resample -/

section
variable {α : Type} [DecidableEq α]

/-- Specification: a trace cannot be brought to the rate `sr` with these settings and is
left alone. -/
def Spec.leftAlone (sr : ℚ) (rs : Bool) (up : Option ℕ) (rate : ℚ) : Prop :=
  rate ≠ sr ∧ (¬ ∃ k : ℤ, rate = k * sr) ∧ (rs = false ∨ up = none)

/-- Specification: a trace needs upsampling, and the upfactor does not lead to a multiple of
the requested rate. -/
def Spec.badUpfactor (sr : ℚ) (rs : Bool) (up : Option ℕ) (rate : ℚ) : Prop :=
  (¬ ∃ k : ℤ, rate = k * sr) ∧ rs = true ∧
    ∃ u, up = some u ∧ ¬ ∃ k : ℤ, (⌊rate * u⌋ : ℚ) = k * sr

theorem fMod_eq_zero {a b : ℚ} (hb : b ≠ 0) : fMod a b = 0 ↔ ∃ k : ℤ, a = k * b := by
  unfold fMod
  constructor
  · intro h; exact ⟨⌊a / b⌋, by linarith⟩
  · rintro ⟨k, rfl⟩
    rw [mul_div_cancel_right₀ _ hb, Int.floor_intCast]; ring

theorem decimate_rate (D : Dsp α) {sr : ℚ} (hsr : 0 < sr) {tr : RTr α} (hpos : 0 < tr.rate)
    (h : ∃ k : ℤ, tr.rate = k * sr) : (decimate D sr tr).rate = sr := by
  obtain ⟨k, hk⟩ := h
  unfold decimate
  simp only
  have e : tr.rate / sr = k := by rw [hk]; field_simp
  rw [e, Pads.pyInt_intCast]
  have hk0 : (k : ℚ) ≠ 0 := by
    intro h0; rw [hk, h0] at hpos; simp at hpos
  rw [hk]; field_simp

/-- One step: an error exactly for a bad upfactor; otherwise every trace of the new stream
was there before or has the requested rate, and a trace that is not left alone is gone. -/
theorem resampleStep_spec (D : Dsp α) {sr : ℚ} (hsr : 0 < sr) (rs : Bool) (up : Option ℕ)
    (hup : ∀ u, up = some u → 0 < u)
    (st : List (RTr α)) (tr : RTr α) (hpos : 0 < tr.rate) (h1 : ∀ u, up = some u → 1 ≤ tr.rate * u) :
    (Spec.badUpfactor sr rs up tr.rate → resampleStep D sr rs up st tr = none) ∧
    (¬ Spec.badUpfactor sr rs up tr.rate →
      ((tr.rate = sr ∨ Spec.leftAlone sr rs up tr.rate) ∧ resampleStep D sr rs up st tr = some st) ∨
      (tr.rate ≠ sr ∧ ¬ Spec.leftAlone sr rs up tr.rate ∧
        ∃ new : RTr α, new.rate = sr ∧ resampleStep D sr rs up st tr = some (st.erase tr ++ [new]))) := by
  have hm : ∀ a, fMod a sr = 0 ↔ ∃ k : ℤ, a = k * sr := fun a => fMod_eq_zero hsr.ne'
  unfold resampleStep
  by_cases e : sr = tr.rate
  · rw [if_pos e]
    refine ⟨fun hb => absurd ⟨1, by rw [← e]; simp⟩ hb.1, fun _ => Or.inl ⟨Or.inl e.symm, rfl⟩⟩
  · rw [if_neg e]
    by_cases h2 : ∃ k : ℤ, tr.rate = k * sr
    · rw [if_pos ((hm _).2 h2)]
      refine ⟨fun hb => absurd h2 hb.1, fun _ => Or.inr ⟨fun h => e h.symm, fun h => h.2.1 h2, _,
        decimate_rate D hsr hpos h2, rfl⟩⟩
    · rw [if_neg (fun h => h2 ((hm _).1 h))]
      cases rs with
      | false =>
        exact ⟨fun hb => by simp [Spec.badUpfactor] at hb,
          fun _ => Or.inl ⟨Or.inr ⟨fun h => e h.symm, h2, Or.inl rfl⟩, by simp⟩⟩
      | true =>
        cases up with
        | none =>
          exact ⟨fun hb => by simp [Spec.badUpfactor] at hb,
            fun _ => Or.inl ⟨Or.inr ⟨fun h => e h.symm, h2, Or.inr rfl⟩, by simp⟩⟩
        | some u =>
          simp only
          have hu := hup u rfl
          have hge := h1 u rfl
          have hfl : pyInt (tr.rate * u) = ⌊tr.rate * u⌋ := by
            unfold pyInt; rw [if_pos (by linarith)]
          by_cases h3 : ∃ k : ℤ, ((⌊tr.rate * u⌋ : ℤ) : ℚ) = k * sr
          · rw [if_neg (by rw [not_not, hm, hfl]; exact h3)]
            refine ⟨fun hb => ?_, fun _ => Or.inr ⟨fun h => e h.symm, fun h => by
              rcases h.2.2 with h | h <;> simp at h, _, ?_, rfl⟩⟩
            · obtain ⟨-, -, u', hu', h4⟩ := hb
              rw [← Option.some.inj hu'] at h4
              exact absurd h3 h4
            · apply decimate_rate D hsr
              · simp only [upsampleRate]
                rw [mul_comm, hfl]
                have : 1 ≤ ⌊tr.rate * u⌋ := Int.le_floor.2 (by simpa using hge)
                exact_mod_cast this
              · simp only [upsampleRate]
                rw [mul_comm, hfl]; exact h3
          · rw [if_pos (by rw [Ne, hm, hfl]; exact h3)]
            refine ⟨fun _ => rfl, fun hb => absurd ⟨h2, rfl, u, rfl, h3⟩ hb⟩

theorem erase_append_filter (p : RTr α → Bool) (st : List (RTr α)) (tr : RTr α) (h : p tr = false) :
    (st.erase tr).filter p = st.filter p := by
  induction st with
  | nil => rfl
  | cons a l ih =>
    by_cases e : a = tr
    · subst e
      rw [List.erase_cons_head, List.filter_cons_of_neg (by simp [h])]
    · rw [List.erase_cons_tail (by simpa using e)]
      by_cases hp : p a = true
      · rw [List.filter_cons_of_pos hp, List.filter_cons_of_pos hp, ih]
      · rw [List.filter_cons_of_neg hp, List.filter_cons_of_neg hp, ih]

/-- The loop over the stream. `done` = traces already visited. -/
theorem resample_loop (D : Dsp α) {sr : ℚ} (hsr : 0 < sr) (rs : Bool) (up : Option ℕ)
    (hup : ∀ u, up = some u → 0 < u) (todo : List (RTr α))
    (hpos : ∀ tr ∈ todo, 0 < tr.rate ∧ ∀ u, up = some u → 1 ≤ tr.rate * u)
    (A B : List (RTr α)) (hA : ∀ t ∈ A, t.rate = sr ∨ Spec.leftAlone sr rs up t.rate)
    (hB : ∀ t ∈ B, t.rate = sr) :
    ((∃ tr ∈ todo, Spec.badUpfactor sr rs up tr.rate) →
      todo.foldlM (fun st tr => resampleStep D sr rs up st tr) (A ++ todo ++ B) = none) ∧
    ((∀ tr ∈ todo, ¬ Spec.badUpfactor sr rs up tr.rate) →
      ∃ A' B', todo.foldlM (fun st tr => resampleStep D sr rs up st tr) (A ++ todo ++ B) =
          some (A ++ A' ++ (B ++ B')) ∧
        A'.Sublist todo ∧
        (∀ t ∈ todo, (t.rate = sr ∨ Spec.leftAlone sr rs up t.rate) → t ∈ A') ∧
        (∀ t ∈ A', t.rate = sr ∨ Spec.leftAlone sr rs up t.rate) ∧
        (∀ t ∈ B', t.rate = sr) ∧ A'.length + B'.length = todo.length) := by
  induction todo generalizing A B with
  | nil =>
    refine ⟨by simp, fun _ => ⟨[], [], by simp, by simp, by simp, by simp, by simp, rfl⟩⟩
  | cons tr todo ih =>
    obtain ⟨hp, hu⟩ := hpos tr (by simp)
    have hpos' : ∀ t ∈ todo, 0 < t.rate ∧ ∀ u, up = some u → 1 ≤ t.rate * u :=
      fun t ht => hpos t (List.mem_cons_of_mem _ ht)
    have hs := resampleStep_spec D hsr rs up hup (A ++ tr :: todo ++ B) tr hp hu
    rw [List.foldlM_cons]
    by_cases hb : Spec.badUpfactor sr rs up tr.rate
    · refine ⟨fun _ => by rw [hs.1 hb]; rfl, fun h => absurd hb (h tr (by simp))⟩
    · rcases hs.2 hb with ⟨hk, e⟩ | ⟨hne, hl, new, hnew, e⟩
      · have ih' := ih hpos' (A ++ [tr]) B (by
          intro t ht
          rcases List.mem_append.1 ht with h | h
          · exact hA t h
          · rw [List.mem_singleton.1 h]; exact hk) hB
        have eq : A ++ [tr] ++ todo ++ B = A ++ tr :: todo ++ B := by simp
        rw [eq] at ih'
        rw [e]
        simp only [Option.bind_eq_bind, Option.bind_some]
        constructor
        · rintro ⟨t, ht, hbt⟩
          rcases List.mem_cons.1 ht with h | h
          · rw [h] at hbt; exact absurd hbt hb
          · exact ih'.1 ⟨t, h, hbt⟩
        · intro h
          obtain ⟨A', B', r1, r2, r2', r3, r4, r5⟩ := ih'.2 (fun t ht => h t (List.mem_cons_of_mem _ ht))
          refine ⟨tr :: A', B', by rw [r1]; simp, r2.cons_cons tr, ?_, ?_, r4, by simp; omega⟩
          · intro t ht hc
            rcases List.mem_cons.1 ht with h | h
            · rw [h]; exact List.mem_cons_self
            · exact List.mem_cons_of_mem _ (r2' t h hc)
          · intro t ht
            rcases List.mem_cons.1 ht with h | h
            · rw [h]; exact hk
            · exact r3 t h
      · have hnA : tr ∉ A := by
          intro h
          rcases hA tr h with h | h
          · exact hne h
          · exact hl h
        have ee : (A ++ tr :: todo ++ B).erase tr = A ++ todo ++ B := by
          rw [List.append_assoc, List.erase_append_right _ hnA, List.cons_append,
            List.erase_cons_head, List.append_assoc]
        rw [ee] at e
        have ih' := ih hpos' A (B ++ [new]) hA (by
          intro t ht
          rcases List.mem_append.1 ht with h | h
          · exact hB t h
          · rw [List.mem_singleton.1 h]; exact hnew)
        have eq : A ++ todo ++ (B ++ [new]) = A ++ todo ++ B ++ [new] := by simp
        rw [eq] at ih'
        rw [e]
        simp only [Option.bind_eq_bind, Option.bind_some]
        constructor
        · rintro ⟨t, ht, hbt⟩
          rcases List.mem_cons.1 ht with h | h
          · rw [h] at hbt; exact absurd hbt hb
          · exact ih'.1 ⟨t, h, hbt⟩
        · intro h
          obtain ⟨A', B', r1, r2, r2', r3, r4, r5⟩ := ih'.2 (fun t ht => h t (List.mem_cons_of_mem _ ht))
          refine ⟨A', new :: B', by rw [r1]; simp, r2.cons tr, ?_, r3, ?_, by simp; omega⟩
          · intro t ht hc
            rcases List.mem_cons.1 ht with h | h
            · rw [h] at hc
              rcases hc with hc | hc
              · exact absurd hc hne
              · exact absurd hc hl
            · exact r2' t h hc
          · intro t ht
            rcases List.mem_cons.1 ht with h | h
            · rw [h]; exact hnew
            · exact r4 t h

/-- C44: a bad upfactor is rejected. -/
theorem C44_bad_upfactor_rejected (D : Dsp α) (trim : α → Option α) (sr : ℚ) (hsr : 0 < sr)
    (rs : Bool) (up : Option ℕ) (hup : ∀ u, up = some u → 0 < u) (stream : List (RTr α))
    (hpos : ∀ tr ∈ stream, 0 < tr.rate ∧ ∀ u, up = some u → 1 ≤ tr.rate * u)
    (hbad : ∃ tr ∈ stream, Spec.badUpfactor sr rs up tr.rate) :
    resample D trim sr rs up stream = none := by
  have h := (resample_loop D hsr rs up hup stream hpos [] [] (by simp) (by simp)).1 hbad
  rw [List.nil_append, List.append_nil] at h
  unfold resample
  rw [h]

/-- C44: otherwise `resample` succeeds; every trace of the result has the requested rate,
or is a trace of the input (its data trimmed) that cannot be brought to that rate with these
settings. Nothing is lost before the final trim. -/
theorem C44_rates (D : Dsp α) (trim : α → Option α) (sr : ℚ) (hsr : 0 < sr)
    (rs : Bool) (up : Option ℕ) (hup : ∀ u, up = some u → 0 < u) (stream : List (RTr α))
    (hpos : ∀ tr ∈ stream, 0 < tr.rate ∧ ∀ u, up = some u → 1 ≤ tr.rate * u)
    (hok : ∀ tr ∈ stream, ¬ Spec.badUpfactor sr rs up tr.rate) :
    ∃ out, resample D trim sr rs up stream = some out ∧
      (∀ t ∈ out, t.rate = sr ∨ (Spec.leftAlone sr rs up t.rate ∧
        ∃ a, (⟨t.rate, a⟩ : RTr α) ∈ stream ∧ trim a = some t.rest)) ∧
      ((∀ a, (trim a).isSome) → out.length = stream.length) ∧
      (∀ t ∈ stream, ∀ a, trim t.rest = some a → (t.rate = sr ∨ Spec.leftAlone sr rs up t.rate) →
        ⟨t.rate, a⟩ ∈ out) := by
  obtain ⟨A, B, h1, h2, h2', h3, h4, h5⟩ :=
    (resample_loop D hsr rs up hup stream hpos [] [] (by simp) (by simp)).2 hok
  simp only [List.nil_append, List.append_nil] at h1
  unfold resample
  rw [h1]
  refine ⟨_, rfl, ?_, ?_, ?_⟩
  · intro t ht
    obtain ⟨x, hx, hxt⟩ := List.mem_filterMap.1 ht
    obtain ⟨a, ha, rfl⟩ := Option.map_eq_some_iff.1 hxt
    rcases List.mem_append.1 hx with h | h
    · rcases h3 x h with h' | h'
      · exact Or.inl h'
      · exact Or.inr ⟨h', x.rest, h2.subset h, ha⟩
    · exact Or.inl (h4 x h)
  · intro hall
    have : ∀ l : List (RTr α), (l.filterMap (fun tr => (trim tr.rest).map
        (fun a => (⟨tr.rate, a⟩ : RTr α)))).length = l.length := by
      intro l
      induction l with
      | nil => rfl
      | cons x l ih =>
        obtain ⟨a, ha⟩ := Option.isSome_iff_exists.1 (hall x.rest)
        rw [List.filterMap_cons_some (b := ⟨x.rate, a⟩) (by rw [ha]; rfl), List.length_cons, ih,
          List.length_cons]
    rw [this, List.length_append, h5]
  · intro t ht a ha hk
    apply List.mem_filterMap.2
    exact ⟨t, List.mem_append_left _ (h2' t ht hk), by rw [ha]; rfl⟩
end

def exDsp : Dsp ℕ := ⟨fun _ a => a, fun _ a => a⟩
/-- 40, 50, 100 and 30 Hz to 50 Hz with upfactor 5: all reach 50 Hz. -/
example : (resample exDsp some 50 true (some 5) [⟨40, 0⟩, ⟨50, 1⟩, ⟨100, 2⟩, ⟨30, 3⟩]) =
    some [⟨50, 1⟩, ⟨50, 0⟩, ⟨50, 2⟩, ⟨50, 3⟩] ∧
    resample exDsp some 50 true (some 3) [⟨40, 0⟩] = none ∧
    resample exDsp some 50 false none [⟨40, 0⟩, ⟨200, 1⟩] = some [⟨40, 0⟩, ⟨50, 1⟩] := by decide +kernel

/-! ## upsample -/

section
variable {K : Type} [Field K] [LinearOrder K] [IsStrictOrderedRing K]

/-- C45: the original samples are kept at the multiples of the upfactor, and the length is
`(n - 1) * u + 1`. -/
theorem C45_originals_kept (u : ℕ) (hu : 0 < u) (data : List K) :
    (upsampleData u data).length = (data.length - 1) * u + 1 ∧
    ∀ k (hk : k < data.length), (upsampleData u data)[k * u]? = some data[k] :=
  ⟨upsampleData_length u data, fun k hk => upsampleData_keep u hu data k hk⟩

/-- C45: every inserted value lies between its two original neighbours, on the straight line
between them. -/
theorem C45_inserted_between (u : ℕ) (data : List K) (k i : ℕ) (hk : k + 1 < data.length)
    (hi0 : 0 < i) (hiu : i < u) :
    ∃ v, (upsampleData u data)[k * u + i]? = some v ∧
      v = data[k] + (i : K) / u * (data[k + 1] - data[k]) ∧
      min data[k] data[k + 1] ≤ v ∧ v ≤ max data[k] data[k + 1] := by
  refine ⟨_, upsampleData_between u data k i hk hi0 hiu, ?_, ?_⟩
  all_goals
    have hu : (0 : K) < u := by exact_mod_cast (by omega : 0 < u)
    have hc : ((u - i : ℕ) : K) = u - i := by rw [Nat.cast_sub hiu.le]
    have hi : (0 : K) ≤ (i : K) / u := by positivity
    have hi1 : (i : K) / u ≤ 1 := by
      rw [div_le_one hu]; exact_mod_cast hiu.le
    have e : ((u - i : ℕ) : K) / u = 1 - (i : K) / u := by rw [hc]; field_simp
    rw [e]
  · ring
  · constructor
    · have h1 := min_le_left data[k] data[k + 1]
      have h2 := min_le_right data[k] data[k + 1]
      nlinarith
    · have h1 := le_max_left data[k] data[k + 1]
      have h2 := le_max_right data[k] data[k + 1]
      nlinarith
end

example : upsampleData 3 ([0, 3, -3] : List ℚ) = [0, 1, 2, 3, 1, -1, -3] := by decide +kernel
example : upsampleData 4 ([7] : List ℚ) = [7] := by decide +kernel

/-- C45 is violated by the padding of data that are not whole numbers: the pad repeats the
truncated first value. -/
theorem C45_pad_violated : ∃ (u : ℕ) (t0 t1 : ℚ) (t : UTr), 0 < u ∧ t.data.head? = some (1 / 2) ∧
    (upsamplePadded u t0 t1 t).data = [0, 0, 1 / 2, 1 / 2, 1 / 2] :=
  ⟨2, 0, 1 + 9 / 10, ⟨9 / 10, 1, [1 / 2, 1 / 2]⟩, by norm_num, rfl, by decide +kernel⟩

/-- C45, pads: for data that are whole numbers the pads repeat the first and last value; the
number of pad samples is the gap to the window in new samples, rounded (0 unless the gap is
between zero and one old sample), and the new start time is moved back accordingly. Missing from
the full claim: data that are not whole numbers. -/
theorem C45_pads_partial (u : ℕ) (hu : 0 < u) (t0 t1 : ℚ) (t : UTr) (hr : 0 < t.rate)
    (hne : t.data ≠ []) (hint : ∀ v ∈ t.data, ∃ z : ℤ, v = z) :
    ∃ p q : ℕ,
      (upsamplePadded u t0 t1 t).data = List.replicate p (t.data.head hne) ++ upsampleData u t.data ++
        List.replicate q (t.data.getLast hne) ∧
      (upsamplePadded u t0 t1 t).start = t.start - p / (t.rate * u) ∧
      (∀ k : ℕ, 0 < k → k < u → t.start - t0 = k / (t.rate * u) → p = k) ∧
      (¬ (0 < t.start - t0 ∧ t.start - t0 < 1 / t.rate) → p = 0) ∧
      (∀ k : ℕ, 0 < k → k < u → t1 - t.stop = k / (t.rate * u) → q = k) ∧
      (¬ (0 < t1 - t.stop ∧ t1 - t.stop < 1 / t.rate) → q = 0) := by
  have hu' : (0 : ℚ) < u := by exact_mod_cast hu
  have hpad : ∀ (g : ℚ) (k : ℕ), 0 < k → k < u → g = k / (t.rate * u) → padCount g t.rate u = k := by
    intro g k h1 h2 h3
    have h1' : (0 : ℚ) < k := by exact_mod_cast h1
    have h2' : (k : ℚ) < u := by exact_mod_cast h2
    unfold padCount
    rw [if_pos]
    · have : g * t.rate * u = ((k : ℤ) : ℚ) := by rw [h3]; push_cast; field_simp
      rw [this, pyRound_int]; rfl
    · rw [h3]
      refine ⟨by positivity, ?_⟩
      rw [div_lt_div_iff₀ (by positivity) hr]
      nlinarith
  refine ⟨padCount (t.start - t0) t.rate u, padCount (t1 - t.stop) t.rate u, ?_, rfl,
    hpad _, fun h => if_neg h, hpad _, fun h => if_neg h⟩
  obtain ⟨z, hz⟩ := hint _ (List.head_mem hne)
  obtain ⟨y, hy⟩ := hint _ (List.getLast_mem hne)
  have e1 : t.data.headD 0 = t.data.head hne := by
    rw [List.headD_eq_head?_getD, List.head?_eq_some_head hne]; rfl
  have e2 : t.data.getLastD 0 = t.data.getLast hne := by
    rw [List.getLastD_eq_getLast?, List.getLast?_eq_some_getLast hne]; rfl
  simp only [upsamplePadded]
  rw [e1, e2, hz, hy, Pads.pyInt_intCast, Pads.pyInt_intCast]

example : (upsamplePadded 2 0 2 ⟨1 / 2, 1, [4, 6]⟩).data = [4, 4, 5, 6, 6] ∧
    (upsamplePadded 2 0 2 ⟨1 / 2, 1, [4, 6]⟩).start = 0 := by decide +kernel

/-- Specification: the samples of a trace with their times. -/
def Spec.timed (t : UTr) : List (ℚ × ℚ) := t.data.mapIdx (fun k v => (t.start + k / t.rate, v))

theorem trimInside_timed (t0 t1 : ℚ) (t : UTr) (hr : 0 < t.rate) :
    Spec.timed (trimInside t0 t1 t) =
      (Spec.timed t).filter (fun s => decide (t0 ≤ s.1) && decide (s.1 ≤ t1)) := by
  unfold Spec.timed
  rw [mapIdx_filter_window _ t.data (⌈(t0 - t.start) * t.rate⌉).toNat
    (⌊(t1 - t.start) * t.rate⌋ + 1).toNat]
  · simp only [trimInside]
    have e1 : t.data.take (t.data.length - (-⌊(t1 - t.stop) * t.rate⌋).toNat) =
        t.data.take (⌊(t1 - t.start) * t.rate⌋ + 1).toNat := by
      have : (t1 - t.stop) * t.rate = (t1 - t.start) * t.rate - ((t.data.length : ℤ) - 1 : ℤ) := by
        unfold UTr.stop; push_cast; field_simp; ring
      rw [this, Int.floor_sub_intCast]
      by_cases h : ⌊(t1 - t.start) * t.rate⌋ + 1 ≤ t.data.length
      · congr 1; omega
      · rw [List.take_of_length_le (by omega), List.take_of_length_le (by omega)]
    rw [e1]
    congr 1
    funext k v
    simp only [Prod.mk.injEq, and_true]
    push_cast
    ring
  · intro k v
    simp only [Bool.and_eq_true, decide_eq_true_eq]
    have h1 : t0 ≤ t.start + k / t.rate ↔ (⌈(t0 - t.start) * t.rate⌉).toNat ≤ k := by
      rw [Int.toNat_le, Int.ceil_le]
      constructor
      · intro h
        have := mul_le_mul_of_nonneg_right (show t0 - t.start ≤ k / t.rate by linarith) hr.le
        rw [div_mul_cancel₀ _ hr.ne'] at this
        exact_mod_cast this
      · intro h
        have h' : (t0 - t.start) * t.rate ≤ k := by exact_mod_cast h
        rw [← le_div_iff₀ hr] at h'
        linarith
    have h2 : t.start + k / t.rate ≤ t1 ↔ k < (⌊(t1 - t.start) * t.rate⌋ + 1).toNat := by
      rw [Int.lt_toNat, Int.lt_add_one_iff, Int.le_floor]
      constructor
      · intro h
        have := mul_le_mul_of_nonneg_right (show k / t.rate ≤ t1 - t.start by linarith) hr.le
        rw [div_mul_cancel₀ _ hr.ne'] at this
        exact_mod_cast this
      · intro h
        have h' : (k : ℚ) ≤ (t1 - t.start) * t.rate := by exact_mod_cast h
        rw [← div_le_iff₀ hr] at h'
        linarith
    rw [h1, h2]

/-- C45: what `upsample` returns are exactly the samples of the upsampled and padded trace
that lie in the requested window (with a tolerance of 10 microseconds). -/
theorem C45_window (u : ℕ) (t0 t1 : ℚ) (t : UTr) (hr : 1 ≤ u * t.rate) :
    Spec.timed (upsample u t0 t1 t) =
      (Spec.timed (upsamplePadded u t0 t1 t)).filter
        (fun s => decide (t0 - 1 / 100000 ≤ s.1) && decide (s.1 ≤ t1 + 1 / 100000)) := by
  apply trimInside_timed
  simp only [upsamplePadded]
  have h : (1 : ℤ) ≤ pyInt (u * t.rate) := by
    unfold pyInt
    rw [if_pos (by linarith)]
    exact Int.le_floor.2 (by simpa using hr)
  exact_mod_cast h

example : Spec.timed (upsample 2 0 2 ⟨-1 / 2, 1, [4, 6, 8, 10]⟩) =
    [(0, 5), (1 / 2, 6), (1, 7), (3 / 2, 8), (2, 9)] := by decide +kernel

end QM
