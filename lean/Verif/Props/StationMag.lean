import Verif.Props.Magnitude

/-!
# Station magnitudes (C92)
-/

namespace QM
open QM.Magnitude Classical

/-- The noise amplitude of an observation: that of the table, divided by the gain of the filter if a
filter was applied (some gain of the table is given). -/
def IsNoise (t : List Obs) (o : Obs) (n : ℝ) : Prop :=
  if ∃ o' ∈ t, o'.gain ≠ none then ∃ n₀ g, o.noise = some n₀ ∧ o.gain = some g ∧ n = n₀ / g
  else o.noise = some n

/-- The distance of an observation: epicentral, or hypocentral if so configured. -/
def IsDist (c : Magnitude.Cfg) (o : Obs) (d : ℝ) : Prop :=
  ∃ e, o.epi = some e ∧ d = if c.useHyp then √(e ^ 2 + o.z ^ 2) else e

/-- The correction of a station: the one given for the trace, else none. -/
def corrOf (c : Magnitude.Cfg) (id : Magnitude.Str) : ℝ :=
  match c.corr id with
  | some k => k
  | none => 0

/-- The amplitude stands out of the noise. -/
def Audible (c : Magnitude.Cfg) (t : List Obs) (o : Obs) (a : ℝ) : Prop :=
  o.amp = some a ∧ 0 < a * c.mult ∧ ∀ n, IsNoise t o n → n * c.mult ≤ a * c.mult

theorem noiseGain_iff (t : List Obs) (o : Obs) (n : ℝ) : noiseGain t o = some n ↔ IsNoise t o n := by
  unfold noiseGain IsNoise
  have e : (t.any fun o => o.gain.isSome) = true ↔ ∃ o' ∈ t, o'.gain ≠ none := by
    rw [List.any_eq_true]
    simp only [Option.isSome_iff_ne_none]
  by_cases h : ∃ o' ∈ t, o'.gain ≠ none
  · rw [if_pos (e.mpr h), if_pos h]
    cases o.noise with
    | none => simp
    | some n₀ =>
      cases o.gain with
      | none => simp
      | some g => simp [eq_comm]
  · rw [if_neg (fun hc => h (e.mp hc)), if_neg h]

theorem noiseGain_none (t : List Obs) (o : Obs) :
    noiseGain t o = none ↔ ∀ n, ¬ IsNoise t o n := by
  constructor
  · intro h n hn
    rw [← noiseGain_iff, h] at hn
    cases hn
  · intro h
    cases hc : noiseGain t o with
    | none => rfl
    | some n => exact absurd ((noiseGain_iff t o n).mp hc) (h n)

theorem atten_iff (c : Magnitude.Cfg) (o : Obs) (x : ℝ) :
    atten c o = some x ↔ ∃ d, IsDist c o d ∧ d ≠ 0 ∧ x = c.A0 d := by
  unfold atten rawDist nonZero IsDist
  cases hu : c.useHyp with
  | true =>
    cases he : o.epi with
    | none => simp
    | some e =>
      simp only [if_true, Option.map_some]
      by_cases h : √(e ^ 2 + o.z ^ 2) = 0
      · rw [if_pos h]
        constructor
        · intro hc; cases hc
        · rintro ⟨d, ⟨e', he', hd⟩, h0, -⟩
          cases he'
          exact absurd (hd.trans h) h0
      · rw [if_neg h]
        simp only [Option.map_some, Option.some_inj]
        constructor
        · rintro rfl; exact ⟨_, ⟨e, rfl, rfl⟩, h, rfl⟩
        · rintro ⟨d, ⟨e', rfl, rfl⟩, -, rfl⟩; rfl
  | false =>
    cases he : o.epi with
    | none => simp
    | some e =>
      simp only [Bool.false_eq_true, if_false]
      by_cases h : e = 0
      · rw [if_pos h]
        constructor
        · intro hc; cases hc
        · rintro ⟨d, ⟨e', he', hd⟩, h0, -⟩
          cases he'
          exact absurd (hd.trans h) h0
      · rw [if_neg h]
        simp only [Option.map_some, Option.some_inj]
        constructor
        · rintro rfl; exact ⟨_, ⟨e, rfl, rfl⟩, h, rfl⟩
        · rintro ⟨d, ⟨e', rfl, rfl⟩, -, rfl⟩; rfl

theorem signalAmp_pos (c : Magnitude.Cfg) (t : List Obs) (o : Obs) (x : ℝ) :
    (signalAmp c t o = some x ∧ 0 < x) ↔ ∃ a, Audible c t o a ∧ x = a * c.mult := by
  unfold signalAmp Audible
  cases ha : o.amp with
  | none => simp
  | some a =>
    simp only [Option.some_inj]
    cases hn : noiseGain t o with
    | none =>
      have hn' := (noiseGain_none t o).mp hn
      simp only [Option.map_none]
      by_cases h0 : a * c.mult = 0
      · rw [if_pos h0]
        constructor
        · rintro ⟨hc, -⟩; cases hc
        · rintro ⟨a', ⟨rfl, h1, -⟩, -⟩; exact absurd h0 h1.ne'
      · rw [if_neg h0]
        constructor
        · rintro ⟨hx, hp⟩
          cases hx
          exact ⟨a, ⟨rfl, hp, fun n h => absurd h (hn' n)⟩, rfl⟩
        · rintro ⟨a', ⟨rfl, h1, -⟩, rfl⟩; exact ⟨rfl, h1⟩
    | some n =>
      have hn' := (noiseGain_iff t o n).mp hn
      simp only [Option.map_some]
      by_cases hlt : a * c.mult < n * c.mult
      · rw [if_pos hlt]
        constructor
        · rintro ⟨hc, -⟩; cases hc
        · rintro ⟨a', ⟨rfl, -, h2⟩, -⟩; exact absurd (h2 n hn') (not_le.mpr hlt)
      · rw [if_neg hlt]
        by_cases h0 : a * c.mult = 0
        · rw [if_pos h0]
          constructor
          · rintro ⟨hc, -⟩; cases hc
          · rintro ⟨a', ⟨rfl, h1, -⟩, -⟩; exact absurd h0 h1.ne'
        · rw [if_neg h0]
          constructor
          · rintro ⟨hx, hp⟩
            cases hx
            refine ⟨a, ⟨rfl, hp, fun m h => ?_⟩, rfl⟩
            have := (noiseGain_iff t o m).mpr h
            rw [hn] at this
            cases this
            exact not_lt.mp hlt
          · rintro ⟨a', ⟨rfl, h1, -⟩, rfl⟩; exact ⟨rfl, h1⟩

/-- C92: an observation has a magnitude exactly if its amplitude is given, positive and not below the
noise, and its distance is given and not zero; the magnitude is log10 of the amplitude (times
the multiplier) plus the attenuation at that distance plus the station's correction. -/
theorem C92_magnitude (c : Magnitude.Cfg) (t : List Obs) (o : Obs) (m : ℝ) :
    ml c t o = some m ↔ ∃ a d, Audible c t o a ∧ IsDist c o d ∧ d ≠ 0 ∧
      m = Real.logb 10 (a * c.mult) + c.A0 d + corrOf c o.id := by
  have hcorr : correction c o.id = corrOf c o.id := by
    unfold correction corrOf
    cases c.corr o.id <;> rfl
  unfold ml
  cases hs : (signalAmp c t o).bind log10 with
  | none =>
    simp only [reduceCtorEq, false_iff]
    rintro ⟨a, d, ha, -⟩
    obtain ⟨h1, h2⟩ := (signalAmp_pos c t o _).mpr ⟨a, ha, rfl⟩
    rw [h1, Option.bind_some, log10, if_pos h2] at hs
    cases hs
  | some l =>
    rw [Option.bind_eq_some_iff] at hs
    obtain ⟨x, hx, hl⟩ := hs
    unfold log10 at hl
    split_ifs at hl with hp
    cases hl
    obtain ⟨a, ha, rfl⟩ := (signalAmp_pos c t o x).mp ⟨hx, hp⟩
    cases hat : atten c o with
    | none =>
      simp only [reduceCtorEq, false_iff]
      rintro ⟨a', d, -, hd, h0, -⟩
      rw [(atten_iff c o _).mpr ⟨d, hd, h0, rfl⟩] at hat
      cases hat
    | some y =>
      obtain ⟨d, hd, h0, rfl⟩ := (atten_iff c o y).mp hat
      simp only [Option.some_inj, hcorr]
      constructor
      · rintro rfl; exact ⟨a, d, ha, hd, h0, rfl⟩
      · rintro ⟨a', d', ha', hd', h0', rfl⟩
        have e1 : a = a' := Option.some_inj.mp (ha.1.symm.trans ha'.1)
        have e2 : c.A0 d = c.A0 d' := by
          rw [← Option.some_inj, ← (atten_iff c o _).mpr ⟨d', hd', h0', rfl⟩, hat]
        rw [e1, e2]

/-- C92: the table of magnitudes has one row per observation, in order, with its magnitude and
error. -/
theorem C92_rows (c : Magnitude.Cfg) (t : List Obs) :
    List.Forall₂ (fun r o => r.obs.id = o.id ∧ r.obs.amp = o.amp ∧ r.ml = ml c t o ∧
      r.err = mlErr c t o) (calculate c t) t := by
  unfold calculate
  rw [List.forall₂_map_left_iff, List.forall₂_same]
  intro o _
  refine ⟨?_, ?_, rfl, rfl⟩ <;> simp only <;> split_ifs <;> rfl

/-- C92: the error of a magnitude, if the amplitude is above the noise: the difference of the
magnitudes of the amplitude plus and minus the noise. -/
theorem C92_error (c : Magnitude.Cfg) (t : List Obs) (o : Obs) (m a n : ℝ) (h : ml c t o = some m)
    (ha : o.amp = some a) (hn : IsNoise t o n) (hm : 0 < c.mult) (h0 : 0 ≤ n) (hlt : n < a) :
    mlErr c t o = .fin (Real.logb 10 ((a + n) * c.mult) - Real.logb 10 ((a - n) * c.mult)) := by
  obtain ⟨a', d, hA, hd, hd0, -⟩ := (C92_magnitude c t o m).mp h
  have e : a' = a := Option.some_inj.mp (hA.1.symm.trans ha)
  subst e
  obtain ⟨h1, -⟩ := (signalAmp_pos c t o _).mpr ⟨a', hA, rfl⟩
  unfold mlErr
  rw [h1, (noiseGain_iff t o n).mpr hn, (atten_iff c o _).mpr ⟨d, hd, hd0, rfl⟩]
  simp only [Option.map_some]
  have p1 : 0 < (a' + n) * c.mult := mul_pos (by linarith) hm
  have p2 : 0 < (a' - n) * c.mult := mul_pos (by linarith) hm
  have e1 : a' * c.mult + n * c.mult = (a' + n) * c.mult := by ring
  have e2 : a' * c.mult - n * c.mult = (a' - n) * c.mult := by ring
  rw [e1, e2, if_neg (not_le.mpr p1), if_neg (not_lt.mpr p2.le), if_neg p2.ne']

/-- C92: if the true amplitude differs from the measured one by at most the noise, the magnitude is
wrong by at most its reported error. -/
theorem C92_error_covers (c : Magnitude.Cfg) (t : List Obs) (o : Obs) (m a n e : ℝ)
    (h : ml c t o = some m) (ha : o.amp = some a) (hn : IsNoise t o n) (hm : 0 < c.mult) (h0 : 0 ≤ n)
    (hlt : n < a) (he : mlErr c t o = .fin e) (b : ℝ) (hb : |b - a| ≤ n) (m' : ℝ)
    (h' : ml c t { o with amp := some b } = some m') : |m' - m| ≤ e := by
  have he' := C92_error c t o m a n h ha hn hm h0 hlt
  rw [he] at he'
  cases he'
  obtain ⟨a₁, d₁, hA₁, hd₁, hd0₁, rfl⟩ := (C92_magnitude c t o m).mp h
  obtain ⟨b₁, d₂, hA₂, hd₂, hd0₂, rfl⟩ := (C92_magnitude c t _ m').mp h'
  have e1 : a₁ = a := Option.some_inj.mp (hA₁.1.symm.trans ha)
  have e2 : b₁ = b := (Option.some_inj.mp hA₂.1).symm
  subst e1 e2
  have e3 : d₂ = d₁ := by
    obtain ⟨x, hx, hd⟩ := hd₁
    obtain ⟨y, hy, hd'⟩ := hd₂
    have : x = y := Option.some_inj.mp (hx.symm.trans hy)
    rw [hd, hd', this]
  subst e3
  rw [abs_le] at hb
  have p1 : 0 < (a₁ - n) * c.mult := mul_pos (by linarith) hm
  have p2 : 0 < b₁ * c.mult := hA₂.2.1
  have p3 : 0 < a₁ * c.mult := hA₁.2.1
  have l1 : Real.logb 10 ((a₁ - n) * c.mult) ≤ Real.logb 10 (b₁ * c.mult) :=
    Real.logb_le_logb_of_le (by norm_num) p1 (mul_le_mul_of_nonneg_right (by linarith) hm.le)
  have l2 : Real.logb 10 (b₁ * c.mult) ≤ Real.logb 10 ((a₁ + n) * c.mult) :=
    Real.logb_le_logb_of_le (by norm_num) p2 (mul_le_mul_of_nonneg_right (by linarith) hm.le)
  have l3 : Real.logb 10 ((a₁ - n) * c.mult) ≤ Real.logb 10 (a₁ * c.mult) :=
    Real.logb_le_logb_of_le (by norm_num) p1 (mul_le_mul_of_nonneg_right (by linarith) hm.le)
  have l4 : Real.logb 10 (a₁ * c.mult) ≤ Real.logb 10 ((a₁ + n) * c.mult) :=
    Real.logb_le_logb_of_le (by norm_num) p3 (mul_le_mul_of_nonneg_right (by linarith) hm.le)
  rw [abs_le]
  constructor <;> simp only <;> linarith

/-- C92: ten times the amplitude is one unit of magnitude more. -/
theorem C92_tenfold (c : Magnitude.Cfg) (t : List Obs) (o : Obs) (m a : ℝ) (h : ml c t o = some m)
    (ha : o.amp = some a) :
    ml c t { o with amp := some (10 * a) } = some (m + 1) := by
  obtain ⟨a', d, ⟨hA, hp, hn⟩, hd, hd0, rfl⟩ := (C92_magnitude c t o m).mp h
  have e : a' = a := Option.some_inj.mp (hA.symm.trans ha)
  subst e
  refine (C92_magnitude c t _ _).mpr ⟨10 * a', d, ⟨rfl, by linarith, fun n h => ?_⟩, hd, hd0, ?_⟩
  · have := hn n h
    linarith
  · have : 10 * a' * c.mult = 10 * (a' * c.mult) := by ring
    rw [this, Real.logb_mul (by norm_num) hp.ne', Real.logb_self_eq_one (by norm_num)]
    simp only
    ring

/-- An amplitude of 100 mm at 10 km, with noise 1 mm, and a station correction of 1/2. -/
example : ml { exMagCfgW true with corr := fun _ => some (1 / 2) } [exObs 100 1] (exObs 100 1) =
    some (5 / 2) := by
  rw [C92_magnitude]
  refine ⟨100, 10, ⟨rfl, by norm_num [exMagCfgW], fun n hn => ?_⟩, ⟨10, rfl, by simp [exMagCfgW]⟩,
    by norm_num, ?_⟩
  · have : n = 1 := by simpa [IsNoise, exObs, eq_comm] using hn
    norm_num [this, exMagCfgW]
  · have e : Real.logb 10 (100 * 1) = 2 := by
      rw [show (100 : ℝ) * 1 = 10 ^ (2 : ℕ) by norm_num, Real.logb_pow,
        Real.logb_self_eq_one (by norm_num)]
      norm_num
    simp only [exMagCfgW, e, corrOf]
    norm_num

end QM
