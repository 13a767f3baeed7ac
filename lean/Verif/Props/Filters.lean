import Verif.Model.Filters
import Verif.Props.Util
import Verif.Props.Detect
import Mathlib.Tactic

/-!
# C126, C127: filters and the Nyquist frequency
-/

namespace QM

open QM.Util QM.Filters

/-- The band-pass filter from `low` to `high` Hz for data at `rate` Hz. -/
def Spec.bandpassAt (rate low high : ℚ) : Design := .bandpass (2 * low / rate) (2 * high / rate)

/-- The high-pass filter from `f` Hz for data at `rate` Hz. -/
def Spec.highpassAt (rate f : ℚ) : Design := .highpass (2 * f / rate)

theorem half_div {a r : ℚ} : a / (1 / 2 * r) = 2 * a / r := by
  rcases eq_or_ne r 0 with rfl | h
  · simp
  · field_simp

theorem obspyHighpass_eq {f r : ℚ} (hf : 0 < f) (hr : 0 < r) :
    obspyHighpass f r = if r ≤ 2 * f then .error .valueError else .ok (Spec.highpassAt r f) := by
  unfold obspyHighpass
  simp only [half_div, iirfilter]
  have h0 : ¬ 2 * f / r ≤ 0 := by have : 0 < 2 * f / r := by positivity
                                  linarith
  by_cases h : r ≤ 2 * f
  · have : 1 ≤ 2 * f / r := (one_le_div hr).mpr h
    rw [if_pos h]
    split
    · rfl
    · rw [if_pos (Or.inr this)]
  · have : 2 * f / r < 1 := (div_lt_one hr).mpr (by linarith)
    rw [if_neg h, if_neg (by linarith), if_neg (by push Not; exact ⟨by linarith, this⟩)]
    rfl

/-- What ObsPy's band-pass filter does at any rate. -/
theorem obspyBandpass_eq {low high r : ℚ} (h0 : 0 < low) (h1 : low < high) (hr : 0 < r) :
    obspyBandpass low high r =
      if 2 * high ≤ (1 - 1 / 1000000) * r then .ok (Spec.bandpassAt r low high)
      else if r ≤ 2 * low then .error .valueError else .ok (Spec.highpassAt r low) := by
  unfold obspyBandpass
  simp only [half_div]
  by_cases h : 2 * high ≤ (1 - 1 / 1000000) * r
  · have hh : 2 * high / r ≤ 1 - 1 / 1000000 := (div_le_iff₀ hr).mpr h
    have hlh : 2 * low / r < 2 * high / r := div_lt_div_of_pos_right (by linarith) hr
    have hl : 0 < 2 * low / r := by positivity
    rw [if_neg (by linarith), if_neg (by linarith), if_pos h]
    have h2 : ¬ (2 * low / r ≤ 0 ∨ 1 ≤ 2 * low / r ∨ 2 * high / r ≤ 0 ∨ 1 ≤ 2 * high / r ∨
        2 * high / r ≤ 2 * low / r) := by
      push Not
      exact ⟨hl, by linarith, by linarith, by linarith, hlh⟩
    simp only [iirfilter, if_neg h2]
    rfl
  · have hh : ¬ 2 * high / r ≤ 1 - 1 / 1000000 := fun c => h ((div_le_iff₀ hr).mp c)
    rw [if_pos (by linarith), if_neg h, obspyHighpass_eq h0 hr]

/-- What filtering a whole stream does. -/
theorem filterAll_spec {α : Type} {low high : ℚ} (h0 : 0 < low) (h1 : low < high) (st : List (RTr α))
    (hr : ∀ t ∈ st, 0 < t.rate) :
    ((∃ t ∈ st, t.rate ≤ 2 * low) → filterAll low high st = .error .valueError) ∧
    ((∀ t ∈ st, 2 * low < t.rate) → filterAll low high st = .ok (st.map fun t => (t,
      if 2 * high ≤ (1 - 1 / 1000000) * t.rate then Spec.bandpassAt t.rate low high
      else Spec.highpassAt t.rate low))) := by
  induction st with
  | nil => exact ⟨by rintro ⟨t, h, _⟩; simp at h, fun _ => rfl⟩
  | cons t ts ih =>
    have ih := ih fun u hu => hr u (by simp [hu])
    have ht := hr t (by simp)
    constructor
    · rintro ⟨u, hu, hle⟩
      unfold filterAll
      rw [obspyBandpass_eq h0 h1 ht]
      by_cases hlt : t.rate ≤ 2 * low
      · rw [if_neg (by nlinarith), if_pos hlt]
      · have hts : filterAll low high ts = .error .valueError := by
          rcases List.mem_cons.mp hu with rfl | hu
          · exact absurd hle hlt
          · exact ih.1 ⟨u, hu, hle⟩
        rw [hts]
        by_cases h : 2 * high ≤ (1 - 1 / 1000000) * t.rate
        · rw [if_pos h]
        · rw [if_neg h, if_neg hlt]
    · intro h
      have hlt := h t (by simp)
      unfold filterAll
      rw [obspyBandpass_eq h0 h1 ht, ih.2 fun u hu => h u (by simp [hu])]
      rw [List.map_cons]
      by_cases hh : 2 * high ≤ (1 - 1 / 1000000) * t.rate
      · rw [if_pos hh, if_pos hh]
      · rw [if_neg hh, if_neg hh, if_neg (not_le.mpr hlt)]

variable {α : Type} [DecidableEq α]

/-- **C126**, the exact outcome of pre-processing a stream: refused for a bad upfactor; for a filter that
does not fit the requested rate; and, without being documented, if a trace that cannot be brought to that rate
is sampled at or below twice the low corner.  Otherwise every trace at the requested rate is filtered with
the band-pass filter asked for, provided the high corner is not in the last millionth below Nyquist. -/
theorem C126_outcome_partial (D : Dsp α) (trim : α → Option α) (sr : ℚ) (hsr : 0 < sr) (rs : Bool) (up : Option ℕ)
    (hup : ∀ u, up = some u → 0 < u) (lowcut highcut : ℚ) (h0 : 0 < lowcut) (h1 : lowcut < highcut)
    (stream : List (RTr α)) (hpos : ∀ tr ∈ stream, 0 < tr.rate ∧ ∀ u, up = some u → 1 ≤ tr.rate * u) :
    ((∃ tr ∈ stream, Spec.badUpfactor sr rs up tr.rate) →
      preProcess D trim sr rs up lowcut highcut stream = .error .badUpfactor) ∧
    ((∀ tr ∈ stream, ¬ Spec.badUpfactor sr rs up tr.rate) →
      (sr / 2 ≤ highcut → preProcess D trim sr rs up lowcut highcut stream = .error .nyquist) ∧
      (highcut < sr / 2 →
        ((∃ tr ∈ stream, Spec.leftAlone sr rs up tr.rate ∧ (trim tr.rest).isSome ∧ tr.rate ≤ 2 * lowcut) →
          preProcess D trim sr rs up lowcut highcut stream = .error .valueError) ∧
        ((∀ tr ∈ stream, Spec.leftAlone sr rs up tr.rate → (trim tr.rest).isSome → 2 * lowcut < tr.rate) →
          ∃ out, preProcess D trim sr rs up lowcut highcut stream = .ok out ∧
            ((∀ a, (trim a).isSome) → out.length = stream.length) ∧
            (highcut ≤ (1 - 1 / 1000000) * (sr / 2) →
              ∀ p ∈ out, p.1.rate = sr → p.2 = Spec.bandpassAt sr lowcut highcut) ∧
            (∀ p ∈ out, p.1.rate ≠ sr → Spec.leftAlone sr rs up p.1.rate)))) := by
  refine ⟨fun hb => ?_, fun hok => ?_⟩
  · unfold preProcess
    rw [C44_bad_upfactor_rejected D trim sr hsr rs up hup stream hpos hb]
  obtain ⟨st, hst, hrates, hlen, hkeep⟩ := C44_rates D trim sr hsr rs up hup stream hpos hok
  have hpre : preProcess D trim sr rs up lowcut highcut stream =
      if highcut ≥ 1 / 2 * sr then .error .nyquist else filterAll lowcut highcut st := by
    unfold preProcess; rw [hst]
  rw [hpre]
  have hstpos : ∀ t ∈ st, 0 < t.rate := by
    intro t ht
    rcases hrates t ht with h | ⟨_, a, ha, _⟩
    · rw [h]; exact hsr
    · exact (hpos _ ha).1
  refine ⟨fun h => by rw [if_pos (by linarith)], fun h => ?_⟩
  rw [if_neg (by linarith)]
  have key := filterAll_spec h0 h1 st hstpos
  refine ⟨?_, ?_⟩
  · rintro ⟨tr, htr, hl, hs, hle⟩
    obtain ⟨a, ha⟩ := Option.isSome_iff_exists.mp hs
    exact key.1 ⟨⟨tr.rate, a⟩, hkeep tr htr a ha (Or.inr hl), hle⟩
  · intro hall
    refine ⟨_, key.2 ?_, ?_, ?_, ?_⟩
    · intro t ht
      rcases hrates t ht with h2 | ⟨hl, a, ha, hta⟩
      · rw [h2]; linarith
      · exact hall ⟨t.rate, a⟩ ha hl (by show (trim a).isSome = true; rw [hta]; rfl)
    · intro ht
      rw [List.length_map]; exact hlen ht
    · intro hm p hp hpr
      obtain ⟨t, ht, rfl⟩ := List.mem_map.mp hp
      simp only at hpr ⊢
      rw [hpr, if_pos (by linarith)]
    · intro p hp hpr
      obtain ⟨t, ht, rfl⟩ := List.mem_map.mp hp
      rcases hrates t ht with h2 | ⟨hl, _⟩
      · exact absurd h2 hpr
      · exact hl

/-- **C126 is violated**: one channel sampled at or below twice the low corner of the filter (which would not be
used anyway, since its rate is not the one requested) stops the whole detect run, whatever the other data and at
whichever timestep it turns up; nothing is recorded from there on. -/
theorem C126_violated (D : Dsp α) (trim : α → Option α) (sr : ℚ) (up : Option ℕ)
    (lowcut highcut : ℚ) (h0 : 0 < lowcut) (h1 : lowcut < highcut) (h2 : highcut < sr / 2)
    (hup : ∀ u, up = some u → 0 < u)
    (streams : ℚ × ℚ → List (RTr α)) (rest : List (RTr α × Design) → Detect.Outcome)
    (c : Detect.Cfg) (start : ℚ) (n k : ℕ) (hk : k < n)
    (hpos : ∀ tr ∈ streams (Detect.window c start k), 0 < tr.rate ∧ ∀ u, up = some u → 1 ≤ tr.rate * u)
    (low : RTr α) (hmem : low ∈ streams (Detect.window c start k)) (hrate : low.rate ≤ 2 * lowcut)
    (htrim : (trim low.rest).isSome) :
    let r := Detect.loop c start
      (fun w => outcome (preProcess D trim sr false up lowcut highcut (streams w)) rest) n 0
    r.completed = false ∧ r.rows.length ≤ k ∧ r.blocks.length ≤ k := by
  intro r
  have hsr : 0 < sr := by linarith
  have hbad : (fun w => outcome (preProcess D trim sr false up lowcut highcut (streams w)) rest)
      (Detect.window c start k) = .other := by
    have hl : Spec.leftAlone sr false up low.rate := by
      have hp := (hpos low hmem).1
      refine ⟨by intro h; linarith, ?_, Or.inl rfl⟩
      rintro ⟨j, hj⟩
      have hj0 : 0 < (j : ℚ) := by
        by_contra hc
        have : (j : ℚ) * sr ≤ 0 := mul_nonpos_of_nonpos_of_nonneg (by linarith) hsr.le
        linarith
      have hj1 : (1 : ℚ) ≤ j := by exact_mod_cast (show (0 : ℤ) < j by exact_mod_cast hj0)
      nlinarith
    have := (((C126_outcome_partial D trim sr hsr false up hup lowcut highcut h0 h1 _ hpos).2
      (fun tr _ hb => by simp [Spec.badUpfactor] at hb)).2 h2).1 ⟨low, hmem, hl, htrim, hrate⟩
    show outcome _ rest = .other
    rw [this]; rfl
  obtain ⟨m, hm, h3, h4, h5, h6⟩ := loop_spec c start
    (fun w => outcome (preProcess D trim sr false up lowcut highcut (streams w)) rest) n 0
  simp only [Nat.zero_add] at h5 h6
  have hmk : m ≤ k := by
    by_contra hc
    obtain ⟨b, q, -, -, hrec⟩ := h5 k (by omega)
    have := hrec.2.2
    rw [hbad] at this
    simp at this
  have hcf : r.completed = false := by
    rcases h6 with ⟨ha, hb⟩ | ⟨ha, _⟩
    · omega
    · exact ha
  exact ⟨hcf, by rw [h3]; exact hmk, by rw [h4]; exact hmk⟩

/-- **C126 is violated** (last millionth below Nyquist): such a high corner is accepted, but a high-pass filter
is applied instead of the band-pass filter asked for. -/
theorem C126_violated_edge (D : Dsp α) (trim : α → Option α) (sr : ℚ) (hsr : 0 < sr) (rs : Bool) (up : Option ℕ)
    (lowcut highcut : ℚ) (h0 : 0 < lowcut) (h1 : lowcut < highcut) (h2 : highcut < sr / 2)
    (h3 : (1 - 1 / 1000000) * (sr / 2) < highcut) (stream : List α) :
    preProcess D trim sr rs up lowcut highcut (stream.map fun a => ⟨sr, a⟩) =
      .ok ((stream.filterMap trim).map fun a => (⟨sr, a⟩, Spec.highpassAt sr lowcut)) := by
  have hres : resample D trim sr rs up (stream.map fun a => (⟨sr, a⟩ : RTr α)) =
      some ((stream.filterMap trim).map fun a => ⟨sr, a⟩) := by
    unfold resample
    have : ∀ (l : List α) (st : List (RTr α)), List.foldlM (fun st tr => resampleStep D sr rs up st tr) st
        (l.map fun a => (⟨sr, a⟩ : RTr α)) = some st := by
      intro l
      induction l with
      | nil => intro st; rfl
      | cons a l ih =>
        intro st
        simp only [List.map_cons, List.foldlM_cons, resampleStep, if_true]
        exact ih st
    rw [this]
    simp only [Option.some.injEq]
    rw [List.filterMap_map]
    induction stream with
    | nil => rfl
    | cons a l ih =>
      simp only [List.filterMap_cons, Function.comp]
      cases trim a with
      | none => exact ih
      | some b => simp only [Option.map_some, List.map_cons]; rw [← ih]; rfl
  unfold preProcess
  rw [hres]
  simp only
  rw [if_neg (by linarith), (filterAll_spec h0 h1 _ (by
    intro t ht
    obtain ⟨a, _, rfl⟩ := List.mem_map.mp ht
    exact hsr)).2 (by
    intro t ht
    obtain ⟨a, _, rfl⟩ := List.mem_map.mp ht
    show 2 * lowcut < sr
    linarith), List.map_map]
  congr 1
  apply List.map_congr_left
  intro a _
  simp only [Function.comp]
  rw [if_neg (by linarith)]

/-! ### C127: filters of the amplitude measurement -/

/-- **C127**: the gain removed from an amplitude is that of the filter that was applied; it is the
band-pass filter asked for where the data allow it, otherwise the high-pass filter with its low corner; or
the high-pass filter asked for. -/
theorem C127_filter_partial (rate : ℚ) (hr : 0 < rate) (s : Setting) (d g : Design)
    (hs : match s with
      | .bandpass l h => 0 < l ∧ l < h
      | .highpass f => 0 < f)
    (h : filterTrace s rate = .ok (d, g)) :
    d = g ∧ match s with
      | .bandpass l h => d = if h ≤ (1 - 1 / 1000000) * (rate / 2) then Spec.bandpassAt rate l h
          else Spec.highpassAt rate l
      | .highpass f => d = Spec.highpassAt rate f := by
  have hp : ∀ (s' : Setting) (f : ℚ), 0 < f → s'.hpFreq = f →
      highpassFilter s' rate = .ok (d, g) → d = g ∧ d = Spec.highpassAt rate f := by
    intro s' f hf he h
    unfold highpassFilter at h
    rw [he] at h
    rw [obspyHighpass_eq hf hr] at h
    by_cases hle : rate ≤ 2 * f
    · rw [if_pos hle] at h; simp at h
    · rw [if_neg hle] at h
      have h0 : ¬ (2 * f / rate ≤ 0 ∨ 1 ≤ 2 * f / rate) := by
        push Not
        exact ⟨by positivity, (div_lt_one hr).mpr (by linarith)⟩
      simp only [iirfilter, half_div, if_neg h0] at h
      injection h with h
      injection h with h h'
      exact ⟨by rw [← h, ← h']; rfl, h.symm⟩
  cases s with
  | highpass f => exact hp _ f hs rfl h
  | bandpass l hi =>
    obtain ⟨h0, h1⟩ := hs
    unfold filterTrace bandpassFilter at h
    simp only [half_div] at h
    by_cases hn : 2 * hi / rate - 1 > -(1 / 1000000)
    · rw [if_pos hn] at h
      have hn' : ¬ hi ≤ (1 - 1 / 1000000) * (rate / 2) := by
        intro c
        have : 2 * hi / rate ≤ 1 - 1 / 1000000 := (div_le_iff₀ hr).mpr (by linarith)
        linarith
      simp only [if_neg hn']
      exact hp _ l h0 rfl h
    · rw [if_neg hn] at h
      have hn' : hi ≤ (1 - 1 / 1000000) * (rate / 2) := by
        have : 2 * hi / rate ≤ 1 - 1 / 1000000 := by linarith
        have := (div_le_iff₀ hr).mp this
        linarith
      simp only [if_pos hn']
      rw [obspyBandpass_eq h0 h1 hr, if_pos (by linarith)] at h
      have hlh : 2 * l / rate < 2 * hi / rate := div_lt_div_of_pos_right (by linarith) hr
      have hl : 0 < 2 * l / rate := by positivity
      have h2 : ¬ (2 * l / rate ≤ 0 ∨ 1 ≤ 2 * l / rate ∨ 2 * hi / rate ≤ 0 ∨ 1 ≤ 2 * hi / rate ∨
          2 * hi / rate ≤ 2 * l / rate) := by
        push Not
        exact ⟨hl, by linarith, by linarith, by linarith, hlh⟩
      simp only [iirfilter, if_neg h2] at h
      injection h with h
      injection h with h h'
      exact ⟨by rw [← h, ← h']; rfl, h.symm⟩

/-- **C127 is violated**: the measurement fails with a `ValueError`, which nothing catches, exactly if a trace
is sampled at or below twice the frequency of the high-pass filter, or the low corner of the band-pass
filter. -/
theorem C127_violated (rate : ℚ) (hr : 0 < rate) (s : Setting)
    (hs : match s with
      | .bandpass l h => 0 < l ∧ l < h
      | .highpass f => 0 < f) :
    (filterTrace s rate = .error .valueError ↔
      match s with
      | .bandpass l _ => rate ≤ 2 * l
      | .highpass f => rate ≤ 2 * f) ∧
    ∀ e, filterTrace s rate = .error e → e = .valueError := by
  have hp : ∀ (s' : Setting) (f : ℚ), 0 < f → s'.hpFreq = f →
      (rate ≤ 2 * f → highpassFilter s' rate = .error .valueError) ∧
      (2 * f < rate → ∃ x, highpassFilter s' rate = .ok x) := by
    intro s' f hf he
    unfold highpassFilter
    rw [he]
    rw [obspyHighpass_eq hf hr]
    refine ⟨fun hle => by rw [if_pos hle], fun hlt => ?_⟩
    rw [if_neg (by linarith)]
    have h0 : ¬ (2 * f / rate ≤ 0 ∨ 1 ≤ 2 * f / rate) := by
      push Not
      exact ⟨by positivity, (div_lt_one hr).mpr (by linarith)⟩
    simp only [iirfilter, half_div, if_neg h0]
    exact ⟨_, rfl⟩
  have fin : ∀ (P : Prop) (r : Except Err (Design × Design)), (P → r = .error .valueError) →
      (¬ P → ∃ x, r = .ok x) → (r = .error .valueError ↔ P) ∧ ∀ e, r = .error e → e = .valueError := by
    intro P r h1 h2
    by_cases hP : P
    · rw [h1 hP]
      exact ⟨⟨fun _ => hP, fun _ => rfl⟩, fun e he => by injection he with he; exact he.symm⟩
    · obtain ⟨x, hx⟩ := h2 hP
      rw [hx]
      exact ⟨⟨fun h => by simp at h, fun h => absurd h hP⟩, fun e he => by simp at he⟩
  cases s with
  | highpass f =>
    exact fin _ _ (hp (.highpass f) f hs rfl).1 fun h => (hp (.highpass f) f hs rfl).2 (by simpa using h)
  | bandpass l hi =>
    obtain ⟨h0, h1⟩ := hs
    have hf : filterTrace (.bandpass l hi) rate =
        if 2 * hi / rate - 1 > -(1 / 1000000) then highpassFilter (.bandpass l hi) rate
        else bandpassFilter l hi rate := by
      unfold filterTrace
      by_cases hn : 2 * hi / rate - 1 > -(1 / 1000000)
      · have : bandpassFilter l hi rate = .error .nyquist := by
          unfold bandpassFilter; simp only [half_div, if_pos hn]
        rw [if_pos hn]; simp only [this]
      · rw [if_neg hn]
        have : bandpassFilter l hi rate ≠ .error .nyquist := by
          unfold bandpassFilter
          simp only [half_div, if_neg hn]
          rw [obspyBandpass_eq h0 h1 hr]
          simp only [iirfilter]
          intro c
          split_ifs at c <;> simp at c
        cases hb : bandpassFilter l hi rate with
        | ok x => simp [hb]
        | error e => cases e <;> simp_all
    rw [hf]
    by_cases hn : 2 * hi / rate - 1 > -(1 / 1000000)
    · rw [if_pos hn]
      exact fin _ _ (hp (.bandpass l hi) l h0 rfl).1 fun h => (hp (.bandpass l hi) l h0 rfl).2 (by simpa using h)
    · rw [if_neg hn]
      have hhi : 2 * hi / rate ≤ 1 - 1 / 1000000 := by linarith
      have hhi' : 2 * hi ≤ (1 - 1 / 1000000) * rate := (div_le_iff₀ hr).mp hhi
      have hlh : 2 * l / rate < 2 * hi / rate := div_lt_div_of_pos_right (by linarith) hr
      have hl : 0 < 2 * l / rate := by positivity
      have h2 : ¬ (2 * l / rate ≤ 0 ∨ 1 ≤ 2 * l / rate ∨ 2 * hi / rate ≤ 0 ∨ 1 ≤ 2 * hi / rate ∨
          2 * hi / rate ≤ 2 * l / rate) := by
        push Not
        exact ⟨hl, by linarith, by linarith, by linarith, hlh⟩
      refine fin _ _ (fun hle => ?_) (fun _ => ?_)
      · simp only at hle; linarith
      · unfold bandpassFilter
        simp only [half_div, if_neg hn]
        rw [obspyBandpass_eq h0 h1 hr, if_pos hhi']
        simp only [iirfilter, if_neg h2]
        exact ⟨_, rfl⟩

/-! ### Cases that meet the hypotheses -/

/-- Two stations at 50 and 100 Hz, and a long-period channel at 1 Hz. -/
def exRates : List (RTr ℕ) := [⟨50, 0⟩, ⟨100, 1⟩, ⟨1, 2⟩]
def exDspF : Dsp ℕ := ⟨fun _ a => a, fun _ a => a⟩

example : preProcess exDspF some 50 false none 2 16 exRates = .error .valueError := by
  decide +kernel
example : preProcess exDspF some 50 false none 2 16 (exRates.take 2) =
      .ok [(⟨50, 0⟩, .bandpass (2 / 25) (16 / 25)), (⟨50, 1⟩, .bandpass (2 / 25) (16 / 25))] := by
  decide +kernel
example : preProcess exDspF some 50 false none (1 / 4) 16 exRates =
      .ok [(⟨50, 0⟩, .bandpass (1 / 100) (16 / 25)), (⟨1, 2⟩, .highpass (1 / 2)),
        (⟨50, 1⟩, .bandpass (1 / 100) (16 / 25))] := by
  decide +kernel
example : preProcess exDspF some 50 true (some 3) 2 16 exRates = .error .badUpfactor := by
  decide +kernel
example : preProcess exDspF some 50 false none 2 25 exRates = .error .nyquist := by
  decide +kernel
example : preProcess exDspF some 50 false none 2 (2499999 / 100000) [⟨50, 0⟩] = .ok [(⟨50, 0⟩, .highpass (2 / 25))] := by
  decide +kernel

/-- A detect run of ten timesteps that meets the long-period channel at the fourth. -/
example : (Detect.loop ⟨300, 50, 10, 10, [], 1⟩ 0 (fun w => outcome (preProcess exDspF some 50 false none 2 16
      (if w.1 < 3 * 300 - 10 then exRates.take 2 else exRates)) fun _ => .dataGap) 10 0).completed = false :=
  (C126_violated exDspF some 50 none 2 16 (by norm_num) (by norm_num) (by norm_num) (by simp)
    (fun w => if w.1 < 3 * 300 - 10 then exRates.take 2 else exRates) _ _ 0 10 3 (by norm_num)
    (by decide +kernel) ⟨1, 2⟩ (by decide +kernel) (by norm_num) rfl).1

example : filterTrace (.bandpass 2 16) 100 = .ok (.bandpass (1 / 25) (8 / 25), .bandpass (1 / 25) (8 / 25)) ∧
    filterTrace (.bandpass 2 16) 20 = .ok (.highpass (1 / 5), .highpass (1 / 5)) ∧
    filterTrace (.bandpass 2 16) 4 = .error .valueError ∧
    filterTrace (.highpass 2) 4 = .error .valueError := by decide +kernel

end QM
