import Verif.Lemmas.Amplitude
import Mathlib.Tactic.FieldSimp
import Mathlib.Tactic.FinCases

/-!
# Amplitude measurements: C61, C62, C66
-/

namespace QM
open QM.Amplitude QM.Spec

/-! ## C61 -/

/-- The arrivals used are the picks, or the modelled arrival for a phase that could not be picked;
if an onset function was missing at a station with picks, both are modelled. -/
theorem C61_arrivals (otime ptt stt : ℚ) (p s : PickVal) :
    arrivals otime ptt stt p s =
      if p = .noOnset ∨ s = .noOnset then (otime + ptt, otime + stt)
      else (match p with | .time t => t | _ => otime + ptt, match s with | .time t => t | _ => otime + stt) := by
  cases p <;> cases s <;> simp [arrivals]

/-- A station without any pick, or one without onset functions, is not marked as picked; the flag
tells whether a time was picked for at least one phase. -/
theorem C61_picked (picks : List Picker.Row) (station : Picker.Str) :
    (getPicks picks station).2.2 = true ↔
      (∃ t, (getPicks picks station).1 = .time t) ∨ ∃ t, (getPicks picks station).2.1 = .time t := by
  unfold getPicks
  simp only
  split_ifs
  · simp
  · generalize phasePick _ ['P'] = p
    generalize phasePick _ ['S'] = s
    cases p <;> cases s <;> simp [PickVal.isTime]

/-- What the picks file says about a phase at a station: a pick, a row without one, or no row. -/
def PickIs (picks : List Picker.Row) (station ph : Picker.Str) : PickVal → Prop
  | .time t => ∃ r ∈ picks, r.station = station ∧ r.phase = ph ∧ r.pick = some t
  | .noPick => (∃ r ∈ picks, r.station = station ∧ r.phase = ph ∧ r.pick = none) ∨
      ∀ r ∈ picks, r.station ≠ station
  | .noOnset => (∃ r ∈ picks, r.station = station) ∧
      ∀ r ∈ picks, r.station = station → r.phase ≠ ph

theorem phasePick_is (picks : List Picker.Row) (station ph : Picker.Str)
    (h : picks.filter (fun r => r.station == station) ≠ []) :
    PickIs picks station ph (phasePick (picks.filter fun r => r.station == station) ph) := by
  unfold phasePick
  cases hf : (picks.filter fun r => r.station == station).find? fun r => r.phase == ph with
  | none =>
    rw [List.find?_eq_none] at hf
    obtain ⟨r, hr⟩ := List.exists_mem_of_ne_nil _ h
    rw [List.mem_filter, beq_iff_eq] at hr
    refine ⟨⟨r, hr⟩, fun r' hr' hs hp => hf r' ?_ (by simpa using hp)⟩
    rw [List.mem_filter, beq_iff_eq]
    exact ⟨hr', hs⟩
  | some r =>
    have h1 := List.mem_of_find?_eq_some hf
    have h2 := List.find?_some hf
    rw [List.mem_filter, beq_iff_eq] at h1
    rw [beq_iff_eq] at h2
    cases hp : r.pick with
    | none => simp only [hp]; exact Or.inl ⟨r, h1.1, h1.2, h2, hp⟩
    | some t => simp only [hp]; exact ⟨r, h1.1, h1.2, h2, hp⟩

/-- C61: the picks used for a station are the ones of that station, P for P and S for S. -/
theorem C61_picks_own (picks : List Picker.Row) (station : Picker.Str) :
    PickIs picks station ['P'] (getPicks picks station).1 ∧
      PickIs picks station ['S'] (getPicks picks station).2.1 := by
  unfold getPicks
  simp only
  split_ifs with h
  · rw [List.filter_eq_nil_iff] at h
    have : ∀ r ∈ picks, r.station ≠ station := fun r hr => by simpa using h r hr
    exact ⟨Or.inr this, Or.inr this⟩
  · exact ⟨phasePick_is picks station _ h, phasePick_is picks station _ h⟩

/-- C61: if the picks file has at most one row per station and phase, its contents determine the
picks used. -/
theorem C61_picks_determined (picks : List Picker.Row)
    (hu : ∀ r ∈ picks, ∀ r' ∈ picks, r.station = r'.station → r.phase = r'.phase → r = r')
    (station ph : Picker.Str) (v w : PickVal) (hv : PickIs picks station ph v)
    (hw : PickIs picks station ph w) : v = w := by
  have key : ∀ r ∈ picks, r.station = station → r.phase = ph → ∀ v, PickIs picks station ph v →
      v = match r.pick with | some t => .time t | none => .noPick := by
    intro r hr h1 h2 v hv
    cases v with
    | time t =>
      obtain ⟨r', hr', g1, g2, g3⟩ := hv
      rw [hu r hr r' hr' (h1.trans g1.symm) (h2.trans g2.symm), g3]
    | noPick =>
      rcases hv with ⟨r', hr', g1, g2, g3⟩ | hv
      · rw [hu r hr r' hr' (h1.trans g1.symm) (h2.trans g2.symm), g3]
      · exact absurd h1 (hv r hr)
    | noOnset => exact absurd h2 (hv.2 r hr h1)
  by_cases h : ∃ r ∈ picks, r.station = station ∧ r.phase = ph
  · obtain ⟨r, hr, h1, h2⟩ := h
    rw [key r hr h1 h2 v hv, key r hr h1 h2 w hw]
  · have key2 : ∀ v, PickIs picks station ph v →
        (v = .noPick ∧ ∀ r ∈ picks, r.station ≠ station) ∨
        (v = .noOnset ∧ ∃ r ∈ picks, r.station = station) := by
      intro v hv
      cases v with
      | time t => obtain ⟨r', hr', g1, g2, -⟩ := hv; exact absurd ⟨r', hr', g1, g2⟩ h
      | noPick =>
        rcases hv with ⟨r', hr', g1, g2, -⟩ | hv
        · exact absurd ⟨r', hr', g1, g2⟩ h
        · exact Or.inl ⟨rfl, hv⟩
      | noOnset => exact Or.inr ⟨rfl, hv.1⟩
    rcases key2 v hv with ⟨rfl, a⟩ | ⟨rfl, r, hr, hrs⟩ <;>
      rcases key2 w hw with ⟨rfl, b⟩ | ⟨rfl, r', hr', hrs'⟩
    · rfl
    · exact absurd hrs' (a r' hr')
    · exact absurd hrs (b r hr)
    · rfl

/-- C61: the windows are ordered and disjoint, the S window contains the S arrival and ends at least
`signal_window` after it. -/
theorem C61_windows_partial (c : Cfg) (hmw : 0 ≤ c.mw) (hf : 0 ≤ c.fraction) (hs : 0 ≤ c.signal)
    (ptt stt : ℚ) (hp : 0 ≤ ptt) (hps : ptt ≤ stt) (p s : ℚ) (pw sw : Window)
    (h : windowsFor c ptt stt p s = .ok (pw, sw)) :
    pw.2 ≤ sw.1 ∧ sw.1 ≤ s ∧ s + c.signal ≤ sw.2 ∧ pw.1 ≤ p ∧
      pw.1 = p - (c.mw + ptt * c.fraction) ∧ sw.2 = s + (c.mw + stt * c.fraction) + c.signal := by
  have h1 : 0 ≤ ptt * c.fraction := mul_nonneg hp hf
  have h2 : ptt * c.fraction ≤ stt * c.fraction := mul_le_mul_of_nonneg_right hps hf
  unfold windowsFor at h
  simp only at h
  split_ifs at h with g1 g2 g3 <;> simp only [Except.ok.injEq, Prod.mk.injEq] at h <;>
    obtain ⟨rfl, rfl⟩ := h <;> refine ⟨?_, ?_, ?_, ?_, ?_, ?_⟩ <;> simp only <;> linarith

/-- C61: the noise window is `noise_window` long and ends where the P window begins, so it is before
the P arrival and free of both windows. -/
theorem C61_noise_window (c : Cfg) (hmw : 0 ≤ c.mw) (hf : 0 ≤ c.fraction) (hs : 0 ≤ c.signal)
    (ptt stt : ℚ) (hp : 0 ≤ ptt) (hps : ptt ≤ stt) (p s : ℚ) (pw sw : Window)
    (h : windowsFor c ptt stt p s = .ok (pw, sw)) :
    (noiseWindow c (pw, sw)).2 - (noiseWindow c (pw, sw)).1 = c.noise ∧
      (noiseWindow c (pw, sw)).2 = pw.1 ∧ (noiseWindow c (pw, sw)).2 ≤ p ∧
      (noiseWindow c (pw, sw)).2 ≤ p - c.mw := by
  obtain ⟨-, -, -, h4, h5, -⟩ := C61_windows_partial c hmw hf hs ptt stt hp hps p s pw sw h
  have h1 : 0 ≤ ptt * c.fraction := mul_nonneg hp hf
  refine ⟨by simp [noiseWindow], rfl, h4, ?_⟩
  simp only [noiseWindow, h5]
  linarith

/-- C61: the exception is raised exactly if the P arrival is not before the S arrival. -/
theorem C61_error_iff (c : Cfg) (ptt stt p s : ℚ) :
    windowsFor c ptt stt p s = .error .pickOrder ↔ s ≤ p := by
  unfold windowsFor
  simp only
  split_ifs with g1 <;> simp [g1, not_lt] <;> exact not_lt.1 g1

/-- C61: the P window contains the P arrival exactly if the arrivals are at least as far apart as
the difference of the traveltime uncertainties. -/
theorem C61_P_arrival_iff (c : Cfg) (hmw : 0 ≤ c.mw) (hf : 0 ≤ c.fraction) (hs : 0 ≤ c.signal)
    (ptt stt : ℚ) (hp : 0 ≤ ptt) (hps : ptt ≤ stt) (p s : ℚ) (pw sw : Window)
    (h : windowsFor c ptt stt p s = .ok (pw, sw)) :
    (pw.1 ≤ p ∧ p ≤ pw.2) ↔ (stt - ptt) * c.fraction ≤ s - p := by
  have h1 : 0 ≤ ptt * c.fraction := mul_nonneg hp hf
  have h2 : ptt * c.fraction ≤ stt * c.fraction := mul_le_mul_of_nonneg_right hps hf
  rw [sub_mul]
  unfold windowsFor at h
  simp only at h
  split_ifs at h with g1 g2 g3 <;> simp only [Except.ok.injEq, Prod.mk.injEq] at h <;>
    obtain ⟨rfl, rfl⟩ := h <;> constructor <;> intro h' <;> simp only at * <;>
    first
    | (refine ⟨?_, ?_⟩ <;> linarith)
    | linarith [h'.2]
    | linarith

/-- C61 for modelled arrivals: both windows contain their arrival if `fraction_tt ≤ 1`. -/
theorem C61_modelled_contained (c : Cfg) (hmw : 0 ≤ c.mw) (hf : 0 ≤ c.fraction) (hf1 : c.fraction ≤ 1)
    (hs : 0 ≤ c.signal) (otime ptt stt : ℚ) (hp : 0 ≤ ptt) (hps : ptt < stt) :
    ∃ pw sw, windowsFor c ptt stt (otime + ptt) (otime + stt) = .ok (pw, sw) ∧
      pw.1 ≤ otime + ptt ∧ otime + ptt ≤ pw.2 ∧ pw.2 ≤ sw.1 ∧ sw.1 ≤ otime + stt ∧
      otime + stt + c.signal ≤ sw.2 := by
  cases hw : windowsFor c ptt stt (otime + ptt) (otime + stt) with
  | error e =>
    unfold windowsFor at hw
    rw [if_pos (by linarith)] at hw
    simp only at hw
    split_ifs at hw
  | ok w =>
    obtain ⟨pw, sw⟩ := w
    obtain ⟨a1, a2, a3, -, -, -⟩ := C61_windows_partial c hmw hf hs ptt stt hp hps.le _ _ pw sw hw
    have a4 := (C61_P_arrival_iff c hmw hf hs ptt stt hp hps.le _ _ pw sw hw).2 (by
      have : (stt - ptt) * c.fraction ≤ stt - ptt := mul_le_of_le_one_right (by linarith) hf1
      linarith)
    exact ⟨pw, sw, rfl, a4.1, a4.2, a1, a2, a3⟩

/-- C61 is violated for P picks: with P and S picked 0.05 s apart (as the picker allows), the P
window ends before the P pick. -/
theorem C61_violated : ∃ (c : Cfg) (ptt stt otime p s : ℚ) (pw sw : Window),
    0 < c.mw ∧ 0 < c.fraction ∧ c.fraction ≤ 1 ∧ 0 ≤ ptt ∧ ptt < stt ∧ p < s ∧
    |p - (otime + ptt)| < ptt * c.fraction + c.mw ∧ |s - (otime + stt)| < stt * c.fraction + c.mw ∧
    windowsFor c ptt stt p s = .ok (pw, sw) ∧ pw.2 < p := by
  refine ⟨⟨2, 1 / 10, 5, 5⟩, 1, 17 / 10, 0, 13 / 10, 27 / 20, (-4 / 5, 129 / 100), (129 / 100, 852 / 100), ?_⟩
  refine ⟨by norm_num, by norm_num, by norm_num, by norm_num, by norm_num, by norm_num,
    by norm_num [abs_lt], by norm_num [abs_lt], ?_, by norm_num⟩
  norm_num [windowsFor]

/-- Three picks files: both phases picked; only P picked; P without an S onset function. -/
example : getWindows ⟨1, 1 / 10, 2, 5⟩ [⟨['A'], ['P'], 10, some 10, some 0⟩,
      ⟨['A'], ['S'], 20, some 21, some 1⟩] ['A'] 0 10 20 = .ok (((8, 14), (18, 26)), true) ∧
    getWindows ⟨1, 1 / 10, 2, 5⟩ [⟨['A'], ['P'], 10, some 10, some 0⟩,
      ⟨['A'], ['S'], 20, none, none⟩] ['A'] 0 10 20 = .ok (((8, 14), (17, 25)), true) ∧
    getWindows ⟨1, 1 / 10, 2, 5⟩ [⟨['A'], ['P'], 10, some 9, some (-1)⟩] ['A'] 0 10 20 =
      .ok (((8, 14), (17, 25)), true) ∧
    getWindows ⟨1, 1 / 10, 2, 5⟩ [] ['A'] 0 10 12 = .ok (((8, 109 / 10), (109 / 10, 162 / 10)), false) := by
  decide +kernel

/-! ## C62 -/

/-- C62: if peaks and troughs take turns, the amplitude reported is half the largest swing between
neighbouring extrema, in millimetres; the frequency and the time are those of that swing. -/
theorem C62_half_swing (x : ℕ → ℚ) (delta start : ℚ) (hdelta : 0 < delta) (E peaks troughs : List ℕ)
    (h : Alternate E peaks troughs) (hp : peaks ≠ []) (ht : troughs ≠ [])
    (hx : ∀ p ∈ neighbours E, x p.1 ≠ x p.2) :
    ∃ i j, (i, j) ∈ neighbours E ∧ (∀ p ∈ neighbours E, |x p.1 - x p.2| ≤ |x i - x j|) ∧
      peakToTrough x delta start peaks troughs =
        .ok ⟨|x i - x j| / 2 * 1000, 1 / (2 * (((j : ℚ) - i) * delta)),
          start + ((i : ℚ) + j) / 2 * delta⟩ := by
  have hmeas : ∀ i j : ℕ, i < j → measure x delta start (i, j) =
      ⟨|x i - x j| / 2 * 1000, 1 / (2 * (((j : ℚ) - i) * delta)), start + ((i : ℚ) + j) / 2 * delta⟩ := by
    intro i j hij
    have hij' : (i : ℚ) < j := by exact_mod_cast hij
    have e : |(i : ℚ) * delta - j * delta| = (j - i) * delta := by
      rw [← sub_mul, abs_mul, abs_of_pos hdelta, abs_of_neg (by linarith)]
      ring
    simp only [Amplitude.measure, e, Meas.mk.injEq]
    refine ⟨by ring, ?_, by ring⟩
    congr 1
    ring
  have hlt : ∀ p ∈ neighbours E, p.1 < p.2 := by
    have hs := h.1
    clear h hx hp ht
    induction E with
    | nil => simp [neighbours]
    | cons a l ih =>
      cases l with
      | nil => simp [neighbours]
      | cons b l =>
        intro p hp
        rw [List.pairwise_cons] at hs
        simp only [neighbours, List.tail_cons, List.zip_cons_cons, List.mem_cons] at hp
        rcases hp with rfl | hp
        · exact hs.1 b (by simp)
        · exact ih hs.2 p (by simpa [neighbours] using hp)
  have hlen : 2 ≤ E.length := by
    have l1 := evens_length E
    have l2 := odds_length E
    have : 0 < (odds E).length := by
      rcases h.2 with ⟨-, rfl⟩ | ⟨-, rfl⟩
      · exact List.length_pos_iff.2 ht
      · exact List.length_pos_iff.2 hp
    omega
  have hE := evens_length E
  have hO := odds_length E
  rcases Nat.lt_or_ge 2 E.length with h3 | h3
  · obtain ⟨ab, cd, hpair, hab, hcd, q1, q2⟩ := pairings_alternate h h3
    obtain ⟨m1, hm1⟩ := firstMaxBy_isSome (fun pt : ℕ × ℕ => |x pt.1 - x pt.2|) hab
    obtain ⟨m2, hm2⟩ := firstMaxBy_isSome (fun pt : ℕ × ℕ => |x pt.1 - x pt.2|) hcd
    obtain ⟨⟨i, j⟩, ⟨hq, hmax⟩, hor⟩ := best_pair q1 q2 hm1 hm2
    refine ⟨i, j, hq, hmax, ?_⟩
    unfold peakToTrough
    rw [if_neg (by tauto), if_neg (by
      rintro ⟨g1, g2⟩
      rcases h.2 with ⟨rfl, rfl⟩ | ⟨rfl, rfl⟩ <;> omega), hpair]
    simp only [hm1, hm2]
    rw [← hmeas i j (hlt _ hq)]
    congr 1
    rcases hor with e | e
    · rw [← e]
    · rw [← e, ← measure_symm]
  · have h2 : E.length = 2 := by omega
    obtain ⟨a, b, rfl⟩ : ∃ a b, E = [a, b] := by
      match E, h2 with
      | [a, b], _ => exact ⟨a, b, rfl⟩
    have hne := hx (a, b) (by simp [neighbours])
    have hlt' := hlt (a, b) (by simp [neighbours])
    refine ⟨a, b, by simp [neighbours], by simp [neighbours], ?_⟩
    rw [← hmeas a b hlt']
    rcases h.2 with ⟨rfl, rfl⟩ | ⟨rfl, rfl⟩
    · have : |x a - x b| ≠ 0 := by rw [abs_ne_zero, sub_ne_zero]; exact hne
      simp [peakToTrough, evens, odds, this]
    · have : |x b - x a| ≠ 0 := by rw [abs_ne_zero, sub_ne_zero]; exact hne.symm
      simp only [evens, odds, List.tail_cons, peakToTrough, List.headD_cons]
      simp only [reduceCtorEq, or_self, if_false, List.length_cons, List.length_nil, and_self, if_true, this]
      rw [measure_symm]
      rfl

/-- C62: exactly when and how the measurement fails. -/
theorem C62_failure_iff (x : ℕ → ℚ) (delta start : ℚ) (peaks troughs : List ℕ) :
    (peakToTrough x delta start peaks troughs = .error .noPeaks ↔ peaks = [] ∨ troughs = []) ∧
    (peakToTrough x delta start peaks troughs = .error .consecutive ↔ peaks ≠ [] ∧ troughs ≠ [] ∧
      (troughs.length + 1 < peaks.length ∨ peaks.length + 1 < troughs.length ∨
        (troughs.length + 1 = peaks.length ∧ troughs.headD 0 ≤ peaks.headD 0) ∨
        (peaks.length + 1 = troughs.length ∧ peaks.headD 0 ≤ troughs.headD 0))) ∧
    (peakToTrough x delta start peaks troughs = .error .unboundLocal ↔
      ∃ p t, peaks = [p] ∧ troughs = [t] ∧ x p = x t) ∧
    peakToTrough x delta start peaks troughs ≠ .error .pickOrder := by
  by_cases h0 : peaks = [] ∨ troughs = []
  · have e : peakToTrough x delta start peaks troughs = .error .noPeaks := by
      unfold peakToTrough; rw [if_pos h0]
    rw [e]
    refine ⟨by simp [h0], ?_, ?_, by simp⟩
    · constructor
      · intro h; simp at h
      · rintro ⟨a, b, -⟩; tauto
    · constructor
      · intro h; simp at h
      · rintro ⟨p, t, rfl, rfl, -⟩; simp at h0
  · have hp : peaks ≠ [] := fun e => h0 (Or.inl e)
    have ht : troughs ≠ [] := fun e => h0 (Or.inr e)
    have lp := List.length_pos_iff.2 hp
    have lt := List.length_pos_iff.2 ht
    by_cases h1 : peaks.length = 1 ∧ troughs.length = 1
    · obtain ⟨p, rfl⟩ := List.length_eq_one_iff.1 h1.1
      obtain ⟨t, rfl⟩ := List.length_eq_one_iff.1 h1.2
      by_cases hx : x p = x t
      · have e : peakToTrough x delta start [p] [t] = .error .unboundLocal := by
          simp [peakToTrough, hx]
        rw [e]
        simp [hx]
      · have e : peakToTrough x delta start [p] [t] = .ok (measure x delta start (p, t)) := by
          simp [peakToTrough, sub_eq_zero, hx]
        rw [e]
        simp [hx]
    · have hno : ¬ ∃ p t, peaks = [p] ∧ troughs = [t] ∧ x p = x t := by
        rintro ⟨p, t, rfl, rfl, -⟩; simp at h1
      have key : (pairings peaks troughs = .error .consecutive ∧
          (troughs.length + 1 < peaks.length ∨ peaks.length + 1 < troughs.length ∨
          (troughs.length + 1 = peaks.length ∧ troughs.headD 0 ≤ peaks.headD 0) ∨
          (peaks.length + 1 = troughs.length ∧ peaks.headD 0 ≤ troughs.headD 0))) ∨
          ((∃ ab cd, pairings peaks troughs = .ok (ab, cd) ∧ ab ≠ [] ∧ cd ≠ []) ∧
          ¬ (troughs.length + 1 < peaks.length ∨ peaks.length + 1 < troughs.length ∨
          (troughs.length + 1 = peaks.length ∧ troughs.headD 0 ≤ peaks.headD 0) ∨
          (peaks.length + 1 = troughs.length ∧ peaks.headD 0 ≤ troughs.headD 0))) := by
        have nz : ∀ (a b : List ℕ), 0 < a.length → 0 < b.length → a.zip b ≠ [] := by
          intro a b ha hb hc
          have := congrArg List.length hc
          simp only [List.length_zip, List.length_nil] at this
          omega
        unfold pairings
        split_ifs with g1 g2 g3 g4 g5 g6
        · right
          exact ⟨⟨_, _, rfl, nz _ _ lp lt, nz _ _ (by rw [List.length_tail]; omega)
            (by rw [List.length_dropLast]; omega)⟩, by omega⟩
        · right
          exact ⟨⟨_, _, rfl, nz _ _ lp lt, nz _ _ (by rw [List.length_dropLast]; omega)
            (by rw [List.length_tail]; omega)⟩, by omega⟩
        · right
          exact ⟨⟨_, _, rfl, nz _ _ (by rw [List.length_dropLast]; omega) lt,
            nz _ _ (by rw [List.length_tail]; omega) lt⟩, by omega⟩
        · left; exact ⟨rfl, by omega⟩
        · right
          exact ⟨⟨_, _, rfl, nz _ _ lp (by rw [List.length_tail]; omega),
            nz _ _ lp (by rw [List.length_dropLast]; omega)⟩, by omega⟩
        · left; exact ⟨rfl, by omega⟩
        · left; exact ⟨rfl, by omega⟩
      rcases key with ⟨hk, hc⟩ | ⟨⟨ab, cd, hk, n1, n2⟩, hc⟩
      · have e : peakToTrough x delta start peaks troughs = .error .consecutive := by
          unfold peakToTrough; rw [if_neg h0, if_neg h1, hk]
        rw [e]
        simp only [reduceCtorEq, hno, h0, true_iff, ne_eq, Except.error.injEq, not_false_eq_true, and_true]
        exact ⟨trivial, hp, ht, hc⟩
      · obtain ⟨m1, hm1⟩ := firstMaxBy_isSome (fun pt : ℕ × ℕ => |x pt.1 - x pt.2|) n1
        obtain ⟨m2, hm2⟩ := firstMaxBy_isSome (fun pt : ℕ × ℕ => |x pt.1 - x pt.2|) n2
        have e : ∃ m, peakToTrough x delta start peaks troughs = .ok m := by
          unfold peakToTrough
          rw [if_neg h0, if_neg h1, hk]
          simp only [hm1, hm2]
          exact ⟨_, rfl⟩
        obtain ⟨m, e⟩ := e
        rw [e]
        simp only [reduceCtorEq, hno, h0, false_iff, ne_eq, not_false_eq_true, and_true]
        exact ⟨trivial, fun h => hc h.2.2⟩

/-- Samples 0 3 1 5 0 with peaks 1, 3 and troughs 2 and, beginning with a trough, 0 2 4. -/
example : Alternate [0, 1, 2, 3, 4] [1, 3] [0, 2, 4] ∧
    (let x : ℕ → ℚ := fun i => [0, 3, 1, 5, 0].getD i 0
     peakToTrough x (1 / 100) 7 [1, 3] [0, 2, 4] =
       .ok ⟨2500, 50, 7 + 35 / 1000⟩ ∧ peakToTrough x (1 / 100) 7 [1, 3] [2] = .ok ⟨2000, 50, 7 + 25 / 1000⟩) := by
  refine ⟨by unfold Alternate; decide, ?_⟩
  intro x
  have n1 : ¬ (([1, 3] : List ℕ) = [] ∨ ([0, 2, 4] : List ℕ) = []) := by simp
  have n2 : ¬ (([1, 3] : List ℕ) = [] ∨ ([2] : List ℕ) = []) := by simp
  unfold peakToTrough
  rw [if_neg n1, if_neg n2]
  norm_num [x, pairings, firstMaxBy, Amplitude.measure, abs_of_pos, abs_of_neg]

/-! ## C66 -/

/-- The allowance for the taper (seconds) added on both sides. -/
def allowance (c : Cfg) (maxTT : ℚ) : ℚ :=
  ((⌈(c.noise + c.mw + (c.signal + maxTT * (1 + c.fraction) + c.mw)) * (6 / 100)⌉ : ℤ) : ℚ)

theorem allowance_ge (c : Cfg) (maxTT : ℚ) :
    (c.noise + c.mw + (c.signal + maxTT * (1 + c.fraction) + c.mw)) * (6 / 100) ≤ allowance c maxTT :=
  Int.le_ceil _

/-- C66: the exact condition on the residuals (pick minus modelled arrival) for the noise window to
begin, and the S window to end, inside the waveforms. -/
theorem C66_inside_iff (c : Cfg) (hmw : 0 ≤ c.mw) (hf : 0 ≤ c.fraction) (hs : 0 ≤ c.signal)
    (otime ptt stt maxTT rp rs : ℚ) (hp : 0 ≤ ptt) (hps : ptt ≤ stt) (pw sw : Window)
    (h : windowsFor c ptt stt (otime + ptt + rp) (otime + stt + rs) = .ok (pw, sw)) :
    ((traceSpan c maxTT otime).1 ≤ (noiseWindow c (pw, sw)).1 ↔
      -(ptt * (1 - c.fraction)) - allowance c maxTT ≤ rp) ∧
    (sw.2 ≤ (traceSpan c maxTT otime).2 ↔
      rs ≤ (maxTT - stt) * (1 + c.fraction) + allowance c maxTT) := by
  obtain ⟨-, -, -, -, e1, e2⟩ := C61_windows_partial c hmw hf hs ptt stt hp hps _ _ pw sw h
  simp only [traceSpan, noiseWindow, pad, e1, e2]
  change (otime - (c.noise + c.mw + allowance c maxTT) ≤ _ ↔ _) ∧
    (_ ≤ otime + (c.signal + maxTT * (1 + c.fraction) + c.mw + allowance c maxTT) ↔ _)
  constructor <;> constructor <;> intro h' <;> linarith

/-- C66 for residuals up to the allowance, in particular for modelled arrivals (residuals 0): the
noise window and both signal windows lie inside the waveforms. -/
theorem C66_covered_partial (c : Cfg) (hmw : 0 ≤ c.mw) (hf : 0 ≤ c.fraction) (hf1 : c.fraction ≤ 1)
    (hs : 0 ≤ c.signal) (hn : 0 ≤ c.noise) (otime ptt stt maxTT rp rs : ℚ) (hp : 0 ≤ ptt)
    (hps : ptt ≤ stt) (hm : stt ≤ maxTT) (pw sw : Window)
    (h : windowsFor c ptt stt (otime + ptt + rp) (otime + stt + rs) = .ok (pw, sw))
    (hrp : |rp| ≤ allowance c maxTT) (hrs : |rs| ≤ allowance c maxTT) :
    ∀ w ∈ [noiseWindow c (pw, sw), pw, sw],
      (traceSpan c maxTT otime).1 ≤ w.1 ∧ w.2 ≤ (traceSpan c maxTT otime).2 := by
  obtain ⟨a1, a2, a3, a4, e1, e2⟩ := C61_windows_partial c hmw hf hs ptt stt hp hps _ _ pw sw h
  have hlt : otime + ptt + rp < otime + stt + rs := by
    by_contra hc
    rw [(C61_error_iff c ptt stt _ _).2 (not_lt.1 hc)] at h
    simp at h
  obtain ⟨i1, i2⟩ := C66_inside_iff c hmw hf hs otime ptt stt maxTT rp rs hp hps pw sw h
  obtain ⟨p1, p2⟩ := abs_le.1 hrp
  obtain ⟨s1, s2⟩ := abs_le.1 hrs
  have m1 : 0 ≤ ptt * (1 - c.fraction) := mul_nonneg hp (by linarith)
  have m2 : 0 ≤ (maxTT - stt) * (1 + c.fraction) := mul_nonneg (by linarith) (by linarith)
  have m3 : 0 ≤ stt * (1 - c.fraction) := mul_nonneg (by linarith) (by linarith)
  have j1 := i1.2 (by linarith)
  have j2 := i2.2 (by linarith)
  have m4 : 0 ≤ ptt * c.fraction := mul_nonneg hp hf
  have m5 : 0 ≤ stt * c.fraction := mul_nonneg (by linarith) hf
  have e3 : (traceSpan c maxTT otime).1 = otime - (c.noise + c.mw + allowance c maxTT) := rfl
  have hsw : otime - (c.noise + c.mw + allowance c maxTT) ≤ sw.1 := by
    have hlow : otime + stt + rs - c.mw - stt * c.fraction ≤ sw.1 := by
      unfold windowsFor at h
      simp only at h
      split_ifs at h with g1 g2 g3 <;> simp only [Except.ok.injEq, Prod.mk.injEq] at h <;>
        obtain ⟨rfl, rfl⟩ := h <;> simp only <;> linarith
    linarith
  simp only [List.mem_cons, List.not_mem_nil, or_false]
  rintro w (rfl | rfl | rfl)
  · refine ⟨j1, ?_⟩
    simp only [noiseWindow] at j1 ⊢
    linarith
  · simp only [noiseWindow] at j1
    exact ⟨by linarith, by linarith⟩
  · exact ⟨by rw [e3]; exact hsw, j2⟩

/-- C66 for modelled arrivals: no measurement window reaches into the outer five percent of the
waveforms, where they are tapered before filtering and response removal. -/
theorem C66_clear_of_taper_partial (c : Cfg) (hmw : 0 ≤ c.mw) (hf : 0 ≤ c.fraction) (hf1 : c.fraction ≤ 1)
    (hs : 0 ≤ c.signal) (hn : 0 ≤ c.noise) (otime ptt stt maxTT : ℚ) (hp : 0 ≤ ptt)
    (hps : ptt ≤ stt) (hm : stt ≤ maxTT) (pw sw : Window)
    (h : windowsFor c ptt stt (otime + ptt) (otime + stt) = .ok (pw, sw)) :
    let tr := traceSpan c maxTT otime
    let taper := 5 / 100 * (tr.2 - tr.1)
    ∀ w ∈ [noiseWindow c (pw, sw), pw, sw], tr.1 + taper ≤ w.1 ∧ w.2 ≤ tr.2 - taper := by
  intro tr taper
  obtain ⟨a1, a2, a3, a4, e1, e2⟩ := C61_windows_partial c hmw hf hs ptt stt hp hps _ _ pw sw h
  have m1 : 0 ≤ ptt * (1 - c.fraction) := mul_nonneg hp (by linarith)
  have m2 : 0 ≤ (maxTT - stt) * (1 + c.fraction) := mul_nonneg (by linarith) (by linarith)
  have m3 : 0 ≤ stt * (1 - c.fraction) := mul_nonneg (by linarith) (by linarith)
  have m4 : 0 ≤ ptt * c.fraction := mul_nonneg hp hf
  have m5 : 0 ≤ stt * c.fraction := mul_nonneg (by linarith) hf
  have m6 : 0 ≤ maxTT * (1 + c.fraction) := mul_nonneg (by linarith) (by linarith)
  have hA := allowance_ge c maxTT
  have e3 : tr.1 = otime - (c.noise + c.mw + allowance c maxTT) := rfl
  have e4 : tr.2 = otime + (c.signal + maxTT * (1 + c.fraction) + c.mw + allowance c maxTT) := rfl
  have ht : taper ≤ allowance c maxTT := by
    simp only [taper, e3, e4]
    linarith
  have hsw : otime + stt - c.mw - stt * c.fraction ≤ sw.1 := by
    unfold windowsFor at h
    simp only at h
    split_ifs at h with g1 g2 g3 <;> simp only [Except.ok.injEq, Prod.mk.injEq] at h <;>
      obtain ⟨rfl, rfl⟩ := h <;> simp only <;> linarith
  simp only [List.mem_cons, List.not_mem_nil, or_false]
  rw [e3, e4]
  rintro w (rfl | rfl | rfl)
  · simp only [noiseWindow]
    constructor <;> linarith
  · constructor <;> linarith
  · constructor <;> linarith

/-- C66 is violated for automatic picks: a late S pick, inside the window searched by the picker, has
an S window reaching beyond the waveforms. -/
theorem C66_violated : ∃ (c : Cfg) (otime ptt stt maxTT p s : ℚ) (pw sw : Window),
    0 < c.mw ∧ 0 < c.fraction ∧ c.fraction ≤ 1 ∧ 0 ≤ c.signal ∧ 0 < c.noise ∧ 0 ≤ ptt ∧ ptt < stt ∧
    stt ≤ maxTT ∧ |p - (otime + ptt)| < ptt * c.fraction + c.mw ∧
    |s - (otime + stt)| < stt * c.fraction + c.mw ∧
    windowsFor c ptt stt p s = .ok (pw, sw) ∧ (traceSpan c maxTT otime).2 < sw.2 := by
  refine ⟨⟨2, 1 / 10, 0, 5⟩, 0, 6, 10, 10, 6, 129 / 10, (34 / 10, 86 / 10), (99 / 10, 159 / 10), ?_⟩
  refine ⟨by norm_num, by norm_num, by norm_num, by norm_num, by norm_num, by norm_num, by norm_num,
    by norm_num, by norm_num, by norm_num [abs_lt], by norm_num [windowsFor], ?_⟩
  have : allowance ⟨2, 1 / 10, 0, 5⟩ 10 = 2 := by
    unfold allowance
    norm_num
  change 0 + ((0 : ℚ) + 10 * (1 + 1 / 10) + 2 + allowance ⟨2, 1 / 10, 0, 5⟩ 10) < 159 / 10
  rw [this]
  norm_num

/-- The hypotheses of `C66_covered_partial` hold for picks half a second off. -/
example : ∃ pw sw, windowsFor ⟨2, 1 / 10, 5, 5⟩ 6 10 (0 + 6 + 1 / 2) (0 + 10 + -1 / 2) = .ok (pw, sw) ∧
    |(1 / 2 : ℚ)| ≤ allowance ⟨2, 1 / 10, 5, 5⟩ 10 ∧ |(-1 / 2 : ℚ)| ≤ allowance ⟨2, 1 / 10, 5, 5⟩ 10 := by
  have : allowance ⟨2, 1 / 10, 5, 5⟩ 10 = 2 := by
    unfold allowance
    norm_num
  rw [this]
  refine ⟨(39 / 10, 78 / 10), (78 / 10, 175 / 10), by norm_num [windowsFor], ?_, ?_⟩ <;> norm_num [abs_le]

end QM
