import Verif.Model.EventSummary
import Verif.Props.PickPlot
import Verif.Props.SummaryPlots
import Verif.Props.Availability

/-!
# C154: the event summary and the run
-/

namespace QM

open EventSummary PickPlot
open Availability (Str)

theorem nearest_le_all {start sr : ℚ} {n : ℕ} {x : ℚ} {i : ℕ} (h : nearest start sr n x = some i) {j : ℕ} (hj : j < n) :
    |timeOf start sr i - x| ≤ |timeOf start sr j - x| := by
  obtain ⟨pre, post, h1, h2, h3⟩ := firstMaxBy_spec h
  have hm : j ∈ List.range n := List.mem_range.2 hj
  rw [h1] at hm
  rcases List.mem_append.1 hm with hm | hm
  · have := h2 j hm
    linarith
  · rcases List.mem_cons.1 hm with rfl | hm
    · exact le_rfl
    · have := h3 j hm
      linarith

theorem timeOf_succ {start sr : ℚ} (i : ℕ) : timeOf start sr ((i + 1 : ℕ) : ℤ) = timeOf start sr i + 1 / sr := by
  unfold timeOf
  push_cast
  ring

/-- Times more than one sample apart have different nearest samples, if the first is inside the data. -/
theorem nearest_lt_nearest {start sr : ℚ} (hsr : 0 < sr) {n : ℕ} {x y : ℚ} {i k : ℕ} (hi : nearest start sr n x = some i)
    (hk : nearest start sr n y = some k) (h0 : start ≤ x) (h1 : x + 1 / sr ≤ timeOf start sr ((n - 1 : ℕ) : ℤ))
    (hxy : x + 1 / sr < y) : i < k := by
  have hd : 0 < 1 / sr := by positivity
  have hin := nearest_lt hi
  have hkn := nearest_lt hk
  have hti : timeOf start sr i ≤ x + 1 / sr / 2 := by
    by_contra hc
    push Not at hc
    cases i with
    | zero =>
      simp [timeOf] at hc
      have : 0 < sr⁻¹ := by positivity
      linarith
    | succ j =>
      have h2 := nearest_le_all hi (j := j) (by omega)
      have e := timeOf_succ (start := start) (sr := sr) j
      rw [e] at hc h2
      rw [abs_of_pos (by linarith), ] at h2
      rcases abs_cases (timeOf start sr j - x) with ⟨h3, -⟩ | ⟨h3, -⟩ <;> rw [h3] at h2 <;> linarith
  by_contra hik
  push Not at hik
  have htk : timeOf start sr k ≤ timeOf start sr i := timeOf_mono hsr (by exact_mod_cast hik)
  have hlast : i < n - 1 := by
    by_contra hc
    have : i = n - 1 := by omega
    rw [this] at hti
    linarith
  have h2 := nearest_le_all hk (j := k + 1) (by omega)
  rw [timeOf_succ] at h2
  rw [abs_of_neg (by linarith)] at h2
  rcases abs_cases (timeOf start sr k + 1 / sr - y) with ⟨h3, -⟩ | ⟨h3, -⟩ <;> rw [h3] at h2 <;> linarith

theorem gatherNorm_isSome {data : List ℚ} {a b : ℕ} (h : a < b) (ha : a < data.length) :
    (SummaryPlots.gatherNorm data a b).isSome = true := by
  unfold SummaryPlots.gatherNorm
  have key : ∀ (l : List ℚ) (o : Option ℚ), (o.isSome = true ∨ l ≠ []) → (l.foldl (fun (m : Option ℚ) x => match m with
      | none => some |x|
      | some y => some (if y < |x| then |x| else y)) o).isSome = true := by
    intro l
    induction l with
    | nil => intro o h; simpa using h
    | cons x l ih =>
      intro o _
      rw [List.foldl_cons]
      apply ih
      left
      cases o <;> rfl
  apply key
  right
  intro hc
  have := congrArg List.length hc
  simp at this
  omega

theorem normOk_of {start sr otime : ℚ} {n : ℕ} (hsr : 10 < sr) {tt : ℚ} (htt : 0 ≤ tt) {data : List ℚ} (hl : data.length = n)
    (h0 : start ≤ otime - 1 / 10) (h1 : otime ≤ timeOf start sr ((n - 1 : ℕ) : ℤ)) (hn : 0 < n) :
    normOk start sr otime n tt data = true := by
  obtain ⟨a, ha⟩ := nearest_isSome start sr hn (otime - 1 / 10)
  obtain ⟨b, hb⟩ := nearest_isSome start sr hn (otime + 3 / 2 * tt)
  unfold normOk
  rw [ha, hb]
  have hs : 1 / sr < 1 / 10 := one_div_lt_one_div_of_lt (by norm_num) hsr
  have hab := nearest_lt_nearest (by linarith) ha hb h0 (by linarith) (by linarith)
  exact gatherNorm_isSome hab (by rw [hl]; exact nearest_lt ha)

theorem maxTT_nonneg (lut : Str → Str → Option ℚ) (phases : List Str) (s : Str) : 0 ≤ maxTT lut phases s := by
  unfold maxTT
  have : ∀ (l : List ℚ) (a : ℚ), 0 ≤ a → 0 ≤ l.foldl max a := by
    intro l
    induction l with
    | nil => intro a h; exact h
    | cons x l ih => intro a h; exact ih _ (le_max_of_le_left h)
  exact this _ _ le_rfl

theorem traveltimes_ok {lut : Str → Str → Option ℚ} {phases stations : List Str} (hne : stations ≠ [])
    (h : ∀ s ∈ stations, ∀ p ∈ phases, (lut s p).isSome = true) : ∃ r, traveltimes lut phases stations = .ok r := by
  unfold traveltimes
  rw [if_neg hne]
  apply mapM_ok_of
  intro p hp
  apply mapM_ok_of
  intro s hs
  obtain ⟨t, ht⟩ := Option.isSome_iff_exists.1 (h s hs p hp)
  exact ⟨t, by rw [ht]⟩

/-- C154: the summary is made if the table has every station shown, with every phase, no station or phase has `_` in its
name, the rate is above 10 Hz and the origin time is in the data. -/
theorem C154_made_partial (plotAll : Bool) (stations : List Str) (status : Str → Str → ℤ) (lut : Str → Str → Option ℚ)
    (phases : List Str) (traces : List (Str × List ℚ)) (start sr otime : ℚ) (n : ℕ)
    (hnames : ∀ s ∈ stations, '_' ∉ s) (hph : ∀ p ∈ phases, '_' ∉ p)
    (hused : ∃ s ∈ stations, ∃ p ∈ phases, status s p = 1)
    (hlut : ∀ s ∈ stations, (plotAll = true ∨ ∃ p ∈ phases, status s p = 1) → ∀ p ∈ phases, (lut s p).isSome = true)
    (hsr : 10 < sr) (h0 : start ≤ otime - 1 / 10) (h1 : otime ≤ timeOf start sr ((n - 1 : ℕ) : ℤ)) (hn : 0 < n)
    (htr : ∀ t ∈ traces, t.2.length = n) :
    eventSummary plotAll stations (stations.flatMap fun s => phases.map fun p => (s ++ '_' :: p, status s p)) lut phases
      traces start sr otime n = .ok () := by
  obtain ⟨s0, hs0, p0, hp0, hst0⟩ := hused
  have hsplit : ∀ s ∈ stations, ∀ p ∈ phases, Availability.splitUnderscore (s ++ '_' :: p) = [s, p] :=
    fun s hs p hp => split_one (hnames s hs) (hph p hp)
  obtain ⟨sts, h2, h3, h4⟩ : ∃ sts, stationList plotAll stations
      (stations.flatMap fun s => phases.map fun p => (s ++ '_' :: p, status s p)) = .ok sts ∧ sts ≠ [] ∧
      ∀ s ∈ sts, ∀ p ∈ phases, (lut s p).isSome = true := by
    unfold stationList
    cases plotAll with
    | true =>
      rw [if_pos rfl]
      refine ⟨_, rfl, ?_, fun s hs => hlut s hs (Or.inl rfl)⟩
      rintro rfl
      simp at hs0
    | false =>
      rw [if_neg (by simp)]
      rw [if_pos]
      · refine ⟨_, rfl, ?_, ?_⟩
        · intro hc
          have : s0 ∈ ((List.filter (fun ka : Str × ℤ => decide (ka.2 = 1))
              (stations.flatMap fun s => phases.map fun p => (s ++ '_' :: p, status s p))).map fun ka =>
              (Availability.splitUnderscore ka.1).headD []).dedup := by
            rw [List.mem_dedup, List.mem_map]
            refine ⟨(s0 ++ '_' :: p0, status s0 p0), List.mem_filter.2 ⟨List.mem_flatMap.2 ⟨s0, hs0, List.mem_map.2 ⟨p0, hp0, rfl⟩⟩,
              by simp [hst0]⟩, ?_⟩
            simp only [hsplit s0 hs0 p0 hp0, List.headD_cons]
          rw [hc] at this
          simp at this
        · intro s hs
          rw [List.mem_dedup, List.mem_map] at hs
          obtain ⟨ka, hka, rfl⟩ := hs
          obtain ⟨hka1, hka2⟩ := List.mem_filter.1 hka
          obtain ⟨s', hs', hm⟩ := List.mem_flatMap.1 hka1
          obtain ⟨p', hp', rfl⟩ := List.mem_map.1 hm
          simp only [hsplit s' hs' p' hp', List.headD_cons]
          exact hlut s' hs' (Or.inr ⟨p', hp', by simpa using hka2⟩)
      · rw [List.all_eq_true]
        intro ka hka
        obtain ⟨s', hs', hm⟩ := List.mem_flatMap.1 hka
        obtain ⟨p', hp', rfl⟩ := List.mem_map.1 hm
        simp [hsplit s' hs' p' hp']
  obtain ⟨r, hr⟩ := traveltimes_ok h3 h4
  unfold eventSummary
  rw [h2]
  simp only
  rw [hr]
  simp only
  rw [if_pos]
  rw [List.all_eq_true]
  intro t ht
  exact normOk_of hsr (maxTT_nonneg _ _ _) (htr t (List.mem_filter.1 ht).1) h0 h1 hn

theorem mapM_error_of {ε α β : Type} {f : α → Except ε β} {l : List α} {a : α} (ha : a ∈ l) {e : ε} (h : f a = .error e) :
    ∃ e', l.mapM f = .error e' := by
  cases hm : l.mapM f with
  | error e' => exact ⟨e', rfl⟩
  | ok r =>
    obtain ⟨b, -, hb⟩ := mapM_ok_mem hm ha
    rw [h] at hb
    cases hb

/-- C154 is false of the code: with all stations shown, as is the default, a station of the archive that is not in the
table makes the summary fail, also if there are no data of it. -/
theorem C154_violated_station (stations : List Str) (avail : List (Str × ℤ)) (lut : Str → Str → Option ℚ) (phases : List Str)
    (traces : List (Str × List ℚ)) (start sr otime : ℚ) (n : ℕ) (s p : Str) (hs : s ∈ stations) (hp : p ∈ phases)
    (hlut : lut s p = none) :
    ∃ e, eventSummary true stations avail lut phases traces start sr otime n = .error e := by
  unfold eventSummary stationList
  rw [if_pos rfl]
  simp only
  have : ∃ e, traveltimes lut phases stations = .error e := by
    unfold traveltimes
    rw [if_neg (by rintro rfl; simp at hs)]
    obtain ⟨e, he⟩ : ∃ e, (stations.mapM fun s => match lut s p with
        | some t => Except.ok t
        | none => Except.error Err.keyError) = .error e :=
      mapM_error_of (e := Err.keyError) hs (by simp only [hlut])
    exact mapM_error_of hp he
  obtain ⟨e, he⟩ := this
  rw [he]
  exact ⟨e, rfl⟩

/-- C154 is false of the code: with used stations shown, a station with `_` in its name makes the summary fail, also if
it is not used. -/
theorem C154_violated_name (stations : List Str) (avail : List (Str × ℤ)) (lut : Str → Str → Option ℚ) (phases : List Str)
    (traces : List (Str × List ℚ)) (start sr otime : ℚ) (n : ℕ) (s p : Str) (a : ℤ) (hs : '_' ∈ s)
    (hk : (s ++ '_' :: p, a) ∈ avail) :
    eventSummary false stations avail lut phases traces start sr otime n = .error .valueError := by
  have h1 : ∀ t : Str, 1 ≤ (Availability.splitUnderscore t).length := fun t =>
    List.length_pos_iff.2 (List.splitOn_ne_nil _ _)
  have h2 : ∀ t u : Str, (Availability.splitUnderscore (t ++ '_' :: u)).length =
      (Availability.splitUnderscore t).length + (Availability.splitUnderscore u).length := by
    intro t u
    unfold Availability.splitUnderscore
    rw [List.splitOn_append_cons_self, List.length_append]
  obtain ⟨t, u, rfl⟩ := List.append_of_mem hs
  unfold eventSummary stationList
  rw [if_neg (by simp), if_neg]
  intro h
  have := List.all_eq_true.1 h _ hk
  simp only [decide_eq_true_eq] at this
  rw [h2, h2] at this
  have a1 := h1 t
  have a2 := h1 u
  have a3 := h1 p
  omega

/-- C154 is false of the code at 5 Hz: at a station where the event is, the samples from 0.1 s before the origin time to
one and a half times the largest traveltime can be none. -/
theorem C154_violated_rate (data : List ℚ) (avail : List (Str × ℤ)) :
    eventSummary true [['A']] avail (fun _ _ => some 0) [['P']] [(['A'], data)] 0 5 (41 / 20) 20 = .error .valueError := by
  have e1 : nearest 0 5 20 (41 / 20 - 1 / 10) = some 10 := by decide +kernel
  have e2 : nearest 0 5 20 (41 / 20) = some 10 := by decide +kernel
  have e3 : maxTT (fun _ _ => some 0) [['P']] ['A'] = 0 := by simp [maxTT]
  have e4 : normOk 0 5 (41 / 20) 20 0 data = false := by
    unfold normOk
    rw [e1, show (41 / 20 + 3 / 2 * 0 : ℚ) = 41 / 20 by norm_num, e2]
    have : (data.take 10).drop 10 = [] := List.drop_eq_nil_of_le (by simp)
    simp [SummaryPlots.gatherNorm, this]
  have e5 : traveltimes (fun _ _ => some 0) [['P']] [['A']] = .ok [[0]] := rfl
  unfold eventSummary stationList
  rw [if_pos rfl]
  simp only
  rw [e5]
  simp only
  rw [if_neg]
  simp [e3, e4]

/-- C154: an event whose summary fails, and which is written without it, is written, and no event after it. -/
theorem C154_ends_run (r : Except EventSummary.Err Unit) (e : EventSummary.Err) (he : r = .error e) {σ : Type} (mw : ℚ)
    (outcome : Locate.Trig → Locate.Outcome σ) (off on : Locate.Trig → Locate.Later) (x : Locate.Trig)
    (hon : on x = EventSummary.later r) (hoff : off x = .fine) (xs : List Locate.Trig)
    (hw : (Locate.locateEvents mw outcome off [x]).written ≠ []) :
    Locate.locateEvents mw outcome on (x :: xs) = ⟨(Locate.locateEvents mw outcome off [x]).written, false⟩ ∧
      (Locate.locateEvents mw outcome off (x :: xs)).written =
        (Locate.locateEvents mw outcome off [x]).written ++ (Locate.locateEvents mw outcome off xs).written := by
  have h1 : on x = .raisesAfterWrite := by rw [hon, he]; rfl
  simp only [Locate.locateEvents] at hw ⊢
  cases ho : outcome x with
  | archiveEmpty => rw [ho] at hw; simp at hw
  | dataGap => rw [ho] at hw; simp at hw
  | dataAvailability => rw [ho] at hw; simp at hw
  | other => rw [ho] at hw; simp at hw
  | computed rows map =>
    rw [ho] at hw
    simp only at hw ⊢
    cases ha : Locate.addComputeOutput rows map with
    | none => rw [ha] at hw; simp at hw
    | some ev =>
      rw [ha] at hw
      simp only at hw ⊢
      by_cases hin : Locate.inMarginalWindow x.time ev.otime mw
      · rw [if_pos hin] at hw ⊢
        rw [if_pos hin, if_pos hin]
        cases ht : Locate.trim2window mw ev with
        | none => rw [ht] at hw; simp at hw
        | some ev' =>
          simp only [h1, hoff]
          exact ⟨trivial, rfl⟩
      · rw [if_neg hin] at hw
        simp at hw

/-- C154: a summary that is made changes nothing. -/
theorem C154_fine (r : Except EventSummary.Err Unit) (h : r = .ok ()) : EventSummary.later r = .fine := by
  rw [h]; rfl

/-! ## Examples -/

/-- The hypotheses of `C154_made_partial` are met by two stations, one without data. -/
example (plotAll : Bool) : eventSummary plotAll [['A'], ['B']]
    ([['A'], ['B']].flatMap fun s => [['P'], ['S']].map fun p => (s ++ '_' :: p, if s = ['A'] then 1 else 0))
    (fun _ p => some (if p = ['P'] then 1 else 2)) [['P'], ['S']] [(['A'], List.replicate 100 1)] 0 20 (5 / 2) 100 = .ok () :=
  C154_made_partial plotAll _ (fun s _ => if s = ['A'] then 1 else 0) _ _ _ _ _ _ _ (by simp) (by simp)
    ⟨['A'], by simp, ['P'], by simp, by simp⟩ (by simp) (by norm_num) (by norm_num) (by norm_num [timeOf]) (by norm_num)
    (by simp)

end QM
