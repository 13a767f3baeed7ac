import Verif.Model.Export
import Mathlib.Data.Nat.Digits.Lemmas
import Mathlib.Data.List.Sort
import Mathlib.Tactic.FieldSimp
import Mathlib.Tactic.Ring
import Mathlib.Tactic.NormNum

/-!
# Station files and exporters: C56, C69, C70, C78-C80
-/

namespace QM
open QM.Stations QM.Export

/-! ## C56 -/

/-- C56, exact behaviour: a file is accepted exactly if it has Latitude, Elevation and Name. -/
theorem C56_accepted_iff (f : File) :
    (∃ g, readStations f = .ok g) ↔ "Latitude" ∈ f.cols ∧ "Elevation" ∈ f.cols ∧ "Name" ∈ f.cols := by
  have e : pyOr ["Latitude", "Longitude", "Elevation", "Name"] = "Latitude" := by
    unfold pyOr; simp
  unfold readStations
  rw [e]
  by_cases h1 : "Latitude" ∈ f.cols
  · rw [if_neg (not_not.2 h1)]
    cases h2 : f.cols.findIdx? (fun c => c = "Elevation") with
    | none =>
      rw [List.findIdx?_eq_none_iff] at h2
      have : "Elevation" ∉ f.cols := by
        intro h
        simpa using h2 _ h
      simp [this]
    | some i =>
      have : "Elevation" ∈ f.cols := by
        obtain ⟨h3, h4, -⟩ := List.findIdx?_eq_some_iff_getElem.1 h2
        simp only [decide_eq_true_eq] at h4
        rw [← h4]
        exact List.getElem_mem h3
      by_cases h3 : "Name" ∈ f.cols
      · simp [h1, this, h3]
      · simp [h3]
  · simp [h1]

/-- C56 is violated: a file without Longitude is accepted, and files without Elevation or Name fail
with another error. -/
theorem C56_violated :
    (∃ g, readStations ⟨["Latitude", "Elevation", "Name"], [[1, 2, 3]]⟩ = .ok g) ∧
    readStations ⟨["Latitude", "Longitude", "Name"], [[1, 2, 3]]⟩ = .error .keyError ∧
    readStations ⟨["Latitude", "Longitude", "Elevation"], [[1, 2, 3]]⟩ = .error .keyError :=
  ⟨⟨⟨["Latitude", "Elevation", "Name"], [[1, -2, 3]]⟩, by decide +kernel⟩, by decide +kernel,
    by decide +kernel⟩

/-- C56, what does hold: a file without Latitude is rejected with the documented error, and only
then is that error raised. -/
theorem C56_latitude_partial (f : File) :
    readStations f = .error .stationFileHeader ↔ "Latitude" ∉ f.cols := by
  have e : pyOr ["Latitude", "Longitude", "Elevation", "Name"] = "Latitude" := by
    unfold pyOr; simp
  unfold readStations
  rw [e]
  by_cases h1 : "Latitude" ∈ f.cols
  · rw [if_neg (not_not.2 h1)]
    simp only [h1, not_true_eq_false, iff_false]
    split
    · simp
    · split_ifs <;> simp
  · simp [h1]

/-- C56: a velocity model is accepted, unchanged, exactly if it has a Depth column. -/
theorem C56_velocity_model (f : File) :
    (readVmodel f = .ok f ↔ "Depth" ∈ f.cols) ∧
    (readVmodel f = .error .velocityModelHeader ↔ "Depth" ∉ f.cols) := by
  unfold readVmodel
  by_cases h : "Depth" ∈ f.cols <;> simp [h]

/-! ## C69 -/

/-- C69: a network code given by the caller is used for every station. -/
theorem C69_given_code (c : Str) (ss : List Station) :
    snufflerStations (some c) ss = ss.map fun s => (c, s.name) := by
  induction ss with
  | nil => rfl
  | cons s ss ih => rw [snufflerStations]; simp only [List.map_cons]; rw [ih]

/-- C69, exact behaviour without a given code: every station gets the code of the first. -/
theorem C69_first_code (s : Station) (ss : List Station) :
    snufflerStations none (s :: ss) = (s :: ss).map fun x => (s.network.getD [], x.name) := by
  rw [snufflerStations]
  simp only [List.map_cons]
  rw [C69_given_code]
  cases s.network <;> rfl

/-- C69 is violated by two stations of different networks. -/
theorem C69_violated : ∃ ss : List Station, snufflerStations none ss ≠
    ss.map fun s => (s.network.getD [], s.name) :=
  ⟨[⟨['A'], some ['X']⟩, ⟨['B'], some ['Y']⟩], by decide +kernel⟩

/-- C69, what does hold: with stations of one network each has its own code. -/
theorem C69_one_network_partial (ss : List Station) (n : Option Str) (h : ∀ s ∈ ss, s.network = n) :
    snufflerStations none ss = ss.map fun s => (s.network.getD [], s.name) := by
  cases ss with
  | nil => rfl
  | cons s ss =>
    rw [C69_first_code]
    apply List.map_congr_left
    intro x hx
    rw [h x hx, h s (by simp)]

/-! ## C70 -/

theorem rowPicks_eq (r : PickRow) : rowPicks r [.modelled, .autopick] =
    ⟨r.station, r.phase, .modelled, r.modelled, none, none⟩ ::
      (r.pick.map fun t => (⟨r.station, r.phase, .autopick, t, some r.error, some r.snr⟩ : Pick)).toList := by
  cases h : r.pick <;> simp [rowPicks, h]

/-- C70: the exported event has one modelled pick per row, in order, at the modelled time; and one
automatic pick per row that has one, in order, with its time, error and SNR; and no others. -/
theorem C70_picks (rows : List PickRow) : ∃ picks, readPicks (some rows) = some picks ∧
    picks.filter (fun p => p.method = .modelled) =
      rows.map (fun r => ⟨r.station, r.phase, .modelled, r.modelled, none, none⟩) ∧
    picks.filter (fun p => p.method = .autopick) =
      rows.filterMap (fun r => r.pick.map fun t =>
        ⟨r.station, r.phase, .autopick, t, some r.error, some r.snr⟩) ∧
    picks.length = rows.length + (rows.filter fun r => r.pick.isSome).length := by
  refine ⟨_, rfl, ?_⟩
  beta_reduce
  induction rows with
  | nil => simp
  | cons r rows ih =>
    obtain ⟨h1, h2, h3⟩ := ih
    rw [List.flatMap_cons, rowPicks_eq]
    cases h : r.pick with
    | none =>
      refine ⟨by simp [h1], by simp [h2, h], ?_⟩
      simp only [Option.map_none, Option.toList_none, List.cons_append, List.nil_append,
        List.length_cons, h3, List.filter_cons, h, Option.isSome_none, Bool.false_eq_true, if_false]
      omega
    | some t =>
      refine ⟨by simp [h1], by simp [h2, h], ?_⟩
      simp only [Option.map_some, Option.toList_some, List.cons_append, List.nil_append,
        List.length_cons, h3, List.filter_cons, h, Option.isSome_some, if_true]
      omega

/-- C70: without a picks file there is no event. -/
theorem C70_no_file : readPicks none = none := rfl

/-- C70: the NonLinLoc file has one line per row of the picks file that has a pick (or, for modelled
arrivals, one line per row), up to order. -/
theorem C70_nlloc (fmt : Pick → Str) (rows : List PickRow) (picks : List Pick)
    (h : readPicks (some rows) = some picks) :
    (nllocLines true fmt picks).Perm (rows.filterMap (fun r => r.pick.map fun t =>
        fmt ⟨r.station, r.phase, .autopick, t, some r.error, some r.snr⟩)) ∧
    (nllocLines false fmt picks).Perm (rows.map (fun r =>
        fmt ⟨r.station, r.phase, .modelled, r.modelled, none, none⟩)) := by
  obtain ⟨picks', h1, h2, h3, -⟩ := C70_picks rows
  rw [h] at h1
  obtain rfl := Option.some.inj h1
  unfold nllocLines
  constructor
  · refine (List.perm_insertionSort _ _).trans ?_
    simp only [if_true]
    rw [h3, List.map_filterMap]
    simp [Function.comp_def]
  · refine (List.perm_insertionSort _ _).trans ?_
    simp only [Bool.false_eq_true, if_false]
    rw [h2, List.map_map]
    rfl

/-- C70: the station count of the exported magnitude is the number of rows with an amplitude of the
magnitude phase and a magnitude; amplitudes and noise are in metres, with the period of the measured frequency, for exactly
the measured phases. -/
theorem C70_amplitudes (rows : List AmpRow) :
    (readAmps 'S' rows).2.2 = (rows.filter fun r => r.sAmp.isSome && r.ml.isSome).length ∧
    (readAmps 'P' rows).2.2 = (rows.filter fun r => r.pAmp.isSome && r.ml.isSome).length ∧
    ∀ mp, (readAmps mp rows).1.map (fun a => (a.id, a.phase, a.amp * 1000, a.uncertainty * 1000, a.period)) =
      rows.flatMap fun r => (r.pAmp.map fun a => (r.id, 'P', a, r.noise, 1 / r.pFreq)).toList ++
        (r.sAmp.map fun a => (r.id, 'S', a, r.noise, 1 / r.sFreq)).toList := by
  unfold readAmps
  simp only
  induction rows with
  | nil => simp
  | cons r rows ih =>
    obtain ⟨h1, h2, h3⟩ := ih
    simp only [List.map_cons, List.map_nil] at h1 h2 h3
    simp only [List.flatMap_cons, List.map_cons, List.map_nil, List.cons_append, List.nil_append,
      List.flatMap_append, List.length_append, List.map_append]
    refine ⟨?_, ?_, ?_⟩
    · rw [h1]
      cases hp : r.pAmp <;> cases hs : r.sAmp <;> cases hm : r.ml <;>
        simp [rowAmp, hp, hs, hm, Nat.add_comm]
    · rw [h2]
      cases hp : r.pAmp <;> cases hs : r.sAmp <;> cases hm : r.ml <;>
        simp [rowAmp, hp, hs, hm, Nat.add_comm]
    · intro mp
      rw [← h3 mp]
      cases hp : r.pAmp <;> cases hs : r.sAmp <;> simp [rowAmp, hp, hs]

def exPickRows : List PickRow :=
  [⟨['A'], ['P'], 10, some 11, 1, 5⟩, ⟨['A'], ['S'], 14, none, 0, 0⟩, ⟨['B'], ['S'], 16, some 15, 2, 4⟩]

example : readPicks (some exPickRows) = some
    [⟨['A'], ['P'], .modelled, 10, none, none⟩, ⟨['A'], ['P'], .autopick, 11, some 1, some 5⟩,
      ⟨['A'], ['S'], .modelled, 14, none, none⟩, ⟨['B'], ['S'], .modelled, 16, none, none⟩,
      ⟨['B'], ['S'], .autopick, 15, some 2, some 4⟩] := by decide +kernel

/-! ## C78: times in Snuffler marker files -/

/-- Value of the digits after a decimal point. -/
def fractionValue (ds : List ℕ) : ℚ := ds.foldr (fun (d : ℕ) (acc : ℚ) => ((d : ℚ) + acc) / 10) 0

theorem foldl_digits (l : List ℕ) : ∀ acc : ℚ,
    l.foldl (fun (acc : ℚ) (d : ℕ) => ((d : ℚ) + acc) / 10) acc = ((Nat.ofDigits 10 l : ℕ) + acc) / 10 ^ l.length := by
  induction l with
  | nil => intro acc; simp
  | cons d l ih =>
    intro acc
    rw [List.foldl_cons, ih, Nat.ofDigits_cons, List.length_cons, pow_succ]
    push_cast
    field_simp
    ring

theorem fractionValue_marker (m : ℕ) (h : m ≠ 0) :
    fractionValue (markerFraction m) = m / 10 ^ (Nat.digits 10 m).length := by
  unfold fractionValue markerFraction decDigits
  rw [if_neg h, List.foldr_reverse, foldl_digits, Nat.ofDigits_digits]
  simp

/-- C78, exact behaviour: the time written is the time of the pick exactly if its fraction of a
second is 0 or at least 0.1. -/
theorem C78_marker_time_iff (m : ℕ) (hm : m < 1000000) :
    fractionValue (markerFraction m) = (m : ℚ) / 1000000 ↔ m = 0 ∨ 100000 ≤ m := by
  by_cases h : m = 0
  · subst h
    simp [fractionValue, markerFraction, decDigits]
  rw [fractionValue_marker m h]
  have hlen : (Nat.digits 10 m).length ≤ 6 := by
    by_contra hc
    push Not at hc
    have := (Nat.lt_digits_length_iff (b := 10) (by norm_num) m (k := 6)).1 hc
    omega
  have hm0 : (m : ℚ) ≠ 0 := by exact_mod_cast h
  have h5 : 5 < (Nat.digits 10 m).length ↔ 100000 ≤ m := by
    rw [Nat.lt_digits_length_iff (b := 10) (by norm_num) m]
    norm_num
  constructor
  · intro he
    right
    rw [← h5]
    by_contra hc
    have hp : (10 : ℚ) ^ (Nat.digits 10 m).length ≤ 10 ^ 5 :=
      pow_le_pow_right₀ (by norm_num) (by omega)
    have hpos : (0 : ℚ) < 10 ^ (Nat.digits 10 m).length := by positivity
    rw [div_eq_div_iff hpos.ne' (by norm_num)] at he
    have := mul_left_cancel₀ hm0 he
    rw [← this] at hp
    norm_num at hp
  · rintro (h0 | h0)
    · exact absurd h0 h
    · have : (Nat.digits 10 m).length = 6 := by
        have := h5.2 h0
        omega
      rw [this]
      norm_num

/-- C78 is violated: 5 ms after a full second is written as half a second. -/
theorem C78_violated : fractionValue (markerFraction 5000) = 1 / 2 := by
  rw [fractionValue_marker 5000 (by norm_num)]
  norm_num

/-- C78, what does hold. -/
theorem C78_marker_time_partial (m : ℕ) (hm : m < 1000000) (h : 100000 ≤ m) :
    fractionValue (markerFraction m) = (m : ℚ) / 1000000 :=
  (C78_marker_time_iff m hm).2 (Or.inr h)

/-- The channel of the marker of a pick: vertical for P, north for S. -/
def Spec.channelOf (ph : Str) : Option Str :=
  if ph = ['P'] then some ['B', 'H', 'Z'] else if ph = ['S'] then some ['B', 'H', 'N'] else none

/-- C78, channels: the markers of P and S picks are on the vertical and the north channel. -/
theorem C78_marker_channels_partial (phs : List Str) (h : ∀ ph ∈ phs, ph = ['P'] ∨ ph = ['S']) :
    ∃ cs, markerChannels none phs = some cs ∧ cs.map some = phs.map Spec.channelOf := by
  suffices ∀ prev, ∃ cs, markerChannels prev phs = some cs ∧ cs.map some = phs.map Spec.channelOf from this none
  induction phs with
  | nil => intro prev; exact ⟨[], rfl, rfl⟩
  | cons ph rest ih =>
    intro prev
    have hr := ih (fun x hx => h x (List.mem_cons_of_mem _ hx))
    rcases h ph List.mem_cons_self with rfl | rfl
    · obtain ⟨cs, h1, h2⟩ := hr (some ['B', 'H', 'Z'])
      exact ⟨['B', 'H', 'Z'] :: cs, by simp [markerChannels, h1], by simp [h2, Spec.channelOf]⟩
    · obtain ⟨cs, h1, h2⟩ := hr (some ['B', 'H', 'N'])
      exact ⟨['B', 'H', 'N'] :: cs, by simp [markerChannels, h1], by simp [h2, Spec.channelOf]⟩

/-- C78, channels, violated: no markers are written if the first pick is of another phase, and a later pick of another
phase gets the channel of the pick before. -/
theorem C78_violated_channels :
    (∀ (ph : Str) (rest : List Str), Spec.channelOf ph = none → markerChannels none (ph :: rest) = none) ∧
    markerChannels none [['S'], ['P', 'g']] = some [['B', 'H', 'N'], ['B', 'H', 'N']] := by
  refine ⟨?_, by decide +kernel⟩
  intro ph rest h
  unfold Spec.channelOf at h
  split_ifs at h with h1 h2
  simp [markerChannels, h1, h2]

example : markerChannels none [['P'], ['S'], ['P']] =
    some [['B', 'H', 'Z'], ['B', 'H', 'N'], ['B', 'H', 'Z']] := by decide +kernel

/-! ## C79, C80: SAC files for MFAST -/

theorem mfastTimes_append (ref : ℚ) : ∀ (a b : List Pick) (ps : ℚ × ℚ),
    mfastTimes ref ps (a ++ b) = mfastTimes ref (mfastTimes ref ps a) b
  | [], _, _ => by simp [mfastTimes]
  | k :: a, b, (p, s) => by
    rw [List.cons_append, mfastTimes, mfastTimes]
    split_ifs <;> exact mfastTimes_append ref a b _

/-- Time used for a row: the pick if there is one, else the modelled arrival. -/
def PickRow.best (r : PickRow) : ℚ := r.pick.getD r.modelled

/-- The rows of station `st` and phase `ph`, last one. -/
def lastRow (rows : List PickRow) (st ph : Str) : Option PickRow :=
  (rows.filter fun r => r.station = st ∧ r.phase = ph).getLast?

theorem mfastTimes_rows (ref : ℚ) (st : Str) : ∀ (rows : List PickRow) (ps : ℚ × ℚ),
    mfastTimes ref ps ((rows.flatMap fun r => rowPicks r [.modelled, .autopick]).filter
        fun p => p.station = st) =
      (((lastRow rows st ['P']).map fun r => PickRow.best r - ref).getD ps.1,
        ((lastRow rows st ['S']).map fun r => PickRow.best r - ref).getD ps.2)
  | [], ps => by simp [mfastTimes, lastRow]
  | r :: rows, ps => by
    have key : ∀ ph, lastRow (r :: rows) st ph = (lastRow rows st ph).or
        (if r.station = st ∧ r.phase = ph then some r else none) := by
      intro ph
      unfold lastRow
      rw [List.filter_cons]
      by_cases h : r.station = st ∧ r.phase = ph
      · simp [h, List.getLast?_cons]
      · simp [h]
    rw [List.flatMap_cons, List.filter_append, mfastTimes_append, mfastTimes_rows ref st rows,
      key, key, rowPicks_eq]
    by_cases hs : r.station = st
    · by_cases hP : r.phase = ['P']
      · have hS : ¬ r.phase = ['S'] := by rw [hP]; decide
        cases hk : r.pick <;> cases hl : lastRow rows st ['P'] <;>
          simp [hs, hP, mfastTimes, PickRow.best, hk]
      · by_cases hS : r.phase = ['S']
        · cases hk : r.pick <;> cases hl : lastRow rows st ['S'] <;>
            simp [hs, hS, mfastTimes, PickRow.best, hk]
        · cases hk : r.pick <;> simp [hs, hP, hS, mfastTimes]
    · cases hk : r.pick <;> simp [hs, mfastTimes]

/-- C79: the S arrival in the header of a station is that of the last S row of the station, as picked
if it was picked and as modelled otherwise; no file is written without one (or if it
coincides with the start of the waveform); the same for the optional P arrival. -/
theorem C79_sac_arrivals (ref : ℚ) (rows : List PickRow) (picks : List Pick)
    (h : readPicks (some rows) = some picks) (st : Str) :
    mfastHeader ref picks st =
      match lastRow rows st ['S'] with
      | none => none
      | some s => if PickRow.best s = ref then none else
        some (PickRow.best s - ref, match lastRow rows st ['P'] with
          | none => none
          | some p => if PickRow.best p = ref then none else some (PickRow.best p - ref)) := by
  simp only [readPicks, Option.map_some, Option.some.injEq] at h
  subst h
  unfold mfastHeader
  simp only
  rw [mfastTimes_rows]
  cases hS : lastRow rows st ['S'] with
  | none =>
    simp
  | some s =>
    have hne : ((rows.flatMap fun r => rowPicks r [.modelled, .autopick]).filter
        fun p => p.station = st) ≠ [] := by
      have hmem : s ∈ rows.filter fun r => r.station = st ∧ r.phase = ['S'] :=
        List.mem_of_getLast? hS
      simp only [decide_eq_true_eq, List.mem_filter] at hmem
      intro hc
      rw [List.filter_eq_nil_iff] at hc
      refine hc ⟨s.station, s.phase, .modelled, s.modelled, none, none⟩ ?_ (by simp [hmem.2.1])
      rw [List.mem_flatMap]
      exact ⟨s, hmem.1, by rw [rowPicks_eq]; simp⟩
    rw [if_neg hne]
    simp only [Option.map_some, Option.getD_some, sub_eq_zero]
    by_cases h1 : PickRow.best s = ref
    · simp [h1]
    · rw [if_neg h1, if_neg h1]
      cases hP : lastRow rows st ['P'] with
      | none => simp
      | some p =>
        simp only [Option.map_some, Option.getD_some, ne_eq, sub_eq_zero]
        by_cases h2 : PickRow.best p = ref <;> simp [h2]

/-- C79: with one S row for the station, picked or not, its time is what is written. -/
example : (readPicks (some exPickRows)).bind (fun p => mfastHeader 5 p ['A']) = some (9, some 6) ∧
    (readPicks (some exPickRows)).bind (fun p => mfastHeader 5 p ['B']) = some (10, none) ∧
    (readPicks (some exPickRows)).bind (fun p => mfastHeader 5 p ['C']) = none := by decide +kernel

/-- C80 is violated: for a station 500 m above sea level, in a file in metres or in kilometres, the
elevation written is -0.5. -/
theorem C80_violated :
    (readStations ⟨["Latitude", "Longitude", "Elevation", "Name"], [[0, 0, 500, 1]]⟩).toOption.map
      (fun f => f.rows.map fun r => mfastElevation .m (r.getD 2 0)) = some [-1 / 2] ∧
    (readStations ⟨["Latitude", "Longitude", "Elevation", "Name"], [[0, 0, 1 / 2, 1]]⟩).toOption.map
      (fun f => f.rows.map fun r => mfastElevation .km (r.getD 2 0)) = some [-1 / 2] := by
  decide +kernel

/-- C80, what does hold: the value written is minus the elevation in kilometres, so that it is right
only for a station at sea level. -/
theorem C80_elevation_partial (u : Units) (metres : ℚ) :
    mfastElevation u (-1 * (metres / match u with | .km => 1000 | .m => 1)) = -metres / 1000 ∧
    (mfastElevation u (-1 * (metres / match u with | .km => 1000 | .m => 1)) = metres ↔ metres = 0) := by
  have e : mfastElevation u (-1 * (metres / match u with | .km => 1000 | .m => 1)) = -metres / 1000 := by
    cases u <;> simp only [mfastElevation] <;> ring
  refine ⟨e, ?_⟩
  rw [e]
  constructor
  · intro h
    rw [div_eq_iff (by norm_num)] at h
    linarith
  · rintro rfl; simp

end QM
