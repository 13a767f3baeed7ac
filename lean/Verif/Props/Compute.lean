import Verif.Lemmas.Compute
import Verif.Lemmas.Pads
import Verif.Props.Migrate

/-!
# What the scan hands to the migration kernel: C22, C27, C32
-/

namespace QM
open QM.Pads QM.Compute

/-- Specification: the (station, phase) pairs that are migrated, phases outermost,
stations in archive order, unavailable ones left out. -/
def Spec.migratedPairs (phases stations : List Str) (av : Str → Str → ℕ) : List (Str × Str) :=
  phases.flatMap (fun p => (stations.filter (fun s => av s p = 1)).map (fun s => (s, p)))

theorem migratedPairs_eq (phases stations : List Str) (av : Str → Str → ℕ) :
    Spec.migratedPairs phases stations av =
      (allPairs phases stations).filter (fun sp => av sp.1 sp.2 = 1) := by
  unfold Spec.migratedPairs allPairs
  rw [List.filter_flatMap]
  congr 1
  funext p
  rw [List.filter_map]
  rfl

theorem sum_zero_one {α : Type} (l : List α) (f : α → ℕ) (h : ∀ a ∈ l, f a ≤ 1) :
    (l.map f).sum = (l.filter (fun a => f a = 1)).length := by
  induction l with
  | nil => rfl
  | cons a l ih =>
    have h1 := h a (List.mem_cons_self)
    have ih' := ih (fun b hb => h b (List.mem_cons_of_mem _ hb))
    rw [List.map_cons, List.sum_cons, ih']
    by_cases h2 : f a = 1
    · rw [List.filter_cons_of_pos (by simp [h2]), List.length_cons]; omega
    · rw [List.filter_cons_of_neg (by simp [h2])]; omega

theorem filter_ne_zero {α : Type} (l : List α) (f : α → ℕ) (h : ∀ a ∈ l, f a ≤ 1) :
    l.filter (fun a => f a ≠ 0) = l.filter (fun a => f a = 1) := by
  apply List.filter_congr
  intro a ha
  have := h a ha
  by_cases h1 : f a = 0
  · simp [h1]
  · have : f a = 1 := by omega
    simp [this]

/-- C32: the k-th onset function and the k-th traveltime table both belong to the
k-th migrated (station, phase) pair, and the divisor is the number of pairs. -/
theorem C32_rows_aligned {α : Type} (L : Lut) (sr : ℚ) (phases stations : List Str)
    (hp : phases.Nodup) (hs : stations.Nodup)
    (hpu : ∀ p ∈ phases, '_' ∉ p) (hsu : ∀ s ∈ stations, '_' ∉ s)
    (av : Str → Str → ℕ) (hav : ∀ s p, av s p ≤ 1) (onset : Str → Str → α)
    (G : Str → Str → ℕ → ℚ)
    (hG : ∀ s ∈ stations, ∀ p ∈ phases, av s p = 1 → lookup L s p = .ok (G s p))
    (hsome : ∃ s ∈ stations, ∃ p ∈ phases, av s p = 1) :
    migrateInput L sr phases stations av onset =
      .ok ((Spec.migratedPairs phases stations av).map (fun sp => onset sp.1 sp.2),
        (Spec.migratedPairs phases stations av).map
          (fun sp => fun node => pyRound (G sp.1 sp.2 node * sr)),
        (Spec.migratedPairs phases stations av).length) := by
  have hall : ∀ sp ∈ allPairs phases stations, sp.1 ∈ stations ∧ sp.2 ∈ phases := by
    intro sp h
    simp only [allPairs, List.mem_flatMap, List.mem_map] at h
    obtain ⟨p, h1, s, h2, rfl⟩ := h
    exact ⟨h2, h1⟩
  have hsum := sum_zero_one (allPairs phases stations) (fun sp => av sp.1 sp.2)
    (fun sp _ => hav _ _)
  rw [← migratedPairs_eq] at hsum
  have hne : Spec.migratedPairs phases stations av ≠ [] := by
    obtain ⟨s, hs1, p, hp1, h1⟩ := hsome
    have : (s, p) ∈ Spec.migratedPairs phases stations av := by
      simp only [Spec.migratedPairs, List.mem_flatMap, List.mem_map, List.mem_filter]
      exact ⟨p, hp1, s, ⟨hs1, by simpa using h1⟩, rfl⟩
    intro h; rw [h] at this; simp at this
  have hlen : (Spec.migratedPairs phases stations av).length ≠ 0 := by simpa using hne
  unfold migrateInput
  rw [calculateOnsets_eq hp hs hpu hsu, if_neg (by rw [hsum]; exact hlen)]
  simp only
  unfold serveTraveltimes
  rw [serve_pairs L av _ (fun sp h => ⟨hsu _ (hall sp h).1, hpu _ (hall sp h).2⟩) G
    (fun sp h h1 => hG _ (hall sp h).1 _ (hall sp h).2 h1), ← migratedPairs_eq,
    filter_ne_zero _ _ (fun sp _ => hav sp.1 sp.2), ← migratedPairs_eq]
  cases hm : (Spec.migratedPairs phases stations av).map (fun sp => G sp.1 sp.2) with
  | nil => simp at hm; exact absurd hm hne
  | cons g gs =>
    simp only
    rw [← hm, List.map_map, List.map_map]
    rw [← hsum]
    rfl

/-- C32: if nothing is available the timestep is reported as lacking data instead of
migrating an empty stack. -/
theorem C32_nothing_available {α : Type} (L : Lut) (sr : ℚ) (phases stations : List Str)
    (hp : phases.Nodup) (hs : stations.Nodup)
    (hpu : ∀ p ∈ phases, '_' ∉ p) (hsu : ∀ s ∈ stations, '_' ∉ s)
    (av : Str → Str → ℕ) (onset : Str → Str → α)
    (hnone : ∀ s ∈ stations, ∀ p ∈ phases, av s p = 0) :
    migrateInput L sr phases stations av onset = .error .dataAvailability := by
  unfold migrateInput
  rw [calculateOnsets_eq hp hs hpu hsu, if_pos]
  rw [List.sum_eq_zero_iff]
  intro x hx
  simp only [List.mem_map, allPairs, List.mem_flatMap] at hx
  obtain ⟨sp, ⟨p, hp1, s, hs1, rfl⟩, rfl⟩ := hx
  exact hnone s hs1 p hp1

/-- C32: a station or phase name containing an underscore is never silently
mispaired: the call fails. -/
theorem C32_underscore_fails {α : Type} (L : Lut) (sr : ℚ) (phases stations : List Str)
    (av : Str → Str → ℕ) (onset : Str → Str → α)
    (s p : Str) (hs : s ∈ stations) (hp : p ∈ phases) (hu : '_' ∈ s ∨ '_' ∈ p) :
    ∃ e, migrateInput L sr phases stations av onset = .error e := by
  unfold migrateInput calculateOnsets
  simp only
  rw [fold_pairs]
  have hmem : (s, p) ∈ allPairs phases stations := by
    simp only [allPairs, List.mem_flatMap, List.mem_map]
    exact ⟨p, hp, s, hs, rfl⟩
  have hk := (mem_fold_visit av onset (allPairs phases stations) ([], [])).2 _ hmem
  split
  · next h => split at h <;> exact ⟨_, rfl⟩
  · next avail onsets h =>
    split at h
    · simp at h
    · simp only [Except.ok.injEq] at h
      rw [h] at hk
      obtain ⟨e, he⟩ := serve_bad L avail _ hk (by
        rw [splitU_length]
        simp only
        have : 2 ≤ (key s p).count '_' := by
          unfold key
          rw [List.count_append, List.count_cons_self]
          rcases hu with h | h
          · have := List.count_pos_iff.2 h; omega
          · have := List.count_pos_iff.2 h; omega
        omega)
      unfold serveTraveltimes
      rw [he]
      exact ⟨_, rfl⟩

/-- Two stations, two phases; station A has no S onset; table names with and
without the `TIME_` prefix. -/
def exLut : Lut where
  stations := [['A'], ['B']]
  phases := [['P'], ['S']]
  nNodes := 2
  table := fun s =>
    if s = ['A'] then some (fun p => if p = ['P'] then some (fun n => n) else
      if p = "TIME_S".toList then some (fun n => 2 * n) else none)
    else if s = ['B'] then some (fun p => if p = ['P'] then some (fun n => n + 1 / 2) else
      if p = ['S'] then some (fun n => 3 * n + 1) else none)
    else none
def exAv : Str → Str → ℕ := fun s p => if s = ['A'] ∧ p = ['S'] then 0 else 1
example : (migrateInput exLut 10 [['P'], ['S']] [['A'], ['B']] exAv (fun s p => (s, p))).toOption.map
    (fun r => (r.1, r.2.1.map (fun t => t 1), r.2.2)) =
    some ([(['A'], ['P']), (['B'], ['P']), (['B'], ['S'])], [10, 15, 40], 3) := by decide +kernel
example : (∀ s p, exAv s p ≤ 1) ∧ (∀ s ∈ [['A'], ['B']], ∀ p ∈ [['P'], ['S']], exAv s p = 1 →
    (lookup exLut s p).isOk = true) := by
  refine ⟨fun s p => by unfold exAv; split <;> omega, by decide +kernel⟩
/-- an underscore in a station name -/
example : (migrateInput exLut 10 [['P']] [['A'], "B_1".toList] exAv (fun s p => (s, p))).isOk =
    false := by decide +kernel

/-- C27: the largest traveltime, from which the padding is computed: it is defined exactly when there is a table for
every phase and station and some value, and is then the largest value of any node in any table. -/
theorem C27_largest_traveltime (L : Lut) (m : ℚ) : maxTraveltime L = some m ↔
    (∀ p ∈ L.phases, ∀ s ∈ L.stations, ∃ g, lookup L s p = .ok g) ∧
    (∃ p ∈ L.phases, ∃ s ∈ L.stations, ∃ g node, lookup L s p = .ok g ∧ node < L.nNodes ∧ g node = m) ∧
    ∀ p ∈ L.phases, ∀ s ∈ L.stations, ∀ g, lookup L s p = .ok g → ∀ node < L.nNodes, g node ≤ m := by
  have hall : (L.phases.flatMap (fun p => L.stations.map (fun s => lookup L s p))).all (fun g => g.isOk) = true ↔
      ∀ p ∈ L.phases, ∀ s ∈ L.stations, ∃ g, lookup L s p = .ok g := by
    simp only [List.all_eq_true, List.mem_flatMap, List.mem_map]
    constructor
    · intro h p hp s hs
      have := h _ ⟨p, hp, s, hs, rfl⟩
      cases hl : lookup L s p with
      | error e => rw [hl] at this; simp [Except.isOk, Except.toBool] at this
      | ok g => exact ⟨g, rfl⟩
    · rintro h x ⟨p, hp, s, hs, rfl⟩
      obtain ⟨g, hg⟩ := h p hp s hs
      rw [hg]
      rfl
  constructor
  · intro h
    refine ⟨?_, ?_, fun p hp s hs g hg node hn => le_maxTraveltime h hs hp hg hn⟩
    · apply hall.mp
      unfold maxTraveltime at h
      simp only at h
      split at h
      · assumption
      · simp at h
    · unfold maxTraveltime at h
      simp only at h
      split at h
      · obtain ⟨h1, -⟩ := List.max?_eq_some_iff.1 h
        obtain ⟨x, hx, hx'⟩ := List.mem_flatMap.mp h1
        obtain ⟨p, hp, hx⟩ := List.mem_flatMap.mp hx
        obtain ⟨s, hs, rfl⟩ := List.mem_map.mp hx
        cases hl : lookup L s p with
        | error e => rw [hl] at hx'; simp at hx'
        | ok g =>
          rw [hl] at hx'
          obtain ⟨node, hn, rfl⟩ := List.mem_map.mp hx'
          exact ⟨p, hp, s, hs, g, node, hl, List.mem_range.mp hn, rfl⟩
      · simp at h
  · rintro ⟨h1, ⟨p, hp, s, hs, g, node, hg, hn, rfl⟩, h3⟩
    unfold maxTraveltime
    simp only
    rw [if_pos (hall.mpr h1), List.max?_eq_some_iff]
    constructor
    · refine List.mem_flatMap.mpr ⟨.ok g, List.mem_flatMap.mpr ⟨p, hp, List.mem_map.mpr ⟨s, hs, hg⟩⟩, ?_⟩
      exact List.mem_map.mpr ⟨node, List.mem_range.mpr hn, rfl⟩
    · intro b hb
      obtain ⟨x, hx, hx'⟩ := List.mem_flatMap.mp hb
      obtain ⟨p', hp', hx⟩ := List.mem_flatMap.mp hx
      obtain ⟨s', hs', rfl⟩ := List.mem_map.mp hx
      cases hl : lookup L s' p' with
      | error e => rw [hl] at hx'; simp at hx'
      | ok g' =>
        rw [hl] at hx'
        obtain ⟨node', hn', rfl⟩ := List.mem_map.mp hx'
        exact h3 p' hp' s' hs' g' hl node' (List.mem_range.mp hn')

/-- C27: the padding of a scan stage, in whole samples, is at least every traveltime
(in whole samples) the stage can serve. -/
theorem C27_padding_covers_traveltimes (L : Lut) (w : Windows) (hw : w.Nonneg)
    (ttmax : ℚ) (hmax : maxTraveltime L = some ttmax) (htt : 0 ≤ ttmax)
    (sr : ℕ) (hsr : 0 < sr) (timespan : ℚ) (hts : 0 ≤ timespan)
    (station phase : Str) (hs : station ∈ L.stations) (hp : phase ∈ L.phases)
    (g : ℕ → ℚ) (hg : lookup L station phase = .ok g) (node : ℕ) (hn : node < L.nNodes) :
    pyRound (g node * sr) ≤ time2sample (scanPads w ttmax sr timespan).2 sr := by
  have hle := le_maxTraveltime hmax hs hp hg hn
  have hsr' : (0 : ℚ) < sr := by positivity
  have hl := Windows.ltaMax_nonneg hw
  have hpre := prePad_nonneg hw
  have hpost : ttmax ≤ (⌈ttmax + 2 * w.ltaMax⌉ : ℤ) := by
    have := Int.le_ceil (ttmax + 2 * w.ltaMax); linarith
  have hc : 0 ≤ ⌈(timespan + (prePad w + postPad w ttmax)) * (6 / 100)⌉ := by
    apply Int.ceil_nonneg
    have : (0 : ℚ) ≤ postPad w ttmax := by unfold postPad; linarith
    positivity
  have hc' : (0 : ℚ) ≤ (⌈(timespan + (prePad w + postPad w ttmax)) * (6 / 100)⌉ : ℤ) := by
    exact_mod_cast hc
  rw [scanPads_snd w ttmax timespan hsr, time2sample_nat]
  apply pyRound_mono
  apply mul_le_mul_of_nonneg_right _ hsr'.le
  push_cast
  linarith

example : maxTraveltime exLut = some 4 ∧
    (⟨(1/5, 1), [(1/5, 1)]⟩ : Windows).Nonneg ∧
    scanPads ⟨(1/5, 1), [(1/5, 1)]⟩ 4 50 120 = (9 + 6/10, 14) ∧
    time2sample 14 50 = 700 := by
  refine ⟨by decide +kernel, ⟨by norm_num, by norm_num⟩, by decide +kernel, by decide +kernel⟩

/-- C22 (detect): with the archive sampled on a grid of `sr` samples per second
through the start of the run, and a timestep of `n` whole samples, every timestep
yields exactly `n` coalescence samples, the first of which is at the start of the
timestep.  Missing: a pre-pad (a whole number of milliseconds) halfway between two samples, see
`C22_violated`. -/
theorem C22_detect_sample_count_partial (w : Windows) (ttmax : ℚ)
    (sr : ℕ) (hsr : 0 < sr)
    (origin timestep : ℚ) (a : ℤ) (n : ℕ) (hn : timestep * sr = n) (i : ℕ)
    (start : ℚ) (hstart : start = origin + a / sr)
    (pads : ℚ × ℚ) (hpads : pads = scanPads w ttmax sr timestep)
    (htie : ∀ z : ℤ, pads.1 * sr ≠ z + 1 / 2)
    (win : ℚ × ℚ) (hwin : win = detectWindow start timestep sr pads i) :
    coaSamples origin sr pads win.1 win.2 = n ∧
    (readRange origin sr win.1 win.2).1 + time2sample pads.1 sr = a + i * n := by
  have hsr' : (0 : ℚ) < sr := by positivity
  have hd : (1 / (sr : ℚ)) * sr = 1 := by field_simp
  have ha : (a : ℚ) / sr * sr = a := by field_simp
  subst hwin hpads
  obtain ⟨h1, h2⟩ := window_samples w hsr htie (origin := origin)
    (beg := (detectWindow start timestep sr (scanPads w ttmax sr timestep) i).1)
    (stop := (detectWindow start timestep sr (scanPads w ttmax sr timestep) i).2)
    (x := a + i * n) (y := a + (i + 1) * n - 1)
    (by
      simp only [detectWindow]
      rw [hstart]
      push_cast
      rw [← hn]
      linear_combination ha)
    (by
      simp only [detectWindow]
      rw [hstart]
      push_cast
      rw [← hn]
      linear_combination ha - hd)
  refine ⟨?_, h1⟩
  rw [h2]; ring

/-- C22 (locate): the number of coalescence samples equals the number of timestamps
generated for the event, and the k-th sample was taken at the k-th timestamp. -/
theorem C22_locate_times_partial (w : Windows) (ttmax : ℚ)
    (sr : ℕ) (hsr : 0 < sr)
    (origin mw : ℚ) (a : ℤ) (n : ℕ) (hn : 2 * mw * sr = n)
    (trigger : ℚ) (htrig : trigger = origin + a / sr)
    (pads : ℚ × ℚ) (hpads : pads = scanPads w ttmax sr (4 * mw))
    (htie : ∀ z : ℤ, pads.1 * sr ≠ z + 1 / 2)
    (win : ℚ × ℚ) (hwin : win = locateWindow trigger mw pads) :
    coaSamples origin sr pads win.1 win.2 = (mwTimes trigger mw sr).length ∧
    ∀ k : ℕ, (k : ℤ) < coaSamples origin sr pads win.1 win.2 →
      (mwTimes trigger mw sr)[k]? =
        some (origin + ((readRange origin sr win.1 win.2).1 + time2sample pads.1 sr + k : ℤ) / sr) := by
  have hsr' : (0 : ℚ) < sr := by positivity
  have hts : 0 ≤ 4 * mw := by
    by_contra h
    have h1 : (4 * mw) * sr < 0 := mul_neg_of_neg_of_pos (not_le.1 h) hsr'
    have h2 : (0 : ℚ) ≤ n := Nat.cast_nonneg n
    linarith
  have ha : (a : ℚ) / sr * sr = a := by field_simp
  subst hwin hpads
  obtain ⟨h1, h2⟩ := window_samples w hsr htie (origin := origin)
    (beg := (locateWindow trigger mw (scanPads w ttmax sr (4 * mw))).1)
    (stop := (locateWindow trigger mw (scanPads w ttmax sr (4 * mw))).2)
    (x := a - n) (y := a + n)
    (by
      simp only [locateWindow]
      rw [htrig]
      push_cast
      rw [← hn]
      linear_combination ha)
    (by
      simp only [locateWindow]
      rw [htrig]
      push_cast
      rw [← hn]
      linear_combination ha)
  have hlen : (pyInt (4 * mw * sr + 1)).toNat = 2 * n + 1 := by
    have : (4 * mw * sr + 1 : ℚ) = ((2 * n + 1 : ℕ) : ℚ) := by
      push_cast; rw [← hn]; ring
    rw [this, pyInt_natCast]; omega
  refine ⟨?_, fun k hk => ?_⟩
  · rw [h2]
    simp only [mwTimes, List.length_map, List.length_range]
    rw [hlen]
    push_cast; ring
  · rw [h2] at hk
    have hk' : k < 2 * n + 1 := by omega
    simp only [mwTimes]
    rw [hlen, List.getElem?_map, List.getElem?_range hk', Option.map_some, h1]
    congr 1
    rw [htrig]
    push_cast
    field_simp
    linear_combination -hn

/-- C22: at rates that divide 1000 or are at most 500 the pre-pad is never halfway between two
samples, so that the two theorems above apply. -/
theorem C22_usual_rates (w : Windows) (hw : w.Nonneg) (ttmax : ℚ) (htt : 0 ≤ ttmax)
    (sr : ℕ) (hsr : 0 < sr) (hrate : sr ∣ 1000 ∨ sr ≤ 500) (ts : ℚ) (hts : 0 ≤ ts) (z : ℤ) :
    (scanPads w ttmax sr ts).1 * sr ≠ z + 1 / 2 := by
  intro h
  obtain ⟨K, hK⟩ := scanPads_fst_near w hw htt hsr hrate hts
  rw [h, abs_lt] at hK
  have h1 : ((K - 1 : ℤ) : ℚ) < z := by push_cast; linarith [hK.1]
  have h2 : (z : ℚ) < K := by linarith [hK.2]
  have h1' : K - 1 < z := by exact_mod_cast h1
  have h2' : z < K := by exact_mod_cast h2
  omega

/-- C22 is violated at 502 samples per second: with windows of 0.25 and 1 s, a
timestep of one second yields 503 samples, the first of which is one sample before its start. -/
theorem C22_violated : ∃ (w : Windows) (win pads : ℚ × ℚ), w.Nonneg ∧
    pads = scanPads w 2 502 1 ∧ win = detectWindow 0 1 502 pads 0 ∧
    coaSamples 0 502 pads win.1 win.2 = 503 ∧
    (readRange 0 502 win.1 win.2).1 + time2sample pads.1 502 = -1 :=
  ⟨⟨(1 / 4, 1), []⟩, _, _, ⟨by norm_num, by norm_num⟩, rfl, rfl, by decide +kernel,
    by decide +kernel⟩

example : (50 : ℕ) ∣ 1000 ∧ (120 : ℚ) * (50 : ℕ) = (6000 : ℕ) ∧ 2 * (1 : ℚ) * (50 : ℕ) = (100 : ℕ) ∧
    coaSamples 3 50 (scanPads ⟨(1/5, 1), []⟩ 4 50 120)
      (detectWindow (3 + 7 / 50) 120 50 (scanPads ⟨(1/5, 1), []⟩ 4 50 120) 2).1
      (detectWindow (3 + 7 / 50) 120 50 (scanPads ⟨(1/5, 1), []⟩ 4 50 120) 2).2 = 6000 := by
  refine ⟨⟨20, rfl⟩, by norm_num, by norm_num, by decide +kernel⟩
/-- a rate that does not divide 1000: the pads are not whole samples, but the counts still agree -/
example : (scanPads ⟨(1/5, 1), []⟩ 4 128 120).1 * 128 ≠ 1229 ∧
    coaSamples 3 128 (scanPads ⟨(1/5, 1), []⟩ 4 128 120)
      (detectWindow 3 120 128 (scanPads ⟨(1/5, 1), []⟩ 4 128 120) 2).1
      (detectWindow 3 120 128 (scanPads ⟨(1/5, 1), []⟩ 4 128 120) 2).2 = 15360 := by
  constructor <;> decide +kernel

open QM.Migrate in
/-- C27: everything `_compute` hands to the kernel in a scan stage meets the
kernel's safety precondition (`MigrateOK` of C26/C28), for every availability
pattern; `cols` is the common length of the onset functions. What is left is that
the onset array has at most 2^31 elements. -/
theorem C27_scan_meets_migrate_precondition (L : Lut) (w : Windows) (hw : w.Nonneg)
    (ttmax : ℚ) (hmax : maxTraveltime L = some ttmax) (htt : 0 ≤ ttmax)
    (sr : ℕ) (hsr : 0 < sr) (timespan : ℚ) (hts : 0 ≤ timespan)
    (phases stations : List Str) (hp : phases.Nodup) (hs : stations.Nodup)
    (hpu : ∀ p ∈ phases, '_' ∉ p) (hsu : ∀ s ∈ stations, '_' ∉ s)
    (hpl : ∀ p ∈ phases, p ∈ L.phases) (hsl : ∀ s ∈ stations, s ∈ L.stations)
    (av : Str → Str → ℕ) (hav : ∀ s p, av s p ≤ 1) (onset : Str → Str → ℕ → ℝ)
    (G : Str → Str → ℕ → ℚ)
    (hG : ∀ s ∈ stations, ∀ p ∈ phases, av s p = 1 → lookup L s p = .ok (G s p))
    (hsome : ∃ s ∈ stations, ∃ p ∈ phases, av s p = 1)
    (cols : ℕ) (pads : ℚ × ℚ) (hpads : pads = scanPads w ttmax sr timespan)
    (first last : ℕ) (hfirst : time2sample pads.1 sr = first) (hlast : time2sample pads.2 sr = last)
    (hcols : first + last ≤ cols) :
    ∃ ons tts avail, migrateInput L sr phases stations av onset = .ok (ons, tts, avail) ∧
      avail = ons.length ∧
      (ons.length * cols ≤ 2 ^ 31 →
        MigrateOK ⟨ons.length, cols, fun k j => (ons[k]?.getD (fun _ => 0)) j⟩
          ⟨L.nNodes, tts.length, fun node k => (tts[k]?.getD (fun _ => 0)) node⟩ first last) := by
  refine ⟨_, _, _, C32_rows_aligned L sr phases stations hp hs hpu hsu av hav onset G hG hsome,
    by simp, fun h32 => ⟨?_, ?_, hcols, h32, ?_⟩⟩
  · obtain ⟨s, hs1, p, hp1, h1⟩ := hsome
    have : (s, p) ∈ Spec.migratedPairs phases stations av := by
      simp only [Spec.migratedPairs, List.mem_flatMap, List.mem_map, List.mem_filter]
      exact ⟨p, hp1, s, ⟨hs1, by simpa using h1⟩, rfl⟩
    simp only [List.length_map]
    exact List.length_pos_of_mem this
  · simp
  · intro node hn k hk
    simp only [List.length_map] at hk hn ⊢
    have hmem := List.getElem_mem hk
    simp only [Spec.migratedPairs, List.mem_flatMap, List.mem_map, List.mem_filter,
      decide_eq_true_eq] at hmem
    obtain ⟨p, hp1, s, ⟨hs1, h1⟩, he⟩ := hmem
    have := C27_padding_covers_traveltimes L w hw ttmax hmax htt sr hsr timespan hts s p
      (hsl s hs1) (hpl p hp1) (G s p) (hG s hs1 p hp1 h1) node hn
    rw [← hpads, hlast] at this
    simp only [List.getElem?_map, List.getElem?_eq_getElem hk, Option.map_some, Option.getD_some]
    have e1 : (Spec.migratedPairs phases stations av)[k].1 = s := (congrArg Prod.fst he).symm
    have e2 : (Spec.migratedPairs phases stations av)[k].2 = p := (congrArg Prod.snd he).symm
    rw [e1, e2]
    exact this

end QM
