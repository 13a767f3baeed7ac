import Verif.Lemmas.Data
import Mathlib.Data.Finset.Card

/-!
# Waveform archive and availability check: C54, C55
-/

namespace QM
open QM.Data QM.Spec

/-! ## C54 -/

/-- C54, one channel: with samples in every trace and a sampling rate to check against if
that is asked for, the check ends and says "available" exactly if the criteria hold. -/
theorem C54_channel_iff (o : Opts) (start stop : ℚ) (trs : List Trace) (hne : trs ≠ [])
    (hs : ∀ t ∈ trs, Sane t) (hr : o.checkRate = true → o.rate ≠ 0) :
    ∃ b, checkId o start stop trs = .ok b ∧ (b = true ↔ ChannelOK o start stop trs) := by
  unfold checkId
  rcases anyFlat_spec trs (fun t ht => (hs t ht).ne) with ⟨h1, h2⟩ | ⟨h1, h2⟩
  · rw [h1]
    exact ⟨false, rfl, by simp only [Bool.false_eq_true, false_iff]; exact fun h => h2 h.notFlat⟩
  rw [h1]
  simp only
  have hs2 : ∀ t ∈ trs, Sane t ∧ 2 ≤ t.data.length :=
    fun t ht => ⟨hs t ht, two_le_of_notFlat (h2 t ht)⟩
  by_cases hov : (getGaps (some (-1 / 1000000)) trs).length = 0
  swap
  · rw [if_pos hov]
    exact ⟨false, rfl, by
      simp only [Bool.false_eq_true, false_iff]
      exact fun h => hov ((getGaps_overlap_iff hs2).2 h.overlap)⟩
  rw [if_neg (not_not.2 hov)]
  have hov' := (getGaps_overlap_iff hs2).1 hov
  by_cases hg : o.allowGaps = false ∧ ¬ (getGaps none trs).length = 0
  · rw [if_pos (by simp [hg.1]; simpa using hg.2)]
    exact ⟨false, rfl, by
      simp only [Bool.false_eq_true, false_iff]
      exact fun h => hg.2 ((getGaps_gap_iff hs2).2 (h.gap hg.1))⟩
  rw [if_neg (by
    rw [not_and_or, not_not] at hg
    rcases hg with hg | hg
    · simp [hg]
    · simp [List.length_eq_zero_iff.1 hg])]
  have hg' : o.allowGaps = false → NoGap trs := by
    intro ha
    rw [not_and, not_not] at hg
    exact (getGaps_gap_iff hs2).1 (hg ha)
  rw [if_neg (by
    simp only [Bool.and_eq_true, decide_eq_true_eq, not_and]
    exact hr)]
  by_cases hrt : o.checkRate = true ∧ ∃ t ∈ trs, t.rate ≠ o.rate
  · rw [if_pos (by simpa using hrt)]
    exact ⟨false, rfl, by
      simp only [Bool.false_eq_true, false_iff]
      obtain ⟨ha, t, ht, hne⟩ := hrt
      exact fun h => hne (h.rate ha t ht)⟩
  rw [if_neg (by simpa using hrt)]
  have hrt' : o.checkRate = true → ∀ t ∈ trs, t.rate = o.rate := by
    intro ha t ht
    by_contra hc
    exact hrt ⟨ha, t, ht, hc⟩
  obtain ⟨t, rest, rfl⟩ := List.exists_cons_of_ne_nil hne
  simp only
  by_cases hsp : o.fullTimespan = true ∧
      (rest ≠ [] ∨ (t.data.length : ℚ) < (stop - start) * t.rate + 1)
  · rw [if_pos (by simpa using hsp)]
    exact ⟨false, rfl, by
      simp only [Bool.false_eq_true, false_iff]
      intro h
      obtain ⟨t', ht', hl⟩ := h.span hsp.1
      rw [List.cons.injEq] at ht'
      obtain ⟨rfl, rfl⟩ := ht'
      rcases hsp.2 with h3 | h3
      · exact h3 rfl
      · linarith⟩
  rw [if_neg (by simpa using hsp)]
  have hsp' : o.fullTimespan = true →
      ∃ t', t :: rest = [t'] ∧ (stop - start) * t'.rate + 1 ≤ (t'.data.length : ℚ) := by
    intro ha
    rw [not_and, not_or, not_not, not_lt] at hsp
    obtain ⟨h3, h4⟩ := hsp ha
    exact ⟨t, by rw [h3], h4⟩
  by_cases hti : o.checkTimes = true ∧ ((rest ≠ [] ∨ t.start ≠ start) ∨ t.stop ≠ stop)
  · rw [if_pos (by simpa using hti)]
    exact ⟨false, rfl, by
      simp only [Bool.false_eq_true, false_iff]
      intro h
      obtain ⟨t', ht', h3, h4⟩ := h.times hti.1
      rw [List.cons.injEq] at ht'
      obtain ⟨rfl, rfl⟩ := ht'
      rcases hti.2 with (h5 | h5) | h5
      · exact h5 rfl
      · exact h5 h3
      · exact h5 h4⟩
  rw [if_neg (by simpa using hti)]
  refine ⟨true, rfl, ?_⟩
  simp only [true_iff]
  exact ⟨h2, hov', hg', hrt', hsp', by
    intro ha
    rw [not_and, not_or, not_or, not_not, not_not, not_not] at hti
    obtain ⟨⟨h3, h4⟩, h5⟩ := hti ha
    exact ⟨t, by rw [h3], h4, h5⟩⟩

theorem mem_ids (st : List Trace) (i : Str) : i ∈ ids st ↔ ∃ t ∈ st, t.id = i := by
  unfold ids
  rw [(List.perm_insertionSort _ _).mem_iff, List.mem_dedup, List.mem_map]

theorem ids_nodup (st : List Trace) : (ids st).Nodup := by
  unfold ids
  rw [(List.perm_insertionSort _ _).nodup_iff]
  exact List.nodup_dedup _

theorem checkIds_spec (o : Opts) (start stop : ℚ) (st : List Trace) (hs : ∀ t ∈ st, Sane t)
    (hr : o.checkRate = true → o.rate ≠ 0) : ∀ l : List Str, (∀ i ∈ l, i ∈ ids st) →
    ∃ av, checkIds o start stop st l = .ok av ∧ av.map Prod.fst = l ∧
      ∀ p ∈ av, (p.2 = true ↔ ChannelOK o start stop (st.filter fun t => t.id = p.1))
  | [], _ => ⟨[], rfl, rfl, by simp⟩
  | i :: l, h => by
    obtain ⟨av, h1, h2, h3⟩ := checkIds_spec o start stop st hs hr l
      (fun j hj => h j (by simp [hj]))
    have hne : st.filter (fun t => t.id = i) ≠ [] := by
      obtain ⟨t, ht, hti⟩ := (mem_ids st i).1 (h i (by simp))
      intro hc
      have : t ∈ st.filter (fun t => t.id = i) := by simp [ht, hti]
      rw [hc] at this
      simp at this
    obtain ⟨b, hb, hb2⟩ := C54_channel_iff o start stop _ hne
      (fun t ht => hs t (List.mem_of_mem_filter ht)) hr
    refine ⟨(i, b) :: av, ?_, by simp [h2], ?_⟩
    · rw [checkIds, hb]
      simp only
      rw [h1]
    · intro p hp
      rcases List.mem_cons.1 hp with rfl | hp
      · exact hb2
      · exact h3 p hp

/-- C54: with the arguments that go with the options given, the check ends; each channel present is
in the result once and is marked exactly if it meets the criteria; and the result is "available"
exactly if some channel is (all channels not required), or if there is the expected number of
channels and all of them are (all channels required). -/
theorem C54_availability_iff (o : Opts) (start stop : ℚ) (st : List Trace) (hne : st ≠ [])
    (hs : ∀ t ∈ st, Sane t) (hr : o.checkRate = true → o.rate ≠ 0)
    (hn : o.allChannels = true → o.nChannels ≠ 0) :
    ∃ a av, checkAvailability o start stop st = .ok (a, av) ∧
      (av.map Prod.fst).Nodup ∧ (∀ i, i ∈ av.map Prod.fst ↔ ∃ t ∈ st, t.id = i) ∧
      (∀ p ∈ av, (p.2 = true ↔ ChannelOK o start stop (st.filter fun t => t.id = p.1))) ∧
      (a = true ↔ if o.allChannels = true then
          (∀ t ∈ st, ChannelOK o start stop (st.filter fun u => u.id = t.id)) ∧
          ((st.map Trace.id).toFinset.card = o.nChannels)
        else ∃ t ∈ st, ChannelOK o start stop (st.filter fun u => u.id = t.id)) := by
  obtain ⟨av, h1, h2, h3⟩ := checkIds_spec o start stop st hs hr (ids st) (fun _ h => h)
  have hmem : ∀ i, i ∈ av.map Prod.fst ↔ ∃ t ∈ st, t.id = i := by
    intro i; rw [h2, mem_ids]
  have hall : av.all Prod.snd = true ↔
      ∀ t ∈ st, ChannelOK o start stop (st.filter fun u => u.id = t.id) := by
    rw [List.all_eq_true]
    constructor
    · intro h t ht
      obtain ⟨p, hp, hpt⟩ := List.mem_map.1 ((hmem t.id).2 ⟨t, ht, rfl⟩)
      have := (h3 p hp).1 (h p hp)
      rwa [hpt] at this
    · intro h p hp
      obtain ⟨t, ht, hti⟩ := (hmem p.1).1 (List.mem_map_of_mem hp)
      rw [h3 p hp, ← hti]
      exact h t ht
  have hany : av.any Prod.snd = true ↔
      ∃ t ∈ st, ChannelOK o start stop (st.filter fun u => u.id = t.id) := by
    rw [List.any_eq_true]
    constructor
    · rintro ⟨p, hp, hp2⟩
      obtain ⟨t, ht, hti⟩ := (hmem p.1).1 (List.mem_map_of_mem hp)
      refine ⟨t, ht, ?_⟩
      rw [hti]
      exact (h3 p hp).1 hp2
    · rintro ⟨t, ht, hc⟩
      obtain ⟨p, hp, hpt⟩ := List.mem_map.1 ((hmem t.id).2 ⟨t, ht, rfl⟩)
      refine ⟨p, hp, ?_⟩
      rw [h3 p hp, hpt]
      exact hc
  have hcard : (st.map Trace.id).toFinset.card = av.length := by
    have : av.length = (ids st).length := by rw [← h2, List.length_map]
    rw [this, ids, List.length_insertionSort, List.card_toFinset]
  unfold checkAvailability
  rw [if_neg hne, h1]
  simp only
  have hnodup : (av.map Prod.fst).Nodup := by rw [h2]; exact ids_nodup st
  by_cases ha : o.allChannels = true
  · rw [if_pos ha]
    by_cases hb : av.all Prod.snd = true
    · rw [if_pos hb, if_pos ha, if_neg (hn ha)]
      refine ⟨_, av, rfl, hnodup, hmem, h3, ?_⟩
      rw [decide_eq_true_eq, hcard]
      exact ⟨fun h => ⟨hall.1 hb, h⟩, fun h => h.2⟩
    · rw [if_neg hb, if_neg (by simp [ha])]
      refine ⟨_, av, rfl, hnodup, hmem, h3, ?_⟩
      rw [if_pos ha]
      simp only [Bool.false_eq_true, false_iff, not_and]
      exact fun h => absurd (hall.2 h) hb
  · by_cases hb : av.all Prod.snd = true
    · rw [if_pos hb, if_neg ha]
      refine ⟨_, av, rfl, hnodup, hmem, h3, ?_⟩
      rw [if_neg ha]
      simp only [true_iff]
      obtain ⟨t, rest, rfl⟩ := List.exists_cons_of_ne_nil hne
      exact ⟨t, by simp, hall.1 hb t (by simp)⟩
    · rw [if_neg hb]
      by_cases hc : av.any Prod.snd = true
      · rw [if_pos (by simp [ha, hc])]
        refine ⟨_, av, rfl, hnodup, hmem, h3, ?_⟩
        rw [if_neg ha]
        simpa using hany.1 hc
      · rw [if_neg (by simp [ha]; simpa using hc)]
        refine ⟨_, av, rfl, hnodup, hmem, h3, ?_⟩
        rw [if_neg ha, ← hany]
        simp only [Bool.false_eq_true, false_iff]
        exact hc

/-- C54: no data, not available. -/
theorem C54_no_data (o : Opts) (start stop : ℚ) : checkAvailability o start stop [] = .ok (false, []) :=
  rfl

/-- C54: requiring all channels without saying how many is refused when it matters. -/
theorem C54_channel_number_required (o : Opts) (start stop : ℚ) (st : List Trace) (hne : st ≠ [])
    (hs : ∀ t ∈ st, Sane t) (hr : o.checkRate = true → o.rate ≠ 0) (ha : o.allChannels = true)
    (hn : o.nChannels = 0)
    (hall : ∀ t ∈ st, ChannelOK o start stop (st.filter fun u => u.id = t.id)) :
    checkAvailability o start stop st = .error .typeError := by
  obtain ⟨av, h1, h2, h3⟩ := checkIds_spec o start stop st hs hr (ids st) (fun _ h => h)
  have : av.all Prod.snd = true := by
    rw [List.all_eq_true]
    intro p hp
    have : p.1 ∈ ids st := by rw [← h2]; exact List.mem_map_of_mem hp
    obtain ⟨t, ht, hti⟩ := (mem_ids st p.1).1 this
    rw [h3 p hp, ← hti]
    exact hall t ht
  unfold checkAvailability
  rw [if_neg hne, h1]
  simp only
  rw [if_pos this, if_pos ha, if_pos hn]

/-- Three channels over two seconds at 1 Hz: one good, one flat, one with a gap. -/
def exChanStream : List Trace :=
  [⟨['Z'], 10, 1, [1, 2, 3]⟩, ⟨['E'], 10, 1, [4, 4, 4]⟩, ⟨['N'], 10, 1, [1, 2]⟩, ⟨['N'], 15, 1, [1, 2]⟩]

example : checkAvailability ⟨false, 0, false, true, true, 1, true⟩ 10 12 exChanStream =
    .ok (true, [(['E'], false), (['N'], false), (['Z'], true)]) ∧
    checkAvailability ⟨true, 3, false, true, true, 1, true⟩ 10 12 exChanStream =
    .ok (false, [(['E'], false), (['N'], false), (['Z'], true)]) ∧
    checkAvailability ⟨false, 0, true, false, false, 0, false⟩ 10 12 exChanStream =
    .ok (true, [(['E'], false), (['N'], true), (['Z'], true)]) := by decide +kernel

example : ∀ t ∈ exChanStream, Sane t := by
  intro t ht
  simp only [exChanStream, List.mem_cons, List.not_mem_nil, or_false] at ht
  rcases ht with rfl | rfl | rfl | rfl <;> exact ⟨by simp, by norm_num, by norm_num⟩

/-! ## C55 -/

/-- C55: the archive is asked for the days that contain a time of the window, each once, in order,
for every station (or for all stations at once). -/
theorem C55_days (stations : List Str) (start stop : ℚ) (h : start ≤ stop) :
    ∃ days : List ℤ, days.Pairwise (· < ·) ∧
      (∀ d, d ∈ days ↔ ∃ t : ℚ, start ≤ t ∧ t ≤ stop ∧ 86400 * (d : ℚ) ≤ t ∧ t < 86400 * ((d : ℚ) + 1)) ∧
      loadFromPath false stations start stop =
        days.flatMap (fun d => stations.map fun s => ⟨d, some s⟩) ∧
      loadFromPath true stations start stop = days.map (fun d => ⟨d, none⟩) := by
  refine ⟨TriggerFiles.readDays (TriggerFiles.dayNum start) stop, ?_, ?_, rfl, ?_⟩
  · rw [TriggerFiles.readDays_eq _ _ _ rfl, List.pairwise_map]
    exact List.pairwise_lt_range.imp (by intro a b h; omega)
  · intro d
    rw [TriggerFiles.mem_readDays]
    have hstop : d ≤ ⌊stop / DAY⌋ ↔ 86400 * (d : ℚ) ≤ stop := TriggerFiles.dayNum_le_iff d stop
    have hs1 : (86400 : ℚ) * TriggerFiles.dayNum start ≤ start :=
      (TriggerFiles.dayNum_le_iff _ _).1 le_rfl
    have hs2 : start < 86400 * ((TriggerFiles.dayNum start : ℚ) + 1) := by
      by_contra hc
      push Not at hc
      have := (TriggerFiles.dayNum_le_iff (TriggerFiles.dayNum start + 1) start).2 (by
        unfold DAY; push_cast; exact hc)
      omega
    rw [hstop]
    constructor
    · rintro ⟨h1, h2⟩
      have h1' : (TriggerFiles.dayNum start : ℚ) ≤ d := by exact_mod_cast h1
      refine ⟨max start (86400 * d), le_max_left _ _, max_le h h2, le_max_right _ _, ?_⟩
      rw [max_lt_iff]
      constructor <;> linarith
    · rintro ⟨t, h1, h2, h3, h4⟩
      refine ⟨?_, h3.trans h2⟩
      by_contra hc
      push Not at hc
      have : (d : ℚ) + 1 ≤ TriggerFiles.dayNum start := by exact_mod_cast hc
      linarith
  · unfold loadFromPath
    simp only [if_true]
    induction TriggerFiles.readDays (TriggerFiles.dayNum start) stop with
    | nil => rfl
    | cons d l ih => rw [List.flatMap_cons, ih]; rfl

/-- C55: an empty window (stop before the day of start) asks for nothing. -/
theorem C55_empty (readAll : Bool) (stations : List Str) (start stop : ℚ)
    (h : stop < 86400 * (TriggerFiles.dayNum start : ℚ)) :
    loadFromPath readAll stations start stop = [] := by
  unfold loadFromPath
  rw [TriggerFiles.readDays, dif_neg (by unfold DAY; exact not_le.2 h)]
  rfl

/-- A window across midnight of day 1 that ends on the next midnight: three days are asked for. -/
example : loadFromPath false [['A'], ['B']] 86000 172800 =
    [⟨0, some ['A']⟩, ⟨0, some ['B']⟩, ⟨1, some ['A']⟩, ⟨1, some ['B']⟩, ⟨2, some ['A']⟩,
      ⟨2, some ['B']⟩] := by
  unfold loadFromPath
  rw [TriggerFiles.readDays_eq 3 _ _ (by decide +kernel)]
  decide +kernel

end QM
