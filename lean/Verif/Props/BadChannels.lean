import Verif.Props.OnsetGain

/-!
# A channel that fails its checks is as good as absent: C163
-/

namespace QM

open QM.CalcOnsets
open QM.Data (Str Trace)

namespace BadChannels

theorem checkIds_keys (o : Data.Opts) (s e : ℚ) (st : List Trace) (is : List Str) : ∀ av,
    Data.checkIds o s e st is = .ok av → av.map Prod.fst = is := by
  induction is with
  | nil => intro av h; injection h with h; rw [← h]; rfl
  | cons i is ih =>
    intro av h
    unfold Data.checkIds at h
    cases h1 : Data.checkId o s e (st.filter fun t => t.id = i) with
    | error e => rw [h1] at h; simp at h
    | ok a =>
      rw [h1] at h
      simp only at h
      cases h2 : Data.checkIds o s e st is with
      | error e => rw [h2] at h; simp at h
      | ok l =>
        rw [h2] at h
        injection h with h
        rw [← h, List.map_cons, ih l h2]

theorem checkIds_without (o : Data.Opts) (s e : ℚ) (st : List Trace) (i : Str) (is : List Str) : ∀ av,
    Data.checkIds o s e st is = .ok av →
    Data.checkIds o s e (st.filter fun t => t.id ≠ i) (is.filter fun j => j ≠ i) = .ok (av.filter fun a => a.1 ≠ i) := by
  induction is with
  | nil => intro av h; injection h with h; rw [← h]; rfl
  | cons j is ih =>
    intro av h
    unfold Data.checkIds at h
    cases h1 : Data.checkId o s e (st.filter fun t => t.id = j) with
    | error e => rw [h1] at h; simp at h
    | ok a =>
      rw [h1] at h
      simp only at h
      cases h2 : Data.checkIds o s e st is with
      | error e => rw [h2] at h; simp at h
      | ok l =>
        rw [h2] at h
        injection h with h
        subst h
        have ih := ih l h2
        by_cases hj : j = i
        · rw [List.filter_cons_of_neg (by simp [hj]), List.filter_cons_of_neg (by simp [hj]), ih]
        · rw [List.filter_cons_of_pos (by simp [hj]), List.filter_cons_of_pos (by simp [hj])]
          unfold Data.checkIds
          have e1 : ((st.filter fun t => t.id ≠ i).filter fun t => t.id = j) = st.filter fun t => t.id = j := by
            rw [List.filter_filter]
            apply List.filter_congr
            intro t _
            by_cases ht : t.id = j
            · simp [ht, hj]
            · simp [ht]
          rw [e1, h1, ih]

theorem ids_without (st : List Trace) (i : Str) :
    Data.ids (st.filter fun t => t.id ≠ i) = (Data.ids st).filter fun j => j ≠ i := by
  have hs : ∀ st : List Trace, (Data.ids st).Pairwise (· ≤ ·) := fun st => List.pairwise_insertionSort _ _
  apply List.Perm.eq_of_pairwise (le := (· ≤ ·)) (fun a b _ _ h1 h2 => List.le_antisymm h1 h2) (hs _) ((hs st).filter _)
  rw [List.perm_ext_iff_of_nodup (ids_nodup _) ((ids_nodup st).filter _)]
  intro j
  rw [mem_ids, List.mem_filter, mem_ids]
  simp only [List.mem_filter, decide_eq_true_eq]
  constructor
  · rintro ⟨t, ⟨h1, h2⟩, rfl⟩; exact ⟨⟨t, h1, rfl⟩, h2⟩
  · rintro ⟨⟨t, h1, rfl⟩, h2⟩; exact ⟨t, ⟨h1, h2⟩, rfl⟩

theorem checkAvailability_any (o : Data.Opts) (ho : o.allChannels = false) (s e : ℚ) (st : List Trace) :
    Data.checkAvailability o s e st = (Data.checkIds o s e st (Data.ids st)).map fun av => (av.any Prod.snd, av) := by
  unfold Data.checkAvailability
  by_cases h : st = []
  · subst h; rfl
  rw [if_neg h]
  cases hc : Data.checkIds o s e st (Data.ids st) with
  | error e => rfl
  | ok av =>
    have hk := checkIds_keys o s e st _ av hc
    have hne : av ≠ [] := by
      rintro rfl
      obtain ⟨t, l, rfl⟩ := List.exists_cons_of_ne_nil h
      have : t.id ∈ Data.ids (t :: l) := (mem_ids _ _).2 ⟨t, by simp, rfl⟩
      rw [← hk] at this
      simp at this
    simp only [Except.map, ho]
    by_cases h1 : av.all Prod.snd = true
    · have h2 : av.any Prod.snd = true := by
        obtain ⟨a, l, rfl⟩ := List.exists_cons_of_ne_nil hne
        simp only [List.all_cons, Bool.and_eq_true] at h1
        simp [h1.1]
      rw [if_pos h1, h2]
      rfl
    · rw [if_neg h1]
      cases h2 : av.any Prod.snd <;> rfl

theorem rows_mem (c : Cfg) (x : Ext) (d : CalcOnsets.Data) (w : List Trace) (t : Trace) (ht : t ∈ w) :
    ∃ r ∈ rows c x d w, r.1 = t.id := by
  unfold rows
  by_cases h : (c.allowGaps || !c.fullTimespan) = true
  · rw [if_pos h]
    have hm : t ∈ w.filter fun u => u.id = t.id := by simp [ht]
    have hp : ∃ r, r ∈ GapFill.prepare c.allowGaps c.fullTimespan x.weight x.fill d.start d.stop
        (w.filter fun u => u.id = t.id) := by
      unfold GapFill.prepare
      rw [if_pos h]
      unfold GapFill.merge
      cases hsort : ((w.filter fun u => u.id = t.id).map (GapFill.taper x.weight)).insertionSort Data.Trace.le with
      | nil =>
        have := congrArg List.length hsort
        rw [List.length_insertionSort, List.length_map] at this
        rw [List.length_eq_zero_iff.mp this] at hm
        simp at hm
      | cons a l => exact ⟨_, List.mem_singleton.mpr rfl⟩
    obtain ⟨r, hr⟩ := hp
    exact ⟨(t.id, r), List.mem_flatMap.mpr ⟨t.id, (mem_ids w t.id).2 ⟨t, ht, rfl⟩, List.mem_map.mpr ⟨r, hr, rfl⟩⟩, rfl⟩
  · rw [if_neg h]
    exact ⟨(t.id, t.data), List.mem_map.mpr ⟨t, ht, rfl⟩, rfl⟩

theorem stationPhase_without (c : Cfg) (hc : c.allChannels = false) (x : Ext) (d : CalcOnsets.Data) (ws : List Trace)
    (p s i : Str) (l : List Trace) (r : Option (List (Str × List ℚ) × List (Option ℝ)))
    (h : stationPhase c x d p l s = .ok r) (hr : ∀ q, r = some q → ∀ a ∈ q.1, a.1 ≠ i) :
    stationPhase c x { d with waveforms := ws } p (l.filter fun t => t.id ≠ i) s = .ok r := by
  unfold stationPhase at h ⊢
  simp only at h ⊢
  have ew : ((l.filter fun t => t.id ≠ i).filter fun t => x.ofStation s t.id) =
      (l.filter fun t => x.ofStation s t.id).filter fun t => t.id ≠ i := by
    rw [List.filter_filter, List.filter_filter]
    apply List.filter_congr
    intro t _
    rw [Bool.and_comm]
  rw [ew]
  generalize hwd : (l.filter fun t => x.ofStation s t.id) = w at h ⊢
  rw [checkAvailability_any _ hc] at h ⊢
  cases hck : Data.checkIds (GapFill.onsetOpts c.allChannels c.allowGaps c.fullTimespan (c.count p) c.sr)
      d.start d.stop w (Data.ids w) with
  | error e => rw [hck] at h; simp [Except.map] at h
  | ok av =>
    rw [hck] at h
    rw [ids_without, checkIds_without _ _ _ _ i _ av hck]
    have hk := checkIds_keys _ _ _ _ _ _ hck
    simp only [Except.map] at h ⊢
    -- entries of the channel, if any, are negative
    have hneg : ∀ b, (i, b) ∈ av → b = false := by
      intro b hb
      cases b with
      | false => rfl
      | true =>
        exfalso
        have hany : av.any Prod.snd = true := List.any_eq_true.mpr ⟨(i, true), hb, rfl⟩
        rw [hany] at h
        simp only at h
        have hi : i ∈ Data.ids w := by rw [← hk]; exact List.mem_map.mpr ⟨(i, true), hb, rfl⟩
        obtain ⟨t, ht, rfl⟩ := (mem_ids w i).1 hi
        have hnd : (av.map Prod.fst).Nodup := by rw [hk]; exact ids_nodup w
        have htd : t ∈ dropFailed av w := by
          unfold dropFailed
          rw [List.mem_filter]
          refine ⟨ht, ?_⟩
          simp only [Bool.not_eq_true', List.any_eq_false, Bool.and_eq_true, decide_eq_true_eq, not_and]
          rintro ⟨j, b⟩ hjb hj
          simp only at hj
          subst hj
          have := List.inj_on_of_nodup_map hnd hb hjb rfl
          simp only [Prod.mk.injEq, true_and] at this
          simp [← this]
        obtain ⟨a, ha, hae⟩ := rows_mem c x d _ t htd
        cases ho : onset c p (rows c x d (dropFailed av w)) with
        | error e => rw [ho] at h; simp at h
        | ok f =>
          rw [ho] at h
          injection h with h
          exact hr _ h.symm a ha hae
    have hany : (av.filter fun a => a.1 ≠ i).any Prod.snd = av.any Prod.snd := by
      rw [Bool.eq_iff_iff, List.any_eq_true, List.any_eq_true]
      constructor
      · rintro ⟨a, ha, hb⟩; exact ⟨a, (List.mem_filter.mp ha).1, hb⟩
      · rintro ⟨⟨j, b⟩, ha, hb⟩
        refine ⟨(j, b), List.mem_filter.mpr ⟨ha, ?_⟩, hb⟩
        simp only [decide_eq_true_eq]
        rintro rfl
        rw [hneg b ha] at hb
        simp at hb
    rw [hany]
    have hdrop : dropFailed (av.filter fun a => a.1 ≠ i) (w.filter fun t => t.id ≠ i) = dropFailed av w := by
      unfold dropFailed
      rw [List.filter_filter]
      apply List.filter_congr
      intro t ht
      by_cases hti : t.id = i
      · have : t.id ∈ av.map Prod.fst := by rw [hk]; exact (mem_ids w _).2 ⟨t, ht, rfl⟩
        obtain ⟨⟨j, b⟩, hjb, hj⟩ := List.mem_map.mp this
        simp only at hj
        subst hj
        have hb := hneg b (hti ▸ hjb)
        subst hb
        have hx : (av.any fun e => decide (e.1 = t.id) && !e.2) = true := by
          rw [List.any_eq_true]; exact ⟨(t.id, false), hjb, by simp⟩
        rw [hx]
        simp [hti]
      · have hx : ((av.filter fun a => a.1 ≠ i).any fun e => decide (e.1 = t.id) && !e.2) =
            av.any fun e => decide (e.1 = t.id) && !e.2 := by
          rw [Bool.eq_iff_iff, List.any_eq_true, List.any_eq_true]
          constructor
          · rintro ⟨a, ha, hb⟩; exact ⟨a, (List.mem_filter.mp ha).1, hb⟩
          · rintro ⟨a, ha, hb⟩
            refine ⟨a, List.mem_filter.mpr ⟨ha, ?_⟩, hb⟩
            simp only [Bool.and_eq_true, decide_eq_true_eq] at hb
            simp only [decide_eq_true_eq]
            rw [hb.1]; exact hti
        rw [hx]
        simp [hti]
    cases hb : av.any Prod.snd with
    | false => rw [hb] at h; exact h
    | true =>
      rw [hb] at h
      simp only at h ⊢
      rw [hdrop]
      exact h

theorem final_congr (c : Cfg) (x : Ext) (d d' : CalcOnsets.Data) (hss : d'.stations = d.stations) (ps : List Str)
    (h : ∀ p ∈ ps, ∀ s ∈ d.stations, res c x d' s p = res c x d s p) (o : Out) : final c x d' ps o = final c x d ps o := by
  have hv : ∀ st : List (Str × ℕ) × List ((Str × Str) × List (Option ℝ)), ∀ sp ∈ Compute.allPairs ps d.stations,
      Compute.visit (avNum c x d') (lab c x d') st sp = Compute.visit (avNum c x d) (lab c x d) st sp := by
    intro st sp hsp
    unfold Compute.allPairs at hsp
    simp only [List.mem_flatMap, List.mem_map] at hsp
    obtain ⟨p, hp, s, hs, rfl⟩ := hsp
    unfold Compute.visit avNum lab
    rw [h p hp s hs]
  unfold final
  rw [hss, List.foldl_ext _ _ _ fun a b hb => hv a b hb]
  congr 2
  apply List.flatMap_congr
  intro p hp
  apply List.flatMap_congr
  intro s hs
  rw [h p hp s hs]

end BadChannels

open BadChannels in
/-- **C163**: with `all_channels = False`, a channel that contributes nothing to the waveforms used by the scan (because
it failed a check: flat, gappy, overlapping, too short, at another rate) might as well not be in the archive: without it,
the scan returns the same availability, the same onset functions and the same waveforms. -/
theorem C163_bad_channel_absent (c : Cfg) (hc : c.allChannels = false) (x : Ext) (hx : KeepsIds x) (d : CalcOnsets.Data)
    (o : Out) (h : calculateOnsets c x d = .ok o) (i : Str) (hi : ∀ r ∈ o.used, r.1 ≠ i) :
    calculateOnsets c x { d with waveforms := d.waveforms.filter fun t => t.id ≠ i } = .ok o := by
  obtain ⟨hf, ho, h0, h1⟩ := (calculateOnsets_iff c x d o).1 h
  have key : ∀ p ∈ c.phases, ∃ l,
      preStream c x { d with waveforms := d.waveforms.filter fun t => t.id ≠ i } p = .ok l ∧
      ∀ s ∈ d.stations, stationPhase c x { d with waveforms := d.waveforms.filter fun t => t.id ≠ i } p l s =
        .ok (res c x d s p) := by
    intro p hp
    obtain ⟨l, hl, hs⟩ := hf p hp
    have hpre := preStream_filter c x hx d p (fun j => decide (j ≠ i)) l hl
    refine ⟨_, hpre, ?_⟩
    intro s hsm
    obtain ⟨r, hr⟩ := hs s hsm
    have hres : res c x d s p = r := by unfold res; rw [hl]; simp only; rw [hr]
    rw [hres]
    refine stationPhase_without c hc x d _ p s i l r hr ?_
    rintro q rfl a ha
    apply hi
    rw [ho]
    simp only [final, List.nil_append, List.mem_flatMap]
    exact ⟨p, hp, s, hsm, by rw [hres]; exact ha⟩
  have hres : ∀ p ∈ c.phases, ∀ s ∈ d.stations,
      res c x { d with waveforms := d.waveforms.filter fun t => t.id ≠ i } s p = res c x d s p := by
    intro p hp s hs
    obtain ⟨l, h2, h3⟩ := key p hp
    conv_lhs => unfold res
    rw [h2]
    simp only
    rw [h3 s hs]
  rw [calculateOnsets_iff]
  refine ⟨?_, ?_, h0, h1⟩
  · intro p hp
    obtain ⟨l, h2, h3⟩ := key p hp
    exact ⟨l, h2, fun s hs => ⟨_, h3 s hs⟩⟩
  · rw [ho]
    exact (final_congr c x d { d with waveforms := d.waveforms.filter fun t => t.id ≠ i } rfl c.phases hres ⟨[], [], []⟩).symm

namespace BadChannels

/-- The data of `OnsetGain.exData` and a second, flat channel. -/
def exBad : CalcOnsets.Data :=
  { OnsetGain.exData with waveforms := [OnsetGain.exA, OnsetGain.exB, ⟨"Y".toList, 0, 1, [7, 7, 7, 7, 7]⟩] }

open OnsetGain in
theorem exBad_pre : preStream exCfg (exExt 1) exBad "P".toList = .ok exBad.waveforms := by
  unfold preStream
  have h : Filters.preProcess (exExt 1).dsp ((exExt 1).trim exBad.start exBad.stop) exCfg.sr exBad.resample
      exBad.upfactor (exCfg.low "P".toList) (exCfg.high "P".toList)
      ((exBad.waveforms.filter fun t => exCfg.chan "P".toList t.id).map toR) =
      .ok (exBad.waveforms.map fun t => (toR t, .bandpass (1 / 5) (4 / 5))) := by
    show Filters.preProcess ⟨fun _ b => b, fun _ b => b⟩ (fun b => some b) 1 false none (1 / 10) (2 / 5)
      (exBad.waveforms.map toR) = _
    decide +kernel
  rw [h]
  rfl

end BadChannels

open BadChannels OnsetGain in
/-- A case of C163: the flat channel is not among the waveforms used. -/
example : ∃ o, calculateOnsets exCfg (exExt 1) exBad = .ok o ∧ o.used ≠ [] ∧ ∀ r ∈ o.used, r.1 ≠ "Y".toList := by
  obtain ⟨f, h1, _, _⟩ := ex_onset 1 1 (by norm_num) (by norm_num) (by norm_num)
  refine ⟨⟨[("ST01_P".toList, 1)], [(("ST01".toList, "P".toList), f)], [("Z".toList, [1 * 1, 1 * 2, 1, 1 * 3, 1 * 5])]⟩, ?_,
    by simp, by simp⟩
  have hpre := exBad_pre
  have hsp : stationPhase exCfg (exExt 1) exBad "P".toList exBad.waveforms "ST01".toList =
      .ok (some ([("Z".toList, [1 * 1, 1 * 2, 1, 1 * 3, 1 * 5])], f)) := by
    unfold stationPhase
    have hfil : (exBad.waveforms.filter fun t => (exExt 1).ofStation "ST01".toList t.id) = exBad.waveforms := rfl
    simp only [hfil]
    have hck : Data.checkAvailability (GapFill.onsetOpts exCfg.allChannels exCfg.allowGaps exCfg.fullTimespan
        (exCfg.count "P".toList) exCfg.sr) exBad.start exBad.stop exBad.waveforms =
        .ok (true, [("Y".toList, false), ("Z".toList, true)]) := by
      show Data.checkAvailability (GapFill.onsetOpts false true false 1 1) 0 4 exBad.waveforms = _
      decide +kernel
    rw [hck]
    have hd : dropFailed [("Y".toList, false), ("Z".toList, true)] exBad.waveforms =
        Spec.amplified (fun _ => 1) exData.waveforms := by decide +kernel
    simp only
    rw [hd, ex_rows 1 1 exBad rfl rfl, h1]
  unfold calculateOnsets
  have hph : exCfg.phases = ["P".toList] := rfl
  rw [hph]
  unfold phaseLoop
  rw [hpre]
  have hst : exBad.stations = ["ST01".toList] := rfl
  simp only [hst]
  unfold stationLoop
  rw [hsp]
  rfl

namespace BadChannels

/-- Channel Z belongs to station ST01, channel Y to ST02. -/
def exTwo : Ext :=
  { OnsetGain.exExt 1 with
    ofStation := fun s i => decide (s = "ST01".toList ∧ i = "Z".toList ∨ s = "ST02".toList ∧ i = "Y".toList) }

/-- Two stations, the second with a flat channel. -/
def exTwoData : CalcOnsets.Data := { exBad with stations := ["ST01".toList, "ST02".toList] }

end BadChannels

open BadChannels OnsetGain in
/-- A case of C161: two stations, one of which has no usable data; the scan goes through. -/
example : KeepsIds exTwo ∧ Spec.PlainNames exCfg.phases exTwoData.stations ∧
    ∃ o, calculateOnsets exCfg exTwo exTwoData = .ok o ∧
      o.availability = [("ST01_P".toList, 1), ("ST02_P".toList, 0)] ∧ (∃ f ∈ o.onsets, f.1.1 = "ST01".toList) ∧
      ∀ f ∈ o.onsets, f.1.1 ≠ "ST02".toList := by
  refine ⟨⟨fun _ _ => rfl, fun _ _ => rfl, (exExt_keeps 1).trim⟩,
    ⟨by simp [exCfg], by simp [exTwoData], by simp [exCfg], by simp [exTwoData]⟩, ?_⟩
  obtain ⟨f, h1, _, _⟩ := ex_onset 1 1 (by norm_num) (by norm_num) (by norm_num)
  refine ⟨⟨[("ST01_P".toList, 1), ("ST02_P".toList, 0)], [(("ST01".toList, "P".toList), f)],
    [("Z".toList, [1 * 1, 1 * 2, 1, 1 * 3, 1 * 5])]⟩, ?_, rfl, by simp, by simp⟩
  have hpre : preStream exCfg exTwo exTwoData "P".toList = .ok exTwoData.waveforms := by
    unfold preStream
    have h : Filters.preProcess exTwo.dsp (exTwo.trim exTwoData.start exTwoData.stop) exCfg.sr exTwoData.resample
        exTwoData.upfactor (exCfg.low "P".toList) (exCfg.high "P".toList)
        ((exTwoData.waveforms.filter fun t => exCfg.chan "P".toList t.id).map toR) =
        .ok (exTwoData.waveforms.map fun t => (toR t, .bandpass (1 / 5) (4 / 5))) := by
      show Filters.preProcess ⟨fun _ b => b, fun _ b => b⟩ (fun b => some b) 1 false none (1 / 10) (2 / 5)
        (exTwoData.waveforms.map toR) = _
      decide +kernel
    rw [h]
    rfl
  have hsp : stationPhase exCfg exTwo exTwoData "P".toList exTwoData.waveforms "ST01".toList =
      .ok (some ([("Z".toList, [1 * 1, 1 * 2, 1, 1 * 3, 1 * 5])], f)) := by
    unfold stationPhase
    have hfil : (exTwoData.waveforms.filter fun t => exTwo.ofStation "ST01".toList t.id) = exData.waveforms := by
      decide +kernel
    simp only [hfil]
    have hck : Data.checkAvailability (GapFill.onsetOpts exCfg.allChannels exCfg.allowGaps exCfg.fullTimespan
        (exCfg.count "P".toList) exCfg.sr) exTwoData.start exTwoData.stop exData.waveforms =
        .ok (true, [("Z".toList, true)]) := by
      show Data.checkAvailability (GapFill.onsetOpts false true false 1 1) 0 4 exData.waveforms = _
      decide +kernel
    rw [hck]
    have hd : dropFailed [("Z".toList, true)] exData.waveforms = Spec.amplified (fun _ => 1) exData.waveforms := by
      decide +kernel
    simp only
    rw [hd]
    have hr : rows exCfg exTwo exTwoData (Spec.amplified (fun _ => 1) exData.waveforms) =
        [("Z".toList, [1 * 1, 1 * 2, 1, 1 * 3, 1 * 5])] := ex_rows 1 1 exTwoData rfl rfl
    rw [hr, h1]
  have hsp2 : stationPhase exCfg exTwo exTwoData "P".toList exTwoData.waveforms "ST02".toList = .ok none := by
    unfold stationPhase
    have hck : Data.checkAvailability (GapFill.onsetOpts exCfg.allChannels exCfg.allowGaps exCfg.fullTimespan
        (exCfg.count "P".toList) exCfg.sr) exTwoData.start exTwoData.stop
        (exTwoData.waveforms.filter fun t => exTwo.ofStation "ST02".toList t.id) = .ok (false, [("Y".toList, false)]) := by
      show Data.checkAvailability (GapFill.onsetOpts false true false 1 1) 0 4
        (exTwoData.waveforms.filter fun t => exTwo.ofStation "ST02".toList t.id) = _
      decide +kernel
    simp only
    rw [hck]
  unfold calculateOnsets
  have hph : exCfg.phases = ["P".toList] := rfl
  rw [hph]
  unfold phaseLoop
  rw [hpre]
  have hst : exTwoData.stations = ["ST01".toList, "ST02".toList] := rfl
  simp only [hst]
  unfold stationLoop
  rw [hsp]
  unfold stationLoop
  rw [hsp2]
  rfl

end QM
