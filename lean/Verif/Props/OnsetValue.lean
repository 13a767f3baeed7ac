import Verif.Props.ReadOrder
import Verif.Props.StaLta

/-!
# Which onset functions a scan computes, and their values: C165
-/

namespace QM

open QM.CalcOnsets
open QM.Data (Str Trace Sane)

/-! ## Specification -/

/-- The quality criteria asked of a channel of a phase. -/
def Spec.criteria (c : Cfg) (p : Str) : Data.Opts where
  allChannels := c.allChannels
  nChannels := c.count p
  allowGaps := c.allowGaps
  fullTimespan := c.fullTimespan
  checkRate := true
  rate := c.sr
  checkTimes := false

/-- A trace of `w` whose channel meets the criteria. -/
def Spec.Passes (o : Data.Opts) (s e : ℚ) (w : List Trace) (t : Trace) : Prop :=
  Spec.ChannelOK o s e (w.filter fun u => u.id = t.id)

open Classical in
/-- The traces of a station whose channels meet the criteria. -/
noncomputable def Spec.passing (o : Data.Opts) (s e : ℚ) (w : List Trace) : List Trace :=
  w.filter fun t => Spec.Passes o s e w t

/-- A phase is available at a station: one channel meets the criteria or, if all channels are asked for, there is the
expected number of channels and all meet the criteria. -/
def Spec.Available (o : Data.Opts) (s e : ℚ) (w : List Trace) : Prop :=
  if o.allChannels = true then
    (∀ t ∈ w, Spec.Passes o s e w t) ∧ (w.map Trace.id).toFinset.card = o.nChannels
  else ∃ t ∈ w, Spec.Passes o s e w t

/-- The pre-processed traces of a station. -/
def Spec.ofStation (x : Ext) (s : Str) (st : List Trace) : List Trace := st.filter fun t => x.ofStation s t.id

/-- Short-term over long-term average at a sample. -/
noncomputable def Spec.staLta (pos : StaLta.Position) (v : List ℝ) (nsta nlta i : ℕ) : ℝ :=
  match pos with
  | .classic => Spec.classic v nsta nlta i
  | .centred => Spec.centred v nsta nlta i

/-- Number of samples of a window of `w` seconds: both ends count. -/
def Spec.samples (w : ℚ) (rate : ℕ) : ℕ := (pyRound (w * rate) + 1).toNat

/-- The root of the mean square of the STA/LTA ratios of the traces, but at least the smallest value allowed. -/
noncomputable def Spec.onsetAt (c : Cfg) (rate : ℕ) (p : Str) (w : List (List ℚ)) (i : ℕ) : ℝ :=
  max c.minOnset (Real.sqrt ((w.map fun l => Spec.staLta c.pos (c.transform.apply (l.map fun v : ℚ => (v : ℝ)))
    (Spec.samples (c.sta p) rate) (Spec.samples (c.lta p) rate) i ^ 2).sum / w.length))

/-- Every full long-term window of the transformed trace has a positive sum. -/
def Spec.NeverSilent (c : Cfg) (nlta : ℕ) (l : List ℚ) : Prop :=
  ∀ i < l.length, nlta ≤ i + 1 →
    0 < Spec.winSum (c.transform.apply (l.map fun v : ℚ => (v : ℝ))) (i + 1 - nlta) nlta

namespace OnsetValue

theorem criteria_eq (c : Cfg) (p : Str) :
    GapFill.onsetOpts c.allChannels c.allowGaps c.fullTimespan (c.count p) c.sr = Spec.criteria c p := rfl

open Classical in
theorem passing_eq {o : Data.Opts} {s e : ℚ} {w : List Trace} {av : List (Str × Bool)}
    (hmem : ∀ i, i ∈ av.map Prod.fst ↔ ∃ t ∈ w, t.id = i) (hnd : (av.map Prod.fst).Nodup)
    (hok : ∀ a ∈ av, (a.2 = true ↔ Spec.ChannelOK o s e (w.filter fun t => t.id = a.1))) :
    dropFailed av w = Spec.passing o s e w := by
  unfold dropFailed Spec.passing
  apply List.filter_congr
  intro t ht
  rw [Bool.eq_iff_iff, decide_eq_true_eq]
  obtain ⟨⟨j, b⟩, hjb, hj⟩ := List.mem_map.mp ((hmem t.id).2 ⟨t, ht, rfl⟩)
  simp only at hj
  subst hj
  have hiff := hok _ hjb
  unfold Spec.Passes
  simp only at hiff
  rw [← hiff]
  simp only [Bool.not_eq_true', List.any_eq_false, Bool.and_eq_true, decide_eq_true_eq, not_and]
  constructor
  · intro h
    have := h _ hjb rfl
    simpa using this
  · rintro rfl ⟨k, b⟩ hk hkt
    simp only at hkt
    subst hkt
    have := List.inj_on_of_nodup_map hnd hjb hk rfl
    simp only [Prod.mk.injEq, true_and] at this
    simp [← this]

theorem stationPhase_spec (c : Cfg) (hsr : c.sr ≠ 0) (x : Ext) (d : CalcOnsets.Data) (p : Str)
    (hcount : c.allChannels = true → c.count p ≠ 0) (l : List Trace) (hs : ∀ t ∈ l, Sane t) (s : Str)
    (r : Option (List (Str × List ℚ) × List (Option ℝ))) (h : stationPhase c x d p l s = .ok r) :
    (r.isSome ↔ Spec.Available (Spec.criteria c p) d.start d.stop (Spec.ofStation x s l)) ∧
    ∀ rs f, r = some (rs, f) →
      rs = rows c x d (Spec.passing (Spec.criteria c p) d.start d.stop (Spec.ofStation x s l)) ∧ onset c p rs = .ok f := by
  have hs' : ∀ t ∈ Spec.ofStation x s l, Sane t := fun t ht => hs t (List.mem_filter.mp ht).1
  unfold stationPhase at h
  simp only [criteria_eq] at h
  have e : (l.filter fun t => x.ofStation s t.id) = Spec.ofStation x s l := rfl
  rw [e] at h
  generalize Spec.ofStation x s l = w at h hs' ⊢
  by_cases hne : w = []
  · subst hne
    rw [C54_no_data] at h
    simp only [Except.ok.injEq] at h
    subst h
    refine ⟨?_, by simp⟩
    unfold Spec.Available
    by_cases ha : c.allChannels = true
    · have : (Spec.criteria c p).allChannels = true := ha
      rw [if_pos this]
      simp only [Option.isSome_none, Bool.false_eq_true, List.map_nil, List.toFinset_nil, Finset.card_empty, false_iff,
        not_and]
      intro _ h0
      exact hcount ha h0.symm
    · have : ¬ (Spec.criteria c p).allChannels = true := ha
      rw [if_neg this]
      simp
  · obtain ⟨a, av, h1, h2, h3, h4, h5⟩ := C54_availability_iff (Spec.criteria c p) d.start d.stop w hne hs'
      (fun _ => hsr) hcount
    rw [h1] at h
    have hav : a = true ↔ Spec.Available (Spec.criteria c p) d.start d.stop w := h5
    rw [← hav]
    cases a with
    | false =>
      simp only [Except.ok.injEq] at h
      subst h
      exact ⟨by simp, by simp⟩
    | true =>
      simp only at h
      rw [passing_eq h3 h2 h4] at h
      cases ho : onset c p (rows c x d (Spec.passing (Spec.criteria c p) d.start d.stop w)) with
      | error e => rw [ho] at h; simp at h
      | ok f =>
        rw [ho] at h
        simp only [Except.ok.injEq] at h
        subst h
        refine ⟨by simp, ?_⟩
        intro rs f' he
        simp only [Option.some.injEq, Prod.mk.injEq] at he
        obtain ⟨rfl, rfl⟩ := he
        exact ⟨rfl, ho⟩

theorem passing_ne_nil {c : Cfg} {p : Str} (hcount : c.allChannels = true → c.count p ≠ 0) {s e : ℚ} {w : List Trace}
    (h : Spec.Available (Spec.criteria c p) s e w) : Spec.passing (Spec.criteria c p) s e w ≠ [] := by
  have : ∃ t ∈ w, Spec.Passes (Spec.criteria c p) s e w t := by
    unfold Spec.Available at h
    by_cases ha : c.allChannels = true
    · have ha' : (Spec.criteria c p).allChannels = true := ha
      rw [if_pos ha'] at h
      cases w with
      | nil => exact absurd h.2.symm (hcount ha)
      | cons t w => exact ⟨t, by simp, h.1 t (by simp)⟩
    · have ha' : ¬ (Spec.criteria c p).allChannels = true := ha
      rw [if_neg ha'] at h
      exact h
  obtain ⟨t, ht, hp⟩ := this
  intro h0
  have : t ∈ Spec.passing (Spec.criteria c p) s e w := by
    unfold Spec.passing
    rw [List.mem_filter]
    exact ⟨ht, by simpa using hp⟩
  rw [h0] at this
  simp at this

theorem onsetC_length {K : Type} [Field K] [LinearOrder K] [IsStrictOrderedRing K] {pos : StaLta.Position} {v : List K}
    {a b : ℕ} (h1 : 1 ≤ a) (h2 : a ≤ b) {o : List (Option K)} (h : StaLta.onsetC pos v a b = some o) :
    o.length = v.length ∧ b ≤ v.length ∧ (pos = .centred → b + a ≤ v.length) := by
  cases pos with
  | classic =>
    unfold StaLta.onsetC at h
    simp only at h
    by_cases hn : b ≤ v.length
    · rw [StaLta.overlappingC_eq v h1 h2 hn] at h
      injection h with h
      rw [← h]
      exact ⟨by simp, hn, by simp⟩
    · rw [StaLta.overlappingC_short v h1 h2 (by omega)] at h
      simp at h
  | centred =>
    unfold StaLta.onsetC at h
    simp only at h
    by_cases hn : b + a ≤ v.length
    · rw [StaLta.centredC_eq v h1 (by omega) hn] at h
      injection h with h
      rw [← h]
      exact ⟨by simp, by omega, fun _ => hn⟩
    · rw [StaLta.centredC_short v (by omega)] at h
      simp at h

theorem component_value {c : Cfg} (hT : ∀ v, (c.transform.apply v).length = v.length) {a b : ℕ} (h1 : 1 ≤ a) (h2 : a ≤ b)
    {l : List ℚ} {o : List (Option ℝ)} (h : component c a b l = some o) :
    o.length = l.length ∧ (Spec.NeverSilent c b l →
      o = (List.range l.length).map fun i =>
        some (Spec.staLta c.pos (c.transform.apply (l.map fun v : ℚ => (v : ℝ))) a b i)) := by
  unfold component at h
  obtain ⟨k1, k2, k3⟩ := onsetC_length h1 h2 h
  have hl : (c.transform.apply (l.map fun v : ℚ => (v : ℝ))).length = l.length := by rw [hT]; simp
  rw [hl] at k1 k2 k3
  refine ⟨k1, fun hp => ?_⟩
  unfold StaLta.onsetC at h
  cases hpos : c.pos with
  | classic =>
    rw [hpos] at h
    simp only at h
    rw [C33_classic_window_ratio _ a b h1 h2 (by rw [hl]; exact k2)
      (fun i hi hb => hp i (by rw [hl] at hi; exact hi) hb)] at h
    injection h with h
    rw [← h, hl]
    rfl
  | centred =>
    rw [hpos] at h
    simp only at h
    rw [C34_centred_window_ratio _ a b h1 (by omega) (by rw [hl]; exact k3 hpos)
      (fun i hb hi => hp i (by rw [hl] at hi; omega) hb)] at h
    injection h with h
    rw [← h, hl]
    rfl

theorem onset_value {c : Cfg} {rate : ℕ} (hrate : c.sr = rate) {p : Str} (hsta : 0 ≤ c.sta p) (hlta : c.sta p ≤ c.lta p)
    (hT : ∀ v, (c.transform.apply v).length = v.length) {rs : List (Str × List ℚ)} (hne : rs ≠ []) {f : List (Option ℝ)}
    (h : onset c p rs = .ok f) :
    (∀ r ∈ rs, r.2.length = f.length) ∧
    ((∀ r ∈ rs, Spec.NeverSilent c (Spec.samples (c.lta p) rate) r.2) →
      f = (List.range f.length).map fun i => some (Spec.onsetAt c rate p (rs.map Prod.snd) i)) := by
  have hts : ∀ w : ℚ, (Pads.time2sample w c.sr + 1).toNat = Spec.samples w rate := by
    intro w
    unfold Pads.time2sample Spec.samples
    have : pyInt c.sr = rate := by
      rw [hrate, Pads.pyInt_natCast]
    rw [this]
    simp
  unfold onset at h
  rw [hts, hts] at h
  have h1 : 1 ≤ Spec.samples (c.sta p) rate := by
    unfold Spec.samples
    have : pyRound 0 ≤ pyRound (c.sta p * rate) := pyRound_mono (by positivity)
    have h0 : pyRound 0 = 0 := by decide +kernel
    omega
  have h2 : Spec.samples (c.sta p) rate ≤ Spec.samples (c.lta p) rate := by
    unfold Spec.samples
    have : pyRound (c.sta p * rate) ≤ pyRound (c.lta p * rate) :=
      pyRound_mono (mul_le_mul_of_nonneg_right hlta (by positivity))
    omega
  unfold Spec.onsetAt
  generalize Spec.samples (c.sta p) rate = a at h h1 h2 ⊢
  generalize Spec.samples (c.lta p) rate = b at h h2 ⊢
  obtain ⟨a1, a2⟩ := ReadOrder.components_char c a b rs
  by_cases hb : ∃ r ∈ rs, component c a b r.2 = none
  · rw [a1 hb] at h; simp at h
  push Not at hb
  rw [a2 hb] at h
  simp only at h
  by_cases hsl : sameLength (rs.map fun r => (component c a b r.2).getD []) = true
  swap
  · rw [if_neg hsl] at h; simp at h
  rw [if_pos hsl] at h
  injection h with h
  have hlen : ∀ r ∈ rs, ((component c a b r.2).getD []).length = r.2.length := by
    intro r hr
    cases hc : component c a b r.2 with
    | none => exact absurd hc (hb r hr)
    | some o => exact (component_value hT h1 h2 hc).1
  rw [ReadOrder.sameLength_iff] at hsl
  obtain ⟨r0, rest, rfl⟩ := List.exists_cons_of_ne_nil hne
  have hfl : f.length = r0.2.length := by
    rw [← h]
    simp only [List.map_cons, List.headD_cons, List.length_map, List.length_range]
    exact hlen r0 (by simp)
  have hall : ∀ r ∈ r0 :: rest, r.2.length = f.length := by
    intro r hr
    rw [hfl, ← hlen r hr, ← hlen r0 (by simp)]
    exact hsl _ (List.mem_map.mpr ⟨r, hr, rfl⟩) _ (List.mem_map.mpr ⟨r0, by simp, rfl⟩)
  refine ⟨hall, fun hns => ?_⟩
  have hhead : (((r0 :: rest).map fun r => (component c a b r.2).getD []).headD []).length = f.length := by
    rw [hfl]; exact hlen r0 (by simp)
  rw [hhead] at h
  conv_lhs => rw [← h]
  apply List.map_congr_left
  intro i hi
  rw [List.mem_range] at hi
  have hv : (((r0 :: rest).map fun r => (component c a b r.2).getD []).map fun o => o.getD i none) =
      (r0 :: rest).map fun r => some (Spec.staLta c.pos (c.transform.apply (r.2.map fun v : ℚ => (v : ℝ))) a b i) := by
    rw [List.map_map]
    apply List.map_congr_left
    intro r hr
    cases hc : component c a b r.2 with
    | none => exact absurd hc (hb r hr)
    | some o =>
      have := (component_value hT h1 h2 hc).2 (hns r hr)
      simp only [Function.comp_apply, hc, Option.getD_some]
      rw [this, List.getD_eq_getElem?_getD, List.getElem?_map, List.getElem?_range (by rw [hall r hr]; exact hi)]
      rfl
  rw [hv]
  unfold combined
  have hsome : ((r0 :: rest).map fun r => some (Spec.staLta c.pos (c.transform.apply (r.2.map fun v : ℚ => (v : ℝ))) a b i)).all
      Option.isSome = true := by
    rw [List.all_eq_true]
    intro v hv
    obtain ⟨r, _, rfl⟩ := List.mem_map.mp hv
    rfl
  rw [if_pos hsome]
  have hfm : ((r0 :: rest).map fun r => some (Spec.staLta c.pos (c.transform.apply (r.2.map fun v : ℚ => (v : ℝ))) a b i)).filterMap
      id = (r0 :: rest).map fun r => Spec.staLta c.pos (c.transform.apply (r.2.map fun v : ℚ => (v : ℝ))) a b i := by
    rw [List.filterMap_map]
    have : (id ∘ fun r : Str × List ℚ => some (Spec.staLta c.pos (c.transform.apply (r.2.map fun v : ℚ => (v : ℝ))) a b i)) =
        some ∘ fun r => Spec.staLta c.pos (c.transform.apply (r.2.map fun v : ℚ => (v : ℝ))) a b i := rfl
    rw [this, List.filterMap_eq_map]
  rw [hfm]
  unfold Onset.rms
  simp only [List.map_map, List.length_map]
  rfl

theorem rows_plain {c : Cfg} (hgap : c.allowGaps = false) (hfull : c.fullTimespan = true) (x : Ext) (d : CalcOnsets.Data)
    (w : List Trace) : rows c x d w = w.map fun t => (t.id, t.data) := by
  unfold rows
  rw [hgap, hfull]
  rfl

end OnsetValue

open OnsetValue in
/-- **C165**, which onset functions: when the calculation returns, there is exactly one onset function for each phase and
station at which the phase is available, phase by phase and in the order of the stations; and the availability says 1 for
these and 0 for the others. -/
theorem C165_which (c : Cfg) (hsr : c.sr ≠ 0) (hcount : c.allChannels = true → ∀ p ∈ c.phases, c.count p ≠ 0) (x : Ext)
    (d : CalcOnsets.Data) (hn : Spec.PlainNames c.phases d.stations) (st : Str → List Trace)
    (hst : ∀ p ∈ c.phases, preStream c x d p = .ok (st p)) (hs : ∀ p ∈ c.phases, ∀ t ∈ st p, Sane t) (o : Out)
    (h : calculateOnsets c x d = .ok o) :
    (o.onsets.map Prod.fst).Nodup ∧
    (∀ s p, (s, p) ∈ o.onsets.map Prod.fst ↔ p ∈ c.phases ∧ s ∈ d.stations ∧
      Spec.Available (Spec.criteria c p) d.start d.stop (Spec.ofStation x s (st p))) ∧
    (o.onsets.map Prod.fst).Sublist (c.phases.flatMap fun p => d.stations.map fun s => (s, p)) ∧
    ∀ p ∈ c.phases, ∀ s ∈ d.stations, ∀ v, (s ++ '_' :: p, v) ∈ o.availability ↔
      (v = 1 ∧ Spec.Available (Spec.criteria c p) d.start d.stop (Spec.ofStation x s (st p))) ∨
      (v = 0 ∧ ¬ Spec.Available (Spec.criteria c p) d.start d.stop (Spec.ofStation x s (st p))) := by
  obtain ⟨hf, ho, h0, h1⟩ := (calculateOnsets_iff c x d o).1 h
  have hres : ∀ p ∈ c.phases, ∀ s ∈ d.stations, ((res c x d s p).isSome ↔
      Spec.Available (Spec.criteria c p) d.start d.stop (Spec.ofStation x s (st p))) := by
    intro p hp s hsm
    obtain ⟨l, hl, hss⟩ := hf p hp
    rw [hst p hp] at hl
    injection hl with hl
    subst hl
    obtain ⟨r, hr⟩ := hss s hsm
    have e : res c x d s p = r := by unfold res; rw [hst p hp]; simp only; rw [hr]
    rw [e]
    exact (stationPhase_spec c hsr x d p (fun ha => hcount ha p hp) (st p) (hs p hp) s r hr).1
  have hsub : (o.onsets.map Prod.fst).Sublist (c.phases.flatMap fun p => d.stations.map fun s => (s, p)) := by
    rw [ho, final_onsets, List.map_map]
    have : (Prod.fst ∘ fun sp : Str × Str => lab c x d sp.1 sp.2) = id := by funext sp; rfl
    rw [this, List.map_id]
    exact List.filter_sublist
  refine ⟨?_, ?_, hsub, ?_⟩
  · refine hsub.nodup ?_
    rw [List.nodup_flatMap]
    refine ⟨fun p _ => hn.stations.map fun a b hab => (Prod.mk.inj hab).1, ?_⟩
    refine hn.phases.imp ?_
    intro p q hpq
    simp only [Function.onFun, List.disjoint_left, List.mem_map, not_exists, not_and]
    rintro a ⟨s, _, rfl⟩ t _ he
    exact hpq (Prod.mk.inj he).2.symm
  · intro s p
    rw [ho]
    simp only [List.mem_map, Prod.exists, exists_and_right, exists_eq_right]
    constructor
    · rintro ⟨f, hm⟩
      obtain ⟨hp, hsm, r, hr⟩ := (mem_final_onsets c x d s p f).1 hm
      exact ⟨hp, hsm, (hres p hp s hsm).1 (by rw [hr]; rfl)⟩
    · rintro ⟨hp, hsm, ha⟩
      obtain ⟨⟨r, f⟩, hr⟩ := Option.isSome_iff_exists.1 ((hres p hp s hsm).2 ha)
      exact ⟨f, (mem_final_onsets c x d s p f).2 ⟨hp, hsm, r, hr⟩⟩
  · intro p hp s hsm v
    have hk := Compute.nodup_keys hn.phases hn.stations hn.phase hn.station
    have hmem : (s, p) ∈ Compute.allPairs c.phases d.stations := by
      unfold Compute.allPairs
      simp only [List.mem_flatMap, List.mem_map]
      exact ⟨p, hp, s, hsm, rfl⟩
    have hin : (Compute.key s p, avNum c x d s p) ∈ o.availability := by
      rw [ho, final_availability c x d hn]
      exact List.mem_map.mpr ⟨(s, p), hmem, rfl⟩
    have huniq : (s ++ '_' :: p, v) ∈ o.availability ↔ v = avNum c x d s p := by
      constructor
      · intro hv
        rw [ho, final_availability c x d hn] at hv
        obtain ⟨sp, hsp, he⟩ := List.mem_map.mp hv
        obtain ⟨e1, e2⟩ := Prod.mk.inj he
        have : sp = (s, p) := List.inj_on_of_nodup_map hk hsp hmem e1
        subst this
        exact e2.symm
      · rintro rfl
        exact hin
    rw [huniq, ← hres p hp s hsm]
    unfold avNum
    cases (res c x d s p).isSome <;> simp

open OnsetValue in
/-- **C165**, their values, with `full_timespan` and without `allow_gaps`: the onset function of a station and phase has, at
every sample, the root of the mean square of the STA/LTA ratios of the pre-processed data of the channels that meet the
criteria, but at least `min_onset_value`.  Asked: a whole sampling rate, windows with 0 ≤ STA ≤ LTA, a transform that keeps the number of
samples, and no long-term window without signal (C33 and C34 tell what happens there). -/
theorem C165_values (c : Cfg) (rate : ℕ) (hrate : c.sr = rate) (hr0 : 0 < rate)
    (hcount : c.allChannels = true → ∀ p ∈ c.phases, c.count p ≠ 0)
    (hw : ∀ p ∈ c.phases, 0 ≤ c.sta p ∧ c.sta p ≤ c.lta p) (hT : ∀ v, (c.transform.apply v).length = v.length) (x : Ext)
    (d : CalcOnsets.Data) (st : Str → List Trace)
    (hst : ∀ p ∈ c.phases, preStream c x d p = .ok (st p)) (hs : ∀ p ∈ c.phases, ∀ t ∈ st p, Sane t) (o : Out)
    (h : calculateOnsets c x d = .ok o) (s p : Str) (f : List (Option ℝ)) (hf : ((s, p), f) ∈ o.onsets)
    (hgap : c.allowGaps = false) (hfull : c.fullTimespan = true) :
    Spec.passing (Spec.criteria c p) d.start d.stop (Spec.ofStation x s (st p)) ≠ [] ∧
    (∀ t ∈ Spec.passing (Spec.criteria c p) d.start d.stop (Spec.ofStation x s (st p)),
      (t.id, t.data) ∈ o.used ∧ t.data.length = f.length) ∧
    ((∀ t ∈ Spec.passing (Spec.criteria c p) d.start d.stop (Spec.ofStation x s (st p)),
        Spec.NeverSilent c (Spec.samples (c.lta p) rate) t.data) →
      ∀ i < f.length, f[i]? = some (some (Spec.onsetAt c rate p
        ((Spec.passing (Spec.criteria c p) d.start d.stop (Spec.ofStation x s (st p))).map fun t => t.data) i))) := by
  obtain ⟨hfine, ho, h0, h1⟩ := (calculateOnsets_iff c x d o).1 h
  have hf' := hf
  rw [ho] at hf'
  obtain ⟨hp, hsm, rs, hr⟩ := (mem_final_onsets c x d s p f).1 hf'
  obtain ⟨l, hl, hss⟩ := hfine p hp
  rw [hst p hp] at hl
  injection hl with hl
  subst hl
  obtain ⟨r, hr2⟩ := hss s hsm
  have e : res c x d s p = r := by unfold res; rw [hst p hp]; simp only; rw [hr2]
  rw [hr] at e
  have hsr : c.sr ≠ 0 := by rw [hrate]; exact_mod_cast hr0.ne'
  obtain ⟨q1, q2⟩ := stationPhase_spec c hsr x d p (fun ha => hcount ha p hp) (st p) (hs p hp) s r hr2
  obtain ⟨q3, q4⟩ := q2 rs f e.symm
  have hav := q1.1 (by rw [← e]; rfl)
  have hne := passing_ne_nil (fun ha => hcount ha p hp) hav
  rw [rows_plain hgap hfull] at q3
  generalize Spec.passing (Spec.criteria c p) d.start d.stop (Spec.ofStation x s (st p)) = W at hne q3 ⊢
  have hrs : rs ≠ [] := by rw [q3]; simpa using hne
  obtain ⟨v1, v2⟩ := onset_value hrate (hw p hp).1 (hw p hp).2 hT hrs q4
  refine ⟨hne, ?_, ?_⟩
  · intro t ht
    have hm : (t.id, t.data) ∈ rs := by rw [q3]; exact List.mem_map.mpr ⟨t, ht, rfl⟩
    refine ⟨?_, v1 _ hm⟩
    rw [ho]
    simp only [final, List.nil_append, List.mem_flatMap]
    exact ⟨p, hp, s, hsm, by rw [hr]; exact hm⟩
  · intro hns i hi
    have hv := v2 (by
      intro r hr
      rw [q3] at hr
      obtain ⟨t, ht, rfl⟩ := List.mem_map.mp hr
      exact hns t ht)
    have : rs.map Prod.snd = W.map fun t => t.data := by rw [q3, List.map_map]; rfl
    rw [this] at hv
    rw [hv, List.getElem?_map, List.getElem?_range (by simpa using hi)]
    rfl

namespace OnsetValue

theorem onsetAt_perm (c : Cfg) (rate : ℕ) (p : Str) {w w' : List (List ℚ)} (h : w.Perm w') (i : ℕ) :
    Spec.onsetAt c rate p w' i = Spec.onsetAt c rate p w i := by
  unfold Spec.onsetAt
  rw [(h.map _).sum_eq, h.length_eq]

end OnsetValue

open OnsetValue in
/-- **C165**, their values, with `allow_gaps` or without `full_timespan`: there is one recording of the whole window for each
channel that meets the criteria; it holds every sample of the channel at its own time, tapered, and the fill value
elsewhere; and the onset function is computed from these recordings as in `C165_values`.  Asked in addition: the traces
lie on the samples of the window (`Spec.OnWindow`). -/
theorem C165_values_gaps (c : Cfg) (rate : ℕ) (hrate : c.sr = rate) (hr0 : 0 < rate) (hr5 : rate < 100000)
    (hcount : c.allChannels = true → ∀ p ∈ c.phases, c.count p ≠ 0)
    (hw : ∀ p ∈ c.phases, 0 ≤ c.sta p ∧ c.sta p ≤ c.lta p) (hT : ∀ v, (c.transform.apply v).length = v.length) (x : Ext)
    (d : CalcOnsets.Data) (st : Str → List Trace)
    (hst : ∀ p ∈ c.phases, preStream c x d p = .ok (st p)) (hs : ∀ p ∈ c.phases, ∀ t ∈ st p, Sane t) (o : Out)
    (h : calculateOnsets c x d = .ok o) (s p : Str) (f : List (Option ℝ)) (hf : ((s, p), f) ∈ o.onsets)
    (hopt : c.allowGaps = true ∨ c.fullTimespan = false) (W : List Trace)
    (hW : W = Spec.passing (Spec.criteria c p) d.start d.stop (Spec.ofStation x s (st p)))
    (N : ℕ) (hstop : d.stop = d.start + (N - 1) / rate) (first : Trace → ℕ)
    (hon : ∀ i ∈ W.map Trace.id, ∃ q, q.Perm (W.filter fun t => t.id = i) ∧ Spec.OnWindow d.start rate N first q) :
    W ≠ [] ∧ f.length = N ∧ ∃ rec : Str → List ℚ,
      (∀ i ∈ W.map Trace.id, (i, rec i) ∈ o.used ∧ (rec i).length = N ∧
        (∀ t ∈ W, t.id = i → ∀ j v, t.data[j]? = some v → (rec i)[first t + j]? = some (x.weight t.data.length j * v)) ∧
        (∀ k < N, (∀ t ∈ W, t.id = i → ∀ j < t.data.length, k ≠ first t + j) → (rec i)[k]? = some x.fill)) ∧
      ((∀ i ∈ W.map Trace.id, Spec.NeverSilent c (Spec.samples (c.lta p) rate) (rec i)) →
        ∀ k < N, f[k]? = some (some (Spec.onsetAt c rate p ((W.map Trace.id).dedup.map rec) k))) := by
  obtain ⟨hfine, ho, h0, h1⟩ := (calculateOnsets_iff c x d o).1 h
  have hf' := hf
  rw [ho] at hf'
  obtain ⟨hp, hsm, rs, hr⟩ := (mem_final_onsets c x d s p f).1 hf'
  obtain ⟨l, hl, hss⟩ := hfine p hp
  rw [hst p hp] at hl
  injection hl with hl
  subst hl
  obtain ⟨r, hr2⟩ := hss s hsm
  have e : res c x d s p = r := by unfold res; rw [hst p hp]; simp only; rw [hr2]
  rw [hr] at e
  have hsr : c.sr ≠ 0 := by rw [hrate]; exact_mod_cast hr0.ne'
  obtain ⟨q1, q2⟩ := stationPhase_spec c hsr x d p (fun ha => hcount ha p hp) (st p) (hs p hp) s r hr2
  obtain ⟨q3, q4⟩ := q2 rs f e.symm
  have hav := q1.1 (by rw [← e]; rfl)
  have hne := passing_ne_nil (fun ha => hcount ha p hp) hav
  rw [← hW] at hne q3
  have hmemids : ∀ i, i ∈ Data.ids W ↔ i ∈ W.map Trace.id := by
    intro i
    rw [mem_ids, List.mem_map]
  -- one recording per channel
  have hrec : ∀ i, ∃ v : List ℚ, i ∈ W.map Trace.id →
      GapFill.prepare c.allowGaps c.fullTimespan x.weight x.fill d.start d.stop (W.filter fun t => t.id = i) = [v] ∧
      v.length = N ∧
      (∀ t ∈ W.filter (fun t => t.id = i), ∀ j a, t.data[j]? = some a → v[first t + j]? = some (x.weight t.data.length j * a)) ∧
      (∀ k < N, (∀ t ∈ W.filter (fun t => t.id = i), ∀ j < t.data.length, k ≠ first t + j) → v[k]? = some x.fill) := by
    intro i
    by_cases hi : i ∈ W.map Trace.id
    · obtain ⟨q, hq, hqw⟩ := hon i hi
      have hqne : q ≠ [] := by
        rintro rfl
        have := List.nil_perm.mp hq
        obtain ⟨t, ht, rfl⟩ := List.mem_map.mp hi
        have hm : t ∈ W.filter fun u => u.id = t.id := List.mem_filter.mpr ⟨ht, by simp⟩
        rw [this] at hm
        simp at hm
      obtain ⟨v, hv⟩ := C125_filled d.start rate x.fill (by exact_mod_cast hr0) (by exact_mod_cast hr5) N first q
        (W.filter fun t => t.id = i) hqne hqw hq x.weight c.allowGaps c.fullTimespan hopt
      rw [← hstop] at hv
      exact ⟨v, fun _ => hv⟩
    · exact ⟨[], fun h => absurd h hi⟩
  choose rec hrec using hrec
  have hrows : rs = (Data.ids W).map fun i => (i, rec i) := by
    rw [q3]
    unfold rows
    rw [if_pos (by rcases hopt with h | h <;> simp [h])]
    have : ∀ l : List Str, (∀ i ∈ l, i ∈ W.map Trace.id) → (l.flatMap fun i =>
        (GapFill.prepare c.allowGaps c.fullTimespan x.weight x.fill d.start d.stop
          (W.filter fun t => t.id = i)).map fun r => (i, r)) = l.map fun i => (i, rec i) := by
      intro l hl
      induction l with
      | nil => rfl
      | cons i l ih =>
        rw [List.flatMap_cons, ih fun j hj => hl j (by simp [hj]), (hrec i (hl i (by simp))).1]
        rfl
    exact this _ fun i hi => (hmemids i).1 hi
  have hids : Data.ids W ≠ [] := by
    obtain ⟨t, W', rfl⟩ := List.exists_cons_of_ne_nil hne
    intro h0
    have := (hmemids t.id).2 (by simp)
    rw [h0] at this
    simp at this
  have hrs : rs ≠ [] := by rw [hrows]; simpa using hids
  obtain ⟨v1, v2⟩ := onset_value hrate (hw p hp).1 (hw p hp).2 hT hrs q4
  have hmem : ∀ i ∈ W.map Trace.id, (i, rec i) ∈ rs := by
    intro i hi
    rw [hrows]
    exact List.mem_map.mpr ⟨i, (hmemids i).2 hi, rfl⟩
  have hN : f.length = N := by
    obtain ⟨t, W', rfl⟩ := List.exists_cons_of_ne_nil hne
    have := v1 _ (hmem t.id (by simp))
    rw [← this]
    exact (hrec t.id (by simp)).2.1
  refine ⟨hne, hN, rec, ?_, ?_⟩
  · intro i hi
    obtain ⟨k1, k2, k3, k4⟩ := hrec i hi
    refine ⟨?_, k2, ?_, ?_⟩
    · rw [ho]
      simp only [final, List.nil_append, List.mem_flatMap]
      exact ⟨p, hp, s, hsm, by rw [hr]; exact hmem i hi⟩
    · intro t ht hti j v hv
      exact k3 t (List.mem_filter.mpr ⟨ht, by simpa using hti⟩) j v hv
    · intro k hk hno
      refine k4 k hk ?_
      intro t ht
      obtain ⟨a, b⟩ := List.mem_filter.mp ht
      exact hno t a (by simpa using b)
  · intro hns k hk
    have hv := v2 (by
      intro r hr
      rw [hrows] at hr
      obtain ⟨i, hi, rfl⟩ := List.mem_map.mp hr
      exact hns i ((hmemids i).1 hi))
    have hperm : ((W.map Trace.id).dedup.map rec).Perm (rs.map Prod.snd) := by
      rw [hrows, List.map_map]
      have : (Prod.snd ∘ fun i : Str => (i, rec i)) = rec := rfl
      rw [this]
      exact (List.perm_insertionSort _ _).symm.map rec
    rw [hv, List.getElem?_map, List.getElem?_range (by simpa [hN] using hk), Option.map_some,
      onsetAt_perm c rate p hperm]

/-! ## Cases -/

namespace OnsetValue

open OnsetGain

/-- The settings of `OnsetGain.exCfg` without gap filling. -/
noncomputable def plainCfg : Cfg := { exCfg with allowGaps := false, fullTimespan := true }

/-- Four seconds of one channel. -/
def plainData : CalcOnsets.Data := ⟨[⟨"Z".toList, 0, 1, [1, 2, 3, 5]⟩], ["ST01".toList], false, none, 0, 3⟩

theorem plain_pre : preStream plainCfg (exExt 1) plainData "P".toList = .ok plainData.waveforms := by
  unfold preStream
  have h : Filters.preProcess (exExt 1).dsp ((exExt 1).trim plainData.start plainData.stop) plainCfg.sr plainData.resample
      plainData.upfactor (plainCfg.low "P".toList) (plainCfg.high "P".toList)
      ((plainData.waveforms.filter fun t => plainCfg.chan "P".toList t.id).map toR) =
      .ok (plainData.waveforms.map fun t => (toR t, .bandpass (1 / 5) (4 / 5))) := by
    show Filters.preProcess ⟨fun _ b => b, fun _ b => b⟩ (fun b => some b) 1 false none (1 / 10) (2 / 5)
      (plainData.waveforms.map toR) = _
    decide +kernel
  rw [h]
  rfl

theorem plain_ok : ∃ f, calculateOnsets plainCfg (exExt 1) plainData =
    .ok ⟨[("ST01_P".toList, 1)], [(("ST01".toList, "P".toList), f)], [("Z".toList, [1, 2, 3, 5])]⟩ := by
  have hc : ∃ o, component plainCfg 1 1 [1, 2, 3, 5] = some o := by
    have e : component plainCfg 1 1 [1, 2, 3, 5] =
        StaLta.centredC (plainCfg.transform.apply (([1, 2, 3, 5] : List ℚ).map fun v : ℚ => (v : ℝ))) 1 1 := rfl
    rw [e, StaLta.centredC_eq _ (le_refl 1) (le_refl 1) (by simp [plainCfg, exCfg, StaLta.Transform.apply])]
    exact ⟨_, rfl⟩
  obtain ⟨o, hc⟩ := hc
  have hw : (Pads.time2sample (plainCfg.sta "P".toList) plainCfg.sr + 1).toNat = 1 := by
    show (Pads.time2sample 0 1 + 1).toNat = 1
    decide +kernel
  have hw2 : (Pads.time2sample (plainCfg.lta "P".toList) plainCfg.sr + 1).toNat = 1 := by
    show (Pads.time2sample 0 1 + 1).toNat = 1
    decide +kernel
  have hon : ∃ f, onset plainCfg "P".toList [("Z".toList, [1, 2, 3, 5])] = .ok f := by
    unfold onset
    rw [hw, hw2]
    have : components plainCfg 1 1 [("Z".toList, [1, 2, 3, 5])] = some [o] := by
      unfold components
      simp only [hc, components]
    rw [this]
    exact ⟨_, rfl⟩
  obtain ⟨f, hon⟩ := hon
  refine ⟨f, ?_⟩
  have hsp : stationPhase plainCfg (exExt 1) plainData "P".toList plainData.waveforms "ST01".toList =
      .ok (some ([("Z".toList, [1, 2, 3, 5])], f)) := by
    unfold stationPhase
    have hfil : (plainData.waveforms.filter fun t => (exExt 1).ofStation "ST01".toList t.id) = plainData.waveforms := rfl
    simp only [hfil]
    have hck : Data.checkAvailability (GapFill.onsetOpts plainCfg.allChannels plainCfg.allowGaps plainCfg.fullTimespan
        (plainCfg.count "P".toList) plainCfg.sr) plainData.start plainData.stop plainData.waveforms =
        .ok (true, [("Z".toList, true)]) := by
      show Data.checkAvailability (GapFill.onsetOpts false false true 1 1) 0 3 plainData.waveforms = _
      decide +kernel
    rw [hck]
    have hd : dropFailed [("Z".toList, true)] plainData.waveforms = plainData.waveforms := by decide +kernel
    simp only
    rw [hd, rows_plain rfl rfl]
    have : (plainData.waveforms.map fun t => (t.id, t.data)) = [("Z".toList, [1, 2, 3, 5])] := rfl
    rw [this, hon]
  unfold calculateOnsets
  have hph : plainCfg.phases = ["P".toList] := rfl
  have hst : plainData.stations = ["ST01".toList] := rfl
  rw [hph]
  simp only [phaseLoop, plain_pre, hst, stationLoop, hsp]
  rfl

theorem plain_sane : ∀ t ∈ plainData.waveforms, Sane t := by
  intro t ht
  simp only [plainData, List.mem_cons, List.not_mem_nil, or_false] at ht
  subst ht
  exact ⟨by simp, by norm_num, by norm_num⟩

end OnsetValue

open OnsetValue OnsetGain in
/-- A case of `C165_which` and `C165_values`: one channel of four samples; nothing is silent. -/
example : ∃ o f, calculateOnsets plainCfg (exExt 1) plainData = .ok o ∧ (("ST01".toList, "P".toList), f) ∈ o.onsets ∧
    plainCfg.sr = (1 : ℕ) ∧ Spec.PlainNames plainCfg.phases plainData.stations ∧
    (∀ p ∈ plainCfg.phases, preStream plainCfg (exExt 1) plainData p = .ok plainData.waveforms) ∧
    (∀ t ∈ plainData.waveforms, Sane t) ∧ (∀ p, 0 ≤ plainCfg.sta p ∧ plainCfg.sta p ≤ plainCfg.lta p) ∧
    (∀ v, (plainCfg.transform.apply v).length = v.length) ∧
    (∀ t ∈ plainData.waveforms, Spec.NeverSilent plainCfg (Spec.samples (plainCfg.lta "P".toList) 1) t.data) := by
  obtain ⟨f, hf⟩ := plain_ok
  refine ⟨_, f, hf, by simp, by simp [plainCfg, exCfg], ⟨?_, ?_, ?_, ?_⟩, ?_, plain_sane, ?_, ?_, ?_⟩
  · simp [plainCfg, exCfg]
  · simp [plainData]
  · simp [plainCfg, exCfg]
  · simp [plainData]
  · intro p hp
    have hph : plainCfg.phases = ["P".toList] := rfl
    rw [hph] at hp
    rw [List.mem_singleton.mp hp]
    exact plain_pre
  · intro p; simp [plainCfg, exCfg]
  · intro v; simp [plainCfg, exCfg, StaLta.Transform.apply]
  · intro t ht
    simp only [plainData, List.mem_cons, List.not_mem_nil, or_false] at ht
    subst ht
    have hs : Spec.samples (plainCfg.lta "P".toList) 1 = 1 := by
      show Spec.samples 0 1 = 1
      decide +kernel
    rw [hs]
    intro i hi _
    simp only [List.length_cons, List.length_nil] at hi
    have : i = 0 ∨ i = 1 ∨ i = 2 ∨ i = 3 := by omega
    rcases this with rfl | rfl | rfl | rfl <;>
      norm_num [Spec.winSum, plainCfg, exCfg, StaLta.Transform.apply]

open OnsetValue OnsetGain BadChannels in
/-- A case of `C165_values_gaps`: `BadChannels.exBad`, a channel with a gap and a flat one; all traces lie on the samples of
the window of five samples. -/
example : exCfg.allowGaps = true ∧ exBad.stop = exBad.start + ((5 : ℕ) - 1) / (1 : ℕ) ∧
    ∀ W, W = Spec.passing (Spec.criteria exCfg "P".toList) exBad.start exBad.stop
        (Spec.ofStation (exExt 1) "ST01".toList exBad.waveforms) →
      ∀ i ∈ W.map Trace.id, ∃ q, q.Perm (W.filter fun t => t.id = i) ∧
        Spec.OnWindow exBad.start (1 : ℕ) 5 (fun t => t.start.floor.toNat) q := by
  refine ⟨rfl, by simp [exBad, exData]; norm_num, ?_⟩
  intro W hW i _
  have hsub : W.Sublist exBad.waveforms := by
    rw [hW]
    unfold Spec.passing Spec.ofStation
    exact List.filter_sublist.trans List.filter_sublist
  have hmem : ∀ t ∈ W.filter (fun t => t.id = i), t = exA ∨ t = exB ∨ t = ⟨"Y".toList, 0, 1, [7, 7, 7, 7, 7]⟩ := by
    intro t ht
    have := hsub.subset (List.mem_filter.mp ht).1
    simpa [exBad] using this
  refine ⟨W.filter fun t => t.id = i, List.Perm.refl _, ⟨?_, ?_, ?_, ?_, ?_⟩⟩
  · intro t ht
    rcases hmem t ht with rfl | rfl | rfl <;> simp [exA, exB]
  · intro t ht
    rcases hmem t ht with rfl | rfl | rfl <;> simp [exA, exB]
  · intro t ht
    rcases hmem t ht with rfl | rfl | rfl <;> simp [exA, exB, exBad, exData] <;> decide +kernel
  · intro t ht
    rcases hmem t ht with rfl | rfl | rfl <;> decide +kernel
  · refine List.Pairwise.sublist (hsub.filter _) ?_
    by_cases hz : i = "Z".toList
    · subst hz
      have : (exBad.waveforms.filter fun t => t.id = "Z".toList) = [exA, exB] := by decide +kernel
      rw [this]
      simp only [List.pairwise_cons, List.mem_singleton, forall_eq, List.not_mem_nil, false_implies, implies_true,
        List.Pairwise.nil, and_true]
      decide +kernel
    · by_cases hy : i = "Y".toList
      · subst hy
        have : (exBad.waveforms.filter fun t => t.id = "Y".toList) = [⟨"Y".toList, 0, 1, [7, 7, 7, 7, 7]⟩] := by decide +kernel
        rw [this]
        exact List.pairwise_singleton _ _
      · have : (exBad.waveforms.filter fun t => t.id = i) = [] := by
          rw [List.filter_eq_nil_iff]
          intro t ht
          simp only [exBad, List.mem_cons, List.not_mem_nil, or_false] at ht
          rw [decide_eq_true_eq]
          rcases ht with rfl | rfl | rfl
          · exact fun h => hz h.symm
          · exact fun h => hz h.symm
          · exact fun h => hy h.symm
        rw [this]
        exact List.Pairwise.nil

end QM
