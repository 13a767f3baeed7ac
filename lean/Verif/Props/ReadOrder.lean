import Verif.Props.BadChannels

/-!
# The order in which waveform files are read does not matter: C164
-/

namespace QM

open QM.CalcOnsets
open QM.Data (Str Trace Sane)
open QM.Util (RTr Dsp decimate upsampleRate resampleStep resample fMod)

namespace ReadOrder

section
variable {α : Type} [DecidableEq α]

/-- What becomes of a trace; `none` = refused. -/
def conv (D : Dsp α) (sr : ℚ) (rs : Bool) (up : Option ℕ) (t : RTr α) : Option (RTr α) :=
  if sr = t.rate then some t
  else if fMod t.rate sr = 0 then some (decimate D sr t)
  else
    match rs, up with
    | true, some u =>
      if fMod (pyInt (t.rate * u)) sr ≠ 0 then none else some (decimate D sr (upsampleRate D u t))
    | _, _ => some t

theorem step_conv (D : Dsp α) (sr : ℚ) (rs : Bool) (up : Option ℕ) (t : RTr α) (st rest : List (RTr α))
    (h : st.Perm (t :: rest)) :
    (conv D sr rs up t = none → resampleStep D sr rs up st t = none) ∧
    (∀ u, conv D sr rs up t = some u → ∃ st', resampleStep D sr rs up st t = some st' ∧ st'.Perm (rest ++ [u])) := by
  have same : st.Perm (rest ++ [t]) := h.trans (List.perm_append_singleton t rest).symm
  have er : ∀ u, (st.erase t ++ [u]).Perm (rest ++ [u]) := by
    intro u
    apply List.Perm.append_right
    have := h.erase t
    rwa [List.erase_cons_head] at this
  unfold conv resampleStep
  by_cases h1 : sr = t.rate
  · rw [if_pos h1, if_pos h1]
    exact ⟨by simp, fun u hu => by injection hu with hu; subst hu; exact ⟨st, rfl, same⟩⟩
  rw [if_neg h1, if_neg h1]
  by_cases h2 : fMod t.rate sr = 0
  · rw [if_pos h2, if_pos h2]
    exact ⟨by simp, fun u hu => by injection hu with hu; subst hu; exact ⟨_, rfl, er _⟩⟩
  rw [if_neg h2, if_neg h2]
  cases rs with
  | false => exact ⟨by simp, fun u hu => by injection hu with hu; subst hu; exact ⟨st, rfl, same⟩⟩
  | true =>
    cases up with
    | none => exact ⟨by simp, fun u hu => by injection hu with hu; subst hu; exact ⟨st, rfl, same⟩⟩
    | some v =>
      simp only
      by_cases h3 : fMod (pyInt (t.rate * v)) sr ≠ 0
      · rw [if_pos h3, if_pos h3]; exact ⟨fun _ => rfl, by simp⟩
      · rw [if_neg h3, if_neg h3]
        exact ⟨by simp, fun u hu => by injection hu with hu; subst hu; exact ⟨_, rfl, er _⟩⟩

theorem fold_conv (D : Dsp α) (sr : ℚ) (rs : Bool) (up : Option ℕ) (l : List (RTr α)) :
    ∀ st done : List (RTr α), st.Perm (l ++ done) →
    ((∃ t ∈ l, conv D sr rs up t = none) → l.foldlM (fun st tr => resampleStep D sr rs up st tr) st = none) ∧
    ((∀ t ∈ l, conv D sr rs up t ≠ none) → ∃ st', l.foldlM (fun st tr => resampleStep D sr rs up st tr) st = some st' ∧
      st'.Perm (l.filterMap (conv D sr rs up) ++ done)) := by
  induction l with
  | nil => intro st done h; exact ⟨by simp, fun _ => ⟨st, rfl, by simpa using h⟩⟩
  | cons t l ih =>
    intro st done h
    obtain ⟨s1, s2⟩ := step_conv D sr rs up t st (l ++ done) h
    cases hc : conv D sr rs up t with
    | none =>
      refine ⟨fun _ => ?_, fun h => absurd hc (h t (by simp))⟩
      rw [List.foldlM_cons, s1 hc]
      rfl
    | some u =>
      obtain ⟨st1, h1, h2⟩ := s2 u hc
      obtain ⟨i1, i2⟩ := ih st1 (done ++ [u]) (by rw [← List.append_assoc]; exact h2)
      constructor
      · rintro ⟨t', ht', hn⟩
        rw [List.foldlM_cons, h1]
        apply i1
        rcases List.mem_cons.mp ht' with rfl | ht'
        · rw [hc] at hn; simp at hn
        · exact ⟨t', ht', hn⟩
      · intro hall
        obtain ⟨st', e1, e2⟩ := i2 fun t' ht' => hall t' (by simp [ht'])
        refine ⟨st', by rw [List.foldlM_cons, h1]; exact e1, ?_⟩
        rw [List.filterMap_cons_some hc]
        refine e2.trans ?_
        rw [List.cons_append, ← List.append_assoc]
        exact List.perm_append_singleton u _

theorem resample_perm (D : Dsp α) (trim : α → Option α) (sr : ℚ) (rs : Bool) (up : Option ℕ) {l l' : List (RTr α)}
    (h : l.Perm l') :
    (resample D trim sr rs up l = none → resample D trim sr rs up l' = none) ∧
    (∀ st, resample D trim sr rs up l = some st → ∃ st', resample D trim sr rs up l' = some st' ∧ st'.Perm st) := by
  obtain ⟨a1, a2⟩ := fold_conv D sr rs up l l [] (by simp)
  obtain ⟨b1, b2⟩ := fold_conv D sr rs up l' l' [] (by simp)
  unfold resample
  by_cases hb : ∃ t ∈ l, conv D sr rs up t = none
  · rw [a1 hb]
    have hb' : ∃ t ∈ l', conv D sr rs up t = none := by
      obtain ⟨t, ht, hn⟩ := hb; exact ⟨t, h.mem_iff.1 ht, hn⟩
    rw [b1 hb']
    exact ⟨fun _ => rfl, by simp⟩
  · push Not at hb
    obtain ⟨s, hs, ps⟩ := a2 hb
    obtain ⟨s', hs', ps'⟩ := b2 fun t ht => hb t (h.mem_iff.2 ht)
    rw [hs, hs']
    refine ⟨by simp, fun st hst => ?_⟩
    injection hst with hst
    refine ⟨_, rfl, ?_⟩
    rw [← hst]
    apply List.Perm.filterMap
    rw [List.append_nil] at ps ps'
    exact ps'.trans ((h.symm.filterMap _).trans ps.symm)

omit [DecidableEq α] in
theorem bandpass_err {low high df : ℚ} {e : Filters.Err} (h : Filters.obspyBandpass low high df = .error e) :
    e = .valueError := by
  have hi : ∀ d : Filters.Design, ∀ e, Filters.iirfilter d = .error e → e = .valueError := by
    intro d e he
    cases d <;> unfold Filters.iirfilter at he <;> simp only at he <;> split at he <;> simp_all
  have hh : ∀ e, Filters.obspyHighpass low df = .error e → e = .valueError := by
    intro e he
    unfold Filters.obspyHighpass at he
    simp only at he
    split at he
    · injection he with he; exact he.symm
    · exact hi _ _ he
  unfold Filters.obspyBandpass at h
  simp only at h
  split at h
  · exact hh _ h
  · split at h
    · injection h with h; exact h.symm
    · exact hi _ _ h

omit [DecidableEq α] in
theorem filterAll_char (low high : ℚ) (l : List (RTr α)) :
    ((∃ t ∈ l, ∃ e, Filters.obspyBandpass low high t.rate = .error e) → Filters.filterAll low high l = .error .valueError) ∧
    ((∀ t ∈ l, ∀ e, Filters.obspyBandpass low high t.rate ≠ .error e) → Filters.filterAll low high l =
      .ok (l.map fun t => (t, match Filters.obspyBandpass low high t.rate with | .ok d => d | .error _ => .highpass 0))) := by
  induction l with
  | nil => exact ⟨by simp, fun _ => rfl⟩
  | cons t l ih =>
    cases hb : Filters.obspyBandpass low high t.rate with
    | error e =>
      have := bandpass_err hb
      subst this
      refine ⟨fun _ => by unfold Filters.filterAll; rw [hb], fun h => absurd hb (h t (by simp) _)⟩
    | ok d =>
      constructor
      · rintro ⟨t', ht', e, he⟩
        unfold Filters.filterAll
        rw [hb]
        rcases List.mem_cons.mp ht' with rfl | ht'
        · rw [hb] at he; simp at he
        · rw [ih.1 ⟨t', ht', e, he⟩]
      · intro h
        unfold Filters.filterAll
        rw [hb, ih.2 fun t' ht' => h t' (by simp [ht'])]
        simp only [List.map_cons, hb]

theorem preProcess_perm (D : Dsp α) (trim : α → Option α) (sr : ℚ) (rs : Bool) (up : Option ℕ) (low high : ℚ)
    {l l' : List (RTr α)} (h : l.Perm l') :
    (∀ e, Filters.preProcess D trim sr rs up low high l = .error e →
      Filters.preProcess D trim sr rs up low high l' = .error e) ∧
    (∀ out, Filters.preProcess D trim sr rs up low high l = .ok out →
      ∃ out', Filters.preProcess D trim sr rs up low high l' = .ok out' ∧ out'.Perm out) := by
  obtain ⟨a, b⟩ := resample_perm D trim sr rs up h
  unfold Filters.preProcess
  cases hr : resample D trim sr rs up l with
  | none => rw [a hr]; exact ⟨fun e he => he, by simp⟩
  | some st =>
    obtain ⟨st', hr', hp⟩ := b st hr
    rw [hr']
    simp only
    by_cases hn : high ≥ 1 / 2 * sr
    · rw [if_pos hn, if_pos hn]; exact ⟨fun e he => he, by simp⟩
    rw [if_neg hn, if_neg hn]
    obtain ⟨c1, c2⟩ := filterAll_char low high st
    obtain ⟨d1, d2⟩ := filterAll_char low high st'
    by_cases hb : ∃ t ∈ st, ∃ e, Filters.obspyBandpass low high t.rate = .error e
    · rw [c1 hb]
      have hb' : ∃ t ∈ st', ∃ e, Filters.obspyBandpass low high t.rate = .error e := by
        obtain ⟨t, ht, he⟩ := hb; exact ⟨t, hp.mem_iff.2 ht, he⟩
      rw [d1 hb']
      exact ⟨fun e he => he, by simp⟩
    · push Not at hb
      rw [c2 hb, d2 fun t ht => hb t (hp.mem_iff.1 ht)]
      refine ⟨by simp, fun out ho => ⟨_, rfl, ?_⟩⟩
      injection ho with ho
      rw [← ho]
      exact hp.map _

end

theorem preStream_perm (c : Cfg) (x : Ext) (d : CalcOnsets.Data) {ws : List Trace} (h : d.waveforms.Perm ws) (p : Str) :
    (∀ e, preStream c x d p = .error e → preStream c x { d with waveforms := ws } p = .error e) ∧
    (∀ l, preStream c x d p = .ok l → ∃ l', preStream c x { d with waveforms := ws } p = .ok l' ∧ l'.Perm l) := by
  obtain ⟨a, b⟩ := preProcess_perm x.dsp (x.trim d.start d.stop) c.sr d.resample d.upfactor (c.low p) (c.high p)
    ((h.filter fun t => c.chan p t.id).map toR)
  unfold preStream
  cases hp : Filters.preProcess x.dsp (x.trim d.start d.stop) c.sr d.resample d.upfactor (c.low p) (c.high p)
      ((d.waveforms.filter fun t => c.chan p t.id).map toR) with
  | error e => rw [a e hp]; exact ⟨fun e he => he, by simp⟩
  | ok out =>
    obtain ⟨out', h1, h2⟩ := b out hp
    rw [h1]
    refine ⟨by simp, fun l hl => ⟨_, rfl, ?_⟩⟩
    injection hl with hl
    rw [← hl]
    exact h2.map _

/-! ## The checks -/

theorem channelOK_perm {o : Data.Opts} {s e : ℚ} {w w' : List Trace} (h : w.Perm w') (hk : Spec.ChannelOK o s e w) :
    Spec.ChannelOK o s e w' := by
  refine ⟨fun t ht => hk.notFlat t (h.mem_iff.2 ht), ?_, ?_, fun hr t ht => hk.rate hr t (h.mem_iff.2 ht), ?_, ?_⟩
  · obtain ⟨q, hq, hc⟩ := hk.overlap; exact ⟨q, hq.trans h, hc⟩
  · intro hg; obtain ⟨q, hq, hc⟩ := hk.gap hg; exact ⟨q, hq.trans h, hc⟩
  · intro hf
    obtain ⟨t, rfl, ht⟩ := hk.span hf
    exact ⟨t, List.perm_singleton.mp h.symm, ht⟩
  · intro hf
    obtain ⟨t, rfl, ht⟩ := hk.times hf
    exact ⟨t, List.perm_singleton.mp h.symm, ht⟩

theorem checkId_perm (o : Data.Opts) (hr : o.checkRate = true → o.rate ≠ 0) (s e : ℚ) {w w' : List Trace} (h : w.Perm w')
    (hs : ∀ t ∈ w, Sane t) : Data.checkId o s e w' = Data.checkId o s e w := by
  by_cases hne : w = []
  · subst hne; rw [List.nil_perm.mp h]
  have hne' : w' ≠ [] := by rintro rfl; exact hne (List.perm_nil.mp h)
  obtain ⟨b, h1, h2⟩ := C54_channel_iff o s e w hne hs hr
  obtain ⟨b', h1', h2'⟩ := C54_channel_iff o s e w' hne' (fun t ht => hs t (h.mem_iff.2 ht)) hr
  rw [h1, h1']
  congr 1
  rw [Bool.eq_iff_iff, h2, h2']
  exact ⟨channelOK_perm h.symm, channelOK_perm h⟩

theorem ids_perm {w w' : List Trace} (h : w.Perm w') : Data.ids w' = Data.ids w := by
  have hs : ∀ st : List Trace, (Data.ids st).Pairwise (· ≤ ·) := fun st => List.pairwise_insertionSort _ _
  apply List.Perm.eq_of_pairwise (le := (· ≤ ·)) (fun a b _ _ h1 h2 => List.le_antisymm h1 h2) (hs _) (hs _)
  rw [List.perm_ext_iff_of_nodup (ids_nodup _) (ids_nodup _)]
  intro j
  rw [mem_ids, mem_ids]
  constructor
  · rintro ⟨t, h1, h2⟩; exact ⟨t, h.mem_iff.2 h1, h2⟩
  · rintro ⟨t, h1, h2⟩; exact ⟨t, h.mem_iff.1 h1, h2⟩

theorem checkAvailability_perm (o : Data.Opts) (hr : o.checkRate = true → o.rate ≠ 0) (s e : ℚ) {w w' : List Trace}
    (h : w.Perm w') (hs : ∀ t ∈ w, Sane t) : Data.checkAvailability o s e w' = Data.checkAvailability o s e w := by
  have hids : ∀ is, Data.checkIds o s e w' is = Data.checkIds o s e w is := by
    intro is
    induction is with
    | nil => rfl
    | cons i is ih =>
      unfold Data.checkIds
      rw [ih, checkId_perm o hr s e (h.filter fun t => t.id = i) fun t ht => hs t (List.mem_filter.mp ht).1]
  unfold Data.checkAvailability
  rw [hids, ids_perm h]
  by_cases hne : w = []
  · subst hne; rw [List.nil_perm.mp h]
  · rw [if_neg hne, if_neg (by rintro rfl; exact hne (List.perm_nil.mp h))]

/-! ## Rows and onsets -/

theorem prepare_perm (ag ft : Bool) (hg : (ag || !ft) = true) (wt : ℕ → ℕ → ℚ) (fill s e : ℚ) {w w' : List Trace}
    (h : w.Perm w') (hs : ∀ t ∈ w, Sane t) (hflat : ∀ t ∈ w, ∃ a ∈ t.data, ∃ b ∈ t.data, a ≠ b)
    (hno : Spec.NoOverlap w) : GapFill.prepare ag ft wt fill s e w' = GapFill.prepare ag ft wt fill s e w := by
  unfold GapFill.prepare
  rw [if_pos hg, if_pos hg]
  have hsort : ∀ v : List Trace, (v.map (GapFill.taper wt)).insertionSort Data.Trace.le =
      (v.insertionSort Data.Trace.le).map (GapFill.taper wt) := by
    intro v
    rw [List.map_insertionSort (r := Data.Trace.le) (s := Data.Trace.le)]
    intro a _ b _
    have hst : ∀ t : Trace, (GapFill.taper wt t).stop = t.stop := by intro t; simp [Data.Trace.stop, GapFill.taper]
    simp only [Data.Trace.le, hst]
    rfl
  obtain ⟨q, hq, hc⟩ := hno
  have hs2 : ∀ t ∈ q, Sane t ∧ 2 ≤ t.data.length := fun t ht =>
    ⟨hs t (hq.mem_iff.1 ht), Data.two_le_of_notFlat (hflat t (hq.mem_iff.1 ht))⟩
  have hlt := Data.chain_sorted hs2 hc
  have hm : GapFill.merge fill (w'.map (GapFill.taper wt)) = GapFill.merge fill (w.map (GapFill.taper wt)) := by
    unfold GapFill.merge
    rw [hsort, hsort, Data.sorted_unique hq hlt, Data.sorted_unique (hq.trans h) hlt]
  rw [hm]

theorem rows_perm (c : Cfg) (x : Ext) (d : CalcOnsets.Data) (ws : List Trace) {w w' : List Trace} (h : w.Perm w')
    (hs : ∀ t ∈ w, Sane t)
    (hok : ∀ t ∈ w, Spec.NoOverlap (w.filter fun u => u.id = t.id) ∧ ∃ a ∈ t.data, ∃ b ∈ t.data, a ≠ b) :
    (rows c x { d with waveforms := ws } w').Perm (rows c x d w) := by
  unfold rows
  by_cases hg : (c.allowGaps || !c.fullTimespan) = true
  · rw [if_pos hg, if_pos hg, ids_perm h]
    apply List.Perm.of_eq
    apply List.flatMap_congr
    intro i hi
    obtain ⟨t, ht, rfl⟩ := (mem_ids w i).1 hi
    rw [prepare_perm c.allowGaps c.fullTimespan hg x.weight x.fill _ _ (h.filter fun u => u.id = t.id)
      (fun u hu => hs u (List.mem_filter.mp hu).1) (fun u hu => (hok u (List.mem_filter.mp hu).1).2) (hok t ht).1]
  · rw [if_neg hg, if_neg hg]
    exact h.symm.map _

theorem components_char (c : Cfg) (stw ltw : ℕ) (rs : List (Str × List ℚ)) :
    ((∃ r ∈ rs, component c stw ltw r.2 = none) → components c stw ltw rs = none) ∧
    ((∀ r ∈ rs, component c stw ltw r.2 ≠ none) →
      components c stw ltw rs = some (rs.map fun r => (component c stw ltw r.2).getD [])) := by
  induction rs with
  | nil => exact ⟨by simp, fun _ => rfl⟩
  | cons r rs ih =>
    cases hc : component c stw ltw r.2 with
    | none => exact ⟨fun _ => by unfold components; rw [hc], fun h => absurd hc (h r (by simp))⟩
    | some o =>
      constructor
      · rintro ⟨r', hr', hn⟩
        unfold components
        rw [hc]
        rcases List.mem_cons.mp hr' with rfl | hr'
        · rw [hc] at hn; simp at hn
        · rw [ih.1 ⟨r', hr', hn⟩]
      · intro h
        unfold components
        rw [hc, ih.2 fun r' hr' => h r' (by simp [hr'])]
        simp only [List.map_cons, hc, Option.getD_some]

theorem sameLength_iff {α : Type} (l : List (List α)) :
    sameLength l = true ↔ ∀ a ∈ l, ∀ b ∈ l, a.length = b.length := by
  cases l with
  | nil => simp [sameLength]
  | cons r rs =>
    simp only [sameLength, List.all_eq_true, decide_eq_true_eq]
    constructor
    · intro h
      have h' : ∀ a ∈ r :: rs, a.length = r.length := by
        intro a ha
        rcases List.mem_cons.mp ha with rfl | ha
        · rfl
        · exact h a ha
      intro a ha b hb
      rw [h' a ha, h' b hb]
    · intro h a ha
      exact h a (by simp [ha]) r (by simp)

theorem combined_perm (m : ℝ) {vs vs' : List (Option ℝ)} (h : vs.Perm vs') : combined m vs' = combined m vs := by
  unfold combined
  have hall : vs'.all Option.isSome = vs.all Option.isSome := by
    rw [Bool.eq_iff_iff, List.all_eq_true, List.all_eq_true]
    exact ⟨fun g v hv => g v (h.mem_iff.1 hv), fun g v hv => g v (h.mem_iff.2 hv)⟩
  have hp := h.filterMap id
  have hrms : Onset.rms (vs'.filterMap id) = Onset.rms (vs.filterMap id) := by
    unfold Onset.rms
    rw [(hp.map fun v => v ^ 2).sum_eq, hp.length_eq]
  rw [hall, hrms]

theorem onset_perm (c : Cfg) (p : Str) {rs rs' : List (Str × List ℚ)} (h : rs.Perm rs') : onset c p rs' = onset c p rs := by
  unfold onset
  generalize (Pads.time2sample (c.sta p) c.sr + 1).toNat = stw
  generalize (Pads.time2sample (c.lta p) c.sr + 1).toNat = ltw
  obtain ⟨a1, a2⟩ := components_char c stw ltw rs
  obtain ⟨b1, b2⟩ := components_char c stw ltw rs'
  by_cases hb : ∃ r ∈ rs, component c stw ltw r.2 = none
  · rw [a1 hb]
    have hb' : ∃ r ∈ rs', component c stw ltw r.2 = none := by
      obtain ⟨r, hr, hn⟩ := hb; exact ⟨r, h.mem_iff.1 hr, hn⟩
    rw [b1 hb']
  · push Not at hb
    rw [a2 hb, b2 fun r hr => hb r (h.mem_iff.2 hr)]
    have hp : (rs.map fun r => (component c stw ltw r.2).getD []).Perm (rs'.map fun r => (component c stw ltw r.2).getD []) :=
      h.map _
    generalize (rs.map fun r => (component c stw ltw r.2).getD []) = os at hp ⊢
    generalize (rs'.map fun r => (component c stw ltw r.2).getD []) = os' at hp ⊢
    have hsl : sameLength os' = sameLength os := by
      rw [Bool.eq_iff_iff, sameLength_iff, sameLength_iff]
      exact ⟨fun g a ha b hb => g a (hp.mem_iff.1 ha) b (hp.mem_iff.1 hb),
        fun g a ha b hb => g a (hp.mem_iff.2 ha) b (hp.mem_iff.2 hb)⟩
    simp only
    rw [hsl]
    by_cases hl : sameLength os = true
    · rw [if_pos hl, if_pos hl]
      have hlen : (os'.headD []).length = (os.headD []).length := by
        cases os with
        | nil => rw [List.nil_perm.mp hp]
        | cons a r =>
          cases os' with
          | nil => exact absurd (List.perm_nil.mp hp) (by simp)
          | cons b r' =>
            rw [sameLength_iff] at hl
            exact hl b (hp.mem_iff.2 (by simp)) a (by simp)
      rw [hlen]
      congr 1
      apply List.map_congr_left
      intro i _
      exact combined_perm _ (hp.map _)
    · rw [if_neg hl, if_neg hl]

theorem stationPhase_perm (c : Cfg) (hsr : c.sr ≠ 0) (x : Ext) (d : CalcOnsets.Data) (ws : List Trace) (p s : Str)
    {l l' : List Trace} (h : l.Perm l') (hs : ∀ t ∈ l, Sane t) :
    (∀ e, stationPhase c x d p l s = .error e → stationPhase c x { d with waveforms := ws } p l' s = .error e) ∧
    (stationPhase c x d p l s = .ok none → stationPhase c x { d with waveforms := ws } p l' s = .ok none) ∧
    (∀ rs f, stationPhase c x d p l s = .ok (some (rs, f)) →
      ∃ rs', stationPhase c x { d with waveforms := ws } p l' s = .ok (some (rs', f)) ∧ rs'.Perm rs) := by
  have hw := h.filter fun t => x.ofStation s t.id
  have hsw : ∀ t ∈ l.filter fun t => x.ofStation s t.id, Sane t := fun t ht => hs t (List.mem_filter.mp ht).1
  unfold stationPhase
  simp only
  generalize (l.filter fun t => x.ofStation s t.id) = w at hw hsw ⊢
  generalize (l'.filter fun t => x.ofStation s t.id) = w' at hw ⊢
  have hrate : (GapFill.onsetOpts c.allChannels c.allowGaps c.fullTimespan (c.count p) c.sr).checkRate = true →
      (GapFill.onsetOpts c.allChannels c.allowGaps c.fullTimespan (c.count p) c.sr).rate ≠ 0 := fun _ => hsr
  rw [checkAvailability_perm _ hrate d.start d.stop hw hsw]
  cases hck : Data.checkAvailability (GapFill.onsetOpts c.allChannels c.allowGaps c.fullTimespan (c.count p) c.sr)
      d.start d.stop w with
  | error e => exact ⟨fun e he => he, by simp, by simp⟩
  | ok q =>
    obtain ⟨b, av⟩ := q
    cases b with
    | false => exact ⟨by simp, fun _ => rfl, by simp⟩
    | true =>
      simp only
      -- the channels kept are good ones
      have hwne : w ≠ [] := by
        rintro rfl
        unfold Data.checkAvailability at hck
        rw [if_pos rfl] at hck
        simp at hck
      have hck2 : Data.checkIds (GapFill.onsetOpts c.allChannels c.allowGaps c.fullTimespan (c.count p) c.sr)
          d.start d.stop w (Data.ids w) = .ok av := by
        unfold Data.checkAvailability at hck
        rw [if_neg hwne] at hck
        cases h3 : Data.checkIds (GapFill.onsetOpts c.allChannels c.allowGaps c.fullTimespan (c.count p) c.sr)
            d.start d.stop w (Data.ids w) with
        | error e => rw [h3] at hck; simp at hck
        | ok a =>
          rw [h3] at hck
          simp only at hck
          split at hck
          · split at hck
            · split at hck
              · simp at hck
              · injection hck with hck; rw [(Prod.mk.inj hck).2]
            · injection hck with hck; rw [(Prod.mk.inj hck).2]
          · split at hck
            · injection hck with hck; rw [(Prod.mk.inj hck).2]
            · injection hck with hck; exact absurd (Prod.mk.inj hck).1 (by simp)
      obtain ⟨av', k1, k2, k3⟩ := checkIds_spec _ d.start d.stop w hsw hrate (Data.ids w) (fun _ h => h)
      have : av' = av := by rw [hck2] at k1; injection k1 with k1; exact k1.symm
      subst this
      have hok : ∀ t ∈ dropFailed av' w, Spec.NoOverlap ((dropFailed av' w).filter fun u => u.id = t.id) ∧
          ∃ a ∈ t.data, ∃ b ∈ t.data, a ≠ b := by
        intro t ht
        unfold dropFailed at ht
        obtain ⟨htw, hkeep⟩ := List.mem_filter.mp ht
        have hid : t.id ∈ av'.map Prod.fst := by rw [k2]; exact (mem_ids w _).2 ⟨t, htw, rfl⟩
        obtain ⟨⟨j, b⟩, hjb, hj⟩ := List.mem_map.mp hid
        simp only at hj
        subst hj
        simp only [Bool.not_eq_true', List.any_eq_false, Bool.and_eq_true, decide_eq_true_eq, not_and] at hkeep
        have hb : b = true := by
          have := hkeep (t.id, b) hjb rfl
          simpa using this
        subst hb
        have hch := (k3 (t.id, true) hjb).1 rfl
        have e : ((dropFailed av' w).filter fun u => u.id = t.id) = w.filter fun u => u.id = t.id := by
          unfold dropFailed
          rw [List.filter_filter]
          apply List.filter_congr
          intro u _
          by_cases hu : u.id = t.id
          · have : (!(av'.any fun e => decide (e.1 = u.id) && !e.2)) = true := by
              simp only [Bool.not_eq_true', List.any_eq_false, Bool.and_eq_true, decide_eq_true_eq, not_and]
              intro e he heu
              exact hkeep e he (heu.trans hu)
            rw [this]; simp [hu]
          · simp [hu]
        rw [e]
        exact ⟨hch.overlap, hch.notFlat t (List.mem_filter.mpr ⟨htw, by simp⟩)⟩
      have hdp : (dropFailed av' w).Perm (dropFailed av' w') := hw.filter _
      have hrp := rows_perm c x d ws hdp (fun t ht => hsw t (List.mem_filter.mp ht).1) hok
      rw [onset_perm c p hrp.symm]
      cases ho : onset c p (rows c x d (dropFailed av' w)) with
      | error e => exact ⟨fun e he => he, by simp, by simp⟩
      | ok f =>
        refine ⟨by simp, by simp, ?_⟩
        intro rs f' he
        simp only [Except.ok.injEq, Option.some.injEq, Prod.mk.injEq] at he
        obtain ⟨rfl, rfl⟩ := he
        exact ⟨_, rfl, hrp⟩

/-- Two outputs that differ by the order of the waveforms only. -/
def SameOut (o o' : Out) : Prop := o'.availability = o.availability ∧ o'.onsets = o.onsets ∧ o'.used.Perm o.used

theorem stationLoop_perm (c : Cfg) (hsr : c.sr ≠ 0) (x : Ext) (d : CalcOnsets.Data) (ws : List Trace) (p : Str)
    {l l' : List Trace} (h : l.Perm l') (hs : ∀ t ∈ l, Sane t) (ss : List Str) : ∀ o o' : Out, SameOut o o' →
    (∀ e, stationLoop c x d p l ss o = .error e → stationLoop c x { d with waveforms := ws } p l' ss o' = .error e) ∧
    (∀ q, stationLoop c x d p l ss o = .ok q →
      ∃ q', stationLoop c x { d with waveforms := ws } p l' ss o' = .ok q' ∧ SameOut q q') := by
  induction ss with
  | nil =>
    intro o o' ho
    refine ⟨by simp [stationLoop], fun q hq => ⟨o', rfl, ?_⟩⟩
    simp only [stationLoop, Except.ok.injEq] at hq
    subst hq
    exact ho
  | cons s ss ih =>
    intro o o' ho
    obtain ⟨a, b, k⟩ := stationPhase_perm c hsr x d ws p s h hs
    unfold stationLoop
    cases hp : stationPhase c x d p l s with
    | error e => rw [a e hp]; exact ⟨fun e he => he, by simp⟩
    | ok r =>
      cases r with
      | none =>
        rw [b hp]
        simp only
        exact ih _ _ ⟨by simp only; rw [ho.1], ho.2.1, ho.2.2⟩
      | some q =>
        obtain ⟨rs, f⟩ := q
        obtain ⟨rs', k1, k2⟩ := k rs f hp
        rw [k1]
        simp only
        exact ih _ _ ⟨by simp only; rw [ho.1], by simp only; rw [ho.2.1], ho.2.2.append k2⟩

theorem phaseLoop_perm (c : Cfg) (hsr : c.sr ≠ 0) (x : Ext) (d : CalcOnsets.Data) {ws : List Trace}
    (h : d.waveforms.Perm ws) (ps : List Str) (hs : ∀ p ∈ ps, ∀ l, preStream c x d p = .ok l → ∀ t ∈ l, Sane t) :
    ∀ o o' : Out, SameOut o o' →
    (∀ e, phaseLoop c x d ps o = .error e → phaseLoop c x { d with waveforms := ws } ps o' = .error e) ∧
    (∀ q, phaseLoop c x d ps o = .ok q →
      ∃ q', phaseLoop c x { d with waveforms := ws } ps o' = .ok q' ∧ SameOut q q') := by
  induction ps with
  | nil =>
    intro o o' ho
    refine ⟨by simp [phaseLoop], fun q hq => ⟨o', rfl, ?_⟩⟩
    simp only [phaseLoop, Except.ok.injEq] at hq
    subst hq
    exact ho
  | cons p ps ih =>
    intro o o' ho
    obtain ⟨a, b⟩ := preStream_perm c x d h p
    unfold phaseLoop
    cases hp : preStream c x d p with
    | error e => rw [a e hp]; exact ⟨fun e he => he, by simp⟩
    | ok l =>
      obtain ⟨l', k1, k2⟩ := b l hp
      rw [k1]
      simp only
      obtain ⟨m1, m2⟩ := stationLoop_perm c hsr x d ws p k2.symm (hs p (by simp) l hp) d.stations o o' ho
      cases hl : stationLoop c x d p l d.stations o with
      | error e => rw [m1 e hl]; exact ⟨fun e he => he, by simp⟩
      | ok q =>
        obtain ⟨q', n1, n2⟩ := m2 q hl
        rw [n1]
        exact ih (fun p' hp' => hs p' (by simp [hp'])) q q' n2

end ReadOrder

open ReadOrder in
/-- **C164**: the order of the traces, that is, the order in which files were found and read, does not matter.  If the same
traces come in another order, the scan raises the same exception, or returns the same availability and the same onset
functions in the same order; only the list of waveforms used may be ordered differently.  Asked of the data: after
pre-processing every trace has samples and a rate between 0 and 500 kHz. -/
theorem C164_order_of_files (c : Cfg) (hsr : c.sr ≠ 0) (x : Ext) (d : CalcOnsets.Data) (ws : List Trace)
    (h : d.waveforms.Perm ws) (hs : ∀ p ∈ c.phases, ∀ l, preStream c x d p = .ok l → ∀ t ∈ l, Sane t) :
    (∀ e, calculateOnsets c x d = .error e → calculateOnsets c x { d with waveforms := ws } = .error e) ∧
    (∀ o, calculateOnsets c x d = .ok o → ∃ o', calculateOnsets c x { d with waveforms := ws } = .ok o' ∧
      o'.availability = o.availability ∧ o'.onsets = o.onsets ∧ o'.used.Perm o.used) := by
  obtain ⟨a, b⟩ := phaseLoop_perm c hsr x d h c.phases hs ⟨[], [], []⟩ ⟨[], [], []⟩ ⟨rfl, rfl, List.Perm.refl _⟩
  unfold calculateOnsets
  cases hp : phaseLoop c x d c.phases ⟨[], [], []⟩ with
  | error e => rw [a e hp]; exact ⟨fun e he => he, by simp⟩
  | ok q =>
    obtain ⟨q', h1, h2, h3, h4⟩ := b q hp
    rw [h1]
    simp only
    rw [h2, h3]
    by_cases h5 : (q.availability.map Prod.snd).sum = 0
    · rw [if_pos h5, if_pos h5]; exact ⟨fun e he => he, by simp⟩
    rw [if_neg h5, if_neg h5]
    by_cases h6 : sameLength (q.onsets.map Prod.snd) = true
    · rw [if_pos h6, if_pos h6]
      refine ⟨by simp, fun o ho => ⟨q', rfl, ?_⟩⟩
      injection ho with ho
      subst ho
      exact ⟨h2, h3, h4⟩
    · rw [if_neg h6, if_neg h6]; exact ⟨fun e he => he, by simp⟩

open BadChannels OnsetGain in
/-- A case of C164: the three traces of `exBad`, in reverse order (C163 shows that the scan succeeds on them). -/
example : exBad.waveforms.Perm exBad.waveforms.reverse ∧ exBad.waveforms ≠ exBad.waveforms.reverse ∧
    (∀ p ∈ exCfg.phases, ∀ l, preStream exCfg (exExt 1) exBad p = .ok l → ∀ t ∈ l, Sane t) ∧ exCfg.sr ≠ 0 := by
  refine ⟨(List.reverse_perm _).symm, by decide +kernel, ?_, by simp [exCfg]⟩
  intro p hp l hl t ht
  have hp : p = "P".toList := by
    have : exCfg.phases = ["P".toList] := rfl
    rw [this] at hp
    exact List.mem_singleton.mp hp
  subst hp
  rw [exBad_pre] at hl
  injection hl with hl
  subst hl
  simp only [exBad, exA, exB, List.mem_cons, List.not_mem_nil, or_false] at ht
  rcases ht with rfl | rfl | rfl <;> exact ⟨by simp, by norm_num, by norm_num⟩

end QM
