import Verif.Props.CalcOnsets

/-!
# Units of the waveforms: C162
-/

namespace QM

open QM.CalcOnsets
open QM.Data (Str Trace)
open QM.Util (RTr Dsp decimate upsampleRate resampleStep resample fMod)

/-- Samples in other units. -/
def Spec.timesData (k : ℚ) (l : List ℚ) : List ℚ := l.map fun v => k * v

/-- Every trace multiplied by the gain of its channel. -/
def Spec.amplified (g : Str → ℚ) (st : List Trace) : List Trace :=
  st.map fun t => { t with data := Spec.timesData (g t.id) t.data }

/-- The external signal processing is linear: a trace multiplied by a number comes out multiplied by it. -/
structure Spec.Linear (x : Ext) : Prop where
  dec : ∀ f b k, x.dsp.dec f { b with data := Spec.timesData k b.data } =
    { x.dsp.dec f b with data := Spec.timesData k (x.dsp.dec f b).data }
  up : ∀ u b k, x.dsp.up u { b with data := Spec.timesData k b.data } =
    { x.dsp.up u b with data := Spec.timesData k (x.dsp.up u b).data }
  trim : ∀ s e b k, x.trim s e { b with data := Spec.timesData k b.data } =
    (x.trim s e b).map fun b' => { b' with data := Spec.timesData k b'.data }
  filt : ∀ p dd r k l, x.filt p dd r (Spec.timesData k l) = Spec.timesData k (x.filt p dd r l)

namespace OnsetGain

/-- One trace multiplied, as `resample` sees it. -/
def amp (g : Str → ℚ) (t : RTr Body) : RTr Body := ⟨t.rate, { t.rest with data := Spec.timesData (g t.rest.id) t.rest.data }⟩

/-- One trace multiplied. -/
def ampT (g : Str → ℚ) (t : Trace) : Trace := { t with data := Spec.timesData (g t.id) t.data }

/-- One row multiplied. -/
def ampRow (g : Str → ℚ) (r : Str × List ℚ) : Str × List ℚ := (r.1, Spec.timesData (g r.1) r.2)

theorem times_inj {k : ℚ} (hk : k ≠ 0) : Function.Injective (Spec.timesData k) := by
  apply List.map_injective_iff.mpr
  intro a b h
  exact mul_left_cancel₀ hk h

theorem amp_inj {g : Str → ℚ} (hg : ∀ i, g i ≠ 0) : Function.Injective (amp g) := by
  rintro ⟨r, ⟨i, s, l⟩⟩ ⟨r', ⟨i', s', l'⟩⟩ h
  simp only [amp, RTr.mk.injEq, Body.mk.injEq] at h
  obtain ⟨rfl, rfl, rfl, h⟩ := h
  rw [times_inj (hg i) h]

theorem decimate_amp {x : Ext} (hx : KeepsIds x) (hl : Spec.Linear x) (g : Str → ℚ) (sr : ℚ) (t : RTr Body) :
    decimate x.dsp sr (amp g t) = amp g (decimate x.dsp sr t) := by
  have hid := hx.dec (pyInt (t.rate / sr)) t.rest
  simp only [decimate, amp, hid]
  rw [hl.dec]
  simp only [hid]

theorem upsample_amp {x : Ext} (hx : KeepsIds x) (hl : Spec.Linear x) (g : Str → ℚ) (u : ℕ) (t : RTr Body) :
    upsampleRate x.dsp u (amp g t) = amp g (upsampleRate x.dsp u t) := by
  have hid := hx.up u t.rest
  simp only [upsampleRate, amp, hid]
  rw [hl.up]
  simp only [hid]

theorem resampleStep_amp {x : Ext} (hx : KeepsIds x) (hl : Spec.Linear x) {g : Str → ℚ} (hg : ∀ i, g i ≠ 0) (sr : ℚ)
    (rs : Bool) (up : Option ℕ) (st : List (RTr Body)) (t : RTr Body) :
    resampleStep x.dsp sr rs up (st.map (amp g)) (amp g t) = (resampleStep x.dsp sr rs up st t).map (List.map (amp g)) := by
  unfold resampleStep
  have hr : (amp g t).rate = t.rate := rfl
  rw [hr]
  by_cases h1 : sr = t.rate
  · rw [if_pos h1, if_pos h1]; rfl
  rw [if_neg h1, if_neg h1]
  have e : ∀ t' : RTr Body, (st.map (amp g)).erase (amp g t) ++ [amp g t'] = (st.erase t ++ [t']).map (amp g) := by
    intro t'
    rw [List.map_append, List.map_erase (amp_inj hg)]
    rfl
  by_cases h2 : fMod t.rate sr = 0
  · rw [if_pos h2, if_pos h2, decimate_amp hx hl, e]; rfl
  rw [if_neg h2, if_neg h2]
  cases rs with
  | false => rfl
  | true =>
    cases up with
    | none => rfl
    | some u =>
      simp only
      by_cases h3 : fMod (pyInt (t.rate * u)) sr ≠ 0
      · rw [if_pos h3, if_pos h3]; rfl
      · rw [if_neg h3, if_neg h3, upsample_amp hx hl, decimate_amp hx hl, e]; rfl

theorem fold_amp {x : Ext} (hx : KeepsIds x) (hl : Spec.Linear x) {g : Str → ℚ} (hg : ∀ i, g i ≠ 0) (sr : ℚ)
    (rs : Bool) (up : Option ℕ) (l : List (RTr Body)) : ∀ st : List (RTr Body),
    (l.map (amp g)).foldlM (fun st tr => resampleStep x.dsp sr rs up st tr) (st.map (amp g)) =
      (l.foldlM (fun st tr => resampleStep x.dsp sr rs up st tr) st).map (List.map (amp g)) := by
  induction l with
  | nil => intro st; rfl
  | cons t l ih =>
    intro st
    rw [List.map_cons, List.foldlM_cons, List.foldlM_cons, resampleStep_amp hx hl hg]
    cases h : resampleStep x.dsp sr rs up st t with
    | none => rfl
    | some s1 => exact ih s1

theorem resample_amp {x : Ext} (hx : KeepsIds x) (hl : Spec.Linear x) {g : Str → ℚ} (hg : ∀ i, g i ≠ 0)
    (s e sr : ℚ) (rs : Bool) (up : Option ℕ) (l : List (RTr Body)) :
    resample x.dsp (x.trim s e) sr rs up (l.map (amp g)) =
      (resample x.dsp (x.trim s e) sr rs up l).map (List.map (amp g)) := by
  unfold resample
  rw [fold_amp hx hl hg]
  cases h : l.foldlM (fun st tr => resampleStep x.dsp sr rs up st tr) l with
  | none => rfl
  | some st =>
    simp only [Option.map_some, List.filterMap_map, List.map_filterMap]
    congr 2
    funext t
    simp only [Function.comp, amp]
    rw [hl.trim]
    cases ht : x.trim s e t.rest with
    | none => rfl
    | some b => have hid := hx.trim _ _ _ _ ht; rw [Option.map_some, Option.map_some, Option.map_some, Option.map_some]; simp only [amp, hid]

theorem filterAll_amp (g : Str → ℚ) (low high : ℚ) (l : List (RTr Body)) :
    Filters.filterAll low high (l.map (amp g)) =
      (Filters.filterAll low high l).map (List.map fun p => (amp g p.1, p.2)) := by
  induction l with
  | nil => rfl
  | cons t l ih =>
    rw [List.map_cons]
    unfold Filters.filterAll
    have hr : (amp g t).rate = t.rate := rfl
    rw [hr]
    cases h1 : Filters.obspyBandpass low high t.rate with
    | error e => rfl
    | ok dd =>
      simp only
      rw [ih]
      cases h2 : Filters.filterAll low high l with
      | error e => rfl
      | ok r => rfl

theorem preStream_amp (c : Cfg) {x : Ext} (hx : KeepsIds x) (hl : Spec.Linear x) {g : Str → ℚ} (hg : ∀ i, g i ≠ 0)
    (d : CalcOnsets.Data) (p : Str) :
    preStream c x { d with waveforms := Spec.amplified g d.waveforms } p =
      (preStream c x d p).map (List.map (ampT g)) := by
  unfold preStream
  have e : ((Spec.amplified g d.waveforms).filter fun t => c.chan p t.id).map toR =
      ((d.waveforms.filter fun t => c.chan p t.id).map toR).map (amp g) := by
    unfold Spec.amplified
    rw [List.filter_map, List.map_map, List.map_map]
    rfl
  simp only
  rw [e]
  unfold Filters.preProcess
  rw [resample_amp hx hl hg]
  cases h : resample x.dsp (x.trim d.start d.stop) c.sr d.resample d.upfactor
      ((d.waveforms.filter fun t => c.chan p t.id).map toR) with
  | none => rfl
  | some st =>
    simp only [Option.map_some]
    by_cases h2 : c.high p ≥ 1 / 2 * c.sr
    · rw [if_pos h2, if_pos h2]; rfl
    rw [if_neg h2, if_neg h2, filterAll_amp]
    cases h3 : Filters.filterAll (c.low p) (c.high p) st with
    | error e => rfl
    | ok out =>
      simp only [Except.map, List.map_map]
      congr 1
      apply List.map_congr_left
      rintro ⟨⟨r, ⟨i, s, l⟩⟩, dd⟩ _
      simp only [Function.comp, amp, ofR, ampT]
      rw [hl.filt]

/-! ## The checks -/

theorem flat_amp {g : Str → ℚ} (hg : ∀ i, g i ≠ 0) (t : Trace) : (ampT g t).flat = t.flat := by
  by_cases h : t.data = []
  · unfold Data.Trace.flat ampT Spec.timesData; rw [h]; rfl
  have h' : (ampT g t).data ≠ [] := by simpa [ampT, Spec.timesData] using h
  have hm : ∀ P : ℚ → ℚ → Prop, (∀ a ∈ (ampT g t).data, ∀ b ∈ (ampT g t).data, P a b) ↔
      ∀ a ∈ t.data, ∀ b ∈ t.data, P (g t.id * a) (g t.id * b) := by
    intro P; simp [ampT, Spec.timesData]
  rcases Data.flat_iff t h with ⟨h1, h2⟩ | ⟨h1, h2⟩ <;> rcases Data.flat_iff _ h' with ⟨h3, h4⟩ | ⟨h3, h4⟩
  · rw [h1, h3]
  · exfalso
    obtain ⟨a, ha, b, hb, hab⟩ := h4
    exact hab ((hm fun a b => a = b).2 (fun a ha b hb => by rw [h2 a ha b hb]) a ha b hb)
  · exfalso
    obtain ⟨a, ha, b, hb, hab⟩ := h2
    exact hab (mul_left_cancel₀ (hg t.id) ((hm fun a b => a = b).1 h4 a ha b hb))
  · rw [h1, h3]

theorem anyFlat_amp {g : Str → ℚ} (hg : ∀ i, g i ≠ 0) (l : List Trace) :
    Data.anyFlat (l.map (ampT g)) = Data.anyFlat l := by
  induction l with
  | nil => rfl
  | cons t l ih =>
    rw [List.map_cons]
    unfold Data.anyFlat
    rw [flat_amp hg, ih]

theorem stop_amp (g : Str → ℚ) (t : Trace) : (ampT g t).stop = t.stop := by
  simp [Data.Trace.stop, ampT, Spec.timesData]

theorem getGaps_amp (g : Str → ℚ) (m : Option ℚ) (l : List Trace) :
    (Data.getGaps m (l.map (ampT g))).length = (Data.getGaps m l).length := by
  unfold Data.getGaps
  have hs : (l.map (ampT g)).insertionSort Data.Trace.le = (l.insertionSort Data.Trace.le).map (ampT g) := by
    rw [List.map_insertionSort (r := Data.Trace.le) (s := Data.Trace.le)]
    intro a _ b _
    simp only [Data.Trace.le, stop_amp]
    rfl
  simp only [hs]
  rw [← List.map_tail, List.zip_map, List.filter_map, List.length_map]
  congr 1
  apply List.filter_congr
  rintro ⟨a, b⟩ _
  simp only [Function.comp, Prod.map, Data.listed, Data.delta, stop_amp]
  rfl

theorem checkId_amp {g : Str → ℚ} (hg : ∀ i, g i ≠ 0) (o : Data.Opts) (s e : ℚ) (l : List Trace) :
    Data.checkId o s e (l.map (ampT g)) = Data.checkId o s e l := by
  unfold Data.checkId
  rw [anyFlat_amp hg, getGaps_amp, getGaps_amp, List.any_map]
  cases l with
  | nil => rfl
  | cons t l =>
    have hlen : (ampT g t).data.length = t.data.length := by simp [ampT, Spec.timesData]
    have hnil : (l.map (ampT g) ≠ []) = (l ≠ []) := by simp
    simp only [List.map_cons, hlen, stop_amp, hnil]
    rfl

theorem filter_amp (g : Str → ℚ) (q : Str → Bool) (l : List Trace) :
    (l.map (ampT g)).filter (fun t => q t.id) = (l.filter fun t => q t.id).map (ampT g) := by
  rw [List.filter_map]; rfl

theorem checkIds_amp {g : Str → ℚ} (hg : ∀ i, g i ≠ 0) (o : Data.Opts) (s e : ℚ) (l : List Trace) (is : List Str) :
    Data.checkIds o s e (l.map (ampT g)) is = Data.checkIds o s e l is := by
  induction is with
  | nil => rfl
  | cons i is ih =>
    unfold Data.checkIds
    rw [ih, filter_amp g (fun j => decide (j = i)), checkId_amp hg]

theorem ids_amp (g : Str → ℚ) (l : List Trace) : Data.ids (l.map (ampT g)) = Data.ids l := by
  unfold Data.ids
  rw [List.map_map]
  rfl

theorem checkAvailability_amp {g : Str → ℚ} (hg : ∀ i, g i ≠ 0) (o : Data.Opts) (s e : ℚ) (l : List Trace) :
    Data.checkAvailability o s e (l.map (ampT g)) = Data.checkAvailability o s e l := by
  unfold Data.checkAvailability
  rw [ids_amp, checkIds_amp hg]
  by_cases h : l = []
  · subst h; rfl
  · rw [if_neg h, if_neg (by simpa using h)]

/-! ## The onset function -/

theorem windows_ok {c : Cfg} (hsr : 0 ≤ c.sr) {p : Str} (h0 : 0 ≤ c.sta p) (h1 : c.sta p ≤ c.lta p) :
    1 ≤ (Pads.time2sample (c.sta p) c.sr + 1).toNat ∧
      (Pads.time2sample (c.sta p) c.sr + 1).toNat ≤ (Pads.time2sample (c.lta p) c.sr + 1).toNat := by
  have hi : (0 : ℚ) ≤ ((pyInt c.sr : ℤ) : ℚ) := by
    have : 0 ≤ pyInt c.sr := by
      unfold pyInt
      rw [if_pos hsr]
      exact Int.floor_nonneg.mpr hsr
    exact_mod_cast this
  have ha : 0 ≤ Pads.time2sample (c.sta p) c.sr := by
    have := pyRound_mono (show (((0 : ℤ) : ℚ)) ≤ c.sta p * (pyInt c.sr : ℤ) by push_cast; positivity)
    rw [pyRound_int] at this
    exact this
  have hb : Pads.time2sample (c.sta p) c.sr ≤ Pads.time2sample (c.lta p) c.sr :=
    pyRound_mono (mul_le_mul_of_nonneg_right h1 hi)
  omega

theorem component_amp {c : Cfg} (hT : Transform.Ok c.transform) {stw ltw : ℕ} (h1 : 1 ≤ stw) (h2 : stw ≤ ltw)
    {k : ℚ} (hk : k ≠ 0) (r : List ℚ) : component c stw ltw (Spec.timesData k r) = component c stw ltw r := by
  unfold component
  have e : (Spec.timesData k r).map (fun v : ℚ => (v : ℝ)) = (r.map fun v : ℚ => (v : ℝ)).map fun v => (k : ℝ) * v := by
    simp [Spec.timesData, Function.comp_def]
  rw [e]
  exact C38_gain_invariant c.transform hT c.pos (k : ℝ) (by exact_mod_cast hk) _ stw ltw h1 h2

theorem components_amp {c : Cfg} (hT : Transform.Ok c.transform) {stw ltw : ℕ} (h1 : 1 ≤ stw) (h2 : stw ≤ ltw)
    {g : Str → ℚ} (hg : ∀ i, g i ≠ 0) (rs : List (Str × List ℚ)) :
    components c stw ltw (rs.map (ampRow g)) = components c stw ltw rs := by
  induction rs with
  | nil => rfl
  | cons r rs ih =>
    rw [List.map_cons]
    unfold components
    rw [ih]
    have : component c stw ltw (ampRow g r).2 = component c stw ltw r.2 := component_amp hT h1 h2 (hg r.1) r.2
    rw [this]

theorem stationPhase_amp {c : Cfg} (hsr : 0 ≤ c.sr) (hT : Transform.Ok c.transform) (hgap : c.allowGaps = false)
    (hfull : c.fullTimespan = true) (x : Ext) {g : Str → ℚ} (hg : ∀ i, g i ≠ 0) (d : CalcOnsets.Data) {p : Str}
    (h0 : 0 ≤ c.sta p) (h1 : c.sta p ≤ c.lta p) (ws : List Trace) (l : List Trace) (s : Str) :
    stationPhase c x { d with waveforms := ws } p (l.map (ampT g)) s =
      (stationPhase c x d p l s).map (Option.map fun r => (r.1.map (ampRow g), r.2)) := by
  unfold stationPhase
  simp only
  rw [filter_amp g (fun i => x.ofStation s i), checkAvailability_amp hg]
  have hrows : ∀ (d' : CalcOnsets.Data) (w : List Trace), rows c x d' w = w.map fun t => (t.id, t.data) := by
    intro d' w
    unfold rows
    rw [if_neg (by rw [hgap, hfull]; decide)]
  have hdrop : ∀ (av : List (Str × Bool)) (w : List Trace), dropFailed av (w.map (ampT g)) = (dropFailed av w).map (ampT g) :=
    fun av w => filter_amp g (fun i => !(av.any fun e => decide (e.1 = i) && !e.2)) w
  cases h : Data.checkAvailability (GapFill.onsetOpts c.allChannels c.allowGaps c.fullTimespan (c.count p) c.sr)
      d.start d.stop (l.filter fun t => x.ofStation s t.id) with
  | error e => rfl
  | ok q =>
    obtain ⟨b, av⟩ := q
    cases b with
    | false => rfl
    | true =>
      simp only
      rw [hrows, hrows, hdrop]
      have e : ((dropFailed av (l.filter fun t => x.ofStation s t.id)).map (ampT g)).map (fun t => (t.id, t.data)) =
          ((dropFailed av (l.filter fun t => x.ofStation s t.id)).map fun t => (t.id, t.data)).map (ampRow g) := by
        rw [List.map_map, List.map_map]; rfl
      rw [e]
      unfold onset
      obtain ⟨w1, w2⟩ := windows_ok hsr h0 h1
      rw [components_amp hT w1 w2 hg]
      cases components c (Pads.time2sample (c.sta p) c.sr + 1).toNat (Pads.time2sample (c.lta p) c.sr + 1).toNat
        ((dropFailed av (l.filter fun t => x.ofStation s t.id)).map fun t => (t.id, t.data)) with
      | none => rfl
      | some os =>
        simp only
        by_cases hl : sameLength os = true
        · rw [if_pos hl]; rfl
        · rw [if_neg hl]; rfl

/-- The output with its waveforms multiplied. -/
def ampOut (g : Str → ℚ) (o : Out) : Out := { o with used := o.used.map (ampRow g) }

theorem stationLoop_amp {c : Cfg} (hsr : 0 ≤ c.sr) (hT : Transform.Ok c.transform) (hgap : c.allowGaps = false)
    (hfull : c.fullTimespan = true) (x : Ext) {g : Str → ℚ} (hg : ∀ i, g i ≠ 0) (d : CalcOnsets.Data) {p : Str}
    (h0 : 0 ≤ c.sta p) (h1 : c.sta p ≤ c.lta p) (ws : List Trace) (l : List Trace) (ss : List Str) : ∀ o : Out,
    stationLoop c x { d with waveforms := ws } p (l.map (ampT g)) ss (ampOut g o) =
      (stationLoop c x d p l ss o).map (ampOut g) := by
  induction ss with
  | nil => intro o; rfl
  | cons s ss ih =>
    intro o
    unfold stationLoop
    rw [stationPhase_amp hsr hT hgap hfull x hg d h0 h1]
    cases h : stationPhase c x d p l s with
    | error e => rfl
    | ok r =>
      cases r with
      | none => exact ih ⟨Compute.dictSet o.availability (Compute.key s p) 0, o.onsets, o.used⟩
      | some q =>
        obtain ⟨rs, f⟩ := q
        have := ih ⟨Compute.dictSet o.availability (Compute.key s p) 1, o.onsets ++ [((s, p), f)], o.used ++ rs⟩
        simp only [ampOut, List.map_append] at this
        exact this

theorem phaseLoop_amp {c : Cfg} (hsr : 0 ≤ c.sr) (hT : Transform.Ok c.transform) (hgap : c.allowGaps = false)
    (hfull : c.fullTimespan = true) {x : Ext} (hx : KeepsIds x) (hl : Spec.Linear x) {g : Str → ℚ} (hg : ∀ i, g i ≠ 0)
    (d : CalcOnsets.Data) (ps : List Str) (hw : ∀ p ∈ ps, 0 ≤ c.sta p ∧ c.sta p ≤ c.lta p) : ∀ o : Out,
    phaseLoop c x { d with waveforms := Spec.amplified g d.waveforms } ps (ampOut g o) =
      (phaseLoop c x d ps o).map (ampOut g) := by
  induction ps with
  | nil => intro o; rfl
  | cons p ps ih =>
    intro o
    have hp := hw p (by simp)
    unfold phaseLoop
    rw [preStream_amp c hx hl hg]
    cases h : preStream c x d p with
    | error e => rfl
    | ok l =>
      have hs := stationLoop_amp hsr hT hgap hfull x hg d hp.1 hp.2 (Spec.amplified g d.waveforms) l d.stations o
      simp only [Except.map] at hs ⊢
      rw [hs]
      cases h2 : stationLoop c x d p l d.stations o with
      | error e => rfl
      | ok o1 => exact ih (fun q hq => hw q (by simp [hq])) o1

end OnsetGain

/-- **C162** (without gap filling): if every channel is multiplied by a non-zero number of its own, the scan raises the
same exception, or finds the same stations and phases available and computes the same onset functions; only the stored
waveforms are multiplied. -/
theorem C162_units_partial (c : Cfg) (hsr : 0 ≤ c.sr) (hT : Transform.Ok c.transform)
    (hw : ∀ p ∈ c.phases, 0 ≤ c.sta p ∧ c.sta p ≤ c.lta p) (hgap : c.allowGaps = false) (hfull : c.fullTimespan = true)
    (x : Ext) (hx : KeepsIds x) (hl : Spec.Linear x) (d : CalcOnsets.Data) (g : Str → ℚ) (hg : ∀ i, g i ≠ 0) :
    calculateOnsets c x { d with waveforms := Spec.amplified g d.waveforms } =
      match calculateOnsets c x d with
      | .error e => .error e
      | .ok o => .ok { o with used := o.used.map fun r => (r.1, Spec.timesData (g r.1) r.2) } := by
  unfold calculateOnsets
  have h := OnsetGain.phaseLoop_amp hsr hT hgap hfull hx hl hg d c.phases hw ⟨[], [], []⟩
  have e0 : OnsetGain.ampOut g ⟨[], [], []⟩ = ⟨[], [], []⟩ := rfl
  rw [e0] at h
  rw [h]
  cases phaseLoop c x d c.phases ⟨[], [], []⟩ with
  | error e => rfl
  | ok o =>
    simp only [Except.map, OnsetGain.ampOut]
    by_cases h1 : (o.availability.map Prod.snd).sum = 0
    · rw [if_pos h1, if_pos h1]
    · rw [if_neg h1, if_neg h1]
      by_cases h2 : sameLength (o.onsets.map Prod.snd) = true
      · rw [if_pos h2, if_pos h2]; rfl
      · rw [if_neg h2, if_neg h2]

/-! ## With gap filling -/

namespace OnsetGain

/-- A scan of one channel at 1 Hz with `allow_gaps`; the signal processing does nothing. -/
noncomputable def exCfg : Cfg where
  phases := ["P".toList]
  chan := fun _ _ => true
  count := fun _ => 1
  sta := fun _ => 0
  lta := fun _ => 0
  low := fun _ => 1 / 10
  high := fun _ => 2 / 5
  sr := 1
  allChannels := false
  allowGaps := true
  fullTimespan := false
  transform := .energy
  pos := .centred
  minOnset := 2 / 5

/-- Signal processing that does nothing; gaps are filled with `fill`. -/
def exExt (fill : ℚ) : Ext where
  dsp := ⟨fun _ b => b, fun _ b => b⟩
  trim := fun _ _ b => some b
  filt := fun _ _ _ l => l
  weight := fun _ _ => 1
  fill := fill
  ofStation := fun _ _ => true

theorem exExt_keeps (fill : ℚ) : KeepsIds (exExt fill) := ⟨fun _ _ => rfl, fun _ _ => rfl, by
  rintro s e b b' h; injection h with h; rw [← h]⟩

theorem exExt_linear (fill : ℚ) : Spec.Linear (exExt fill) :=
  ⟨fun _ _ _ => rfl, fun _ _ _ => rfl, fun _ _ _ _ => rfl, fun _ _ _ _ _ => rfl⟩

/-- The first piece of data, before the gap. -/
def exA : Trace := ⟨"Z".toList, 0, 1, [1, 2]⟩

/-- The second piece, after one missing sample. -/
def exB : Trace := ⟨"Z".toList, 3, 1, [3, 5]⟩

/-- Five seconds of data with a gap of one sample. -/
def exData : CalcOnsets.Data := ⟨[exA, exB], ["ST01".toList], false, none, 0, 4⟩

theorem exA_amp (g : ℚ) : Spec.amplified (fun _ => g) exData.waveforms =
    [⟨"Z".toList, 0, 1, [g * 1, g * 2]⟩, ⟨"Z".toList, 3, 1, [g * 3, g * 5]⟩] := rfl

theorem ex_pre (fill g : ℚ) (hg : g ≠ 0) :
    preStream exCfg (exExt fill) { exData with waveforms := Spec.amplified (fun _ => g) exData.waveforms } "P".toList =
      .ok (Spec.amplified (fun _ => g) exData.waveforms) := by
  rw [preStream_amp exCfg (exExt_keeps fill) (exExt_linear fill) (fun _ => hg)]
  have h1 : preStream exCfg (exExt fill) exData "P".toList = .ok exData.waveforms := by
    unfold preStream
    have h : Filters.preProcess (exExt fill).dsp ((exExt fill).trim exData.start exData.stop) exCfg.sr exData.resample
        exData.upfactor (exCfg.low "P".toList) (exCfg.high "P".toList)
        ((exData.waveforms.filter fun t => exCfg.chan "P".toList t.id).map toR) =
        .ok [(toR exA, .bandpass (1 / 5) (4 / 5)), (toR exB, .bandpass (1 / 5) (4 / 5))] := by
      show Filters.preProcess ⟨fun _ b => b, fun _ b => b⟩ (fun b => some b) 1 false none (1 / 10) (2 / 5)
        [toR exA, toR exB] = _
      decide +kernel
    rw [h]
    rfl
  rw [h1]
  rfl

theorem ex_check (g : ℚ) (hg : g ≠ 0) :
    Data.checkAvailability (GapFill.onsetOpts false true false 1 1) 0 4 (Spec.amplified (fun _ => g) exData.waveforms) =
      .ok (true, [("Z".toList, true)]) := by
  have := checkAvailability_amp (g := fun _ => g) (fun _ => hg) (GapFill.onsetOpts false true false 1 1) 0 4 exData.waveforms
  have e : exData.waveforms.map (ampT fun _ => g) = Spec.amplified (fun _ => g) exData.waveforms := rfl
  rw [e] at this
  rw [this]
  decide +kernel

theorem ex_prepare (fill g : ℚ) : GapFill.prepare true false (fun _ _ => 1) fill 0 4
    [⟨"Z".toList, 0, 1, [g * 1, g * 2]⟩, ⟨"Z".toList, 3, 1, [g * 3, g * 5]⟩] = [[g * 1, g * 2, fill, g * 3, g * 5]] := by
  have hs : ∀ a b : List ℚ, [(⟨"Z".toList, 0, 1, a⟩ : Trace), ⟨"Z".toList, 3, 1, b⟩].insertionSort Data.Trace.le =
      [⟨"Z".toList, 0, 1, a⟩, ⟨"Z".toList, 3, 1, b⟩] := by
    intro a b
    have h : Data.Trace.le ⟨"Z".toList, 0, 1, a⟩ ⟨"Z".toList, 3, 1, b⟩ := Or.inl (by norm_num)
    simp only [List.insertionSort_cons, List.insertionSort_nil, List.orderedInsert_nil, List.orderedInsert_cons]
    rw [if_pos h]
  have hm : GapFill.merge fill ([(⟨"Z".toList, 0, 1, [g * 1, g * 2]⟩ : Trace), ⟨"Z".toList, 3, 1, [g * 3, g * 5]⟩].map
      (GapFill.taper fun _ _ => 1)) = some ⟨"Z".toList, 0, 1, [g * 1, g * 2, fill, g * 3, g * 5]⟩ := by
    have ht : [(⟨"Z".toList, 0, 1, [g * 1, g * 2]⟩ : Trace), ⟨"Z".toList, 3, 1, [g * 3, g * 5]⟩].map
      (GapFill.taper fun _ _ => 1) = [⟨"Z".toList, 0, 1, [g * 1, g * 2]⟩, ⟨"Z".toList, 3, 1, [g * 3, g * 5]⟩] := by
      simp [GapFill.taper]
    rw [ht]
    unfold GapFill.merge
    rw [hs]
    simp only [List.foldl_cons, List.foldl_nil, GapFill.join, Data.Trace.stop]
    have : pyRound (((3 : ℚ) - (0 + (((([g * 1, g * 2] : List ℚ).length : ℕ) : ℚ) - 1) / 1)) * 1) = 2 := by
      have : (((3 : ℚ) - (0 + (((([g * 1, g * 2] : List ℚ).length : ℕ) : ℚ) - 1) / 1)) * 1) = ((2 : ℤ) : ℚ) := by
        norm_num
      rw [this, pyRound_int]
    rw [this]
    rfl
  unfold GapFill.prepare
  rw [if_pos (by decide), hm]
  simp only [GapFill.padTrim]
  have hk : ⌊((0 : ℚ) - (0 - 1 / 100000)) * 1⌋ = 0 := by norm_num
  rw [hk]
  have hn : ⌊((4 : ℚ) + 1 / 100000 - (0 - ((0 : ℤ) : ℚ) / 1)) * 1⌋ = 4 := by norm_num
  rw [hn]
  rfl

theorem ex_component (fill g : ℚ) (hf : 0 < fill) :
    ∃ out, component exCfg 1 1 [g * 1, g * 2, fill, g * 3, g * 5] = some out ∧ out.length = 5 ∧
      out[2]? = some (some (9 * (g : ℝ) ^ 2 / (fill : ℝ) ^ 2)) := by
  have hfr : (0 : ℝ) < (fill : ℝ) ^ 2 := by have : (0 : ℝ) < fill := by exact_mod_cast hf
                                            positivity
  have e : component exCfg 1 1 [g * 1, g * 2, fill, g * 3, g * 5] =
      StaLta.centredC [((g * 1 : ℚ) : ℝ) ^ 2, ((g * 2 : ℚ) : ℝ) ^ 2, (fill : ℝ) ^ 2, ((g * 3 : ℚ) : ℝ) ^ 2,
        ((g * 5 : ℚ) : ℝ) ^ 2] 1 1 := rfl
  rw [e, StaLta.centredC_eq _ (le_refl 1) (le_refl 1) (by simp)]
  refine ⟨_, rfl, by simp, ?_⟩
  rw [List.getElem?_map, List.getElem?_range (by simp)]
  simp [StaLta.centVal, Spec.winSum, StaLta.cdiv, StaLta.frac, hfr, hfr.ne']
  ring

theorem rms_single {v : ℝ} (hv : 0 ≤ v) : Onset.rms [v] = v := by
  simp [Onset.rms, Real.sqrt_sq hv]

theorem ex_rows (fill g : ℚ) (d : CalcOnsets.Data) (h0 : d.start = 0) (h4 : d.stop = 4) :
    rows exCfg (exExt fill) d (Spec.amplified (fun _ => g) exData.waveforms) =
      [("Z".toList, [g * 1, g * 2, fill, g * 3, g * 5])] := by
  unfold rows
  rw [if_pos (by decide)]
  have hids : Data.ids (Spec.amplified (fun _ => g) exData.waveforms) = ["Z".toList] := by
    have := ids_amp (fun _ => g) exData.waveforms
    have e : exData.waveforms.map (ampT fun _ => g) = Spec.amplified (fun _ => g) exData.waveforms := rfl
    rw [e] at this
    rw [this]
    decide +kernel
  rw [hids]
  have hfil : ((Spec.amplified (fun _ => g) exData.waveforms).filter fun t => t.id = "Z".toList) =
      [⟨"Z".toList, 0, 1, [g * 1, g * 2]⟩, ⟨"Z".toList, 3, 1, [g * 3, g * 5]⟩] := rfl
  simp only [List.flatMap_cons, List.flatMap_nil, List.append_nil]
  rw [hfil]
  have := ex_prepare fill g
  have e : GapFill.prepare exCfg.allowGaps exCfg.fullTimespan (exExt fill).weight (exExt fill).fill d.start d.stop
    [⟨"Z".toList, 0, 1, [g * 1, g * 2]⟩, ⟨"Z".toList, 3, 1, [g * 3, g * 5]⟩] = [[g * 1, g * 2, fill, g * 3, g * 5]] := by rw [h0, h4]; exact this
  rw [e]
  rfl

theorem ex_onset (fill g : ℚ) (hf : 0 < fill) (hf1 : fill ≤ 1) (hg : 1 ≤ g) :
    ∃ f, onset exCfg "P".toList [("Z".toList, [g * 1, g * 2, fill, g * 3, g * 5])] = .ok f ∧ f.length = 5 ∧
      f[2]? = some (some (9 * (g : ℝ) ^ 2 / (fill : ℝ) ^ 2)) := by
  obtain ⟨out, h1, h2, h3⟩ := ex_component fill g hf
  have hv : (2 : ℝ) / 5 ≤ 9 * (g : ℝ) ^ 2 / (fill : ℝ) ^ 2 := by
    have hf' : (0 : ℝ) < fill := by exact_mod_cast hf
    have hf1' : (fill : ℝ) ≤ 1 := by exact_mod_cast hf1
    have hg' : (1 : ℝ) ≤ g := by exact_mod_cast hg
    rw [le_div_iff₀ (by positivity)]
    nlinarith
  unfold onset
  have hw : (Pads.time2sample (exCfg.sta "P".toList) exCfg.sr + 1).toNat = 1 := by
    show (Pads.time2sample 0 1 + 1).toNat = 1
    decide +kernel
  have hw' : (Pads.time2sample (exCfg.lta "P".toList) exCfg.sr + 1).toNat = 1 := hw
  rw [hw, hw']
  have hc : components exCfg 1 1 [("Z".toList, [g * 1, g * 2, fill, g * 3, g * 5])] = some [out] := by
    unfold components
    rw [h1]
    rfl
  rw [hc]
  refine ⟨_, rfl, by simp [h2], ?_⟩
  simp only [List.headD_cons, h2, List.map_cons, List.map_nil]
  rw [List.getElem?_map, List.getElem?_range (by norm_num)]
  simp only [Option.map_some, List.getD_eq_getElem?_getD, h3, Option.getD_some]
  have hpos : 0 ≤ 9 * (g : ℝ) ^ 2 / (fill : ℝ) ^ 2 := by positivity
  simp only [combined, List.all_cons, Option.isSome_some, List.all_nil, Bool.and_self, if_true, List.filterMap_cons_some,
    List.filterMap_nil, id]
  have hfm : ∀ v : ℝ, List.filterMap (fun x => x) [some v] = [v] := fun _ => rfl
  rw [hfm, rms_single hpos]
  exact congrArg some (congrArg some (max_eq_right hv))

end OnsetGain

open OnsetGain in
/-- **C162 is violated with gap filling**: in a scan of one channel with `allow_gaps`, where data return after a gap, the
centred onset function is proportional to the square of the gain, for every fill value and every gain of at least 1; in
particular it depends on the units of the data. -/
theorem C162_violated (fill : ℚ) (hf : 0 < fill) (hf1 : fill ≤ 1) (g : ℚ) (hg : 1 ≤ g) :
    ∃ o f, calculateOnsets exCfg (exExt fill)
        { exData with waveforms := Spec.amplified (fun _ => g) exData.waveforms } = .ok o ∧
      o.availability = [("ST01_P".toList, 1)] ∧ o.onsets = [(("ST01".toList, "P".toList), f)] ∧
      f[2]? = some (some (9 * (g : ℝ) ^ 2 / (fill : ℝ) ^ 2)) := by
  have hg0 : g ≠ 0 := by linarith
  have hrows := ex_rows fill g { exData with waveforms := Spec.amplified (fun _ => g) exData.waveforms } rfl rfl
  obtain ⟨f, hf2, hlen, hf3⟩ := ex_onset fill g hf hf1 hg
  refine ⟨⟨[("ST01_P".toList, 1)], [(("ST01".toList, "P".toList), f)], [("Z".toList, [g * 1, g * 2, fill, g * 3, g * 5])]⟩,
    f, ?_, rfl, rfl, hf3⟩
  have hsp : stationPhase exCfg (exExt fill) { exData with waveforms := Spec.amplified (fun _ => g) exData.waveforms }
      "P".toList (Spec.amplified (fun _ => g) exData.waveforms) "ST01".toList =
      .ok (some ([("Z".toList, [g * 1, g * 2, fill, g * 3, g * 5])], f)) := by
    unfold stationPhase
    have hfil : ((Spec.amplified (fun _ => g) exData.waveforms).filter fun t => (exExt fill).ofStation "ST01".toList t.id) =
        Spec.amplified (fun _ => g) exData.waveforms := rfl
    simp only [hfil]
    have hck : Data.checkAvailability (GapFill.onsetOpts exCfg.allChannels exCfg.allowGaps exCfg.fullTimespan
        (exCfg.count "P".toList) exCfg.sr) exData.start exData.stop (Spec.amplified (fun _ => g) exData.waveforms) =
        .ok (true, [("Z".toList, true)]) := ex_check g hg0
    rw [hck]
    have hd : dropFailed [("Z".toList, true)] (Spec.amplified (fun _ => g) exData.waveforms) =
        Spec.amplified (fun _ => g) exData.waveforms := rfl
    simp only
    rw [hd, hrows, hf2]
  unfold calculateOnsets
  have hph : exCfg.phases = ["P".toList] := rfl
  rw [hph]
  unfold phaseLoop
  rw [ex_pre fill g hg0]
  have hst : exData.stations = ["ST01".toList] := rfl
  simp only [hst]
  unfold stationLoop
  have hsp' : stationPhase exCfg (exExt fill) ⟨Spec.amplified (fun _ => g) exData.waveforms, ["ST01".toList],
      exData.resample, exData.upfactor, exData.start, exData.stop⟩ "P".toList
      (Spec.amplified (fun _ => g) exData.waveforms) "ST01".toList =
      .ok (some ([("Z".toList, [g * 1, g * 2, fill, g * 3, g * 5])], f)) := hsp
  rw [hsp']
  rfl

/-- Two gains give two onset functions: 2 and 1. -/
example : (9 * ((2 : ℚ) : ℝ) ^ 2 / ((1 / 1000 : ℚ) : ℝ) ^ 2) ≠ 9 * ((1 : ℚ) : ℝ) ^ 2 / ((1 / 1000 : ℚ) : ℝ) ^ 2 := by
  norm_num

/-- A case of `C162_units_partial`: linear signal processing, the energy transform, a gain of -3. -/
example : KeepsIds (OnsetGain.exExt 1) ∧ Spec.Linear (OnsetGain.exExt 1) ∧ Transform.Ok (StaLta.Transform.energy (K := ℝ)) ∧
    Spec.amplified (fun _ => -3) [⟨['Z'], 0, 1, [1, 2]⟩] = [⟨['Z'], 0, 1, [-3, -6]⟩] :=
  ⟨OnsetGain.exExt_keeps 1, OnsetGain.exExt_linear 1, trivial, by decide +kernel⟩

end QM
