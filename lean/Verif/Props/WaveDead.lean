import Verif.Props.WaveUnused
import Verif.Props.BadChannels

/-!
# Archived channels that fail the data checks do not matter: C183
-/

namespace QM

open QM.Waveforms QM.WaveDetect QM.CalcOnsets QM.Spec
open QM.Data (Sane loadFromPath)
open QM.Locate (Trig Later)
open QM.Pads (locateWindow scanPads)

/-! ## Specification -/

/-- Two archives hold, under every pattern, the same records of every channel that is not among the bad ones. -/
def Spec.SameBut (s : Scan) (bad : Str → Bool) (files : Data.Query → List (Option (List (Rec ℚ)))) : Prop :=
  ∀ q i, bad i = false → channelRecords i (files q) = channelRecords i (s.files q)

/-- In the data read for a window the filters can be applied, and for no phase and station does a bad channel meet the quality
criteria: it is flat, has gaps or overlaps, is too short or at another rate. -/
def Spec.BadFail (s : Scan) (bad : Str → Bool) (win extra : ℚ × ℚ) : Prop :=
  ∀ o, s.readEvent win extra = .ok o → ∀ p ∈ s.onset.phases, ∃ l, preStream s.onset s.ext (s.data win o) p = .ok l ∧
    ∀ a ∈ s.stations, ∀ t ∈ ofStation s.ext a l, bad t.id = true →
      ¬ Passes (criteria s.onset p) win.1 win.2 (ofStation s.ext a l) t

/-- The archive without the records of the bad channels. -/
def Spec.withoutChannels (bad : Str → Bool) (files : Data.Query → List (Option (List (Rec ℚ)))) : Data.Query → List (Option (List (Rec ℚ))) :=
  fun q => (files q).map fun f => f.map fun l => l.filter fun r => !bad r.id

namespace WaveDead

/-! ### Onset functions -/

/-- Without the traces of some channels that fail, the same traces pass. -/
theorem passing_without {o : Data.Opts} {s e : ℚ} {w : List Data.Trace} (bad : Str → Bool)
    (h : ∀ t ∈ w, bad t.id = true → ¬ Spec.Passes o s e w t) :
    Spec.passing o s e (w.filter fun t => !bad t.id) = Spec.passing o s e w := by
  classical
  unfold Spec.passing
  rw [List.filter_filter]
  apply List.filter_congr
  intro t ht
  have hi : bad t.id = false → ((w.filter fun t => !bad t.id).filter fun u => u.id = t.id) = w.filter fun u => u.id = t.id := by
    intro hb
    rw [List.filter_filter]
    apply List.filter_congr
    intro u _
    by_cases hu : u.id = t.id
    · simp [hu, hb]
    · simp [hu]
  cases hb : bad t.id with
  | true => simp [h t ht hb]
  | false =>
    have : Spec.Passes o s e (w.filter fun t => !bad t.id) t ↔ Spec.Passes o s e w t := by
      unfold Spec.Passes
      rw [hi hb]
    simp [this]

theorem available_iff {o : Data.Opts} (ho : o.allChannels = false) (s e : ℚ) (w : List Data.Trace) :
    Spec.Available o s e w ↔ Spec.passing o s e w ≠ [] := by
  classical
  unfold Spec.Available Spec.passing
  rw [if_neg (by rw [ho]; simp)]
  constructor
  · rintro ⟨t, h1, h2⟩ h
    have : t ∈ w.filter fun t => decide (Spec.Passes o s e w t) := List.mem_filter.2 ⟨h1, by simpa using h2⟩
    rw [h] at this
    cases this
  · intro h
    obtain ⟨t, ht⟩ := List.exists_mem_of_ne_nil _ h
    obtain ⟨h1, h2⟩ := List.mem_filter.1 ht
    exact ⟨t, h1, by simpa using h2⟩

open Classical in
/-- What the loop over stations makes of a stream depends on the traces that pass. -/
theorem stationPhase_eq (c : CalcOnsets.Cfg) (hall : c.allChannels = false) (hsr : c.sr ≠ 0) (x : Ext) (d : CalcOnsets.Data) (p : Str)
    (l : List Data.Trace) (hs : ∀ t ∈ l, Sane t) (s : Str) :
    stationPhase c x d p l s =
      if Spec.passing (Spec.criteria c p) d.start d.stop (Spec.ofStation x s l) = [] then .ok none else
      match onset c p (rows c x d (Spec.passing (Spec.criteria c p) d.start d.stop (Spec.ofStation x s l))) with
      | .error e => .error e
      | .ok o => .ok (some (rows c x d (Spec.passing (Spec.criteria c p) d.start d.stop (Spec.ofStation x s l)), o)) := by
  have hs' : ∀ t ∈ Spec.ofStation x s l, Sane t := fun t ht => hs t (List.mem_filter.mp ht).1
  unfold stationPhase
  simp only [OnsetValue.criteria_eq]
  have e : (l.filter fun t => x.ofStation s t.id) = Spec.ofStation x s l := rfl
  rw [e]
  generalize Spec.ofStation x s l = w at hs' ⊢
  by_cases hne : w = []
  · subst hne
    rw [C54_no_data]
    rw [if_pos (by unfold Spec.passing; rfl)]
  · obtain ⟨a, av, h1, h2, h3, h4, h5⟩ := C54_availability_iff (Spec.criteria c p) d.start d.stop w hne hs'
      (fun _ => hsr) (fun h => by have : (Spec.criteria c p).allChannels = false := hall; rw [this] at h; cases h)
    rw [h1]
    have hav : a = true ↔ Spec.Available (Spec.criteria c p) d.start d.stop w := h5
    rw [available_iff hall] at hav
    cases a with
    | false =>
      have : Spec.passing (Spec.criteria c p) d.start d.stop w = [] := by
        by_contra hc
        exact Bool.false_ne_true (hav.2 hc)
      rw [if_pos this]
    | true =>
      simp only
      rw [OnsetValue.passing_eq h3 h2 h4, if_neg (hav.1 rfl)]
      cases onset c p (rows c x d (Spec.passing (Spec.criteria c p) d.start d.stop w)) <;> rfl

/-- The data without the bad channels. -/
def keepGood (bad : Str → Bool) (d : CalcOnsets.Data) : CalcOnsets.Data :=
  { d with waveforms := d.waveforms.filter fun t => !bad t.id }

theorem phaseLoop_good (c : CalcOnsets.Cfg) (hall : c.allChannels = false) (hsr : c.sr ≠ 0) (x : Ext) (hx : KeepsIds x)
    (d : CalcOnsets.Data) (bad : Str → Bool) (ps : List Str)
    (h : ∀ p ∈ ps, ∃ l, preStream c x d p = .ok l ∧ (∀ t ∈ l, Sane t) ∧ ∀ a ∈ d.stations, ∀ t ∈ Spec.ofStation x a l,
      bad t.id = true → ¬ Spec.Passes (Spec.criteria c p) d.start d.stop (Spec.ofStation x a l) t) :
    ∀ o, phaseLoop c x (keepGood bad d) ps o = phaseLoop c x d ps o := by
  have hst : ∀ p (l : List Data.Trace), (∀ t ∈ l, Sane t) → ∀ ss : List Str, (∀ a ∈ ss, ∀ t ∈ Spec.ofStation x a l,
      bad t.id = true → ¬ Spec.Passes (Spec.criteria c p) d.start d.stop (Spec.ofStation x a l) t) → ∀ o,
      stationLoop c x (keepGood bad d) p (l.filter fun t => !bad t.id) ss o = stationLoop c x d p l ss o := by
    intro p l hl ss
    induction ss with
    | nil => intro _ o; rfl
    | cons a ss ih =>
      intro hb o
      unfold stationLoop
      have e : stationPhase c x (keepGood bad d) p (l.filter fun t => !bad t.id) a = stationPhase c x d p l a := by
        have e1 : stationPhase c x (keepGood bad d) p (l.filter fun t => !bad t.id) a =
          stationPhase c x d p (l.filter fun t => !bad t.id) a := rfl
        rw [e1, stationPhase_eq c hall hsr x d p l hl a,
          stationPhase_eq c hall hsr x d p _ (fun t ht => hl t (List.mem_filter.1 ht).1) a]
        have e2 : Spec.ofStation x a (l.filter fun t => !bad t.id) = (Spec.ofStation x a l).filter fun t => !bad t.id := by
          unfold Spec.ofStation
          rw [List.filter_filter, List.filter_filter]
          apply List.filter_congr
          intro t _
          rw [Bool.and_comm]
        rw [e2, passing_without bad (hb a (by simp))]
      rw [e]
      simp only [ih fun b hb' => hb b (by simp [hb'])]
  induction ps with
  | nil => intro o; rfl
  | cons p ps ih =>
    intro o
    obtain ⟨l, h1, h2, h3⟩ := h p (by simp)
    have hf := preStream_filter c x hx d p (fun i => !bad i) l h1
    have hf : preStream c x (keepGood bad d) p = .ok (l.filter fun t => !bad t.id) := hf
    unfold phaseLoop
    rw [h1, hf]
    simp only
    have e : (keepGood bad d).stations = d.stations := rfl
    rw [e, hst p l h2 d.stations h3]
    simp only [ih fun q hq => h q (by simp [hq])]

theorem calculateOnsets_good (c : CalcOnsets.Cfg) (hall : c.allChannels = false) (hsr : c.sr ≠ 0) (x : Ext) (hx : KeepsIds x)
    (d : CalcOnsets.Data) (bad : Str → Bool)
    (h : ∀ p ∈ c.phases, ∃ l, preStream c x d p = .ok l ∧ (∀ t ∈ l, Sane t) ∧ ∀ a ∈ d.stations, ∀ t ∈ Spec.ofStation x a l,
      bad t.id = true → ¬ Spec.Passes (Spec.criteria c p) d.start d.stop (Spec.ofStation x a l) t) :
    calculateOnsets c x (keepGood bad d) = calculateOnsets c x d := by
  unfold calculateOnsets
  rw [phaseLoop_good c hall hsr x hx d bad c.phases h]

/-! ### Reading -/

theorem channelRecords_flat (files files' : Data.Query → List (Option (List (Rec ℚ)))) {i : Str}
    (h : ∀ q, channelRecords i (files q) = channelRecords i (files' q)) (l : List Data.Query) :
    channelRecords i (l.flatMap files) = channelRecords i (l.flatMap files') := by
  have e : ∀ fs : Data.Query → List (Option (List (Rec ℚ))),
      channelRecords i (l.flatMap fs) = l.flatMap fun q => channelRecords i (fs q) := by
    intro fs
    unfold channelRecords
    rw [List.flatMap_assoc]
  rw [e, e]
  congr 1
  funext q
  exact h q

open WaveUnused in
/-- The records read of the other channels are the same up to their order. -/
theorem got_good {s : Scan} {files : Data.Query → List (Option (List (Rec ℚ)))} {order : List Str → List Str}
    (hs : Spec.FilterScan s) (ho' : SetOrder order) {bad : Str → Bool} (h : Spec.SameBut s bad files) (win extra : ℚ × ℚ) :
    ((got s win extra).filter fun r => !bad r.id).Perm
      ((got (Spec.onArchive s files order) win extra).filter fun r => !bad r.id) := by
  classical
  rw [got_eq hs.order, got_eq (s := Spec.onArchive s files order) ho']
  rw [List.perm_iff_count]
  intro r
  by_cases hr : (!bad r.id) = true
  · rw [List.count_filter (p := fun r : Rec ℚ => !bad r.id) hr, List.count_filter (p := fun r : Rec ℚ => !bad r.id) hr]
    have hcount : ∀ l : List (Rec ℚ), l.count r = (l.filter (fun x : Rec ℚ => decide (x.id = r.id))).count r := fun l =>
      (List.count_filter (p := fun x : Rec ℚ => decide (x.id = r.id)) (by simp)).symm
    rw [hcount, hcount (ReadSamples.window (Spec.onArchive s files order).order _ _ _),
      window_records hs.order hs.toSampleId,
      window_records (order := (Spec.onArchive s files order).order) (shift := (Spec.onArchive s files order).toSample) ho' hs.toSampleId]
    have e : channelRecords r.id (Spec.found (Spec.onArchive s files order) (win.1 - extra.1) (win.2 + extra.2)) =
        channelRecords r.id (Spec.found s (win.1 - extra.1) (win.2 + extra.2)) :=
      channelRecords_flat files s.files (fun q => h q r.id (by simpa using hr)) _
    rw [e]
    rfl
  · have hz : ∀ l : List (Rec ℚ), (l.filter fun r => !bad r.id).count r = 0 := by
      intro l
      rw [List.count_eq_zero]
      intro hm
      exact hr (List.mem_filter.1 hm).2
    rw [hz, hz]

/-! ### Computing -/

variable {s : Scan} {files : Data.Query → List (Option (List (Rec ℚ)))} {order : List Str → List Str} {bad : Str → Bool}

/-- What `BadFail` says of the data of a window. -/
theorem badFail (hs : Spec.FilterScan s) {win extra : ℚ × ℚ} (hu : Spec.UsableRead s win extra) (hb : Spec.BadFail s bad win extra)
    {o : Waveforms.Out ℚ} (h : s.readEvent win extra = .ok o) :
    ∀ p ∈ s.onset.phases, ∃ l, preStream s.onset s.ext (s.data win o) p = .ok l ∧ (∀ t ∈ l, Sane t) ∧
      ∀ a ∈ (s.data win o).stations, ∀ t ∈ Spec.ofStation s.ext a l,
      bad t.id = true → ¬ Spec.Passes (Spec.criteria s.onset p) (s.data win o).start (s.data win o).stop (Spec.ofStation s.ext a l) t := by
  intro p hp
  obtain ⟨l, h1, h2⟩ := hb o h p hp
  refine ⟨l, h1, ?_, h2⟩
  rw [← WaveUnused.preStream_keep _ _ _ hp] at h1
  exact WaveUnused.keep_sane hs hu h p hp l h1

theorem compute_good (hs : Spec.FilterScan s) (hall : s.onset.allChannels = false) (hx : KeepsIds s.ext) {win extra : ℚ × ℚ}
    (hu : Spec.UsableRead s win extra) (hb : Spec.BadFail s bad win extra) {o : Waveforms.Out ℚ} (h : s.readEvent win extra = .ok o) :
    calculateOnsets s.onset s.ext (keepGood bad (s.data win o)) = calculateOnsets s.onset s.ext (s.data win o) :=
  calculateOnsets_good _ hall hs.target.1.ne' _ hx _ bad (badFail hs hu hb h)

theorem good_data (s : Scan) (bad : Str → Bool) (win : ℚ × ℚ) (o : Waveforms.Out ℚ) :
    (keepGood bad (s.data win o)).waveforms = (o.waveforms.filter fun r => !bad r.id).map toTrace := by
  unfold keepGood Scan.data
  rw [List.filter_map]
  rfl

/-- What is computed is the same when both archives give data. -/
theorem both (hs : Spec.FilterScan s) (ho' : SetOrder order) (hall : s.onset.allChannels = false) (hx : KeepsIds s.ext)
    (hf : Spec.SameBut s bad files) {win extra : ℚ × ℚ} (hu : Spec.UsableRead s win extra) (hb : Spec.BadFail s bad win extra)
    (hu' : Spec.UsableRead (Spec.onArchive s files order) win extra) (hb' : Spec.BadFail (Spec.onArchive s files order) bad win extra)
    {o o' : Waveforms.Out ℚ} (h : s.readEvent win extra = .ok o)
    (h' : (Spec.onArchive s files order).readEvent win extra = .ok o') (ts : ℚ) :
    (Spec.onArchive s files order).compute ts win o' = s.compute ts win o ∧
    (Spec.onArchive s files order).availability win o' = s.availability win o := by
  have hs' : Spec.FilterScan (Spec.onArchive s files order) := ⟨ho', hs.toSampleId, hs.target, hs.corner, hs.keeps⟩
  have hp := got_good hs ho' hf win extra
  have g : WaveUnused.got s win extra = o.waveforms := by unfold WaveUnused.got; rw [h]
  have g' : WaveUnused.got (Spec.onArchive s files order) win extra = o'.waveforms := by unfold WaveUnused.got; rw [h']
  rw [g, g'] at hp
  have hk := compute_good hs hall hx hu hb h
  have hk' := compute_good (s := Spec.onArchive s files order) hs' hall hx hu' hb' h'
  have hd : keepGood bad ((Spec.onArchive s files order).data win o') =
      { keepGood bad (s.data win o) with waveforms := (o'.waveforms.filter fun r => !bad r.id).map toTrace } := by
    have := good_data (Spec.onArchive s files order) bad win o'
    exact congrArg (fun w => (⟨w, s.stations, s.resample, s.upfactor, win.1, win.2⟩ : CalcOnsets.Data)) this
  have hp' : (keepGood bad (s.data win o)).waveforms.Perm ((o'.waveforms.filter fun r => !bad r.id).map toTrace) := by
    rw [good_data]; exact hp.map _
  have hsane : ∀ p ∈ s.onset.phases, ∀ l, preStream s.onset s.ext (keepGood bad (s.data win o)) p = .ok l → ∀ t ∈ l, Sane t := by
    intro p hp l hl t ht
    obtain ⟨l0, h1, h2, -⟩ := badFail hs hu hb h p hp
    have h3 : preStream s.onset s.ext (keepGood bad (s.data win o)) p = .ok (l0.filter fun t => !bad t.id) :=
      preStream_filter s.onset s.ext hx (s.data win o) p (fun i => !bad i) l0 h1
    rw [h3] at hl
    obtain rfl := Except.ok.inj hl
    exact h2 t (List.mem_filter.1 ht).1
  constructor
  · have e1 : s.compute ts win o = WaveScan.compute s.onset s.ext s.lut s.grid (scanPads s.windows s.ttmax s.rate ts) (s.sched win)
        (s.sched' win) (keepGood bad (s.data win o)) := by
      unfold Scan.compute WaveScan.compute
      rw [hk]
    have e2 : (Spec.onArchive s files order).compute ts win o' = WaveScan.compute s.onset s.ext s.lut s.grid
        (scanPads s.windows s.ttmax s.rate ts) (s.sched win) (s.sched' win)
        (keepGood bad ((Spec.onArchive s files order).data win o')) := by
      unfold Scan.compute WaveScan.compute
      rw [← hk']
      rfl
    rw [e1, e2, hd]
    exact C170_order s.onset hs.target.1.ne' s.ext (keepGood bad (s.data win o)) _ hp' hsane s.lut s.grid
      (scanPads s.windows s.ttmax s.rate ts) (s.sched win) (s.sched' win)
  · funext col
    obtain ⟨a, b⟩ := C164_order_of_files s.onset hs.target.1.ne' s.ext (keepGood bad (s.data win o)) _ hp' hsane
    rw [← hd] at a b
    have hk'' : calculateOnsets s.onset s.ext (keepGood bad ((Spec.onArchive s files order).data win o')) =
      calculateOnsets s.onset s.ext ((Spec.onArchive s files order).data win o') := hk'
    rw [hk, hk''] at a b
    have e : (Spec.onArchive s files order).availability win o' col =
        (match calculateOnsets s.onset s.ext ((Spec.onArchive s files order).data win o') with
          | .error _ => 0
          | .ok r => (r.availability.lookup col.toList).getD 0) := rfl
    rw [e]
    unfold Scan.availability
    cases hc : calculateOnsets s.onset s.ext (s.data win o) with
    | error e => rw [a e hc]
    | ok r =>
      obtain ⟨r', h1, h2, -, -⟩ := b r hc
      rw [h1]
      simp only
      rw [h2]

/-- When nothing but bad channels is read, the data are reported as not available. -/
theorem none_good (hs : Spec.FilterScan s) (hall : s.onset.allChannels = false) (hx : KeepsIds s.ext) {win extra : ℚ × ℚ}
    (hu : Spec.UsableRead s win extra) (hb : Spec.BadFail s bad win extra) {o : Waveforms.Out ℚ} (h : s.readEvent win extra = .ok o)
    (hn : (o.waveforms.filter fun r => !bad r.id) = []) (ts : ℚ) : s.compute ts win o = .error (.onset .dataAvailability) := by
  have hk := compute_good hs hall hx hu hb h
  have h1 : calculateOnsets s.onset s.ext (keepGood bad (s.data win o)) = .error .dataAvailability := by
    refine WaveUnused.calculateOnsets_empty _ _ _ hs.corner ?_
    unfold WaveUnused.keep
    rw [good_data, hn]
    rfl
  unfold Scan.compute WaveScan.compute
  rw [← hk, h1]

theorem outcome_good (hs : Spec.FilterScan s) (ho' : SetOrder order) (hall : s.onset.allChannels = false) (hx : KeepsIds s.ext)
    (hf : Spec.SameBut s bad files) (ts : ℚ) {win : ℚ × ℚ} (hu : Spec.UsableRead s win (0, 0)) (hb : Spec.BadFail s bad win (0, 0))
    (hu' : Spec.UsableRead (Spec.onArchive s files order) win (0, 0)) (hb' : Spec.BadFail (Spec.onArchive s files order) bad win (0, 0)) :
    (Spec.onArchive s files order).outcome ts win = s.outcome ts win ∨
      WaveUnused.Skip ((Spec.onArchive s files order).outcome ts win) ∧ WaveUnused.Skip (s.outcome ts win) := by
  have hp := got_good hs ho' hf win (0, 0)
  have hs' : Spec.FilterScan (Spec.onArchive s files order) := ⟨ho', hs.toSampleId, hs.target, hs.corner, hs.keeps⟩
  unfold Scan.outcome
  rw [SameSamples.read_eq, SameSamples.read_eq]
  unfold WaveUnused.got at hp
  cases h : s.readEvent win (0, 0) with
  | error e =>
    right
    cases h' : (Spec.onArchive s files order).readEvent win (0, 0) with
    | error e' =>
      rcases SameSamples.read_error h with rfl | rfl <;> rcases SameSamples.read_error h' with rfl | rfl <;> exact ⟨trivial, trivial⟩
    | ok o' =>
      rw [h, h'] at hp
      have := none_good (s := Spec.onArchive s files order) hs' hall hx hu' hb' h' (List.nil_perm.1 hp) ts
      simp only
      rw [this]
      rcases SameSamples.read_error h with rfl | rfl <;> exact ⟨trivial, trivial⟩
  | ok o =>
    cases h' : (Spec.onArchive s files order).readEvent win (0, 0) with
    | error e' =>
      right
      rw [h, h'] at hp
      have := none_good hs hall hx hu hb h (List.perm_nil.1 hp) ts
      simp only
      rw [this]
      rcases SameSamples.read_error h' with rfl | rfl <;> exact ⟨trivial, trivial⟩
    | ok o' =>
      left
      obtain ⟨h1, h2⟩ := both hs ho' hall hx hf hu hb hu' hb' h h' ts
      simp only
      rw [h1, h2]
      rfl

theorem locate_good (hs : Spec.FilterScan s) (ho' : SetOrder order) (hall : s.onset.allChannels = false) (hx : KeepsIds s.ext)
    (hf : Spec.SameBut s bad files) (mw : ℚ) (extra : ℚ × ℚ) (x : Trig)
    (hu : Spec.UsableRead s (Spec.eventWindow s mw x) extra) (hb : Spec.BadFail s bad (Spec.eventWindow s mw x) extra)
    (hu' : Spec.UsableRead (Spec.onArchive s files order) (Spec.eventWindow s mw x) extra)
    (hb' : Spec.BadFail (Spec.onArchive s files order) bad (Spec.eventWindow s mw x) extra) :
    (Spec.onArchive s files order).locateOutcome mw extra x = s.locateOutcome mw extra x ∨
      WaveUnused.SkipEvent ((Spec.onArchive s files order).locateOutcome mw extra x) ∧
        WaveUnused.SkipEvent (s.locateOutcome mw extra x) := by
  have hs' : Spec.FilterScan (Spec.onArchive s files order) := ⟨ho', hs.toSampleId, hs.target, hs.corner, hs.keeps⟩
  set win := Spec.eventWindow s mw x with hw
  have ew : locateWindow x.time mw (scanPads s.windows s.ttmax s.rate (4 * mw)) = win := rfl
  have ew' : locateWindow x.time mw (scanPads (Spec.onArchive s files order).windows (Spec.onArchive s files order).ttmax
    (Spec.onArchive s files order).rate (4 * mw)) = win := rfl
  have hp := got_good hs ho' hf win extra
  unfold Scan.locateOutcome
  rw [ew, ew']
  unfold WaveUnused.got at hp
  cases h : s.readEvent win extra with
  | error e =>
    right
    cases h' : (Spec.onArchive s files order).readEvent win extra with
    | error e' =>
      rcases SameSamples.read_error h with rfl | rfl <;> rcases SameSamples.read_error h' with rfl | rfl <;> exact ⟨trivial, trivial⟩
    | ok o' =>
      rw [h, h'] at hp
      have := none_good (s := Spec.onArchive s files order) hs' hall hx hu' hb' h' (List.nil_perm.1 hp) (4 * mw)
      simp only
      rw [this]
      rcases SameSamples.read_error h with rfl | rfl <;> exact ⟨trivial, trivial⟩
  | ok o =>
    cases h' : (Spec.onArchive s files order).readEvent win extra with
    | error e' =>
      right
      rw [h, h'] at hp
      have := none_good hs hall hx hu hb h (List.perm_nil.1 hp) (4 * mw)
      simp only
      rw [this]
      rcases SameSamples.read_error h' with rfl | rfl <;> exact ⟨trivial, trivial⟩
    | ok o' =>
      left
      obtain ⟨h1, -⟩ := both hs ho' hall hx hf hu hb hu' hb' h h' (4 * mw)
      simp only
      rw [h1]
      rfl

/-! ### An archive without the bad channels -/

theorem without_good (s : Scan) (bad : Str → Bool) : Spec.SameBut s bad (Spec.withoutChannels bad s.files) := by
  intro q i hi
  unfold Spec.withoutChannels channelRecords
  rw [List.flatMap_map]
  congr 1
  funext f
  cases f with
  | none => rfl
  | some l =>
    simp only [Option.map_some, Option.getD_some]
    rw [List.filter_filter]
    apply List.filter_congr
    intro r _
    by_cases hr : r.id = i
    · simp [hr, hi]
    · simp [hr]

theorem without_bad (bad : Str → Bool) (files : Data.Query → List (Option (List (Rec ℚ)))) {i : Str} (hi : bad i = true)
    (l : List Data.Query) : channelRecords i (l.flatMap (Spec.withoutChannels bad files)) = [] := by
  unfold channelRecords
  rw [List.flatMap_eq_nil_iff]
  intro f hf
  obtain ⟨q, -, hq⟩ := List.mem_flatMap.1 hf
  obtain ⟨g, -, rfl⟩ := List.mem_map.1 hq
  cases g with
  | none => rfl
  | some l =>
    simp only [Option.map_some, Option.getD_some]
    rw [List.filter_filter, List.filter_eq_nil_iff]
    intro r _
    by_cases hr : r.id = i
    · simp [hr, hi]
    · simp [hr]

open WaveUnused in
/-- No bad channel is read from it. -/
theorem got_without (hs : Spec.FilterScan s) (ho' : SetOrder order) (win extra : ℚ × ℚ) :
    ∀ r ∈ got (Spec.onArchive s (Spec.withoutChannels bad s.files) order) win extra, bad r.id = false := by
  intro r hr
  by_contra hb
  have hb : bad r.id = true := by simpa using hb
  rw [got_eq (s := Spec.onArchive s (Spec.withoutChannels bad s.files) order) ho'] at hr
  have h1 := (List.mem_filter (p := fun x : Rec ℚ => decide (x.id = r.id))).2 ⟨hr, by simp⟩
  rw [window_records (order := (Spec.onArchive s (Spec.withoutChannels bad s.files) order).order)
    (shift := (Spec.onArchive s (Spec.withoutChannels bad s.files) order).toSample) ho' hs.toSampleId] at h1
  have e : channelRecords r.id (Spec.found (Spec.onArchive s (Spec.withoutChannels bad s.files) order) (win.1 - extra.1) (win.2 + extra.2)) = [] :=
    without_bad bad s.files hb _
  rw [e] at h1
  have e2 : ∀ q : Req, selectStations q ([] : List (Rec ℚ)) = [] := by
    intro q
    unfold selectStations
    split
    · simp
    · rfl
  have e3 : ∀ q : Req, trimWindow q ([] : List (Rec ℚ)) = [] := by
    intro q
    unfold trimWindow
    split <;> rfl
  have e4 : ∀ a b : ℚ, (mergeChannel (readFile a b ([] : List (Rec ℚ)))).getD [] = [] := by
    intro a b
    simp [readFile, mergeChannel]
  simp only [e4, List.map_nil, e2, e3] at h1
  cases h1

theorem all_good (hs : Spec.FilterScan s) (ho' : SetOrder order) {win extra : ℚ × ℚ} {o' : Waveforms.Out ℚ}
    (h' : (Spec.onArchive s (Spec.withoutChannels bad s.files) order).readEvent win extra = .ok o') :
    (o'.waveforms.filter fun r => !bad r.id) = o'.waveforms ∧
      ((WaveUnused.got s win extra).filter fun r => !bad r.id).Perm o'.waveforms := by
  have h1 := got_without (bad := bad) hs ho' win extra
  have h2 := got_good hs ho' (without_good s bad) win extra
  have g' : WaveUnused.got (Spec.onArchive s (Spec.withoutChannels bad s.files) order) win extra = o'.waveforms := by
    unfold WaveUnused.got; rw [h']
  rw [g'] at h1 h2
  have h3 : (o'.waveforms.filter fun r => !bad r.id) = o'.waveforms := by
    rw [List.filter_eq_self]
    intro r hr
    simp [h1 r hr]
  rw [h3] at h2
  exact ⟨h3, h2⟩

/-- Something is read from the whole archive if something is read from the other. -/
theorem read_whole (hs : Spec.FilterScan s) (ho' : SetOrder order) {win extra : ℚ × ℚ} {o' : Waveforms.Out ℚ}
    (h' : (Spec.onArchive s (Spec.withoutChannels bad s.files) order).readEvent win extra = .ok o') (hne : o'.waveforms ≠ []) :
    ∃ o, s.readEvent win extra = .ok o ∧ (o.waveforms.filter fun r => !bad r.id).Perm o'.waveforms := by
  obtain ⟨-, hp⟩ := all_good hs ho' h'
  unfold WaveUnused.got at hp
  cases h : s.readEvent win extra with
  | error e =>
    rw [h] at hp
    exact absurd (List.nil_perm.1 hp) hne
  | ok o =>
    rw [h] at hp
    exact ⟨o, rfl, hp⟩

theorem without_usable (hs : Spec.FilterScan s) (ho' : SetOrder order) {win extra : ℚ × ℚ} (hu : Spec.UsableRead s win extra) :
    Spec.UsableRead (Spec.onArchive s (Spec.withoutChannels bad s.files) order) win extra := by
  intro o' h' r hr hused
  obtain ⟨o, h, hp⟩ := read_whole hs ho' h' (List.ne_nil_of_mem hr)
  exact hu o h r (List.mem_filter.1 (hp.mem_iff.2 hr)).1 hused

theorem without_fail (hs : Spec.FilterScan s) (ho' : SetOrder order) (hx : KeepsIds s.ext) {win extra : ℚ × ℚ}
    (hb : Spec.BadFail s bad win extra) : Spec.BadFail (Spec.onArchive s (Spec.withoutChannels bad s.files) order) bad win extra := by
  intro o' h' p hp
  have hall := (all_good (bad := bad) hs ho' h').1
  have hne : o'.waveforms ≠ [] := by
    unfold Scan.readEvent readWaveformData at h'
    split at h'
    · cases h'
    · simp only at h'
      split at h'
      · cases h'
      · next h0 =>
        obtain rfl := Except.ok.inj h'
        exact h0
  obtain ⟨o, h, hperm⟩ := read_whole hs ho' h' hne
  obtain ⟨l, h1, -⟩ := hb o h p hp
  have h2 : preStream s.onset s.ext (keepGood bad (s.data win o)) p = .ok (l.filter fun t => !bad t.id) :=
    preStream_filter s.onset s.ext hx (s.data win o) p (fun i => !bad i) l h1
  have hp' : (keepGood bad (s.data win o)).waveforms.Perm (o'.waveforms.map toTrace) := by
    rw [good_data]; exact hperm.map _
  obtain ⟨l', h3, h4⟩ := (ReadOrder.preStream_perm s.onset s.ext (keepGood bad (s.data win o)) hp' p).2 _ h2
  refine ⟨l', h3, fun a _ t ht hbt => ?_⟩
  have := h4.mem_iff.1 (List.mem_filter.1 ht).1
  have := (List.mem_filter.1 this).2
  rw [hbt] at this
  cases this

end WaveDead

open WaveDead

/-! ## The property -/

/-- Two archives that differ only in channels that fail the data checks wherever they are read, in either: `detect` gives the same
coalescence and the same availability. -/
theorem C183_detect (s : Scan) (hs : Spec.FilterScan s) (hall : s.onset.allChannels = false) (hx : KeepsIds s.ext) (bad : Str → Bool)
    (files : Data.Query → List (Option (List (Rec ℚ)))) (order : List Str → List Str) (ho' : SetOrder order)
    (hf : Spec.SameBut s bad files) (ts start stop ucf : ℚ) (cols : List String) (hts : 0 < ts)
    (hu : ∀ j : ℕ, start + ts * j < stop → Spec.UsableRead s (Spec.windowOf s ts start j) (0, 0) ∧
      Spec.UsableRead (Spec.onArchive s files order) (Spec.windowOf s ts start j) (0, 0))
    (hb : ∀ j : ℕ, start + ts * j < stop → Spec.BadFail s bad (Spec.windowOf s ts start j) (0, 0) ∧
      Spec.BadFail (Spec.onArchive s files order) bad (Spec.windowOf s ts start j) (0, 0)) :
    (Spec.onArchive s files order).detect ts start stop cols ucf = s.detect ts start stop cols ucf := by
  have e : (Spec.onArchive s files order).detect ts start stop cols ucf =
      Detect.detect (s.call ts start stop cols ucf false .never).cfg start stop ((Spec.onArchive s files order).outcome ts) := rfl
  rw [e]
  unfold Scan.detect Detect.detect Detect.nSteps
  split
  · rfl
  · simp only [Option.map_some]
    congr 1
    refine WaveUnused.loop_skip _ start _ _ _ 0 fun j _ hj => ?_
    set c := (s.call ts start stop cols ucf false .never).cfg with hc
    have hlt : start + ts * j < stop := by
      have ht : c.timestep = ts := rfl
      have hle : Detect.adjustedEnd c stop ≤ stop := by
        unfold Detect.adjustedEnd
        split
        · have : (0 : ℚ) ≤ c.delta := by unfold Detect.Cfg.delta; positivity
          linarith
        · exact le_rfl
      have h1 : (j : ℤ) < ⌈(Detect.adjustedEnd c stop - start) / c.timestep⌉ := by omega
      have h2 := Int.lt_ceil.1 h1
      rw [ht, lt_div_iff₀ hts] at h2
      push_cast at h2
      linarith
    exact outcome_good hs ho' hall hx hf ts (hu j hlt).1 (hb j hlt).1 (hu j hlt).2 (hb j hlt).2

/-- So does `locate`, for the events and their origin times. -/
theorem C183_locate (s : Scan) (hs : Spec.FilterScan s) (hall : s.onset.allChannels = false) (hx : KeepsIds s.ext) (bad : Str → Bool)
    (files : Data.Query → List (Option (List (Rec ℚ)))) (order : List Str → List Str) (ho' : SetOrder order)
    (hf : Spec.SameBut s bad files) (mw : ℚ) (amp : Option (ℚ × ℚ)) (preCut postCut : Option ℚ) (extra : ℚ × ℚ)
    (hextra : extra = eventPads mw (Spec.padsOf s (4 * mw)) amp preCut postCut) (later : Trig → Later) (events : List Trig)
    (hu : ∀ x ∈ events, Spec.UsableRead s (Spec.eventWindow s mw x) extra ∧
      Spec.UsableRead (Spec.onArchive s files order) (Spec.eventWindow s mw x) extra)
    (hb : ∀ x ∈ events, Spec.BadFail s bad (Spec.eventWindow s mw x) extra ∧
      Spec.BadFail (Spec.onArchive s files order) bad (Spec.eventWindow s mw x) extra) :
    (Spec.onArchive s files order).locate mw amp preCut postCut later events = s.locate mw amp preCut postCut later events := by
  subst hextra
  unfold Scan.locate
  exact WaveUnused.locate_skip mw _ _ later events fun x hx' => locate_good hs ho' hall hx hf mw _ x (hu x hx').1 (hb x hx').1
    (hu x hx').2 (hb x hx').2

/-- In particular, channels that fail the data checks wherever they are read may be taken out of the archive. -/
theorem C183_detect_without (s : Scan) (hs : Spec.FilterScan s) (hall : s.onset.allChannels = false) (hx : KeepsIds s.ext)
    (bad : Str → Bool) (ts start stop ucf : ℚ) (cols : List String) (hts : 0 < ts)
    (hu : ∀ j : ℕ, start + ts * j < stop → Spec.UsableRead s (Spec.windowOf s ts start j) (0, 0))
    (hb : ∀ j : ℕ, start + ts * j < stop → Spec.BadFail s bad (Spec.windowOf s ts start j) (0, 0)) :
    (Spec.onArchive s (Spec.withoutChannels bad s.files) s.order).detect ts start stop cols ucf = s.detect ts start stop cols ucf :=
  C183_detect s hs hall hx bad _ _ hs.order (without_good s bad) ts start stop ucf cols hts
    (fun j hj => ⟨hu j hj, without_usable hs hs.order (hu j hj)⟩) fun j hj => ⟨hb j hj, without_fail hs hs.order hx (hb j hj)⟩

/-- And for `locate`. -/
theorem C183_locate_without (s : Scan) (hs : Spec.FilterScan s) (hall : s.onset.allChannels = false) (hx : KeepsIds s.ext)
    (bad : Str → Bool) (mw : ℚ) (amp : Option (ℚ × ℚ)) (preCut postCut : Option ℚ) (extra : ℚ × ℚ)
    (hextra : extra = eventPads mw (Spec.padsOf s (4 * mw)) amp preCut postCut) (later : Trig → Later) (events : List Trig)
    (hu : ∀ x ∈ events, Spec.UsableRead s (Spec.eventWindow s mw x) extra)
    (hb : ∀ x ∈ events, Spec.BadFail s bad (Spec.eventWindow s mw x) extra) :
    (Spec.onArchive s (Spec.withoutChannels bad s.files) s.order).locate mw amp preCut postCut later events =
      s.locate mw amp preCut postCut later events :=
  C183_locate s hs hall hx bad _ _ hs.order (without_good s bad) mw amp preCut postCut extra hextra later events
    (fun x hx' => ⟨hu x hx', without_usable hs hs.order (hu x hx')⟩) fun x hx' => ⟨hb x hx', without_fail hs hs.order hx (hb x hx')⟩

/-! ## A case that meets the hypotheses: `WaveLocate.pulseScan` with a second, dead channel in its file -/

namespace WaveDead

open WaveLocate DetectShift OnsetValue OnsetGain SameSamples

def flat : Rec ℚ := ⟨"Y".toList, 1, ⟨0, [7, 7, 7, 7, 7, 7, 7, 7, 7, 7]⟩⟩

noncomputable def deadScan : Scan := { pulseScan with files := fun q => if q.day = 0 then [some [flat, whole]] else [] }

def isY (i : Str) : Bool := decide (i = "Y".toList)

theorem dead_scan : Spec.FilterScan deadScan where
  order := fun l => ⟨List.nodup_dedup l, fun _ => List.mem_dedup⟩
  toSampleId := fun _ => rfl
  target := ⟨by norm_num [deadScan, pulseScan, exScan, plainCfg, OnsetGain.exCfg],
    by norm_num [deadScan, pulseScan, exScan, plainCfg, OnsetGain.exCfg]⟩
  corner := fun _ _ => by norm_num [deadScan, pulseScan, exScan, plainCfg, OnsetGain.exCfg]
  keeps := pulse_plain.keeps

theorem dead_ids : KeepsIds deadScan.ext where
  dec := fun _ _ => rfl
  up := fun _ _ => rfl
  trim := fun _ _ b b' h => by
    have : some b = some b' := h
    rw [Option.some.inj this]

def deadOut : Waveforms.Out ℚ :=
  ⟨[flat, whole], [⟨"Y".toList, 1, ⟨0, [7, 7, 7, 7, 7, 7, 7, 7]⟩⟩, ⟨"Z".toList, 1, ⟨0, [1, 1, 1, 1, 1, 9, 1, 1]⟩⟩]⟩

theorem dead_read : deadScan.readEvent (0, 7) (0, 2) = .ok deadOut := by
  have hl : loadFromPath false ["ST01".toList] (0 - 0) (7 + 2) = [⟨0, some "ST01".toList⟩] := by
    unfold loadFromPath
    have h0 : TriggerFiles.dayNum (0 - 0 : ℚ) = 0 := by decide +kernel
    rw [h0, TriggerFiles.readDays, dif_pos (by decide +kernel), TriggerFiles.readDays, dif_neg (by decide +kernel)]
    rfl
  unfold Scan.readEvent
  show Waveforms.readWaveformData List.dedup id ⟨0, 7, 0, 2, false, ["ST01".toList]⟩
    ((loadFromPath false ["ST01".toList] (0 - 0) (7 + 2)).flatMap deadScan.files) = _
  rw [hl]
  show Waveforms.readWaveformData List.dedup id ⟨0, 7, 0, 2, false, ["ST01".toList]⟩ [some [flat, whole]] = _
  decide +kernel

theorem dead_pre : preStream deadScan.onset deadScan.ext (deadScan.data (0, 7) deadOut) "P".toList =
    .ok (deadOut.waveforms.map toTrace) := by
  unfold preStream
  have h : Filters.preProcess deadScan.ext.dsp (deadScan.ext.trim 0 7) plainCfg.sr false none (plainCfg.low "P".toList)
      (plainCfg.high "P".toList) (((deadOut.waveforms.map toTrace).filter fun t => plainCfg.chan "P".toList t.id).map toR) =
      .ok ((deadOut.waveforms.map toTrace).map fun t => (toR t, .bandpass (1 / 5) (4 / 5))) := by
    show Filters.preProcess ⟨fun _ b => b, fun _ b => b⟩ (fun b => some b) 1 false none (1 / 10) (2 / 5)
      ((deadOut.waveforms.map toTrace).map toR) = _
    decide +kernel
  have h' : Filters.preProcess deadScan.ext.dsp (deadScan.ext.trim (deadScan.data (0, 7) deadOut).start
      (deadScan.data (0, 7) deadOut).stop) deadScan.onset.sr (deadScan.data (0, 7) deadOut).resample
      (deadScan.data (0, 7) deadOut).upfactor (deadScan.onset.low "P".toList) (deadScan.onset.high "P".toList)
      (((deadScan.data (0, 7) deadOut).waveforms.filter fun t => deadScan.onset.chan "P".toList t.id).map toR) = _ := h
  rw [h']
  rfl

theorem dead_fail : Spec.BadFail deadScan isY (0, 7) (0, 2) := by
  intro o ho p hp
  rw [dead_read] at ho
  obtain rfl := Except.ok.inj ho
  have hph : deadScan.onset.phases = ["P".toList] := rfl
  rw [hph, List.mem_singleton] at hp
  subst hp
  refine ⟨_, dead_pre, fun a _ t ht hb hpass => ?_⟩
  have htid : t.id = "Y".toList := of_decide_eq_true hb
  have hm := (List.mem_filter.1 ht).1
  have hflat : t = ⟨"Y".toList, 0, 1, [7, 7, 7, 7, 7, 7, 7, 7]⟩ := by
    have hm' : t = ⟨"Y".toList, 0, 1, [7, 7, 7, 7, 7, 7, 7, 7]⟩ ∨ t = ⟨"Z".toList, 0, 1, [1, 1, 1, 1, 1, 9, 1, 1]⟩ := by
      simpa [deadOut, toTrace] using hm
    rcases hm' with h | h
    · exact h
    · rw [h] at htid
      exact absurd htid (by decide)
  obtain ⟨x, hx, y, hy, hne⟩ := hpass.notFlat t (List.mem_filter.2 ⟨ht, by simp⟩)
  rw [hflat] at hx hy
  simp at hx hy
  exact hne (hx.trans hy.symm)

/-- With the dead channel in the archive the event is located at 3 s, as without it. -/
example (x : Trig) (hx : x.time = 3) :
    (x, 3) ∈ (deadScan.locate 1 none none (some 5) (fun _ => .fine) [x]).written := by
  have hwin : Spec.eventWindow deadScan 1 x = (0, 7) := pulse_window x hx
  have h := C183_locate_without deadScan dead_scan rfl dead_ids isY 1 none none (some 5) (0, 2) pulse_extra.symm (fun _ => .fine) [x]
    (by
      intro y hy o ho r hr _
      obtain rfl := List.mem_singleton.1 hy
      rw [hwin, dead_read] at ho
      obtain rfl := Except.ok.inj ho
      have hr' : r = ⟨"Y".toList, 1, ⟨0, [7, 7, 7, 7, 7, 7, 7, 7]⟩⟩ ∨ r = ⟨"Z".toList, 1, ⟨0, [1, 1, 1, 1, 1, 9, 1, 1]⟩⟩ := by
        simpa [deadOut] using hr
      rcases hr' with rfl | rfl <;> exact ⟨by simp, by norm_num, by norm_num, fun u hu => by cases hu⟩)
    (by
      intro y hy
      obtain rfl := List.mem_singleton.1 hy
      rw [hwin]
      exact dead_fail)
  rw [← h]
  have e : Spec.onArchive deadScan (Spec.withoutChannels isY deadScan.files) deadScan.order = pulseScan := by
    have hf : Spec.withoutChannels isY deadScan.files = pulseScan.files := by
      funext q
      show (if q.day = 0 then [some [flat, whole]] else []).map (fun f => f.map fun l => l.filter fun r => !isY r.id) =
        if q.day = 0 then [some [whole]] else []
      split
      · decide +kernel
      · rfl
    rw [hf]
    rfl
  rw [e]
  exact pulse_located x hx

end WaveDead

end QM
