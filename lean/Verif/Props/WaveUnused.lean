import Verif.Props.SameSamples

/-!
# Archived channels that no onset function is computed from do not matter: C180
-/

namespace QM

open QM.Waveforms QM.WaveDetect QM.CalcOnsets QM.Spec
open QM.Data (Sane loadFromPath)
open QM.Locate (Trig Later)
open QM.Pads (locateWindow scanPads)

/-! ## Specification -/

/-- The channel map of some phase matches the channel. -/
def Spec.Used (s : Scan) (i : Str) : Prop := ∃ p ∈ s.onset.phases, s.onset.chan p i = true

/-- Two archives hold, under every pattern, the same records of every channel that is used.  They may hold other channels,
more or fewer files and files that cannot be read. -/
def Spec.SameUsed (s : Scan) (files : Data.Query → List (Option (List (Rec ℚ)))) : Prop :=
  ∀ q i, Used s i → channelRecords i (files q) = channelRecords i (s.files q)

/-- What is read of the used channels has samples, and a rate that can be processed. -/
def Spec.UsableRead (s : Scan) (win extra : ℚ × ℚ) : Prop :=
  ∀ o, s.readEvent win extra = .ok o → ∀ r ∈ o.waveforms, Used s r.id →
    r.tr.vals ≠ [] ∧ 0 < r.rate ∧ r.rate ≤ 500000 ∧ ∀ u, s.upfactor = some u → 1 ≤ r.rate * u

/-- What is asked of the scan: corner frequencies are below the Nyquist frequency. -/
structure Spec.FilterScan (s : Scan) : Prop where
  order : SetOrder s.order
  toSampleId : KeepsId s.toSample
  target : 0 < s.onset.sr ∧ s.onset.sr ≤ 500000
  corner : ∀ p ∈ s.onset.phases, s.onset.high p < s.onset.sr / 2
  keeps : KeepsData s.ext

namespace WaveUnused

/-! ### Onset functions -/

/-- The data of the channels that are used. -/
def keep (c : CalcOnsets.Cfg) (d : CalcOnsets.Data) : CalcOnsets.Data :=
  { d with waveforms := d.waveforms.filter fun t => c.phases.any fun p => c.chan p t.id }

theorem preStream_keep (c : CalcOnsets.Cfg) (x : Ext) (d : CalcOnsets.Data) {p : Str} (hp : p ∈ c.phases) :
    preStream c x (keep c d) p = preStream c x d p := by
  unfold preStream keep
  simp only [List.filter_filter]
  have : (d.waveforms.filter fun t => c.chan p t.id && c.phases.any fun p => c.chan p t.id) =
      d.waveforms.filter fun t => c.chan p t.id := by
    apply List.filter_congr
    intro t _
    cases h : c.chan p t.id with
    | false => rfl
    | true => simp only [Bool.true_and, List.any_eq_true]; exact ⟨p, hp, h⟩
  rw [this]

theorem stationLoop_keep (c : CalcOnsets.Cfg) (x : Ext) (d : CalcOnsets.Data) (p : Str) (w : List Data.Trace) (l : List Str) :
    ∀ o, stationLoop c x (keep c d) p w l o = stationLoop c x d p w l o := by
  induction l with
  | nil => intro o; rfl
  | cons s l ih =>
    intro o
    unfold stationLoop
    have : stationPhase c x (keep c d) p w s = stationPhase c x d p w s := rfl
    rw [this]
    simp only [ih]

theorem phaseLoop_keep (c : CalcOnsets.Cfg) (x : Ext) (d : CalcOnsets.Data) (l : List Str) : (∀ p ∈ l, p ∈ c.phases) →
    ∀ o, phaseLoop c x (keep c d) l o = phaseLoop c x d l o := by
  induction l with
  | nil => intro _ o; rfl
  | cons p l ih =>
    intro h o
    unfold phaseLoop
    rw [preStream_keep c x d (h p (by simp))]
    simp only [stationLoop_keep, ih fun q hq => h q (by simp [hq])]
    rfl

theorem calculateOnsets_keep (c : CalcOnsets.Cfg) (x : Ext) (d : CalcOnsets.Data) :
    calculateOnsets c x (keep c d) = calculateOnsets c x d := by
  unfold calculateOnsets
  rw [phaseLoop_keep c x d c.phases fun _ h => h]

/-- Without any data, no phase is available anywhere. -/
theorem phaseLoop_empty (c : CalcOnsets.Cfg) (x : Ext) (d : CalcOnsets.Data) (hd : d.waveforms = []) (l : List Str)
    (hc : ∀ p ∈ l, c.high p < c.sr / 2) : ∀ o : CalcOnsets.Out, (o.availability.map Prod.snd).sum = 0 →
      ∃ o' : CalcOnsets.Out, phaseLoop c x d l o = .ok o' ∧ (o'.availability.map Prod.snd).sum = 0 := by
  have hst : ∀ (p : Str) (l : List Str) (o : CalcOnsets.Out), (o.availability.map Prod.snd).sum = 0 →
      ∃ o' : CalcOnsets.Out, stationLoop c x d p [] l o = .ok o' ∧ (o'.availability.map Prod.snd).sum = 0 := by
    intro p l
    induction l with
    | nil => intro o h; exact ⟨o, rfl, h⟩
    | cons s l ih =>
      intro o h
      have h1 : stationPhase c x d p [] s = .ok none := by
        unfold stationPhase Data.checkAvailability; simp
      unfold stationLoop
      rw [h1]
      refine ih _ ?_
      simp only
      rw [List.sum_eq_zero_iff] at h ⊢
      intro n hn
      obtain ⟨e, he, rfl⟩ := List.mem_map.1 hn
      unfold Compute.dictSet at he
      split at he
      · obtain ⟨e0, h2, rfl⟩ := List.mem_map.1 he
        split
        · rfl
        · exact h _ (List.mem_map.2 ⟨e0, h2, rfl⟩)
      · rcases List.mem_append.1 he with h2 | h2
        · exact h _ (List.mem_map.2 ⟨e, h2, rfl⟩)
        · rw [List.mem_singleton.1 h2]
  induction l with
  | nil => intro o h; exact ⟨o, rfl, h⟩
  | cons p l ih =>
    intro o h
    have h1 : preStream c x d p = .ok [] := by
      unfold preStream Filters.preProcess
      rw [hd]
      have := hc p (by simp)
      simp [Util.resample, Filters.filterAll]
      rw [if_neg (by linarith)]
      simp
    obtain ⟨o1, h2, h3⟩ := hst p d.stations o h
    obtain ⟨o2, h4, h5⟩ := ih (fun q hq => hc q (by simp [hq])) o1 h3
    refine ⟨o2, ?_, h5⟩
    unfold phaseLoop
    rw [h1]
    simp only
    rw [h2]
    exact h4

theorem calculateOnsets_empty (c : CalcOnsets.Cfg) (x : Ext) (d : CalcOnsets.Data) (hc : ∀ p ∈ c.phases, c.high p < c.sr / 2)
    (hd : (keep c d).waveforms = []) : calculateOnsets c x d = .error .dataAvailability := by
  rw [← calculateOnsets_keep]
  obtain ⟨o, h1, h2⟩ := phaseLoop_empty c x (keep c d) hd c.phases hc ⟨[], [], []⟩ rfl
  unfold calculateOnsets
  rw [h1]
  simp only
  rw [if_pos h2]

/-! ### Reading -/

theorem readAll_records (q : Req) (fs : List (Option (List (Rec ℚ)))) (i : Str) :
    (readAllFiles q fs).filter (fun r : Rec ℚ => decide (r.id = i)) =
      readFile (q.start - q.prePad) (q.stop + q.postPad) (channelRecords i fs) := by
  rw [readAllFiles_filter]
  unfold readAllFiles onlyChannel channelRecords
  induction fs with
  | nil => rfl
  | cons f fs ih =>
    rw [List.map_cons, List.flatMap_cons, List.flatMap_cons, ih]
    cases f with
    | none => simp
    | some r => simp [readFile]

theorem select_channel (q : Req) (st : List (Rec ℚ)) (i : Str) :
    (selectStations q st).filter (fun r : Rec ℚ => decide (r.id = i)) =
      selectStations q (st.filter fun r : Rec ℚ => decide (r.id = i)) := by
  unfold selectStations
  split
  · rw [filter_flatMap]
    congr 1
    funext s
    rw [List.filter_filter, List.filter_filter]
    apply List.filter_congr
    intro r _
    rw [Bool.and_comm]
  · rfl

theorem window_records {order : List Str → List Str} (ho : SetOrder order) {shift : Rec ℚ → Rec ℚ} (hid : KeepsId shift)
    (q : Req) (fs : List (Option (List (Rec ℚ)))) (i : Str) :
    (ReadSamples.window order shift q fs).filter (fun r : Rec ℚ => decide (r.id = i)) =
      trimWindow q (selectStations q (((mergeChannel (readFile (q.start - q.prePad) (q.stop + q.postPad)
        (channelRecords i fs))).getD []).map shift)) := by
  unfold ReadSamples.window
  rw [trimWindow_filter, select_channel, filter_map_id shift hid, mergeStream_channel ho, readAll_records]

theorem channelRecords_found (s : Scan) (files : Data.Query → List (Option (List (Rec ℚ)))) (h : Spec.SameUsed s files)
    {i : Str} (hi : Spec.Used s i) (l : List Data.Query) :
    channelRecords i (l.flatMap files) = channelRecords i (l.flatMap s.files) := by
  have e : ∀ fs : Data.Query → List (Option (List (Rec ℚ))),
      channelRecords i (l.flatMap fs) = l.flatMap fun q => channelRecords i (fs q) := by
    intro fs
    unfold channelRecords
    rw [List.flatMap_assoc]
  rw [e, e]
  congr 1
  funext q
  exact h q i hi

/-- What is read for a window. -/
def got (s : Scan) (win extra : ℚ × ℚ) : List (Rec ℚ) :=
  match s.readEvent win extra with
  | .ok o => o.waveforms
  | .error _ => []

theorem mergeStream_nil {order : List Str → List Str} (ho : SetOrder order) : mergeStream order ([] : List (Rec ℚ)) = [] := by
  rw [List.eq_nil_iff_forall_not_mem]
  intro r hr
  have h := mergeStream_channel ho ([] : List (Rec ℚ)) r.id
  have h1 : r ∈ (mergeStream order []).filter (fun x : Rec ℚ => decide (x.id = r.id)) := List.mem_filter.2 ⟨hr, by simp⟩
  rw [h] at h1
  exact absurd h1 (by simp [mergeChannel])

theorem got_eq {s : Scan} (ho : SetOrder s.order) (win extra : ℚ × ℚ) :
    got s win extra = ReadSamples.window s.order s.toSample ⟨win.1, win.2, extra.1, extra.2, s.readAll, s.stations⟩
      (Spec.found s (win.1 - extra.1) (win.2 + extra.2)) := by
  unfold got Scan.readEvent readWaveformData ReadSamples.window Spec.found
  split
  · next o h =>
    split at h
    · cases h
    · simp only at h
      split at h
      · cases h
      · cases h; rfl
  · next e h =>
    split at h
    · next h0 =>
      rw [h0]
      have : readAllFiles (V := ℚ) ⟨win.1, win.2, extra.1, extra.2, s.readAll, s.stations⟩ [] = [] := rfl
      rw [this, mergeStream_nil ho]
      have h2 : selectStations (V := ℚ) ⟨win.1, win.2, extra.1, extra.2, s.readAll, s.stations⟩ [] = [] := by
        unfold selectStations
        split
        · simp
        · rfl
      rw [List.map_nil, h2]
      unfold trimWindow
      split <;> rfl
    · simp only at h
      split at h
      · next h1 => exact h1.symm
      · cases h

/-- The used records read are the same up to their order. -/
theorem got_same {s : Scan} {files : Data.Query → List (Option (List (Rec ℚ)))} {order : List Str → List Str}
    (hs : Spec.FilterScan s) (ho' : SetOrder order) (h : Spec.SameUsed s files) (win extra : ℚ × ℚ) :
    ((got s win extra).filter fun r => s.onset.phases.any fun p => s.onset.chan p r.id).Perm
      ((got (Spec.onArchive s files order) win extra).filter fun r => s.onset.phases.any fun p => s.onset.chan p r.id) := by
  classical
  rw [got_eq hs.order, got_eq (s := Spec.onArchive s files order) ho']
  rw [List.perm_iff_count]
  intro r
  by_cases hr : (s.onset.phases.any fun p => s.onset.chan p r.id) = true
  · have hu : Spec.Used s r.id := by
      obtain ⟨p, h1, h2⟩ := List.any_eq_true.1 hr
      exact ⟨p, h1, h2⟩
    rw [List.count_filter (p := fun r : Rec ℚ => s.onset.phases.any fun p => s.onset.chan p r.id) hr,
      List.count_filter (p := fun r : Rec ℚ => s.onset.phases.any fun p => s.onset.chan p r.id) hr]
    have hcount : ∀ l : List (Rec ℚ), l.count r = (l.filter (fun x : Rec ℚ => decide (x.id = r.id))).count r := fun l =>
      (List.count_filter (p := fun x : Rec ℚ => decide (x.id = r.id)) (by simp)).symm
    rw [hcount, hcount (ReadSamples.window (Spec.onArchive s files order).order _ _ _),
      window_records hs.order hs.toSampleId,
      window_records (order := (Spec.onArchive s files order).order) (shift := (Spec.onArchive s files order).toSample) ho' hs.toSampleId]
    have e : channelRecords r.id (Spec.found (Spec.onArchive s files order) (win.1 - extra.1) (win.2 + extra.2)) =
        channelRecords r.id (Spec.found s (win.1 - extra.1) (win.2 + extra.2)) :=
      channelRecords_found s files h hu _
    rw [e]
    rfl
  · have hz : ∀ l : List (Rec ℚ), (l.filter fun r => s.onset.phases.any fun p => s.onset.chan p r.id).count r = 0 := by
      intro l
      rw [List.count_eq_zero]
      intro hm
      exact hr (List.mem_filter.1 hm).2
    rw [hz, hz]

/-! ### Computing -/

/-- The data of a window, used channels only. -/
theorem keep_data (s : Scan) (win : ℚ × ℚ) (o : Waveforms.Out ℚ) : (keep s.onset (s.data win o)).waveforms =
    (o.waveforms.filter fun r => s.onset.phases.any fun p => s.onset.chan p r.id).map toTrace := by
  unfold keep Scan.data
  rw [List.filter_map]
  rfl

theorem compute_keep (s : Scan) (ts : ℚ) (win : ℚ × ℚ) (o : Waveforms.Out ℚ) :
    s.compute ts win o = WaveScan.compute s.onset s.ext s.lut s.grid (scanPads s.windows s.ttmax s.rate ts) (s.sched win)
      (s.sched' win) (keep s.onset (s.data win o)) := by
  unfold Scan.compute WaveScan.compute
  rw [calculateOnsets_keep]

variable {s : Scan} {files : Data.Query → List (Option (List (Rec ℚ)))} {order : List Str → List Str}

theorem keep_sane (hs : Spec.FilterScan s) {win extra : ℚ × ℚ} (hu : Spec.UsableRead s win extra) {o : Waveforms.Out ℚ}
    (h : s.readEvent win extra = .ok o) : ∀ p ∈ s.onset.phases, ∀ l,
      preStream s.onset s.ext (keep s.onset (s.data win o)) p = .ok l → ∀ t ∈ l, Sane t := by
  intro p _ l hl
  refine SameSamples.preStream_sane hs.keeps hs.target.1 hs.target.2 ?_ hl
  intro t ht
  rw [keep_data] at ht
  obtain ⟨r, h1, rfl⟩ := List.mem_map.1 ht
  obtain ⟨h2, h3⟩ := List.mem_filter.1 h1
  obtain ⟨q, h4, h5⟩ := List.any_eq_true.1 h3
  obtain ⟨a, b, c, d⟩ := hu o h r h2 ⟨q, h4, h5⟩
  exact ⟨⟨a, b, c⟩, d⟩

/-- What is computed is the same when both archives give data. -/
theorem both (hs : Spec.FilterScan s) (ho' : SetOrder order) (hf : Spec.SameUsed s files) {win extra : ℚ × ℚ}
    (hu : Spec.UsableRead s win extra) {o o' : Waveforms.Out ℚ} (h : s.readEvent win extra = .ok o)
    (h' : (Spec.onArchive s files order).readEvent win extra = .ok o') (ts : ℚ) :
    (Spec.onArchive s files order).compute ts win o' = s.compute ts win o ∧
    (Spec.onArchive s files order).availability win o' = s.availability win o := by
  have hp := got_same hs ho' hf win extra
  have g : got s win extra = o.waveforms := by unfold got; rw [h]
  have g' : got (Spec.onArchive s files order) win extra = o'.waveforms := by unfold got; rw [h']
  rw [g, g'] at hp
  have hd : keep s.onset ((Spec.onArchive s files order).data win o') =
      { keep s.onset (s.data win o) with
        waveforms := (o'.waveforms.filter fun r => s.onset.phases.any fun p => s.onset.chan p r.id).map toTrace } := by
    have := keep_data (Spec.onArchive s files order) win o'
    exact congrArg (fun w => (⟨w, s.stations, s.resample, s.upfactor, win.1, win.2⟩ : CalcOnsets.Data)) this
  have hp' : (keep s.onset (s.data win o)).waveforms.Perm
      ((o'.waveforms.filter fun r => s.onset.phases.any fun p => s.onset.chan p r.id).map toTrace) := by
    rw [keep_data]; exact hp.map _
  have hsane := keep_sane hs hu h
  constructor
  · rw [compute_keep, compute_keep]
    have := C170_order s.onset hs.target.1.ne' s.ext (keep s.onset (s.data win o)) _ hp' hsane s.lut s.grid
      (scanPads s.windows s.ttmax s.rate ts) (s.sched win) (s.sched' win)
    rw [← this, ← hd]
    rfl
  · funext col
    obtain ⟨a, b⟩ := C164_order_of_files s.onset hs.target.1.ne' s.ext (keep s.onset (s.data win o)) _ hp' hsane
    rw [← hd, calculateOnsets_keep, calculateOnsets_keep] at a
    rw [← hd, calculateOnsets_keep, calculateOnsets_keep] at b
    have e : (Spec.onArchive s files order).availability win o' col =
        (match calculateOnsets s.onset s.ext ((Spec.onArchive s files order).data win o') with
          | .error _ => 0
          | .ok r => (r.availability.lookup col.toList).getD 0) := rfl
    rw [e]
    unfold Scan.availability
    cases hc : calculateOnsets s.onset s.ext (s.data win o) with
    | error e => rw [a e hc]
    | ok r =>
      obtain ⟨r', h1, h2, -, -⟩ := b r hc
      rw [h1]
      simp only
      rw [h2]

/-- When nothing of a used channel is read, the data are reported as not available. -/
theorem none_used (hs : Spec.FilterScan s) {win : ℚ × ℚ} {o : Waveforms.Out ℚ}
    (h : (o.waveforms.filter fun r => s.onset.phases.any fun p => s.onset.chan p r.id) = []) (ts : ℚ) :
    s.compute ts win o = .error (.onset .dataAvailability) := by
  have h1 : calculateOnsets s.onset s.ext (s.data win o) = .error .dataAvailability :=
    calculateOnsets_empty _ _ _ hs.corner (by rw [keep_data, h]; rfl)
  unfold Scan.compute WaveScan.compute
  rw [h1]

/-- Outcomes that leave a timestep without data. -/
def Skip : Detect.Outcome → Prop
  | .archiveEmpty | .dataGap | .dataAvailability => True
  | _ => False

theorem loop_skip (c : Detect.Cfg) (start : ℚ) (f f' : ℚ × ℚ → Detect.Outcome) (n : ℕ) : ∀ i,
    (∀ j, i ≤ j → j < i + n → f (Detect.window c start j) = f' (Detect.window c start j) ∨
      Skip (f (Detect.window c start j)) ∧ Skip (f' (Detect.window c start j))) →
    Detect.loop c start f n i = Detect.loop c start f' n i := by
  induction n with
  | zero => intro i _; rfl
  | succ n ih =>
    intro i h
    unfold Detect.loop
    have h0 := h i le_rfl (by omega)
    have h1 := ih (i + 1) (fun j hj hj' => h j (by omega) (by omega))
    simp only [h1]
    generalize f (Detect.window c start i) = x at h0
    generalize f' (Detect.window c start i) = y at h0
    rcases h0 with rfl | ⟨h0, h2⟩
    · rfl
    · cases x <;> cases y <;> simp_all [Skip]

/-- Outcomes that leave a triggered event without location. -/
def SkipEvent {σ : Type} : Locate.Outcome σ → Prop
  | .archiveEmpty | .dataGap | .dataAvailability => True
  | _ => False

theorem locate_skip {σ : Type} (mw : ℚ) (f f' : Trig → Locate.Outcome σ) (later : Trig → Later) : ∀ events : List Trig,
    (∀ x ∈ events, f x = f' x ∨ SkipEvent (f x) ∧ SkipEvent (f' x)) →
    Locate.locateEvents mw f later events = Locate.locateEvents mw f' later events := by
  intro events
  induction events with
  | nil => intro _; rfl
  | cons x xs ih =>
    intro h
    have h1 := ih fun y hy => h y (by simp [hy])
    have h0 := h x (by simp)
    unfold Locate.locateEvents
    rw [h1]
    generalize f x = a at h0
    generalize f' x = b at h0
    rcases h0 with rfl | ⟨h0, h2⟩
    · rfl
    · cases a <;> cases b <;> simp_all [SkipEvent]

theorem outcome_used (hs : Spec.FilterScan s) (ho' : SetOrder order) (hf : Spec.SameUsed s files) (ts : ℚ) {win : ℚ × ℚ}
    (hu : Spec.UsableRead s win (0, 0)) :
    (Spec.onArchive s files order).outcome ts win = s.outcome ts win ∨
      Skip ((Spec.onArchive s files order).outcome ts win) ∧ Skip (s.outcome ts win) := by
  have hp := got_same hs ho' hf win (0, 0)
  have hs' : Spec.FilterScan (Spec.onArchive s files order) := ⟨ho', hs.toSampleId, hs.target, hs.corner, hs.keeps⟩
  unfold Scan.outcome
  rw [SameSamples.read_eq, SameSamples.read_eq]
  unfold got at hp
  cases h : s.readEvent win (0, 0) with
  | error e =>
    right
    cases h' : (Spec.onArchive s files order).readEvent win (0, 0) with
    | error e' =>
      rcases SameSamples.read_error h with rfl | rfl <;> rcases SameSamples.read_error h' with rfl | rfl <;> exact ⟨trivial, trivial⟩
    | ok o' =>
      rw [h, h'] at hp
      have := none_used (s := Spec.onArchive s files order) hs' (win := win) (o := o') (List.nil_perm.1 hp) ts
      simp only
      rw [this]
      rcases SameSamples.read_error h with rfl | rfl <;> exact ⟨trivial, trivial⟩
  | ok o =>
    cases h' : (Spec.onArchive s files order).readEvent win (0, 0) with
    | error e' =>
      right
      rw [h, h'] at hp
      have := none_used hs (win := win) (o := o) (List.perm_nil.1 hp) ts
      simp only
      rw [this]
      rcases SameSamples.read_error h' with rfl | rfl <;> exact ⟨trivial, trivial⟩
    | ok o' =>
      left
      obtain ⟨h1, h2⟩ := both hs ho' hf hu h h' ts
      simp only
      rw [h1, h2]
      rfl

theorem locate_used (hs : Spec.FilterScan s) (ho' : SetOrder order) (hf : Spec.SameUsed s files) (mw : ℚ) (extra : ℚ × ℚ) (x : Trig)
    (hu : Spec.UsableRead s (Spec.eventWindow s mw x) extra) :
    (Spec.onArchive s files order).locateOutcome mw extra x = s.locateOutcome mw extra x ∨
      SkipEvent ((Spec.onArchive s files order).locateOutcome mw extra x) ∧ SkipEvent (s.locateOutcome mw extra x) := by
  have hs' : Spec.FilterScan (Spec.onArchive s files order) := ⟨ho', hs.toSampleId, hs.target, hs.corner, hs.keeps⟩
  set win := Spec.eventWindow s mw x with hw
  have ew : locateWindow x.time mw (scanPads s.windows s.ttmax s.rate (4 * mw)) = win := rfl
  have ew' : locateWindow x.time mw (scanPads (Spec.onArchive s files order).windows (Spec.onArchive s files order).ttmax
    (Spec.onArchive s files order).rate (4 * mw)) = win := rfl
  have hp := got_same hs ho' hf win extra
  unfold Scan.locateOutcome
  rw [ew, ew']
  unfold got at hp
  cases h : s.readEvent win extra with
  | error e =>
    right
    cases h' : (Spec.onArchive s files order).readEvent win extra with
    | error e' =>
      rcases SameSamples.read_error h with rfl | rfl <;> rcases SameSamples.read_error h' with rfl | rfl <;> exact ⟨trivial, trivial⟩
    | ok o' =>
      rw [h, h'] at hp
      have := none_used (s := Spec.onArchive s files order) hs' (win := win) (o := o') (List.nil_perm.1 hp) (4 * mw)
      simp only
      rw [this]
      rcases SameSamples.read_error h with rfl | rfl <;> exact ⟨trivial, trivial⟩
  | ok o =>
    cases h' : (Spec.onArchive s files order).readEvent win extra with
    | error e' =>
      right
      rw [h, h'] at hp
      have := none_used hs (win := win) (o := o) (List.perm_nil.1 hp) (4 * mw)
      simp only
      rw [this]
      rcases SameSamples.read_error h' with rfl | rfl <;> exact ⟨trivial, trivial⟩
    | ok o' =>
      left
      obtain ⟨h1, -⟩ := both hs ho' hf hu h h' (4 * mw)
      simp only
      rw [h1]
      rfl

end WaveUnused

open WaveUnused

/-! ## The property -/

/-- `detect` gives the same coalescence and the same availability for two archives that hold the same records of every channel
that the channel map of some phase matches, whatever else they hold. -/
theorem C180_detect (s : Scan) (hs : Spec.FilterScan s) (files : Data.Query → List (Option (List (Rec ℚ))))
    (order : List Str → List Str) (ho' : SetOrder order) (hf : Spec.SameUsed s files) (ts start stop ucf : ℚ) (cols : List String)
    (hts : 0 < ts) (hu : ∀ j : ℕ, start + ts * j < stop → Spec.UsableRead s (start + ts * j - (Spec.padsOf s ts).1,
      start + ts * (j + 1) - 1 / (s.rate : ℚ) + (Spec.padsOf s ts).2) (0, 0)) :
    (Spec.onArchive s files order).detect ts start stop cols ucf = s.detect ts start stop cols ucf := by
  have e : (Spec.onArchive s files order).detect ts start stop cols ucf =
      Detect.detect (s.call ts start stop cols ucf false .never).cfg start stop ((Spec.onArchive s files order).outcome ts) := rfl
  rw [e]
  unfold Scan.detect Detect.detect Detect.nSteps
  split
  · rfl
  · simp only [Option.map_some]
    congr 1
    refine loop_skip _ start _ _ _ 0 fun j _ hj => ?_
    refine outcome_used hs ho' hf ts (hu j ?_)
    set c := (s.call ts start stop cols ucf false .never).cfg with hc
    have ht : c.timestep = ts := rfl
    have hle : Detect.adjustedEnd c stop ≤ stop := by
      unfold Detect.adjustedEnd
      split
      · have : (0 : ℚ) ≤ c.delta := by unfold Detect.Cfg.delta; positivity
        linarith
      · exact le_rfl
    have h1 : (j : ℤ) < ⌈(Detect.adjustedEnd c stop - start) / c.timestep⌉ := by omega
    have h2 := Int.lt_ceil.1 h1
    rw [ht, lt_div_iff₀ hts] at h2
    push_cast at h2
    linarith

/-- So does `locate`, for the events and their origin times. -/
theorem C180_locate (s : Scan) (hs : Spec.FilterScan s) (files : Data.Query → List (Option (List (Rec ℚ))))
    (order : List Str → List Str) (ho' : SetOrder order) (hf : Spec.SameUsed s files) (mw : ℚ) (amp : Option (ℚ × ℚ))
    (preCut postCut : Option ℚ) (later : Trig → Later) (events : List Trig)
    (hu : ∀ x ∈ events, Spec.UsableRead s (Spec.eventWindow s mw x) (eventPads mw (Spec.padsOf s (4 * mw)) amp preCut postCut)) :
    (Spec.onArchive s files order).locate mw amp preCut postCut later events = s.locate mw amp preCut postCut later events := by
  unfold Scan.locate
  exact locate_skip mw _ _ later events fun x hx => locate_used hs ho' hf mw _ x (hu x hx)

/-! ## A case that meets the hypotheses: the archive of `WaveLocate.pulseScan` and one with another channel, in the file of the
first and in one of its own, and a file that cannot be read -/

namespace WaveUnused

open WaveLocate DetectShift OnsetValue OnsetGain SameSamples

/-- The scan of `pulseScan`, with a channel map that matches one channel only. -/
noncomputable def zScan (high : ℚ) : Scan :=
  { pulseScan with onset := { plainCfg with chan := fun _ i => decide (i = "Z".toList), high := fun _ => high } }

def other : Rec ℚ := ⟨"N".toList, 1, ⟨2, [5, 4, 3, 2, 1]⟩⟩

def moreFiles : Data.Query → List (Option (List (Rec ℚ))) := fun q =>
  if q.day = 0 then [none, some [other], some [other, whole]] else []

theorem z_used {high : ℚ} {i : Str} (h : Spec.Used (zScan high) i) : i = "Z".toList := by
  obtain ⟨p, -, h⟩ := h
  exact of_decide_eq_true h

theorem z_scan : Spec.FilterScan (zScan (2 / 5)) where
  order := fun l => ⟨List.nodup_dedup l, fun _ => List.mem_dedup⟩
  toSampleId := fun _ => rfl
  target := ⟨by norm_num [zScan, pulseScan, exScan, plainCfg, OnsetGain.exCfg],
    by norm_num [zScan, pulseScan, exScan, plainCfg, OnsetGain.exCfg]⟩
  corner := fun _ _ => by norm_num [zScan, pulseScan, exScan, plainCfg, OnsetGain.exCfg]
  keeps := pulse_plain.keeps

theorem z_same : Spec.SameUsed (zScan (2 / 5)) moreFiles := by
  intro q i hi
  obtain rfl := z_used hi
  show channelRecords _ (moreFiles q) = channelRecords _ (pulseScan.files q)
  have e : pulseScan.files q = if q.day = 0 then [some [whole]] else [] := rfl
  rw [e]
  unfold moreFiles
  split
  · decide +kernel
  · rfl

example (x : Trig) (hx : x.time = 3) :
    (Spec.onArchive (zScan (2 / 5)) moreFiles fun l => l.dedup.reverse).locate 1 none none (some 5) (fun _ => .fine) [x] =
      (zScan (2 / 5)).locate 1 none none (some 5) (fun _ => .fine) [x] := by
  refine C180_locate _ z_scan moreFiles _ (fun l => ⟨List.nodup_reverse.2 (List.nodup_dedup l), fun _ => by simp⟩) z_same _ _ _ _ _
    _ fun y hy o ho r hr _ => ?_
  obtain rfl := List.mem_singleton.1 hy
  have h1 : pulseScan.readEvent (Spec.eventWindow pulseScan 1 y)
      (eventPads 1 (Spec.padsOf pulseScan (4 * 1)) none none (some 5)) = .ok o := ho
  rw [pulse_window y hx, pulse_extra, pulse_read] at h1
  cases h1
  obtain rfl := List.mem_singleton.1 hr
  exact ⟨by simp, by norm_num, by norm_num, fun u hu => by cases hu⟩

/-- An archive with nothing but the other channel. -/
def otherFiles : Data.Query → List (Option (List (Rec ℚ))) := fun q => if q.day = 0 then [some [other]] else []

/-- An archive with nothing. -/
noncomputable def bareScan (high : ℚ) : Scan := { zScan high with files := fun _ => [] }

theorem bare_same (high : ℚ) : Spec.SameUsed (bareScan high) otherFiles := by
  intro q i hi
  obtain rfl : i = "Z".toList := z_used (high := high) hi
  show channelRecords _ (otherFiles q) = channelRecords _ []
  unfold otherFiles
  split
  · decide +kernel
  · rfl

theorem bare_usable (high : ℚ) (win extra : ℚ × ℚ) : Spec.UsableRead (bareScan high) win extra := by
  intro o ho
  unfold Scan.readEvent readWaveformData at ho
  rw [if_pos (by simp [bareScan])] at ho
  cases ho

/-- The timestep is filled with zeros although the other archive has files for it. -/
example (cols : List String) : (Spec.onArchive (bareScan (2 / 5)) otherFiles List.dedup).detect 5 1 6 cols 1 =
    (bareScan (2 / 5)).detect 5 1 6 cols 1 :=
  C180_detect (bareScan (2 / 5)) ⟨z_scan.order, z_scan.toSampleId, z_scan.target, z_scan.corner, z_scan.keeps⟩ otherFiles _ z_scan.order
    (bare_same _) 5 1 6 1 cols (by norm_num) fun _ _ => bare_usable _ _ _

theorem bare_outcome (high ts : ℚ) (win : ℚ × ℚ) : (bareScan high).outcome ts win = .archiveEmpty := by
  unfold Scan.outcome Scan.read readWaveformData
  rw [if_pos (by simp [bareScan])]

theorem other_read (high : ℚ) :
    ∃ o, (Spec.onArchive (bareScan high) otherFiles List.dedup).read (0, 7) = .ok o ∧
      o.waveforms = [other] := by
  have hl : loadFromPath false ["ST01".toList] (0 : ℚ) 7 = [⟨0, some "ST01".toList⟩] := by
    unfold loadFromPath
    have h0 : TriggerFiles.dayNum (0 : ℚ) = 0 := by decide +kernel
    rw [h0, TriggerFiles.readDays, dif_pos (by decide +kernel), TriggerFiles.readDays, dif_neg (by decide +kernel)]
    rfl
  have h1 : (Spec.onArchive (bareScan high) otherFiles List.dedup).read (0, 7) =
      readWaveformData List.dedup id ⟨0, 7, 0, 0, false, ["ST01".toList]⟩
        ((loadFromPath false ["ST01".toList] 0 7).flatMap otherFiles) := rfl
  rw [h1, hl]
  have h2 : readWaveformData List.dedup id ⟨0, 7, 0, 0, false, ["ST01".toList]⟩
      ([⟨0, some "ST01".toList⟩].flatMap otherFiles) = .ok ⟨[other], [other]⟩ := by decide +kernel
  exact ⟨_, h2, rfl⟩

theorem preStream_error {c : CalcOnsets.Cfg} {x : Ext} {d : CalcOnsets.Data} {p : Str} {e : Filters.Err}
    (h : Filters.preProcess x.dsp (x.trim d.start d.stop) c.sr d.resample d.upfactor (c.low p) (c.high p)
      ((d.waveforms.filter fun t => c.chan p t.id).map toR) = .error e) : preStream c x d p = .error (.pre e) := by
  unfold preStream
  rw [h]

theorem other_outcome (ts : ℚ) : (Spec.onArchive (bareScan 1) otherFiles List.dedup).outcome ts (0, 7) = .other := by
  obtain ⟨o, h1, h2⟩ := other_read 1
  unfold Scan.outcome
  rw [h1]
  simp only
  have h3 : (Spec.onArchive (bareScan 1) otherFiles List.dedup).compute ts (0, 7) o = .error (.onset (.pre .nyquist)) := by
    unfold Scan.compute WaveScan.compute
    have : calculateOnsets (Spec.onArchive (bareScan 1) otherFiles List.dedup).onset
        (Spec.onArchive (bareScan 1) otherFiles List.dedup).ext
        ((Spec.onArchive (bareScan 1) otherFiles List.dedup).data (0, 7) o) = .error (.pre .nyquist) := by
      have hp : preStream (Spec.onArchive (bareScan 1) otherFiles List.dedup).onset
          (Spec.onArchive (bareScan 1) otherFiles List.dedup).ext
          ((Spec.onArchive (bareScan 1) otherFiles List.dedup).data (0, 7) o) "P".toList = .error (.pre .nyquist) := by
        refine preStream_error ?_
        unfold Scan.data
        rw [h2]
        show Filters.preProcess (α := Body) ⟨fun _ b => b, fun _ b => b⟩ (fun b => some b) 1 false none (1 / 10) 1
          ((([other].map toTrace).filter fun t => decide (t.id = "Z".toList)).map toR) = .error .nyquist
        decide +kernel
      unfold calculateOnsets
      have hph : (Spec.onArchive (bareScan 1) otherFiles List.dedup).onset.phases = ["P".toList] := rfl
      rw [hph]
      unfold phaseLoop
      rw [hp]
    rw [this]
  rw [h3]

theorem one_step (f : ℚ × ℚ → Detect.Outcome) : Detect.detect ⟨5, 1, 1, 2, [], 1⟩ 1 6 f =
    some (Detect.loop ⟨5, 1, 1, 2, [], 1⟩ 1 f 1 0) := by
  unfold Detect.detect
  have : Detect.nSteps ⟨5, 1, 1, 2, [], 1⟩ 1 6 = some 1 := by decide +kernel
  rw [this]
  rfl

theorem one_window : Detect.window ⟨5, 1, 1, 2, [], 1⟩ 1 0 = (0, 7) := by decide +kernel

theorem bare_detect (s : Scan) (hw : s.windows = ⟨(0, 0), []⟩) (ht : s.ttmax = 1) (hr : s.rate = 1) :
    s.detect 5 1 6 [] 1 = Detect.detect ⟨5, 1, 1, 2, [], 1⟩ 1 6 (s.outcome 5) := by
  have hp : scanPads ⟨(0, 0), []⟩ 1 ((1 : ℕ) : ℚ) 5 = (1, 2) := by decide +kernel
  unfold Scan.detect Scan.call
  rw [hw, ht, hr, hp]

end WaveUnused

/-- Corner frequencies below the Nyquist frequency are needed: with a corner frequency above it, `detect` runs to its end on an
archive without any file, and is stopped by a channel that no phase uses. -/
theorem C180_violated : ∃ (s : Scan) (files : Data.Query → List (Option (List (Rec ℚ)))),
    SetOrder s.order ∧ KeepsId s.toSample ∧ (0 < s.onset.sr ∧ s.onset.sr ≤ 500000) ∧ Spec.KeepsData s.ext ∧ Spec.SameUsed s files ∧
    (∀ w x, Spec.UsableRead s w x) ∧
    (s.detect 5 1 6 [] 1).map Detect.Result.completed = some true ∧
    ((Spec.onArchive s files s.order).detect 5 1 6 [] 1).map Detect.Result.completed = some false := by
  refine ⟨bareScan 1, otherFiles, z_scan.order, z_scan.toSampleId, z_scan.target, z_scan.keeps, bare_same 1, bare_usable 1, ?_, ?_⟩
  · rw [bare_detect _ rfl rfl rfl, one_step]
    unfold Detect.loop
    simp only [one_window, bare_outcome]
    rfl
  · rw [bare_detect _ rfl rfl rfl, one_step]
    unfold Detect.loop
    have h : (Spec.onArchive (bareScan 1) otherFiles (bareScan 1).order).outcome 5 (0, 7) = .other := other_outcome 5
    simp only [one_window, h]
    rfl

end QM
