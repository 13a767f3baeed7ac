import Verif.Model.ScanObject
import Verif.Props.TriggerMisc
import Verif.Props.Compute
import Verif.Props.Migrate

/-!
# C100, C101, C102: the arguments of `locate`, and the objects of a session
-/

namespace QM

open QM.ScanObject QM.Pads QM.Trigger QM.TriggerFiles

/-! ## C100: the events `locate` is asked for -/

/-- The part of a period that counts: up to its end, but not a midnight at its end. -/
def InPeriod (a b t : ℚ) : Prop := a ≤ t ∧ (if isMidnight b then t < b else t ≤ b)

theorem locate_period (ofNone : Except ScanObject.Err ℚ) (files : Files) {a b : ℚ} (hab : a ≤ b) :
    locateCall ofNone files (some a) (some b) none = orNoFiles (readTriggered files a b) := by
  unfold locateCall locateTimes utc readEvents
  simp [not_lt.mpr hab]

/-- C100 (partial): a period that does not end before it starts selects exactly the triggered events
inside it, and the lack of any trigger file for its days is reported; a trigger file without a period
selects exactly its events.  Missing: a period together with a file (see `C100_violated`). -/
theorem C100_events_partial (ofNone : Except ScanObject.Err ℚ) (files : Files)
    (hf : Spec.FilesWF files) :
    (∀ a b, a ≤ b →
      ((∀ d, DAY * ((d : ℤ) + 1 : ℚ) > a → DAY * (d : ℚ) ≤ b → files d = none) →
        locateCall ofNone files (some a) (some b) none = .error .noTriggerFiles) ∧
      ((∃ d : ℤ, DAY * ((d : ℚ) + 1) > a ∧ DAY * (d : ℚ) ≤ b ∧ files d ≠ none) →
        ∃ evs, locateCall ofNone files (some a) (some b) none = .ok evs ∧
          ∀ e, e ∈ evs ↔ (∃ d l, files d = some l ∧ e ∈ l) ∧ InPeriod a b e.coaTime)) ∧
    ∀ evs, locateCall ofNone files none none (some evs) = .ok evs := by
  refine ⟨fun a b hab => ?_, fun evs => rfl⟩
  have hcall := locate_period ofNone files hab
  have hday : ∀ d : ℤ, d ∈ readDays (dayNum a) b ↔ DAY * ((d : ℚ) + 1) > a ∧ DAY * (d : ℚ) ≤ b := by
    intro d
    rw [mem_readDays, ← dayNum_le_iff d b, show ⌊b / DAY⌋ = dayNum b from rfl]
    have : dayNum a < d + 1 ↔ DAY * ((d : ℚ) + 1) > a := by
      unfold dayNum DAY
      rw [Int.floor_lt, div_lt_iff₀ (by norm_num)]
      push_cast
      constructor <;> intro h <;> linarith
    rw [← this]
    omega
  have hfound : (readDays (dayNum a) b).filterMap files = [] ↔
      ∀ d : ℤ, DAY * ((d : ℚ) + 1) > a → DAY * (d : ℚ) ≤ b → files d = none := by
    rw [List.filterMap_eq_nil_iff]
    constructor
    · intro h d h1 h2; exact h d ((hday d).mpr ⟨h1, h2⟩)
    · intro h d hd; exact h d ((hday d).mp hd).1 ((hday d).mp hd).2
  constructor
  · intro h
    rw [hcall]
    have : readTriggered files a b = none := by
      unfold readTriggered
      rw [if_pos (hfound.mpr h)]
    rw [this]; rfl
  · rintro ⟨d, h1, h2, h3⟩
    have hne : ¬ (readDays (dayNum a) b).filterMap files = [] := by
      rw [hfound]; intro h; exact h3 (h d h1 h2)
    obtain ⟨evs, hevs⟩ : ∃ evs, readTriggered files a b = some evs := by
      unfold readTriggered
      rw [if_neg hne]
      dsimp only
      split <;> exact ⟨_, rfl⟩
    refine ⟨evs, by rw [hcall, hevs]; rfl, fun e => ?_⟩
    have := C18_read_exact files hf a b e
    rw [hevs] at this
    exact this

/-- C100: a call without arguments is refused with RuntimeError, and a period ending before it starts
with TimeSpanException, also along with a trigger file. -/
theorem C100_refused (ofNone : Except ScanObject.Err ℚ) (files : Files) :
    locateCall ofNone files none none none = .error .runtime ∧
    ∀ a b file, b < a → locateCall ofNone files (some a) (some b) file = .error .timeSpan := by
  refine ⟨rfl, fun a b file hab => ?_⟩
  unfold locateCall locateTimes utc
  simp [hab]

/-- C100 is violated: (1) a start time without an end time is not refused with the documented
RuntimeError, whatever `UTCDateTime(None)` does; (2) when a period is given with a trigger file, events
outside the period are located. -/
theorem C100_violated :
    (∀ (ofNone : Except ScanObject.Err ℚ) (files : Files) (a : ℚ) (file : Option (List Cand)),
      ofNone ≠ .error .runtime → locateCall ofNone files (some a) none file ≠ .error .runtime) ∧
    (∀ (ofNone : Except ScanObject.Err ℚ) (files : Files) (a b : ℚ) (evs : List Cand), a ≤ b →
      locateCall ofNone files (some a) (some b) (some evs) = .ok evs) ∧
    ∃ (files : Files) (a b : ℚ) (e : Cand), a ≤ b ∧ ¬ InPeriod a b e.coaTime ∧
      locateCall (.error .type) files (some a) (some b) (some [e]) = .ok [e] := by
  have h2 : ∀ (ofNone : Except ScanObject.Err ℚ) (files : Files) (a b : ℚ) (evs : List Cand), a ≤ b →
      locateCall ofNone files (some a) (some b) (some evs) = .ok evs := by
    intro ofNone files a b evs hab
    unfold locateCall locateTimes utc readEvents
    simp [not_lt.mpr hab]
  refine ⟨?_, h2, exFiles, 0, 50, ⟨100, 1, 0, 0, 0, 96, 104, 1, 1⟩, by norm_num, ?_,
    h2 _ _ _ _ _ (by norm_num)⟩
  · intro ofNone files a file hne
    unfold locateCall locateTimes utc
    cases ofNone with
    | error e => simpa using hne
    | ok now =>
      simp only [Option.isNone_some, Bool.false_and, Bool.false_eq_true, if_false]
      by_cases h : a > now
      · simp [h]
      · simp only [h, if_false, Option.isNone_some, Bool.and_false, Bool.false_eq_true]
        unfold readEvents
        cases file with
        | some evs => simp
        | none =>
          dsimp only
          cases readTriggered files a now <;> simp [orNoFiles]
  · rintro ⟨-, h⟩
    have : ¬ isMidnight 50 := by decide +kernel
    rw [if_neg this] at h
    norm_num at h

example : locateCall (.error .type) exFiles (some 0) (some 86400) none =
    .ok [⟨100, 1, 0, 0, 0, 96, 104, 1, 1⟩] := by
  have : readTriggered exFiles 0 86400 = some [⟨100, 1, 0, 0, 0, 96, 104, 1, 1⟩] := by
    have hd : readDays (dayNum 0) 86400 = [0, 1] := by
      have h0 : dayNum 0 = 0 := by decide +kernel
      rw [h0]
      unfold readDays
      rw [dif_pos (by unfold DAY; norm_num)]
      unfold readDays
      rw [dif_pos (by unfold DAY; norm_num)]
      unfold readDays
      rw [dif_neg (by unfold DAY; norm_num)]
      rfl
    unfold readTriggered
    rw [hd]
    decide +kernel
  rw [locate_period _ _ (by norm_num), this]
  rfl

/-! ## C101: a scan works with its own padding -/

/-- A statement that leaves scan `i`, its onset object `o` and the padding for the largest traveltime
`ttmax` alone: it neither rebinds them, nor changes the windows, rate or post-pad of the onset, nor
constructs another scan on the same onset for another largest traveltime. -/
def LeavesAlone (i o : ℕ) (ttmax : ℚ) : Action → Prop
  | .onset j _ _ => j ≠ o
  | .scan j o' tt _ => j ≠ i ∧ (o' = o → tt = ttmax)
  | .setRate o' _ => o' ≠ o
  | .setWindows o' _ => o' ≠ o
  | .setPost o' _ => o' ≠ o
  | .setPre _ _ => True
  | .setScanRate _ _ => True
  | .setTimestep _ _ => True

/-- Scan `i` is set up for onset `o` and largest traveltime `ttmax`. -/
def SetUp (s : Store) (i o : ℕ) (ttmax : ℚ) (rate : ℚ) (w : Windows) : Prop :=
  (∃ on, s.onsets o = some on ∧ on.rate = rate ∧ on.windows = w ∧ on.postAttr = Pads.postPad w ttmax) ∧
  ∃ q, s.scans i = some q ∧ q.onset = o ∧ q.rate = rate

theorem setUp_act {s : Store} {i o : ℕ} {ttmax rate : ℚ} {w : Windows} (h : SetUp s i o ttmax rate w)
    (a : Action) (ha : LeavesAlone i o ttmax a) : SetUp (act s a) i o ttmax rate w := by
  obtain ⟨⟨on, ho, h1, h2, h3⟩, q, hq, h4, h5⟩ := h
  cases a with
  | onset j r w' =>
    have ha : j ≠ o := ha
    simp only [act]
    cases r with
    | none => exact ⟨⟨on, ho, h1, h2, h3⟩, q, hq, h4, h5⟩
    | some r =>
      refine ⟨⟨on, ?_, h1, h2, h3⟩, q, hq, h4, h5⟩
      change (if o = j then _ else s.onsets o) = some on
      rw [if_neg (Ne.symm ha)]; exact ho
  | scan j o' tt k =>
    obtain ⟨hj, htt⟩ := ha
    simp only [act, newScan]
    cases ho' : s.onsets o' with
    | none => exact ⟨⟨on, ho, h1, h2, h3⟩, q, hq, h4, h5⟩
    | some on' =>
      have key : ∃ on'', (s.setOnset o' (on'.setPostPad tt)).onsets o = some on'' ∧ on''.rate = rate ∧
          on''.windows = w ∧ on''.postAttr = Pads.postPad w ttmax := by
        by_cases he : o = o'
        · subst he
          rw [ho] at ho'
          obtain rfl := Option.some.inj ho'
          refine ⟨on.setPostPad tt, by simp [Store.setOnset], h1, h2, ?_⟩
          rw [htt rfl, ← h2]; rfl
        · exact ⟨on, by simp [Store.setOnset, he, ho], h1, h2, h3⟩
      cases k.samplingRate with
      | some r => exact ⟨key, q, hq, h4, h5⟩
      | none =>
        refine ⟨key, q, ?_, h4, h5⟩
        simp [Store.setScan, Store.setOnset, Ne.symm hj, hq]
  | setRate o' r =>
    have ha : o' ≠ o := ha
    simp only [act]
    cases ho' : s.onsets o' with
    | none => exact ⟨⟨on, ho, h1, h2, h3⟩, q, hq, h4, h5⟩
    | some on' => exact ⟨⟨on, by simp [Store.setOnset, Ne.symm ha, ho], h1, h2, h3⟩, q, hq, h4, h5⟩
  | setWindows o' w' =>
    have ha : o' ≠ o := ha
    simp only [act]
    cases ho' : s.onsets o' with
    | none => exact ⟨⟨on, ho, h1, h2, h3⟩, q, hq, h4, h5⟩
    | some on' => exact ⟨⟨on, by simp [Store.setOnset, Ne.symm ha, ho], h1, h2, h3⟩, q, hq, h4, h5⟩
  | setPost o' v =>
    have ha : o' ≠ o := ha
    simp only [act]
    cases ho' : s.onsets o' with
    | none => exact ⟨⟨on, ho, h1, h2, h3⟩, q, hq, h4, h5⟩
    | some on' => exact ⟨⟨on, by simp [Store.setOnset, Ne.symm ha, ho], h1, h2, h3⟩, q, hq, h4, h5⟩
  | setPre o' v =>
    simp only [act]
    cases ho' : s.onsets o' with
    | none => exact ⟨⟨on, ho, h1, h2, h3⟩, q, hq, h4, h5⟩
    | some on' =>
      by_cases he : o = o'
      · subst he
        rw [ho] at ho'
        obtain rfl := Option.some.inj ho'
        exact ⟨⟨on.setPrePad v, by simp [Store.setOnset], h1, h2, h3⟩, q, hq, h4, h5⟩
      · exact ⟨⟨on, by simp [Store.setOnset, he, ho], h1, h2, h3⟩, q, hq, h4, h5⟩
  | setScanRate j r =>
    simp only [act]
    cases hj : s.scans j with
    | none => exact ⟨⟨on, ho, h1, h2, h3⟩, q, hq, h4, h5⟩
    | some p =>
      dsimp only
      cases hp : s.onsets p.onset with
      | none => exact ⟨⟨on, ho, h1, h2, h3⟩, q, hq, h4, h5⟩
      | some on' =>
        dsimp only
        split
        · rename_i hr
          by_cases he : i = j
          · subst he
            rw [hq] at hj
            obtain rfl := Option.some.inj hj
            rw [h4, ho] at hp
            obtain rfl := Option.some.inj hp
            exact ⟨⟨on, ho, h1, h2, h3⟩, { q with rate := r }, by simp [Store.setScan], h4,
              by rw [← h1, ← hr]⟩
          · exact ⟨⟨on, ho, h1, h2, h3⟩, q, by simp [Store.setScan, he, hq], h4, h5⟩
        · exact ⟨⟨on, ho, h1, h2, h3⟩, q, hq, h4, h5⟩
  | setTimestep j t =>
    simp only [act]
    cases hj : s.scans j with
    | none => exact ⟨⟨on, ho, h1, h2, h3⟩, q, hq, h4, h5⟩
    | some p =>
      by_cases he : i = j
      · subst he
        rw [hq] at hj
        obtain rfl := Option.some.inj hj
        exact ⟨⟨on, ho, h1, h2, h3⟩, { q with timestep := t }, by simp [Store.setScan], h4, h5⟩
      · exact ⟨⟨on, ho, h1, h2, h3⟩, q, by simp [Store.setScan, he, hq], h4, h5⟩

theorem setUp_acts {i o : ℕ} {ttmax rate : ℚ} {w : Windows} (l : List Action) {s : Store}
    (h : SetUp s i o ttmax rate w) (hl : ∀ a ∈ l, LeavesAlone i o ttmax a) :
    SetUp (acts s l) i o ttmax rate w := by
  induction l generalizing s with
  | nil => exact h
  | cons a l ih =>
    exact ih (setUp_act h a (hl a List.mem_cons_self)) fun b hb => hl b (List.mem_cons_of_mem _ hb)

theorem settings_setUp {s : Store} {i o : ℕ} {ttmax rate : ℚ} {w : Windows}
    (h : SetUp s i o ttmax rate w) (timespan : ℚ) :
    settings s i timespan = some ⟨scanPads w ttmax rate timespan, rate, rate⟩ := by
  obtain ⟨⟨on, ho, h1, h2, h3⟩, q, hq, h4, h5⟩ := h
  unfold settings
  rw [hq]
  dsimp only
  rw [h4, ho]
  dsimp only
  unfold Onset.prePad Onset.postPad
  rw [h1, h2, h3, h5]
  rfl

/-- C101 (partial): whatever happened in the session before a scan was constructed on an onset object,
and whatever happened since that left its onset object alone, the scan runs at the rate of its onset
object, with the padding due to its own lookup table and the windows of the onset object: every
traveltime of the table, in samples, fits into the padding.  Missing: onset objects shared by scans
with different tables, or changed after the construction (see `C101_violated`). -/
theorem C101_own_padding_partial (before after : List Action) (i o : ℕ) (k : Kwargs)
    (hk : k.samplingRate = none) (on : ScanObject.Onset)
    (hon : (acts Store.empty before).onsets o = some on) (ttmax : ℚ)
    (hafter : ∀ a ∈ after, LeavesAlone i o ttmax a) (timespan : ℚ) :
    settings (acts Store.empty (before ++ [.scan i o ttmax k] ++ after)) i timespan =
      some ⟨scanPads on.windows ttmax on.rate timespan, on.rate, on.rate⟩ ∧
    ∀ (L : Compute.Lut), Compute.maxTraveltime L = some ttmax → 0 ≤ ttmax → on.windows.Nonneg →
      0 ≤ timespan → ∀ sr : ℕ, 0 < sr → on.rate = sr →
      ∀ station ∈ L.stations, ∀ phase ∈ L.phases, ∀ g, Compute.lookup L station phase = .ok g →
      ∀ node < L.nNodes, pyRound (g node * sr) ≤
        time2sample (scanPads on.windows ttmax on.rate timespan).2 sr := by
  constructor
  · apply settings_setUp
    unfold acts
    rw [List.foldl_append, List.foldl_append]
    apply setUp_acts after _ hafter
    change SetUp (act (acts Store.empty before) (.scan i o ttmax k)) i o ttmax on.rate on.windows
    simp only [act, newScan]
    rw [hon]
    dsimp only
    rw [hk]
    exact ⟨⟨on.setPostPad ttmax, by simp [Store.setScan, Store.setOnset], rfl, rfl, rfl⟩,
      _, by simp [Store.setScan]; rfl, rfl, rfl⟩
  · intro L hL htt hw hts sr hsr hr station hs phase hp g hg node hn
    rw [hr]
    exact C27_padding_covers_traveltimes L on.windows hw ttmax hL htt sr hsr timespan hts station phase
      hs hp g hg node hn

/-- Default windows, and a call without keyword arguments. -/
def exWindows : Windows := ⟨(1/5, 1), [(1/5, 1)]⟩
def exKw : Kwargs := ⟨none, none, none, none, none⟩

/-- Two scans sharing one onset object: the second has a table with shorter traveltimes. -/
def exShared : List Action :=
  [.onset 0 (some 50) exWindows, .scan 0 0 40 exKw, .scan 1 0 4 exKw]

open QM.Migrate in
/-- C101 is violated.  (1) When a second scan is constructed on the same onset object, with a table
whose traveltimes are shorter, the first scan is left with the padding of the second: migrating a
traveltime of 40 s, which its own table contains, then reads outside the onset functions, in every
order of execution.  (2) After the sampling rate of the onset object is changed, the scan stamps
samples computed at the new rate with the old one. -/
theorem C101_violated :
    (∃ st, settings (acts Store.empty exShared) 0 120 = some st ∧ st.scanRate = 50 ∧
      ((acts Store.empty exShared).scans 0).map Scan.ttmax = some 40 ∧
      ∀ (on : Arr2 ℝ) (tt : Arr2 ℤ) (first last : ℕ), time2sample st.pads.1 50 = first →
        time2sample st.pads.2 50 = last → 0 < on.rows → tt.cols = on.rows → first + last < on.cols →
        ∀ node < tt.rows, tt.get node (on.rows - 1) = 40 * 50 →
        ∀ (av : ℤ) (sched : List (ℕ × Op)),
          IsInterleaving tt.rows (nodeProg (mkArgs on tt first last av)) sched →
          migrate on tt first last av sched = .error .undefinedBehaviour) ∧
    ∃ st, settings (acts Store.empty [.onset 0 (some 50) exWindows, .scan 0 0 40 exKw, .setRate 0 100])
        0 120 = some st ∧ st.scanRate = 50 ∧ st.onsetRate = 100 := by
  constructor
  · refine ⟨⟨(48 / 5, 14), 50, 50⟩, ?_, rfl, rfl, ?_⟩
    · have : settings (acts Store.empty exShared) 0 120 =
          some ⟨pad (Pads.prePad exWindows) (Pads.postPad exWindows 4) 50 120, 50, 50⟩ := rfl
      rw [this]
      have hp : Pads.prePad exWindows = 8 / 5 := by
        unfold Pads.prePad Windows.ltaMax Windows.staMax exWindows; norm_num
      have hq : Pads.postPad exWindows 4 = 6 := by
        unfold Pads.postPad Windows.ltaMax exWindows
        have : ⌈(4 : ℚ) + 2 * ((([((1:ℚ)/5, (1:ℚ))] : List (ℚ × ℚ)).map Prod.snd).foldl max 1)⌉ = 6 := by
          norm_num
        exact_mod_cast this
      rw [hp, hq]
      have : pad (8/5) 6 50 120 = (48/5, 14) := by decide +kernel
      rw [this]
    · intro on tt first last h1 h2 h3 h4 h5 node hn htt av sched hs
      apply C26_guard_needed on tt first last h3 h4 h5 node hn _ av sched hs
      have : time2sample (14 : ℚ) 50 = 700 := by decide +kernel
      change time2sample (14 : ℚ) 50 = last at h2
      rw [htt]
      omega
  · exact ⟨_, rfl, rfl, rfl⟩

example : ∀ a ∈ ([.setPre 0 3, .onset 1 (some 50) exWindows, .scan 1 1 4 exKw, .setTimestep 0 60] :
    List Action), LeavesAlone 0 0 40 a := by
  intro a ha
  simp only [List.mem_cons, List.not_mem_nil, or_false] at ha
  rcases ha with rfl | rfl | rfl | rfl <;> simp [LeavesAlone]

/-! ## C102: settings take effect -/

/-- C102 (partial): the deprecated names `time_step` and `n_cores` mean the same as `timestep` and
`threads`, and settings not given have the documented defaults.  Missing: `sampling_rate`, and the
override of the padding (see `C102_violated`). -/
theorem C102_names_partial (s : Store) (i o : ℕ) (ttmax : ℚ) (on : ScanObject.Onset)
    (hon : s.onsets o = some on) :
    (∀ (t t' : Option ℚ) (n n' : Option ℤ), (t = none ∨ t' = none) → (n = none ∨ n' = none) →
      newScan s i o ttmax ⟨t, t', n, n', none⟩ = newScan s i o ttmax ⟨t.or t', none, n.or n', none, none⟩ ∧
      (newScan s i o ttmax ⟨t, t', n, n', none⟩).2 = .ok () ∧
      ∃ q, (newScan s i o ttmax ⟨t, t', n, n', none⟩).1.scans i = some q ∧
        (∀ v, t = some v ∨ t' = some v → q.timestep = v) ∧ (t = none → t' = none → q.timestep = 120) ∧
        (∀ v, n = some v ∨ n' = some v → q.threads = v) ∧ (n = none → n' = none → q.threads = 1)) := by
  intro t t' n n' ht hn
  unfold newScan
  rw [hon]
  refine ⟨?_, rfl, _, by simp [Store.setScan]; rfl, ?_, ?_, ?_, ?_⟩
  · rcases ht with rfl | rfl
    · cases t' <;> rcases hn with rfl | rfl
      · cases n' <;> simp
      · cases n <;> simp
      · cases n' <;> simp
      · cases n <;> simp
    · cases t <;> rcases hn with rfl | rfl
      · cases n' <;> simp
      · cases n <;> simp
      · cases n' <;> simp
      · cases n <;> simp
  · rcases ht with rfl | rfl <;> simp_all
  · rintro rfl rfl; rfl
  · rcases hn with rfl | rfl <;> simp_all
  · rintro rfl rfl; rfl

/-- C102 is violated.  (1) `QuakeScan(..., sampling_rate=r)`, said to be accepted with a warning, raises
AttributeError, for every rate, also the right one; it has by then changed the padding of the onset
object.  (2) Assigning `pre_pad` of an onset, documented to override the padding, changes no run of any
scan.  (3) Assigning `post_pad` does not set the padding to the value assigned. -/
theorem C102_violated :
    (∀ (s : Store) (i o : ℕ) (ttmax r : ℚ) (k : Kwargs) (on : ScanObject.Onset), s.onsets o = some on →
      (newScan s i o ttmax { k with samplingRate := some r }).2 = .error .attribute) ∧
    (∀ (s : Store) (o : ℕ) (v : ℚ) (i : ℕ) (timespan : ℚ),
      settings (act s (.setPre o v)) i timespan = settings s i timespan) ∧
    ∀ (s : Store) (o : ℕ) (v : ℚ) (on : ScanObject.Onset), s.onsets o = some on → 0 < on.windows.ltaMax →
      ∃ on', (act s (.setPost o v)).onsets o = some on' ∧ v < on'.postPad := by
  refine ⟨?_, ?_, ?_⟩
  · intro s i o ttmax r k on hon
    unfold newScan
    rw [hon]
  · intro s o v i timespan
    simp only [act]
    cases ho : s.onsets o with
    | none => rfl
    | some on =>
      unfold settings
      change (match s.scans i with
        | none => none
        | some q => _) = _
      cases s.scans i with
      | none => rfl
      | some q =>
        dsimp only
        by_cases h : q.onset = o
        · have e : (s.setOnset o (on.setPrePad v)).onsets q.onset = some (on.setPrePad v) := by
            simp [Store.setOnset, h]
          rw [e, h, ho]
          rfl
        · have e : (s.setOnset o (on.setPrePad v)).onsets q.onset = s.onsets q.onset := by
            simp [Store.setOnset, h]
          rw [e]
  · intro s o v on hon hl
    simp only [act]
    rw [hon]
    refine ⟨on.setPostPad v, by simp [Store.setOnset], ?_⟩
    unfold Onset.postPad Onset.setPostPad Pads.postPad
    have := Int.le_ceil (v + 2 * on.windows.ltaMax)
    push_cast at *
    linarith

example : 0 < exWindows.ltaMax := by unfold Windows.ltaMax exWindows; norm_num
example : ((newScan (act Store.empty (.onset 0 (some 50) exWindows)) 0 0 40
    ⟨none, some 60, some 4, none, none⟩).1.scans 0).map (fun q => (q.timestep, q.threads)) =
    some (60, 4) := rfl

/-- C101: an onset object that no scan has been made with does not pad after the window. -/
theorem C101_new_onset (rate : ℚ) (w : Windows) :
    ∃ on, newOnset (some rate) w = .ok on ∧ on.rate = rate ∧ on.windows = w ∧ on.postPad = 0 ∧
      on.prePad = w.ltaMax + 3 * w.staMax :=
  ⟨_, rfl, rfl, rfl, rfl, rfl⟩

end QM
