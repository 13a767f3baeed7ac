import Verif.Model.TriggerParams
import Verif.Lemmas.EventId
import Verif.Lemmas.TriggerFiles
import Verif.Props.TriggerEvents
import Verif.Props.TriggerBatches

/-! # C15 - C18, C71, C72: parameters, identifiers and files of the trigger stage -/

namespace QM

/-! ## C15 -/
section
open QM.TriggerParams

/-- Every assignment of the marginal window in the history does not raise it
above its current value. -/
def Spec.NeverRaisesWindow : Params → List Op → Prop
  | _, [] => True
  | p, op :: ops => (∀ v, op = .setMarginalWindow v → v ≤ p.mw) ∧
      Spec.NeverRaisesWindow (step p op).1 ops

/-- **C15** (partial: the full claim, for *all* histories, is false - see
`C15_violated_by_later_window`).  Constructor and setters keep
`min_event_interval >= 2 * marginal_window` through every history that does not
raise the marginal window. -/
theorem C15_interval_invariant_partial (mw mei mr : Option ℚ) (p : Params) (ops : List Op)
    (h : init mw mei mr = some p) (hs : Spec.NeverRaisesWindow p ops) :
    2 * (run p ops).mw ≤ (run p ops).mei := by
  have h0 : 2 * p.mw ≤ p.mei := by
    unfold init at h
    simp only at h
    split at h
    · simp at h
    · rename_i h1
      cases mr with
      | none => simp at h; subst h; simpa using h1
      | some r =>
        simp only at h
        split at h
        · simp at h; subst h; simpa using h1
        · split at h
          · simp at h
          · rename_i h2; simp at h; subst h; simpa using h2
  clear h
  unfold run
  induction ops generalizing p with
  | nil => exact h0
  | cons op ops ih =>
    rw [List.foldl_cons]
    refine ih _ hs.2 ?_
    cases op with
    | setMarginalWindow v =>
      have := hs.1 v rfl
      simp only [step]; linarith
    | setMinEventInterval v =>
      simp only [step]; split
      · exact h0
      · rename_i h2; simpa using h2
    | setMinimumRepeat v =>
      simp only [step]; split
      · exact h0
      · rename_i h2; simpa using h2

/-- **C15**: each interval assignment is accepted iff it is at least twice the
marginal window; an accepted one establishes the invariant from any state, a
rejected one changes nothing. -/
theorem C15_setter_checks (p : Params) (v : ℚ) (op : Op)
    (hop : op = .setMinEventInterval v ∨ op = .setMinimumRepeat v) :
    ((step p op).2 = true ↔ 2 * p.mw ≤ v) ∧
    ((step p op).2 = true → 2 * (step p op).1.mw ≤ (step p op).1.mei ∧ (step p op).1.mei = v) ∧
    ((step p op).2 = false → (step p op).1 = p) := by
  rcases hop with rfl | rfl <;> simp only [step] <;> split <;> rename_i h <;> simp [h] <;>
    simpa using h

/-- **C15**: which keyword arguments are accepted, and the parameters they give.  A `minimum_repeat` of 0 is taken for
one that is not given; any other takes the place of the interval. -/
theorem C15_constructor (mw mei : ℚ) (r : ℚ) (p : Params) :
    (init (some mw) (some mei) none = some p ↔ 2 * mw ≤ mei ∧ p = ⟨mw, mei⟩) ∧
    (init (some mw) (some mei) (some 0) = some p ↔ 2 * mw ≤ mei ∧ p = ⟨mw, mei⟩) ∧
    (r ≠ 0 → (init (some mw) (some mei) (some r) = some p ↔ 2 * mw ≤ mei ∧ 2 * mw ≤ r ∧ p = ⟨mw, r⟩)) ∧
    init none none none = some ⟨2, 4⟩ := by
  refine ⟨?_, ?_, fun hr => ?_, by decide +kernel⟩
  · simp only [init, Option.getD_some]
    split_ifs with h
    · simp; intro h'; linarith
    · simp [not_lt.mp h, eq_comm]
  · simp only [init, Option.getD_some]
    split_ifs with h
    · simp; intro h'; linarith
    · simp [not_lt.mp h, eq_comm]
  · simp only [init, Option.getD_some, hr, if_false]
    split_ifs with h h'
    · simp; intro h'; linarith
    · simp; intro _ h3; linarith
    · simp [not_lt.mp h, not_lt.mp h', eq_comm]

example : init (some 1) (some 3) (some 5) = some ⟨1, 5⟩ ∧ init (some 2) (some 3) none = none := by decide +kernel

/-- **C15 is violated**: raising `marginal_window` after construction is accepted
without re-checking the interval. -/
theorem C15_violated_by_later_window :
    ∃ p ops, init none none none = some p ∧ (∀ op ∈ ops, ∀ q, (step q op).2 = true) ∧
      (run p ops).mei < 2 * (run p ops).mw :=
  ⟨⟨2, 4⟩, [.setMarginalWindow 10], by decide +kernel, by simp [step], by decide +kernel⟩

example : init (some 1) none (some 3) = some ⟨1, 3⟩ ∧
    Spec.NeverRaisesWindow ⟨1, 3⟩ [.setMinEventInterval 5, .setMarginalWindow (1/2)] := by
  refine ⟨by decide +kernel, ?_, ?_, trivial⟩
  · intro v h; simp at h
  · intro v h; simp at h; subst h; norm_num [step]
end

/-! ## C16 -/
section
open QM.EventId QM.Spec

/-- **C16**: an event identifier is exactly 17 decimal digits. -/
theorem C16_id_is_17_digits (s : Stamp) (h : ValidStamp s) :
    (eventId s).length = 17 ∧ ∀ c ∈ eventId s, c.isDigit = true := by
  rw [eventId_eq s h]
  exact ⟨padDigits_length _ _, padDigits_isDigit _ _⟩

/-- **C16**: two times share an identifier iff they fall in the same millisecond. -/
theorem C16_same_id_iff_same_millisecond (s t : Stamp) (hs : ValidStamp s) (ht : ValidStamp t) :
    eventId s = eventId t ↔ microsOf s / 1000 = microsOf t / 1000 := by
  rw [eventId_eq s hs, eventId_eq t ht,
    (padDigits_lt 17 _ _ (secNum_lt s hs) (secNum_lt t ht)).2]
  exact (idNum_lt_iff s t hs ht).2

/-- **C16**: identifiers sort (as strings) in time order, to the millisecond. -/
theorem C16_ids_sort_in_time_order (s t : Stamp) (hs : ValidStamp s) (ht : ValidStamp t) :
    eventId s < eventId t ↔ microsOf s / 1000 < microsOf t / 1000 := by
  rw [eventId_eq s hs, eventId_eq t ht,
    (padDigits_lt 17 _ _ (secNum_lt s hs) (secNum_lt t ht)).1]
  exact (idNum_lt_iff s t hs ht).1

theorem exists_right_of_forall₂ {α β : Type} {R : α → β → Prop} {l : List α} {m : List β}
    (h : List.Forall₂ R l m) {a : α} (ha : a ∈ l) : ∃ b ∈ m, R a b := by
  induction h with
  | nil => simp at ha
  | cons hr _ ih =>
    rcases List.mem_cons.1 ha with rfl | ha
    · exact ⟨_, List.mem_cons_self .., hr⟩
    · obtain ⟨b, hb, hab⟩ := ih ha
      exact ⟨b, List.mem_cons_of_mem _ hb, hab⟩

/-- The time of an event of a batch is the time of one of its samples. -/
theorem event_time_is_sample (cfg : Trigger.Cfg) (data : List Trigger.Row) (thr : List ℚ)
    (e : Trigger.Cand) (he : e ∈ Trigger.refineCandidates cfg (Trigger.identifyCandidates cfg data thr)) :
    ∃ r ∈ data, e.coaTime = r.dt := by
  obtain ⟨groups, hfl, -, -, -, h2⟩ :=
    C11_merge_partition cfg (Trigger.identifyCandidates cfg data thr)
  obtain ⟨g, hg, hev⟩ := exists_right_of_forall₂ h2 he
  obtain ⟨pre, best, post, rfl, -, -, ht, -⟩ := hev
  have hb : best ∈ Trigger.identifyCandidates cfg data thr := by
    rw [← hfl]
    exact List.mem_flatten.2 ⟨_, hg, by simp⟩
  obtain ⟨runs, -, -, h3⟩ := C08_candidates_are_maximal_runs cfg data thr
  obtain ⟨r, -, p, peak, first, last, hp, -, -, hc, -⟩ := exists_right_of_forall₂ h3 hb
  refine ⟨peak, List.mem_of_getElem? hp.at_p, ?_⟩
  rw [ht]; exact hc

/-- **C16**: the events of one batch have pairwise different identifiers, in the order of the
events: samples are at least a millisecond apart, or events are (`min_event_interval` plus
`marginal_window`).  `stamp` is the calendar form of a CoaTime, assumed to be a whole number of
microseconds after `base`. -/
theorem C16_ids_unique_in_batch (cfg : Trigger.Cfg) (data : List Trigger.Row) (thr : List ℚ)
    (hdt : data.Pairwise (fun r s => r.dt < s.dt))
    (hms : 1 / 1000 ≤ cfg.mei + cfg.mw ∨
      (0 ≤ cfg.mei + cfg.mw ∧ data.Pairwise (fun r s => r.dt + 1 / 1000 ≤ s.dt)))
    (stamp : ℚ → Stamp) (base : ℤ) (hv : ∀ t, ValidStamp (stamp t))
    (hstamp : ∀ e ∈ Trigger.refineCandidates cfg (Trigger.identifyCandidates cfg data thr),
      ((microsOf (stamp e.coaTime) : ℤ) : ℚ) = base + e.coaTime * 1000000) :
    (Trigger.refineCandidates cfg (Trigger.identifyCandidates cfg data thr)).Pairwise
      (fun e f => eventId (stamp e.coaTime) < eventId (stamp f.coaTime)) := by
  refine (C10_events_separated cfg data thr hdt).imp_of_mem ?_
  intro e f he hf hlt
  rw [C16_ids_sort_in_time_order _ _ (hv _) (hv _)]
  have h1 := hstamp e he
  have h2 := hstamp f hf
  have hms' : e.coaTime + 1 / 1000 ≤ f.coaTime := by
    rcases hms with h | ⟨h0, h⟩
    · linarith
    · obtain ⟨r, hr, her⟩ := event_time_is_sample cfg data thr e he
      obtain ⟨s, hs, hfs⟩ := event_time_is_sample cfg data thr f hf
      have hrs : r.dt < s.dt := by linarith
      rw [her, hfs]
      obtain ⟨i, hi, rfl⟩ := List.getElem_of_mem hr
      obtain ⟨j, hj, rfl⟩ := List.getElem_of_mem hs
      rcases lt_trichotomy i j with hij | hij | hij
      · exact List.pairwise_iff_getElem.1 h i j hi hj hij
      · subst hij; exact absurd hrs (lt_irrefl _)
      · exact absurd hrs (not_lt.2 (List.pairwise_iff_getElem.1 hdt j i hj hi hij).le)
  have h3 : (microsOf (stamp e.coaTime) : ℚ) + 1000 ≤ microsOf (stamp f.coaTime) := by
    push_cast at h1 h2
    rw [h1, h2]; linarith
  have h4 : microsOf (stamp e.coaTime) + 1000 ≤ microsOf (stamp f.coaTime) := by exact_mod_cast h3
  omega

def exStamp : Stamp := ⟨2014, 6, 29, 18, 41, 55, 123456⟩
example : ValidStamp exStamp := by constructor <;> decide
example : String.ofList (eventId exStamp) = "20140629184155123" := by decide +kernel
end

/-! ## C17 -/
section
open QM.TriggerFiles

/-- The columns of a file of triggered events, as documented (docstring of `read_triggered_events`). -/
def Spec.documentedCols : List String :=
  ["EventID", "CoaTime", "TRIG_COA", "COA_X", "COA_Y", "COA_Z", "COA", "COA_NORM"]

/-- **C17** (what actually happens): the columns written by the last of a series
of calls carry one MinTime/MaxTime pair for *every* call with the option on so far. -/
theorem C17_columns_after_history (ws : List Bool) (w : Bool) :
    (writeHistory OUTPUT_COLS (ws ++ [w])).getLast? = some (Spec.documentedCols ++
      (List.replicate ((ws ++ [w]).count true) ["MinTime", "MaxTime"]).flatten) := by
  suffices H : ∀ (g : List String) (ws : List Bool), (writeHistory g (ws ++ [w])).getLast? =
      some (g ++ (List.replicate ((ws ++ [w]).count true) ["MinTime", "MaxTime"]).flatten) from
    H OUTPUT_COLS ws
  intro g ws
  induction ws generalizing g with
  | nil => cases w <;> simp [writeHistory, writeCols]
  | cons v ws ih =>
    rw [List.cons_append, writeHistory, List.getLast?_cons, ih]
    cases v with
    | false => simp [writeCols]
    | true => simp [writeCols, List.replicate_succ, List.append_assoc]

/-- **C17** (partial: false in general, see `C17_violated`).  The documented
columns are written as long as no earlier call in the process had the option on. -/
theorem C17_columns_first_use_partial (ws : List Bool) (w : Bool) (h : true ∉ ws) :
    (writeHistory OUTPUT_COLS (ws ++ [w])).getLast? =
      some (Spec.documentedCols ++ if w then ["MinTime", "MaxTime"] else []) := by
  rw [C17_columns_after_history, List.count_append, List.count_eq_zero.mpr h]
  cases w <;> simp

/-- **C17 is violated**: a second batch with the option on writes MinTime and
MaxTime twice, and a later batch with the option off still writes them. -/
theorem C17_violated :
    (writeHistory OUTPUT_COLS [true, true]).getLast? =
      some (Spec.documentedCols ++ ["MinTime", "MaxTime", "MinTime", "MaxTime"]) ∧
    (writeHistory OUTPUT_COLS [true, false]).getLast? = some (Spec.documentedCols ++ ["MinTime", "MaxTime"]) := by
  decide

example : true ∉ [false, false] := by decide
end

/-! ## C18, C71, C72 -/
section
open QM.TriggerFiles QM.Trigger

/-- Every event is in the file of its own day. -/
def Spec.FilesWF (f : Files) : Prop :=
  ∀ d evs, f d = some evs → ∀ e ∈ evs, 86400 * (d : ℚ) ≤ e.coaTime ∧ e.coaTime < 86400 * ((d : ℚ) + 1)

/-- **C18**: reading returns exactly the stored events in the requested period
(closed at the end unless the end is a midnight). -/
theorem C18_read_exact (f : Files) (hf : Spec.FilesWF f) (a b : ℚ) (e : Cand) :
    e ∈ (readTriggered f a b).getD [] ↔ (∃ d evs, f d = some evs ∧ e ∈ evs) ∧ a ≤ e.coaTime ∧
      (if isMidnight b then e.coaTime < b else e.coaTime ≤ b) := by
  rw [readTriggered_getD, List.mem_filter, List.mem_flatten]
  simp only [List.mem_filterMap, mem_readDays]
  constructor
  · rintro ⟨⟨evs, ⟨d, hd, hfd⟩, he⟩, hc⟩
    rw [Bool.and_eq_true, decide_eq_true_eq] at hc
    refine ⟨⟨d, evs, hfd, he⟩, hc.1, ?_⟩
    have := hc.2
    split <;> rename_i hm <;> simpa [hm] using this
  · rintro ⟨⟨d, evs, hfd, he⟩, h1, h2⟩
    have hw := hf d evs hfd e he
    have hle : e.coaTime ≤ b := by
      split at h2
      · exact le_of_lt h2
      · exact h2
    refine ⟨⟨evs, ⟨d, ⟨?_, ?_⟩, hfd⟩, he⟩, ?_⟩
    · have : dayNum a < d + 1 := by
        unfold dayNum
        rw [Int.floor_lt]; unfold DAY
        rw [div_lt_iff₀ (by norm_num)]; push_cast; linarith
      omega
    · exact (dayNum_le_iff d b).mpr (by unfold DAY; linarith)
    · rw [Bool.and_eq_true, decide_eq_true_eq]
      refine ⟨h1, ?_⟩
      split <;> rename_i hm <;> simpa [hm] using h2

/-- **C18**: locating `[a, b]` and then `[b, c]`, `b` a midnight, handles exactly
the events of `[a, c]`, in the same order, each once. -/
theorem C18_consecutive_periods (f : Files) (hf : Spec.FilesWF f) (a b c : ℚ) (hab : a ≤ b)
    (hbc : b ≤ c) (hb : isMidnight b) :
    (readTriggered f a b).getD [] ++ (readTriggered f b c).getD [] =
      (readTriggered f a c).getD [] := by
  obtain ⟨k, rfl⟩ := (isMidnight_iff b).mp hb
  rw [readTriggered_getD, readTriggered_getD, readTriggered_getD]
  have hak : dayNum a ≤ k := by
    have := dayNum_mono hab; rwa [dayNum_mul] at this
  have hkc : k ≤ dayNum c := by
    have := dayNum_mono hbc; rwa [dayNum_mul] at this
  have hkk : ⌊DAY * (k : ℚ) / DAY⌋ = k := dayNum_mul k
  rw [readDays_append (dayNum a) k (DAY * k) hak (by rw [hkk]; omega),
    readDays_append (dayNum a) k c hak (by unfold dayNum at hkc; omega), dayNum_mul]
  simp only [List.filterMap_append, List.flatten_append, List.filter_append]
  -- times of the events in the files of a list of days
  have hwf : ∀ (ds : List ℤ) (e : Cand), e ∈ (ds.filterMap f).flatten →
      ∃ d ∈ ds, DAY * (d : ℚ) ≤ e.coaTime ∧ e.coaTime < DAY * ((d : ℚ) + 1) := by
    intro ds e he
    obtain ⟨evs, hevs, he⟩ := List.mem_flatten.mp he
    obtain ⟨d, hd, hfd⟩ := List.mem_filterMap.mp hevs
    exact ⟨d, hd, hf d evs hfd e he⟩
  -- files from day k on contribute nothing to the first read
  have hnil : (((readDays k (DAY * k)).filterMap f).flatten).filter
      (fun e => decide (a ≤ e.coaTime) &&
        (if isMidnight (DAY * k) then decide (e.coaTime < DAY * k) else decide (e.coaTime ≤ DAY * k)))
      = [] := by
    rw [List.filter_eq_nil_iff]
    intro e he
    obtain ⟨d, hd, h1, -⟩ := hwf _ e he
    rw [mem_readDays] at hd
    have : (k : ℚ) ≤ d := by exact_mod_cast hd.1
    rw [if_pos hb, Bool.and_eq_true, decide_eq_true_eq, decide_eq_true_eq]
    unfold DAY at *
    intro h
    linarith [h.2]
  rw [hnil, List.append_nil]
  congr 1
  · apply List.filter_congr
    intro e he
    obtain ⟨d, hd, h1, h2⟩ := hwf _ e he
    obtain ⟨i, hi, rfl⟩ := List.mem_map.mp hd
    rw [List.mem_range] at hi
    have hlt : (dayNum a + (i : ℤ)) + 1 ≤ k := by omega
    have hlt' : (((dayNum a + (i : ℤ) : ℤ) : ℚ) + 1) ≤ k := by exact_mod_cast hlt
    have hlb : e.coaTime < DAY * k := by
      unfold DAY at *; linarith
    rw [if_pos hb]
    congr 1
    split
    · rw [decide_eq_decide]; constructor <;> intro _ <;> linarith
    · rw [decide_eq_decide]; constructor <;> intro _ <;> linarith
  · apply List.filter_congr
    intro e he
    obtain ⟨d, hd, h1, h2⟩ := hwf _ e he
    rw [mem_readDays] at hd
    have : (k : ℚ) ≤ d := by exact_mod_cast hd.1
    congr 1
    rw [decide_eq_decide]
    unfold DAY at *
    constructor <;> intro _ <;> linarith

/-- **C18 fails at other boundaries**: an event exactly at a non-midnight `b` is
located by both `[a, b]` and `[b, c]`. -/
theorem C18_boundary_event_twice (f : Files) (hf : Spec.FilesWF f) (a b c : ℚ) (hab : a ≤ b)
    (hbc : b < c) (hb : ¬ isMidnight b) (d : ℤ) (evs : List Cand) (e : Cand)
    (hd : f d = some evs) (he : e ∈ evs) (ht : e.coaTime = b) :
    e ∈ (readTriggered f a b).getD [] ∧ e ∈ (readTriggered f b c).getD [] := by
  rw [C18_read_exact f hf, C18_read_exact f hf]
  refine ⟨⟨⟨d, evs, hd, he⟩, by linarith, by rw [if_neg hb]; linarith⟩,
    ⟨⟨d, evs, hd, he⟩, by linarith, ?_⟩⟩
  split <;> linarith

/-- Two day files with one event each. -/
def exFiles : Files := fun d =>
  if d = 0 then some [⟨100, 1, 0, 0, 0, 96, 104, 1, 1⟩]
  else if d = 1 then some [⟨86400, 1, 0, 0, 0, 86396, 86404, 1, 1⟩] else none
example : Spec.FilesWF exFiles := by
  intro d evs h e he
  unfold exFiles at h
  split at h
  · rename_i hd; simp at h; subst h hd; simp at he; subst he; norm_num
  · split at h
    · rename_i hd; simp at h; subst h hd; simp at he; subst he; norm_num
    · simp at h
example : isMidnight 86400 ∧ ¬ isMidnight 100 := by decide +kernel

/-- Files stay well-formed under the writes of a trigger run (C13 supplies the
hypothesis on the events of each batch). -/
theorem C18_trigger_writes_wf (f : Files) (hf : Spec.FilesWF f)
    (l : List (ℚ × List Cand × List Cand))
    (hl : ∀ b ∈ l, ∀ e ∈ b.2.2, dayStart e.coaTime = dayStart b.1) :
    Spec.FilesWF (runWrites f l) := by
  unfold runWrites
  induction l generalizing f with
  | nil => exact hf
  | cons b l ih =>
    rw [List.foldl_cons]
    refine ih _ ?_ (fun b' hb' => hl b' (List.mem_cons_of_mem _ hb'))
    unfold batchWrite
    split
    · exact hf
    · intro d evs hd e he
      unfold Files.write at hd
      split at hd
      · rename_i hdd
        simp at hd; subst hd
        have h1 := hl b List.mem_cons_self e he
        have h2 := dayStart_le e.coaTime
        have h3 := lt_dayStart_add e.coaTime
        rw [h1] at h2 h3
        unfold dayStart at h2 h3
        subst hdd
        unfold dayNum DAY at *
        constructor
        · exact h2
        · calc e.coaTime < 86400 * ((⌊b.1 / 86400⌋ : ℤ) : ℚ) + 86400 := h3
            _ = 86400 * (((⌊b.1 / 86400⌋ : ℤ) : ℚ) + 1) := by ring
      · exact hf d evs hd e he

/-- **C71** (partial: days without any candidate are excluded, see
`C71_violated_stale_file`).  After a run whose batches are on different days, the
file of every day on which there was a candidate holds exactly that batch's
events; every other file is untouched. -/
theorem C71_files_hold_this_run_partial (f : Files) (l : List (ℚ × List Cand × List Cand))
    (hd : l.Pairwise (fun b c => dayNum b.1 ≠ dayNum c.1)) :
    (∀ b ∈ l, b.2.1 ≠ [] → runWrites f l (dayNum b.1) = some b.2.2) ∧
    (∀ d, (∀ b ∈ l, dayNum b.1 = d → b.2.1 = []) → runWrites f l d = f d) := by
  unfold runWrites
  induction l generalizing f with
  | nil => simp
  | cons b l ih =>
    rw [List.pairwise_cons] at hd
    obtain ⟨ih1, ih2⟩ := ih (batchWrite f b.1 b.2.1 b.2.2) hd.2
    rw [List.foldl_cons]
    constructor
    · intro c hc hne
      rcases List.mem_cons.mp hc with rfl | hc
      · rw [ih2 (dayNum c.1) (fun b' hb' he => absurd he.symm (hd.1 b' hb'))]
        unfold batchWrite Files.write
        simp [hne]
      · exact ih1 c hc hne
    · intro d h
      rw [ih2 d (fun b' hb' he => h b' (List.mem_cons_of_mem _ hb') he)]
      unfold batchWrite
      split
      · rfl
      · rename_i hne
        unfold Files.write
        rw [if_neg]
        intro hdd
        exact hne (h b List.mem_cons_self hdd.symm)

/-- **C71 is violated**: re-running a day with no candidate above threshold
leaves the previous run's events in the day's file. -/
theorem C71_violated_stale_file :
    ∃ (f : Files) (old : List Cand), old ≠ [] ∧ f 0 = some old ∧
      runWrites f [((0 : ℚ), [], [])] 0 = some old :=
  ⟨exFiles, [⟨100, 1, 0, 0, 0, 96, 104, 1, 1⟩], by simp, rfl, rfl⟩

/-- **C72** (partial: needs different days, see `C72_violated_same_day`).  Two
runs on disjoint sets of days do not touch each other's results. -/
theorem C72_runs_on_other_days_independent_partial (f : Files)
    (l m : List (ℚ × List Cand × List Cand))
    (h : ∀ b ∈ l, ∀ c ∈ m, dayNum b.1 ≠ dayNum c.1) (b : ℚ × List Cand × List Cand) (hb : b ∈ l) :
    runWrites (runWrites f l) m (dayNum b.1) = runWrites f l (dayNum b.1) := by
  generalize runWrites f l = g
  unfold runWrites
  induction m generalizing g with
  | nil => rfl
  | cons c m ih =>
    rw [List.foldl_cons, ih (fun b' hb' c' hc' => h b' hb' c' (List.mem_cons_of_mem _ hc'))]
    unfold batchWrite
    split
    · rfl
    · unfold Files.write
      rw [if_neg (h b hb c List.mem_cons_self)]

/-- **C72 is violated**: triggering the two halves of one day in two calls loses
the first half's events. -/
theorem C72_violated_same_day :
    ∃ (e1 e2 : Cand), e1 ≠ e2 ∧
      runWrites (runWrites (fun _ => none) [((0 : ℚ), [e1], [e1])]) [((43200 : ℚ), [e2], [e2])] 0
        = some [e2] :=
  ⟨⟨100, 1, 0, 0, 0, 96, 104, 1, 1⟩, ⟨50000, 1, 0, 0, 0, 49996, 50004, 1, 1⟩, by decide +kernel,
    by decide +kernel⟩

example : [((0 : ℚ), [(⟨100, 1, 0, 0, 0, 96, 104, 1, 1⟩ : Cand)], ([] : List Cand)),
    (86400, [], [])].Pairwise (fun b c => dayNum b.1 ≠ dayNum c.1) := by decide +kernel
end

end QM
