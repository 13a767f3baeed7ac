import Verif.Model.LocatePeriod
import Verif.Props.ScanObject
import Verif.Props.WaveLocate

/-!
# C186: locating a period in one run or in several
-/

namespace QM

open QM.WaveDetect QM.Locate QM.TriggerFiles QM.Trigger

/-- The events, with their origin times, that a call wrote. -/
def Spec.writtenBy : Except ScanObject.Err Result → List (Trig × ℚ)
  | .ok r => r.written
  | .error _ => []

/-- The call went through all triggered events there are: it came to its end, or reported that there are no trigger files. -/
def Spec.WentThrough (r : Except ScanObject.Err Result) : Prop :=
  r = .error .noTriggerFiles ∨ ∃ res, r = .ok res ∧ res.completed = true

/-- The parts of the period from `a` to `c` between consecutive cuts. -/
def Spec.partsOf (a : ℚ) : List ℚ → ℚ → List (ℚ × ℚ)
  | [], c => [(a, c)]
  | b :: bs, c => (a, b) :: Spec.partsOf b bs c

namespace LocatePeriod

theorem locateEvents_append {σ : Type} (mw : ℚ) (outcome : Trig → Outcome σ) (later : Trig → Later) (l₂ : List Trig) :
    ∀ l₁ : List Trig, locateEvents mw outcome later (l₁ ++ l₂) =
      if (locateEvents mw outcome later l₁).completed = true then
        ⟨(locateEvents mw outcome later l₁).written ++ (locateEvents mw outcome later l₂).written,
          (locateEvents mw outcome later l₂).completed⟩
      else locateEvents mw outcome later l₁
  | [] => by simp [locateEvents]
  | t :: ts => by
    have ih := locateEvents_append mw outcome later l₂ ts
    rw [List.cons_append, locateEvents, locateEvents]
    cases outcome t with
    | archiveEmpty => exact ih
    | dataGap => exact ih
    | dataAvailability => exact ih
    | other => simp
    | computed rows map =>
      simp only
      cases addComputeOutput rows map with
      | none => simp
      | some e =>
        simp only
        by_cases hin : inMarginalWindow t.time e.otime mw = true
        · simp only [hin, if_true]
          cases trim2window mw e with
          | none => simp
          | some e' =>
            simp only
            cases later t with
            | raisesBeforeWrite => simp
            | raisesAfterWrite => simp
            | fine =>
              simp only
              rw [ih]
              by_cases hc : (locateEvents mw outcome later ts).completed = true
              · simp [hc]
              · simp [hc]
        · simp only [hin]
          exact ih

theorem completed_append {σ : Type} (mw : ℚ) (outcome : Trig → Outcome σ) (later : Trig → Later) (l₁ l₂ : List Trig) :
    (locateEvents mw outcome later (l₁ ++ l₂)).completed = true ↔
      (locateEvents mw outcome later l₁).completed = true ∧ (locateEvents mw outcome later l₂).completed = true := by
  rw [locateEvents_append]
  by_cases hc : (locateEvents mw outcome later l₁).completed = true <;> simp [hc]

theorem completed_iff {σ : Type} (mw : ℚ) (outcome : Trig → Outcome σ) (later : Trig → Later) : ∀ l : List Trig,
    (locateEvents mw outcome later l).completed = true ↔ ∀ x ∈ l, (locateEvents mw outcome later [x]).completed = true
  | [] => by simp [locateEvents]
  | t :: ts => by
    rw [show t :: ts = [t] ++ ts from rfl, completed_append, completed_iff mw outcome later ts]
    simp

theorem written_iff {σ : Type} (mw : ℚ) (outcome : Trig → Outcome σ) (later : Trig → Later) : ∀ l : List Trig,
    (locateEvents mw outcome later l).completed = true → ∀ p,
      p ∈ (locateEvents mw outcome later l).written ↔ ∃ x ∈ l, p ∈ (locateEvents mw outcome later [x]).written
  | [] => by simp [locateEvents]
  | t :: ts => by
    intro h p
    rw [show t :: ts = [t] ++ ts from rfl] at h ⊢
    have h' := (completed_append mw outcome later _ _).1 h
    rw [locateEvents_append, if_pos h'.1]
    simp only [List.mem_append, written_iff mw outcome later ts h'.2 p, List.mem_singleton]
    constructor
    · rintro (h1 | ⟨x, hx, h1⟩)
      · exact ⟨t, .inl rfl, h1⟩
      · exact ⟨x, .inr hx, h1⟩
    · rintro ⟨x, rfl | hx, h1⟩
      · exact .inl h1
      · exact .inr ⟨x, hx, h1⟩

variable (s : Scan) (mw : ℚ) (amp : Option (ℚ × ℚ)) (preCut postCut : Option ℚ) (later : Trig → Later)
  (trig : Cand → Trig) (ofNone : Except ScanObject.Err ℚ) (files : Files)

theorem period_written {a b : ℚ} (hab : a ≤ b) :
    Spec.writtenBy (s.locatePeriod mw amp preCut postCut later trig ofNone files a b) =
      (s.locate mw amp preCut postCut later (((readTriggered files a b).getD []).map trig)).written := by
  unfold Scan.locatePeriod
  rw [locate_period ofNone files hab]
  cases readTriggered files a b with
  | none => rfl
  | some l => rfl

theorem period_through {a b : ℚ} (hab : a ≤ b) :
    Spec.WentThrough (s.locatePeriod mw amp preCut postCut later trig ofNone files a b) ↔
      (s.locate mw amp preCut postCut later (((readTriggered files a b).getD []).map trig)).completed = true := by
  unfold Scan.locatePeriod Spec.WentThrough
  rw [locate_period ofNone files hab]
  cases readTriggered files a b with
  | none => simp [ScanObject.orNoFiles, Scan.locate, locateEvents]
  | some l => simp [ScanObject.orNoFiles]

end LocatePeriod

/-- C186: cut anywhere, a period is located by one call or by two with the same result: the one call goes through all its events
exactly if both of the two do, and then it writes the events, with the origin times, that either of the two writes. -/
theorem C186_any_cut (s : Scan) (mw : ℚ) (amp : Option (ℚ × ℚ)) (preCut postCut : Option ℚ) (later : Trig → Later)
    (trig : Cand → Trig) (ofNone : Except ScanObject.Err ℚ) (files : Files) (hf : Spec.FilesWF files) (a b c : ℚ)
    (hab : a ≤ b) (hbc : b ≤ c) :
    (Spec.WentThrough (s.locatePeriod mw amp preCut postCut later trig ofNone files a c) ↔
      Spec.WentThrough (s.locatePeriod mw amp preCut postCut later trig ofNone files a b) ∧
      Spec.WentThrough (s.locatePeriod mw amp preCut postCut later trig ofNone files b c)) ∧
    (Spec.WentThrough (s.locatePeriod mw amp preCut postCut later trig ofNone files a c) → ∀ x t,
      (x, t) ∈ Spec.writtenBy (s.locatePeriod mw amp preCut postCut later trig ofNone files a c) ↔
        (x, t) ∈ Spec.writtenBy (s.locatePeriod mw amp preCut postCut later trig ofNone files a b) ∨
        (x, t) ∈ Spec.writtenBy (s.locatePeriod mw amp preCut postCut later trig ofNone files b c)) := by
  have hmem : ∀ e, e ∈ (readTriggered files a c).getD [] ↔
      e ∈ (readTriggered files a b).getD [] ∨ e ∈ (readTriggered files b c).getD [] := by
    intro e
    rw [C18_read_exact files hf, C18_read_exact files hf, C18_read_exact files hf, ← and_or_left]
    refine and_congr_right fun _ => ⟨fun ⟨h1, h2⟩ => ?_, fun h => ?_⟩
    · by_cases hb : e.coaTime < b
      · exact .inl ⟨h1, by split <;> [exact hb; exact hb.le]⟩
      · exact .inr ⟨not_lt.1 hb, h2⟩
    · rcases h with ⟨h1, h2⟩ | ⟨h1, h2⟩
      · refine ⟨h1, ?_⟩
        have hle : e.coaTime ≤ b := by split at h2 <;> [exact h2.le; exact h2]
        by_cases hm : isMidnight c
        · rw [if_pos hm]
          rcases lt_or_eq_of_le hbc with h | rfl
          · exact lt_of_le_of_lt hle h
          · rw [if_pos hm] at h2; exact h2
        · rw [if_neg hm]; exact hle.trans hbc
      · exact ⟨hab.trans h1, h2⟩
  rw [LocatePeriod.period_through _ _ _ _ _ _ _ _ _ (hab.trans hbc), LocatePeriod.period_through _ _ _ _ _ _ _ _ _ hab,
    LocatePeriod.period_through _ _ _ _ _ _ _ _ _ hbc, LocatePeriod.period_written _ _ _ _ _ _ _ _ _ (hab.trans hbc),
    LocatePeriod.period_written _ _ _ _ _ _ _ _ _ hab, LocatePeriod.period_written _ _ _ _ _ _ _ _ _ hbc]
  unfold Scan.locate
  generalize hO : s.locateOutcome mw _ = O
  have hthrough : (locateEvents mw O later (((readTriggered files a c).getD []).map trig)).completed = true ↔
      (locateEvents mw O later (((readTriggered files a b).getD []).map trig)).completed = true ∧
      (locateEvents mw O later (((readTriggered files b c).getD []).map trig)).completed = true := by
    rw [LocatePeriod.completed_iff mw O later, LocatePeriod.completed_iff mw O later ((((readTriggered files a b).getD [])).map trig),
      LocatePeriod.completed_iff mw O later ((((readTriggered files b c).getD [])).map trig)]
    simp only [List.forall_mem_map, hmem]
    exact ⟨fun h => ⟨fun e he => h e (.inl he), fun e he => h e (.inr he)⟩, fun h e he => he.elim (h.1 e) (h.2 e)⟩
  refine ⟨hthrough, fun hc x t => ?_⟩
  obtain ⟨h1, h2⟩ := hthrough.1 hc
  rw [LocatePeriod.written_iff _ _ _ _ hc, LocatePeriod.written_iff _ _ _ _ h1, LocatePeriod.written_iff _ _ _ _ h2]
  simp only [List.mem_map, hmem]
  constructor
  · rintro ⟨y, ⟨e, he | he, rfl⟩, hy⟩
    · exact .inl ⟨_, ⟨e, he, rfl⟩, hy⟩
    · exact .inr ⟨_, ⟨e, he, rfl⟩, hy⟩
  · rintro (⟨y, ⟨e, he, rfl⟩, hy⟩ | ⟨y, ⟨e, he, rfl⟩, hy⟩)
    · exact ⟨_, ⟨e, .inl he, rfl⟩, hy⟩
    · exact ⟨_, ⟨e, .inr he, rfl⟩, hy⟩

/-- C186: cut at midnights into any number of parts, located one after the other, a period gives the events of one call, each
once and in the same order, provided every part is gone through; and one call goes through the period if the parts do. -/
theorem C186_midnights (s : Scan) (mw : ℚ) (amp : Option (ℚ × ℚ)) (preCut postCut : Option ℚ) (later : Trig → Later)
    (trig : Cand → Trig) (ofNone : Except ScanObject.Err ℚ) (files : Files) (hf : Spec.FilesWF files) (c : ℚ) :
    ∀ (cuts : List ℚ) (a : ℚ), (∀ b ∈ cuts, isMidnight b) → (a :: cuts ++ [c]).Pairwise (· ≤ ·) →
      (Spec.WentThrough (s.locatePeriod mw amp preCut postCut later trig ofNone files a c) ↔
        ∀ p ∈ Spec.partsOf a cuts c,
          Spec.WentThrough (s.locatePeriod mw amp preCut postCut later trig ofNone files p.1 p.2)) ∧
      (Spec.WentThrough (s.locatePeriod mw amp preCut postCut later trig ofNone files a c) →
        Spec.writtenBy (s.locatePeriod mw amp preCut postCut later trig ofNone files a c) =
          (Spec.partsOf a cuts c).flatMap fun p =>
            Spec.writtenBy (s.locatePeriod mw amp preCut postCut later trig ofNone files p.1 p.2))
  | [], a, _, _ => by simp [Spec.partsOf]
  | b :: bs, a, hm, hs => by
    rw [List.cons_append, List.pairwise_cons] at hs
    have hab : a ≤ b := hs.1 b (by simp)
    have hbc : b ≤ c := by
      have := hs.2
      rw [List.cons_append, List.pairwise_cons] at this
      exact this.1 c (by simp)
    obtain ⟨ih1, ih2⟩ := C186_midnights s mw amp preCut postCut later trig ofNone files hf c bs b
      (fun x hx => hm x (List.mem_cons_of_mem _ hx)) hs.2
    have hcut := (C186_any_cut s mw amp preCut postCut later trig ofNone files hf a b c hab hbc).1
    refine ⟨?_, fun h => ?_⟩
    · rw [hcut, ih1, Spec.partsOf, List.forall_mem_cons]
    · obtain ⟨h1, h2⟩ := hcut.1 h
      rw [Spec.partsOf, List.flatMap_cons, ← ih2 h2]
      rw [LocatePeriod.period_through _ _ _ _ _ _ _ _ _ hab] at h1
      rw [LocatePeriod.period_written _ _ _ _ _ _ _ _ _ (hab.trans hbc), LocatePeriod.period_written _ _ _ _ _ _ _ _ _ hab,
        LocatePeriod.period_written _ _ _ _ _ _ _ _ _ hbc,
        ← C18_consecutive_periods files hf a b c hab hbc (hm b (by simp)), List.map_append]
      unfold Scan.locate at h1 ⊢
      rw [LocatePeriod.locateEvents_append, if_pos h1]

/-- C186: what a call that ends early has written is what the part of the period in which it ends would have written: cut at a
midnight, the call on the whole period does exactly what the call on the first part does if that does not go through. -/
theorem C186_ends_early (s : Scan) (mw : ℚ) (amp : Option (ℚ × ℚ)) (preCut postCut : Option ℚ) (later : Trig → Later)
    (trig : Cand → Trig) (ofNone : Except ScanObject.Err ℚ) (files : Files) (hf : Spec.FilesWF files) (a b c : ℚ)
    (hab : a ≤ b) (hbc : b ≤ c) (hb : isMidnight b)
    (h : ¬ Spec.WentThrough (s.locatePeriod mw amp preCut postCut later trig ofNone files a b)) :
    Spec.writtenBy (s.locatePeriod mw amp preCut postCut later trig ofNone files a c) =
      Spec.writtenBy (s.locatePeriod mw amp preCut postCut later trig ofNone files a b) ∧
    ¬ Spec.WentThrough (s.locatePeriod mw amp preCut postCut later trig ofNone files a c) := by
  refine ⟨?_, fun hw => h ((C186_any_cut s mw amp preCut postCut later trig ofNone files hf a b c hab hbc).1.1 hw).1⟩
  rw [LocatePeriod.period_through _ _ _ _ _ _ _ _ _ hab] at h
  rw [LocatePeriod.period_written _ _ _ _ _ _ _ _ _ (hab.trans hbc), LocatePeriod.period_written _ _ _ _ _ _ _ _ _ hab,
    ← C18_consecutive_periods files hf a b c hab hbc hb, List.map_append]
  unfold Scan.locate at h ⊢
  rw [LocatePeriod.locateEvents_append, if_neg h]

/-! ## A case that meets the hypotheses -/

namespace LocatePeriod

/-- Trigger files of two days, with an event in the first. -/
def exTriggers : Files := fun d =>
  if d = 0 then some [⟨3, 1, 0, 0, 0, 2, 4, 1, 1⟩] else if d = 1 then some [] else none

theorem exTriggers_wf : Spec.FilesWF exTriggers := by
  intro d evs h e he
  unfold exTriggers at h
  split at h
  · next hd =>
    obtain rfl := Option.some.inj h
    obtain rfl := List.mem_singleton.1 he
    subst hd
    norm_num
  · split at h
    · obtain rfl := Option.some.inj h
      simp at he
    · cases h

theorem exMidnight : isMidnight 86400 := by
  rw [isMidnight_iff]
  exact ⟨1, by norm_num [DAY]⟩

theorem exRead (b : ℚ) (hb : 3 < b) : (⟨3, 1, 0, 0, 0, 2, 4, 1, 1⟩ : Cand) ∈ (readTriggered exTriggers 0 b).getD [] := by
  rw [C18_read_exact _ exTriggers_wf]
  exact ⟨⟨0, _, rfl, by simp⟩, by norm_num, by split <;> [exact hb; exact hb.le]⟩

theorem exOnly (e : Cand) (he : e ∈ (readTriggered exTriggers 0 100000).getD []) : e.coaTime = 3 := by
  rw [C18_read_exact _ exTriggers_wf] at he
  obtain ⟨⟨d, evs, hd, he⟩, -⟩ := he
  unfold exTriggers at hd
  split at hd
  · obtain rfl := Option.some.inj hd
    obtain rfl := List.mem_singleton.1 he
    rfl
  · split at hd
    · obtain rfl := Option.some.inj hd
      simp at he
    · cases hd

open WaveLocate in
theorem ex_through : Spec.WentThrough
    (pulseScan.locatePeriod 1 none none (some 5) (fun _ => .fine) (fun e => ⟨0, e.coaTime⟩) (.error .type) exTriggers 0 100000) := by
  rw [period_through _ _ _ _ _ _ _ _ _ (by norm_num)]
  unfold Scan.locate
  rw [completed_iff]
  intro x hx
  obtain ⟨e, he, rfl⟩ := List.mem_map.1 hx
  exact (pulse_locate ⟨0, e.coaTime⟩ (exOnly e he)).1

open WaveLocate in
/-- The event is written by the call on the whole period, and so by the call on its first day. -/
example : (⟨0, 3⟩, 3) ∈ Spec.writtenBy (pulseScan.locatePeriod 1 none none (some 5) (fun _ => .fine) (fun e => ⟨0, e.coaTime⟩)
      (.error .type) exTriggers 0 100000) ∧
    (Spec.writtenBy (pulseScan.locatePeriod 1 none none (some 5) (fun _ => .fine) (fun e => ⟨0, e.coaTime⟩)
      (.error .type) exTriggers 0 100000) =
     [((0 : ℚ), (86400 : ℚ)), (86400, 100000)].flatMap fun p => Spec.writtenBy (pulseScan.locatePeriod 1 none none (some 5)
      (fun _ => .fine) (fun e => ⟨0, e.coaTime⟩) (.error .type) exTriggers p.1 p.2)) := by
  refine ⟨?_, (C186_midnights pulseScan 1 none none (some 5) (fun _ => .fine) (fun e => ⟨0, e.coaTime⟩) (.error .type) exTriggers
    exTriggers_wf 100000 [86400] 0 (by simpa using exMidnight) (by norm_num)).2 ex_through⟩
  have h := ex_through
  rw [period_through _ _ _ _ _ _ _ _ _ (by norm_num)] at h
  rw [period_written _ _ _ _ _ _ _ _ _ (by norm_num)]
  unfold Scan.locate at h ⊢
  rw [written_iff _ _ _ _ h]
  exact ⟨⟨0, 3⟩, List.mem_map.2 ⟨_, exRead _ (by norm_num), rfl⟩, (pulse_locate ⟨0, 3⟩ rfl).2⟩

/-- A call that ends early: the event fails at a later stage. -/
example : ¬ Spec.WentThrough (WaveLocate.pulseScan.locatePeriod 1 none none (some 5) (fun _ => .raisesAfterWrite)
    (fun e => ⟨0, e.coaTime⟩) (.error .type) exTriggers 0 86400) := by
  rw [period_through _ _ _ _ _ _ _ _ _ (by norm_num)]
  unfold Scan.locate
  rw [completed_iff]
  intro h
  have h1 := h ⟨0, 3⟩ (List.mem_map.2 ⟨_, exRead _ (by norm_num), rfl⟩)
  have h2 := (WaveLocate.pulse_locate ⟨0, 3⟩ rfl).2
  unfold Scan.locate at h2
  revert h1 h2
  generalize WaveLocate.pulseScan.locateOutcome 1 _ = O
  simp only [locateEvents]
  cases O ⟨0, 3⟩ with
  | archiveEmpty => simp
  | dataGap => simp
  | dataAvailability => simp
  | other => simp
  | computed rows map =>
    simp only
    cases addComputeOutput rows map with
    | none => simp
    | some e =>
      simp only
      split
      · cases trim2window 1 e <;> simp
      · simp

end LocatePeriod

end QM
