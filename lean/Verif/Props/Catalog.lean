import Verif.Model.Catalog
import Mathlib.Analysis.SpecialFunctions.Trigonometric.Basic

/-!
# C105, C106, C107: the exported catalogue
-/

namespace QM

open QM.Stations (Str)
open QM.Export QM.Catalog

/-! ## C105: which events are exported -/

/-- The listing of the directory of events: each event file once, in any order; the directory is there
once a file was written. -/
def IsGlob (fs : FileSys) : Option (List Str) → Prop
  | none => ∀ u, fs.events u = none
  | some l => l ≠ [] ∧ l.Nodup ∧ ∀ u, u ∈ l ↔ (fs.events u).isSome

/-- Some call got as far as writing the event file of `u`. -/
def EventWritten (calls : List Call) (u : Str) : Prop :=
  ∃ c ∈ calls, ∃ row, Write.event u row ∈ c.done

/-- All numbers of an event are finite: those of the location, and the magnitude if there is one. -/
def Located.Finite (e : Located) : Prop :=
  locationFinite e.row = true ∧ ∀ f m err r2, e.mag = some (f, m, err, r2) → m ≠ none ∧ err ≠ none

/-- All calls calculated magnitudes from phase `ph`, or none did. -/
def SameMagnitudes (ph : Char) (calls : List Call) : Prop :=
  (∀ c ∈ calls, ∀ e ∈ c.events, e.mag = none) ∨
  ∀ c ∈ calls, ∀ e ∈ c.events, ∃ mags mean amps, e.mag = some (calcMagnitude ph mags mean amps)

/-- Invariant of the run directory, for all calls made of events in `E`. -/
structure DirInv (E : Located → Prop) (fs : FileSys) : Prop where
  row : ∀ u r, fs.events u = some r → r.uid = u ∧ ∃ e, E e ∧ r = e.fullRow
  picks : ∀ u r, fs.events u = some r → (fs.picks u).isSome
  amps : ∀ u f, fs.amps u = some f → ∃ e m, E e ∧ e.row.uid = u ∧ e.mag = some (f, m)

theorem dirInv_empty (E : Located → Prop) : DirInv E FileSys.empty :=
  ⟨by intro u r h; simp [FileSys.empty] at h, by intro u r h; simp [FileSys.empty] at h,
    by intro u f h; simp [FileSys.empty] at h⟩

theorem dirInv_picks {E : Located → Prop} {fs : FileSys} (h : DirInv E fs) (u : Str) (l : List PickRow) :
    DirInv E (fs.write (.picks u l)) := by
  refine ⟨h.row, ?_, h.amps⟩
  intro v r hv
  have hv : fs.events v = some r := hv
  change (if v = u then some l else fs.picks v).isSome
  split
  · rfl
  · exact h.picks v r hv

theorem dirInv_amps {E : Located → Prop} {fs : FileSys} (h : DirInv E fs) (e : Located) (he : E e)
    (f : AmpsFile) (m : Option ℚ × Option ℚ × Option ℚ) (hm : e.mag = some (f, m)) :
    DirInv E (fs.write (.amps e.row.uid f)) := by
  refine ⟨h.row, h.picks, ?_⟩
  intro v g hv
  change (if v = e.row.uid then some f else fs.amps v) = some g at hv
  split at hv
  · obtain rfl := Option.some.inj hv
    rename_i hvu
    exact ⟨e, m, he, hvu.symm, hm⟩
  · exact h.amps v g hv

theorem dirInv_event {E : Located → Prop} {fs : FileSys} (h : DirInv E fs) (e : Located) (he : E e)
    (hp : (fs.picks e.row.uid).isSome) : DirInv E (fs.write (.event e.row.uid e.fullRow)) := by
  refine ⟨?_, ?_, h.amps⟩
  · intro v r hv
    change (if v = e.row.uid then some e.fullRow else fs.events v) = some r at hv
    split at hv
    · rename_i hvu
      obtain rfl := Option.some.inj hv
      exact ⟨hvu.symm, e, he, rfl⟩
    · exact h.row v r hv
  · intro v r hv
    change (if v = e.row.uid then some e.fullRow else fs.events v) = some r at hv
    split at hv
    · rename_i hvu
      rw [hvu]; exact hp
    · exact h.picks v r hv

theorem dirInv_eventWrites {E : Located → Prop} (e : Located) (he : E e) (n : ℕ) {fs : FileSys}
    (h : DirInv E fs) : DirInv E (((eventWrites e).take n).foldl FileSys.write fs) := by
  have hp : ∀ fs' : FileSys, ((fs'.write (.picks e.row.uid e.picks)).picks e.row.uid).isSome := by
    intro fs'; simp [FileSys.write]
  unfold eventWrites
  cases hm : e.mag with
  | none =>
    match n with
    | 0 => exact h
    | 1 => exact dirInv_picks h _ _
    | n + 2 =>
      simp only [List.append_nil, List.singleton_append, List.take_succ_cons, List.take_nil,
        List.foldl_cons, List.foldl_nil]
      exact dirInv_event (dirInv_picks h _ _) e he (hp fs)
  | some fm =>
    obtain ⟨f, m⟩ := fm
    match n with
    | 0 => exact h
    | 1 => exact dirInv_picks h _ _
    | 2 => exact dirInv_amps (dirInv_picks h _ _) e he f m hm
    | n + 3 =>
      simp only [List.cons_append, List.singleton_append, List.nil_append, List.take_succ_cons, List.take_nil,
        List.foldl_cons, List.foldl_nil]
      exact dirInv_event (dirInv_amps (dirInv_picks h _ _) e he f m hm) e he (hp fs)

theorem dirInv_done {E : Located → Prop} (l : List Located) (hl : ∀ e ∈ l, E e) (n : ℕ) {fs : FileSys}
    (h : DirInv E fs) : DirInv E (((l.flatMap eventWrites).take n).foldl FileSys.write fs) := by
  induction l generalizing n fs with
  | nil => simpa using h
  | cons e l ih =>
    rw [List.flatMap_cons, List.take_append, List.foldl_append]
    exact ih (fun e' he' => hl e' (List.mem_cons_of_mem _ he')) _
      (dirInv_eventWrites e (hl e List.mem_cons_self) n h)

theorem dirInv_calls {E : Located → Prop} (calls : List Call) (hl : ∀ c ∈ calls, ∀ e ∈ c.events, E e)
    {fs : FileSys} (h : DirInv E fs) : DirInv E ((calls.flatMap Call.done).foldl FileSys.write fs) := by
  induction calls generalizing fs with
  | nil => simpa using h
  | cons c calls ih =>
    rw [List.flatMap_cons, List.foldl_append]
    exact ih (fun c' hc' => hl c' (List.mem_cons_of_mem _ hc'))
      (dirInv_done c.events (hl c List.mem_cons_self) c.writes h)

theorem dirInv_after (calls : List Call) :
    DirInv (fun e => ∃ c ∈ calls, e ∈ c.events) (after calls) :=
  dirInv_calls calls (fun c hc e he => ⟨c, hc, he⟩) (dirInv_empty _)

theorem events_foldl (l : List Write) (fs : FileSys) (u : Str) :
    ((l.foldl FileSys.write fs).events u).isSome ↔
      (fs.events u).isSome ∨ ∃ row, Write.event u row ∈ l := by
  induction l generalizing fs with
  | nil => simp
  | cons w l ih =>
    rw [List.foldl_cons, ih]
    cases w with
    | picks v r => simp [FileSys.write]
    | amps v f => simp [FileSys.write]
    | event v r =>
      by_cases h : u = v
      · subst h; simp [FileSys.write]
      · simp [FileSys.write, h]

theorem eventWritten_iff (calls : List Call) (u : Str) :
    EventWritten calls u ↔ ((after calls).events u).isSome := by
  unfold after
  rw [events_foldl]
  simp only [FileSys.empty, Option.isSome_none, Bool.false_eq_true, false_or, List.mem_flatMap]
  exact ⟨fun ⟨c, hc, r, hr⟩ => ⟨r, c, hc, hr⟩, fun ⟨r, c, hc, hr⟩ => ⟨c, hc, r, hr⟩⟩

theorem exportLoop_all (one : EventRow → Except Catalog.Err (Option ObsEvent)) (l : List EventRow)
    (h : ∀ r ∈ l, ∃ ev, one r = .ok (some ev) ∧ ev.uid = r.uid) :
    ∃ evs, exportLoop one l = .ok evs ∧ evs.map ObsEvent.uid = l.map EventRow.uid := by
  induction l with
  | nil => exact ⟨[], rfl, rfl⟩
  | cons r l ih =>
    obtain ⟨ev, h1, h2⟩ := h r List.mem_cons_self
    obtain ⟨evs, h3, h4⟩ := ih fun r' hr' => h r' (List.mem_cons_of_mem _ hr')
    exact ⟨ev :: evs, by simp [exportLoop, h1, h3], by simp [h2, h4]⟩

theorem ampsOf_ok {nanOk : Bool} {ph : Char} {r : EventRow} {f : Option AmpsFile}
    (h1 : ∀ g, f = some g → g.hasMl = false → ∀ a ∈ g.rows, ampOf a ph = none)
    (h2 : ∀ g, f = some g → ∃ m e r2, r.ml = some (m, e, r2) ∧ (nanOk = true ∨ (m ≠ none ∧ e ≠ none))) :
    ∃ x, ampsOf nanOk ph r f = .ok x := by
  cases f with
  | none => exact ⟨_, rfl⟩
  | some g =>
    unfold ampsOf
    have : (!g.hasMl && g.rows.any (fun a => (ampOf a ph).isSome)) = false := by
      cases hg : g.hasMl with
      | true => rfl
      | false =>
        have := h1 g rfl hg
        simp only [Bool.not_false, Bool.true_and, List.any_eq_false]
        intro a ha
        simp [this a ha]
    simp only [this, Bool.false_eq_true, if_false]
    obtain ⟨m, e, r2, hm, hf⟩ := h2 g rfl
    unfold magOf
    rw [hm]
    dsimp only
    have : (nanOk || (m.isSome && e.isSome)) = true := by
      rcases hf with rfl | ⟨hm', he'⟩
      · rfl
      · rw [← Option.isSome_iff_ne_none] at hm' he'
        simp [hm', he']
    rw [if_pos this]
    exact ⟨_, rfl⟩

/-- C105 (partial): after any history of calls of `locate`, each stopped at any point, the export
succeeds and has exactly one event for each event file ever written, if magnitudes were calculated in
all calls, from the phase named to the export, or in none, ObsPy accepts the numbers, and at least one
event was written.  Missing: what happens otherwise (see `C105_violated`). -/
theorem C105_events_partial (calls : List Call) (ph : Char) (nanOk : Bool) (degKm : ℚ) (units : Units)
    (hmag : SameMagnitudes ph calls)
    (hfin : nanOk = true ∨ ∀ c ∈ calls, ∀ e ∈ c.events, Located.Finite e)
    (hsome : ∃ u, EventWritten calls u) (glob : Option (List Str)) (hglob : IsGlob (after calls) glob) :
    ∃ l evs, glob = some l ∧ readQuakemigrate nanOk degKm (some units) ph (after calls) glob = .ok evs ∧
      evs.map ObsEvent.uid = l ∧ l.Nodup ∧ ∀ u, u ∈ l ↔ EventWritten calls u := by
  have inv := dirInv_after calls
  cases glob with
  | none =>
    obtain ⟨u, hu⟩ := hsome
    rw [eventWritten_iff, hglob u] at hu
    simp at hu
  | some l =>
    obtain ⟨-, hnd, hl⟩ := hglob
    have hone : ∀ r ∈ l.filterMap (after calls).events, ∃ ev,
        exportEvent nanOk degKm (some units) ph (after calls) r = .ok (some ev) ∧ ev.uid = r.uid := by
      intro r hr
      obtain ⟨u, hul, hur⟩ := List.mem_filterMap.mp hr
      obtain ⟨huid, e, ⟨c, hc, he⟩, hre⟩ := inv.row u r hur
      obtain ⟨pk, hpk⟩ := Option.isSome_iff_exists.mp (inv.picks u r hur)
      have hloc : (!nanOk && !locationFinite r) = false := by
        rcases hfin with rfl | hfin
        · rfl
        · have := (hfin c hc e he).1
          have e1 : locationFinite r = true := by rw [hre]; exact this
          simp [e1]
      obtain ⟨x, hx⟩ : ∃ x, ampsOf nanOk ph r ((after calls).amps r.uid) = .ok x := by
        rcases hmag with hnone | hall
        · apply ampsOf_ok
          · intro g hg
            obtain ⟨e', m, ⟨c', hc', he'⟩, -, hm⟩ := inv.amps _ g hg
            rw [hnone c' hc' e' he'] at hm; simp at hm
          · intro g hg
            obtain ⟨e', m, ⟨c', hc', he'⟩, -, hm⟩ := inv.amps _ g hg
            rw [hnone c' hc' e' he'] at hm; simp at hm
        · apply ampsOf_ok
          · intro g hg hml a ha
            obtain ⟨e', m, ⟨c', hc', he'⟩, -, hm⟩ := inv.amps _ g hg
            obtain ⟨mags, mean, amps, hcm⟩ := hall c' hc' e' he'
            rw [hcm] at hm
            have hm := Option.some.inj hm
            unfold calcMagnitude at hm
            split at hm
            · rename_i hnull
              obtain ⟨rfl, -⟩ := Prod.mk.inj hm
              have := List.all_eq_true.mp hnull a ha
              simpa using this
            · obtain ⟨rfl, -⟩ := Prod.mk.inj hm
              simp at hml
          · intro g hg
            obtain ⟨mags, mean, amps, hcm⟩ := hall c hc e he
            have hml : r.ml = some (calcMagnitude ph mags mean amps).2 := by
              rw [hre]; simp [Located.fullRow, hcm]
            refine ⟨_, _, _, hml, ?_⟩
            rcases hfin with h | hfin
            · exact Or.inl h
            · exact Or.inr ((hfin c hc e he).2 _ _ _ _ hcm)
      obtain ⟨a, b, m⟩ := x
      refine ⟨⟨r.uid, [r.coa, r.coaNorm, r.trigCoa, r.decCoa, r.decCoaNorm], originsOf degKm units r,
        ellipsoidOf units r, pk.flatMap fun r => rowPicks r [.modelled, .autopick], a, b, m⟩, ?_, rfl⟩
      unfold exportEvent
      dsimp only
      rw [hloc, if_neg (by simp), huid, hpk]
      rw [huid] at hx
      simp only [readPicks, Option.map_some]
      rw [hx]
    obtain ⟨evs, h1, h2⟩ := exportLoop_all _ _ hone
    refine ⟨l, evs, rfl, h1, ?_, hnd, fun u => by rw [hl, eventWritten_iff]⟩
    rw [h2]
    clear h2 h1 hone hnd
    have hrow : ∀ u ∈ l, ∃ r, (after calls).events u = some r ∧ r.uid = u := by
      intro u hu
      obtain ⟨r, hr⟩ := Option.isSome_iff_exists.mp ((hl u).mp hu)
      exact ⟨r, hr, (inv.row u r hr).1⟩
    clear hl
    induction l with
    | nil => rfl
    | cons u l ih =>
      obtain ⟨r, hr, hu⟩ := hrow u List.mem_cons_self
      rw [List.filterMap_cons_some hr, List.map_cons, hu, ih fun v hv => hrow v (List.mem_cons_of_mem _ hv)]

/-- Units other than km and m are refused as soon as there is an event. -/
theorem C105_units (nanOk : Bool) (degKm : ℚ) (ph : Char) (fs : FileSys) (l : List Str) (u : Str)
    (hu : u ∈ l) (hev : (fs.events u).isSome) :
    readQuakemigrate nanOk degKm none ph fs (some l) = .error .attribute := by
  unfold readQuakemigrate
  obtain ⟨r, hr⟩ := Option.isSome_iff_exists.mp hev
  have hm : r ∈ l.filterMap fs.events := List.mem_filterMap.mpr ⟨u, hu, hr⟩
  dsimp only
  cases hl : l.filterMap fs.events with
  | nil => rw [hl] at hm; simp at hm
  | cons a t => simp [exportLoop, exportEvent]

/-- An event at 10 km depth, with picks, located with or without magnitude. -/
def exRow : EventRow := ⟨"1".toList, 100, 10, 60, 10, some 5, some 2, some 5, some 4, some 2, some 10, some 60,
  some 10, some 1, some 1, some 2, some 1, some 2, some 3, none⟩
def exPicksA : List PickRow := [⟨['A'], ['P'], 102, some 102, 1, 5⟩]
def exPicksB : List PickRow := [⟨['A'], ['P'], 103, some 103, 1, 5⟩]
def exAmps : List AmpRow := [⟨['A'], some 1, some 2, 1, 1, 1, none, 0⟩]
def exNoS : List AmpRow := [⟨['A'], some 1, none, 1, 1, 1, none, 0⟩]
def exMags (l : List AmpRow) : List AmpRow := l.map fun r => { r with ml := some 1, mlErr := 1 }
def exMean (_ : List AmpRow) : Option ℚ × Option ℚ × Option ℚ := (some 1, some 1, some 1)
def exPlain : Located := ⟨exRow, exPicksA, none⟩
def exWithMag : Located := ⟨exRow, exPicksA, some (calcMagnitude 'S' exMags exMean exAmps)⟩
def exNoMag : Located := ⟨exRow, exPicksA, some (calcMagnitude 'S' exMags exMean exNoS)⟩

theorem after_isGlob (calls : List Call) (l : List Str) (hne : l ≠ []) (hnd : l.Nodup)
    (h : ∀ u, u ∈ l ↔ EventWritten calls u) : IsGlob (after calls) (some l) :=
  ⟨hne, hnd, fun u => by rw [h, eventWritten_iff]⟩

/-- C105 is violated.  (1) When no event was written, the export raises UnboundLocalError instead of
returning an empty catalogue.  (2) When events were located with magnitudes and, later, located again
without, the export raises KeyError, and no event is exported.  (3) The same if the phase named is not
the one magnitudes were calculated from, and no such amplitude was measured for one of the events.
(4) If ObsPy refuses numbers that are not finite, one event for which no amplitude could be measured is
enough for the export to raise ValueError. -/
theorem C105_violated :
    (∀ calls glob nanOk degKm units ph, (∀ u, ¬ EventWritten calls u) → IsGlob (after calls) glob →
      readQuakemigrate nanOk degKm units ph (after calls) glob = .error .unboundLocal) ∧
    (∃ calls : List Call, (∀ c ∈ calls, (c.events.flatMap eventWrites).length ≤ c.writes) ∧
      EventWritten calls "1".toList ∧ IsGlob (after calls) (some ["1".toList]) ∧
      ∀ nanOk degKm units, readQuakemigrate nanOk degKm (some units) 'S' (after calls) (some ["1".toList]) =
        .error .key) ∧
    (∃ calls : List Call, (∀ c ∈ calls, ∀ e ∈ c.events, ∃ mags mean amps,
        e.mag = some (calcMagnitude 'S' mags mean amps)) ∧ IsGlob (after calls) (some ["1".toList]) ∧
      ∀ nanOk degKm units, readQuakemigrate nanOk degKm (some units) 'P' (after calls) (some ["1".toList]) =
        .error .key) ∧
    ∃ calls : List Call, (∀ c ∈ calls, ∀ e ∈ c.events, ∃ mags mean amps,
        e.mag = some (calcMagnitude 'S' mags mean amps)) ∧ IsGlob (after calls) (some ["1".toList]) ∧
      ∀ degKm units, readQuakemigrate false degKm (some units) 'S' (after calls) (some ["1".toList]) =
        .error .value := by
  refine ⟨?_, ⟨[⟨[exWithMag], 3⟩, ⟨[exPlain], 2⟩], ?_, ?_, ?_, ?_⟩, ⟨[⟨[exNoMag], 3⟩], ?_, ?_, ?_⟩,
    ⟨[⟨[exNoMag], 3⟩], ?_, ?_, ?_⟩⟩
  · intro calls glob nanOk degKm units ph hno hg
    cases glob with
    | none => rfl
    | some l =>
      obtain ⟨hne, -, hl⟩ := hg
      obtain ⟨u, hu⟩ := List.exists_mem_of_ne_nil l hne
      exact absurd ((eventWritten_iff calls u).mpr ((hl u).mp hu)) (hno u)
  · intro c hc
    simp only [List.mem_cons, List.not_mem_nil, or_false] at hc
    rcases hc with rfl | rfl <;> decide +kernel
  · exact ⟨⟨[exPlain], 2⟩, by simp, _, by simp [Call.done, eventWrites, exPlain, exRow]; rfl⟩
  · refine after_isGlob _ _ (by simp) (by simp) fun u => ?_
    simp only [List.mem_singleton]
    constructor
    · rintro rfl
      exact ⟨⟨[exPlain], 2⟩, by simp, _, by simp [Call.done, eventWrites, exPlain, exRow]; rfl⟩
    · rintro ⟨c, hc, row, hr⟩
      simp only [List.mem_cons, List.not_mem_nil, or_false] at hc
      rcases hc with rfl | rfl <;>
        simp [Call.done, eventWrites, exPlain, exWithMag, calcMagnitude, exRow] at hr <;> tauto
  · intro nanOk degKm units
    cases nanOk <;> rfl
  · intro c hc e he
    simp only [List.mem_singleton] at hc; subst hc
    simp only [List.mem_singleton] at he; subst he
    exact ⟨_, _, _, rfl⟩
  · refine after_isGlob _ _ (by simp) (by simp) fun u => ?_
    simp only [List.mem_singleton]
    constructor
    · rintro rfl
      exact ⟨⟨[exNoMag], 3⟩, by simp, _, by simp [Call.done, eventWrites, exNoMag, exRow]; rfl⟩
    · rintro ⟨c, hc, row, hr⟩
      simp only [List.mem_singleton] at hc; subst hc
      simp [Call.done, eventWrites, exNoMag, calcMagnitude, exRow] at hr; tauto
  · intro nanOk degKm units
    cases nanOk <;> rfl
  · intro c hc e he
    simp only [List.mem_singleton] at hc; subst hc
    simp only [List.mem_singleton] at he; subst he
    exact ⟨_, _, _, rfl⟩
  · refine after_isGlob _ _ (by simp) (by simp) fun u => ?_
    simp only [List.mem_singleton]
    constructor
    · rintro rfl
      exact ⟨⟨[exNoMag], 3⟩, by simp, _, by simp [Call.done, eventWrites, exNoMag, exRow]; rfl⟩
    · rintro ⟨c, hc, row, hr⟩
      simp only [List.mem_singleton] at hc; subst hc
      simp [Call.done, eventWrites, exNoMag, calcMagnitude, exRow] at hr; tauto
  · intro degKm units
    rfl

/-- Two calls with magnitudes, the second killed before it wrote the event file: meets the hypotheses of
`C105_events_partial`. -/
example : SameMagnitudes 'S' [⟨[exWithMag], 3⟩, ⟨[exWithMag], 2⟩] ∧ Located.Finite exWithMag ∧
    EventWritten [⟨[exWithMag], 3⟩, ⟨[exWithMag], 2⟩] "1".toList := by
  refine ⟨Or.inr ?_, ⟨rfl, ?_⟩, ⟨⟨[exWithMag], 3⟩, by simp, _, by
    simp [Call.done, eventWrites, exWithMag, exRow, calcMagnitude, exAmps, ampOf]; rfl⟩⟩
  · intro c hc e he
    simp only [List.mem_cons, List.not_mem_nil, or_false] at hc
    rcases hc with rfl | rfl <;>
      (simp only [List.mem_singleton] at he; subst he; exact ⟨_, _, _, rfl⟩)
  · intro f m err r2 h
    simp only [exWithMag, calcMagnitude, exAmps, ampOf, exMean] at h
    simp at h
    obtain ⟨-, rfl, rfl, -⟩ := h
    simp

/-! ## C106: the parts of an exported event belong together -/

/-- The event a write is about. -/
def _root_.QM.Catalog.Write.uidOf : Write → Str
  | .picks u _ => u
  | .amps u _ => u
  | .event u _ => u

/-- Two states agree on the files of `u`. -/
def SameFiles (u : Str) (a b : FileSys) : Prop :=
  a.events u = b.events u ∧ a.picks u = b.picks u ∧ a.amps u = b.amps u

theorem sameFiles_foldl (u : Str) (l : List Write) (hl : ∀ w ∈ l, w.uidOf ≠ u) (fs : FileSys) :
    SameFiles u (l.foldl FileSys.write fs) fs := by
  induction l generalizing fs with
  | nil => exact ⟨rfl, rfl, rfl⟩
  | cons w l ih =>
    rw [List.foldl_cons]
    obtain ⟨h1, h2, h3⟩ := ih (fun w hw => hl w (List.mem_cons_of_mem _ hw)) (fs.write w)
    have hw := (hl w List.mem_cons_self).symm
    refine ⟨h1.trans ?_, h2.trans ?_, h3.trans ?_⟩ <;> cases w <;> simp_all [FileSys.write, Catalog.Write.uidOf]

theorem eventWrites_uid (e : Located) : ∀ w ∈ eventWrites e, w.uidOf = e.row.uid := by
  intro w hw
  unfold eventWrites at hw
  cases hm : e.mag with
  | none =>
    rw [hm] at hw
    simp only [List.append_nil, List.singleton_append, List.mem_cons, List.not_mem_nil, or_false] at hw
    rcases hw with rfl | rfl <;> rfl
  | some fm =>
    rw [hm] at hw
    simp only [List.cons_append, List.nil_append, List.mem_cons, List.not_mem_nil, or_false] at hw
    rcases hw with rfl | rfl | rfl <;> rfl

theorem eventWrites_result (e : Located) (fs : FileSys) (hmag : e.mag = none → fs.amps e.row.uid = none) :
    let fs' := (eventWrites e).foldl FileSys.write fs
    fs'.events e.row.uid = some e.fullRow ∧ fs'.picks e.row.uid = some e.picks ∧
      fs'.amps e.row.uid = e.mag.map Prod.fst := by
  unfold eventWrites
  cases hm : e.mag with
  | none => simp [FileSys.write, hmag hm]
  | some fm => simp [FileSys.write]

theorem exportLoop_mem {one : EventRow → Except Catalog.Err (Option ObsEvent)} {l : List EventRow}
    {evs : List ObsEvent} (h : exportLoop one l = .ok evs) :
    (∀ r ∈ l, ∃ o, one r = .ok o ∧ ∀ ev, o = some ev → ev ∈ evs) ∧
      ∀ ev ∈ evs, ∃ r ∈ l, one r = .ok (some ev) := by
  induction l generalizing evs with
  | nil =>
    simp only [exportLoop, Except.ok.injEq] at h
    subst h
    simp
  | cons r l ih =>
    rw [exportLoop] at h
    cases hr : one r with
    | error e => rw [hr] at h; simp at h
    | ok o =>
      rw [hr] at h
      cases o with
      | none =>
        obtain ⟨h1, h2⟩ := ih h
        refine ⟨?_, fun ev hev => ?_⟩
        · intro r' hr'
          rcases List.mem_cons.mp hr' with rfl | hr'
          · exact ⟨none, hr, by simp⟩
          · exact h1 r' hr'
        · obtain ⟨r', hr', h3⟩ := h2 ev hev
          exact ⟨r', List.mem_cons_of_mem _ hr', h3⟩
      | some ev =>
        dsimp only at h
        cases ht : exportLoop one l with
        | error e => rw [ht] at h; simp at h
        | ok t =>
          rw [ht] at h
          simp only [Except.ok.injEq] at h
          subst h
          obtain ⟨h1, h2⟩ := ih ht
          refine ⟨?_, fun ev' hev => ?_⟩
          · intro r' hr'
            rcases List.mem_cons.mp hr' with rfl | hr'
            · exact ⟨some ev, hr, by simp⟩
            · obtain ⟨o, h3, h4⟩ := h1 r' hr'
              exact ⟨o, h3, fun x hx => List.mem_cons_of_mem _ (h4 x hx)⟩
          · rcases List.mem_cons.mp hev with rfl | hev
            · exact ⟨r, List.mem_cons_self, hr⟩
            · obtain ⟨r', hr', h3⟩ := h2 ev' hev
              exact ⟨r', List.mem_cons_of_mem _ hr', h3⟩

/-- C106 (partial): if the last call that located an event completed its files, and it calculated a
magnitude or no earlier one did, then the exported event is, in all its parts, the one that exporting
a fresh run with only this event gives.  Missing: calls stopped between the files of an event, and
magnitudes left from earlier calls (see `C106_violated`). -/
theorem C106_one_run_partial (before later : List Call) (evsBefore evsLater : List Located) (e : Located)
    (n : ℕ) (hn : ((evsBefore ++ [e]).flatMap eventWrites).length ≤ n)
    (h1 : ∀ e' ∈ evsLater, e'.row.uid ≠ e.row.uid)
    (h2 : ∀ c ∈ later, ∀ e' ∈ c.events, e'.row.uid ≠ e.row.uid)
    (hmag : e.mag = none → (∀ e' ∈ evsBefore, e'.row.uid = e.row.uid → e'.mag = none) ∧
      ∀ c ∈ before, ∀ e' ∈ c.events, e'.row.uid = e.row.uid → e'.mag = none)
    (nanOk : Bool) (degKm : ℚ) (units : Option Units) (ph : Char) (l : List Str) (evs : List ObsEvent)
    (hl : IsGlob (after (before ++ ⟨evsBefore ++ e :: evsLater, n⟩ :: later)) (some l))
    (hevs : readQuakemigrate nanOk degKm units ph
      (after (before ++ ⟨evsBefore ++ e :: evsLater, n⟩ :: later)) (some l) = .ok evs) :
    ∃ ev ∈ evs, ev.uid = e.row.uid ∧ (∀ ev' ∈ evs, ev'.uid = e.row.uid → ev' = ev) ∧
      readQuakemigrate nanOk degKm units ph (after [⟨[e], (eventWrites e).length⟩]) (some [e.row.uid]) =
        .ok [ev] := by
  set u := e.row.uid with hu
  set calls := before ++ ⟨evsBefore ++ e :: evsLater, n⟩ :: later with hcalls
  -- the state before and after the files of `e` were written
  set fs0 := after (before ++ [⟨evsBefore, (evsBefore.flatMap eventWrites).length⟩]) with hfs0
  have hn' : (evsBefore.flatMap eventWrites).length + (eventWrites e).length ≤ n := by
    simpa using hn
  obtain ⟨rest, hrest, hsplit⟩ : ∃ rest : List Write, (∀ w ∈ rest, w.uidOf ≠ u) ∧
      after calls = rest.foldl FileSys.write ((eventWrites e).foldl FileSys.write fs0) := by
    refine ⟨((evsLater.flatMap eventWrites).take (n - (evsBefore.flatMap eventWrites).length -
      (eventWrites e).length)) ++ later.flatMap Call.done, ?_, ?_⟩
    · intro w hw
      have key : ∀ l : List Located, (∀ e' ∈ l, e'.row.uid ≠ u) → ∀ w ∈ l.flatMap eventWrites, w.uidOf ≠ u := by
        intro l hl w hw
        obtain ⟨e', he', hw⟩ := List.mem_flatMap.mp hw
        rw [eventWrites_uid e' w hw]; exact hl e' he'
      rcases List.mem_append.mp hw with hw | hw
      · exact key _ h1 w (List.mem_of_mem_take hw)
      · obtain ⟨c, hc, hw⟩ := List.mem_flatMap.mp hw
        exact key _ (h2 c hc) w (List.mem_of_mem_take hw)
    · rw [hfs0, hcalls]
      unfold after
      rw [← List.foldl_append, ← List.foldl_append]
      congr 1
      simp only [List.flatMap_append, List.flatMap_cons, List.flatMap_nil, List.append_nil, Call.done,
        List.take_length]
      rw [List.take_append, List.take_of_length_le (by omega), List.take_append,
        List.take_of_length_le (l := eventWrites e) (by omega)]
      simp [List.append_assoc]
  have hamps0 : e.mag = none → fs0.amps u = none := by
    intro hm
    obtain ⟨hb1, hb2⟩ := hmag hm
    by_contra hne
    obtain ⟨f, hf⟩ := Option.ne_none_iff_exists'.mp hne
    obtain ⟨e', m, ⟨c, hc, he'⟩, hu', hm'⟩ := (dirInv_after _).amps u f hf
    rcases List.mem_append.mp hc with hc | hc
    · rw [hb2 c hc e' he' hu'] at hm'; simp at hm'
    · rw [List.mem_singleton] at hc
      subst hc
      rw [hb1 e' he' hu'] at hm'; simp at hm'
  obtain ⟨r1, r2, r3⟩ := eventWrites_result e fs0 hamps0
  obtain ⟨s1, s2, s3⟩ := eventWrites_result e FileSys.empty (fun _ => rfl)
  obtain ⟨q1, q2, q3⟩ := sameFiles_foldl u rest hrest ((eventWrites e).foldl FileSys.write fs0)
  rw [← hsplit] at q1 q2 q3
  have hfresh : after [⟨[e], (eventWrites e).length⟩] = (eventWrites e).foldl FileSys.write FileSys.empty := by
    simp [after, Call.done]
  have hone : exportEvent nanOk degKm units ph (after calls) e.fullRow =
      exportEvent nanOk degKm units ph (after [⟨[e], (eventWrites e).length⟩]) e.fullRow := by
    unfold exportEvent
    rw [hfresh]
    have e1 : (after calls).picks e.fullRow.uid = ((eventWrites e).foldl FileSys.write FileSys.empty).picks e.fullRow.uid := by
      change (after calls).picks u = ((eventWrites e).foldl FileSys.write FileSys.empty).picks u
      rw [q2, r2, s2]
    have e2 : (after calls).amps e.fullRow.uid = ((eventWrites e).foldl FileSys.write FileSys.empty).amps e.fullRow.uid := by
      change (after calls).amps u = ((eventWrites e).foldl FileSys.write FileSys.empty).amps u
      rw [q3, r3, s3]
    rw [e1, e2]
  have hrow : (after calls).events u = some e.fullRow := by rw [q1]; exact r1
  have hul : u ∈ l := (hl.2.2 u).mpr (by rw [hrow]; rfl)
  unfold readQuakemigrate at hevs
  obtain ⟨m1, m2⟩ := exportLoop_mem hevs
  obtain ⟨o, ho, hmem⟩ := m1 e.fullRow (List.mem_filterMap.mpr ⟨u, hul, hrow⟩)
  have hpk : (after calls).picks e.fullRow.uid = some e.picks := q2.trans r2
  -- an event with picks is not left out
  obtain ⟨ev, rfl⟩ : ∃ ev, o = some ev := by
    unfold exportEvent at ho
    rw [hpk] at ho
    cases units with
    | none => simp at ho
    | some un =>
      dsimp only at ho
      split at ho
      · simp at ho
      · simp only [readPicks, Option.map_some] at ho
        split at ho
        · simp at ho
        · exact ⟨_, (Except.ok.inj ho).symm⟩
  have huid : ∀ r x fs, exportEvent nanOk degKm units ph fs r = .ok (some x) → x.uid = r.uid := by
    intro r x fs hx
    unfold exportEvent at hx
    cases units with
    | none => simp at hx
    | some un =>
      dsimp only at hx
      split at hx
      · simp at hx
      · split at hx
        · simp at hx
        · split at hx
          · simp at hx
          · simp only [Except.ok.injEq, Option.some.injEq] at hx
            rw [← hx]
  refine ⟨ev, hmem ev rfl, huid e.fullRow _ _ ho, ?_, ?_⟩
  · intro ev' hev' hu'
    obtain ⟨r', hr', hx⟩ := m2 ev' hev'
    obtain ⟨v, -, hv⟩ := List.mem_filterMap.mp hr'
    have e1 := huid _ _ _ hx
    have e2 := ((dirInv_after calls).row v r' hv).1
    have : v = u := by rw [← e2, ← e1, hu']
    subst this
    rw [hrow] at hv
    obtain rfl := Option.some.inj hv
    rw [ho] at hx
    simpa using hx.symm
  · unfold readQuakemigrate
    have : [u].filterMap (after [⟨[e], (eventWrites e).length⟩]).events = [e.fullRow] := by
      rw [hfresh, List.filterMap_cons_some s1]; rfl
    dsimp only
    rw [this, exportLoop, ← hone, ho]
    rfl

/-- The same event located again, 5 km deeper and with other picks. -/
def exDeeper : Located := ⟨{ exRow with z := 15 }, exPicksB, none⟩

/-- C106 is violated: when a second call is stopped after the picks of an event were written and before
its event file was, the exported event has the location of the first call and the picks of the second. -/
theorem C106_violated : ∃ ev, readQuakemigrate false 111 (some .km) 'S'
      (after [⟨[exPlain], 2⟩, ⟨[exDeeper], 1⟩]) (some ["1".toList]) = .ok [ev] ∧
    IsGlob (after [⟨[exPlain], 2⟩, ⟨[exDeeper], 1⟩]) (some ["1".toList]) ∧
    ∀ e ∈ [exPlain, exDeeper], ∀ ev', readQuakemigrate false 111 (some .km) 'S'
      (after [⟨[e], (eventWrites e).length⟩]) (some ["1".toList]) = .ok [ev'] →
      ev'.origins ≠ ev.origins ∨ ev'.picks ≠ ev.picks := by
  refine ⟨_, rfl, ?_, ?_⟩
  · refine after_isGlob _ _ (by simp) (by simp) fun u => ?_
    simp only [List.mem_singleton]
    constructor
    · rintro rfl
      exact ⟨⟨[exPlain], 2⟩, by simp, _, by simp [Call.done, eventWrites, exPlain, exRow]; rfl⟩
    · rintro ⟨c, hc, row, hr⟩
      simp only [List.mem_cons, List.not_mem_nil, or_false] at hc
      rcases hc with rfl | rfl <;> simp [Call.done, eventWrites, exPlain, exDeeper, exRow] at hr <;> tauto
  · intro e he ev' h
    simp only [List.mem_cons, List.not_mem_nil, or_false] at he
    rcases he with rfl | rfl
    · right
      have : ev'.picks = exPicksA.flatMap fun r => rowPicks r [.modelled, .autopick] := by
        have := List.cons.inj (Except.ok.inj h)
        rw [← this.1]; rfl
      rw [this]
      decide +kernel
    · left
      have : ev'.origins = originsOf 111 .km { exRow with z := 15 } := by
        have := List.cons.inj (Except.ok.inj h)
        rw [← this.1]; rfl
      rw [this]
      decide +kernel

/-! ## C107: units and uncertainties of an exported event -/

/-- The same event in a file in metres. -/
def inMetres (r : EventRow) : EventRow :=
  { r with z := r.z * 1000, gauZ := r.gauZ.map (· * 1000), gauErrX := r.gauErrX.map (· * 1000),
           gauErrY := r.gauErrY.map (· * 1000), gauErrZ := r.gauErrZ.map (· * 1000),
           covErrX := r.covErrX.map (· * 1000), covErrY := r.covErrY.map (· * 1000),
           covErrZ := r.covErrZ.map (· * 1000) }

/-- C107 (partial): the exported origins and ellipsoid do not depend on whether the files are in km or
in m; the depth and its uncertainty are in metres, the uncertainty of the latitude is the northward one
in degrees, and the preferred origin (the first) has the location and time of the event file.
Missing: the uncertainty of the longitude and the order of the axes (see `C107_violated`). -/
theorem C107_units_partial (degKm : ℚ) (hdeg : 0 < degKm) (r : EventRow) :
    originsOf degKm .m (inMetres r) = originsOf degKm .km r ∧
    ellipsoidOf .m (inMetres r) = ellipsoidOf .km r ∧
    ∃ spline gaussian, originsOf degKm .km r = [spline, gaussian] ∧
      spline.longitude = some r.x ∧ spline.latitude = some r.y ∧ spline.depth = some (r.z * 1000) ∧
      spline.time = r.dt ∧ gaussian.longitude = r.gauX ∧ gaussian.latitude = r.gauY ∧
      gaussian.depth = r.gauZ.map (· * 1000) ∧ gaussian.time = r.dt ∧
      ∀ o ∈ [spline, gaussian], o.latitudeErr.map (· * degKm) = r.gauErrY ∧
        o.depthErr = r.gauErrZ.map (· * 1000) := by
  refine ⟨?_, ?_, _, _, rfl, rfl, rfl, rfl, rfl, rfl, rfl, rfl, rfl, ?_⟩
  · unfold originsOf inMetres factor
    cases r.gauErrX <;> cases r.gauErrY <;> cases r.gauErrZ <;> cases r.gauZ <;> simp
  · unfold ellipsoidOf inMetres factor
    cases r.covErrX <;> cases r.covErrY <;> cases r.covErrZ <;> simp
  · have hd := hdeg.ne'
    have key : (r.gauErrY.map fun e => km2deg degKm (e * factor .km / 1000)).map (· * degKm) = r.gauErrY := by
      cases r.gauErrY with
      | none => rfl
      | some e => simp [km2deg, factor, hd]
    intro o ho
    simp only [List.mem_cons, List.not_mem_nil, or_false] at ho
    rcases ho with rfl | rfl <;> exact ⟨key, rfl⟩

/-- C107 is violated.  (1) Away from the equator, the uncertainty of the longitude is too small: in
kilometres along the parallel it is less than the eastward uncertainty of the event file.  (2) When the
vertical uncertainty is the largest, the major axis of the ellipsoid is shorter than its minor axis. -/
theorem C107_violated :
    (∀ (degKm : ℚ) (r : EventRow) (e : ℚ), 0 < degKm → r.gauErrX = some e → 0 < e → r.y ≠ 0 →
      -90 < r.y → r.y < 90 → ∀ o ∈ originsOf degKm .km r, ∃ d, o.longitudeErr = some d ∧
        (d : ℝ) * (degKm * Real.cos (r.y * Real.pi / 180)) < e) ∧
    ∀ (u : Units) (r : EventRow) (ey ez : ℚ), r.covErrY = some ey → r.covErrZ = some ez → ey < ez →
      ∃ a b, (ellipsoidOf u r).major = some a ∧ (ellipsoidOf u r).minor = some b ∧ a < b := by
  constructor
  · intro degKm r e hdeg he hpos hy0 hy1 hy2 o ho
    have hlon : o.longitudeErr = some (e / degKm) := by
      unfold originsOf at ho
      simp only [List.mem_cons, List.not_mem_nil, or_false] at ho
      rcases ho with rfl | rfl <;> simp [he, km2deg, factor]
    refine ⟨_, hlon, ?_⟩
    have hpi := Real.pi_pos
    have hcos : Real.cos (r.y * Real.pi / 180) < 1 := by
      have hy1' : (-90 : ℝ) < (r.y : ℝ) := by exact_mod_cast hy1
      have hy2' : (r.y : ℝ) < 90 := by exact_mod_cast hy2
      have hne : (r.y : ℝ) * Real.pi / 180 ≠ 0 := by
        have : (r.y : ℝ) ≠ 0 := by exact_mod_cast hy0
        positivity
      refine lt_of_le_of_ne (Real.cos_le_one _) fun h => hne ?_
      refine (Real.cos_eq_one_iff_of_lt_of_lt ?_ ?_).mp h <;> nlinarith
    have hd : (0 : ℝ) < degKm := by exact_mod_cast hdeg
    have he' : (0 : ℝ) < e := by exact_mod_cast hpos
    push_cast
    rw [div_mul_eq_mul_div, div_lt_iff₀ hd]
    nlinarith [mul_pos he' hd, mul_lt_mul_of_pos_left hcos (mul_pos he' hd)]
  · intro u r ey ez h1 h2 h
    refine ⟨ey * factor u, ez * factor u, by simp [ellipsoidOf, h1], by simp [ellipsoidOf, h2], ?_⟩
    cases u
    · exact mul_lt_mul_of_pos_right h (by norm_num [factor])
    · exact mul_lt_mul_of_pos_right h (by norm_num [factor])

example : ∃ e, exRow.gauErrX = some e ∧ 0 < e ∧ exRow.y ≠ 0 ∧ -90 < exRow.y ∧ exRow.y < 90 :=
  ⟨1, rfl, by norm_num, by norm_num [exRow], by norm_num [exRow], by norm_num [exRow]⟩

/-! ## C106: what the parts of an exported event are -/

namespace Spec

/-- What a row of the picks file becomes: the modelled arrival, and the automatic pick if there is one. -/
def picksOfRow (r : PickRow) : List Pick :=
  ⟨r.station, r.phase, .modelled, r.modelled, none, none⟩ ::
    (r.pick.map fun t => (⟨r.station, r.phase, .autopick, t, some r.error, some r.snr⟩ : Pick)).toList

/-- The station magnitude of a row of amplitudes: there is one if the phase of the magnitudes has an
amplitude and its magnitude is a number. -/
def stationMag (ph : Char) (a : AmpRow) : Option (Stations.Str × ℚ × ℚ) :=
  match (if ph = 'P' then a.pAmp else a.sAmp), a.ml with
  | some _, some m => some (a.id, m, a.mlErr)
  | _, _ => none

/-- What a row of amplitudes becomes: an amplitude in metres for each measured phase, with the noise as uncertainty and the
period of the measured frequency. -/
def ampsOfRow (a : AmpRow) : List Amp :=
  (a.pAmp.map fun v => (⟨a.id, 'P', v / 1000, a.noise / 1000, 1 / a.pFreq⟩ : Amp)).toList ++
    (a.sAmp.map fun v => (⟨a.id, 'S', v / 1000, a.noise / 1000, 1 / a.sFreq⟩ : Amp)).toList

/-- Metres in a unit of length. -/
def metres : Units → ℚ
  | .km => 1000
  | .m => 1

end Spec

theorem readAmps_amps (ph : Char) (l : List AmpRow) : (readAmps ph l).1 = l.flatMap Spec.ampsOfRow := by
  simp only [readAmps, List.flatMap_assoc]
  congr 1
  funext a
  simp only [List.map_cons, List.map_nil, List.flatMap_cons, List.flatMap_nil, rowAmp, Spec.ampsOfRow]
  rcases a.pAmp with _ | p <;> rcases a.sAmp with _ | q <;> simp

theorem readAmps_mags (ph : Char) (hph : ph = 'P' ∨ ph = 'S') (l : List AmpRow) :
    (readAmps ph l).2.1 = l.filterMap (Spec.stationMag ph) ∧
      (readAmps ph l).2.2 = (l.filterMap (Spec.stationMag ph)).length := by
  have h : (readAmps ph l).2.1 = l.filterMap (Spec.stationMag ph) := by
    simp only [readAmps]
    induction l with
    | nil => rfl
    | cons a l ih =>
      rw [List.flatMap_cons, List.flatMap_append, ih]
      rcases hph with rfl | rfl
      · simp only [List.map_cons, List.map_nil, List.flatMap_cons, List.flatMap_nil, rowAmp, Spec.stationMag,
          List.filterMap_cons]
        rcases hp : a.pAmp with _ | p <;> rcases hs : a.sAmp with _ | q <;> rcases hm : a.ml with _ | m <;> simp
      · simp only [List.map_cons, List.map_nil, List.flatMap_cons, List.flatMap_nil, rowAmp, Spec.stationMag,
          List.filterMap_cons]
        rcases hp : a.pAmp with _ | p <;> rcases hs : a.sAmp with _ | q <;> rcases hm : a.ml with _ | m <;> simp
  exact ⟨h, by rw [← h]; rfl⟩

theorem readPicks_spec (rows : List PickRow) :
    readPicks (some rows) = some (rows.flatMap Spec.picksOfRow) := by
  simp only [readPicks, Option.map_some]
  congr 2
  funext r
  rcases h : r.pick with _ | t <;> simp [rowPicks, Spec.picksOfRow, h]

/-- C106, the contents: an event located with magnitudes, one of whose stations has an amplitude of the
phase magnitudes are taken from, is exported with the magnitude, error and r-squared of the mean over its
station magnitudes, with these station magnitudes (those that are numbers) and their number, with the
picks of the picks file and the amplitudes of the amplitudes file, with both locations, and with the uncertainties of the
covariance in metres as axes: North, East, depth. -/
theorem C106_contents (e : Located) (ph : Char) (hph : ph = 'P' ∨ ph = 'S')
    (mags : List AmpRow → List AmpRow) (mean : List AmpRow → Option ℚ × Option ℚ × Option ℚ)
    (amps : List AmpRow) (he : e.mag = some (calcMagnitude ph mags mean amps))
    (hamp : ∃ a ∈ amps, ∃ v, (if ph = 'P' then a.pAmp else a.sAmp) = some v)
    (m err : ℚ) (r2 : Option ℚ) (hmean : mean (mags amps) = (some m, some err, r2))
    (nanOk : Bool) (hloc : nanOk = true ∨ locationFinite e.row = true) (degKm : ℚ) (units : Units) :
    ∃ ev, readQuakemigrate nanOk degKm (some units) ph (after [⟨[e], (eventWrites e).length⟩])
        (some [e.row.uid]) = .ok [ev] ∧ ev.uid = e.row.uid ∧
      ev.picks = e.picks.flatMap Spec.picksOfRow ∧
      ev.stationMags = (mags amps).filterMap (Spec.stationMag ph) ∧
      ev.magnitude = some ⟨some m, some err, r2, ((mags amps).filterMap (Spec.stationMag ph)).length⟩ ∧
      ev.extra = [e.row.coa, e.row.coaNorm, e.row.trigCoa, e.row.decCoa, e.row.decCoaNorm] ∧
      ev.amplitudes = (mags amps).flatMap Spec.ampsOfRow ∧
      ev.origins.map (fun o => (o.method, o.longitude, o.latitude, o.depth, o.time)) =
        [("spline".toList, some e.row.x, some e.row.y, some (e.row.z * Spec.metres units), e.row.dt),
          ("gaussian".toList, e.row.gauX, e.row.gauY, e.row.gauZ.map (· * Spec.metres units), e.row.dt)] ∧
      ev.ellipsoid = ⟨e.row.covErrY.map (· * Spec.metres units), e.row.covErrX.map (· * Spec.metres units),
        e.row.covErrZ.map (· * Spec.metres units), 0, 0, 0⟩ := by
  have hall : (amps.all fun r => (ampOf r ph).isNone) = false := by
    obtain ⟨a, ha, v, hv⟩ := hamp
    rw [List.all_eq_false]
    exact ⟨a, ha, by rw [ampOf, hv]; simp⟩
  have hmag : e.mag = some (⟨true, mags amps⟩, some m, some err, r2) := by
    rw [he, calcMagnitude, hall, hmean]; rfl
  obtain ⟨s1, s2, s3⟩ := eventWrites_result e FileSys.empty (fun _ => rfl)
  have hfresh : after [⟨[e], (eventWrites e).length⟩] =
      (eventWrites e).foldl FileSys.write FileSys.empty := by
    simp [after, Call.done]
  rw [hfresh]
  generalize (eventWrites e).foldl FileSys.write FileSys.empty = fs at s1 s2 s3
  rw [hmag] at s3
  obtain ⟨q1, q2⟩ := readAmps_mags ph hph (mags amps)
  have hl : (!nanOk && !locationFinite e.fullRow) = false := by
    rcases hloc with h | h
    · simp [h]
    · have : locationFinite e.fullRow = true := h
      simp [this]
  have hone : exportEvent nanOk degKm (some units) ph fs e.fullRow = .ok (some ⟨e.row.uid,
      [e.row.coa, e.row.coaNorm, e.row.trigCoa, e.row.decCoa, e.row.decCoaNorm],
      originsOf degKm units e.fullRow, ellipsoidOf units e.fullRow, e.picks.flatMap Spec.picksOfRow,
      (readAmps ph (mags amps)).1, (mags amps).filterMap (Spec.stationMag ph),
      some ⟨some m, some err, r2, ((mags amps).filterMap (Spec.stationMag ph)).length⟩⟩) := by
    have u1 : fs.picks e.fullRow.uid = some e.picks := s2
    have u2 : fs.amps e.fullRow.uid = some ⟨true, mags amps⟩ := s3
    unfold exportEvent
    simp only [hl, u1, u2, readPicks_spec, Bool.false_eq_true, if_false]
    have hm : e.fullRow.ml = some (some m, some err, r2) := by
      simp [Located.fullRow, hmag]
    simp only [ampsOf, Bool.not_true, Bool.false_and, Bool.false_eq_true, if_false]
    rcases hra : readAmps ph (mags amps) with ⟨x, y, n⟩
    rw [hra] at q1 q2
    simp only at q1 q2
    subst q1 q2
    simp only [magOf, hm, Option.isSome_some, Bool.and_self, Bool.or_true, if_true]
    rfl
  refine ⟨⟨e.row.uid,
      [e.row.coa, e.row.coaNorm, e.row.trigCoa, e.row.decCoa, e.row.decCoaNorm],
      originsOf degKm units e.fullRow, ellipsoidOf units e.fullRow, e.picks.flatMap Spec.picksOfRow,
      (readAmps ph (mags amps)).1, (mags amps).filterMap (Spec.stationMag ph),
      some ⟨some m, some err, r2, ((mags amps).filterMap (Spec.stationMag ph)).length⟩⟩,
    ?_, rfl, rfl, rfl, rfl, rfl, readAmps_amps _ _, by cases units <;> rfl, by cases units <;> rfl⟩
  · have s1' : fs.events e.row.uid = some e.fullRow := s1
    simp only [readQuakemigrate, List.filterMap_cons, List.filterMap_nil, s1', exportLoop, hone]

/-- The hypotheses are met by an event with one station. -/
example : exWithMag.mag = some (calcMagnitude 'S' exMags exMean exAmps) ∧
    (∃ a ∈ exAmps, ∃ v, (if 'S' = 'P' then a.pAmp else a.sAmp) = some v) ∧
    exMean (exMags exAmps) = (some 1, some 1, some 1) ∧ locationFinite exWithMag.row = true := by
  refine ⟨rfl, ⟨_, List.mem_singleton.mpr rfl, 2, by decide⟩, rfl, by decide⟩

/-- C105: an event file without a picks file (a call of locate deleted or lost it) does not stop the
export: the events that have picks are exported, in the order of the files, and only those. -/
theorem C105_without_picks (fs : FileSys) (hname : ∀ u r, fs.events u = some r → r.uid = u)
    (hamps : ∀ u, fs.amps u = none) (l : List Str) (hl : ∀ u ∈ l, (fs.events u).isSome)
    (nanOk : Bool) (hfin : nanOk = true ∨ ∀ u r, fs.events u = some r → locationFinite r = true)
    (degKm : ℚ) (units : Units) (ph : Char) :
    ∃ evs, readQuakemigrate nanOk degKm (some units) ph fs (some l) = .ok evs ∧
      evs.map ObsEvent.uid = l.filter fun u => (fs.picks u).isSome := by
  simp only [readQuakemigrate]
  induction l with
  | nil => exact ⟨[], rfl, rfl⟩
  | cons u l ih =>
    obtain ⟨evs, h1, h2⟩ := ih fun v hv => hl v (List.mem_cons_of_mem _ hv)
    obtain ⟨r, hr⟩ := Option.isSome_iff_exists.mp (hl u List.mem_cons_self)
    have hu := hname u r hr
    have hloc : (!nanOk && !locationFinite r) = false := by
      rcases hfin with h | h
      · simp [h]
      · simp [h u r hr]
    rw [List.filterMap_cons, hr]
    rcases hp : fs.picks u with _ | rows
    · have hone : exportEvent nanOk degKm (some units) ph fs r = .ok none := by
        simp only [exportEvent, hloc, hu, hp, readPicks, Option.map_none, Bool.false_eq_true, if_false]
      refine ⟨evs, ?_, ?_⟩
      · simp only [exportLoop, hone]; exact h1
      · rw [h2, List.filter_cons]; simp [hp]
    · have hone : ∃ ev, exportEvent nanOk degKm (some units) ph fs r = .ok (some ev) ∧ ev.uid = u := by
        simp only [exportEvent, hloc, hu, hp, readPicks, Option.map_some, Bool.false_eq_true, if_false,
          hamps, ampsOf]
        exact ⟨_, rfl, rfl⟩
      obtain ⟨ev, h3, h4⟩ := hone
      refine ⟨ev :: evs, ?_, ?_⟩
      · simp only [exportLoop, h3]; rw [h1]
      · rw [List.map_cons, h2, List.filter_cons]; simp [hp, h4]

/-- The hypotheses are met by a directory with two events, one of which has no picks file. -/
example : ∃ fs : FileSys, (∀ u r, fs.events u = some r → r.uid = u) ∧ (∀ u, fs.amps u = none) ∧
    (fs.events ['1']).isSome ∧ (fs.events ['2']).isSome ∧ (fs.picks ['1']).isSome ∧
    (fs.picks ['2']).isNone ∧ ∀ u r, fs.events u = some r → locationFinite r = true := by
  refine ⟨⟨fun u => if u = ['1'] ∨ u = ['2'] then some { exRow with uid := u } else none,
    fun u => if u = ['1'] then some exPicksA else none, fun _ => none⟩, ?_, fun _ => rfl, by decide,
    by decide, by decide, by decide, ?_⟩
  · intro u r h
    dsimp only at h
    split at h
    · rw [← Option.some.inj h]
    · simp at h
  · intro u r h
    dsimp only at h
    split at h
    · rw [← Option.some.inj h]; rfl
    · simp at h

end QM
