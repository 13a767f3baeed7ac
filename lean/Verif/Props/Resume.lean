import Verif.Props.Catalog

/-!
# C143: an interrupted run of `locate` can be completed later
-/

namespace QM
open QM.Catalog
open QM.Stations (Str)

/-- Every time an event is located the results are the same. -/
def Spec.SameResults (calls : List Call) : Prop :=
  ∀ c ∈ calls, ∀ c' ∈ calls, ∀ e ∈ c.events, ∀ e' ∈ c'.events, e.row.uid = e'.row.uid → e = e'

/-- The call was not stopped early. -/
def Spec.RanToEnd (c : Call) : Prop := (c.events.flatMap eventWrites).length ≤ c.writes

/-- No two writes to one file differ. -/
private structure Consistent (ws : List Write) : Prop where
  events : ∀ u r r', Write.event u r ∈ ws → Write.event u r' ∈ ws → r = r'
  picks : ∀ u r r', Write.picks u r ∈ ws → Write.picks u r' ∈ ws → r = r'
  amps : ∀ u r r', Write.amps u r ∈ ws → Write.amps u r' ∈ ws → r = r'

private theorem events_iff (ws : List Write) (fs : FileSys) (u : Str) (r : EventRow)
    (h : ∀ r', Write.event u r' ∈ ws → r' = r) :
    (ws.foldl FileSys.write fs).events u = some r ↔ Write.event u r ∈ ws ∨ fs.events u = some r := by
  induction ws generalizing fs with
  | nil => simp
  | cons w ws ih =>
    rw [List.foldl_cons, ih _ (fun r' h' => h r' (List.mem_cons_of_mem _ h')), List.mem_cons]
    cases w with
    | picks v q => simp [FileSys.write]
    | amps v q => simp [FileSys.write]
    | event v q =>
      by_cases hv : u = v
      · subst hv
        have := h q List.mem_cons_self
        subst this
        simp [FileSys.write]
      · simp [FileSys.write, hv]

private theorem picks_iff (ws : List Write) (fs : FileSys) (u : Str) (r : List Export.PickRow)
    (h : ∀ r', Write.picks u r' ∈ ws → r' = r) :
    (ws.foldl FileSys.write fs).picks u = some r ↔ Write.picks u r ∈ ws ∨ fs.picks u = some r := by
  induction ws generalizing fs with
  | nil => simp
  | cons w ws ih =>
    rw [List.foldl_cons, ih _ (fun r' h' => h r' (List.mem_cons_of_mem _ h')), List.mem_cons]
    cases w with
    | event v q => simp [FileSys.write]
    | amps v q => simp [FileSys.write]
    | picks v q =>
      by_cases hv : u = v
      · subst hv
        have := h q List.mem_cons_self
        subst this
        simp [FileSys.write]
      · simp [FileSys.write, hv]

private theorem amps_iff (ws : List Write) (fs : FileSys) (u : Str) (r : AmpsFile)
    (h : ∀ r', Write.amps u r' ∈ ws → r' = r) :
    (ws.foldl FileSys.write fs).amps u = some r ↔ Write.amps u r ∈ ws ∨ fs.amps u = some r := by
  induction ws generalizing fs with
  | nil => simp
  | cons w ws ih =>
    rw [List.foldl_cons, ih _ (fun r' h' => h r' (List.mem_cons_of_mem _ h')), List.mem_cons]
    cases w with
    | event v q => simp [FileSys.write]
    | picks v q => simp [FileSys.write]
    | amps v q =>
      by_cases hv : u = v
      · subst hv
        have := h q List.mem_cons_self
        subst this
        simp [FileSys.write]
      · simp [FileSys.write, hv]

private theorem events_written (ws : List Write) (fs : FileSys) (u : Str) (r : EventRow)
    (h : (ws.foldl FileSys.write fs).events u = some r) : Write.event u r ∈ ws ∨ fs.events u = some r := by
  induction ws generalizing fs with
  | nil => exact Or.inr h
  | cons w ws ih =>
    rcases ih _ h with h | h
    · exact Or.inl (List.mem_cons_of_mem _ h)
    · cases w with
      | picks v q => exact Or.inr h
      | amps v q => exact Or.inr h
      | event v q =>
        by_cases hv : u = v
        · subst hv
          simp only [FileSys.write, if_true, Option.some.injEq] at h
          subst h
          exact Or.inl List.mem_cons_self
        · simp only [FileSys.write, if_neg hv] at h
          exact Or.inr h

private theorem picks_written (ws : List Write) (fs : FileSys) (u : Str) (r : List Export.PickRow)
    (h : (ws.foldl FileSys.write fs).picks u = some r) : Write.picks u r ∈ ws ∨ fs.picks u = some r := by
  induction ws generalizing fs with
  | nil => exact Or.inr h
  | cons w ws ih =>
    rcases ih _ h with h | h
    · exact Or.inl (List.mem_cons_of_mem _ h)
    · cases w with
      | event v q => exact Or.inr h
      | amps v q => exact Or.inr h
      | picks v q =>
        by_cases hv : u = v
        · subst hv
          simp only [FileSys.write, if_true, Option.some.injEq] at h
          subst h
          exact Or.inl List.mem_cons_self
        · simp only [FileSys.write, if_neg hv] at h
          exact Or.inr h

private theorem amps_written (ws : List Write) (fs : FileSys) (u : Str) (r : AmpsFile)
    (h : (ws.foldl FileSys.write fs).amps u = some r) : Write.amps u r ∈ ws ∨ fs.amps u = some r := by
  induction ws generalizing fs with
  | nil => exact Or.inr h
  | cons w ws ih =>
    rcases ih _ h with h | h
    · exact Or.inl (List.mem_cons_of_mem _ h)
    · cases w with
      | event v q => exact Or.inr h
      | picks v q => exact Or.inr h
      | amps v q =>
        by_cases hv : u = v
        · subst hv
          simp only [FileSys.write, if_true, Option.some.injEq] at h
          subst h
          exact Or.inl List.mem_cons_self
        · simp only [FileSys.write, if_neg hv] at h
          exact Or.inr h

/-- Which files there are and what they hold depends on the writes done only, not on their order or number. -/
private theorem dir_eq {ws ws' : List Write} (hc : Consistent ws) (hc' : Consistent ws')
    (h : ∀ w, w ∈ ws ↔ w ∈ ws') :
    ws.foldl FileSys.write FileSys.empty = ws'.foldl FileSys.write FileSys.empty := by
  have key : ∀ {α : Type} (a b : Option α), (∀ r, a = some r ↔ b = some r) → a = b := by
    intro α a b h
    cases a with
    | none =>
      cases b with
      | none => rfl
      | some r => exact absurd ((h r).2 rfl) (by simp)
    | some r => exact ((h r).1 rfl).symm
  have e1 : (ws.foldl FileSys.write FileSys.empty).events = (ws'.foldl FileSys.write FileSys.empty).events := by
    funext u
    apply key
    intro r
    constructor
    · intro hr
      have h1 : Write.event u r ∈ ws := (events_written _ _ _ _ hr).resolve_right (by simp [FileSys.empty])
      exact (events_iff ws' _ u r fun r' h' => hc'.events u r' r h' ((h _).1 h1)).2 (Or.inl ((h _).1 h1))
    · intro hr
      have h1 : Write.event u r ∈ ws' := (events_written _ _ _ _ hr).resolve_right (by simp [FileSys.empty])
      exact (events_iff ws _ u r fun r' h' => hc.events u r' r h' ((h _).2 h1)).2 (Or.inl ((h _).2 h1))
  have e2 : (ws.foldl FileSys.write FileSys.empty).picks = (ws'.foldl FileSys.write FileSys.empty).picks := by
    funext u
    apply key
    intro r
    constructor
    · intro hr
      have h1 : Write.picks u r ∈ ws := (picks_written _ _ _ _ hr).resolve_right (by simp [FileSys.empty])
      exact (picks_iff ws' _ u r fun r' h' => hc'.picks u r' r h' ((h _).1 h1)).2 (Or.inl ((h _).1 h1))
    · intro hr
      have h1 : Write.picks u r ∈ ws' := (picks_written _ _ _ _ hr).resolve_right (by simp [FileSys.empty])
      exact (picks_iff ws _ u r fun r' h' => hc.picks u r' r h' ((h _).2 h1)).2 (Or.inl ((h _).2 h1))
  have e3 : (ws.foldl FileSys.write FileSys.empty).amps = (ws'.foldl FileSys.write FileSys.empty).amps := by
    funext u
    apply key
    intro r
    constructor
    · intro hr
      have h1 : Write.amps u r ∈ ws := (amps_written _ _ _ _ hr).resolve_right (by simp [FileSys.empty])
      exact (amps_iff ws' _ u r fun r' h' => hc'.amps u r' r h' ((h _).1 h1)).2 (Or.inl ((h _).1 h1))
    · intro hr
      have h1 : Write.amps u r ∈ ws' := (amps_written _ _ _ _ hr).resolve_right (by simp [FileSys.empty])
      exact (amps_iff ws _ u r fun r' h' => hc.amps u r' r h' ((h _).2 h1)).2 (Or.inl ((h _).2 h1))
  generalize ws.foldl FileSys.write FileSys.empty = a at e1 e2 e3
  generalize ws'.foldl FileSys.write FileSys.empty = b at e1 e2 e3
  obtain ⟨a1, a2, a3⟩ := a
  obtain ⟨b1, b2, b3⟩ := b
  simp only at e1 e2 e3
  rw [e1, e2, e3]

private theorem mem_writes {e : Located} {w : Write} (h : w ∈ eventWrites e) :
    w = .picks e.row.uid e.picks ∨ (∃ m, e.mag = some m ∧ w = .amps e.row.uid m.1) ∨
      w = .event e.row.uid e.fullRow := by
  unfold eventWrites at h
  simp only [List.mem_append, List.mem_singleton] at h
  rcases h with (h | h) | h
  · exact Or.inl h
  · cases hm : e.mag with
    | none => rw [hm] at h; simp at h
    | some m =>
      rw [hm] at h
      obtain ⟨f, r⟩ := m
      simp only [List.mem_singleton] at h
      exact Or.inr (Or.inl ⟨_, rfl, h⟩)
  · exact Or.inr (Or.inr h)

private theorem mem_done {calls : List Call} {w : Write} (h : w ∈ calls.flatMap Call.done) :
    ∃ c ∈ calls, ∃ e ∈ c.events, w ∈ eventWrites e := by
  obtain ⟨c, hc, h⟩ := List.mem_flatMap.1 h
  obtain ⟨e, he, h⟩ := List.mem_flatMap.1 (List.mem_of_mem_take h)
  exact ⟨c, hc, e, he, h⟩

private theorem consistent_of {calls : List Call} (hs : Spec.SameResults calls) :
    Consistent (calls.flatMap Call.done) := by
  refine ⟨?_, ?_, ?_⟩
  · intro u r r' h h'
    obtain ⟨c, hc, e, he, h1⟩ := mem_done h
    obtain ⟨c', hc', e', he', h1'⟩ := mem_done h'
    rcases mem_writes h1 with h2 | ⟨m, hm, h2⟩ | h2 <;> simp only [Write.event.injEq, reduceCtorEq] at h2
    rcases mem_writes h1' with h2' | ⟨m', hm', h2'⟩ | h2' <;> simp only [Write.event.injEq, reduceCtorEq] at h2'
    obtain ⟨a1, a2⟩ := h2
    obtain ⟨b1, b2⟩ := h2'
    have hee := hs c hc c' hc' e he e' he' (a1.symm.trans b1)
    subst hee
    rw [a2, b2]
  · intro u r r' h h'
    obtain ⟨c, hc, e, he, h1⟩ := mem_done h
    obtain ⟨c', hc', e', he', h1'⟩ := mem_done h'
    rcases mem_writes h1 with h2 | ⟨m, hm, h2⟩ | h2 <;> simp only [Write.picks.injEq, reduceCtorEq] at h2
    rcases mem_writes h1' with h2' | ⟨m', hm', h2'⟩ | h2' <;> simp only [Write.picks.injEq, reduceCtorEq] at h2'
    obtain ⟨a1, a2⟩ := h2
    obtain ⟨b1, b2⟩ := h2'
    have hee := hs c hc c' hc' e he e' he' (a1.symm.trans b1)
    subst hee
    rw [a2, b2]
  · intro u r r' h h'
    obtain ⟨c, hc, e, he, h1⟩ := mem_done h
    obtain ⟨c', hc', e', he', h1'⟩ := mem_done h'
    rcases mem_writes h1 with h2 | ⟨m, hm, h2⟩ | h2 <;> simp only [Write.amps.injEq, reduceCtorEq] at h2
    rcases mem_writes h1' with h2' | ⟨m', hm', h2'⟩ | h2' <;> simp only [Write.amps.injEq, reduceCtorEq] at h2'
    obtain ⟨a1, a2⟩ := h2
    obtain ⟨b1, b2⟩ := h2'
    have hee := hs c hc c' hc' e he e' he' (a1.symm.trans b1)
    subst hee
    rw [hm] at hm'
    cases hm'
    rw [a2, b2]

private theorem done_complete {c : Call} (h : Spec.RanToEnd c) : c.done = c.events.flatMap eventWrites :=
  List.take_of_length_le h

/-- **C143.**  A run of locate that was stopped at any point, any number of times, is completed by running it
again: the directory is that of one run that was never stopped.  More generally, calls that together complete
each event they started leave the directory of one complete run over the same events, whatever the other
calls, their order and the points at which they stopped. -/
theorem C143_completed (calls : List Call) (whole : Call) (hs : Spec.SameResults (whole :: calls))
    (hw : Spec.RanToEnd whole) (hsub : ∀ c ∈ calls, ∀ e ∈ c.events, e ∈ whole.events)
    (hall : ∀ e ∈ whole.events, ∃ c ∈ calls, ∃ before later, c.events = before ++ e :: later ∧
      ((before ++ [e]).flatMap eventWrites).length ≤ c.writes) :
    after calls = after [whole] := by
  unfold after
  apply dir_eq
  · exact consistent_of fun c hc c' hc' => hs c (List.mem_cons_of_mem _ hc) c' (List.mem_cons_of_mem _ hc')
  · exact consistent_of fun c hc c' hc' => hs c (by rw [List.mem_singleton.1 hc]; simp) c'
      (by rw [List.mem_singleton.1 hc']; simp)
  intro w
  simp only [List.flatMap_cons, List.flatMap_nil, List.append_nil]
  rw [done_complete hw]
  constructor
  · intro h
    obtain ⟨c, hc, e, he, h1⟩ := mem_done h
    exact List.mem_flatMap.2 ⟨e, hsub c hc e he, h1⟩
  · intro h
    obtain ⟨e, he, h1⟩ := List.mem_flatMap.1 h
    obtain ⟨c, hc, before, later, h2, h3⟩ := hall e he
    refine List.mem_flatMap.2 ⟨c, hc, ?_⟩
    unfold Call.done
    rw [h2, List.append_cons, List.flatMap_append, List.take_append]
    apply List.mem_append_left
    rw [List.take_of_length_le h3]
    exact List.mem_flatMap.2 ⟨e, by simp, h1⟩

/-- **C143**, running the same call again: whatever the points at which the earlier attempts stopped. -/
theorem C143_again (events : List Located)
    (hu : ∀ e ∈ events, ∀ e' ∈ events, e.row.uid = e'.row.uid → e = e') (stops : List ℕ) (n : ℕ)
    (hn : (events.flatMap eventWrites).length ≤ n) :
    after (stops.map (fun k => ⟨events, k⟩) ++ [⟨events, n⟩]) = after [⟨events, n⟩] := by
  have hev : ∀ c ∈ (⟨events, n⟩ : Call) :: (stops.map (fun k => (⟨events, k⟩ : Call)) ++ [⟨events, n⟩]),
      c.events = events := by
    intro c hc
    simp only [List.mem_cons, List.mem_append, List.mem_map, List.mem_singleton] at hc
    rcases hc with rfl | ⟨k, -, rfl⟩ | hc
    · rfl
    · rfl
    · rcases hc with rfl | hc
      · rfl
      · simp at hc
  apply C143_completed _ ⟨events, n⟩
  · intro c hc c' hc' e he e' he'
    rw [hev c hc] at he
    rw [hev c' hc'] at he'
    exact hu e he e' he'
  · exact hn
  · intro c hc e he
    rw [hev c (List.mem_cons_of_mem _ hc)] at he
    exact he
  · intro e he
    refine ⟨⟨events, n⟩, by simp, ?_⟩
    obtain ⟨before, later, h⟩ := List.append_of_mem he
    refine ⟨before, later, h, le_trans ?_ hn⟩
    have h' : events = before ++ e :: later := h
    rw [h', List.append_cons, List.flatMap_append (xs := before ++ [e])]
    simp

/-- **C143**, only what was missing: after a call that stopped during an event, or between two, locating that
event and those after it completes the directory. -/
theorem C143_rest (first rest : List Located)
    (hu : ∀ e ∈ first ++ rest, ∀ e' ∈ first ++ rest, e.row.uid = e'.row.uid → e = e') (k n m : ℕ)
    (hk : (first.flatMap eventWrites).length ≤ k) (hn : (rest.flatMap eventWrites).length ≤ n)
    (hm : ((first ++ rest).flatMap eventWrites).length ≤ m) :
    after [⟨first ++ rest, k⟩, ⟨rest, n⟩] = after [⟨first ++ rest, m⟩] := by
  have hev : ∀ c ∈ [(⟨first ++ rest, m⟩ : Call), ⟨first ++ rest, k⟩, ⟨rest, n⟩], ∀ e ∈ c.events,
      e ∈ first ++ rest := by
    intro c hc e he
    simp only [List.mem_cons, List.not_mem_nil, or_false] at hc
    rcases hc with rfl | rfl | rfl
    · exact he
    · exact he
    · exact List.mem_append_right _ he
  apply C143_completed _ ⟨first ++ rest, m⟩
  · intro c hc c' hc' e he e' he'
    exact hu e (hev c hc e he) e' (hev c' hc' e' he')
  · exact hm
  · intro c hc e he
    exact hev c (List.mem_cons_of_mem _ hc) e he
  · intro e he
    rcases List.mem_append.1 he with he | he
    · refine ⟨⟨first ++ rest, k⟩, by simp, ?_⟩
      obtain ⟨before, later, h⟩ := List.append_of_mem he
      refine ⟨before, later ++ rest, by simp [h], le_trans ?_ hk⟩
      rw [h, List.append_cons, List.flatMap_append (xs := before ++ [e])]
      simp
    · refine ⟨⟨rest, n⟩, by simp, ?_⟩
      obtain ⟨before, later, h⟩ := List.append_of_mem he
      refine ⟨before, later, h, le_trans ?_ hn⟩
      rw [h, List.append_cons, List.flatMap_append (xs := before ++ [e])]
      simp

/-- **C143**, several calls: complete calls for parts of the events leave the same directory in any order, and
the same as one call. -/
theorem C143_parts (calls : List Call) (hc : ∀ c ∈ calls, Spec.RanToEnd c) (hs : Spec.SameResults calls)
    (whole : Call) (hw : Spec.RanToEnd whole) (hperm : whole.events.Perm (calls.flatMap Call.events)) :
    after calls = after [whole] := by
  have hmem : ∀ e, e ∈ whole.events ↔ ∃ c ∈ calls, e ∈ c.events := by
    intro e
    rw [hperm.mem_iff, List.mem_flatMap]
  apply C143_completed _ _ _ hw
  · intro c hc' e he
    exact (hmem e).2 ⟨c, hc', he⟩
  · intro e he
    obtain ⟨c, hc', he'⟩ := (hmem e).1 he
    obtain ⟨before, later, h⟩ := List.append_of_mem he'
    refine ⟨c, hc', before, later, h, le_trans ?_ (hc c hc')⟩
    rw [h, List.append_cons, List.flatMap_append (xs := before ++ [e])]
    simp
  · have hget : ∀ c ∈ whole :: calls, ∀ e ∈ c.events, ∃ c' ∈ calls, e ∈ c'.events := by
      intro c hc' e he
      rcases List.mem_cons.1 hc' with rfl | hc'
      · exact (hmem e).1 he
      · exact ⟨c, hc', he⟩
    intro c hc1 c' hc1' e he e' he' hu
    obtain ⟨d, hd, hde⟩ := hget c hc1 e he
    obtain ⟨d', hd', hde'⟩ := hget c' hc1' e' he'
    exact hs d hd d' hd' e hde e' hde' hu

/-! ### The hypotheses are met -/

/-- A second event, with a magnitude, located after `exPlain`. -/
def exSecond : Located :=
  ⟨{ exRow with uid := "2".toList, z := 12 }, exPicksB, some (calcMagnitude 'S' exMags exMean exAmps)⟩

/-- Two attempts that stop, one before anything is written and one after the picks of the first event, and
a complete third: the directory of one uninterrupted call. -/
example : after ([0, 1].map (fun k => (⟨[exPlain, exSecond], k⟩ : Call)) ++ [⟨[exPlain, exSecond], 5⟩])
    = after [⟨[exPlain, exSecond], 5⟩] := by
  apply C143_again
  · intro e he e' he' hu
    simp only [List.mem_cons, List.not_mem_nil, or_false] at he he'
    rcases he with rfl | rfl <;> rcases he' with rfl | rfl
    · rfl
    · exact absurd hu (by decide)
    · exact absurd hu (by decide)
    · rfl
  · decide +kernel

/-- The stopped attempt had left something different: the event file of the first event is missing from it. -/
example : (after [⟨[exPlain, exSecond], 1⟩]).events "1".toList = none
    ∧ (after [⟨[exPlain, exSecond], 5⟩]).events "1".toList ≠ none := by
  constructor <;> decide +kernel

end QM
