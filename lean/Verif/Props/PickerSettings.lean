import Verif.Model.PickerSettings

/-!
# C133: the picker works with the settings it was given

The specification: what was given last counts, the documented default if nothing was given.
-/

namespace QM
open PickerSettings

namespace PickerSettings

/-- The value of a setting: the last one assigned, else the one given to the constructor, else the default. -/
def wanted {α : Type} (default : α) (given : Option α) (assigned : List α) : α :=
  assigned.getLast?.getD (given.getD default)

/-- The values assigned to `mad_pick_threshold`. -/
def mads (h : List Assign) : List ℚ := h.filterMap fun | .mad k => some k | _ => none

/-- The values assigned to `percentile_pick_threshold`. -/
def percentiles (h : List Assign) : List ℚ := h.filterMap fun | .percentile p => some p | _ => none

/-- The values assigned to `fraction_tt`; `none` = back to that of the lookup table. -/
def fractions (h : List Assign) : List (Option ℚ) := h.filterMap fun | .fraction f => some f | _ => none

/-- The values assigned to `threshold_method`. -/
def methods (h : List Assign) : List Str := h.filterMap fun | .method m => some m | _ => none

/-- The script never assigns the old `pick_threshold`. -/
def NoOldName (h : List Assign) : Prop := ∀ x ∈ h, ∀ v, x ≠ .pickThreshold v

end PickerSettings

theorem wanted_last {α : Type} (d : α) (g : Option α) (x : α) (l : List α) :
    wanted d g (x :: l) = wanted d (some x) l := by
  unfold wanted
  cases l with
  | nil => rfl
  | cons y ys => simp [List.getLast?_cons_cons, List.getLast?_cons]

private theorem assignAll_ok (h : List Assign) (hn : NoOldName h) : ∀ s : Settings,
    ∃ s', assignAll s h = .ok s' ∧
      s'.method = wanted s.method none (methods h) ∧
      s'.fraction = wanted s.fraction none (fractions h) ∧
      (∀ k, s.mad = some k → s'.mad = some (wanted k none (mads h))) ∧
      (∀ p, s.percentile = some p → s'.percentile = some (wanted p none (percentiles h))) ∧
      (s.percentile = none → percentiles h = [] → s'.percentile = none) ∧
      (s.mad = none → mads h = [] → s'.mad = none) := by
  induction h with
  | nil => intro s; exact ⟨s, rfl, rfl, rfl, fun k e => e, fun p e => e, fun e _ => e, fun e _ => e⟩
  | cons x xs ih =>
    intro s
    have hn' : NoOldName xs := fun y hy => hn y (List.mem_cons_of_mem _ hy)
    have sw : ∀ {α : Type} (d x : α) (l : List α), wanted d none (x :: l) = wanted x none l := by
      intro α d x l; rw [wanted_last]; rfl
    cases x with
    | method m =>
      obtain ⟨s', e, h1, h2, h3, h4, h5, h6⟩ := ih hn' { s with method := m }
      refine ⟨s', e, ?_, h2, h3, h4, h5, h6⟩
      rw [h1]; exact (sw _ _ _).symm
    | percentile p =>
      obtain ⟨s', e, h1, h2, h3, h4, h5, h6⟩ := ih hn' { s with percentile := some p }
      refine ⟨s', e, h1, h2, h3, ?_, ?_, h6⟩
      · intro q _
        rw [h4 p rfl]; exact congrArg some (sw _ _ _).symm
      · intro _ hp; simp [percentiles] at hp
    | mad k =>
      obtain ⟨s', e, h1, h2, h3, h4, h5, h6⟩ := ih hn' { s with mad := some k }
      refine ⟨s', e, h1, h2, ?_, h4, h5, ?_⟩
      · intro q _
        rw [h3 k rfl]; exact congrArg some (sw _ _ _).symm
      · intro _ hp; simp [mads] at hp
    | fraction f =>
      obtain ⟨s', e, h1, h2, h3, h4, h5, h6⟩ := ih hn' { s with fraction := f }
      refine ⟨s', e, h1, ?_, h3, h4, h5, h6⟩
      rw [h2]; exact (sw _ _ _).symm
    | pickThreshold v => exact absurd rfl (hn _ List.mem_cons_self v)

private theorem mad_ne : "MAD".toList ≠ "percentile".toList := by decide

private theorem construct_old (a : Args) (ho : a.pickThreshold = none) : construct a = readMethod a := by
  unfold construct
  rw [ho]
  cases readMethod a <;> rfl

/-- C133, constructed for the MAD method (also by default) and never switched: every event is picked with
the multiple of the MAD given last (8 if none was), and with the last search fraction, that of the lookup
table if none is set. -/
theorem C133_mad_partial (pct : ℚ → List ℚ → Option ℚ) (a : Args) (h : List Assign) (v : Env)
    (onsets : List (Str × List (Str × List ℚ)))
    (hm : a.method = none ∨ a.method = some "MAD".toList) (ho : a.pickThreshold = none)
    (hh : methods h = []) (hn : NoOldName h) :
    ∃ s s', construct a = .ok s ∧ assignAll s h = .ok s' ∧
      pickPhases pct s' v onsets =
        (Picker.pickPhases { v with
            fraction := (wanted none (some a.fraction) (fractions h)).getD v.lutFraction
            method := .mad (wanted 8 a.mad (mads h)) } onsets).mapError .picking := by
  have hc : construct a = .ok ⟨"MAD".toList, none, some (a.mad.getD 8), a.fraction⟩ := by
    rw [construct_old a ho]
    unfold readMethod
    have : a.method.getD "MAD".toList = "MAD".toList := by rcases hm with e | e <;> rw [e] <;> rfl
    rw [this, if_neg mad_ne, if_pos rfl]
  obtain ⟨s', e, h1, h2, h3, -, -, -⟩ :=
    assignAll_ok h hn ⟨"MAD".toList, none, some (a.mad.getD 8), a.fraction⟩
  refine ⟨_, s', hc, e, ?_⟩
  have hm' : methodOf pct s' = .ok (.mad (wanted 8 a.mad (mads h))) := by
    have hmm : s'.method = "MAD".toList := by rw [h1, hh]; rfl
    have h3' : s'.mad = some (wanted 8 a.mad (mads h)) := h3 _ rfl
    unfold methodOf
    rw [hmm, if_neg mad_ne, if_pos rfl, h3']
  unfold PickerSettings.pickPhases
  rw [hm', h2]
  rfl

/-- C133, constructed for the percentile method and never switched, with a percentile that is one. -/
theorem C133_percentile_partial (pct : ℚ → List ℚ → Option ℚ) (a : Args) (h : List Assign) (v : Env)
    (onsets : List (Str × List (Str × List ℚ)))
    (hm : a.method = some "percentile".toList) (ho : a.pickThreshold = none)
    (hh : methods h = []) (hn : NoOldName h)
    (hp : 0 ≤ wanted 1 a.percentile (percentiles h) ∧ wanted 1 a.percentile (percentiles h) ≤ 1) :
    ∃ s s', construct a = .ok s ∧ assignAll s h = .ok s' ∧
      pickPhases pct s' v onsets =
        (Picker.pickPhases { v with
            fraction := (wanted none (some a.fraction) (fractions h)).getD v.lutFraction
            method := .percentile (pct (wanted 1 a.percentile (percentiles h))) } onsets).mapError
              .picking := by
  have hc : construct a = .ok ⟨"percentile".toList, some (a.percentile.getD 1), none, a.fraction⟩ := by
    rw [construct_old a ho]
    unfold readMethod
    have : a.method.getD "MAD".toList = "percentile".toList := by rw [hm]; rfl
    rw [this, if_pos rfl]
  obtain ⟨s', e, h1, h2, -, h4, -, -⟩ :=
    assignAll_ok h hn ⟨"percentile".toList, some (a.percentile.getD 1), none, a.fraction⟩
  refine ⟨_, s', hc, e, ?_⟩
  have h4' : s'.percentile = some (wanted 1 a.percentile (percentiles h)) := h4 _ rfl
  have hm' : methodOf pct s' = .ok (.percentile (pct (wanted 1 a.percentile (percentiles h)))) := by
    have hmm : s'.method = "percentile".toList := by rw [h1, hh]; rfl
    unfold methodOf
    rw [hmm, if_pos rfl, h4']
    exact if_pos hp
  unfold PickerSettings.pickPhases
  rw [hm', h2]
  rfl

/-- C133, wrong settings: a constructor with an unknown method, or with the old `pick_threshold` (not 0),
raises; and so does every later assignment to `pick_threshold`, leaving the object as it was. -/
theorem C133_refused_partial (a : Args) :
    ((∀ m, a.method = some m → m ≠ "MAD".toList → m ≠ "percentile".toList →
        construct a = .error .invalidMethod)) ∧
    ((a.method = none ∨ a.method = some "MAD".toList ∨ a.method = some "percentile".toList) →
      ∀ t, t ≠ 0 → a.pickThreshold = some t → construct a = .error .attributeError) ∧
    ∀ (s : Settings) (h h' : List Assign) (t : ℚ), NoOldName h →
      assignAll s (h ++ .pickThreshold t :: h') = .error .attributeError := by
  refine ⟨?_, ?_, ?_⟩
  · intro m hm h1 h2
    have hr : readMethod a = .error .invalidMethod := by
      unfold readMethod
      have : a.method.getD "MAD".toList = m := by rw [hm]; rfl
      rw [this, if_neg h2, if_neg h1]
    unfold construct
    rw [hr]
  · intro hm t ht ho
    have hr : ∃ s, readMethod a = .ok s := by
      unfold readMethod
      rcases hm with e | e | e
      · have : a.method.getD "MAD".toList = "MAD".toList := by rw [e]; rfl
        exact ⟨_, by rw [this, if_neg mad_ne, if_pos rfl]⟩
      · have : a.method.getD "MAD".toList = "MAD".toList := by rw [e]; rfl
        exact ⟨_, by rw [this, if_neg mad_ne, if_pos rfl]⟩
      · have : a.method.getD "MAD".toList = "percentile".toList := by rw [e]; rfl
        exact ⟨_, by rw [this, if_pos rfl]⟩
    obtain ⟨s, hs⟩ := hr
    unfold construct
    rw [hs, ho]
    exact if_neg ht
  · intro s h h' t hn
    induction h generalizing s with
    | nil => rfl
    | cons x xs ih =>
      have hn' : NoOldName xs := fun y hy => hn y (List.mem_cons_of_mem _ hy)
      cases x with
      | pickThreshold v => exact absurd rfl (hn _ List.mem_cons_self v)
      | method m => exact ih _ hn'
      | percentile p => exact ih _ hn'
      | mad k => exact ih _ hn'
      | fraction f => exact ih _ hn'

/-- C133 fails when the method is changed on the object: the threshold of the other method is not there,
neither its default nor the value that was given to the constructor, and picking any event raises an
`AttributeError` (after minutes of computing). -/
theorem C133_violated (pct : ℚ → List ℚ → Option ℚ) (a : Args) (v : Env) (st : Str × List (Str × List ℚ))
    (onsets : List (Str × List (Str × List ℚ))) (hst : st.2 ≠ []) (ho : a.pickThreshold = none) :
    ((a.method = none ∨ a.method = some "MAD".toList) →
      ∃ s s', construct a = .ok s ∧ assignAll s [.method "percentile".toList] = .ok s' ∧
        pickPhases pct s' v (st :: onsets) = .error .attributeError) ∧
    (a.method = some "percentile".toList →
      ∃ s s', construct a = .ok s ∧ assignAll s [.method "MAD".toList] = .ok s' ∧
        pickPhases pct s' v (st :: onsets) = .error .attributeError) := by
  constructor
  · intro hm
    have hc : construct a = .ok ⟨"MAD".toList, none, some (a.mad.getD 8), a.fraction⟩ := by
      rw [construct_old a ho]
      unfold readMethod
      have : a.method.getD "MAD".toList = "MAD".toList := by rcases hm with e | e <;> rw [e] <;> rfl
      rw [this, if_neg mad_ne, if_pos rfl]
    exact ⟨_, _, hc, rfl, if_neg hst⟩
  · intro hm
    have hc : construct a = .ok ⟨"percentile".toList, some (a.percentile.getD 1), none, a.fraction⟩ := by
      rw [construct_old a ho]
      unfold readMethod
      have : a.method.getD "MAD".toList = "percentile".toList := by rw [hm]; rfl
      rw [this, if_pos rfl]
    exact ⟨_, _, hc, rfl, if_neg hst⟩

/-- C133 fails: an unknown method assigned to the object is taken without a word, and picking any event
ends with an `UnboundLocalError`, not with the documented exception. -/
theorem C133_violated_unknown (pct : ℚ → List ℚ → Option ℚ) (s : Settings) (m : Str) (v : Env)
    (st : Str × List (Str × List ℚ)) (onsets : List (Str × List (Str × List ℚ))) (hst : st.2 ≠ [])
    (h1 : m ≠ "MAD".toList) (h2 : m ≠ "percentile".toList) :
    ∃ s', assignAll s [.method m] = .ok s' ∧
      pickPhases pct s' v (st :: onsets) = .error .unboundLocal := by
  refine ⟨{ s with method := m }, rfl, ?_⟩
  have hm : methodOf pct { s with method := m } = .error .unboundLocal := by
    unfold methodOf
    rw [if_neg h2, if_neg h1]
  unfold PickerSettings.pickPhases
  rw [hm]
  exact if_neg hst

/-- C133 fails: the old `pick_threshold=0` is ignored in silence, and the picks are made with 8 times the
MAD. -/
theorem C133_violated_zero : ∃ s, construct { pickThreshold := some 0 } = .ok s ∧
    s.method = "MAD".toList ∧ s.mad = some 8 := ⟨_, rfl, rfl, rfl⟩

/-! The hypotheses are met, and the settings matter. -/

example : construct { mad := some 5 } = .ok ⟨"MAD".toList, none, some 5, none⟩ := by decide +kernel
example : methods [.mad 3, .fraction (some (1 / 5))] = [] ∧
    NoOldName [.mad 3, .fraction (some (1 / 5))] ∧
    wanted 8 (some 5) (mads [.mad 3, .fraction (some (1 / 5))]) = 3 ∧
    wanted 8 (none : Option ℚ) [] = 8 := by
  refine ⟨rfl, ?_, by decide +kernel, rfl⟩
  intro x hx v e
  subst e
  simp at hx
example : (0 : ℚ) ≤ wanted 1 (some (99 / 100)) (percentiles [.fraction none]) ∧
    wanted 1 (some (99 / 100)) (percentiles [.fraction none]) ≤ (1 : ℚ) := by
  constructor <;> decide +kernel
end QM
