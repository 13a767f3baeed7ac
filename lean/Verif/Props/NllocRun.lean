import Verif.Model.NllocRun

/-!
# C99: the files of the method `1dnlloc`
-/

namespace QM

open QM.NllocRun

/-- What the programs are assumed to write: `Vel2Grid` files `layer.PHASE.mod....` in `model`,
`Grid2Time` files `layer.PHASE.STATION.time...` in `time`. -/
def NamesFiles (pr : Progs) : Prop :=
  (∀ p l, pr.vel2grid p = some l →
    ∀ f ∈ l, ("layer.".toList ++ p ++ ".mod.".toList) <+: f.1) ∧
  ∀ p s l, pr.grid2time p s = some l →
    ∀ f ∈ l, ("layer.".toList ++ p ++ ".".toList ++ s ++ ".time".toList) <+: f.1

/-- A time grid of a phase and a station of the run. -/
def RunTimeGrid (phases stations : List NllocRun.Str) (p : Path) : Prop :=
  p.1 = .time ∧ ∃ ph ∈ phases, ∃ s ∈ stations,
    ("layer.".toList ++ ph ++ ".".toList ++ s ++ ".time".toList) <+: p.2

/-- A model grid of a phase of the run. -/
def RunModelGrid (phases : List NllocRun.Str) (p : Path) : Prop :=
  p.1 = .model ∧ ∃ ph ∈ phases, ("layer.".toList ++ ph ++ ".mod.".toList) <+: p.2

/-- A model grid in the wrong directory: also removed from `time`. -/
def StrayModelGrid (phases : List NllocRun.Str) (p : Path) : Prop :=
  p.1 = .time ∧ ∃ ph ∈ phases, ("layer.".toList ++ ph ++ ".mod.".toList) <+: p.2

theorem writeAll_other (d : Dir) : ∀ (l : List (NllocRun.Str × NllocRun.Str)) (fs : FS) (p : Path),
    (∀ f ∈ l, p ≠ (d, f.1)) → writeAll fs d l p = fs p := by
  intro l
  induction l with
  | nil => intro fs p _; rfl
  | cons f l ih =>
    intro fs p h
    rw [writeAll, ih _ _ fun g hg => h g (List.mem_cons_of_mem _ hg)]
    exact Function.update_of_ne (h f (by simp)) _ _

theorem removeIf_none {fs : FS} {P : Path → Bool} {p : Path} (h : fs p = none) :
    removeIf fs P p = none := by
  unfold removeIf; split
  · rfl
  · exact h

theorem removeIf_true {fs : FS} {P : Path → Bool} {p : Path} (h : P p = true) :
    removeIf fs P p = none := if_pos h

theorem removeIf_false {fs : FS} {P : Path → Bool} {p : Path} (h : P p = false) :
    removeIf fs P p = fs p := if_neg (by rw [h]; simp)

theorem writeAll_keeps (d : Dir) : ∀ (l : List (NllocRun.Str × NllocRun.Str)) (fs : FS) (p : Path),
    fs p ≠ none → writeAll fs d l p ≠ none := by
  intro l
  induction l with
  | nil => intro fs p h; exact h
  | cons f l ih =>
    intro fs p h
    rw [writeAll]
    refine ih _ _ ?_
    unfold write
    by_cases e : p = (d, f.1)
    · rw [e, Function.update_self]; simp
    · rw [Function.update_of_ne e]; exact h

/-- What one station changes. -/
theorem runStation_other {pr : Progs} (hpr : NamesFiles pr) (phase : NllocRun.Str) (fs : FS)
    (station : NllocRun.Str) (p : Path) (h1 : p ≠ (.work, "control.in".toList))
    (h2 : ¬ RunTimeGrid [phase] [station] p) (h3 : ¬ RunModelGrid [phase] p) :
    (runStation pr phase fs station).1 p = fs p := by
  have hw : write fs controlFile (pr.controlText phase station) p = fs p :=
    Function.update_of_ne h1 _ _
  unfold runStation
  simp only
  cases hv : pr.vel2grid phase with
  | none => exact hw
  | some m =>
    have hm : ∀ f ∈ m, p ≠ (.model, f.1) := by
      rintro f hf rfl
      exact h3 ⟨rfl, phase, by simp, hpr.1 _ _ hv f hf⟩
    simp only
    cases ht : pr.grid2time phase station with
    | none => simp only; rw [writeAll_other _ _ _ _ hm]; exact hw
    | some t =>
      have htm : ∀ f ∈ t, p ≠ (.time, f.1) := by
        rintro f hf rfl
        exact h2 ⟨rfl, phase, by simp, station, by simp, hpr.2 _ _ _ ht f hf⟩
      simp only
      rw [writeAll_other _ _ _ _ htm, writeAll_other _ _ _ _ hm]
      exact hw

theorem tidyStation_false (phase station : NllocRun.Str) (fs : FS) :
    tidyStation false phase station fs =
      removeIf (removeIf (removeIf fs fun p => decide (p = controlFile))
        fun p => decide (p.1 = .time) && (timePrefix phase station).isPrefixOf p.2)
        fun p => decide (p.1 = .time) && (modPrefix phase).isPrefixOf p.2 := by
  unfold tidyStation; exact if_pos rfl

theorem tidyStation_other (retain : Bool) (phase station : NllocRun.Str) (fs : FS) (p : Path)
    (h1 : p ≠ (.work, "control.in".toList)) (h2 : ¬ RunTimeGrid [phase] [station] p)
    (h3 : ¬ StrayModelGrid [phase] p) : tidyStation retain phase station fs p = fs p := by
  have hc : ¬ p = controlFile := h1
  have a : (decide (p.1 = .time) && (timePrefix phase station).isPrefixOf p.2) = false := by
    rw [Bool.eq_false_iff]
    intro h
    rw [Bool.and_eq_true, decide_eq_true_eq, List.isPrefixOf_iff_prefix] at h
    exact h2 ⟨h.1, phase, by simp, station, by simp, h.2⟩
  have b : (decide (p.1 = .time) && (modPrefix phase).isPrefixOf p.2) = false := by
    rw [Bool.eq_false_iff]
    intro h
    rw [Bool.and_eq_true, decide_eq_true_eq, List.isPrefixOf_iff_prefix] at h
    exact h3 ⟨h.1, phase, by simp, h.2⟩
  have c : decide (p = controlFile) = false := decide_eq_false hc
  unfold tidyStation
  simp only
  split
  · rw [removeIf_false b, removeIf_false a, removeIf_false c]
  · rw [removeIf_false c]

theorem stationLoop_other {pr : Progs} (hpr : NamesFiles pr) (retain : Bool) (phase : NllocRun.Str) :
    ∀ (l : List NllocRun.Str) (fs : FS) (p : Path), p ≠ (.work, "control.in".toList) →
      ¬ RunTimeGrid [phase] l p → ¬ RunModelGrid [phase] p → ¬ StrayModelGrid [phase] p →
      (stationLoop pr retain phase fs l).1 p = fs p := by
  intro l
  induction l with
  | nil => intros; rfl
  | cons s l ih =>
    intro fs p h1 h2 h3 h4
    have h2a : ¬ RunTimeGrid [phase] [s] p := by
      rintro ⟨a, ph, hph, t, ht, e⟩
      exact h2 ⟨a, ph, hph, t, by rw [List.mem_singleton.mp ht]; simp, e⟩
    have h2b : ¬ RunTimeGrid [phase] l p := by
      rintro ⟨a, ph, hph, t, ht, e⟩
      exact h2 ⟨a, ph, hph, t, List.mem_cons_of_mem _ ht, e⟩
    have hr := runStation_other hpr phase fs s p h1 h2a h3
    rw [stationLoop]
    rcases h : runStation pr phase fs s with ⟨fs', ok⟩
    rw [h] at hr
    cases ok
    · exact hr
    · simp only
      rw [ih _ _ h1 h2b h3 h4, tidyStation_other _ _ _ _ _ h1 h2a h4]
      exact hr

theorem compute1dNlloc_other {pr : Progs} (hpr : NamesFiles pr) (retain : Bool)
    (stations : List NllocRun.Str) (fs : FS) (phase : NllocRun.Str) (p : Path)
    (h1 : p ≠ (.work, "control.in".toList)) (h2 : ¬ RunTimeGrid [phase] stations p)
    (h3 : ¬ StrayModelGrid [phase] p) (h4 : p.1 ≠ .model) :
    (compute1dNlloc pr retain stations fs phase).1 p = fs p := by
  have hl := stationLoop_other hpr retain phase stations fs p h1 h2 (fun h => h4 h.1) h3
  unfold compute1dNlloc
  rcases h : stationLoop pr retain phase fs stations with ⟨fs', ok⟩
  rw [h] at hl
  cases ok
  · exact hl
  · cases retain
    · simp only [Bool.not_false, if_true, removeIf, decide_eq_true_eq, if_neg h4]
      exact hl
    · exact hl

/-- C99: whether or not the programs succeed, every file outside `model` is left alone, but for
`control.in` and the time grids (and stray model grids) in `time` of the phases and stations of the run.

Missing: files in `model`, see `C99_violated`. -/
theorem C99_other_files_partial {pr : Progs} (hpr : NamesFiles pr) (retain : Bool)
    (stations : List NllocRun.Str) : ∀ (phases : List NllocRun.Str) (fs : FS) (p : Path),
    p ≠ (.work, "control.in".toList) → p.1 ≠ .model → ¬ RunTimeGrid phases stations p →
    ¬ StrayModelGrid phases p → (phaseLoop pr retain stations fs phases).1 p = fs p := by
  intro phases
  induction phases with
  | nil => intros; rfl
  | cons ph phases ih =>
    intro fs p h1 h2 h3 h4
    have hc := compute1dNlloc_other hpr retain stations fs ph p h1 (by
        rintro ⟨a, q, hq, t, ht, e⟩
        exact h3 ⟨a, q, by rw [List.mem_singleton.mp hq]; simp, t, ht, e⟩) (by
        rintro ⟨a, q, hq, e⟩
        exact h4 ⟨a, q, by rw [List.mem_singleton.mp hq]; simp, e⟩) h2
    rw [phaseLoop]
    rcases h : compute1dNlloc pr retain stations fs ph with ⟨fs', ok⟩
    rw [h] at hc
    cases ok
    · exact hc
    · simp only
      rw [ih _ _ h1 h2 (fun ⟨a, q, hq, e⟩ => h3 ⟨a, q, List.mem_cons_of_mem _ hq, e⟩)
        (fun ⟨a, q, hq, e⟩ => h4 ⟨a, q, List.mem_cons_of_mem _ hq, e⟩)]
      exact hc

theorem compute1dNlloc_clean {pr : Progs} (hpr : NamesFiles pr) (stations : List NllocRun.Str)
    (fs fs' : FS) (phase : NllocRun.Str) (h : compute1dNlloc pr false stations fs phase = (fs', true))
    (p : Path) : (p.1 = .model → fs' p = none) ∧
      (stations ≠ [] → p = (.work, "control.in".toList) → fs' p = none) ∧
      (RunTimeGrid [phase] stations p ∨ (p.1 = .time ∧ fs p = none) → fs' p = none) := by
  unfold compute1dNlloc at h
  rcases hs : stationLoop pr false phase fs stations with ⟨fs₁, ok⟩
  rw [hs] at h
  cases ok
  · simp at h
  simp only [Bool.not_false, if_true, Prod.mk.injEq, and_true] at h
  subst h
  -- the loop over stations
  have loop : ∀ (l : List NllocRun.Str) (fs fs₁ : FS),
      stationLoop pr false phase fs l = (fs₁, true) →
      (l ≠ [] → fs₁ (.work, "control.in".toList) = none) ∧
      ((RunTimeGrid [phase] l p ∨ (p.1 = .time ∧ fs p = none ∧ ¬ RunTimeGrid [phase] l p)) →
        fs₁ p = none) := by
    intro l
    induction l with
    | nil =>
      intro fs fs₁ h
      rw [stationLoop] at h
      obtain rfl := (Prod.mk.inj h).1
      refine ⟨fun h => absurd rfl h, ?_⟩
      rintro (⟨-, ph, -, s, hs, -⟩ | ⟨-, h, -⟩)
      · cases hs
      · exact h
    | cons s l ih =>
      intro fs fs₁ h
      rw [stationLoop] at h
      rcases hr : runStation pr phase fs s with ⟨fs₂, ok⟩
      rw [hr] at h
      cases ok
      · simp at h
      simp only at h
      obtain ⟨i1, i2⟩ := ih _ _ h
      have hctl : tidyStation false phase s fs₂ (.work, "control.in".toList) = none := by
        rw [tidyStation_false]
        exact removeIf_none (removeIf_none (removeIf_true (decide_eq_true rfl)))
      refine ⟨fun _ => ?_, fun hp => ?_⟩
      · cases l with
        | nil =>
          rw [stationLoop] at h
          rw [← (Prod.mk.inj h).1]
          exact hctl
        | cons t l => exact i1 (by simp)
      · by_cases hl : RunTimeGrid [phase] l p
        · exact i2 (Or.inl hl)
        · refine i2 (Or.inr ⟨?_, ?_, hl⟩)
          · rcases hp with ⟨a, -⟩ | ⟨a, -⟩ <;> exact a
          · rcases hp with ⟨a, ph, hph, t, ht, e⟩ | ⟨a, b, c⟩
            · rw [List.mem_singleton.mp hph] at e
              rcases List.mem_cons.mp ht with rfl | ht
              · have hpre : (decide (p.1 = .time) && (timePrefix phase t).isPrefixOf p.2) = true := by
                  rw [Bool.and_eq_true, decide_eq_true_eq, List.isPrefixOf_iff_prefix]
                  exact ⟨a, e⟩
                rw [tidyStation_false]
                exact removeIf_none (removeIf_true hpre)
              · exact absurd ⟨a, phase, by simp, t, ht, e⟩ hl
            · have c' : ¬ RunTimeGrid [phase] [s] p := by
                rintro ⟨a', ph, hph, t, ht, e⟩
                exact c ⟨a', ph, hph, t, by rw [List.mem_singleton.mp ht]; simp, e⟩
              have hne : p ≠ (.work, "control.in".toList) := by rintro rfl; cases a
              have hm : ¬ RunModelGrid [phase] p := by rintro ⟨x, -⟩; rw [a] at x; cases x
              have := runStation_other hpr phase fs s p hne c' hm
              rw [hr, b] at this
              rw [tidyStation_false]
              exact removeIf_none (removeIf_none (removeIf_none this))
  obtain ⟨c1, c2⟩ := loop stations fs fs₁ hs
  refine ⟨fun hm => by simp [removeIf, hm], fun hne hp => ?_, fun hp => ?_⟩
  · unfold removeIf
    split
    · rfl
    · rw [hp]; exact c1 hne
  · unfold removeIf
    split
    · rfl
    · by_cases hg : RunTimeGrid [phase] stations p
      · exact c2 (Or.inl hg)
      · rcases hp with hp | hp
        · exact absurd hp hg
        · exact c2 (Or.inr ⟨hp.1, hp.2, hg⟩)

/-- C99: after a run that succeeds, without `retain_nll_grids`, nothing of NonLinLoc is left: no
`control.in`, no time grid of the phases and stations of the run, and no file in `model`. -/
theorem C99_cleaned_up {pr : Progs} (hpr : NamesFiles pr) (stations : List NllocRun.Str)
    (hst : stations ≠ []) (fs : FS) (phases : List NllocRun.Str) (hph : phases ≠ []) (fs' : FS)
    (h : phaseLoop pr false stations fs phases = (fs', true)) :
    (∀ name, fs' (.model, name) = none) ∧ fs' (.work, "control.in".toList) = none ∧
      ∀ p, RunTimeGrid phases stations p → fs' p = none := by
  have key : ∀ (phases : List NllocRun.Str) (fs : FS), phases ≠ [] →
      phaseLoop pr false stations fs phases = (fs', true) →
      (∀ name, fs' (.model, name) = none) ∧ fs' (.work, "control.in".toList) = none := by
    intro phases
    induction phases with
    | nil => intro fs h; exact absurd rfl h
    | cons q l ih =>
      intro fs _ h
      rw [phaseLoop] at h
      rcases hc : compute1dNlloc pr false stations fs q with ⟨fs₁, ok⟩
      rw [hc] at h
      cases ok
      · simp at h
      · cases l with
        | nil =>
          simp only [phaseLoop] at h
          simp only [Prod.mk.injEq, and_true] at h
          subst h
          have k := compute1dNlloc_clean hpr stations fs fs₁ q hc
          exact ⟨fun name => (k _).1 rfl, (k _).2.1 hst rfl⟩
        | cons t l => exact ih fs₁ (by simp) h
  have grids : ∀ (phases : List NllocRun.Str) (fs : FS) (p : Path),
      phaseLoop pr false stations fs phases = (fs', true) →
      RunTimeGrid phases stations p ∨ (p.1 = .time ∧ fs p = none) → fs' p = none := by
    intro phases
    induction phases with
    | nil =>
      intro fs p h hp
      simp only [phaseLoop] at h
      simp only [Prod.mk.injEq, and_true] at h
      subst h
      rcases hp with ⟨-, q, hq, -⟩ | hp
      · cases hq
      · exact hp.2
    | cons q l ih =>
      intro fs p h hp
      rw [phaseLoop] at h
      rcases hc : compute1dNlloc pr false stations fs q with ⟨fs₁, ok⟩
      rw [hc] at h
      cases ok
      · simp at h
      · refine ih fs₁ p h ?_
        have k := (compute1dNlloc_clean hpr stations fs fs₁ q hc p).2.2
        rcases hp with ⟨a, q', hq', s, hs, e⟩ | hp
        · rcases List.mem_cons.mp hq' with rfl | hq'
          · exact Or.inr ⟨a, k (Or.inl ⟨a, q', by simp, s, hs, e⟩)⟩
          · exact Or.inl ⟨a, q', hq', s, hs, e⟩
        · exact Or.inr ⟨hp.1, k (Or.inr hp)⟩
  exact ⟨(key phases fs hph h).1, (key phases fs hph h).2, fun p hp => grids phases fs p h (Or.inl hp)⟩

/-- C99: with `retain_nll_grids` no file is lost but `control.in`. -/
theorem C99_retained (pr : Progs) (stations : List NllocRun.Str) : ∀ (phases : List NllocRun.Str)
    (fs : FS) (p : Path), p ≠ (.work, "control.in".toList) → fs p ≠ none →
    (phaseLoop pr true stations fs phases).1 p ≠ none := by
  have run : ∀ (phase : NllocRun.Str) (fs : FS) (s : NllocRun.Str) (p : Path), fs p ≠ none →
      (runStation pr phase fs s).1 p ≠ none := by
    intro phase fs s p h
    have hw : write fs controlFile (pr.controlText phase s) p ≠ none := by
      unfold write
      by_cases e : p = controlFile
      · rw [e, Function.update_self]; simp
      · rw [Function.update_of_ne e]; exact h
    unfold runStation
    simp only
    split
    · exact hw
    · split
      · exact writeAll_keeps _ _ _ _ hw
      · exact writeAll_keeps _ _ _ _ (writeAll_keeps _ _ _ _ hw)
  have loop : ∀ (phase : NllocRun.Str) (l : List NllocRun.Str) (fs : FS) (p : Path),
      p ≠ (.work, "control.in".toList) → fs p ≠ none →
      (stationLoop pr true phase fs l).1 p ≠ none := by
    intro phase l
    induction l with
    | nil => intro fs p _ h; exact h
    | cons s l ih =>
      intro fs p hc h
      rw [stationLoop]
      have := run phase fs s p h
      rcases hr : runStation pr phase fs s with ⟨fs', ok⟩
      rw [hr] at this
      cases ok
      · exact this
      · refine ih _ _ hc ?_
        have hc' : ¬ p = controlFile := hc
        simpa [tidyStation, removeIf, hc'] using this
  intro phases
  induction phases with
  | nil => intro fs p _ h; exact h
  | cons ph phases ih =>
    intro fs p hc h
    rw [phaseLoop]
    have := loop ph stations fs p hc h
    unfold compute1dNlloc
    rcases hr : stationLoop pr true ph fs stations with ⟨fs', ok⟩
    rw [hr] at this
    cases ok
    · exact this
    · exact ih _ _ hc this

/-- Programs that write one file each. -/
def exProgs : Progs where
  vel2grid := fun p => some [("layer.".toList ++ p ++ ".mod.".toList ++ "buf".toList, [])]
  grid2time := fun p s =>
    some [("layer.".toList ++ p ++ ".".toList ++ s ++ ".time".toList ++ ".buf".toList, [])]
  controlText := fun _ _ => []

theorem exProgs_names : NamesFiles exProgs := by
  constructor
  · intro p l h f hf
    obtain rfl := Option.some.inj h
    rw [List.mem_singleton.mp hf]
    exact List.prefix_append _ _
  · intro p s l h f hf
    obtain rfl := Option.some.inj h
    rw [List.mem_singleton.mp hf]
    exact List.prefix_append _ _

/-- The run succeeds, for P and S at two stations. -/
example : (phaseLoop exProgs false ["A".toList, "B".toList] (fun _ => none)
    ["P".toList, "S".toList]).2 = true := rfl

/-- C99 is violated: a file of the user in a directory `model` of the working directory, and the grids
kept from an earlier run, are removed. -/
theorem C99_violated : ∃ (fs : FS) (p : Path),
    fs p = some "mine".toList ∧ p = (.model, "notes.txt".toList) ∧
      ¬ RunModelGrid ["P".toList] p ∧ NamesFiles exProgs ∧
      phaseLoop exProgs false ["A".toList] fs ["P".toList] =
        ((phaseLoop exProgs false ["A".toList] fs ["P".toList]).1, true) ∧
      (phaseLoop exProgs false ["A".toList] fs ["P".toList]).1 p = none := by
  refine ⟨fun p => if p = (.model, "notes.txt".toList) then some "mine".toList else none, _, ?_, rfl,
    ?_, exProgs_names, rfl, rfl⟩
  · simp
  · rintro ⟨-, ph, hph, h⟩
    rw [List.mem_singleton.mp hph] at h
    revert h
    decide

end QM
