import Verif.Model.ExportPaths
import Verif.Props.Paths

/-!
# The export reads the files that locate wrote: C190
-/

namespace QM
open QM.Paths QM.ExportPaths

/-- C190: the export of a run, given the name and the subname of the run, finds the event file that locate wrote, reads
the picks and the amplitudes from the files that locate wrote for that event, and names the file of its cut waveforms,
if these were written as MiniSEED.  Missing: names with dots and other waveform formats, see below. -/
theorem C190_same_files_partial (name subname uid : Paths.Str) (h1 : '.' ∉ name) (h2 : '.' ∉ subname) :
    (∀ file, eventFile (mkRun name subname) .event uid = some file → globbed (eventsDir name subname) file = true) ∧
    picksFile name subname uid = eventFile (mkRun name subname) .picks uid ∧
    ampsFile name subname uid = eventFile (mkRun name subname) .amps uid ∧
    ∀ t, cutFile name subname uid t = eventFile (mkRun name subname) (.cut t .mseed) uid := by
  rw [mkRun_plain h1 h2]
  refine ⟨?_, rfl, rfl, fun t => by cases t <;> rfl⟩
  intro file h
  unfold eventFile withSuffix at h
  split_ifs at h with hu
  simp only [Option.some.injEq] at h
  subst h
  unfold globbed eventsDir locateDir
  rw [List.dropLast_concat, List.getLast?_concat]
  simp only [Bool.and_eq_true, decide_eq_true_eq]
  exact ⟨rfl, List.suffix_append _ _⟩

/-- C190: no event file of another subrun is read. -/
theorem C190_own_events (name subname subname' uid : Paths.Str) (h1 : '.' ∉ name) (h2' : '.' ∉ subname') (file : Path) (h : eventFile (mkRun name subname') .event uid = some file)
    (hg : globbed (eventsDir name subname) file = true) : subname' = subname := by
  rw [mkRun_plain h1 h2'] at h
  unfold eventFile withSuffix at h
  split_ifs at h with hu
  simp only [Option.some.injEq] at h
  subst h
  unfold globbed at hg
  rw [Bool.and_eq_true, List.dropLast_concat, decide_eq_true_eq] at hg
  have := hg.1
  unfold eventsDir locateDir join EventKind.dir at this
  by_cases c1 : subname' = [] <;> by_cases c2 : subname = [] <;> simp_all

/-- C190 is violated for names with a dot: `Run` replaces it, and the export, given the same name, looks for the picks in
another place and lists none of the event files. -/
theorem C190_violated_dots (name subname uid : Paths.Str) (h1 : '.' ∈ name) (hu : uid ≠ []) :
    picksFile name subname uid ≠ eventFile (mkRun name subname) .picks uid ∧
    ∀ file, eventFile (mkRun name subname) .event uid = some file → globbed (eventsDir name subname) file = false := by
  have hr : mkRun name subname = ⟨undot name, undot subname⟩ := by
    unfold mkRun
    rw [if_pos (Or.inl h1)]
  have hne : name ≠ undot name := by
    intro h
    rw [h] at h1
    unfold undot at h1
    simp only [List.mem_map] at h1
    obtain ⟨c, -, hc⟩ := h1
    split_ifs at hc with h2
    · revert hc; decide
    · exact h2 hc
  have hj : ∀ a b s s' : Paths.Str, a ≠ b → ∀ l l' : Path, join [a, "locate".toList] s ++ l ≠ join [b, "locate".toList] s' ++ l' := by
    intro a b s s' hab l l' h
    unfold join at h
    split_ifs at h <;> simp_all
  rw [hr]
  constructor
  · intro h
    unfold picksFile eventFile withSuffix locateDir at h
    rw [if_neg hu, if_neg hu, Option.some.injEq, List.append_assoc, List.append_assoc] at h
    exact hj _ _ _ _ hne _ _ h
  · intro file h
    unfold eventFile withSuffix at h
    rw [if_neg hu, Option.some.injEq] at h
    subst h
    unfold globbed
    rw [Bool.and_eq_false_iff, List.dropLast_concat]
    left
    rw [decide_eq_false_iff_not]
    unfold eventsDir locateDir
    exact fun h => hj _ _ _ _ hne _ _ h.symm

/-- C190 is violated for waveforms that are not written as MiniSEED: the file named in the catalogue is not the one that
was written. -/
theorem C190_violated_formats (name subname uid : Paths.Str) (h1 : '.' ∉ name) (h2 : '.' ∉ subname) (hu : uid ≠ [])
    (t : WfType) (f : Fmt) (hf : f ≠ .mseed) :
    cutFile name subname uid t ≠ eventFile (mkRun name subname) (.cut t f) uid := by
  rw [(C190_same_files_partial name subname uid h1 h2).2.2.2 t]
  intro h
  unfold eventFile withSuffix at h
  rw [if_neg hu, if_neg hu, Option.some.injEq] at h
  have h := List.append_cancel_left h
  simp only [List.cons.injEq, and_true] at h
  have h := List.append_cancel_left h
  revert h
  cases f <;> first | exact absurd rfl hf | (simp only [EventKind.suffix]; decide)

/-- The files of an event of the subrun "b" of the run "a". -/
example : eventFile (mkRun "a".toList "b".toList) .event "20140630".toList =
      some ["a".toList, "locate".toList, "b".toList, "events".toList, "20140630.event".toList] ∧
    picksFile "a".toList "b".toList "20140630".toList =
      some ["a".toList, "locate".toList, "b".toList, "picks".toList, "20140630.picks".toList] ∧
    '.' ∉ "a".toList ∧ '.' ∉ "b".toList := by decide

end QM
