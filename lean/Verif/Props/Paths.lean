import Verif.Model.Paths
import Verif.Props.Archive
import Mathlib.Data.Fin.VecNotation

/-!
# Output files do not overwrite one another (C91)
-/

namespace QM

open QM.Paths QM.Archive QM.Spec QM.EventId

/-- What a file holds: the results of a kind for an event, or those of a day. -/
inductive OutputOf where
  | ofEvent (k : EventKind) (uid : Paths.Str)
  | triggered (d : Day)
  | scanmseed (d : Day)
  | availability (d : Day)

/-- Where the run `name` (and subrun) writes it. -/
def outputPath (name subname : Paths.Str) : OutputOf → Option Path
  | .ofEvent k uid => eventFile (mkRun name subname) k uid
  | .triggered d => triggeredFile (mkRun name subname) d
  | .scanmseed d => scanmseedFile (mkRun name subname) d
  | .availability d => availabilityFile (mkRun name subname) d

/-- The outputs are the same: same kind, same event or day (year and day of the year); those of
trigger and locate must also be of the same subrun. -/
def SameOutput (subname subname' : Paths.Str) : OutputOf → OutputOf → Prop
  | .ofEvent k u, .ofEvent k' u' => k = k' ∧ u = u' ∧ subname = subname'
  | .triggered d, .triggered d' => d.year = d'.year ∧ d.jday = d'.jday ∧ subname = subname'
  | .scanmseed d, .scanmseed d' => d.year = d'.year ∧ d.jday = d'.jday
  | .availability d, .availability d' => d.year = d'.year ∧ d.jday = d'.jday
  | _, _ => False

/-- An event identifier without dots that is not empty; a date. -/
def OutputOf.OK : OutputOf → Prop
  | .ofEvent _ u => u ≠ [] ∧ '.' ∉ u
  | .triggered d => Day.OK d
  | .scanmseed d => Day.OK d
  | .availability d => Day.OK d

theorem mkRun_plain {name subname : Paths.Str} (h1 : '.' ∉ name) (h2 : '.' ∉ subname) :
    mkRun name subname = ⟨name, subname⟩ := by
  unfold mkRun
  rw [if_neg (by tauto)]

theorem withSuffix_plain {dir : Path} {stem suffix : Paths.Str} (h : stem ≠ []) (h1 : '.' ∉ stem) :
    withSuffix dir stem suffix = some (dir ++ [stem ++ suffix]) := by
  unfold withSuffix splitSuffix
  rw [if_neg h, if_neg (by tauto)]

theorem dot_dayStr (d : Day) : '.' ∉ dayStr d := by
  unfold dayStr
  simp only [List.mem_append, List.mem_cons, not_or]
  exact ⟨dotPad _ _, by decide, dotPad _ _⟩

theorem dayStr_ne (d : Day) : dayStr d ≠ [] := by
  unfold dayStr
  simp

theorem dayStr_inj {d d' : Day} (h : Day.OK d) (h' : Day.OK d') (he : dayStr d = dayStr d') :
    d.year = d'.year ∧ d.jday = d'.jday := yj_us h h' he

theorem dot_name {name subname : Paths.Str} (h1 : '.' ∉ name) (h2 : '.' ∉ subname) :
    '.' ∉ (Run.mk name subname).name := by
  unfold Run.name
  simp only
  split_ifs
  · exact h1
  · simp [h1, h2]

theorem join_eq {a b : Paths.Str} {x y : Path} {s s' : Paths.Str}
    (h : join [a, b] s ++ x = join [a, b] s' ++ y) (hl : x.length = y.length) :
    s = s' ∧ x = y := by
  unfold join at h
  split_ifs at h with h1 h2 h2
  · simp at h
    exact ⟨h1.trans h2.symm, h⟩
  · have := congrArg List.length h; simp at this; omega
  · have := congrArg List.length h; simp at this; omega
  · simpa using h

theorem stem_eq {a b s s' : Paths.Str} (ha : '.' ∉ a) (hb : '.' ∉ b)
    (h : a ++ '.' :: s = b ++ '.' :: s') : a = b ∧ s = s' := sep_inj ha hb h

theorem fmt_suffix_inj (f f' : Fmt) (h : f.suffix = f'.suffix) : f = f' := by
  cases f <;> cases f' <;> first | rfl | (exfalso; revert h; decide)

/-- The directories by number. -/
def dirs : Fin 8 → Paths.Str :=
  ![EventKind.event.dir, EventKind.picks.dir, EventKind.amps.dir, EventKind.map.dir,
    EventKind.marginalMap.dir, WfType.raw.dir, WfType.real.dir, WfType.wa.dir]

/-- The number of the directory of a kind. -/
def dirId : EventKind → Fin 8
  | .event => 0
  | .picks => 1
  | .amps => 2
  | .map => 3
  | .marginalMap => 4
  | .cut .raw _ => 5
  | .cut .real _ => 6
  | .cut .wa _ => 7

theorem dir_eq (k : EventKind) : k.dir = dirs (dirId k) := by
  cases k with
  | cut t f => cases t <;> rfl
  | _ => rfl

theorem dirs_inj : ∀ i j, dirs i = dirs j → i = j := by decide +kernel

theorem kind_inj (k k' : EventKind) (h1 : k.dir = k'.dir) (h2 : k.suffix = k'.suffix) : k = k' := by
  rw [dir_eq, dir_eq] at h1
  have h1 := dirs_inj _ _ h1
  cases k with
  | cut t f =>
    cases k' with
    | cut t' f' =>
      have : t = t' := by
        cases t <;> cases t' <;> first | rfl | (exfalso; simp [dirId] at h1)
      rw [this, fmt_suffix_inj f f' h2]
    | _ => cases t <;> simp [dirId] at h1
  | _ =>
    cases k' with
    | cut t' f' => cases t' <;> simp [dirId] at h1
    | _ => first | rfl | (exfalso; simp [dirId] at h1)

theorem suffix_dot (k : EventKind) : ∃ s, k.suffix = '.' :: s := by
  cases k with
  | cut t f => cases f <;> exact ⟨_, rfl⟩
  | _ => exact ⟨_, rfl⟩

/-- The path of each output, for names without dots. -/
def plainPath (name subname : Paths.Str) : OutputOf → Path
  | .ofEvent k uid => join [name, "locate".toList] subname ++ [k.dir, uid ++ k.suffix]
  | .triggered d => join [name, "trigger".toList] subname ++ ["events".toList,
      (Run.mk name subname).name ++ '_' :: dayStr d ++ "_TriggeredEvents".toList ++ ".csv".toList]
  | .scanmseed d => join [name, "detect".toList] [] ++
      ["scanmseed".toList, dayStr d ++ ".scanmseed".toList]
  | .availability d => join [name, "detect".toList] [] ++
      ["availability".toList, dayStr d ++ "_StationAvailability".toList ++ ".csv".toList]

theorem outputPath_plain {name subname : Paths.Str} (h1 : '.' ∉ name) (h2 : '.' ∉ subname)
    (o : OutputOf) (ho : o.OK) : outputPath name subname o = some (plainPath name subname o) := by
  unfold outputPath
  rw [mkRun_plain h1 h2]
  cases o with
  | ofEvent k uid =>
    simp only [eventFile, plainPath]
    rw [withSuffix_plain ho.1 ho.2]
    simp
  | triggered d =>
    simp only [triggeredFile, plainPath]
    rw [withSuffix_plain (by simp)]
    · simp
    · have := dot_name h1 h2
      have h3 := dot_dayStr d
      simp [this, h3]
  | scanmseed d =>
    simp only [scanmseedFile, plainPath]
    rw [withSuffix_plain (dayStr_ne d) (dot_dayStr d)]
    simp [join]
  | availability d =>
    simp only [availabilityFile, plainPath]
    rw [withSuffix_plain (by simp)]
    · simp [join]
    · have h3 := dot_dayStr d
      simp [h3]

/-- The stage of an output. -/
def stageOf : OutputOf → Paths.Str
  | .ofEvent _ _ => "locate".toList
  | .triggered _ => "trigger".toList
  | _ => "detect".toList

theorem plainPath_start (name subname : Paths.Str) (o : OutputOf) :
    (plainPath name subname o).take 2 = [name, stageOf o] := by
  cases o <;> unfold plainPath join <;> simp only <;> split <;> simp [stageOf]

/-- C91, what does hold: if no name, subname or event identifier has a dot, two outputs of any runs
and subruns in the same directory have the same path only if they are the same output of the same
run. -/
theorem C91_distinct_files_partial (name subname name' subname' : Paths.Str)
    (h1 : '.' ∉ name) (h2 : '.' ∉ subname) (h1' : '.' ∉ name') (h2' : '.' ∉ subname')
    (o o' : OutputOf) (ho : o.OK) (ho' : o'.OK)
    (h : outputPath name subname o = outputPath name' subname' o') :
    name = name' ∧ SameOutput subname subname' o o' := by
  rw [outputPath_plain h1 h2 o ho, outputPath_plain h1' h2' o' ho', Option.some_inj] at h
  have h0 := congrArg (List.take 2) h
  rw [plainPath_start, plainPath_start] at h0
  simp only [List.cons.injEq, and_true] at h0
  obtain ⟨rfl, hst⟩ := h0
  refine ⟨rfl, ?_⟩
  cases o with
  | ofEvent k uid =>
    cases o' with
    | ofEvent k' uid' =>
      obtain ⟨e1, e2⟩ := join_eq h rfl
      simp only [List.cons.injEq, and_true] at e2
      obtain ⟨e2, e3⟩ := e2
      obtain ⟨s, hs⟩ := suffix_dot k
      obtain ⟨s', hs'⟩ := suffix_dot k'
      rw [hs, hs'] at e3
      obtain ⟨e4, e5⟩ := stem_eq ho.2 ho'.2 e3
      exact ⟨kind_inj k k' e2 (by rw [hs, hs', e5]), e4, e1⟩
    | _ => simp [stageOf] at hst
  | triggered d =>
    cases o' with
    | triggered d' =>
      obtain ⟨e1, e2⟩ := join_eq h rfl
      subst e1
      simp only [List.append_assoc, List.cons_append, List.cons.injEq, List.append_cancel_left_eq,
        List.append_cancel_right_eq, and_true, true_and] at e2
      obtain ⟨e3, e4⟩ := dayStr_inj ho ho' e2
      exact ⟨e3, e4, rfl⟩
    | _ => simp [stageOf] at hst
  | scanmseed d =>
    cases o' with
    | scanmseed d' =>
      have e2 := (join_eq h rfl).2
      simp only [List.cons.injEq, List.append_cancel_right_eq, and_true, true_and] at e2
      exact dayStr_inj ho ho' e2
    | availability d' => have e2 := (join_eq h rfl).2; simp at e2
    | _ => simp [stageOf] at hst
  | availability d =>
    cases o' with
    | availability d' =>
      have e2 := (join_eq h rfl).2
      simp only [List.append_assoc, List.cons.injEq, List.append_cancel_right_eq, and_true,
        true_and] at e2
      exact dayStr_inj ho ho' e2
    | scanmseed d' => have e2 := (join_eq h rfl).2; simp at e2
    | _ => simp [stageOf] at hst

/-- C91: the same output of the same run is always at the same place, so that trigger finds what
detect wrote, and locate what trigger wrote, whatever the subrun of detect. -/
theorem C91_detect_shared (name subname subname' : Paths.Str) (h1 : '.' ∉ name) (h2 : '.' ∉ subname)
    (h2' : '.' ∉ subname') (d : Day) :
    scanmseedFile (mkRun name subname) d = scanmseedFile (mkRun name subname') d ∧
      availabilityFile (mkRun name subname) d = availabilityFile (mkRun name subname') d := by
  rw [mkRun_plain h1 h2, mkRun_plain h1 h2']
  exact ⟨rfl, rfl⟩

/-- C91: the identifiers given by trigger are not empty and have no dot. -/
theorem C91_trigger_ids (s : Stamp) (h : ValidStamp s) (k : EventKind) :
    (OutputOf.ofEvent k (eventId s)).OK := by
  rw [OutputOf.OK, eventId_eq s h]
  refine ⟨?_, dotPad _ _⟩
  intro hc
  have := congrArg List.length hc
  rw [padDigits_length] at this
  simp at this

/-- C91 fails for names with dots: the runs `a.b` and `a_b` share all their files. -/
theorem C91_violated_names : ∀ (subname : Paths.Str) (o : OutputOf),
    outputPath "a.b".toList subname o = outputPath "a_b".toList (undot subname) o := by
  intro subname o
  have e : mkRun "a.b".toList subname = mkRun "a_b".toList (undot subname) := by
    have hu : '.' ∉ undot subname := by
      unfold undot
      simp only [List.mem_map, not_exists, not_and]
      intro c _
      split_ifs with hc
      · decide
      · exact hc
    unfold mkRun
    rw [if_pos (Or.inl (by decide)), if_neg (not_or.mpr ⟨by decide, hu⟩)]
    simp [undot]
  unfold outputPath
  rw [e]

/-- C91 fails for identifiers with dots, which a user may give in a trigger file: the files of
different events overwrite one another. -/
theorem C91_violated_uids : outputPath "run".toList [] (.ofEvent .event "ev.1".toList) =
    outputPath "run".toList [] (.ofEvent .event "ev.2".toList) := by
  decide

/-- A subrun named like a directory of another does not collide with it. -/
example : outputPath "run".toList "events".toList (.ofEvent .event "events".toList) =
      some ["run".toList, "locate".toList, "events".toList, "events".toList, "events.event".toList] ∧
    outputPath "run".toList [] (.triggered ⟨2021, 5, 1, 5⟩) = some ["run".toList, "trigger".toList,
      "events".toList, "run_2021_005_TriggeredEvents.csv".toList] := by
  decide

end QM
