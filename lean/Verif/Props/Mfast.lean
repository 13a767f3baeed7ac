import Verif.Model.Mfast
import Verif.Props.Export

/-!
# C131: the SAC files for MFAST
-/

namespace QM

open QM.Mfast QM.Export
open QM.Stations (Str)

namespace Spec

/-- The first trace of a station and component. -/
def traceOf (stream : List Trace) (s : Str) (c : Char) : Option Trace :=
  (stream.filter fun t => t.station = s ∧ t.comp = c).head?

/-- A station with three components whose traces begin together. -/
def Complete (stream : List Trace) (s : Str) (start : ℚ) : Prop :=
  (∀ c ∈ ['Z', 'N', 'E'], ∃ t, traceOf stream s c = some t) ∧
    ∀ t ∈ stream, t.station = s → t.start = start

/-- The best time of a phase at a station: picked, or else modelled, in the last row of the picks file. -/
def bestTime (rows : List PickRow) (s ph : Str) : Option ℚ :=
  (((rows.filter fun r => r.station = s ∧ r.phase = ph).getLast?).map fun r => r.pick.getD r.modelled)

end Spec

open Spec

private theorem filter_and (stream : List Trace) (s : Str) (c : Char) :
    ((stream.filter fun t => t.station = s).filter fun t => t.comp = c).head? = traceOf stream s c := by
  unfold traceOf
  rw [List.filter_filter]
  congr 1
  apply List.filter_congr
  intro t _
  by_cases h1 : t.station = s <;> by_cases h2 : t.comp = c <;> simp [h1, h2]

private theorem writeComps_ok (stream : List Trace) (s : Str) (t0 : ℚ) (a : Option ℚ) (o : ℚ) :
    ∀ cs : List Char, (∀ c ∈ cs, ∃ t, traceOf stream s c = some t) →
      (writeComps (stream.filter fun t => t.station = s) s t0 a o cs).2 = none ∧
      (writeComps (stream.filter fun t => t.station = s) s t0 a o cs).1 =
        cs.filterMap fun c => (traceOf stream s c).map fun t => ⟨s, c, t.start, t.data, t0, a, o⟩
  | [], _ => ⟨rfl, rfl⟩
  | c :: cs, h => by
    obtain ⟨t, ht⟩ := h c (by simp)
    obtain ⟨i1, i2⟩ := writeComps_ok stream s t0 a o cs (fun c' hc' => h c' (List.mem_cons_of_mem _ hc'))
    simp only [writeComps, filter_and, ht]
    refine ⟨i1, ?_⟩
    rw [i2, List.filterMap_cons, ht]
    rfl

/-- The files of a station. -/
private def wanted (stream : List Trace) (rows : List PickRow) (origin : ℚ) (s : Str) : List File :=
  ['Z', 'N', 'E'].filterMap fun c =>
      match bestTime rows s ['S'], traceOf stream s c with
      | some ts, some t => if ts = t.start then none else
        some ⟨s, c, t.start, t.data, ts - t.start,
          (match bestTime rows s ['P'] with
            | none => none
            | some tp => if tp = t.start then none else some (tp - t.start)), origin - t.start⟩
      | _, _ => none

private theorem bestTime_eq (rows : List PickRow) (s ph : Str) :
    bestTime rows s ph = (lastRow rows s ph).map PickRow.best := rfl

private theorem mine_nil {rows : List PickRow} {picks : List Pick} (hp : readPicks (some rows) = some picks)
    (s : Str) : (picks.filter fun p => p.station = s) = [] ↔ ¬ ∃ r ∈ rows, r.station = s := by
  simp only [readPicks, Option.map_some, Option.some.injEq] at hp
  subst hp
  constructor
  · rintro h ⟨r, hr, rfl⟩
    rw [List.filter_eq_nil_iff] at h
    refine h ⟨r.station, r.phase, .modelled, r.modelled, none, none⟩ ?_ (by simp)
    rw [List.mem_flatMap]
    exact ⟨r, hr, by rw [rowPicks_eq]; simp⟩
  · intro h
    rw [List.filter_eq_nil_iff]
    intro p hpm hps
    rw [List.mem_flatMap] at hpm
    obtain ⟨r, hr, hrp⟩ := hpm
    apply h
    refine ⟨r, hr, ?_⟩
    rw [rowPicks_eq] at hrp
    have : p.station = r.station := by
      cases hk : r.pick with
      | none => rw [hk] at hrp; simp at hrp; rw [hrp]
      | some t =>
        rw [hk] at hrp
        simp at hrp
        rcases hrp with rfl | rfl <;> rfl
    rw [← this]; simpa using hps

private theorem traceOf_mem {stream : List Trace} {s : Str} {c : Char} {t : Trace}
    (h : traceOf stream s c = some t) : t ∈ stream ∧ t.station = s ∧ t.comp = c := by
  have := List.mem_of_mem_head? h
  simpa using this

private theorem station_ok (stream : List Trace) (rows : List PickRow) (picks : List Pick) (origin start : ℚ)
    (s : Str) (hp : readPicks (some rows) = some picks)
    (hc : (∃ r ∈ rows, r.station = s) → Complete stream s start) :
    station stream picks origin s = (wanted stream rows origin s, none) := by
  unfold station
  simp only
  by_cases hm : (picks.filter fun p => p.station = s) = []
  · rw [if_pos hm]
    have hno := (mine_nil hp s).1 hm
    have : bestTime rows s ['S'] = none := by
      unfold bestTime
      rw [List.filter_eq_nil_iff.2]
      · rfl
      · intro r hr h
        simp only [decide_eq_true_eq] at h
        exact hno ⟨r, hr, h.1⟩
    simp [wanted, this]
  · rw [if_neg hm]
    have hex : ∃ r ∈ rows, r.station = s := by
      by_contra hno; exact hm ((mine_nil hp s).2 hno)
    obtain ⟨h3, hst⟩ := hc hex
    obtain ⟨tz, htz⟩ := h3 'Z' (by simp)
    have hz := traceOf_mem htz
    have hne : (stream.filter fun t => t.station = s) ≠ [] := by
      intro h
      rw [List.filter_eq_nil_iff] at h
      exact h tz hz.1 (by simpa using hz.2.1)
    obtain ⟨first, rest, hfr⟩ := List.exists_cons_of_ne_nil hne
    have hf : first ∈ stream ∧ first.station = s := by
      have : first ∈ stream.filter fun t => t.station = s := by rw [hfr]; simp
      simpa using this
    have hfs : first.start = start := hst first hf.1 hf.2
    have hhead : (stream.filter fun t => t.station = s).head? = some first := by rw [hfr]; rfl
    rw [hhead]
    simp only
    rw [C79_sac_arrivals first.start rows picks hp s, hfs]
    unfold wanted
    rw [bestTime_eq, bestTime_eq]
    have hcs : ∀ c ∈ ['Z', 'N', 'E'], ∃ t, traceOf stream s c = some t ∧ t.start = start := by
      intro c hcm
      obtain ⟨t, ht⟩ := h3 c hcm
      exact ⟨t, ht, hst t (traceOf_mem ht).1 (traceOf_mem ht).2.1⟩
    cases hS : lastRow rows s ['S'] with
    | none => simp
    | some rs =>
      simp only [Option.map_some]
      by_cases hts : PickRow.best rs = start
      · rw [if_pos hts]
        simp only
        congr 1
        symm
        rw [List.filterMap_eq_nil_iff]
        intro c hcm
        obtain ⟨t, ht, hs⟩ := hcs c hcm
        rw [ht]
        simp only
        rw [if_pos (by rw [hs]; exact hts)]
      · rw [if_neg hts]
        simp only
        obtain ⟨w1, w2⟩ := writeComps_ok stream s (PickRow.best rs - start)
          (match lastRow rows s ['P'] with
            | none => none
            | some p => if PickRow.best p = start then none else some (PickRow.best p - start))
          (origin - start) ['Z', 'N', 'E'] h3
        refine Prod.ext ?_ w1
        refine Eq.trans w2 (?_ : _ = List.filterMap _ _)
        apply List.filterMap_congr
        intro c hcm
        obtain ⟨t, ht, hs⟩ := hcs c hcm
        rw [ht]
        simp only [Option.map_some]
        rw [if_neg (by rw [hs]; exact hts), hs]
        cases lastRow rows s ['P'] <;> rfl

/-- **C131** (part): if every station of the table that has picks has three components whose traces
begin together, then the export does not fail, and a file is written for a station and component exactly
if the station has an S time: it holds the trace of that station and component, and its S arrival, P
arrival and origin time, added to the start of the trace, are the best S and P times of the station and
the origin time (a P or S arrival at the very start of the trace counts as none). -/
theorem C131_files_partial (stream : List Trace) (rows : List PickRow) (picks : List Pick) (origin : ℚ)
    (names : List Str) (start : Str → ℚ) (hp : readPicks (some rows) = some picks)
    (hc : ∀ s ∈ names, (∃ r ∈ rows, r.station = s) → Complete stream s (start s)) :
    (sacMfast stream picks origin names).2 = none ∧
    (sacMfast stream picks origin names).1 = names.flatMap fun s => ['Z', 'N', 'E'].filterMap fun c =>
      match bestTime rows s ['S'], traceOf stream s c with
      | some ts, some t => if ts = t.start then none else
        some ⟨s, c, t.start, t.data, ts - t.start,
          (match bestTime rows s ['P'] with
            | none => none
            | some tp => if tp = t.start then none else some (tp - t.start)), origin - t.start⟩
      | _, _ => none := by
  change _ ∧ _ = names.flatMap (wanted stream rows origin)
  induction names with
  | nil => exact ⟨rfl, rfl⟩
  | cons s ss ih =>
    obtain ⟨i1, i2⟩ := ih (fun s' hs' => hc s' (List.mem_cons_of_mem _ hs'))
    have h1 := station_ok stream rows picks origin (start s) s hp (hc s (by simp))
    simp only [sacMfast, h1]
    exact ⟨i1, by rw [i2, List.flatMap_cons]⟩

/-- What the station loop does with a station that raises. -/
private theorem stops {stream : List Trace} {picks : List Pick} {origin : ℚ} {s : Str} {fs : List File}
    {e : Mfast.Err} (hs : station stream picks origin s = (fs, some e)) :
    ∀ before after : List Str, ∃ gs e', (sacMfast stream picks origin (before ++ s :: after)) = (gs, some e') ∧
      ∀ f ∈ gs, f.station ∈ before ++ [s] := by
  intro before after
  have hfile : ∀ n, ∀ f ∈ (station stream picks origin n).1, f.station = n := by
    intro n f hf
    unfold station at hf
    simp only at hf
    split at hf
    · simp at hf
    · split at hf
      · simp at hf
      · split at hf
        · simp at hf
        · rename_i h _
          revert hf
          generalize (['Z', 'N', 'E'] : List Char) = cs
          induction cs with
          | nil => simp [writeComps]
          | cons c cs ih =>
            simp only [writeComps]
            split
            · simp
            · intro hf
              rcases List.mem_cons.1 hf with rfl | hf
              · rfl
              · exact ih hf
  induction before with
  | nil =>
    refine ⟨fs, e, by simp [sacMfast, hs], ?_⟩
    intro f hf
    have := hfile s f (by rw [hs]; exact hf)
    simp [this]
  | cons b before ih =>
    obtain ⟨gs, e', h1, h2⟩ := ih
    have hb := hfile b
    rw [List.cons_append, sacMfast]
    cases hx : station stream picks origin b with
    | mk x y =>
      rw [hx] at hb
      cases y with
      | some e2 =>
        refine ⟨x, e2, rfl, ?_⟩
        intro f hf
        simp [hb f hf]
      | none =>
        simp only [h1]
        refine ⟨x ++ gs, e', rfl, ?_⟩
        intro f hf
        rcases List.mem_append.1 hf with hf | hf
        · simp [hb f hf]
        · have := h2 f hf
          simp only [List.cons_append, List.mem_cons]
          exact Or.inr this

/-- **C131** fails: a station with an S pick and a channel named 1 or 2 in place of N or E (which the
default settings use for S), or with one component missing, ends the export with an IndexError, and
nothing is written for the stations after it. -/
theorem C131_violated (stream : List Trace) (rows : List PickRow) (picks : List Pick) (origin : ℚ)
    (before after : List Str) (s : Str) (first : Trace) (ts : ℚ) (c : Char)
    (hp : readPicks (some rows) = some picks)
    (hf : (stream.filter fun t => t.station = s).head? = some first)
    (hS : bestTime rows s ['S'] = some ts) (hne : ts ≠ first.start)
    (hc : c ∈ ['Z', 'N', 'E']) (hno : traceOf stream s c = none) :
    ∃ fs e, sacMfast stream picks origin (before ++ s :: after) = (fs, some e) ∧
      ∀ f ∈ fs, f.station ∈ before ++ [s] := by
  have hfail : ∀ t0 a o, ∀ cs : List Char, c ∈ cs →
      ∃ fs e, writeComps (stream.filter fun t => t.station = s) s t0 a o cs = (fs, some e) := by
    intro t0 a o cs
    induction cs with
    | nil => intro h; simp at h
    | cons c' cs ih =>
      intro h
      simp only [writeComps, filter_and]
      cases ht : traceOf stream s c' with
      | none => exact ⟨[], .indexError, rfl⟩
      | some t =>
        rcases List.mem_cons.1 h with rfl | h
        · rw [hno] at ht; cases ht
        · obtain ⟨fs, e, h⟩ := ih h
          rw [h]
          exact ⟨_, e, rfl⟩
  rw [bestTime_eq] at hS
  obtain ⟨rs, hrs, hb⟩ := Option.map_eq_some_iff.1 hS
  have hst : ∃ fs e, station stream picks origin s = (fs, some e) := by
    unfold station
    simp only
    rw [if_neg]
    · rw [hf]
      simp only
      rw [C79_sac_arrivals first.start rows picks hp s, hrs]
      simp only
      rw [if_neg (by rw [hb]; exact hne)]
      exact hfail _ _ _ _ hc
    · intro h
      have hmem := List.mem_of_getLast? hrs
      simp only [decide_eq_true_eq, List.mem_filter] at hmem
      exact (mine_nil hp s).1 h ⟨rs, hmem.1, hmem.2.1⟩
  obtain ⟨fs, e, h⟩ := hst
  exact stops h before after

/-- **C131** fails: a station with a pick of any phase and no data in the stream (its file was removed, or
its data were of another channel) ends the export with an IndexError, and nothing is written for it or for
the stations after it. -/
theorem C131_violated_no_data (stream : List Trace) (rows : List PickRow) (picks : List Pick) (origin : ℚ)
    (before after : List Str) (s : Str) (hp : readPicks (some rows) = some picks)
    (hr : ∃ r ∈ rows, r.station = s) (hno : ∀ t ∈ stream, t.station ≠ s) :
    ∃ fs e, sacMfast stream picks origin (before ++ s :: after) = (fs, some e) ∧
      (∀ f ∈ fs, f.station ∈ before ++ [s]) ∧ sacMfast stream picks origin [s] = ([], some .indexError) := by
  have hnil : (stream.filter fun t => t.station = s) = [] := by
    simpa [List.filter_eq_nil_iff] using hno
  have hst : station stream picks origin s = ([], some .indexError) := by
    unfold station
    simp only [hnil, List.head?_nil]
    rw [if_neg]
    intro h
    exact (mine_nil hp s).1 h hr
  obtain ⟨fs, e, h1, h2⟩ := stops hst before after
  exact ⟨fs, e, h1, h2, by simp only [sacMfast, hst]⟩

/-- **C131** fails: when the traces of a station do not begin together, the arrivals in the file of a
component are off by the difference of the starts. -/
theorem C131_violated_start (stream : List Trace) (rows : List PickRow) (picks : List Pick) (origin : ℚ)
    (s : Str) (first : Trace) (ts : ℚ) (hp : readPicks (some rows) = some picks)
    (hf : (stream.filter fun t => t.station = s).head? = some first)
    (hS : bestTime rows s ['S'] = some ts) (hne : ts ≠ first.start)
    (hc : ∀ c ∈ ['Z', 'N', 'E'], ∃ t, traceOf stream s c = some t) :
    ∀ f ∈ (sacMfast stream picks origin [s]).1,
      f.start + f.t0 = ts + (f.start - first.start) ∧ f.start + f.o = origin + (f.start - first.start) := by
  rw [bestTime_eq] at hS
  obtain ⟨rs, hrs, hb⟩ := Option.map_eq_some_iff.1 hS
  have hmine : ¬ (picks.filter fun p => p.station = s) = [] := by
    intro h
    have hmem := List.mem_of_getLast? hrs
    simp only [decide_eq_true_eq, List.mem_filter] at hmem
    exact (mine_nil hp s).1 h ⟨rs, hmem.1, hmem.2.1⟩
  intro f hfm
  unfold sacMfast at hfm
  have hst : ∃ a, station stream picks origin s =
      writeComps (stream.filter fun t => t.station = s) s (PickRow.best rs - first.start) a
        (origin - first.start) ['Z', 'N', 'E'] := by
    unfold station
    simp only
    rw [if_neg hmine, hf]
    simp only
    rw [C79_sac_arrivals first.start rows picks hp s, hrs]
    simp only
    rw [if_neg (by rw [hb]; exact hne)]
    exact ⟨_, rfl⟩
  obtain ⟨a, ha⟩ := hst
  obtain ⟨w1, w2⟩ := writeComps_ok stream s (PickRow.best rs - first.start) a (origin - first.start)
    ['Z', 'N', 'E'] hc
  have hpair : station stream picks origin s = ((['Z', 'N', 'E'] : List Char).filterMap fun c =>
      (traceOf stream s c).map fun t =>
        (⟨s, c, t.start, t.data, PickRow.best rs - first.start, a, origin - first.start⟩ : File), none) := by
    rw [ha]; exact Prod.ext w2 w1
  rw [hpair] at hfm
  simp only [sacMfast, List.append_nil] at hfm
  rw [List.mem_filterMap] at hfm
  obtain ⟨c, _, hcf⟩ := hfm
  obtain ⟨t, _, rfl⟩ := Option.map_eq_some_iff.1 hcf
  simp only
  rw [← hb]
  exact ⟨by ring, by ring⟩

/-! ## Cases that meet the hypotheses -/

/-- Picks at two stations. -/
def exMfastRows : List PickRow :=
  [⟨['A'], ['P'], 10, some (21 / 2), 1, 1⟩, ⟨['A'], ['S'], 15, none, 1, 1⟩,
   ⟨['B'], ['S'], 17, some 18, 1, 1⟩]

/-- Station A with channels Z, N, E; station B with Z, 1, 2, starting at different times. -/
def exMfastStream : List Trace :=
  [⟨['A'], 'Z', 5, [1, 2]⟩, ⟨['A'], 'N', 5, [3, 4]⟩, ⟨['A'], 'E', 5, [5, 6]⟩,
   ⟨['B'], 'Z', 5, [1]⟩, ⟨['B'], '1', 6, [1]⟩, ⟨['B'], '2', 5, [1]⟩]

example : (∀ s ∈ [['A']], (∃ r ∈ exMfastRows, r.station = s) → Complete exMfastStream s 5) ∧
    (∃ picks, readPicks (some exMfastRows) = some picks ∧
      (sacMfast exMfastStream picks 8 [['A']]).1 =
        [⟨['A'], 'Z', 5, [1, 2], 10, some (11 / 2), 3⟩, ⟨['A'], 'N', 5, [3, 4], 10, some (11 / 2), 3⟩,
          ⟨['A'], 'E', 5, [5, 6], 10, some (11 / 2), 3⟩]) := by
  refine ⟨?_, _, rfl, by decide +kernel⟩
  intro s hs _
  simp only [List.mem_singleton] at hs
  subst hs
  refine ⟨?_, by decide +kernel⟩
  intro c hc
  simp only [List.mem_cons, List.not_mem_nil, or_false] at hc
  rcases hc with rfl | rfl | rfl
  · exact ⟨⟨['A'], 'Z', 5, [1, 2]⟩, by decide +kernel⟩
  · exact ⟨⟨['A'], 'N', 5, [3, 4]⟩, by decide +kernel⟩
  · exact ⟨⟨['A'], 'E', 5, [5, 6]⟩, by decide +kernel⟩

/-- Station B meets the hypotheses of `C131_violated`; station A, after it, gets no file. -/
example : bestTime exMfastRows ['B'] ['S'] = some 18 ∧
    (exMfastStream.filter fun t => t.station = ['B']).head? = some ⟨['B'], 'Z', 5, [1]⟩ ∧
    traceOf exMfastStream ['B'] 'N' = none ∧
    (∃ picks, readPicks (some exMfastRows) = some picks ∧
      sacMfast exMfastStream picks 8 [['B'], ['A']] =
        ([⟨['B'], 'Z', 5, [1], 13, none, 3⟩], some .indexError)) := by
  refine ⟨by decide +kernel, by decide +kernel, by decide +kernel, _, rfl, by decide +kernel⟩

/-- Station B without data: station A, after it, gets no file. -/
example : (∃ r ∈ exMfastRows, r.station = ['B']) ∧
    (∀ t ∈ exMfastStream.filter (fun t => t.station ≠ ['B']), t.station ≠ ['B']) ∧
    (∃ picks, readPicks (some exMfastRows) = some picks ∧
      sacMfast (exMfastStream.filter fun t => t.station ≠ ['B']) picks 8 [['B'], ['A']] =
        ([], some .indexError)) := by
  refine ⟨by decide +kernel, by decide +kernel, _, rfl, by decide +kernel⟩

end QM
