import Verif.Lemmas.Trigger

/-! # C08 - C11: candidates and merged events -/

namespace QM
open QM.Trigger QM.Spec

/-- **C08.** The candidates are, in time order and one for one, the maximal runs
of samples at or above threshold, each described by its first sample of maximal
COA. -/
theorem C08_candidates_are_maximal_runs (cfg : Cfg) (data : List Row) (thr : List ℚ) :
    ∃ runs : List (ℕ × ℕ),
      (∀ a b, (a, b) ∈ runs ↔ IsMaxRun (Above cfg.norm data thr) a b) ∧
      runs.Pairwise (fun u v => u.2 + 1 < v.1) ∧
      List.Forall₂ (fun c (run : ℕ × ℕ) =>
        IsCandidateOf cfg.mw cfg.mei cfg.norm data run.1 run.2 c)
        (identifyCandidates cfg data thr) runs :=
  ⟨(candidateRuns cfg data thr).map ivOf, runs_iff cfg data thr, runs_ordered cfg data thr,
    identify_forall₂ cfg data thr⟩

/-- **C08.** Every sample at or above threshold lies in exactly one such run. -/
theorem C08_every_sample_in_one_run (cfg : Cfg) (data : List Row) (thr : List ℚ) (i : ℕ)
    (h : Above cfg.norm data thr i) :
    ∃! run : ℕ × ℕ, IsMaxRun (Above cfg.norm data thr) run.1 run.2 ∧ run.1 ≤ i ∧ i ≤ run.2 := by
  obtain ⟨h1, h2, h3, h4⟩ := candidateRuns_spec cfg data thr
  obtain ⟨r, hr⟩ := (above_iff cfg data thr i).mp h
  rw [← h1] at hr
  obtain ⟨g, hg, hr⟩ := List.mem_flatten.mp hr
  have hin := (ivOf_mem (h2 g hg) (h3 g hg) i).mp ⟨r, hr⟩
  refine ⟨ivOf g, ⟨(runs_iff cfg data thr _ _).mp (List.mem_map.mpr ⟨g, hg, rfl⟩), hin.1, hin.2⟩, ?_⟩
  rintro ⟨a, b⟩ ⟨hab, ha, hb⟩
  obtain ⟨g', hg', he⟩ := List.mem_map.mp ((runs_iff cfg data thr a b).mpr hab)
  have ho := runs_ordered cfg data thr
  rcases pairwise_or ho (List.mem_map_of_mem (f := ivOf) hg) (List.mem_map_of_mem (f := ivOf) hg')
    with h | h | h
  · rw [h, he]
  · rw [he] at h; simp only at h ha hb; omega
  · rw [he] at h; simp only at h ha hb; omega

/-- Ten samples of scan used in the examples below. -/
def exData : List Row :=
  [⟨0, 1, 1, 0, 0, 0⟩, ⟨1, 5, 1, 0, 0, 0⟩, ⟨2, 6, 1, 1, 2, 3⟩, ⟨3, 1, 1, 0, 0, 0⟩,
   ⟨4, 1, 1, 0, 0, 0⟩, ⟨5, 1, 1, 0, 0, 0⟩, ⟨6, 1, 1, 0, 0, 0⟩, ⟨7, 1, 1, 0, 0, 0⟩,
   ⟨8, 7, 1, 4, 5, 6⟩, ⟨9, 7, 1, 0, 0, 0⟩]
def exThr : List ℚ := List.replicate 10 2
def exCfg : Cfg := { mw := 1, mei := 2, norm := false }

-- the theorem is about something: two runs here, 1..2 and 8..9
example : (identifyCandidates exCfg exData exThr).map (fun c => (c.coaTime, c.minTime, c.maxTime))
    = [(2, 0, 4), (8, 6, 10)] := by decide +kernel
example : IsMaxRun (Above false exData exThr) 1 2 :=
  (runs_iff exCfg exData exThr 1 2).mp (by decide +kernel)
example : Above false exData exThr 8 := ⟨_, _, rfl, rfl, by decide +kernel⟩

/-- **C09.** For every candidate the window leaves at least `min_event_interval`
on both sides of the peak, contains the whole above-threshold run, and extends
no further than the larger of the two rules in the documentation. -/
theorem C09_candidate_windows (cfg : Cfg) (data : List Row) (thr : List ℚ)
    (hmei : 2 * cfg.mw ≤ cfg.mei)
    (hdt : data.Pairwise (fun r s => r.dt < s.dt)) :
    ∃ runs : List (ℕ × ℕ), (∀ a b, (a, b) ∈ runs ↔ IsMaxRun (Above cfg.norm data thr) a b) ∧
      List.Forall₂ (fun c (run : ℕ × ℕ) =>
        c.minTime ≤ c.coaTime - cfg.mei ∧ c.coaTime + cfg.mei ≤ c.maxTime ∧
        (∀ i r, run.1 ≤ i → i ≤ run.2 → data[i]? = some r →
          c.minTime + cfg.mw ≤ r.dt ∧ r.dt + cfg.mw ≤ c.maxTime) ∧
        (c.minTime = c.coaTime - cfg.mei ∨
          ∃ r, data[run.1]? = some r ∧ c.minTime = r.dt - (cfg.mei - cfg.mw)) ∧
        (c.maxTime = c.coaTime + cfg.mei ∨
          ∃ r, data[run.2]? = some r ∧ c.maxTime = r.dt + (cfg.mei - cfg.mw)))
        (identifyCandidates cfg data thr) runs := by
  refine ⟨(candidateRuns cfg data thr).map ivOf, runs_iff cfg data thr, ?_⟩
  refine (identify_forall₂ cfg data thr).imp ?_
  rintro c ⟨a, b⟩ ⟨p, peak, first, last, hp, ha, hb, hct, -, -, -, -, -, -, hm1, hm2, hM1, hM2⟩
  simp only at *
  have hmono : ∀ (i j : ℕ) (r s : Row), i ≤ j → data[i]? = some r → data[j]? = some s → r.dt ≤ s.dt := by
    intro i j r s hij hi hj
    rcases Nat.lt_or_ge i j with h | h
    · rw [List.pairwise_iff_getElem] at hdt
      obtain ⟨hi', hi⟩ := List.getElem?_eq_some_iff.mp hi
      obtain ⟨hj', hj⟩ := List.getElem?_eq_some_iff.mp hj
      have := hdt i j hi' hj' h
      rw [hi, hj] at this
      exact le_of_lt this
    · obtain rfl : i = j := by omega
      rw [hi] at hj
      simp at hj
      rw [hj]
  have hmin : c.minTime ≤ c.coaTime - cfg.mei ∧ c.minTime + cfg.mw ≤ first.dt ∧
      (c.minTime = c.coaTime - cfg.mei ∨ c.minTime = first.dt - (cfg.mei - cfg.mw)) := by
    rw [hct]
    rcases lt_or_ge (peak.dt - first.dt) cfg.mw with h | h
    · rw [hm1 h]; refine ⟨le_rfl, by linarith, Or.inl rfl⟩
    · rw [hm2 h]; refine ⟨by linarith, by linarith, Or.inr rfl⟩
  have hmax : c.coaTime + cfg.mei ≤ c.maxTime ∧ last.dt + cfg.mw ≤ c.maxTime ∧
      (c.maxTime = c.coaTime + cfg.mei ∨ c.maxTime = last.dt + (cfg.mei - cfg.mw)) := by
    rw [hct]
    rcases lt_or_ge (last.dt - peak.dt) cfg.mw with h | h
    · rw [hM1 h]; refine ⟨le_rfl, by linarith, Or.inl rfl⟩
    · rw [hM2 h]; refine ⟨by linarith, by linarith, Or.inr rfl⟩
  refine ⟨hmin.1, hmax.1, ?_, ?_, ?_⟩
  · intro i r h1 h2 hi
    have := hmono a i first r h1 ha hi
    have := hmono i b r last h2 hi hb
    constructor <;> linarith [hmin.2.1, hmax.2.1]
  · rcases hmin.2.2 with h | h
    · exact Or.inl h
    · exact Or.inr ⟨first, ha, h⟩
  · rcases hmax.2.2 with h | h
    · exact Or.inl h
    · exact Or.inr ⟨last, hb, h⟩

example : 2 * exCfg.mw ≤ exCfg.mei ∧ exData.Pairwise (fun r s => r.dt < s.dt) := by
  decide +kernel

/-- **C11.** Merging partitions the candidates into consecutive groups, splits
exactly where two neighbours are `Apart`, and reports for each group its best
candidate and the hull of its windows. -/
theorem C11_merge_partition (cfg : Cfg) (cs : List Cand) :
    ∃ groups : List (List Cand), groups.flatten = cs ∧ (∀ g ∈ groups, g ≠ []) ∧
      (∀ g ∈ groups, g.IsChain (fun c d => ¬ Apart cfg.mw c d)) ∧
      groups.IsChain (fun g h => ∀ c ∈ g.getLast?, ∀ d ∈ h.head?, Apart cfg.mw c d) ∧
      List.Forall₂ (fun e g => IsEventOf g e) (refineCandidates cfg cs) groups := by
  obtain ⟨h1, h2, h3, h4⟩ := mergedGroups_spec cfg cs
  exact ⟨mergedGroups cfg cs, h1, h2, h3, h4, refine_forall₂ cfg cs⟩

/-- The groups in `C11_merge_partition` are determined by the three structural
clauses, so the statement pins the result down completely. -/
theorem C11_groups_unique (cfg : Cfg) (cs : List Cand) (G H : List (List Cand))
    (hG : G.flatten = cs) (hH : H.flatten = cs)
    (hG0 : ∀ g ∈ G, g ≠ []) (hH0 : ∀ g ∈ H, g ≠ [])
    (hG1 : ∀ g ∈ G, g.IsChain (fun c d => ¬ Apart cfg.mw c d))
    (hH1 : ∀ g ∈ H, g.IsChain (fun c d => ¬ Apart cfg.mw c d))
    (hG2 : G.IsChain (fun g h => ∀ c ∈ g.getLast?, ∀ d ∈ h.head?, Apart cfg.mw c d))
    (hH2 : H.IsChain (fun g h => ∀ c ∈ g.getLast?, ∀ d ∈ h.head?, Apart cfg.mw c d)) :
    G = H := by
  exact groups_unique (fun c d => Apart cfg.mw c d) G H (hG.trans hH.symm) hG0 hH0 hG1 hH1 hG2 hH2

-- three candidates: the first two merge, the third stays apart
def exCands : List Cand :=
  [⟨10, 3, 0, 0, 0, 6, 14, 3, 1⟩, ⟨13, 5, 1, 1, 1, 9, 17, 5, 1⟩, ⟨40, 2, 0, 0, 0, 36, 44, 2, 1⟩]
example : (mergedGroups { mw := 2, mei := 4, norm := false } exCands).map List.length = [2, 1] ∧
    (refineCandidates { mw := 2, mei := 4, norm := false } exCands).map
      (fun e => (e.coaTime, e.minTime, e.maxTime)) = [(13, 6, 17), (40, 36, 44)] := by
  decide +kernel

/-- **C10.** The events refined from the candidates of a batch are more than
`min_event_interval + marginal_window` apart. -/
theorem C10_events_separated (cfg : Cfg) (data : List Row) (thr : List ℚ)
    (hdt : data.Pairwise (fun r s => r.dt < s.dt)) :
    (refineCandidates cfg (identifyCandidates cfg data thr)).Pairwise
      (fun e f => e.coaTime + cfg.mei + cfg.mw < f.coaTime) := by
  obtain ⟨hmax, hsorted⟩ := identify_sorted cfg data thr hdt
  exact refine_separated cfg _ hmax hsorted

/-- **C10** for what a batch reports: any two reported events differ in time by
more than `min_event_interval`. -/
theorem C10_reported_events_separated (cfg : Cfg) (m : Method) (smooth : List Row → List Row)
    (region : Option Region) (bs be : ℚ) (sd : ScanData) (hmw : 0 ≤ cfg.mw)
    (hdt : (smooth sd.rows).Pairwise (fun r s => r.dt < s.dt)) :
    (triggerBatch cfg m smooth region bs be sd).1.Pairwise
      (fun e f => e.coaTime + cfg.mei < f.coaTime) := by
  have h := C10_events_separated cfg (smooth sd.rows)
    (getThreshold m ((smooth sd.rows).map (Row.trig cfg.norm)) sd.sr) hdt
  unfold triggerBatch filterEvents
  simp only
  refine ((h.imp ?_).sublist ?_)
  · intro a b hab; linarith
  · have h1 : (List.filter (fun p : Cand × ℕ => keepEvent bs
        (if isMidnight be then be - sd.delta else be) region p.1)
        (refineCandidates cfg (identifyCandidates cfg (smooth sd.rows)
          (getThreshold m ((smooth sd.rows).map (Row.trig cfg.norm)) sd.sr))).zipIdx).map Prod.fst
        |>.Sublist ((refineCandidates cfg (identifyCandidates cfg (smooth sd.rows)
          (getThreshold m ((smooth sd.rows).map (Row.trig cfg.norm)) sd.sr))).zipIdx.map Prod.fst) :=
      List.filter_sublist.map _
    rwa [List.zipIdx_map_fst] at h1

-- two events are really reported here
example : (triggerBatch exCfg (.static 2) id none 0 100 ⟨exData, 1, 1⟩).1.map Cand.coaTime
    = [2, 8] := by decide +kernel

end QM
