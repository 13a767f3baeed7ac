import Verif.Model.WaveDetect
import Verif.Props.WaveScan
import Verif.Props.DetectRuns
import Verif.Props.DetectShift

/-!
# What the scan files hold, from the waveform files of the archive: C173
-/

namespace QM

open QM.CalcOnsets
open QM.Data (Str Sane)
open QM.Pads
open QM.Waveforms (Rec)
open QM.WaveDetect
open QM.ScanMseed (Enc encode)

/-! ## Specification -/

/-- What is asked of the settings: those of `C169_value`, the same for all windows. -/
structure Spec.GoodScan (s : Scan) (tt : Str → Str → ℕ → ℚ) : Prop where
  rate : s.onset.sr = s.rate
  rate_pos : 0 < s.rate
  counts : s.onset.allChannels = true → ∀ p ∈ s.onset.phases, s.onset.count p ≠ 0
  nonneg : s.windows.Nonneg
  wins : ∀ p ∈ s.onset.phases, 0 ≤ s.onset.sta p ∧ s.onset.sta p ≤ s.onset.lta p ∧ s.onset.sta p ≤ s.windows.staMax ∧
    s.onset.lta p ≤ s.windows.ltaMax
  transform : ∀ v, (s.onset.transform.apply v).length = v.length
  names : Spec.PlainNames s.onset.phases s.stations
  table : Spec.TableFor s.lut s.grid s.onset s.stations (Compute.allPairs s.onset.phases s.stations) s.ttmax tt

/-- The pads of a stage. -/
def Spec.padsOf (s : Scan) (ts : ℚ) : ℚ × ℚ := scanPads s.windows s.ttmax s.rate ts

/-- Samples of the pre-pad. -/
def Spec.firstOf (s : Scan) (ts : ℚ) : ℕ := (pyRound ((Spec.padsOf s ts).1 * s.rate)).toNat

/-- Samples of the post-pad. -/
def Spec.lastOf (s : Scan) (ts : ℚ) : ℕ := (pyRound ((Spec.padsOf s ts).2 * s.rate)).toNat

/-- The window of a timestep. -/
def Spec.windowOf (s : Scan) (ts start : ℚ) (i : ℕ) : ℚ × ℚ := detectWindow start ts s.rate (Spec.padsOf s ts) i

/-- What is asked of the data read for a window: they can be pre-processed (`st p` for a phase), no long-term window of the
data used is silent, the data used are as long as the window, there are no more of them than the C code can count, the
threads do their work in some order, and when gaps are filled the traces lie on the samples of the window. -/
structure Spec.GoodWindow (s : Scan) (ts : ℚ) (win : ℚ × ℚ) (o : Waveforms.Out ℚ) (st : Str → List Data.Trace) : Prop where
  processed : ∀ p ∈ s.onset.phases, preStream s.onset s.ext (s.data win o) p = .ok (st p)
  sane : ∀ p ∈ s.onset.phases, ∀ t ∈ st p, Sane t
  silent : ∀ a p, (a, p) ∈ Spec.available s.onset s.ext (s.data win o) st →
    ∀ l ∈ Spec.records s.onset s.ext (s.data win o) st a p, Spec.NeverSilent s.onset (Spec.samples (s.onset.lta p) s.rate) l
  length : ∀ a p, (a, p) ∈ Spec.available s.onset s.ext (s.data win o) st →
    ∀ l ∈ Spec.records s.onset s.ext (s.data win o) st a p, (l.length : ℤ) = onsetLength 0 s.rate win.1 win.2
  counted : (Spec.available s.onset s.ext (s.data win o) st).length * (onsetLength 0 s.rate win.1 win.2).toNat ≤ 2 ^ 31
  threads : Spec.Schedules (Spec.available s.onset s.ext (s.data win o) st).length (onsetLength 0 s.rate win.1 win.2).toNat
    s.lut.nNodes (Spec.firstOf s ts) (Spec.lastOf s ts) (s.sched win) (s.sched' win)
  grid : Spec.OnGrid s.onset s.rate s.ext (s.data win o) st

/-- What is to be stored for sample `m` of a timestep: the peak over the grid of the coalescence of the data in the archive,
or zeros if the archive has no data for the window or no station and phase is available. -/
def Spec.IsScanValue (s : Scan) (tt : Str → Str → ℕ → ℚ) (ts ucf : ℚ) (win : ℚ × ℚ) (m : ℕ) (v : Enc) : Prop :=
  match s.read win with
  | .error _ => v = encode ucf ⟨0, 0, 0, 0, 0⟩
  | .ok o => ∃ st : Str → List Data.Trace, (∀ p ∈ s.onset.phases, preStream s.onset s.ext (s.data win o) p = .ok (st p)) ∧
    (Spec.available s.onset s.ext (s.data win o) st = [] → v = encode ucf ⟨0, 0, 0, 0, 0⟩) ∧
    (Spec.available s.onset s.ext (s.data win o) st ≠ [] → ∃ r, v = encode ucf (s.sample r) ∧
      Spec.ReportsPeak s.grid
        (fun node => Spec.waveCoalescence s.onset s.rate s.ext (s.data win o) st tt node (Spec.firstOf s ts + m)) r)

/-- A phase can be used at a station in a window: there are data, and those of the station meet the criteria. -/
def Spec.Usable (s : Scan) (win : ℚ × ℚ) (a p : Str) : Prop :=
  ∃ o st, s.read win = .ok o ∧ preStream s.onset s.ext (s.data win o) p = .ok st ∧
    Spec.Available (Spec.criteria s.onset p) win.1 win.2 (Spec.ofStation s.ext a st)

/-- All samples of a run, with their times: `M` for each of `n` timesteps. -/
def Spec.sampleTable (start ts : ℚ) (rate n M : ℕ) (v : ℕ → ℕ → Enc) : List (ℚ × Enc) :=
  (List.range n).flatMap fun (i : ℕ) => (List.range M).map fun (m : ℕ) => (start + ts * (i : ℕ) + ((m : ℕ) : ℚ) / rate, v i m)

namespace WaveFiles

theorem loop_congr (c : Detect.Cfg) (start : ℚ) (f f' : ℚ × ℚ → Detect.Outcome) (n : ℕ) : ∀ i,
    (∀ j, i ≤ j → j < i + n → f (Detect.window c start j) = f' (Detect.window c start j)) →
    Detect.loop c start f n i = Detect.loop c start f' n i := by
  induction n with
  | zero => intro i _; rfl
  | succ n ih =>
    intro i h
    unfold Detect.loop
    have h0 := h i le_rfl (by omega)
    have h1 := ih (i + 1) (fun j hj hj' => h j (by omega) (by omega))
    simp only [h0, h1]

theorem lookup_only {V : Type} (l : List (Str × V)) (k : Str) (w : V) (h : (k, w) ∈ l) (hw : ∀ v, (k, v) ∈ l → v = w) :
    l.lookup k = some w := by
  induction l with
  | nil => cases h
  | cons q l ih =>
    rw [List.lookup_cons]
    by_cases hq : k = q.1
    · have : (k == q.1) = true := by simp [hq]
      rw [this]
      simp only
      rw [hw q.2 (by rw [hq]; simp)]
    · have : (k == q.1) = false := by simp [hq]
      rw [this]
      simp only
      refine ih ?_ fun v hv => hw v (List.mem_cons_of_mem _ hv)
      rcases List.mem_cons.1 h with h | h
      · exact absurd (congrArg Prod.fst h) hq
      · exact h

open Classical in
/-- What one good window gives. -/
theorem outcome_good {s : Scan} {tt : Str → Str → ℕ → ℚ} (hs : Spec.GoodScan s tt) {ts start : ℚ} {M : ℕ}
    (hM : ts * s.rate = M) (hM0 : 0 < M) {j : ℤ} (hstart : start = j / (s.rate : ℚ))
    (htie : ∀ z : ℤ, (Spec.padsOf s ts).1 * s.rate ≠ z + 1 / 2) (i : ℕ)
    (hwin : ∀ o, s.read (Spec.windowOf s ts start i) = .ok o → ∃ st, Spec.GoodWindow s ts (Spec.windowOf s ts start i) o st) :
    s.outcome ts (Spec.windowOf s ts start i) ≠ .other ∧
    (∀ data av, s.outcome ts (Spec.windowOf s ts start i) = .ok data av → data.length = M) ∧
    (∀ (ucf : ℚ), ∀ m < M, ∀ v, (match s.outcome ts (Spec.windowOf s ts start i) with
      | .ok data _ => data.map (encode ucf)
      | _ => List.replicate M (encode ucf ⟨0, 0, 0, 0, 0⟩))[m]? = some v →
      Spec.IsScanValue s tt ts ucf (Spec.windowOf s ts start i) m v) ∧
    ∀ p ∈ s.onset.phases, ∀ a ∈ s.stations, (match s.outcome ts (Spec.windowOf s ts start i) with
      | .ok _ av => (av (String.ofList (Compute.key a p)) : ℤ)
      | _ => 0) = if Spec.Usable s (Spec.windowOf s ts start i) a p then 1 else 0 := by
  have hr := hs.rate_pos
  have hrq : (0 : ℚ) < s.rate := by exact_mod_cast hr
  have hMq : (0 : ℚ) < M := by exact_mod_cast hM0
  have hts : 0 < ts := by
    by_contra hc
    push Not at hc
    have : ts * (s.rate : ℚ) ≤ 0 := mul_nonpos_of_nonpos_of_nonneg hc hrq.le
    linarith
  unfold Scan.outcome Spec.IsScanValue
  cases hread : s.read (Spec.windowOf s ts start i) with
  | error e =>
    refine ⟨by cases e <;> simp, by cases e <;> simp, ?_, ?_⟩
    swap
    · intro p hp a ha
      rw [if_neg (by rintro ⟨o, st, h, -⟩; rw [hread] at h; cases h)]
      cases e <;> rfl
    intro ucf m hm v hv
    simp only
    have : (List.replicate M (encode ucf ⟨0, 0, 0, 0, 0⟩))[m]? = some v := by
      revert hv; cases e <;> exact id
    rw [List.getElem?_replicate, if_pos hm] at this
    exact (Option.some.inj this).symm
  | ok o =>
    obtain ⟨st, hw⟩ := hwin o hread
    obtain ⟨n1, n2⟩ := scanPads_samples_nonneg hs.nonneg hs.table.ttpos hr hts.le
    rw [time2sample_nat] at n1 n2
    have hpad : Spec.padsOf s ts = scanPads s.windows s.ttmax s.rate ts := rfl
    have hcount := (C22_detect_sample_count_partial s.windows s.ttmax s.rate hr 0 ts j M hM i start
      (by rw [hstart]; ring) (Spec.padsOf s ts) rfl htie (Spec.windowOf s ts start i) rfl).1
    unfold coaSamples at hcount
    rw [time2sample_nat, time2sample_nat] at hcount
    have hf : ((Spec.firstOf s ts : ℕ) : ℤ) = pyRound ((Spec.padsOf s ts).1 * s.rate) := Int.toNat_of_nonneg n1
    have hl : ((Spec.lastOf s ts : ℕ) : ℤ) = pyRound ((Spec.padsOf s ts).2 * s.rate) := Int.toNat_of_nonneg n2
    rw [← hf, ← hl] at hcount
    have hcols : (((onsetLength 0 s.rate (Spec.windowOf s ts start i).1 (Spec.windowOf s ts start i).2).toNat : ℕ) : ℤ) =
        onsetLength 0 s.rate (Spec.windowOf s ts start i).1 (Spec.windowOf s ts start i).2 := Int.toNat_of_nonneg (by omega)
    have hspan : (s.data (Spec.windowOf s ts start i) o).start + (Spec.padsOf s ts).1 + (Spec.padsOf s ts).2 ≤
        (s.data (Spec.windowOf s ts start i) o).stop := by
      show start + ts * i - (Spec.padsOf s ts).1 + (Spec.padsOf s ts).1 + (Spec.padsOf s ts).2 ≤
        start + ts * (i + 1) - 1 / (s.rate : ℚ) + (Spec.padsOf s ts).2
      have : 1 / (s.rate : ℚ) ≤ ts := by
        rw [div_le_iff₀ hrq, hM]
        exact_mod_cast hM0
      linarith
    have hpairs : ∀ sp ∈ Spec.available s.onset s.ext (s.data (Spec.windowOf s ts start i) o) st,
        sp ∈ Compute.allPairs s.onset.phases s.stations := by
      rintro ⟨a, p⟩ hsp
      obtain ⟨h1, h2, -⟩ := WaveScan.mem_available.1 hsp
      simp only [Compute.allPairs, List.mem_flatMap, List.mem_map]
      exact ⟨p, h1, a, h2, rfl⟩
    have key := C169_value s.onset s.rate hs.rate hr hs.counts s.windows hs.nonneg hs.wins hs.transform s.ext
      (s.data (Spec.windowOf s ts start i) o) hs.names st hw.grid hw.processed hw.sane hw.silent
      (onsetLength 0 s.rate (Spec.windowOf s ts start i).1 (Spec.windowOf s ts start i).2).toNat
      (fun a p ha l hl' => by have := hw.length a p ha l hl'; omega)
      s.lut s.grid s.ttmax tt
      ⟨hs.table.nodes, hs.table.pos, hs.table.longest, hs.table.ttpos, hs.table.phLut, hs.table.stLut,
        fun sp hsp => hs.table.table sp (hpairs sp hsp)⟩
      ts hts (Spec.padsOf s ts) rfl hspan (Spec.firstOf s ts) (Spec.lastOf s ts) hf hl hw.counted
      (s.sched (Spec.windowOf s ts start i)) (s.sched' (Spec.windowOf s ts start i)) hw.threads
    have hlen : (onsetLength 0 s.rate (Spec.windowOf s ts start i).1 (Spec.windowOf s ts start i).2).toNat -
        Spec.firstOf s ts - Spec.lastOf s ts = M := by omega
    rw [hlen] at key
    simp only
    by_cases hav : Spec.available s.onset s.ext (s.data (Spec.windowOf s ts start i) o) st = []
    · have hc : s.compute ts (Spec.windowOf s ts start i) o = .error (.onset .dataAvailability) := key.2 hav
      rw [hc]
      refine ⟨by simp, by simp, ?_, ?_⟩
      swap
      · intro p hp a ha
        rw [if_neg]
        rintro ⟨o', st', h, h', h''⟩
        rw [hread] at h
        obtain rfl := Except.ok.inj h
        rw [hw.processed p hp] at h'
        obtain rfl := Except.ok.inj h'
        have : (a, p) ∈ Spec.available s.onset s.ext (s.data (Spec.windowOf s ts start i) o) st :=
          WaveScan.mem_available.2 ⟨hp, ha, h''⟩
        rw [hav] at this
        cases this
      intro ucf m hm v hv
      simp only at hv
      rw [List.getElem?_replicate, if_pos hm] at hv
      exact ⟨st, hw.processed, fun _ => (Option.some.inj hv).symm, fun h => absurd hav h⟩
    · obtain ⟨-, out, hc, hol, hval⟩ := key.1 hav
      have hc : s.compute ts (Spec.windowOf s ts start i) o = .ok out := hc
      rw [hc]
      refine ⟨by simp, ?_, ?_, ?_⟩
      rotate_right
      · intro p hp a ha
        simp only
        unfold Scan.availability
        cases hcalc : calculateOnsets s.onset s.ext (s.data (Spec.windowOf s ts start i) o) with
        | error e =>
          unfold Scan.compute WaveScan.compute at hc
          rw [hcalc] at hc
          cases hc
        | ok r =>
          have hsr : s.onset.sr ≠ 0 := by rw [hs.rate]; exact hrq.ne'
          have hwh := (C165_which s.onset hsr hs.counts s.ext _ hs.names st hw.processed hw.sane r hcalc).2.2.2 p hp a ha
          have hu : Spec.Usable s (Spec.windowOf s ts start i) a p ↔
              Spec.Available (Spec.criteria s.onset p) (Spec.windowOf s ts start i).1 (Spec.windowOf s ts start i).2
                (Spec.ofStation s.ext a (st p)) := by
            constructor
            · rintro ⟨o', st', h, h', h''⟩
              rw [hread] at h
              obtain rfl := Except.ok.inj h
              rw [hw.processed p hp] at h'
              obtain rfl := Except.ok.inj h'
              exact h''
            · exact fun h => ⟨o, st p, hread, hw.processed p hp, h⟩
          simp only [String.toList_ofList]
          by_cases hU : Spec.Usable s (Spec.windowOf s ts start i) a p
          · rw [if_pos hU, lookup_only _ (Compute.key a p) 1 ((hwh 1).2 (Or.inl ⟨rfl, hu.1 hU⟩)) fun v hv => by
              rcases (hwh v).1 hv with h | h
              · exact h.1
              · exact absurd (hu.1 hU) h.2]
            rfl
          · rw [if_neg hU, lookup_only _ (Compute.key a p) 0 ((hwh 0).2 (Or.inr ⟨rfl, fun h => hU (hu.2 h)⟩)) fun v hv => by
              rcases (hwh v).1 hv with h | h
              · exact absurd (hu.2 h.2) hU
              · exact h.1]
            rfl
      · intro data av he
        simp only [Detect.Outcome.ok.injEq] at he
        rw [← he.1, List.length_map, hol]
      · intro ucf m hm v hv
        obtain ⟨r, hr1, hr2⟩ := hval m hm
        simp only [List.getElem?_map, hr1, Option.map_some, Option.some.injEq] at hv
        exact ⟨st, hw.processed, fun h => absurd h hav, fun _ => ⟨r, hv.symm, hr2⟩⟩

/-- The values recorded for a timestep. -/
noncomputable def vals (s : Scan) (ts start ucf : ℚ) (M i : ℕ) : List Enc :=
  match s.outcome ts (Spec.windowOf s ts start i) with
  | .ok data _ => data.map (encode ucf)
  | _ => List.replicate M (encode ucf ⟨0, 0, 0, 0, 0⟩)

theorem zipIdx_table {α β : Type} (f : ℕ → β) (l : List α) (v : ℕ → α) (h : ∀ m < l.length, l[m]? = some (v m)) :
    l.zipIdx.map (fun p : α × ℕ => (f p.2, p.1)) = (List.range l.length).map fun m => (f m, v m) := by
  apply List.ext_getElem?
  intro m
  by_cases hm : m < l.length
  · have := h m hm
    rw [List.getElem?_eq_getElem hm, Option.some.injEq] at this
    simp [List.getElem?_map, hm, this]
  · simp [List.getElem?_map, hm]

open Classical in
/-- The call with what happens after the last timestep left out. -/
theorem setup {s : Scan} {tt : Str → Str → ℕ → ℚ} (hs : Spec.GoodScan s tt) {ts start stop ucf : ℚ} {cols : List String}
    {cw : Bool} {M : ℕ} (hM : ts * s.rate = M) (hM0 : 0 < M) (hday : ts ≤ 86400) {j : ℤ} (hstart : start = j / (s.rate : ℚ))
    (htie : ∀ z : ℤ, (Spec.padsOf s ts).1 * s.rate ≠ z + 1 / 2)
    {last : ℚ} (hlast : last = if isMidnight stop then stop - 1 / (s.rate : ℚ) else stop) (hne : start < last)
    {n : ℕ} (hn : (n : ℤ) = ⌈(last - start) / ts⌉)
    (hwin : ∀ i < n, ∀ o, s.read (Spec.windowOf s ts start i) = .ok o →
      ∃ st, Spec.GoodWindow s ts (Spec.windowOf s ts start i) o st) :
    ∃ oc : ℚ × ℚ → Detect.Outcome,
      (∀ jul order dir, DetectRuns.call jul order dir (s.call ts start stop cols ucf cw .never) =
        DetectRuns.call jul order dir { s.call ts start stop cols ucf cw .never with outcome := oc }) ∧
      (∀ i < n, oc (Spec.windowOf s ts start i) = s.outcome ts (Spec.windowOf s ts start i)) ∧
      Spec.GoodCall s.rate { s.call ts start stop cols ucf cw .never with outcome := oc } ∧
      Spec.Clean { s.call ts start stop cols ucf cw .never with outcome := oc } ∧
      Spec.stepsDone { s.call ts start stop cols ucf cw .never with outcome := oc } = List.range n := by
  set k := s.call ts start stop cols ucf cw .never with hk
  set k' : DetectRuns.Call := { k with outcome := fun w =>
    if (∃ i < n, w = Spec.windowOf s ts start i) then s.outcome ts w else .archiveEmpty } with hk'
  have hadj : Detect.adjustedEnd k.cfg stop = last := by rw [hlast]; rfl
  have hin : ∀ i < n, k'.outcome (Spec.windowOf s ts start i) = s.outcome ts (Spec.windowOf s ts start i) := by
    intro i hi
    exact if_pos ⟨i, hi, rfl⟩
  have hnn : ⌈(Detect.adjustedEnd k'.cfg k'.stop - k'.start) / k'.cfg.timestep⌉.toNat = n := by
    have : ⌈(Detect.adjustedEnd k'.cfg k'.stop - k'.start) / k'.cfg.timestep⌉ = (n : ℤ) := by
      rw [hn, ← hadj]; rfl
    rw [this]; rfl
  have hcalls : ∀ jul order dir, DetectRuns.call jul order dir k = DetectRuns.call jul order dir k' := by
    intro jul order dir
    have : Detect.detect k.cfg k.start k.stop k.outcome = Detect.detect k'.cfg k'.start k'.stop k'.outcome := by
      unfold Detect.detect Detect.nSteps
      by_cases hgt : k.start > k.stop
      · have hgt' : k'.start > k'.stop := hgt
        simp only [if_pos hgt, if_pos hgt']
        rfl
      · have hgt' : ¬ k'.start > k'.stop := hgt
        simp only [if_neg hgt, if_neg hgt', Option.map_some]
        rw [hnn]
        congr 1
        refine WaveFiles.loop_congr _ _ _ _ n 0 ?_
        intro i _ hi
        exact (hin i (by omega)).symm
    unfold DetectRuns.call
    rw [this]
  have hout := fun i hi => WaveFiles.outcome_good hs hM hM0 hstart htie i (hwin i hi)
  have hgood : Spec.GoodCall s.rate k' := by
    refine ⟨rfl, hs.rate_pos, ⟨M, hM0, hM, ?_⟩, hday, ⟨j, hstart⟩, ?_⟩
    · intro i data av he
      have he' : (if (∃ i' < n, Spec.windowOf s ts start i = Spec.windowOf s ts start i') then
        s.outcome ts (Spec.windowOf s ts start i) else .archiveEmpty) = .ok data av := he
      by_cases hc : ∃ i' < n, Spec.windowOf s ts start i = Spec.windowOf s ts start i'
      · rw [if_pos hc] at he'
        obtain ⟨i', hi', hw⟩ := hc
        rw [hw] at he'
        exact (hout i' hi').2.1 data av he'
      · rw [if_neg hc] at he'
        exact absurd he' (by simp)
    · show start < Detect.adjustedEnd k.cfg stop
      rw [hadj]; exact hne
  have hclean : Spec.Clean k' := by
    intro i hi
    rw [hnn] at hi
    show k'.outcome (Spec.windowOf s ts start i) ≠ _
    rw [hin i hi]
    exact (hout i hi).1
  have hdone : Spec.stepsDone k' = List.range n := by
    unfold Spec.stepsDone
    rw [hnn]
    show List.takeWhile _ (List.range n) = _
    rw [List.takeWhile_eq_self_iff]
    intro i hi
    have := hclean i (by rw [hnn]; exact List.mem_range.mp hi)
    cases hw : k'.outcome (Detect.window k'.cfg k'.start i) <;> simp_all
  exact ⟨_, hcalls, hin, hgood, hclean, hdone⟩

end WaveFiles

open Classical in
/-- **C173.** After a completed call of `detect` the scan files of the days scanned hold the samples of all timesteps at their
times, each the peak over the grid of the coalescence of the waveforms in the archive, or zeros where there is nothing to
scan; the files of other days are as they were.  `n` is the number of timesteps, `M` that of samples of a timestep.
Missing: gaps filled (`allow_gaps`), spans not full, silent long-term windows, timesteps of a broken number of samples. -/
theorem C173_files_partial (s : Scan) (tt : Str → Str → ℕ → ℚ) (hs : Spec.GoodScan s tt) (ts start stop ucf : ℚ) (cols : List String)
    (cw : Bool) (M : ℕ) (hM : ts * s.rate = M) (hM0 : 0 < M) (hday : ts ≤ 86400) (j : ℤ) (hstart : start = j / (s.rate : ℚ))
    (htie : ∀ z : ℤ, (Spec.padsOf s ts).1 * s.rate ≠ z + 1 / 2)
    (last : ℚ) (hlast : last = if isMidnight stop then stop - 1 / (s.rate : ℚ) else stop) (hne : start < last)
    (n : ℕ) (hn : (n : ℤ) = ⌈(last - start) / ts⌉)
    (hwin : ∀ i < n, ∀ o, s.read (Spec.windowOf s ts start i) = .ok o →
      ∃ st, Spec.GoodWindow s ts (Spec.windowOf s ts start i) o st)
    (jul : ℤ → ℕ) (hjul : ∀ d, jul d ≠ jul (d + 1)) (order : Availability.Table → List ℤ)
    (hord : ∀ t, Availability.IsDateSet t (order t)) (dir : DetectRuns.Dir) :
    ∃ dir' v, DetectRuns.call jul order dir (s.call ts start stop cols ucf cw .never) = some dir' ∧
      (∀ i < n, ∀ m < M, Spec.IsScanValue s tt ts ucf (Spec.windowOf s ts start i) m (v i m)) ∧
      ∀ d, Spec.content (1 / (s.rate : ℚ)) (dir'.scan d) =
        if Spec.ofDay d (Spec.sampleTable start ts s.rate n M v) = [] then Spec.content (1 / (s.rate : ℚ)) (dir.scan d)
        else some (Spec.ofDay d (Spec.sampleTable start ts s.rate n M v)) := by
  obtain ⟨oc, hcalls, hin, hgood, hclean, hdone⟩ := WaveFiles.setup (ucf := ucf) (cols := cols) (cw := cw) hs hM hM0 hday hstart
    htie hlast hne hn hwin
  set k' : DetectRuns.Call := { s.call ts start stop cols ucf cw .never with outcome := oc } with hk'
  have hout := fun i hi => WaveFiles.outcome_good hs hM hM0 hstart htie i (hwin i hi)
  have hlenv : ∀ i < n, (WaveFiles.vals s ts start ucf M i).length = M := by
    intro i hi
    unfold WaveFiles.vals
    cases ho : s.outcome ts (Spec.windowOf s ts start i) with
    | ok data av => simp only [List.length_map]; exact (hout i hi).2.1 data av ho
    | _ => simp only [List.length_replicate]
  have hscan : Spec.scanOf k' = Spec.sampleTable start ts s.rate n M
      fun i m => ((WaveFiles.vals s ts start ucf M i)[m]?).getD (encode ucf ⟨0, 0, 0, 0, 0⟩) := by
    unfold Spec.scanOf Spec.sampleTable
    rw [hdone]
    refine List.flatMap_congr fun i hi => ?_
    have hi := List.mem_range.mp hi
    have hz := WaveFiles.zipIdx_table (fun m : ℕ => start + ts * (i : ℕ) + (m : ℚ) / s.rate) (WaveFiles.vals s ts start ucf M i)
      (fun m => ((WaveFiles.vals s ts start ucf M i)[m]?).getD (encode ucf ⟨0, 0, 0, 0, 0⟩))
      (fun m hm => by rw [List.getElem?_eq_getElem hm]; rfl)
    rw [hlenv i hi] at hz
    rw [← hz]
    unfold Spec.stepSamples
    have hfl : ⌊k'.cfg.timestep * k'.cfg.scanRate⌋.toNat = M := by
      have : k'.cfg.timestep * (k'.cfg.scanRate : ℚ) = (M : ℚ) := hM
      rw [this]; simp
    have he : k'.outcome (Detect.window k'.cfg k'.start i) = s.outcome ts (Spec.windowOf s ts start i) := hin i hi
    rw [he, hfl]
    rfl
  obtain ⟨dir', h1, h2, -⟩ := C111_one_call s.rate k' hgood jul hjul order hord dir
  refine ⟨dir', fun i m => ((WaveFiles.vals s ts start ucf M i)[m]?).getD (encode ucf ⟨0, 0, 0, 0, 0⟩), (hcalls _ _ _).trans h1, ?_,
    fun d => ?_⟩
  · intro i hi m hm
    refine (hout i hi).2.2.1 ucf m hm _ ?_
    have hm' : m < (WaveFiles.vals s ts start ucf M i).length := by rw [hlenv i hi]; exact hm
    show (WaveFiles.vals s ts start ucf M i)[m]? = _
    simp only [List.getElem?_eq_getElem hm', Option.getD_some]
  · rw [h2 d, hscan]
    by_cases hd : Spec.ofDay d (Spec.scanOf k') = []
    · rw [if_neg (fun hl => hl.1 hd), if_pos (by rw [← hscan]; exact hd)]
    · rw [if_pos ⟨hd, Or.inl ⟨hclean, fun _ h => by cases h⟩⟩, if_neg (by rw [← hscan]; exact hd)]

open Classical in
/-- **C173**, availability: after the same call the availability files of the days scanned hold one row for each timestep,
at its time, with a column for each phase and station that says whether the phase could be used at the station. -/
theorem C173_availability_partial (s : Scan) (tt : Str → Str → ℕ → ℚ) (hs : Spec.GoodScan s tt) (ts start stop ucf : ℚ)
    (cw : Bool) (M : ℕ) (hM : ts * s.rate = M) (hM0 : 0 < M) (hday : ts ≤ 86400) (j : ℤ) (hstart : start = j / (s.rate : ℚ))
    (htie : ∀ z : ℤ, (Spec.padsOf s ts).1 * s.rate ≠ z + 1 / 2)
    (last : ℚ) (hlast : last = if isMidnight stop then stop - 1 / (s.rate : ℚ) else stop) (hne : start < last)
    (n : ℕ) (hn : (n : ℤ) = ⌈(last - start) / ts⌉)
    (hwin : ∀ i < n, ∀ o, s.read (Spec.windowOf s ts start i) = .ok o →
      ∃ st, Spec.GoodWindow s ts (Spec.windowOf s ts start i) o st)
    (jul : ℤ → ℕ) (hjul : ∀ d, jul d ≠ jul (d + 1)) (order : Availability.Table → List ℤ)
    (hord : ∀ t, Availability.IsDateSet t (order t)) (dir : DetectRuns.Dir) :
    ∃ dir', DetectRuns.call jul order dir (s.call ts start stop (s.columns.map String.ofList) ucf cw .never) = some dir' ∧
      ∀ d, dir'.avail d =
        if (∃ i : ℕ, i < n ∧ ⌊(start + ts * i) / 86400⌋ = d) then
          some ⟨s.onset.phases.flatMap fun p => s.stations.map fun a => a ++ '_' :: p,
            ((List.range n).filter fun (i : ℕ) => ⌊(start + ts * i) / 86400⌋ = d).map fun (i : ℕ) => (start + ts * i,
              s.onset.phases.flatMap fun p => s.stations.map fun a =>
                some (if Spec.Usable s (Spec.windowOf s ts start i) a p then 1 else 0))⟩
        else dir.avail d := by
  obtain ⟨oc, hcalls, hin, hgood, hclean, hdone⟩ := WaveFiles.setup (ucf := ucf) (cols := (s.columns.map String.ofList)) (cw := cw) hs hM hM0 hday hstart
    htie hlast hne hn hwin
  set k' : DetectRuns.Call := { s.call ts start stop (s.columns.map String.ofList) ucf cw .never with outcome := oc } with hk'
  have hout := fun i hi => WaveFiles.outcome_good hs hM hM0 hstart htie i (hwin i hi)
  obtain ⟨dir', h1, -, h3⟩ := C111_one_call s.rate k' hgood jul hjul order hord dir
  refine ⟨dir', (hcalls _ _ _).trans h1, fun d => ?_⟩
  have hrow : ∀ i < n, Spec.stepAvail k' i = (start + ts * i, s.onset.phases.flatMap fun p => s.stations.map fun a =>
      some (if Spec.Usable s (Spec.windowOf s ts start i) a p then (1 : ℤ) else 0)) := by
    intro i hi
    have h := (hout i hi).2.2.2
    have he : k'.outcome (Detect.window k'.cfg k'.start i) = s.outcome ts (Spec.windowOf s ts start i) := hin i hi
    unfold Spec.stepAvail
    rw [he]
    refine Prod.ext rfl ?_
    show _ = List.flatMap _ _
    have hc : k'.cfg.cols = s.onset.phases.flatMap fun p => s.stations.map fun a => String.ofList (Compute.key a p) := by
      show s.columns.map String.ofList = _
      simp [Scan.columns, List.map_flatMap, Function.comp_def]
    rw [hc]
    cases ho : s.outcome ts (Spec.windowOf s ts start i) <;> simp only [ho, List.map_flatMap, List.map_map] at h ⊢ <;>
      exact List.flatMap_congr fun p hp => List.map_congr_left fun a ha => congrArg some (h p hp a ha)
  have hav : Spec.availOf k' = (List.range n).map fun i => (start + ts * (i : ℕ), s.onset.phases.flatMap fun p =>
      s.stations.map fun a => some (if Spec.Usable s (Spec.windowOf s ts start i) a p then (1 : ℤ) else 0)) := by
    unfold Spec.availOf
    rw [hdone]
    exact List.map_congr_left fun i hi => hrow i (List.mem_range.1 hi)
  have hnames : k'.cfg.cols.map String.toList = s.onset.phases.flatMap fun p => s.stations.map fun a => a ++ '_' :: p := by
    show (s.columns.map String.ofList).map String.toList = _
    simp [Scan.columns, List.map_flatMap, Function.comp_def, Compute.key]
  rw [h3 d, hnames, hav]
  refine if_congr ?_ ?_ rfl
  · constructor
    · rintro ⟨-, -, r, hr, hd⟩
      obtain ⟨i, hi, rfl⟩ := List.mem_map.1 hr
      exact ⟨i, List.mem_range.1 hi, hd⟩
    · rintro ⟨i, hi, hd⟩
      exact ⟨hclean, rfl, _, List.mem_map.2 ⟨i, List.mem_range.2 hi, rfl⟩, hd⟩
  · rw [List.filter_map]
    rfl

/-! ## A case that meets the hypotheses -/

namespace WaveFiles

open OnsetValue OnsetGain DetectShift

theorem exScan_good : Spec.GoodScan exScan (fun _ _ n => n) where
  rate := by simp [exScan, plainCfg, exCfg]
  rate_pos := one_pos
  counts := fun ha => by simp [exScan, plainCfg, exCfg] at ha
  nonneg := ⟨le_refl _, le_refl _⟩
  wins := fun p _ => ⟨le_refl _, le_refl _, le_refl _, le_refl _⟩
  transform := fun v => by simp [exScan, plainCfg, exCfg, StaLta.Transform.apply]
  names := WaveScan.ex_names
  table := ⟨rfl, by decide, by decide +kernel, by norm_num [exScan], fun p hp => hp, fun s hs => hs, fun _ _ => rfl⟩

theorem exScan_pads : Spec.padsOf exScan 1 = (1, 2) := by
  show scanPads ⟨(0, 0), []⟩ 1 ((1 : ℕ) : ℚ) 1 = (1, 2)
  decide +kernel

theorem exScan_first : Spec.firstOf exScan 1 = 1 := by
  unfold Spec.firstOf
  rw [exScan_pads]
  show (pyRound ((1 : ℚ) * ((1 : ℕ) : ℚ))).toNat = 1
  decide +kernel

theorem exScan_last : Spec.lastOf exScan 1 = 2 := by
  unfold Spec.lastOf
  rw [exScan_pads]
  show (pyRound ((2 : ℚ) * ((1 : ℕ) : ℚ))).toNat = 2
  decide +kernel

theorem exScan_window : Spec.windowOf exScan 1 1 0 = (0, 3) := by
  unfold Spec.windowOf
  rw [exScan_pads]
  show detectWindow 1 1 1 (1, 2) 0 = (0, 3)
  decide +kernel

theorem exScan_onsetLength : onsetLength 0 1 0 3 = 4 := by decide +kernel

theorem exScan_goodWindow : Spec.GoodWindow exScan 1 (0, 3)
    ⟨[⟨"Z".toList, 1, ⟨0, [1, 2, 3, 5]⟩⟩], [⟨"Z".toList, 1, ⟨0, [1, 2, 3, 5]⟩⟩]⟩ (fun _ => plainData.waveforms) := by
  have hl : onsetLength 0 exScan.rate 0 3 = 4 := exScan_onsetLength
  have hav : Spec.available exScan.onset exScan.ext plainData (fun _ => plainData.waveforms) = [("ST01".toList, "P".toList)] :=
    WaveScan.ex_available
  refine ⟨?_, ?_, ?_, ?_, ?_, ?_, fun h => by simp [exScan, plainCfg] at h⟩
  all_goals try simp only [exScan_data, hl, hav, exScan_first, exScan_last]
  · exact WaveScan.ex_pre
  · exact fun _ _ => plain_sane
  · intro a p h l hm
    have := List.mem_singleton.mp h
    rw [(Prod.mk.inj this).2, WaveScan.ex_records hm]
    exact WaveScan.ex_silent
  · intro a p h l hm
    rw [WaveScan.ex_records hm]
    rfl
  · norm_num
  · exact ⟨serial_isInterleaving _ _, serial_isInterleaving _ _⟩

open Classical in
/-- A run of one second over the archive with four samples: the file of the day holds one sample, at 1 s, the peak of the
coalescence at the second sample of the window. -/
example (jul : ℤ → ℕ) (hjul : ∀ d, jul d ≠ jul (d + 1)) (order : Availability.Table → List ℤ)
    (hord : ∀ t, Availability.IsDateSet t (order t)) (dir : DetectRuns.Dir) :
    ∃ dir' r st, st "P".toList = plainData.waveforms ∧
      DetectRuns.call jul order dir (exScan.call 1 1 2 ["ST01_P"] 1 false .never) = some dir' ∧
      Spec.content 1 (dir'.scan 0) = some [(1, encode 1 (exScan.sample r))] ∧
      Spec.content 1 (dir'.scan 1) = Spec.content 1 (dir.scan 1) ∧
      Spec.ReportsPeak stepGrid (fun node => Spec.waveCoalescence plainCfg 1 (exExt 1) plainData st (fun _ _ n => n) node 1) r := by
  have hmid : ¬ isMidnight 2 := by decide +kernel
  have hz : ∀ z : ℤ, (1 : ℚ) * ((1 : ℕ) : ℚ) ≠ z + 1 / 2 := by
    intro z hz
    have : ((2 * z + 1 : ℤ) : ℚ) = ((2 : ℤ) : ℚ) := by push_cast at hz ⊢; linarith
    have := Int.cast_injective this
    omega
  obtain ⟨dir', v, h1, h2, h3⟩ := C173_files_partial exScan (fun _ _ n => n) exScan_good 1 1 2 1 ["ST01_P"] false 1
    (by norm_num [exScan]) one_pos (by norm_num) 1 (by norm_num [exScan]) (by rw [exScan_pads]; exact hz) 2
    (by rw [if_neg hmid]) (by norm_num) 1 (by norm_num)
    (by
      intro i hi o ho
      obtain rfl : i = 0 := by omega
      rw [exScan_window] at ho ⊢
      rw [exScan_read] at ho
      injection ho with ho
      exact ⟨_, ho ▸ exScan_goodWindow⟩)
    jul hjul order hord dir
  have h2 := h2 0 one_pos 0 one_pos
  unfold Spec.IsScanValue at h2
  rw [exScan_window, exScan_read] at h2
  simp only [exScan_data, exScan_first] at h2
  obtain ⟨st, hst, -, hv⟩ := h2
  have hstp : st "P".toList = plainData.waveforms := by
    have := hst "P".toList (by simp [exScan, plainCfg, exCfg])
    have h' := WaveScan.ex_pre "P".toList (by simp [plainCfg, exCfg])
    exact Except.ok.inj (this.symm.trans h')
  have hav : Spec.available exScan.onset exScan.ext plainData st ≠ [] := by
    have h := WaveScan.ex_available
    have he : Spec.available plainCfg (exExt 1) plainData st =
        Spec.available plainCfg (exExt 1) plainData (fun _ => plainData.waveforms) := by
      have hph : plainCfg.phases = ["P".toList] := rfl
      unfold Spec.available
      rw [hph, List.flatMap_cons, List.flatMap_cons, hstp]
      rfl
    show Spec.available plainCfg (exExt 1) plainData st ≠ []
    rw [he, h]
    simp
  obtain ⟨r, hr1, hr2⟩ := hv hav
  have htab : Spec.sampleTable 1 1 exScan.rate 1 1 v = [(1, v 0 0)] := by
    simp [Spec.sampleTable, List.range_succ]
  have h30 := h3 0
  have h31 := h3 1
  rw [htab] at h30 h31
  have o0 : Spec.ofDay 0 [((1 : ℚ), v 0 0)] = [(1, v 0 0)] := by simp [Spec.ofDay]
  have o1 : Spec.ofDay 1 [((1 : ℚ), v 0 0)] = [] := by simp [Spec.ofDay]
  rw [o0, if_neg (by simp), hr1] at h30
  rw [o1, if_pos rfl] at h31
  have hone : 1 / (exScan.rate : ℚ) = 1 := by norm_num [exScan]
  rw [hone] at h30 h31
  exact ⟨dir', r, st, hstp, h1, h30, h31, hr2⟩

open Classical in
/-- The same run: the availability file of the day has one row, with the station available. -/
example (jul : ℤ → ℕ) (hjul : ∀ d, jul d ≠ jul (d + 1)) (order : Availability.Table → List ℤ)
    (hord : ∀ t, Availability.IsDateSet t (order t)) (dir : DetectRuns.Dir) :
    ∃ dir', DetectRuns.call jul order dir (exScan.call 1 1 2 (exScan.columns.map String.ofList) 1 false .never) = some dir' ∧
      dir'.avail 0 = some ⟨["ST01_P".toList], [(1, [some 1])]⟩ ∧ dir'.avail 1 = dir.avail 1 := by
  have hmid : ¬ isMidnight 2 := by decide +kernel
  have hz : ∀ z : ℤ, (1 : ℚ) * ((1 : ℕ) : ℚ) ≠ z + 1 / 2 := by
    intro z hz
    have : ((2 * z + 1 : ℤ) : ℚ) = ((2 : ℤ) : ℚ) := by push_cast at hz ⊢; linarith
    have := Int.cast_injective this
    omega
  obtain ⟨dir', h1, h2⟩ := C173_availability_partial exScan (fun _ _ n => n) exScan_good 1 1 2 1 false 1
    (by norm_num [exScan]) one_pos (by norm_num) 1 (by norm_num [exScan]) (by rw [exScan_pads]; exact hz) 2
    (by rw [if_neg hmid]) (by norm_num) 1 (by norm_num)
    (by
      intro i hi o ho
      obtain rfl : i = 0 := by omega
      rw [exScan_window] at ho ⊢
      rw [exScan_read] at ho
      injection ho with ho
      exact ⟨_, ho ▸ exScan_goodWindow⟩)
    jul hjul order hord dir
  have hu : Spec.Usable exScan (Spec.windowOf exScan 1 1 0) "ST01".toList "P".toList := by
    rw [exScan_window]
    have h := WaveScan.ex_available
    have : ("ST01".toList, "P".toList) ∈ Spec.available plainCfg (exExt 1) plainData (fun _ => plainData.waveforms) := by
      rw [h]; simp
    refine ⟨_, plainData.waveforms, exScan_read, ?_, (WaveScan.mem_available.1 this).2.2⟩
    rw [exScan_data]
    exact WaveScan.ex_pre _ (WaveScan.mem_available.1 this).1
  have hf : ⌊((1 : ℚ) + 1 * ((0 : ℕ) : ℚ)) / 86400⌋ = 0 := by decide +kernel
  refine ⟨dir', h1, ?_, ?_⟩
  · rw [h2 0, if_pos ⟨0, one_pos, hf⟩]
    have hr : (List.range 1).filter (fun i : ℕ => ⌊((1 : ℚ) + 1 * (i : ℚ)) / 86400⌋ = 0) = [0] := by
      rw [List.range_one, List.filter_eq_self]
      intro i hi
      rw [List.mem_singleton.1 hi]
      exact decide_eq_true hf
    rw [hr]
    have hs : exScan.stations = ["ST01".toList] := rfl
    have hp : exScan.onset.phases = ["P".toList] := rfl
    simp only [hs, hp, List.flatMap_cons, List.flatMap_nil, List.map_cons, List.map_nil, List.append_nil, if_pos hu]
    norm_num
    rfl
  · rw [h2 1, if_neg]
    rintro ⟨i, hi, he⟩
    obtain rfl : i = 0 := by omega
    rw [hf] at he
    omega

end WaveFiles

end QM
