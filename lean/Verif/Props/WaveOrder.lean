import Verif.Props.WaveUnused
import Verif.Props.CalcOnsets

/-!
# The order in which stations and phases are listed does not matter to detect and locate: C182
-/

namespace QM

open QM.Waveforms QM.WaveDetect QM.CalcOnsets QM.Spec
open QM.Data (Sane loadFromPath)
open QM.Locate (Trig Later)
open QM.Pads

/-! ## Specification -/

/-- The scan with its stations and phases listed in another way. -/
def Spec.listing (s : Scan) (stations phases : List Str) : Scan :=
  { s with stations := stations, onset := { s.onset with phases := phases } }

/-- The files found for a station hold records of this station only. -/
def Spec.OwnFiles (s : Scan) : Prop :=
  ∀ d a recs, some recs ∈ s.files ⟨d, some a⟩ → ∀ r ∈ recs, stationCode r.id = a

namespace WaveOrder

variable {s : Scan} {stations phases : List Str}

/-! ### Reading -/

theorem records_nil (hown : Spec.OwnFiles s) {d : ℤ} {a i : Str} (h : a ≠ stationCode i) :
    channelRecords i (s.files ⟨d, some a⟩) = [] := by
  unfold channelRecords
  rw [List.flatMap_eq_nil_iff]
  intro f hf
  cases f with
  | none => rfl
  | some recs =>
    simp only [Option.getD_some, List.filter_eq_nil_iff]
    intro r hr he
    have he : r.id = i := by simpa using he
    exact h (by rw [← he]; exact (hown d a recs hf r hr).symm)

theorem one_station (hown : Spec.OwnFiles s) (d : ℤ) (i : Str) (l : List Str) : l.Nodup →
    l.flatMap (fun a => channelRecords i (s.files ⟨d, some a⟩)) =
      if stationCode i ∈ l then channelRecords i (s.files ⟨d, some (stationCode i)⟩) else [] := by
  induction l with
  | nil => intro _; rfl
  | cons a l ih =>
    intro hn
    obtain ⟨h1, h2⟩ := List.nodup_cons.1 hn
    rw [List.flatMap_cons, ih h2]
    by_cases ha : stationCode i = a
    · rw [← ha, if_neg (by rw [ha]; exact h1), if_pos (by simp), List.append_nil]
    · rw [records_nil hown (Ne.symm ha), List.nil_append]
      simp [ha]

theorem records_found (hown : Spec.OwnFiles s) (hst : s.stations.Perm stations) (hn : s.stations.Nodup) (i : Str) (a b : ℚ) :
    channelRecords i (Spec.found (Spec.listing s stations phases) a b) = channelRecords i (Spec.found s a b) := by
  have e : ∀ (l : List Data.Query),
      channelRecords i (l.flatMap s.files) = l.flatMap fun q => channelRecords i (s.files q) := by
    intro l
    unfold channelRecords
    rw [List.flatMap_assoc]
  unfold Spec.found
  have e' : (Spec.listing s stations phases).files = s.files := rfl
  rw [e', e, e]
  unfold loadFromPath
  have e'' : (Spec.listing s stations phases).readAll = s.readAll := rfl
  rw [e'']
  cases s.readAll with
  | true => rfl
  | false =>
    rw [List.flatMap_assoc, List.flatMap_assoc]
    congr 1
    funext d
    show (stations.map fun a => (⟨d, some a⟩ : Data.Query)).flatMap (fun q => channelRecords i (s.files q)) =
      (s.stations.map fun a => (⟨d, some a⟩ : Data.Query)).flatMap (fun q => channelRecords i (s.files q))
    rw [List.flatMap_map, List.flatMap_map]
    have h1 := one_station hown d i stations (hst.nodup_iff.1 hn)
    have h2 := one_station hown d i s.stations hn
    rw [h1, h2]
    simp only [hst.mem_iff]

theorem select_perm (hst : s.stations.Perm stations) (win extra : ℚ × ℚ) (b : Bool) (st : List (Rec ℚ)) :
    (selectStations ⟨win.1, win.2, extra.1, extra.2, b, s.stations⟩ st).Perm
      (selectStations ⟨win.1, win.2, extra.1, extra.2, b, stations⟩ st) := by
  unfold selectStations
  cases b with
  | false => exact List.Perm.refl _
  | true => exact List.Perm.flatMap_right _ hst

theorem trim_perm (q q' : Req) (h : q.start = q'.start ∧ q.stop = q'.stop ∧ q.prePad = q'.prePad ∧ q.postPad = q'.postPad)
    {l l' : List (Rec ℚ)} (hl : l.Perm l') : (trimWindow q l).Perm (trimWindow q' l') := by
  obtain ⟨h1, h2, h3, h4⟩ := h
  unfold trimWindow readFile
  rw [h1, h2, h3, h4]
  split
  · exact (hl.map _).filter _
  · exact hl

/-- What is read is the same up to its order. -/
theorem got_perm (ho : SetOrder s.order) (hid : KeepsId s.toSample) (hown : Spec.OwnFiles s) (hst : s.stations.Perm stations)
    (hn : s.stations.Nodup) (win extra : ℚ × ℚ) :
    (WaveUnused.got s win extra).Perm (WaveUnused.got (Spec.listing s stations phases) win extra) := by
  classical
  rw [WaveUnused.got_eq ho, WaveUnused.got_eq (s := Spec.listing s stations phases) ho, List.perm_iff_count]
  intro r
  have hcount : ∀ l : List (Rec ℚ), l.count r = (l.filter (fun x : Rec ℚ => decide (x.id = r.id))).count r := fun l =>
    (List.count_filter (p := fun x : Rec ℚ => decide (x.id = r.id)) (by simp)).symm
  rw [hcount, hcount (ReadSamples.window (Spec.listing s stations phases).order _ _ _), WaveUnused.window_records ho hid,
    WaveUnused.window_records (order := (Spec.listing s stations phases).order)
      (shift := (Spec.listing s stations phases).toSample) ho hid, records_found hown hst hn]
  exact (trim_perm _ _ ⟨rfl, rfl, rfl, rfl⟩ (select_perm hst win extra s.readAll _)).count_eq r

theorem read_both (ho : SetOrder s.order) (hid : KeepsId s.toSample) (hown : Spec.OwnFiles s) (hst : s.stations.Perm stations)
    (hn : s.stations.Nodup) (win extra : ℚ × ℚ) :
    (∃ o o', s.readEvent win extra = .ok o ∧ (Spec.listing s stations phases).readEvent win extra = .ok o' ∧
      o.waveforms.Perm o'.waveforms) ∨
    ∃ e e', s.readEvent win extra = .error e ∧ (Spec.listing s stations phases).readEvent win extra = .error e' := by
  have hg := got_perm (phases := phases) ho hid hown hst hn win extra
  have hne : ∀ (z : Scan) (o : Waveforms.Out ℚ), z.readEvent win extra = .ok o → o.waveforms ≠ [] := by
    intro z o h
    unfold Scan.readEvent at h
    exact (readWaveformData_ok h).2.2
  unfold WaveUnused.got at hg
  cases h : s.readEvent win extra with
  | ok o =>
    cases h' : (Spec.listing s stations phases).readEvent win extra with
    | ok o' => rw [h, h'] at hg; exact Or.inl ⟨o, o', rfl, rfl, hg⟩
    | error e' => rw [h, h'] at hg; exact absurd (List.perm_nil.1 hg) (hne s o h)
  | error e =>
    cases h' : (Spec.listing s stations phases).readEvent win extra with
    | ok o' => rw [h, h'] at hg; exact absurd (List.nil_perm.1 hg) (hne _ o' h')
    | error e' => exact Or.inr ⟨e, e', rfl, rfl⟩

/-! ### Computing -/

theorem names (hn : Spec.PlainNames s.onset.phases s.stations) (hst : s.stations.Perm stations) (hph : s.onset.phases.Perm phases) :
    Spec.PlainNames phases stations :=
  ⟨hph.nodup_iff.1 hn.phases, hst.nodup_iff.1 hn.stations, fun p hp => hn.phase p (hph.mem_iff.2 hp),
    fun a ha => hn.station a (hst.mem_iff.2 ha)⟩

theorem pairs_perm (hst : s.stations.Perm stations) (hph : s.onset.phases.Perm phases) :
    (Compute.allPairs s.onset.phases s.stations).Perm (Compute.allPairs phases stations) := by
  unfold Compute.allPairs
  exact (List.Perm.flatMap_right _ hph).trans (List.Perm.flatMap_left _ fun p _ => hst.map _)

theorem scan_good {tt : Str → Str → ℕ → ℚ} (hs : Spec.GoodScan s tt) (hst : s.stations.Perm stations)
    (hph : s.onset.phases.Perm phases) : Spec.GoodScan (Spec.listing s stations phases) tt where
  rate := hs.rate
  rate_pos := hs.rate_pos
  counts := fun h p hp => hs.counts h p (hph.mem_iff.2 hp)
  nonneg := hs.nonneg
  wins := fun p hp => hs.wins p (hph.mem_iff.2 hp)
  transform := hs.transform
  names := names hs.names hst hph
  table := ⟨hs.table.nodes, hs.table.pos, hs.table.longest, hs.table.ttpos, fun p hp => hs.table.phLut p (hph.mem_iff.2 hp),
    fun a ha => hs.table.stLut a (hst.mem_iff.2 ha), fun sp hsp => hs.table.table sp ((pairs_perm hst hph).mem_iff.2 hsp)⟩

theorem available_perm (hst : s.stations.Perm stations) (hph : s.onset.phases.Perm phases) (win : ℚ × ℚ) (o : Waveforms.Out ℚ)
    (st : Str → List Data.Trace) : (Spec.available s.onset s.ext (s.data win o) st).Perm
      (Spec.available (Spec.listing s stations phases).onset s.ext ((Spec.listing s stations phases).data win o) st) := by
  unfold Spec.available
  exact (List.Perm.flatMap_right _ hph).trans (List.Perm.flatMap_left _ fun p _ => (hst.filter _).map _)

theorem window_good' {ts : ℚ} {win : ℚ × ℚ} {o : Waveforms.Out ℚ} {st : Str → List Data.Trace}
    (hw : Spec.GoodWindow s ts win o st) (hst : s.stations.Perm stations) (hph : s.onset.phases.Perm phases) :
    Spec.GoodWindow (Spec.listing s stations phases) ts win o st := by
  have ha := available_perm hst hph win o st
  exact {
    processed := fun p hp => hw.processed p (hph.mem_iff.2 hp)
    sane := fun p hp => hw.sane p (hph.mem_iff.2 hp)
    silent := fun a p h => hw.silent a p (ha.mem_iff.2 h)
    length := fun a p h => hw.length a p (ha.mem_iff.2 h)
    counted := by
      have := hw.counted
      rw [ha.length_eq] at this
      exact this
    threads := by
      have := hw.threads
      rw [ha.length_eq] at this
      exact this
    grid := fun h => by
      obtain ⟨h1, N, h2, h3⟩ := hw.grid h
      exact ⟨h1, N, h2, fun a p hap => h3 a p (ha.mem_iff.2 hap)⟩ }

theorem coalescence_eq (hst : s.stations.Perm stations) (hph : s.onset.phases.Perm phases) (win : ℚ × ℚ) (o : Waveforms.Out ℚ)
    (st : Str → List Data.Trace) (tt : Str → Str → ℕ → ℚ) (node i : ℕ) :
    Spec.waveCoalescence (Spec.listing s stations phases).onset s.rate s.ext ((Spec.listing s stations phases).data win o) st tt node i =
      Spec.waveCoalescence s.onset s.rate s.ext (s.data win o) st tt node i := by
  have ha := available_perm hst hph win o st
  unfold Spec.waveCoalescence
  rw [← ha.length_eq]
  congr 1
  exact (ha.symm.map _).prod_eq

/-- What is computed from the same data. -/
theorem compute_eq {tt : Str → Str → ℕ → ℚ} (hs : Spec.GoodScan s tt) (hst : s.stations.Perm stations)
    (hph : s.onset.phases.Perm phases) {ts : ℚ} (hts : 0 < ts) {win : ℚ × ℚ} {o : Waveforms.Out ℚ} {st : Str → List Data.Trace}
    (hw : Spec.GoodWindow s ts win o st) (hspan : win.1 + (Spec.padsOf s ts).1 + (Spec.padsOf s ts).2 ≤ win.2) {N : ℕ}
    (hcount : coaSamples 0 s.rate (Spec.padsOf s ts) win.1 win.2 = N) :
    (Spec.listing s stations phases).compute ts win o = s.compute ts win o := by
  have ha := available_perm hst hph win o st
  obtain ⟨a1, a2⟩ := WaveLocate.window_good hs hts hw hspan hcount
  obtain ⟨b1, b2⟩ := WaveLocate.window_good (scan_good hs hst hph) hts (window_good' hw hst hph) hspan hcount
  by_cases h : Spec.available s.onset s.ext (s.data win o) st = []
  · rw [a1 h, b1 (by rw [h] at ha; exact List.nil_perm.1 ha)]
  · obtain ⟨out, c1, c2, c3⟩ := a2 h
    obtain ⟨out', d1, d2, d3⟩ := b2 (fun hc => h (by
      have ha' := ha
      rw [show Spec.available (Spec.listing s stations phases).onset s.ext ((Spec.listing s stations phases).data win o) st = [] from hc]
        at ha'
      exact List.perm_nil.1 ha'))
    rw [c1, d1]
    congr 1
    apply List.ext_getElem?
    intro m
    by_cases hm : m < N
    · obtain ⟨r, e1, e2⟩ := c3 m hm
      obtain ⟨r', f1, f2⟩ := d3 m hm
      have hf : (fun node => Spec.waveCoalescence (Spec.listing s stations phases).onset (Spec.listing s stations phases).rate
          (Spec.listing s stations phases).ext ((Spec.listing s stations phases).data win o) st tt node
          (Spec.firstOf (Spec.listing s stations phases) ts + m)) =
          fun node => Spec.waveCoalescence s.onset s.rate s.ext (s.data win o) st tt node (Spec.firstOf s ts + m) := by
        funext node
        exact coalescence_eq hst hph win o st tt node _
      rw [hf] at f2
      rw [e1, f1, reportsPeak_unique e2 f2]
    · rw [List.getElem?_eq_none (by omega), List.getElem?_eq_none (by omega)]

theorem lookup_perm {l l' : List (Str × ℕ)} (h : l.Perm l') (hn : (l.map Prod.fst).Nodup) (k : Str) : l'.lookup k = l.lookup k := by
  have hn' : (l'.map Prod.fst).Nodup := (h.map Prod.fst).nodup_iff.1 hn
  have uniq : ∀ {m : List (Str × ℕ)}, (m.map Prod.fst).Nodup → ∀ {v w}, (k, v) ∈ m → (k, w) ∈ m → v = w := by
    intro m hm v w h1 h2
    exact congrArg Prod.snd (List.inj_on_of_nodup_map hm h1 h2 rfl)
  by_cases hk : ∃ v, (k, v) ∈ l
  · obtain ⟨v, hv⟩ := hk
    rw [WaveFiles.lookup_only l k v hv fun w hw => uniq hn hw hv,
      WaveFiles.lookup_only l' k v (h.mem_iff.1 hv) fun w hw => uniq hn' hw (h.mem_iff.1 hv)]
  · have hnone : ∀ m : List (Str × ℕ), (∀ v, (k, v) ∉ m) → m.lookup k = none := by
      intro m hm
      rw [List.lookup_eq_none_iff]
      rintro ⟨k', v⟩ he
      by_contra hc
      have hc : k = k' := by simpa using hc
      exact hm v (hc ▸ he)
    push Not at hk
    rw [hnone l hk, hnone l' fun v hv => hk v (h.mem_iff.2 hv)]

theorem sameLength_perm {α : Type} {l l' : List (List α)} (h : l.Perm l') : CalcOnsets.sameLength l' = CalcOnsets.sameLength l := by
  rw [Bool.eq_iff_iff, ReadOrder.sameLength_iff, ReadOrder.sameLength_iff]
  simp only [h.mem_iff]

theorem components_eq (c : CalcOnsets.Cfg) (phases : List Str) (a b : ℕ) (l : List (Str × List ℚ)) :
    components { c with phases := phases } a b l = components c a b l := by
  induction l with
  | nil => rfl
  | cons r l ih =>
    unfold components
    rw [ih]
    rfl

theorem stationPhase_eq (c : CalcOnsets.Cfg) (phases : List Str) (x : Ext) (d : CalcOnsets.Data) (stations : List Str) (p : Str)
    (w : List Data.Trace) (a : Str) :
    stationPhase { c with phases := phases } x { d with stations := stations } p w a = stationPhase c x d p w a := by
  have h : ∀ l, onset { c with phases := phases } p l = onset c p l := by
    intro l
    unfold onset
    rw [components_eq]
  unfold stationPhase
  simp only [h]
  rfl

theorem res_eq (win : ℚ × ℚ) (o : Waveforms.Out ℚ) (a p : Str) :
    res (Spec.listing s stations phases).onset s.ext ((Spec.listing s stations phases).data win o) a p =
      res s.onset s.ext (s.data win o) a p := by
  unfold res
  have h : preStream (Spec.listing s stations phases).onset s.ext ((Spec.listing s stations phases).data win o) p =
    preStream s.onset s.ext (s.data win o) p := rfl
  rw [h]
  cases preStream s.onset s.ext (s.data win o) p with
  | error e => rfl
  | ok l =>
    simp only
    rw [← stationPhase_eq s.onset phases s.ext (s.data win o) stations p l a]
    rfl

theorem avNum_eq (win : ℚ × ℚ) (o : Waveforms.Out ℚ) :
    avNum (Spec.listing s stations phases).onset s.ext ((Spec.listing s stations phases).data win o) =
      avNum s.onset s.ext (s.data win o) := by
  funext a p
  unfold avNum
  rw [res_eq]

theorem lab_eq (win : ℚ × ℚ) (o : Waveforms.Out ℚ) :
    lab (Spec.listing s stations phases).onset s.ext ((Spec.listing s stations phases).data win o) =
      lab s.onset s.ext (s.data win o) := by
  funext a p
  unfold lab
  rw [res_eq]

theorem onsets_ok (hn : Spec.PlainNames s.onset.phases s.stations) (hst : s.stations.Perm stations)
    (hph : s.onset.phases.Perm phases) (win : ℚ × ℚ) (o : Waveforms.Out ℚ) {r : CalcOnsets.Out}
    (h : calculateOnsets s.onset s.ext (s.data win o) = .ok r) :
    ∃ r', calculateOnsets (Spec.listing s stations phases).onset s.ext ((Spec.listing s stations phases).data win o) = .ok r' ∧
      r.availability.Perm r'.availability ∧ (r.availability.map Prod.fst).Nodup := by
  obtain ⟨hf, ho, h0, h1⟩ := (calculateOnsets_iff _ _ _ _).1 h
  have hp := pairs_perm hst hph
  set z := Spec.listing s stations phases with hz
  have ea : r.availability = (Compute.allPairs s.onset.phases s.stations).map fun sp =>
      (Compute.key sp.1 sp.2, avNum s.onset s.ext (s.data win o) sp.1 sp.2) := by
    rw [ho]; exact final_availability _ _ _ hn
  have ea' : (final z.onset s.ext (z.data win o) z.onset.phases ⟨[], [], []⟩).availability =
      (Compute.allPairs phases stations).map fun sp =>
        (Compute.key sp.1 sp.2, avNum s.onset s.ext (s.data win o) sp.1 sp.2) := by
    rw [← avNum_eq (s := s) (stations := stations) (phases := phases)]
    exact final_availability z.onset s.ext (z.data win o) (names hn hst hph)
  have eo : r.onsets = ((Compute.allPairs s.onset.phases s.stations).filter fun sp =>
      avNum s.onset s.ext (s.data win o) sp.1 sp.2 ≠ 0).map fun sp => lab s.onset s.ext (s.data win o) sp.1 sp.2 := by
    rw [ho]; exact final_onsets _ _ _ _
  have eo' : (final z.onset s.ext (z.data win o) z.onset.phases ⟨[], [], []⟩).onsets =
      ((Compute.allPairs phases stations).filter fun sp =>
        avNum s.onset s.ext (s.data win o) sp.1 sp.2 ≠ 0).map fun sp => lab s.onset s.ext (s.data win o) sp.1 sp.2 := by
    rw [← avNum_eq (s := s) (stations := stations) (phases := phases), ← lab_eq (s := s) (stations := stations) (phases := phases)]
    exact final_onsets z.onset s.ext (z.data win o) _
  have hav : r.availability.Perm (final z.onset s.ext (z.data win o) z.onset.phases ⟨[], [], []⟩).availability := by
    rw [ea, ea']; exact hp.map _
  have hon : r.onsets.Perm (final z.onset s.ext (z.data win o) z.onset.phases ⟨[], [], []⟩).onsets := by
    rw [eo, eo']; exact (hp.filter _).map _
  refine ⟨_, (calculateOnsets_iff z.onset s.ext (z.data win o) _).2 ⟨?_, rfl, ?_, ?_⟩, hav, ?_⟩
  · intro p hpm
    obtain ⟨l, a, b⟩ := hf p (hph.mem_iff.2 hpm)
    refine ⟨l, a, fun q hq => ?_⟩
    obtain ⟨r1, h2⟩ := b q (hst.mem_iff.2 hq)
    exact ⟨r1, (stationPhase_eq s.onset phases s.ext (s.data win o) stations p l q).trans h2⟩
  · rw [← (hav.map Prod.snd).sum_eq]; exact h0
  · rw [sameLength_perm (hon.map Prod.snd)]; exact h1
  · rw [ea, List.map_map]
    exact Compute.nodup_keys hn.phases hn.stations hn.phase hn.station

theorem availability_eq (hn : Spec.PlainNames s.onset.phases s.stations) (hst : s.stations.Perm stations)
    (hph : s.onset.phases.Perm phases) (win : ℚ × ℚ) (o : Waveforms.Out ℚ) :
    (Spec.listing s stations phases).availability win o = s.availability win o := by
  funext col
  have e : (Spec.listing s stations phases).availability win o col =
      (match calculateOnsets (Spec.listing s stations phases).onset s.ext ((Spec.listing s stations phases).data win o) with
        | .error _ => 0
        | .ok r => (r.availability.lookup col.toList).getD 0) := rfl
  rw [e]
  unfold Scan.availability
  cases h : calculateOnsets s.onset s.ext (s.data win o) with
  | ok r =>
    obtain ⟨r', h1, h2, h3⟩ := onsets_ok hn hst hph win o h
    rw [h1]
    simp only
    rw [lookup_perm h2 h3]
  | error e =>
    cases h' : calculateOnsets (Spec.listing s stations phases).onset s.ext ((Spec.listing s stations phases).data win o) with
    | error e' => rfl
    | ok r' =>
      obtain ⟨r, h1, -⟩ := onsets_ok (s := Spec.listing s stations phases) (stations := s.stations) (phases := s.onset.phases)
        (names hn hst hph) hst.symm hph.symm win o h'
      have h1 : calculateOnsets s.onset s.ext (s.data win o) = .ok r := h1
      rw [h] at h1
      cases h1

/-- What is computed for a good window. -/
theorem window_eq {tt : Str → Str → ℕ → ℚ} (hs : Spec.GoodScan s tt) (hst : s.stations.Perm stations)
    (hph : s.onset.phases.Perm phases) {ts : ℚ} (hts : 0 < ts) {win : ℚ × ℚ} {o o' : Waveforms.Out ℚ} {st : Str → List Data.Trace}
    (hw : Spec.GoodWindow s ts win o st) (hspan : win.1 + (Spec.padsOf s ts).1 + (Spec.padsOf s ts).2 ≤ win.2) {N : ℕ}
    (hcount : coaSamples 0 s.rate (Spec.padsOf s ts) win.1 win.2 = N) (hp : o.waveforms.Perm o'.waveforms) :
    (Spec.listing s stations phases).compute ts win o' = s.compute ts win o ∧
    (Spec.listing s stations phases).availability win o' = s.availability win o := by
  have hrq : (0 : ℚ) < s.rate := by exact_mod_cast hs.rate_pos
  have hsr : s.onset.sr ≠ 0 := by rw [hs.rate]; exact hrq.ne'
  have hw' := window_good' hw hst hph
  have hsane : ∀ p ∈ (Spec.listing s stations phases).onset.phases, ∀ l,
      preStream (Spec.listing s stations phases).onset (Spec.listing s stations phases).ext
        ((Spec.listing s stations phases).data win o) p = .ok l → ∀ t ∈ l, Sane t := by
    intro p hpm l hl
    rw [hw'.processed p hpm] at hl
    rw [← Except.ok.inj hl]
    exact hw'.sane p hpm
  have h1 := SameSamples.compute_same (s := Spec.listing s stations phases) s.files s.order hsr ts win hsane hp
  have h2 := SameSamples.availability_same (s := Spec.listing s stations phases) s.files s.order hsr win hsane hp
  exact ⟨h1.trans (compute_eq hs hst hph hts hw hspan hcount), h2.trans (availability_eq hs.names hst hph win o)⟩

theorem outcome_listing {tt : Str → Str → ℕ → ℚ} (hs : Spec.GoodScan s tt) (ho : SetOrder s.order) (hid : KeepsId s.toSample)
    (hown : Spec.OwnFiles s) (hst : s.stations.Perm stations) (hph : s.onset.phases.Perm phases) {ts : ℚ} (hts : 0 < ts)
    {win : ℚ × ℚ} (hwin : ∀ o, s.read win = .ok o → ∃ st, Spec.GoodWindow s ts win o st)
    (hspan : win.1 + (Spec.padsOf s ts).1 + (Spec.padsOf s ts).2 ≤ win.2) {N : ℕ}
    (hcount : coaSamples 0 s.rate (Spec.padsOf s ts) win.1 win.2 = N) :
    (Spec.listing s stations phases).outcome ts win = s.outcome ts win ∨
      WaveUnused.Skip ((Spec.listing s stations phases).outcome ts win) ∧ WaveUnused.Skip (s.outcome ts win) := by
  rw [SameSamples.read_eq] at hwin
  unfold Scan.outcome
  rw [SameSamples.read_eq, SameSamples.read_eq]
  rcases read_both (phases := phases) ho hid hown hst hs.names.stations win (0, 0) with ⟨o, o', h, h', hp⟩ | ⟨e, e', h, h'⟩
  · left
    obtain ⟨st, hw⟩ := hwin o h
    obtain ⟨h1, h2⟩ := window_eq hs hst hph hts hw hspan hcount hp
    rw [h, h']
    simp only
    rw [h1, h2]
    rfl
  · right
    rw [h, h']
    rcases SameSamples.read_error h with rfl | rfl <;> rcases SameSamples.read_error h' with rfl | rfl <;> exact ⟨trivial, trivial⟩

theorem locate_listing {tt : Str → Str → ℕ → ℚ} (hs : Spec.GoodScan s tt) (ho : SetOrder s.order) (hid : KeepsId s.toSample)
    (hown : Spec.OwnFiles s) (hst : s.stations.Perm stations) (hph : s.onset.phases.Perm phases) {mw : ℚ} (hmw : 0 < mw)
    {extra : ℚ × ℚ} {x : Trig} (hwin : ∀ o, s.readEvent (Spec.eventWindow s mw x) extra = .ok o →
      ∃ st, Spec.GoodWindow s (4 * mw) (Spec.eventWindow s mw x) o st) {N : ℕ}
    (hcount : coaSamples 0 s.rate (Spec.padsOf s (4 * mw)) (Spec.eventWindow s mw x).1 (Spec.eventWindow s mw x).2 = N) :
    (Spec.listing s stations phases).locateOutcome mw extra x = s.locateOutcome mw extra x ∨
      WaveUnused.SkipEvent ((Spec.listing s stations phases).locateOutcome mw extra x) ∧
        WaveUnused.SkipEvent (s.locateOutcome mw extra x) := by
  set win := Spec.eventWindow s mw x with hw
  have ew : locateWindow x.time mw (scanPads s.windows s.ttmax s.rate (4 * mw)) = win := rfl
  have ew' : locateWindow x.time mw (scanPads (Spec.listing s stations phases).windows (Spec.listing s stations phases).ttmax
    (Spec.listing s stations phases).rate (4 * mw)) = win := rfl
  have hspan : win.1 + (Spec.padsOf s (4 * mw)).1 + (Spec.padsOf s (4 * mw)).2 ≤ win.2 := by
    show x.time - 2 * mw - (Spec.padsOf s (4 * mw)).1 + (Spec.padsOf s (4 * mw)).1 + (Spec.padsOf s (4 * mw)).2 ≤
      x.time + 2 * mw + (Spec.padsOf s (4 * mw)).2
    linarith
  unfold Scan.locateOutcome
  rw [ew, ew']
  rcases read_both (phases := phases) ho hid hown hst hs.names.stations win extra with ⟨o, o', h, h', hp⟩ | ⟨e, e', h, h'⟩
  · left
    obtain ⟨st, hw⟩ := hwin o h
    obtain ⟨h1, -⟩ := window_eq hs hst hph (by linarith : 0 < 4 * mw) hw hspan hcount hp
    rw [h, h']
    simp only
    rw [h1]
    rfl
  · right
    rw [h, h']
    rcases SameSamples.read_error h with rfl | rfl <;> rcases SameSamples.read_error h' with rfl | rfl <;> exact ⟨trivial, trivial⟩

end WaveOrder

open WaveOrder

/-! ## The property -/

/-- `detect` gives the same coalescence and, in every column, the same availability, in whatever order stations and phases are
listed.  Asked of scan and data as in C173. -/
theorem C182_detect (s : Scan) (tt : Str → Str → ℕ → ℚ) (hs : Spec.GoodScan s tt) (ho : SetOrder s.order) (hid : KeepsId s.toSample)
    (hown : Spec.OwnFiles s) (stations phases : List Str) (hst : s.stations.Perm stations) (hph : s.onset.phases.Perm phases)
    (ts start stop ucf : ℚ) (cols : List String) (M : ℕ) (hM : ts * s.rate = M) (hM0 : 0 < M) (j : ℤ)
    (hstart : start = j / (s.rate : ℚ)) (htie : ∀ z : ℤ, (Spec.padsOf s ts).1 * s.rate ≠ z + 1 / 2)
    (hwin : ∀ i : ℕ, start + ts * i < stop → ∀ o, s.read (Spec.windowOf s ts start i) = .ok o →
      ∃ st, Spec.GoodWindow s ts (Spec.windowOf s ts start i) o st) :
    (Spec.listing s stations phases).detect ts start stop cols ucf = s.detect ts start stop cols ucf := by
  have hr := hs.rate_pos
  have hrq : (0 : ℚ) < s.rate := by exact_mod_cast hr
  have hMq : (0 : ℚ) < M := by exact_mod_cast hM0
  have hts : 0 < ts := by
    by_contra hc
    push Not at hc
    have : ts * (s.rate : ℚ) ≤ 0 := mul_nonpos_of_nonpos_of_nonneg hc hrq.le
    linarith
  have e : (Spec.listing s stations phases).detect ts start stop cols ucf =
      Detect.detect (s.call ts start stop cols ucf false .never).cfg start stop ((Spec.listing s stations phases).outcome ts) := rfl
  rw [e]
  unfold Scan.detect Detect.detect Detect.nSteps
  split
  · rfl
  · simp only [Option.map_some]
    congr 1
    refine WaveUnused.loop_skip _ start _ _ _ 0 fun i _ hi => ?_
    set c := (s.call ts start stop cols ucf false .never).cfg with hc
    have hwi : Detect.window c start i = Spec.windowOf s ts start i := rfl
    rw [hwi]
    have hspan : (Spec.windowOf s ts start i).1 + (Spec.padsOf s ts).1 + (Spec.padsOf s ts).2 ≤ (Spec.windowOf s ts start i).2 := by
      show start + ts * i - (Spec.padsOf s ts).1 + (Spec.padsOf s ts).1 + (Spec.padsOf s ts).2 ≤
        start + ts * (i + 1) - 1 / (s.rate : ℚ) + (Spec.padsOf s ts).2
      have : 1 / (s.rate : ℚ) ≤ ts := by
        rw [div_le_iff₀ hrq, hM]
        exact_mod_cast hM0
      linarith
    have hcount := (C22_detect_sample_count_partial s.windows s.ttmax s.rate hr 0 ts j M hM i start
      (by rw [hstart]; ring) (Spec.padsOf s ts) rfl htie (Spec.windowOf s ts start i) rfl).1
    refine outcome_listing hs ho hid hown hst hph hts (hwin i ?_) hspan hcount
    have ht : c.timestep = ts := rfl
    have hle : Detect.adjustedEnd c stop ≤ stop := by
      unfold Detect.adjustedEnd
      split
      · have : (0 : ℚ) ≤ c.delta := by unfold Detect.Cfg.delta; positivity
        linarith
      · exact le_rfl
    have h1 : (i : ℤ) < ⌈(Detect.adjustedEnd c stop - start) / c.timestep⌉ := by omega
    have h2 := Int.lt_ceil.1 h1
    rw [ht, lt_div_iff₀ hts] at h2
    push_cast at h2
    linarith

/-- So does `locate`, for the events and their origin times. -/
theorem C182_locate (s : Scan) (tt : Str → Str → ℕ → ℚ) (hs : Spec.GoodScan s tt) (ho : SetOrder s.order) (hid : KeepsId s.toSample)
    (hown : Spec.OwnFiles s) (stations phases : List Str) (hst : s.stations.Perm stations) (hph : s.onset.phases.Perm phases)
    (mw : ℚ) (k : ℕ) (hk : mw * s.rate = k) (hk0 : 0 < k) (htie : ∀ z : ℤ, (Spec.padsOf s (4 * mw)).1 * s.rate ≠ z + 1 / 2)
    (amp : Option (ℚ × ℚ)) (preCut postCut : Option ℚ) (later : Trig → Later) (events : List Trig)
    (hev : ∀ x ∈ events, (∃ j : ℤ, x.time = j / (s.rate : ℚ)) ∧
      ∀ o, s.readEvent (Spec.eventWindow s mw x) (eventPads mw (Spec.padsOf s (4 * mw)) amp preCut postCut) = .ok o →
        ∃ st, Spec.GoodWindow s (4 * mw) (Spec.eventWindow s mw x) o st) :
    (Spec.listing s stations phases).locate mw amp preCut postCut later events = s.locate mw amp preCut postCut later events := by
  have hr := hs.rate_pos
  have hrq : (0 : ℚ) < s.rate := by exact_mod_cast hr
  have hkq : (0 : ℚ) < k := by exact_mod_cast hk0
  have hmw : 0 < mw := by
    by_contra hc
    push Not at hc
    have : mw * (s.rate : ℚ) ≤ 0 := mul_nonpos_of_nonpos_of_nonneg hc hrq.le
    linarith
  unfold Scan.locate
  refine WaveUnused.locate_skip mw _ _ later events fun x hx => ?_
  obtain ⟨⟨j, hj⟩, hwin⟩ := hev x hx
  obtain ⟨hlen, -⟩ := WaveLocate.mwTimes_get (trigger := x.time) hk
  have hcount := (C22_locate_times_partial s.windows s.ttmax s.rate hr 0 mw j (2 * k) (by push_cast; rw [← hk]; ring) x.time
    (by rw [hj]; ring) (Spec.padsOf s (4 * mw)) rfl htie (Spec.eventWindow s mw x) rfl).1
  exact locate_listing hs ho hid hown hst hph hmw hwin hcount

/-! ## A case that meets the hypotheses: two stations with data -/

namespace WaveOrder

open OnsetValue OnsetGain DetectShift WaveLocate

def recA (l : List ℚ) : Rec ℚ := ⟨".A".toList, 1, ⟨0, [1, 1, 1, 1, 1, 9, 1, 1] ++ l⟩⟩

def recB (l : List ℚ) : Rec ℚ := ⟨".B".toList, 1, ⟨0, [1, 1, 1, 1, 4, 1, 1, 1] ++ l⟩⟩

/-- Two stations, the files of each in their own place. -/
noncomputable def pairScan : Scan :=
  { pulseScan with
    stations := ["A".toList, "B".toList]
    files := fun q => if q = ⟨0, some "A".toList⟩ then [some [recA [50, 60]]] else
      if q = ⟨0, some "B".toList⟩ then [some [recB [7]]] else []
    ext := { exExt 1 with ofStation := fun a i => decide (stationCode i = a) }
    lut := ⟨["A".toList, "B".toList], ["P".toList], fun _ => some fun _ => some fun n => (n : ℚ), 2⟩
    sched := fun _ => serial 2 (Migrate.nodeProg (V := ℝ) ⟨[], [], 1, 2, 8 - 1 - 2, 2, 2, 2⟩)
    sched' := fun _ => serial (8 - 1 - 2) (Migrate.sampleProg 2) }

theorem pair_own : Spec.OwnFiles pairScan := by
  intro d a recs h r hr
  have h : some recs ∈ (if (⟨d, some a⟩ : Data.Query) = ⟨0, some "A".toList⟩ then [some [recA [50, 60]]] else
      if (⟨d, some a⟩ : Data.Query) = ⟨0, some "B".toList⟩ then [some [recB [7]]] else []) := h
  split at h
  · next he =>
    have : recs = [recA [50, 60]] := by simpa using h
    rw [this, List.mem_singleton] at hr
    have ha : a = "A".toList := by
      have := congrArg Data.Query.station he
      exact Option.some.inj this
    rw [hr, ha]
    decide
  · split at h
    · next he =>
      have : recs = [recB [7]] := by simpa using h
      rw [this, List.mem_singleton] at hr
      have ha : a = "B".toList := by
        have := congrArg Data.Query.station he
        exact Option.some.inj this
      rw [hr, ha]
      decide
    · cases h

theorem pair_good : Spec.GoodScan pairScan (fun _ _ n => n) where
  rate := by simp [pairScan, pulseScan, exScan, plainCfg, exCfg]
  rate_pos := one_pos
  counts := fun ha => by simp [pairScan, pulseScan, exScan, plainCfg, exCfg] at ha
  nonneg := ⟨le_refl _, le_refl _⟩
  wins := fun p _ => ⟨le_refl _, le_refl _, le_refl _, le_refl _⟩
  transform := fun v => by simp [pairScan, pulseScan, exScan, plainCfg, exCfg, StaLta.Transform.apply]
  names := ⟨by simp [pairScan, pulseScan, exScan, plainCfg, exCfg], by simp [pairScan],
    by simp [pairScan, pulseScan, exScan, plainCfg, exCfg], by simp [pairScan]⟩
  table := ⟨rfl, by decide, by decide +kernel, by norm_num [pairScan, pulseScan, exScan], fun p hp => hp, fun s hs => hs, fun _ _ => rfl⟩

/-- The data of the window from 0 to 7 s. -/
def pairTraces : List Data.Trace := [⟨".A".toList, 0, 1, [1, 1, 1, 1, 1, 9, 1, 1]⟩, ⟨".B".toList, 0, 1, [1, 1, 1, 1, 4, 1, 1, 1]⟩]

theorem pair_read (extra : ℚ × ℚ) (he : extra = (0, 2) ∨ extra = (0, 0)) :
    ∃ o, pairScan.readEvent (0, 7) extra = .ok o ∧ o.waveforms = [recA [], recB []] := by
  have hl : ∀ q : ℚ, q = 2 ∨ q = 0 → loadFromPath false ["A".toList, "B".toList] (0 - 0) (7 + q) =
      [⟨0, some "A".toList⟩, ⟨0, some "B".toList⟩] := by
    intro q hq
    unfold loadFromPath
    have h0 : TriggerFiles.dayNum (0 - 0 : ℚ) = 0 := by decide +kernel
    rw [h0]
    rcases hq with rfl | rfl
    · rw [TriggerFiles.readDays, dif_pos (by decide +kernel), TriggerFiles.readDays, dif_neg (by decide +kernel)]
      rfl
    · rw [TriggerFiles.readDays, dif_pos (by decide +kernel), TriggerFiles.readDays, dif_neg (by decide +kernel)]
      rfl
  unfold Scan.readEvent
  rcases he with rfl | rfl
  · refine ⟨⟨[recA [50, 60], recB [7]], [recA [], recB []]⟩, ?_, rfl⟩
    show Waveforms.readWaveformData List.dedup id ⟨0, 7, 0, 2, false, ["A".toList, "B".toList]⟩
      ((loadFromPath false ["A".toList, "B".toList] (0 - 0) (7 + 2)).flatMap pairScan.files) = _
    rw [hl 2 (Or.inl rfl)]
    show Waveforms.readWaveformData List.dedup id ⟨0, 7, 0, 2, false, ["A".toList, "B".toList]⟩
      [some [recA [50, 60]], some [recB [7]]] = _
    decide +kernel
  · refine ⟨⟨[recA [], recB []], [recA [], recB []]⟩, ?_, rfl⟩
    show Waveforms.readWaveformData List.dedup id ⟨0, 7, 0, 0, false, ["A".toList, "B".toList]⟩
      ((loadFromPath false ["A".toList, "B".toList] (0 - 0) (7 + 0)).flatMap pairScan.files) = _
    rw [hl 0 (Or.inr rfl)]
    show Waveforms.readWaveformData List.dedup id ⟨0, 7, 0, 0, false, ["A".toList, "B".toList]⟩
      [some [recA [50, 60]], some [recB [7]]] = _
    decide +kernel

theorem pair_pre {d : CalcOnsets.Data} (hd : d = ⟨pairTraces, ["A".toList, "B".toList], false, none, 0, 7⟩) :
    preStream plainCfg pairScan.ext d "P".toList = .ok pairTraces := by
  unfold preStream
  have h : Filters.preProcess pairScan.ext.dsp (pairScan.ext.trim d.start d.stop) plainCfg.sr d.resample
      d.upfactor (plainCfg.low "P".toList) (plainCfg.high "P".toList)
      ((d.waveforms.filter fun t => plainCfg.chan "P".toList t.id).map toR) =
      .ok (pairTraces.map fun t => (toR t, .bandpass (1 / 5) (4 / 5))) := by
    rw [hd]
    show Filters.preProcess ⟨fun _ b => b, fun _ b => b⟩ (fun b => some b) 1 false none (1 / 10) (2 / 5)
      (pairTraces.map toR) = _
    decide +kernel
  rw [h]
  rfl

theorem pair_sane : ∀ t ∈ pairTraces, Sane t := by
  intro t ht
  simp only [pairTraces, List.mem_cons, List.not_mem_nil, or_false] at ht
  rcases ht with rfl | rfl <;> exact ⟨by simp, by norm_num, by norm_num⟩

theorem one_passes (t : Data.Trace) (h1 : t.rate = 1) (h2 : t.data.length = 8) (h3 : (1 : ℚ) ∈ t.data)
    (h4 : ∃ v ∈ t.data, v ≠ 1) : Spec.Passes (Spec.criteria plainCfg "P".toList) 0 7 [t] t := by
  have hf : ([t].filter fun u => u.id = t.id) = [t] := by simp
  show Spec.ChannelOK _ 0 7 ([t].filter fun u => u.id = t.id)
  rw [hf]
  refine ⟨?_, ⟨_, List.Perm.refl _, List.isChain_singleton _⟩, fun _ => ⟨_, List.Perm.refl _, List.isChain_singleton _⟩, ?_, ?_, ?_⟩
  · intro u hu
    rw [List.mem_singleton.1 hu]
    obtain ⟨v, hv, hne⟩ := h4
    exact ⟨1, h3, v, hv, hne.symm⟩
  · intro _ u hu
    rw [List.mem_singleton.1 hu, h1]
    simp [Spec.criteria, plainCfg, exCfg]
  · intro _
    exact ⟨_, rfl, by simp [h1, h2]; norm_num⟩
  · intro h
    cases h

def pairData : CalcOnsets.Data := ⟨pairTraces, ["A".toList, "B".toList], false, none, 0, 7⟩

theorem pair_data {o : Waveforms.Out ℚ} (ho : o.waveforms = [recA [], recB []]) : pairScan.data (0, 7) o = pairData := by
  unfold Scan.data
  rw [ho]
  rfl

theorem ofA : (pairTraces.filter fun t => pairScan.ext.ofStation "A".toList t.id) =
    [⟨".A".toList, 0, 1, [1, 1, 1, 1, 1, 9, 1, 1]⟩] := by
  show (pairTraces.filter fun t => decide (stationCode t.id = "A".toList)) = _
  decide +kernel

theorem ofB : (pairTraces.filter fun t => pairScan.ext.ofStation "B".toList t.id) =
    [⟨".B".toList, 0, 1, [1, 1, 1, 1, 4, 1, 1, 1]⟩] := by
  show (pairTraces.filter fun t => decide (stationCode t.id = "B".toList)) = _
  decide +kernel

theorem passA : Spec.Passes (Spec.criteria plainCfg "P".toList) 0 7 [⟨".A".toList, 0, 1, [1, 1, 1, 1, 1, 9, 1, 1]⟩]
    ⟨".A".toList, 0, 1, [1, 1, 1, 1, 1, 9, 1, 1]⟩ :=
  one_passes _ rfl rfl (by simp) ⟨9, by simp, by norm_num⟩

theorem passB : Spec.Passes (Spec.criteria plainCfg "P".toList) 0 7 [⟨".B".toList, 0, 1, [1, 1, 1, 1, 4, 1, 1, 1]⟩]
    ⟨".B".toList, 0, 1, [1, 1, 1, 1, 4, 1, 1, 1]⟩ :=
  one_passes _ rfl rfl (by simp) ⟨4, by simp, by norm_num⟩

theorem pair_records (a : Str) (t : Data.Trace) (hof : (pairTraces.filter fun t => pairScan.ext.ofStation a t.id) = [t])
    (hp : Spec.Passes (Spec.criteria plainCfg "P".toList) 0 7 [t] t) :
    Spec.records plainCfg pairScan.ext pairData (fun _ => pairTraces) a "P".toList = [t.data] := by
  classical
  unfold Spec.records Spec.passing Spec.ofStation
  simp only
  rw [if_neg (by simp [plainCfg]), hof]
  have hq : ([t].filter fun u => decide (Spec.Passes (Spec.criteria plainCfg "P".toList) pairData.start
      pairData.stop [t] u)) = [t] := by
    rw [List.filter_eq_self]
    intro u hu
    rw [List.mem_singleton.1 hu]
    exact decide_eq_true hp
  rw [hq]
  rfl

theorem pair_available : Spec.available plainCfg pairScan.ext pairData (fun _ => pairTraces) =
    [("A".toList, "P".toList), ("B".toList, "P".toList)] := by
  classical
  have hph : plainCfg.phases = ["P".toList] := rfl
  have hst : pairData.stations = ["A".toList, "B".toList] := rfl
  have hav : ∀ (a : Str) (t : Data.Trace), (pairTraces.filter fun t => pairScan.ext.ofStation a t.id) = [t] →
      Spec.Passes (Spec.criteria plainCfg "P".toList) 0 7 [t] t →
      Spec.Available (Spec.criteria plainCfg "P".toList) pairData.start pairData.stop
      (Spec.ofStation pairScan.ext a pairTraces) := by
    intro a t hof hp
    unfold Spec.Available Spec.ofStation
    rw [if_neg (by simp [Spec.criteria, plainCfg, exCfg]), hof]
    exact ⟨_, List.mem_singleton.2 rfl, hp⟩
  have hA := hav _ _ ofA passA
  have hB := hav _ _ ofB passB
  unfold Spec.available
  rw [hph, hst, List.flatMap_cons, List.flatMap_nil, List.append_nil,
    List.filter_cons_of_pos (by simpa using hA), List.filter_cons_of_pos (by simpa using hB)]
  rfl

theorem silentB : Spec.NeverSilent plainCfg (Spec.samples (plainCfg.lta "P".toList) 1) [1, 1, 1, 1, 4, 1, 1, 1] := by
  have hs : Spec.samples (plainCfg.lta "P".toList) 1 = 1 := pulse_samples
  rw [hs]
  intro i hi _
  simp only [List.length_cons, List.length_nil] at hi
  have : i = 0 ∨ i = 1 ∨ i = 2 ∨ i = 3 ∨ i = 4 ∨ i = 5 ∨ i = 6 ∨ i = 7 := by omega
  rcases this with rfl | rfl | rfl | rfl | rfl | rfl | rfl | rfl <;>
    simp [Spec.winSum, plainCfg, exCfg, StaLta.Transform.apply]

theorem pair_goodWindow {ts : ℚ} (hpads : Spec.padsOf pairScan ts = (1, 2)) {o : Waveforms.Out ℚ}
    (ho : o.waveforms = [recA [], recB []]) : Spec.GoodWindow pairScan ts (0, 7) o (fun _ => pairTraces) := by
  have hl : onsetLength 0 pairScan.rate 0 7 = 8 := by
    show onsetLength 0 1 0 7 = 8
    decide +kernel
  have hf : Spec.firstOf pairScan ts = 1 := by
    unfold Spec.firstOf
    rw [hpads]
    show (pyRound ((1 : ℚ) * ((1 : ℕ) : ℚ))).toNat = 1
    decide +kernel
  have hla : Spec.lastOf pairScan ts = 2 := by
    unfold Spec.lastOf
    rw [hpads]
    show (pyRound ((2 : ℚ) * ((1 : ℕ) : ℚ))).toNat = 2
    decide +kernel
  have hav : Spec.available pairScan.onset pairScan.ext pairData (fun _ => pairTraces) =
      [("A".toList, "P".toList), ("B".toList, "P".toList)] := pair_available
  have hrec : ∀ a p l, (a, p) ∈ [("A".toList, "P".toList), ("B".toList, "P".toList)] →
      l ∈ Spec.records pairScan.onset pairScan.ext pairData (fun _ => pairTraces) a p →
      p = "P".toList ∧ (l = [1, 1, 1, 1, 1, 9, 1, 1] ∨ l = [1, 1, 1, 1, 4, 1, 1, 1]) := by
    intro a p l h hm
    change l ∈ Spec.records plainCfg pairScan.ext pairData (fun _ => pairTraces) a p at hm
    simp only [List.mem_cons, List.not_mem_nil, or_false] at h
    rcases h with h | h <;> obtain ⟨rfl, rfl⟩ := Prod.mk.inj h
    · rw [pair_records _ _ ofA passA] at hm
      exact ⟨rfl, Or.inl (List.mem_singleton.1 hm)⟩
    · rw [pair_records _ _ ofB passB] at hm
      exact ⟨rfl, Or.inr (List.mem_singleton.1 hm)⟩
  refine ⟨?_, ?_, ?_, ?_, ?_, ?_, fun h => by simp [pairScan, pulseScan, exScan, plainCfg] at h⟩
  all_goals try simp only [pair_data ho, hl, hav, hf, hla]
  · intro p hp
    have hph : pairScan.onset.phases = ["P".toList] := rfl
    rw [hph] at hp
    rw [List.mem_singleton.mp hp]
    exact pair_pre rfl
  · exact fun _ _ => pair_sane
  · intro a p h l hm
    obtain ⟨rfl, rfl | rfl⟩ := hrec a p l h hm
    · exact pulse_silent
    · exact silentB
  · intro a p h l hm
    obtain ⟨rfl, rfl | rfl⟩ := hrec a p l h hm <;> rfl
  · decide
  · exact ⟨serial_isInterleaving _ _, serial_isInterleaving _ _⟩

theorem pair_pads : Spec.padsOf pairScan (4 * 1) = (1, 2) := pulse_pads

theorem pair_order : SetOrder pairScan.order := fun l => ⟨List.nodup_dedup l, fun _ => List.mem_dedup⟩

theorem pair_tie : ∀ z : ℤ, (1 : ℚ) * ((1 : ℕ) : ℚ) ≠ z + 1 / 2 := by
  intro z hz
  have : ((2 * z + 1 : ℤ) : ℚ) = ((2 : ℤ) : ℚ) := by push_cast at hz ⊢; linarith
  have := Int.cast_injective this
  omega

/-- Two stations with data: the second is listed first, and the same events come out. -/
example (x : Trig) (hx : x.time = 3) (later : Trig → Later) :
    (Spec.listing pairScan ["B".toList, "A".toList] ["P".toList]).locate 1 none none (some 5) later [x] =
      pairScan.locate 1 none none (some 5) later [x] := by
  have hwin : Spec.eventWindow pairScan 1 x = (0, 7) := pulse_window x hx
  have hex : eventPads 1 (Spec.padsOf pairScan (4 * 1)) none none (some 5) = (0, 2) := pulse_extra
  refine C182_locate pairScan (fun _ _ n => n) pair_good pair_order (fun _ => rfl) pair_own _ _ (List.Perm.swap _ _ _)
    (List.Perm.refl _) 1 1 (by norm_num [pairScan, pulseScan, exScan]) one_pos (by rw [pair_pads]; exact pair_tie) none none (some 5)
    later [x] fun y hy => ?_
  obtain rfl := List.mem_singleton.1 hy
  refine ⟨⟨3, by rw [hx]; norm_num [pairScan, pulseScan, exScan]⟩, fun o ho => ⟨fun _ => pairTraces, ?_⟩⟩
  rw [hwin, hex] at ho
  obtain ⟨o', h, hw⟩ := pair_read (0, 2) (Or.inl rfl)
  rw [h] at ho
  rw [hwin]
  exact pair_goodWindow pair_pads (Except.ok.inj ho ▸ hw)

/-- And one timestep of five seconds. -/
example (cols : List String) : (Spec.listing pairScan ["B".toList, "A".toList] ["P".toList]).detect 5 1 6 cols 1 =
    pairScan.detect 5 1 6 cols 1 := by
  have hp : Spec.padsOf pairScan 5 = (1, 2) := by
    show scanPads ⟨(0, 0), []⟩ 1 ((1 : ℕ) : ℚ) 5 = (1, 2)
    decide +kernel
  refine C182_detect pairScan (fun _ _ n => n) pair_good pair_order (fun _ => rfl) pair_own _ _ (List.Perm.swap _ _ _)
    (List.Perm.refl _) 5 1 6 1 cols 5 (by norm_num [pairScan, pulseScan, exScan]) (by norm_num) 1
    (by norm_num [pairScan, pulseScan, exScan]) (by rw [hp]; exact pair_tie) fun j hj o ho => ⟨fun _ => pairTraces, ?_⟩
  have h0 : j = 0 := by
    by_contra hne
    have : (1 : ℚ) ≤ j := by exact_mod_cast Nat.one_le_iff_ne_zero.2 hne
    linarith
  have hwin : Spec.windowOf pairScan 5 1 j = (0, 7) := by
    unfold Spec.windowOf
    rw [hp, h0]
    show detectWindow 1 5 1 (1, 2) 0 = (0, 7)
    decide +kernel
  rw [hwin, SameSamples.read_eq] at ho
  obtain ⟨o', h, hw⟩ := pair_read (0, 0) (Or.inr rfl)
  rw [h] at ho
  rw [hwin]
  exact pair_goodWindow hp (Except.ok.inj ho ▸ hw)

end WaveOrder

end QM
