import Verif.Props.WaveEvent

/-!
# The gains and polarities of the instruments do not change what is detected and located: C179
-/

namespace QM

open QM.CalcOnsets
open QM.Data (Str)
open QM.Waveforms (Rec)
open QM.Migrate QM.Pads
open QM.WaveDetect
open QM.Trigger QM.TriggerFiles QM.Pipeline
open QM.Locate (Trig Later)

/-! ## Specification -/

/-- A record whose channel has the gain `g`. -/
def Spec.gainRec (g : Str → ℚ) (r : Rec ℚ) : Rec ℚ := { r with tr := ⟨r.tr.start, r.tr.vals.map fun v => g r.id * v⟩ }

/-- The same scan over an archive recorded with other gains: in every file every sample is multiplied by the gain of its
channel. -/
def Spec.gainScan (g : Str → ℚ) (s : Scan) : Scan :=
  { s with files := fun q => (s.files q).map (Option.map (List.map (Spec.gainRec g))) }

namespace WaveGain

/-! ## Reading -/

/-- A trace multiplied. -/
def mt (k : ℚ) (t : ScanMseed.Trace ℚ) : ScanMseed.Trace ℚ := ⟨t.start, t.vals.map fun v => k * v⟩

theorem slice_gain (k δ a b : ℚ) (t : ScanMseed.Trace ℚ) : (mt k t).slice δ a b = mt k (t.slice δ a b) := by
  have hl : (mt k t).ltrim δ a = mt k (t.ltrim δ a) := by
    unfold ScanMseed.Trace.ltrim mt
    simp only
    split
    · rfl
    · simp only [ScanMseed.Trace.mk.injEq, true_and, List.map_drop]
  have hr : ∀ u : ScanMseed.Trace ℚ, (mt k u).rtrim δ b = mt k (u.rtrim δ b) := by
    intro u
    unfold ScanMseed.Trace.rtrim mt
    simp only [List.length_map]
    split
    · rfl
    · split
      · rfl
      · simp only [List.map_take]
  unfold ScanMseed.Trace.slice
  rw [hl, hr]

theorem full_gain (g : Str → ℚ) (r : Rec ℚ) : (Spec.gainRec g r).full = r.full := by
  simp [Rec.full, Spec.gainRec]

theorem readFile_gain (g : Str → ℚ) (a b : ℚ) (l : List (Rec ℚ)) :
    Waveforms.readFile a b (l.map (Spec.gainRec g)) = (Waveforms.readFile a b l).map (Spec.gainRec g) := by
  unfold Waveforms.readFile
  rw [List.map_map]
  have : Rec.trim a b ∘ Spec.gainRec g = Spec.gainRec g ∘ Rec.trim (V := ℚ) a b := by
    funext r
    simp only [Function.comp, Rec.trim, Spec.gainRec, Rec.mk.injEq, true_and]
    exact slice_gain (g r.id) _ a b r.tr
  rw [this, ← List.map_map, List.filter_map]
  congr 1
  apply List.filter_congr
  intro r _
  exact full_gain g r

theorem join_gain {k : ℚ} (hk : k ≠ 0) (δ : ℚ) (a b : ScanMseed.Trace ℚ) :
    Waveforms.join δ (mt k a) (mt k b) = (Waveforms.join δ a b).map (mt k) := by
  unfold Waveforms.join mt
  simp only [List.length_map]
  by_cases h1 : a.start + (⌊(b.start - a.start) / δ⌋ : ℤ) * δ ≠ b.start
  · rw [if_pos h1, if_pos h1]; rfl
  rw [if_neg h1, if_neg h1]
  by_cases h2 : ⌊(b.start - a.start) / δ⌋ < 0
  · rw [if_pos h2, if_pos h2]; rfl
  rw [if_neg h2, if_neg h2]
  by_cases h3 : (a.vals.length : ℤ) < ⌊(b.start - a.start) / δ⌋
  · rw [if_pos h3, if_pos h3]; rfl
  rw [if_neg h3, if_neg h3]
  have e : (((a.vals.map fun v => k * v).drop ⌊(b.start - a.start) / δ⌋.toNat).zip (b.vals.map fun v => k * v)).all
      (fun p : ℚ × ℚ => decide (p.1 = p.2)) =
      ((a.vals.drop ⌊(b.start - a.start) / δ⌋.toNat).zip b.vals).all (fun p : ℚ × ℚ => decide (p.1 = p.2)) := by
    rw [← List.map_drop, List.zip_map, List.all_map]
    congr 1
    funext p
    simp only [Function.comp, Prod.map]
    exact decide_eq_decide.2 (mul_right_inj' hk)
  rw [e]
  split
  · simp only [Option.map_some, List.map_append, List.map_drop]
  · rfl

theorem cleanup_gain {k : ℚ} (hk : k ≠ 0) (δ : ℚ) (l : List (ScanMseed.Trace ℚ)) : ∀ a : ScanMseed.Trace ℚ,
    Waveforms.cleanup δ (mt k a) (l.map (mt k)) = (Waveforms.cleanup δ a l).map (mt k) := by
  induction l with
  | nil => intro a; rfl
  | cons b l ih =>
    intro a
    rw [List.map_cons]
    unfold Waveforms.cleanup
    rw [join_gain hk]
    cases h : Waveforms.join δ a b with
    | none => simp only [Option.map_none]; rw [ih]; rfl
    | some t => exact ih t

theorem stop_gain (g : Str → ℚ) (r : Rec ℚ) : (Spec.gainRec g r).stop = r.stop := by
  simp only [Rec.stop, ScanMseed.Trace.stop, Spec.gainRec, Rec.delta, List.length_map]

theorem mergeChannel_gain {g : Str → ℚ} (hg : ∀ i, g i ≠ 0) (i : Str) (l : List (Rec ℚ)) (hl : ∀ r ∈ l, r.id = i) :
    Waveforms.mergeChannel (l.map (Spec.gainRec g)) = (Waveforms.mergeChannel l).map (List.map (Spec.gainRec g)) := by
  unfold Waveforms.mergeChannel
  have hs : ((l.map (Spec.gainRec g)).filter Rec.full).insertionSort Waveforms.before =
      ((l.filter Rec.full).insertionSort Waveforms.before).map (Spec.gainRec g) := by
    have hf : (l.map (Spec.gainRec g)).filter Rec.full = (l.filter Rec.full).map (Spec.gainRec g) := by
      rw [List.filter_map]
      congr 1
      apply List.filter_congr
      intro r _
      exact full_gain g r
    rw [hf, List.map_insertionSort (r := Waveforms.before) (s := Waveforms.before)]
    intro a _ b _
    simp only [Waveforms.before, stop_gain]
    simp only [Spec.gainRec]
  rw [hs]
  cases h : (l.filter Rec.full).insertionSort Waveforms.before with
  | nil => rfl
  | cons r rs =>
    have hmem : ∀ q ∈ r :: rs, q.id = i := by
      intro q hq
      rw [← h] at hq
      exact hl q (List.mem_filter.1 ((List.mem_insertionSort _).1 hq)).1
    simp only [List.map_cons, List.all_map]
    have hall : (rs.all ((fun s : Rec ℚ => decide (s.rate = (Spec.gainRec g r).rate)) ∘ Spec.gainRec g)) =
        rs.all fun s : Rec ℚ => decide (s.rate = r.rate) := rfl
    rw [hall]
    by_cases hr : (rs.all fun s : Rec ℚ => decide (s.rate = r.rate)) = true
    · rw [if_pos hr, if_pos hr, Option.map_some]
      have hri : r.id = i := hmem r (by simp)
      have e : (rs.map (Spec.gainRec g)).map Rec.tr = (rs.map Rec.tr).map (mt (g i)) := by
        rw [List.map_map, List.map_map]
        refine List.map_congr_left fun q hq => ?_
        simp only [Function.comp, Spec.gainRec, mt, hmem q (by simp [hq])]
      have e2 : (Spec.gainRec g r).tr = mt (g i) r.tr := by simp only [Spec.gainRec, mt, hri]
      have e3 : (Spec.gainRec g r).delta = r.delta := rfl
      rw [e, e2, e3, cleanup_gain (hg i), List.map_map, List.map_map]
      congr 1
      refine List.map_congr_left fun t _ => ?_
      simp only [Function.comp, Spec.gainRec, mt, hri]
    · rw [if_neg hr, if_neg hr]; rfl

theorem mergeStream_gain {g : Str → ℚ} (hg : ∀ i, g i ≠ 0) (order : List Str → List Str) (l : List (Rec ℚ)) :
    Waveforms.mergeStream order (l.map (Spec.gainRec g)) = (Waveforms.mergeStream order l).map (Spec.gainRec g) := by
  unfold Waveforms.mergeStream
  have e : (l.map (Spec.gainRec g)).map Rec.id = l.map Rec.id := by rw [List.map_map]; rfl
  rw [e, List.map_flatMap]
  congr 1
  funext i
  have e2 : (l.map (Spec.gainRec g)).filter (fun r : Rec ℚ => decide (r.id = i)) =
      (l.filter fun r : Rec ℚ => decide (r.id = i)).map (Spec.gainRec g) := by rw [List.filter_map]; rfl
  rw [e2, mergeChannel_gain hg i _ fun r hr => by simpa using (List.mem_filter.1 hr).2]
  cases Waveforms.mergeChannel (l.filter fun r : Rec ℚ => decide (r.id = i)) <;> rfl

/-- Files recorded with other gains. -/
def gf (g : Str → ℚ) (f : List (Option (List (Rec ℚ)))) : List (Option (List (Rec ℚ))) :=
  f.map (Option.map (List.map (Spec.gainRec g)))

/-- What is read, recorded with other gains. -/
def go (g : Str → ℚ) (o : Waveforms.Out ℚ) : Waveforms.Out ℚ := ⟨o.raw.map (Spec.gainRec g), o.waveforms.map (Spec.gainRec g)⟩

theorem read_gain {g : Str → ℚ} (hg : ∀ i, g i ≠ 0) (order : List Str → List Str) {shift : Rec ℚ → Rec ℚ}
    (hs : ∀ r, shift (Spec.gainRec g r) = Spec.gainRec g (shift r)) (q : Waveforms.Req) (f : List (Option (List (Rec ℚ)))) :
    Waveforms.readWaveformData order shift q (gf g f) = (Waveforms.readWaveformData order shift q f).map (go g) := by
  unfold Waveforms.readWaveformData
  by_cases h : f = []
  · subst h; rfl
  rw [if_neg h, if_neg (by unfold gf; simpa using h)]
  have hread : Waveforms.readAllFiles q (gf g f) = (Waveforms.readAllFiles q f).map (Spec.gainRec g) := by
    unfold Waveforms.readAllFiles gf
    rw [List.flatMap_map, List.map_flatMap]
    congr 1
    funext x
    cases x with
    | none => rfl
    | some l => exact readFile_gain g _ _ l
  simp only
  rw [hread, mergeStream_gain hg]
  generalize Waveforms.mergeStream order (Waveforms.readAllFiles q f) = m
  have e1 : (m.map (Spec.gainRec g)).map shift = (m.map shift).map (Spec.gainRec g) := by
    rw [List.map_map, List.map_map]
    congr 1
    funext r
    exact hs r
  have e2 : ∀ l : List (Rec ℚ), Waveforms.selectStations q (l.map (Spec.gainRec g)) =
      (Waveforms.selectStations q l).map (Spec.gainRec g) := by
    intro l
    unfold Waveforms.selectStations
    cases q.readAll with
    | false => rfl
    | true =>
      simp only [if_true]
      rw [List.map_flatMap]
      congr 1
      funext i
      rw [List.filter_map]
      rfl
  have e3 : ∀ l : List (Rec ℚ), Waveforms.trimWindow q (l.map (Spec.gainRec g)) =
      (Waveforms.trimWindow q l).map (Spec.gainRec g) := by
    intro l
    unfold Waveforms.trimWindow
    split
    · exact readFile_gain g _ _ l
    · rfl
  rw [e1, e2, e3]
  by_cases hn : Waveforms.trimWindow q (Waveforms.selectStations q (m.map shift)) = []
  · rw [if_pos (by rw [hn]; rfl), if_pos hn]; rfl
  · rw [if_neg (by simpa using hn), if_neg hn]; rfl

theorem files_gain (g : Str → ℚ) (s : Scan) (l : List Data.Query) :
    l.flatMap (Spec.gainScan g s).files = gf g (l.flatMap s.files) := by
  unfold gf
  rw [List.map_flatMap]
  rfl

theorem data_gain (g : Str → ℚ) (s : Scan) (w : ℚ × ℚ) (o : Waveforms.Out ℚ) :
    (Spec.gainScan g s).data w (go g o) =
      { s.data w o with waveforms := Spec.amplified g (s.data w o).waveforms } := by
  unfold Scan.data go Spec.amplified
  simp only [List.map_map]
  rfl

end WaveGain

/-- What is asked of the scan: gaps are not filled, onset windows that are not negative, and signal processing that is linear
and keeps the names of the channels. -/
structure Spec.LinearScan (g : Str → ℚ) (s : Scan) : Prop where
  rate : 0 ≤ s.onset.sr
  transform : Transform.Ok s.onset.transform
  windows : ∀ p ∈ s.onset.phases, 0 ≤ s.onset.sta p ∧ s.onset.sta p ≤ s.onset.lta p
  noGaps : s.onset.allowGaps = false
  full : s.onset.fullTimespan = true
  keeps : KeepsIds s.ext
  linear : Spec.Linear s.ext
  toSample : ∀ r, s.toSample (Spec.gainRec g r) = Spec.gainRec g (s.toSample r)

namespace WaveGain

theorem compute_gain {g : Str → ℚ} (hg : ∀ i, g i ≠ 0) {s : Scan} (h : Spec.LinearScan g s) (ts : ℚ) (w : ℚ × ℚ)
    (o : Waveforms.Out ℚ) :
    (Spec.gainScan g s).compute ts w (go g o) = s.compute ts w o ∧
    (Spec.gainScan g s).availability w (go g o) = s.availability w o := by
  constructor
  · unfold Scan.compute
    rw [data_gain]
    exact C170_gain_partial s.onset h.rate h.transform h.windows h.noGaps h.full s.ext h.keeps h.linear (s.data w o) g hg
      s.lut s.grid _ (s.sched w) (s.sched' w)
  · funext col
    unfold Scan.availability
    rw [data_gain]
    have e := C162_units_partial s.onset h.rate h.transform h.windows h.noGaps h.full s.ext h.keeps h.linear (s.data w o) g hg
    have e' : calculateOnsets (Spec.gainScan g s).onset (Spec.gainScan g s).ext
        { s.data w o with waveforms := Spec.amplified g (s.data w o).waveforms } = _ := e
    rw [e']
    cases calculateOnsets s.onset s.ext (s.data w o) <;> rfl

theorem outcome_gain {g : Str → ℚ} (hg : ∀ i, g i ≠ 0) {s : Scan} (h : Spec.LinearScan g s) (ts : ℚ) (w : ℚ × ℚ) :
    (Spec.gainScan g s).outcome ts w = s.outcome ts w := by
  have hr : (Spec.gainScan g s).read w = (s.read w).map (go g) := by
    unfold Scan.read
    rw [← read_gain hg _ h.toSample, ← files_gain]
    rfl
  unfold Scan.outcome
  rw [hr]
  cases s.read w with
  | error e => cases e <;> rfl
  | ok o =>
    obtain ⟨h1, h2⟩ := compute_gain hg h ts w o
    simp only [Except.map]
    rw [h1, h2]
    rfl

theorem locateOutcome_gain {g : Str → ℚ} (hg : ∀ i, g i ≠ 0) {s : Scan} (h : Spec.LinearScan g s) (mw : ℚ) (extra : ℚ × ℚ)
    (x : Trig) : (Spec.gainScan g s).locateOutcome mw extra x = s.locateOutcome mw extra x := by
  have hr : ∀ w, (Spec.gainScan g s).readEvent w extra = (s.readEvent w extra).map (go g) := by
    intro w
    unfold Scan.readEvent
    rw [← read_gain hg _ h.toSample, ← files_gain]
    rfl
  unfold Scan.locateOutcome
  rw [hr]
  have e : locateWindow x.time mw (scanPads (Spec.gainScan g s).windows (Spec.gainScan g s).ttmax (Spec.gainScan g s).rate
    (4 * mw)) = locateWindow x.time mw (scanPads s.windows s.ttmax s.rate (4 * mw)) := rfl
  rw [e]
  cases s.readEvent (locateWindow x.time mw (scanPads s.windows s.ttmax s.rate (4 * mw))) extra with
  | error e => cases e <;> rfl
  | ok o =>
    simp only [Except.map]
    rw [(compute_gain hg h (4 * mw) _ o).1]
    rfl

end WaveGain

open WaveGain

/-! ## The property -/

/-- **C179**, `detect`: recorded with other gains or reversed polarity, the archive gives the same blocks of coalescence and
the same rows of availability, and is refused or ends with an exception likewise.  Missing: with gaps filled it is false
(`C179_violated`). -/
theorem C179_detect_partial (g : Str → ℚ) (hg : ∀ i, g i ≠ 0) (s : Scan) (h : Spec.LinearScan g s) (ts start stop : ℚ)
    (cols : List String) (ucf : ℚ) :
    (Spec.gainScan g s).detect ts start stop cols ucf = s.detect ts start stop cols ucf := by
  have e : (Spec.gainScan g s).outcome ts = s.outcome ts := funext fun w => outcome_gain hg h ts w
  unfold Scan.detect
  rw [e]
  rfl

/-- **C179**, `locate`: the same events are written with the same origin times. -/
theorem C179_locate_partial (g : Str → ℚ) (hg : ∀ i, g i ≠ 0) (s : Scan) (h : Spec.LinearScan g s) (mw : ℚ)
    (amp : Option (ℚ × ℚ)) (preCut postCut : Option ℚ) (later : Trig → Later) (events : List Trig) :
    (Spec.gainScan g s).locate mw amp preCut postCut later events = s.locate mw amp preCut postCut later events := by
  unfold Scan.locate
  have e : ∀ x, (Spec.gainScan g s).locateOutcome mw x = s.locateOutcome mw x :=
    fun x => funext fun t => locateOutcome_gain hg h mw x t
  rw [e]
  rfl

/-- **C179**, a whole run: `detect`, `trigger` and `locate` one after another end in the same way and write the same events. -/
theorem C179_run_partial (g : Str → ℚ) (hg : ∀ i, g i ≠ 0) (s : Scan) (h : Spec.LinearScan g s) (jul : ℤ → ℕ)
    (order : Availability.Table → List ℤ) (dir : DetectRuns.Dir) (ts start stop : ℚ) (cols : List String) (ucf : ℚ) (cw : Bool)
    (killed : DetectRuns.Stop) (cfg : Trigger.Cfg) (m : Method) (smooth : List Row → List Row) (region : Option Region)
    (pad : ℚ) (events : Files) (uid : ℚ → ℕ) (extra : ℚ × ℚ) (later : Trig → Later) (b e : ℚ) :
    pipeline jul order dir ((Spec.gainScan g s).call ts start stop cols ucf cw killed) cfg m smooth region pad events uid
        ((Spec.gainScan g s).locateOutcome cfg.mw extra) later b e =
      pipeline jul order dir (s.call ts start stop cols ucf cw killed) cfg m smooth region pad events uid
        (s.locateOutcome cfg.mw extra) later b e := by
  have e1 : (Spec.gainScan g s).call ts start stop cols ucf cw killed = s.call ts start stop cols ucf cw killed := by
    unfold Scan.call
    rw [funext fun w => outcome_gain hg h ts w]
    rfl
  rw [e1, funext fun x => locateOutcome_gain hg h cfg.mw extra x]

/-! ## With gaps filled -/

namespace WaveGain

open DetectShift OnsetGain OnsetValue

/-- A scan with `allow_gaps` over an archive that holds the two pieces of `OnsetGain.exData`. -/
noncomputable def gapScan (fill : ℚ) (fl : ℝ → ℚ) : Scan :=
  { exScan with
    files := fun q => if q.day = 0 then
      [some [⟨"Z".toList, 1, ⟨0, [1, 2]⟩⟩, ⟨"Z".toList, 1, ⟨3, [3, 5]⟩⟩]] else []
    onset := OnsetGain.exCfg
    ext := exExt fill
    sched := fun _ => serial WaveScan.exLut.nNodes (nodeProg (V := ℝ) ⟨[], [], 1, 2, 5 - 1 - 2, 1, 1, WaveScan.exLut.nNodes⟩)
    sched' := fun _ => serial (5 - 1 - 2) (sampleProg WaveScan.exLut.nNodes)
    fl := fl }

/-- What is read. -/
def gapOut : Waveforms.Out ℚ := ⟨[⟨"Z".toList, 1, ⟨0, [1, 2]⟩⟩, ⟨"Z".toList, 1, ⟨3, [3, 5]⟩⟩],
  [⟨"Z".toList, 1, ⟨0, [1, 2]⟩⟩, ⟨"Z".toList, 1, ⟨3, [3, 5]⟩⟩]⟩

theorem gap_read (fill : ℚ) (fl : ℝ → ℚ) (g : ℚ) (hg : g ≠ 0) :
    (Spec.gainScan (fun _ => g) (gapScan fill fl)).read (0, 4) = .ok (go (fun _ => g) gapOut) := by
  have hl : Data.loadFromPath false ["ST01".toList] 0 4 = [⟨0, some "ST01".toList⟩] := by
    unfold Data.loadFromPath
    have h0 : dayNum (0 : ℚ) = 0 := by decide +kernel
    rw [h0, readDays, dif_pos (by decide +kernel), readDays, dif_neg (by decide +kernel)]
    rfl
  have h : (gapScan fill fl).read (0, 4) = .ok gapOut := by
    unfold Scan.read
    show Waveforms.readWaveformData List.dedup id ⟨0, 4, 0, 0, false, ["ST01".toList]⟩
      ((Data.loadFromPath false ["ST01".toList] 0 4).flatMap (gapScan fill fl).files) = _
    rw [hl]
    show Waveforms.readWaveformData List.dedup id ⟨0, 4, 0, 0, false, ["ST01".toList]⟩
      [some [⟨"Z".toList, 1, ⟨0, [1, 2]⟩⟩, ⟨"Z".toList, 1, ⟨3, [3, 5]⟩⟩]] = _
    decide +kernel
  have hr : (Spec.gainScan (fun _ => g) (gapScan fill fl)).read (0, 4) = ((gapScan fill fl).read (0, 4)).map (go fun _ => g) := by
    unfold Scan.read
    rw [← read_gain (fun _ => hg) (gapScan fill fl).order (shift := (gapScan fill fl).toSample) (fun _ => rfl), ← files_gain]
    rfl
  rw [hr, h]
  rfl

theorem gap_data (fill : ℚ) (fl : ℝ → ℚ) (g : ℚ) :
    (Spec.gainScan (fun _ => g) (gapScan fill fl)).data (0, 4) (go (fun _ => g) gapOut) =
      { OnsetGain.exData with waveforms := Spec.amplified (fun _ => g) OnsetGain.exData.waveforms } := by
  rw [data_gain]
  have : (gapScan fill fl).data (0, 4) gapOut = OnsetGain.exData := by
    unfold Scan.data
    simp [gapScan, exScan, OnsetGain.exData, toTrace, gapOut, exA, exB]
  rw [this]

end WaveGain

/-- **C179 is violated with gaps filled**: `detect` from 1 s to 3 s over an archive with one missing sample stores a value that
is proportional to the square of the gain, for every fill value, every gain of at least 1 and every computation `fl` of
doubles. -/
theorem C179_violated (fill : ℚ) (hf : 0 < fill) (hf1 : fill ≤ 1) (g : ℚ) (hg : 1 ≤ g) (fl : ℝ → ℚ) (cols : List String) :
    ∃ r b v, (Spec.gainScan (fun _ => g) (gapScan fill fl)).detect 2 1 3 cols 1 = some r ∧ r.blocks = [b] ∧ b.start = 1 ∧
      b.vals[0]? = some v ∧ v.coa = fl (9 * (g : ℝ) ^ 2 / (fill : ℝ) ^ 2) := by
  obtain ⟨out, q, h1, h2, h3, h4⟩ := C170_violated fill hf hf1 g hg _ _
    ⟨serial_isInterleaving 2 (nodeProg (V := ℝ) ⟨[], [], 1, 2, 5 - 1 - 2, 1, 1, 2⟩), serial_isInterleaving (5 - 1 - 2) (sampleProg 2)⟩
  have hc : (Spec.gainScan (fun _ => g) (gapScan fill fl)).compute 2 (0, 4) (go (fun _ => g) gapOut) = .ok out := by
    unfold Scan.compute
    rw [gap_data]
    have hp : scanPads (Spec.gainScan (fun _ => g) (gapScan fill fl)).windows (Spec.gainScan (fun _ => g) (gapScan fill fl)).ttmax
        ((Spec.gainScan (fun _ => g) (gapScan fill fl)).rate : ℚ) 2 = (1, 2) := by
      show scanPads ⟨(0, 0), []⟩ 1 ((1 : ℕ) : ℚ) 2 = (1, 2)
      decide +kernel
    rw [hp]
    exact h1
  obtain ⟨data, av, ho, hd⟩ : ∃ data av, (Spec.gainScan (fun _ => g) (gapScan fill fl)).outcome 2 (0, 4) = .ok data av ∧
      data = out.map (Spec.gainScan (fun _ => g) (gapScan fill fl)).sample := by
    unfold Scan.outcome
    rw [gap_read fill fl g (by linarith)]
    simp only [hc]
    exact ⟨_, _, rfl, rfl⟩
  have hw : Detect.window ((Spec.gainScan (fun _ => g) (gapScan fill fl)).call 2 1 3 cols 1 false .never).cfg 1 0 = (0, 4) := by
    show ((1 : ℚ) + 2 * ((0 : ℕ) : ℚ) - (scanPads ⟨(0, 0), []⟩ 1 ((1 : ℕ) : ℚ) 2).1,
      (1 : ℚ) + 2 * (((0 : ℕ) : ℚ) + 1) - 1 / ((1 : ℕ) : ℚ) + (scanPads ⟨(0, 0), []⟩ 1 ((1 : ℕ) : ℚ) 2).2) = (0, 4)
    decide +kernel
  have hn : Detect.nSteps ((Spec.gainScan (fun _ => g) (gapScan fill fl)).call 2 1 3 cols 1 false .never).cfg 1 3 = some 1 := by
    show (if (1 : ℚ) > 3 then none else some ⌈((if isMidnight 3 then (3 : ℚ) - 1 / ((1 : ℕ) : ℚ) else (3 : ℚ)) - 1) / 2⌉) = some 1
    decide +kernel
  have hp : ((Spec.gainScan (fun _ => g) (gapScan fill fl)).call 2 1 3 cols 1 false .never).cfg.prePad = 1 := by
    show (scanPads ⟨(0, 0), []⟩ 1 ((1 : ℕ) : ℚ) 2).1 = 1
    decide +kernel
  unfold Scan.detect Detect.detect
  rw [hn]
  refine ⟨_, ⟨1, data⟩, (Spec.gainScan (fun _ => g) (gapScan fill fl)).sample q, rfl, ?_, rfl, ?_, ?_⟩
  · show (Detect.loop _ 1 ((Spec.gainScan (fun _ => g) (gapScan fill fl)).outcome 2) 1 0).blocks = _
    unfold Detect.loop
    simp only [hw, ho]
    rw [hp]
    simp [Detect.loop]
  · rw [hd]
    show (out.map _)[0]? = _
    rw [List.getElem?_map, h3]
    rfl
  · show fl q.maxCoa = _
    rw [h4]

/-! ## Cases that meet the hypotheses -/

namespace WaveGain

open DetectShift OnsetGain OnsetValue WaveLocate WaveEvent

theorem plain_linear (g : Str → ℚ) : Spec.LinearScan g exScan where
  rate := by show (0 : ℚ) ≤ 1; norm_num
  transform := by show Transform.Ok .energy; trivial
  windows := fun p _ => ⟨le_refl _, le_refl _⟩
  noGaps := rfl
  full := rfl
  keeps := exExt_keeps 1
  linear := exExt_linear 1
  toSample := fun _ => rfl

theorem quake_linear (g : Str → ℚ) : Spec.LinearScan g quakeScan :=
  let h := plain_linear g
  ⟨h.rate, h.transform, h.windows, h.noGaps, h.full, h.keeps, h.linear, h.toSample⟩

/-- With every sample of the archive multiplied by -3, the event at 3 s is detected, triggered and located as before. -/
example (uid : ℚ → ℕ) (order : Availability.Table → List ℤ) :
    ∃ r, pipeline (fun d => (d % 2).toNat) order Spec.newDir
        ((Spec.gainScan (fun _ => -3) quakeScan).call 3 1 4 [] 1 false .never) ⟨1, 2, false⟩ (.static 10)
        id none 0 (fun _ => none) uid ((Spec.gainScan (fun _ => -3) quakeScan).locateOutcome 1 (0, 2)) (fun _ => .fine) 1 4 =
          .located r ∧ r.completed = true ∧ (⟨uid 3, 3⟩, 3) ∈ r.written := by
  have h := C179_run_partial (fun _ => -3) (fun _ => by norm_num) quakeScan (quake_linear _) (fun d => (d % 2).toNat) order
    Spec.newDir 3 1 4 [] 1 false .never ⟨1, 2, false⟩ (.static 10) id none 0 (fun _ => none) uid (0, 2) (fun _ => .fine) 1 4
  rw [h]
  exact quake_located uid order

/-- The file that is read is not the same. -/
example : (Spec.gainScan (fun _ => -3) exScan).files ⟨0, some "ST01".toList⟩ =
    [some [⟨"Z".toList, 1, ⟨0, [-3, -6, -9, -15]⟩⟩]] := by
  show [some [Spec.gainRec (fun _ => -3) _]] = _
  norm_num [Spec.gainRec]

/-- `detect` from 1 s to 2 s over it stores the one sample it stored before. -/
example (cols : List String) : (Spec.gainScan (fun _ => -3) exScan).detect 1 1 2 cols 1 = exScan.detect 1 1 2 cols 1 :=
  C179_detect_partial (fun _ => -3) (fun _ => by norm_num) exScan (plain_linear _) 1 1 2 cols 1

/-- `locate` of the pulse. -/
example (x : Trig) (hx : x.time = 3) :
    (x, 3) ∈ ((Spec.gainScan (fun _ => -3) pulseScan).locate 1 none none (some 5) (fun _ => .fine) [x]).written := by
  have h := plain_linear (fun _ => -3)
  rw [C179_locate_partial (fun _ => -3) (fun _ => by norm_num) pulseScan
    ⟨h.rate, h.transform, h.windows, h.noGaps, h.full, h.keeps, h.linear, h.toSample⟩]
  exact pulse_located x hx

/-- With the gap filled: 9 becomes 81 when the gain is 3 instead of 1. -/
example (cols : List String) : ∃ r b v r' b' v', (Spec.gainScan (fun _ => 1) (gapScan 1 fun x => ⌊x⌋)).detect 2 1 3 cols 1 = some r ∧
    r.blocks = [b] ∧ b.vals[0]? = some v ∧ v.coa = 9 ∧
    (Spec.gainScan (fun _ => 3) (gapScan 1 fun x => ⌊x⌋)).detect 2 1 3 cols 1 = some r' ∧
    r'.blocks = [b'] ∧ b'.vals[0]? = some v' ∧ v'.coa = 81 := by
  obtain ⟨r, b, v, h1, h2, -, h3, h4⟩ := C179_violated 1 one_pos (le_refl _) 1 (le_refl _) (fun x => ⌊x⌋) cols
  obtain ⟨r', b', v', h1', h2', -, h3', h4'⟩ := C179_violated 1 one_pos (le_refl _) 3 (by norm_num) (fun x => ⌊x⌋) cols
  refine ⟨r, b, v, r', b', v', h1, h2, h3, ?_, h1', h2', h3', ?_⟩
  · rw [h4]
    have : ⌊9 * ((1 : ℚ) : ℝ) ^ 2 / ((1 : ℚ) : ℝ) ^ 2⌋ = 9 := by norm_num
    simp only [this]; rfl
  · rw [h4']
    have : ⌊9 * ((3 : ℚ) : ℝ) ^ 2 / ((1 : ℚ) : ℝ) ^ 2⌋ = 81 := by norm_num
    simp only [this]; rfl

end WaveGain

end QM
