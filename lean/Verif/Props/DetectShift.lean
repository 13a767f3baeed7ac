import Verif.Model.WaveDetect
import Verif.Props.WaveScan

/-!
# Detection does not depend on the day: C172
-/

namespace QM

open QM.CalcOnsets
open QM.Data (Str Query loadFromPath)
open QM.Util (RTr Dsp decimate upsampleRate resampleStep resample fMod)
open QM.Waveforms (Rec)
open QM.WaveDetect
open QM.TriggerFiles (dayNum readDays)

/-! ## Specification -/

/-- The same record `D` seconds later. -/
def Spec.laterRec {V : Type} (D : ℚ) (r : Rec V) : Rec V := { r with tr := ⟨r.tr.start + D, r.tr.vals⟩ }

/-- The same trace without its rate `D` seconds later. -/
def Spec.laterBody (D : ℚ) (b : Body) : Body := { b with start := b.start + D }

/-- The archive and threads of `s`, `k` days later: what was recorded on a day is now recorded `k` days later. -/
def Spec.laterScan (k : ℤ) (s : Scan) : Scan :=
  { s with
    files := fun q => (s.files { q with day := q.day - k }).map (Option.map (List.map (Spec.laterRec (k * 86400))))
    sched := fun w => s.sched (w.1 - k * 86400, w.2 - k * 86400)
    sched' := fun w => s.sched' (w.1 - k * 86400, w.2 - k * 86400) }

/-- The signal processing does not look at the date: it commutes with a shift of `D` seconds. -/
structure Spec.Dateless (D : ℚ) (s : Scan) : Prop where
  toSample : ∀ r, s.toSample (Spec.laterRec D r) = Spec.laterRec D (s.toSample r)
  dec : ∀ f b, s.ext.dsp.dec f (Spec.laterBody D b) = Spec.laterBody D (s.ext.dsp.dec f b)
  up : ∀ u b, s.ext.dsp.up u (Spec.laterBody D b) = Spec.laterBody D (s.ext.dsp.up u b)
  trim : ∀ a e b, s.ext.trim (a + D) (e + D) (Spec.laterBody D b) = (s.ext.trim a e b).map (Spec.laterBody D)

/-- The blocks and rows of a run `D` seconds later. -/
def Spec.laterResult (D : ℚ) (r : Detect.Result) : Detect.Result :=
  ⟨r.blocks.map fun b => ⟨b.start + D, b.vals⟩, r.rows.map fun x => (x.1 + D, x.2), r.completed⟩

namespace DetectShift

/-! ## Reading -/

theorem later_inj {V : Type} (D : ℚ) : Function.Injective (Spec.laterRec (V := V) D) := by
  rintro ⟨i, r, ⟨s, v⟩⟩ ⟨i', r', ⟨s', v'⟩⟩ h
  simp only [Spec.laterRec, Rec.mk.injEq, ScanMseed.Trace.mk.injEq, add_left_inj] at h
  obtain ⟨rfl, rfl, rfl, rfl⟩ := h
  rfl

/-- A trace later. -/
def lt {V : Type} (D : ℚ) (t : ScanMseed.Trace V) : ScanMseed.Trace V := ⟨t.start + D, t.vals⟩

theorem slice_later {V : Type} (D δ a b : ℚ) (t : ScanMseed.Trace V) :
    (lt D t).slice δ (a + D) (b + D) = lt D (t.slice δ a b) := by
  have hl : (lt D t).ltrim δ (a + D) = lt D (t.ltrim δ a) := by
    unfold ScanMseed.Trace.ltrim lt
    simp only [add_sub_add_right_eq_sub]
    split
    · rfl
    · simp only [ScanMseed.Trace.mk.injEq, and_true]; ring
  have hr : ∀ u : ScanMseed.Trace V, (lt D u).rtrim δ (b + D) = lt D (u.rtrim δ b) := by
    intro u
    unfold ScanMseed.Trace.rtrim lt
    simp only [add_sub_add_right_eq_sub, add_lt_add_iff_right]
    split
    · rfl
    · split <;> rfl
  unfold ScanMseed.Trace.slice
  rw [hl, hr]

theorem full_later {V : Type} (D : ℚ) (r : Rec V) : (Spec.laterRec D r).full = r.full := rfl

theorem readFile_later {V : Type} (D a b : ℚ) (l : List (Rec V)) :
    Waveforms.readFile (a + D) (b + D) (l.map (Spec.laterRec D)) = (Waveforms.readFile a b l).map (Spec.laterRec D) := by
  unfold Waveforms.readFile
  rw [List.map_map]
  have : Rec.trim (a + D) (b + D) ∘ Spec.laterRec D = Spec.laterRec D ∘ Rec.trim (V := V) a b := by
    funext r
    simp only [Function.comp, Rec.trim, Spec.laterRec, Rec.mk.injEq, true_and]
    exact slice_later D _ a b r.tr
  rw [this, ← List.map_map, List.filter_map]
  rfl

theorem join_later {V : Type} [DecidableEq V] (D δ : ℚ) (a b : ScanMseed.Trace V) :
    Waveforms.join δ (lt D a) (lt D b) = (Waveforms.join δ a b).map (lt D) := by
  unfold Waveforms.join lt
  simp only [add_sub_add_right_eq_sub]
  have e : (a.start + D + (⌊(b.start - a.start) / δ⌋ : ℤ) * δ ≠ b.start + D) =
      (a.start + (⌊(b.start - a.start) / δ⌋ : ℤ) * δ ≠ b.start) := by
    rw [add_right_comm, ne_eq, add_left_inj]
  simp only [e]
  by_cases h1 : a.start + (⌊(b.start - a.start) / δ⌋ : ℤ) * δ ≠ b.start
  · rw [if_pos h1, if_pos h1]; rfl
  rw [if_neg h1, if_neg h1]
  by_cases h2 : ⌊(b.start - a.start) / δ⌋ < 0
  · rw [if_pos h2, if_pos h2]; rfl
  rw [if_neg h2, if_neg h2]
  by_cases h3 : (a.vals.length : ℤ) < ⌊(b.start - a.start) / δ⌋
  · rw [if_pos h3, if_pos h3]; rfl
  rw [if_neg h3, if_neg h3]
  split <;> rfl

theorem cleanup_later {V : Type} [DecidableEq V] (D δ : ℚ) (l : List (ScanMseed.Trace V)) : ∀ a : ScanMseed.Trace V,
    Waveforms.cleanup δ (lt D a) (l.map (lt D)) = (Waveforms.cleanup δ a l).map (lt D) := by
  induction l with
  | nil => intro a; rfl
  | cons b l ih =>
    intro a
    rw [List.map_cons]
    unfold Waveforms.cleanup
    rw [join_later]
    cases h : Waveforms.join δ a b with
    | none => simp only [Option.map_none]; rw [ih]; rfl
    | some t => exact ih t

theorem stop_later {V : Type} (D : ℚ) (r : Rec V) : (Spec.laterRec D r).stop = r.stop + D := by
  simp only [Rec.stop, ScanMseed.Trace.stop, Spec.laterRec, Rec.delta]; ring

theorem mergeChannel_later {V : Type} [DecidableEq V] (D : ℚ) (l : List (Rec V)) :
    Waveforms.mergeChannel (l.map (Spec.laterRec D)) = (Waveforms.mergeChannel l).map (List.map (Spec.laterRec D)) := by
  unfold Waveforms.mergeChannel
  have hs : ((l.map (Spec.laterRec D)).filter Rec.full).insertionSort Waveforms.before =
      ((l.filter Rec.full).insertionSort Waveforms.before).map (Spec.laterRec D) := by
    rw [List.filter_map, List.map_insertionSort (r := Waveforms.before) (s := Waveforms.before)]
    · rfl
    · intro a _ b _
      simp only [Waveforms.before, stop_later, add_le_add_iff_right]
      simp only [Spec.laterRec, add_lt_add_iff_right, add_left_inj]
  rw [hs]
  cases h : (l.filter Rec.full).insertionSort Waveforms.before with
  | nil => rfl
  | cons r rs =>
    simp only [List.map_cons, List.all_map]
    have hall : (rs.all ((fun s : Rec V => decide (s.rate = (Spec.laterRec D r).rate)) ∘ Spec.laterRec D)) =
        rs.all fun s : Rec V => decide (s.rate = r.rate) := rfl
    rw [hall]
    by_cases hr : (rs.all fun s : Rec V => decide (s.rate = r.rate)) = true
    · rw [if_pos hr, if_pos hr, Option.map_some]
      have e : (rs.map (Spec.laterRec D)).map Rec.tr = (rs.map Rec.tr).map (lt D) := by
        rw [List.map_map, List.map_map]; rfl
      have e2 : (Spec.laterRec D r).tr = lt D r.tr := rfl
      have e3 : (Spec.laterRec D r).delta = r.delta := rfl
      rw [e, e2, e3, cleanup_later, List.map_map, List.map_map]
      rfl
    · rw [if_neg hr, if_neg hr]; rfl

theorem mergeStream_later {V : Type} [DecidableEq V] (D : ℚ) (order : List Str → List Str) (l : List (Rec V)) :
    Waveforms.mergeStream order (l.map (Spec.laterRec D)) = (Waveforms.mergeStream order l).map (Spec.laterRec D) := by
  unfold Waveforms.mergeStream
  have e : (l.map (Spec.laterRec D)).map Rec.id = l.map Rec.id := by rw [List.map_map]; rfl
  rw [e, List.map_flatMap]
  congr 1
  funext i
  have e2 : (l.map (Spec.laterRec D)).filter (fun r : Rec V => decide (r.id = i)) =
      (l.filter fun r : Rec V => decide (r.id = i)).map (Spec.laterRec D) := by rw [List.filter_map]; rfl
  rw [e2, mergeChannel_later]
  cases Waveforms.mergeChannel (l.filter fun r : Rec V => decide (r.id = i)) <;> rfl

/-- Files with everything later. -/
def lf (D : ℚ) (f : List (Option (List (Rec ℚ)))) : List (Option (List (Rec ℚ))) :=
  f.map (Option.map (List.map (Spec.laterRec D)))

/-- What is read, later. -/
def lo (D : ℚ) (o : Waveforms.Out ℚ) : Waveforms.Out ℚ := ⟨o.raw.map (Spec.laterRec D), o.waveforms.map (Spec.laterRec D)⟩

theorem read_later (D : ℚ) (order : List Str → List Str) {shift : Rec ℚ → Rec ℚ}
    (hs : ∀ r, shift (Spec.laterRec D r) = Spec.laterRec D (shift r)) (a b u v : ℚ) (all : Bool) (sts : List Str)
    (f : List (Option (List (Rec ℚ)))) :
    Waveforms.readWaveformData order shift ⟨a + D, b + D, u, v, all, sts⟩ (lf D f) =
      (Waveforms.readWaveformData order shift ⟨a, b, u, v, all, sts⟩ f).map (lo D) := by
  unfold Waveforms.readWaveformData
  by_cases h : f = []
  · subst h; rfl
  rw [if_neg h, if_neg (by unfold lf; simpa using h)]
  have hread : Waveforms.readAllFiles ⟨a + D, b + D, u, v, all, sts⟩ (lf D f) =
      (Waveforms.readAllFiles ⟨a, b, u, v, all, sts⟩ f).map (Spec.laterRec D) := by
    unfold Waveforms.readAllFiles lf Waveforms.Req.prePad Waveforms.Req.postPad
    rw [List.flatMap_map, List.map_flatMap]
    congr 1
    funext x
    cases x with
    | none => rfl
    | some l =>
      simp only [Option.map_some, add_sub_right_comm a D, add_right_comm b D]
      exact readFile_later D _ _ l
  simp only
  rw [hread, mergeStream_later]
  generalize Waveforms.mergeStream order (Waveforms.readAllFiles ⟨a, b, u, v, all, sts⟩ f) = m
  have e1 : (m.map (Spec.laterRec D)).map shift = (m.map shift).map (Spec.laterRec D) := by
    rw [List.map_map, List.map_map]
    congr 1
    funext r
    exact hs r
  have e2 : ∀ l : List (Rec ℚ), Waveforms.selectStations ⟨a + D, b + D, u, v, all, sts⟩ (l.map (Spec.laterRec D)) =
      (Waveforms.selectStations ⟨a, b, u, v, all, sts⟩ l).map (Spec.laterRec D) := by
    intro l
    unfold Waveforms.selectStations
    cases all with
    | false => rfl
    | true =>
      simp only [if_true]
      rw [List.map_flatMap]
      congr 1
      funext i
      rw [List.filter_map]
      rfl
  have e3 : ∀ l : List (Rec ℚ), Waveforms.trimWindow ⟨a + D, b + D, u, v, all, sts⟩ (l.map (Spec.laterRec D)) =
      (Waveforms.trimWindow ⟨a, b, u, v, all, sts⟩ l).map (Spec.laterRec D) := by
    intro l
    by_cases hp : Waveforms.Req.prePad ⟨a, b, u, v, all, sts⟩ ≠ 0 ∨ Waveforms.Req.postPad ⟨a, b, u, v, all, sts⟩ ≠ 0
    · have h1 : Waveforms.trimWindow ⟨a + D, b + D, u, v, all, sts⟩ (l.map (Spec.laterRec D)) =
          Waveforms.readFile (a + D) (b + D) (l.map (Spec.laterRec D)) := if_pos hp
      have h2 : Waveforms.trimWindow ⟨a, b, u, v, all, sts⟩ l = Waveforms.readFile a b l := if_pos hp
      rw [h1, h2]
      exact readFile_later D a b l
    · have h1 : Waveforms.trimWindow ⟨a + D, b + D, u, v, all, sts⟩ (l.map (Spec.laterRec D)) = l.map (Spec.laterRec D) :=
        if_neg hp
      have h2 : Waveforms.trimWindow ⟨a, b, u, v, all, sts⟩ l = l := if_neg hp
      rw [h1, h2]
  rw [e1, e2, e3]
  by_cases hn : Waveforms.trimWindow ⟨a, b, u, v, all, sts⟩ (Waveforms.selectStations ⟨a, b, u, v, all, sts⟩ (m.map shift)) = []
  · rw [if_pos (by rw [hn]; rfl), if_pos hn]; rfl
  · rw [if_neg (by simpa using hn), if_neg hn]; rfl

theorem dayNum_later (k : ℤ) (t : ℚ) : dayNum (t + k * 86400) = dayNum t + k := by
  unfold dayNum
  have : (t + k * 86400) / DAY = t / DAY + k := by unfold DAY; ring
  rw [this, Int.floor_add_intCast]

theorem readDays_later (k : ℤ) (e : ℚ) : ∀ (n : ℕ) (d : ℤ), (⌊e / DAY⌋ + 1 - d).toNat ≤ n →
    readDays (d + k) (e + k * 86400) = (readDays d e).map (· + k) := by
  intro n
  induction n with
  | zero =>
    intro d hn
    have h : ¬ DAY * (d : ℚ) ≤ e := by
      intro h
      have := TriggerFiles.readDays_dec h
      omega
    rw [readDays, dif_neg (by unfold DAY at h ⊢; push_cast; linarith), readDays.eq_def d, dif_neg h]
    rfl
  | succ n ih =>
    intro d hn
    by_cases h : DAY * (d : ℚ) ≤ e
    · have hd := TriggerFiles.readDays_dec h
      rw [readDays, dif_pos (by unfold DAY at h ⊢; push_cast; linarith), readDays.eq_def d, dif_pos h, List.map_cons,
        ← ih (d + 1) (by omega), add_right_comm]
    · rw [readDays, dif_neg (by unfold DAY at h ⊢; push_cast; linarith), readDays.eq_def d, dif_neg h]
      rfl

theorem load_later (k : ℤ) (all : Bool) (sts : List Str) (a b : ℚ) :
    loadFromPath all sts (a + k * 86400) (b + k * 86400) =
      (loadFromPath all sts a b).map fun q => { q with day := q.day + k } := by
  unfold loadFromPath
  rw [dayNum_later, readDays_later k b _ _ le_rfl, List.flatMap_map, List.map_flatMap]
  congr 1
  funext d
  cases all with
  | true => rfl
  | false => simp only [Bool.false_eq_true, if_false, List.map_map]; rfl

theorem scanRead_later (k : ℤ) (s : Scan) (h : Spec.Dateless (k * 86400) s) (w : ℚ × ℚ) :
    (Spec.laterScan k s).read (w.1 + k * 86400, w.2 + k * 86400) = (s.read w).map (lo (k * 86400)) := by
  unfold Scan.read
  rw [← read_later _ _ h.toSample]
  congr 1
  simp only [Spec.laterScan]
  rw [load_later, List.flatMap_map]
  unfold lf
  rw [List.map_flatMap]
  congr 1
  funext q
  simp only [add_sub_cancel_right]

/-! ## Onset functions -/

/-- One trace later, as `resample` sees it. -/
def lr (D : ℚ) (t : RTr Body) : RTr Body := ⟨t.rate, Spec.laterBody D t.rest⟩

/-- One trace later. -/
def lT (D : ℚ) (t : Data.Trace) : Data.Trace := { t with start := t.start + D }

theorem lr_inj (D : ℚ) : Function.Injective (lr D) := by
  rintro ⟨r, ⟨i, s, l⟩⟩ ⟨r', ⟨i', s', l'⟩⟩ h
  simp only [lr, Spec.laterBody, RTr.mk.injEq, Body.mk.injEq, add_left_inj] at h
  obtain ⟨rfl, rfl, rfl, rfl⟩ := h
  rfl

theorem decimate_later {D : ℚ} {s : Scan} (h : Spec.Dateless D s) (sr : ℚ) (t : RTr Body) :
    decimate s.ext.dsp sr (lr D t) = lr D (decimate s.ext.dsp sr t) := by
  simp only [decimate, lr, h.dec]

theorem upsample_later {D : ℚ} {s : Scan} (h : Spec.Dateless D s) (u : ℕ) (t : RTr Body) :
    upsampleRate s.ext.dsp u (lr D t) = lr D (upsampleRate s.ext.dsp u t) := by
  simp only [upsampleRate, lr, h.up]

theorem resampleStep_later {D : ℚ} {s : Scan} (h : Spec.Dateless D s) (sr : ℚ)
    (rs : Bool) (up : Option ℕ) (st : List (RTr Body)) (t : RTr Body) :
    resampleStep s.ext.dsp sr rs up (st.map (lr D)) (lr D t) =
      (resampleStep s.ext.dsp sr rs up st t).map (List.map (lr D)) := by
  unfold resampleStep
  have hr : (lr D t).rate = t.rate := rfl
  rw [hr]
  by_cases h1 : sr = t.rate
  · rw [if_pos h1, if_pos h1]; rfl
  rw [if_neg h1, if_neg h1]
  have e : ∀ t' : RTr Body, (st.map (lr D)).erase (lr D t) ++ [lr D t'] = (st.erase t ++ [t']).map (lr D) := by
    intro t'
    rw [List.map_append, List.map_erase (lr_inj D)]
    rfl
  by_cases h2 : fMod t.rate sr = 0
  · rw [if_pos h2, if_pos h2, decimate_later h, e]; rfl
  rw [if_neg h2, if_neg h2]
  cases rs with
  | false => rfl
  | true =>
    cases up with
    | none => rfl
    | some u =>
      simp only
      by_cases h3 : fMod (pyInt (t.rate * u)) sr ≠ 0
      · rw [if_pos h3, if_pos h3]; rfl
      · rw [if_neg h3, if_neg h3, upsample_later h, decimate_later h, e]; rfl

theorem fold_later {D : ℚ} {s : Scan} (h : Spec.Dateless D s) (sr : ℚ)
    (rs : Bool) (up : Option ℕ) (l : List (RTr Body)) : ∀ st : List (RTr Body),
    (l.map (lr D)).foldlM (fun st tr => resampleStep s.ext.dsp sr rs up st tr) (st.map (lr D)) =
      (l.foldlM (fun st tr => resampleStep s.ext.dsp sr rs up st tr) st).map (List.map (lr D)) := by
  induction l with
  | nil => intro st; rfl
  | cons t l ih =>
    intro st
    rw [List.map_cons, List.foldlM_cons, List.foldlM_cons, resampleStep_later h]
    cases h : resampleStep s.ext.dsp sr rs up st t with
    | none => rfl
    | some s1 => exact ih s1

theorem resample_later {D : ℚ} {s : Scan} (h : Spec.Dateless D s) (a b sr : ℚ) (rs : Bool) (up : Option ℕ)
    (l : List (RTr Body)) :
    resample s.ext.dsp (s.ext.trim (a + D) (b + D)) sr rs up (l.map (lr D)) =
      (resample s.ext.dsp (s.ext.trim a b) sr rs up l).map (List.map (lr D)) := by
  unfold resample
  rw [fold_later h]
  cases hf : l.foldlM (fun st tr => resampleStep s.ext.dsp sr rs up st tr) l with
  | none => rfl
  | some st =>
    simp only [Option.map_some, List.filterMap_map, List.map_filterMap]
    congr 2
    funext t
    simp only [Function.comp, lr, h.trim]
    cases s.ext.trim a b t.rest <;> rfl

theorem filterAll_later (D : ℚ) (low high : ℚ) (l : List (RTr Body)) :
    Filters.filterAll low high (l.map (lr D)) =
      (Filters.filterAll low high l).map (List.map fun p => (lr D p.1, p.2)) := by
  induction l with
  | nil => rfl
  | cons t l ih =>
    rw [List.map_cons]
    unfold Filters.filterAll
    have hr : (lr D t).rate = t.rate := rfl
    rw [hr]
    cases h1 : Filters.obspyBandpass low high t.rate with
    | error e => rfl
    | ok dd =>
      simp only
      rw [ih]
      cases h2 : Filters.filterAll low high l with
      | error e => rfl
      | ok r => rfl

/-- The data of a window, later. -/
def lD (D : ℚ) (d : CalcOnsets.Data) : CalcOnsets.Data :=
  { d with waveforms := d.waveforms.map (lT D), start := d.start + D, stop := d.stop + D }

theorem preStream_later {D : ℚ} {s : Scan} (h : Spec.Dateless D s) (c : Cfg) (d : CalcOnsets.Data) (p : Str) :
    preStream c s.ext (lD D d) p = (preStream c s.ext d p).map (List.map (lT D)) := by
  unfold preStream
  have e : ((d.waveforms.map (lT D)).filter fun t => c.chan p t.id).map toR =
      ((d.waveforms.filter fun t => c.chan p t.id).map toR).map (lr D) := by
    rw [List.filter_map, List.map_map, List.map_map]
    rfl
  simp only [lD]
  rw [e]
  unfold Filters.preProcess
  rw [resample_later h]
  cases hr : resample s.ext.dsp (s.ext.trim d.start d.stop) c.sr d.resample d.upfactor
      ((d.waveforms.filter fun t => c.chan p t.id).map toR) with
  | none => rfl
  | some st =>
    simp only [Option.map_some]
    by_cases h2 : c.high p ≥ 1 / 2 * c.sr
    · rw [if_pos h2, if_pos h2]; rfl
    rw [if_neg h2, if_neg h2, filterAll_later]
    cases h3 : Filters.filterAll (c.low p) (c.high p) st with
    | error e => rfl
    | ok out =>
      simp only [Except.map, List.map_map]
      rfl

/-! ## The checks -/

theorem flat_later (D : ℚ) (t : Data.Trace) : (lT D t).flat = t.flat := rfl

theorem anyFlat_later (D : ℚ) (l : List Data.Trace) : Data.anyFlat (l.map (lT D)) = Data.anyFlat l := by
  induction l with
  | nil => rfl
  | cons t l ih =>
    rw [List.map_cons]
    unfold Data.anyFlat
    rw [flat_later, ih]

theorem stopT_later (D : ℚ) (t : Data.Trace) : (lT D t).stop = t.stop + D := by
  simp only [Data.Trace.stop, lT]; ring

theorem le_later (D : ℚ) (a b : Data.Trace) : Data.Trace.le (lT D a) (lT D b) ↔ Data.Trace.le a b := by
  simp only [Data.Trace.le, stopT_later, add_le_add_iff_right]
  simp only [lT, add_lt_add_iff_right, add_left_inj]

theorem sort_later (D : ℚ) (l : List Data.Trace) :
    (l.map (lT D)).insertionSort Data.Trace.le = (l.insertionSort Data.Trace.le).map (lT D) := by
  rw [List.map_insertionSort (r := Data.Trace.le) (s := Data.Trace.le)]
  intro a _ b _
  exact (le_later D a b).symm

theorem delta_later (D : ℚ) (a b : Data.Trace) : Data.delta (lT D a) (lT D b) = Data.delta a b := by
  have e1 : (lT D b).start - ((lT D a).stop + 1 / (lT D a).rate) = b.start - (a.stop + 1 / a.rate) := by
    rw [stopT_later]; simp only [lT]; ring
  have e2 : (lT D b).stop - (lT D b).start = b.stop - b.start := by
    rw [stopT_later]; simp only [lT]; ring
  unfold Data.delta
  rw [e1, e2]

theorem getGaps_later (D : ℚ) (m : Option ℚ) (l : List Data.Trace) :
    (Data.getGaps m (l.map (lT D))).length = (Data.getGaps m l).length := by
  unfold Data.getGaps
  simp only [sort_later]
  rw [← List.map_tail, List.zip_map, List.filter_map, List.length_map]
  congr 1
  apply List.filter_congr
  rintro ⟨a, b⟩ _
  simp only [Function.comp, Prod.map, Data.listed, delta_later]
  rfl

theorem checkId_later (D : ℚ) (o : Data.Opts) (s e : ℚ) (l : List Data.Trace) :
    Data.checkId o (s + D) (e + D) (l.map (lT D)) = Data.checkId o s e l := by
  unfold Data.checkId
  rw [anyFlat_later, getGaps_later, getGaps_later, List.any_map]
  cases l with
  | nil => rfl
  | cons t l =>
    have hnil : (l.map (lT D) ≠ []) = (l ≠ []) := by simp
    have h1 : ((lT D t).start ≠ s + D) = (t.start ≠ s) := by simp [lT]
    have h2 : ((lT D t).stop ≠ e + D) = (t.stop ≠ e) := by rw [stopT_later]; simp
    simp only [List.map_cons, hnil, add_sub_add_right_eq_sub, h1, h2]
    rfl

theorem filterT_later (D : ℚ) (q : Str → Bool) (l : List Data.Trace) :
    (l.map (lT D)).filter (fun t => q t.id) = (l.filter fun t => q t.id).map (lT D) := by
  rw [List.filter_map]; rfl

theorem checkIds_later (D : ℚ) (o : Data.Opts) (s e : ℚ) (l : List Data.Trace) (is : List Str) :
    Data.checkIds o (s + D) (e + D) (l.map (lT D)) is = Data.checkIds o s e l is := by
  induction is with
  | nil => rfl
  | cons i is ih =>
    unfold Data.checkIds
    rw [ih, filterT_later D (fun j => decide (j = i)), checkId_later]

theorem ids_later (D : ℚ) (l : List Data.Trace) : Data.ids (l.map (lT D)) = Data.ids l := by
  unfold Data.ids
  rw [List.map_map]
  rfl

theorem checkAvailability_later (D : ℚ) (o : Data.Opts) (s e : ℚ) (l : List Data.Trace) :
    Data.checkAvailability o (s + D) (e + D) (l.map (lT D)) = Data.checkAvailability o s e l := by
  unfold Data.checkAvailability
  rw [ids_later, checkIds_later]
  by_cases h : l = []
  · subst h; rfl
  · rw [if_neg h, if_neg (by simpa using h)]

/-! ## Filling of gaps -/

theorem foldJoin_later (D fill : ℚ) (l : List Data.Trace) : ∀ t : Data.Trace,
    (l.map (lT D)).foldl (GapFill.join fill) (lT D t) = lT D (l.foldl (GapFill.join fill) t) := by
  induction l with
  | nil => intro t; rfl
  | cons b l ih =>
    intro t
    rw [List.map_cons, List.foldl_cons, List.foldl_cons, ← ih]
    congr 1
    unfold GapFill.join
    have : (lT D b).start - (lT D t).stop = b.start - t.stop := by rw [stopT_later]; simp only [lT]; ring
    rw [this]
    rfl

theorem merge_later (D fill : ℚ) (l : List Data.Trace) :
    GapFill.merge fill (l.map (lT D)) = (GapFill.merge fill l).map (lT D) := by
  unfold GapFill.merge
  rw [sort_later]
  cases l.insertionSort Data.Trace.le with
  | nil => rfl
  | cons t l => simp only [List.map_cons, Option.map_some]; rw [foldJoin_later]

theorem padTrim_later (D fill a b : ℚ) (t : Data.Trace) :
    GapFill.padTrim fill (a + D) (b + D) (lT D t) = GapFill.padTrim fill a b t := by
  unfold GapFill.padTrim
  have e1 : (lT D t).start - (a + D - 1 / 100000) = t.start - (a - 1 / 100000) := by simp only [lT]; ring
  have e2 : ∀ k : ℤ, b + D + 1 / 100000 - ((lT D t).start - k / (lT D t).rate) =
      b + 1 / 100000 - (t.start - k / t.rate) := by intro k; simp only [lT]; ring
  simp only [e1, e2]
  rfl

theorem prepare_later (D : ℚ) (g f : Bool) (w : ℕ → ℕ → ℚ) (fill a b : ℚ) (l : List Data.Trace) :
    GapFill.prepare g f w fill (a + D) (b + D) (l.map (lT D)) = GapFill.prepare g f w fill a b l := by
  unfold GapFill.prepare
  have e : (l.map (lT D)).map (GapFill.taper w) = (l.map (GapFill.taper w)).map (lT D) := by
    rw [List.map_map, List.map_map]; rfl
  rw [e, merge_later]
  by_cases h : (g || !f) = true
  · rw [if_pos h, if_pos h]
    cases GapFill.merge fill (l.map (GapFill.taper w)) with
    | none => rfl
    | some t => simp only [Option.map_some]; rw [padTrim_later]
  · rw [if_neg h, if_neg h, List.map_map]; rfl

theorem rows_later (D : ℚ) (c : Cfg) (x : Ext) (d : CalcOnsets.Data) (l : List Data.Trace) :
    rows c x (lD D d) (l.map (lT D)) = rows c x d l := by
  unfold rows
  by_cases h : (c.allowGaps || !c.fullTimespan) = true
  · rw [if_pos h, if_pos h, ids_later]
    congr 1
    funext i
    rw [filterT_later D (fun j => decide (j = i))]
    simp only [lD]
    rw [prepare_later]
  · rw [if_neg h, if_neg h, List.map_map]; rfl

/-! ## The whole window -/

theorem stationPhase_later (D : ℚ) (c : Cfg) (x : Ext) (d : CalcOnsets.Data) (p : Str) (l : List Data.Trace) (s : Str) :
    stationPhase c x (lD D d) p (l.map (lT D)) s = stationPhase c x d p l s := by
  have hdrop : ∀ (av : List (Str × Bool)) (w : List Data.Trace), dropFailed av (w.map (lT D)) = (dropFailed av w).map (lT D) :=
    fun av w => filterT_later D (fun i => !(av.any fun e => decide (e.1 = i) && !e.2)) w
  have hrow := fun w => rows_later D c x d w
  unfold stationPhase
  simp only
  rw [filterT_later D (fun i => x.ofStation s i)]
  have e1 : (lD D d).start = d.start + D := rfl
  have e2 : (lD D d).stop = d.stop + D := rfl
  rw [e1, e2, checkAvailability_later]
  cases h : Data.checkAvailability (GapFill.onsetOpts c.allChannels c.allowGaps c.fullTimespan (c.count p) c.sr)
      d.start d.stop (l.filter fun t => x.ofStation s t.id) with
  | error e => rfl
  | ok q =>
    obtain ⟨b, av⟩ := q
    cases b with
    | false => rfl
    | true => simp only; rw [hdrop, hrow]

theorem stationLoop_later (D : ℚ) (c : Cfg) (x : Ext) (d : CalcOnsets.Data) (p : Str) (l : List Data.Trace) (ss : List Str) :
    ∀ o, stationLoop c x (lD D d) p (l.map (lT D)) ss o = stationLoop c x d p l ss o := by
  induction ss with
  | nil => intro o; rfl
  | cons s ss ih =>
    intro o
    unfold stationLoop
    rw [stationPhase_later]
    cases h : stationPhase c x d p l s with
    | error e => rfl
    | ok r =>
      cases r with
      | none => exact ih _
      | some q => exact ih _

theorem phaseLoop_later {D : ℚ} {s : Scan} (h : Spec.Dateless D s) (c : Cfg) (d : CalcOnsets.Data) (ps : List Str) :
    ∀ o, phaseLoop c s.ext (lD D d) ps o = phaseLoop c s.ext d ps o := by
  induction ps with
  | nil => intro o; rfl
  | cons p ps ih =>
    intro o
    unfold phaseLoop
    rw [preStream_later h]
    cases hp : preStream c s.ext d p with
    | error e => rfl
    | ok l =>
      have hs := stationLoop_later D c s.ext d p l d.stations o
      have e : (lD D d).stations = d.stations := rfl
      simp only [Except.map]
      rw [e, hs]
      cases stationLoop c s.ext d p l d.stations o with
      | error e => rfl
      | ok o1 => exact ih o1

theorem onsets_later {D : ℚ} {s : Scan} (h : Spec.Dateless D s) (d : CalcOnsets.Data) :
    calculateOnsets s.onset s.ext (lD D d) = calculateOnsets s.onset s.ext d := by
  unfold calculateOnsets
  rw [phaseLoop_later h]

theorem outcome_later (k : ℤ) (s : Scan) (h : Spec.Dateless (k * 86400) s) (ts : ℚ) (w : ℚ × ℚ) :
    (Spec.laterScan k s).outcome ts (w.1 + k * 86400, w.2 + k * 86400) = s.outcome ts w := by
  unfold Scan.outcome
  rw [scanRead_later k s h w]
  cases hr : s.read w with
  | error e => cases e <;> rfl
  | ok o =>
    have hd : (Spec.laterScan k s).data (w.1 + k * 86400, w.2 + k * 86400) (lo (k * 86400) o) =
        lD (k * 86400) (s.data w o) := by
      unfold Scan.data lD lo
      simp only [List.map_map]
      rfl
    have ho : calculateOnsets (Spec.laterScan k s).onset (Spec.laterScan k s).ext
        ((Spec.laterScan k s).data (w.1 + k * 86400, w.2 + k * 86400) (lo (k * 86400) o)) =
        calculateOnsets s.onset s.ext (s.data w o) := by
      rw [hd]
      exact onsets_later h (s.data w o)
    have hc : (Spec.laterScan k s).compute ts (w.1 + k * 86400, w.2 + k * 86400) (lo (k * 86400) o) = s.compute ts w o := by
      unfold Scan.compute WaveScan.compute
      rw [ho]
      simp only [Spec.laterScan, add_sub_cancel_right, Prod.mk.eta]
    have ha : (Spec.laterScan k s).availability (w.1 + k * 86400, w.2 + k * 86400) (lo (k * 86400) o) =
        s.availability w o := by
      funext col
      unfold Scan.availability
      rw [ho]
    simp only [Except.map]
    rw [hc, ha]
    rfl

/-! ## The run -/

theorem midnight_later (k : ℤ) (t : ℚ) : isMidnight (t + k * 86400) ↔ isMidnight t := by
  unfold isMidnight dayStart
  have : (t + k * 86400) / DAY = t / DAY + k := by unfold DAY; ring
  rw [this, Int.floor_add_intCast]
  unfold DAY
  push_cast
  constructor <;> intro h <;> linarith

theorem loop_later (D : ℚ) (c : Detect.Cfg) (start : ℚ) (f f' : ℚ × ℚ → Detect.Outcome)
    (hf : ∀ w : ℚ × ℚ, f' (w.1 + D, w.2 + D) = f w) (n : ℕ) : ∀ i,
    Detect.loop c (start + D) f' n i = Spec.laterResult D (Detect.loop c start f n i) := by
  induction n with
  | zero => intro i; rfl
  | succ n ih =>
    intro i
    unfold Detect.loop
    have hw : Detect.window c (start + D) i = ((Detect.window c start i).1 + D, (Detect.window c start i).2 + D) := by
      unfold Detect.window
      simp only [Prod.mk.injEq]
      constructor <;> ring
    rw [hw]
    simp only [hf, ih]
    have e1 : start + D + c.timestep * (i : ℚ) = start + c.timestep * i + D := by ring
    cases f (Detect.window c start i) with
    | ok data avail =>
      simp only [Spec.laterResult, List.map_cons, e1]
      rw [add_right_comm]
    | other => rfl
    | archiveEmpty => simp only [Spec.laterResult, List.map_cons, e1, Detect.emptyBlock]
    | dataGap => simp only [Spec.laterResult, List.map_cons, e1, Detect.emptyBlock]
    | dataAvailability => simp only [Spec.laterResult, List.map_cons, e1, Detect.emptyBlock]

end DetectShift

open DetectShift in
/-- **C172**: if everything in the archive is recorded again `k` days later, detecting the period `k` days later gives the
same blocks of coalescence and the same rows of availability `k` days later, is refused likewise, or ends likewise with an
exception after the same blocks.  This holds for all files, with or without gaps, whatever the settings; asked is only that
the signal processing of ObsPy does not look at the date. -/
theorem C172_any_day (k : ℤ) (s : Scan) (h : Spec.Dateless (k * 86400) s) (ts start stop : ℚ) (cols : List String) (ucf : ℚ) :
    (Spec.laterScan k s).detect ts (start + k * 86400) (stop + k * 86400) cols ucf =
      (s.detect ts start stop cols ucf).map (Spec.laterResult (k * 86400)) := by
  unfold Scan.detect Detect.detect
  have hn : Detect.nSteps ((Spec.laterScan k s).call ts (start + k * 86400) (stop + k * 86400) cols ucf false .never).cfg
      (start + k * 86400) (stop + k * 86400) = Detect.nSteps (s.call ts start stop cols ucf false .never).cfg start stop := by
    unfold Detect.nSteps Detect.adjustedEnd
    simp only [gt_iff_lt, add_lt_add_iff_right, midnight_later]
    by_cases h1 : stop < start
    · rw [if_pos h1, if_pos h1]
    rw [if_neg h1, if_neg h1]
    congr 3
    have e : Detect.Cfg.delta ((Spec.laterScan k s).call ts (start + k * 86400) (stop + k * 86400) cols ucf false .never).cfg =
        Detect.Cfg.delta (s.call ts start stop cols ucf false .never).cfg := rfl
    rw [e]
    split <;> ring
  rw [hn, Option.map_map]
  congr 1
  funext n
  exact loop_later _ _ start _ _ (fun w => outcome_later k s h ts w) n.toNat 0

/-- **C172**, `shift_to_sample`: for times of whole nanoseconds, the shift of a trace to the sample grid commutes with a
shift by whole seconds, as asked above. -/
theorem C172_shift_to_sample (rate : ℚ) (interp : Bool) (n : ℤ) (t : Util.Tr) :
    Util.shiftTrace rate interp { t with start := t.start + n * 1000000000 } =
      (Util.shiftTrace rate interp t).map fun u => { u with start := u.start + n * 1000000000 } := by
  have hadd : ∀ (a : Util.Ns) (x : ℚ), Util.addSeconds (a + n * 1000000000) x = Util.addSeconds a x + n * 1000000000 := by
    intro a x
    unfold Util.addSeconds
    ring
  have hoff : Util.offSample rate (t.start + n * 1000000000) = Util.offSample rate t.start := by
    unfold Util.offSample Util.microsecond
    have key : ∀ a n : ℤ, (a + n * 1000000000) / 1000 % 1000000 = a / 1000 % 1000000 := by intro a n; omega
    rw [key]
  have hint : ∀ a : Util.Ns, Util.interpolate rate { t with start := t.start + n * 1000000000 } (a + n * 1000000000) =
      ⟨a + n * 1000000000, (Util.interpolate rate t a).npts⟩ := by
    intro a
    unfold Util.interpolate
    simp only [Util.Tr.mk.injEq, true_and]
    congr 4
    push_cast
    ring
  unfold Util.shiftTrace
  simp only [hoff, hadd]
  by_cases h0 : Util.offSample rate t.start = 0
  · rw [if_pos h0, if_pos h0]; rfl
  rw [if_neg h0, if_neg h0]
  by_cases h1 : interp = false
  · rw [if_pos h1, if_pos h1]; rfl
  rw [if_neg h1, if_neg h1]
  generalize Util.timeShift rate (Util.offSample rate t.start) = sh
  have hnew : (if sh < 0 then Util.addSeconds t.start (sh) + n * 1000000000 |> fun x => Util.addSeconds x (1 / rate)
      else Util.addSeconds t.start sh + n * 1000000000) =
      (if sh < 0 then Util.addSeconds (Util.addSeconds t.start sh) (1 / rate) else Util.addSeconds t.start sh) +
        n * 1000000000 := by
    split
    · exact hadd _ _
    · rfl
  simp only [hadd] at hnew
  rw [hnew, hint]
  generalize (if sh < 0 then Util.addSeconds (Util.addSeconds t.start sh) (1 / rate) else Util.addSeconds t.start sh) = a
  by_cases h2 : (Util.interpolate rate t a).npts = 0
  · rw [if_pos h2, if_pos h2]; rfl
  rw [if_neg h2, if_neg h2]
  by_cases h3 : sh > 0
  · rw [if_pos h3, if_pos h3]; rfl
  · rw [if_neg h3, if_neg h3, hadd]; rfl

/-! ## A case that meets the hypotheses -/

namespace DetectShift

open OnsetValue OnsetGain WaveScan

/-- An archive with four seconds of one channel on the first day. -/
noncomputable def exScan : Scan where
  files := fun q => if q.day = 0 then [some [⟨"Z".toList, 1, ⟨0, [1, 2, 3, 5]⟩⟩]] else []
  readAll := false
  stations := ["ST01".toList]
  resample := false
  upfactor := none
  order := List.dedup
  toSample := id
  onset := plainCfg
  ext := exExt 1
  windows := ⟨(0, 0), []⟩
  ttmax := 1
  lut := WaveScan.exLut
  grid := stepGrid
  rate := 1
  sched := fun _ => serial WaveScan.exLut.nNodes (Migrate.nodeProg (V := ℝ) ⟨[], [], 1, 2, 4 - 1 - 2, 1, 1, WaveScan.exLut.nNodes⟩)
  sched' := fun _ => serial (4 - 1 - 2) (Migrate.sampleProg WaveScan.exLut.nNodes)
  fl := fun _ => 1
  proj := fun v => (v 0, v 1, v 2)

theorem exScan_dateless (D : ℚ) : Spec.Dateless D exScan :=
  ⟨fun _ => rfl, fun _ _ => rfl, fun _ _ => rfl, fun _ _ _ => rfl⟩

theorem exScan_read : exScan.read (0, 3) = .ok ⟨[⟨"Z".toList, 1, ⟨0, [1, 2, 3, 5]⟩⟩], [⟨"Z".toList, 1, ⟨0, [1, 2, 3, 5]⟩⟩]⟩ := by
  have hl : loadFromPath false ["ST01".toList] 0 3 = [⟨0, some "ST01".toList⟩] := by
    unfold loadFromPath
    have h0 : dayNum (0 : ℚ) = 0 := by decide +kernel
    rw [h0, readDays, dif_pos (by decide +kernel), readDays, dif_neg (by decide +kernel)]
    rfl
  unfold Scan.read
  show Waveforms.readWaveformData List.dedup id ⟨0, 3, 0, 0, false, ["ST01".toList]⟩
    ((loadFromPath false ["ST01".toList] 0 3).flatMap exScan.files) = _
  rw [hl]
  show Waveforms.readWaveformData List.dedup id ⟨0, 3, 0, 0, false, ["ST01".toList]⟩
    [some [⟨"Z".toList, 1, ⟨0, [1, 2, 3, 5]⟩⟩]] = _
  decide +kernel

theorem exScan_data : exScan.data (0, 3)
    ⟨[⟨"Z".toList, 1, ⟨0, [1, 2, 3, 5]⟩⟩], [⟨"Z".toList, 1, ⟨0, [1, 2, 3, 5]⟩⟩]⟩ = plainData := by
  unfold Scan.data
  simp [exScan, plainData, toTrace]

/-- The one timestep of the run from 1 s to 2 s finds data and gives one sample. -/
theorem exScan_outcome : ∃ data av, exScan.outcome 1 (0, 3) = .ok data av ∧ data.length = 1 := by
  obtain ⟨out, h1, h2⟩ := WaveScan.ex_compute
  have hc : exScan.compute 1 (0, 3)
      ⟨[⟨"Z".toList, 1, ⟨0, [1, 2, 3, 5]⟩⟩], [⟨"Z".toList, 1, ⟨0, [1, 2, 3, 5]⟩⟩]⟩ = .ok out := by
    unfold Scan.compute
    rw [exScan_data]
    exact h1
  unfold Scan.outcome
  rw [exScan_read]
  simp only [hc]
  exact ⟨_, _, rfl, by rw [List.length_map, h2]⟩

/-- A year later, the same. -/
example : (Spec.laterScan 365 exScan).detect 1 (1 + (365 : ℤ) * 86400) (2 + (365 : ℤ) * 86400) ["ST01_P"] 1 =
    (exScan.detect 1 1 2 ["ST01_P"] 1).map (Spec.laterResult ((365 : ℤ) * 86400)) ∧
    ∃ r, exScan.detect 1 1 2 ["ST01_P"] 1 = some r ∧ ∃ b ∈ r.blocks, b.start = 1 ∧ b.vals.length = 1 ∧ ∃ data av,
      exScan.outcome 1 (0, 3) = .ok data av ∧ b.vals = data := by
  refine ⟨C172_any_day 365 exScan (exScan_dateless _) 1 1 2 ["ST01_P"] 1, ?_⟩
  obtain ⟨data, av, h1, h2⟩ := exScan_outcome
  have hw : Detect.window (exScan.call 1 1 2 ["ST01_P"] 1 false .never).cfg 1 0 = (0, 3) := by
    show (_, _) = _
    decide +kernel
  have hn : Detect.nSteps (exScan.call 1 1 2 ["ST01_P"] 1 false .never).cfg 1 2 = some 1 := by
    show (if (1 : ℚ) > 2 then none else some ⌈((if isMidnight 2 then _ else (2 : ℚ)) - 1) / 1⌉) = some 1
    decide +kernel
  unfold Scan.detect Detect.detect
  rw [hn]
  refine ⟨_, rfl, ⟨1, data⟩, ?_, rfl, h2, data, av, h1, rfl⟩
  show _ ∈ (Detect.loop _ 1 (exScan.outcome 1) 1 0).blocks
  unfold Detect.loop
  simp only [hw, h1]
  have hp : (exScan.call 1 1 2 ["ST01_P"] 1 false .never).cfg.prePad = 1 := by
    show (Pads.scanPads _ _ _ _).1 = 1
    decide +kernel
  rw [hp]
  simp

end DetectShift

end QM
