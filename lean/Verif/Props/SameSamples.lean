import Verif.Props.ReadSamples
import Verif.Props.WaveLocate
import Verif.Props.WaveFiles
import Verif.Props.Util

/-!
# Detection and location depend on the recorded samples alone: C177
-/

namespace QM

open QM.Waveforms QM.WaveDetect QM.CalcOnsets QM.Spec
open QM.Data (Sane loadFromPath)
open QM.Locate (Trig Later)
open QM.Pads (locateWindow scanPads)

/-! ## Specification -/

/-- What a scan finds in its archive when it asks for a span of time. -/
def Spec.found (s : Scan) (a b : ℚ) : List (Option (List (Rec ℚ))) := (loadFromPath s.readAll s.stations a b).flatMap s.files

/-- The same scan of another archive; the order in which sets are gone through may differ too. -/
def Spec.onArchive (s : Scan) (files : Data.Query → List (Option (List (Rec ℚ)))) (order : List Str → List Str) : Scan :=
  { s with files := files, order := order }

/-- The two archives hold clean records with the same samples for a window from `a` to `b`; one is asked for `p` seconds more
before it and `q` seconds more after it, the other for `p'` and `q'`. -/
structure Spec.SameWindow (s s' : Scan) (rateOf : Str → ℚ) (a b p q p' q' : ℚ) : Prop where
  long : ∀ i, a + 1 / rateOf i ≤ b
  clean : ∀ i, CleanChannel (found s (a - p) (b + q)) i (rateOf i) b
  clean' : ∀ i, CleanChannel (found s' (a - p') (b + q')) i (rateOf i) b
  same : SameSamples rateOf a b (found s (a - p) (b + q)) (found s' (a - p') (b + q'))

/-- Decimation, upsampling, trimming and filters do not leave a trace without samples (a trace trimmed to nothing is removed). -/
structure Spec.KeepsData (x : Ext) : Prop where
  dec : ∀ f b, b.data ≠ [] → (x.dsp.dec f b).data ≠ []
  up : ∀ u b, b.data ≠ [] → (x.dsp.up u b).data ≠ []
  trim : ∀ s e b b', x.trim s e b = some b' → b.data ≠ [] → b'.data ≠ []
  filt : ∀ p d r l, l ≠ [] → x.filt p d r l ≠ []

/-- What is asked of the scan and of the rates at which the channels are recorded. -/
structure Spec.PlainScan (s : Scan) (rateOf : Str → ℚ) : Prop where
  order : SetOrder s.order
  toSample : KeepsOnSample s.toSample
  toSampleId : KeepsId s.toSample
  stations : s.stations.Nodup
  rates : ∀ i, 0 < rateOf i ∧ rateOf i ≤ 500000 ∧ ∀ u, s.upfactor = some u → 1 ≤ rateOf i * u
  target : 0 < s.onset.sr ∧ s.onset.sr ≤ 500000
  keeps : KeepsData s.ext

namespace SameSamples

open QM.Util (RTr resampleStep resample fMod decimate upsampleRate)

/-- A trace that can be processed. -/
def Fine (t : RTr Body) : Prop := t.rest.data ≠ [] ∧ 0 < t.rate ∧ t.rate ≤ 500000

theorem step_fine {x : Ext} (hx : Spec.KeepsData x) {sr : ℚ} (hsr : 0 < sr) (hsr' : sr ≤ 500000) {rs : Bool} {up : Option ℕ}
    {st st' : List (RTr Body)} {tr : RTr Body} (ht : Fine tr) (hu : ∀ u, up = some u → 1 ≤ tr.rate * u)
    (hst : ∀ t ∈ st, Fine t) (h : resampleStep x.dsp sr rs up st tr = some st') : ∀ t ∈ st', Fine t := by
  have hnew : ∀ n : RTr Body, Fine n → ∀ t ∈ st.erase tr ++ [n], Fine t := by
    intro n hn t hm
    rcases List.mem_append.1 hm with h | h
    · exact hst t (List.mem_of_mem_erase h)
    · rw [List.mem_singleton.1 h]; exact hn
  have hdec : ∀ t : RTr Body, t.rest.data ≠ [] → 0 < t.rate → fMod t.rate sr = 0 → Fine (decimate x.dsp sr t) := by
    intro t h1 h2 h3
    have e := decimate_rate x.dsp hsr h2 ((fMod_eq_zero hsr.ne').1 h3)
    exact ⟨hx.dec _ _ h1, by rw [e]; exact hsr, by rw [e]; exact hsr'⟩
  unfold resampleStep at h
  split at h
  · injection h with h; subst h; exact hst
  split at h
  · next h2 =>
    injection h with h; subst h
    exact hnew _ (hdec tr ht.1 ht.2.1 h2)
  split at h
  · next u =>
    split at h
    · cases h
    · next h3 =>
      rw [not_not] at h3
      injection h with h; subst h
      have hge := hu u rfl
      refine hnew _ (hdec _ (hx.up _ _ ht.1) ?_ ?_)
      · show (0 : ℚ) < ((pyInt (u * tr.rate) : ℤ) : ℚ)
        have hfl : pyInt (u * tr.rate) = ⌊tr.rate * u⌋ := by
          unfold pyInt; rw [mul_comm, if_pos (by linarith)]
        rw [hfl]
        have : 1 ≤ ⌊tr.rate * u⌋ := Int.le_floor.2 (by simpa using hge)
        exact_mod_cast this
      · show fMod ((pyInt (u * tr.rate) : ℤ) : ℚ) sr = 0
        rw [mul_comm]; exact h3
  · injection h with h; subst h; exact hst

theorem fold_fine {x : Ext} (hx : Spec.KeepsData x) {sr : ℚ} (hsr : 0 < sr) (hsr' : sr ≤ 500000) {rs : Bool} {up : Option ℕ}
    (l : List (RTr Body)) (hl : ∀ t ∈ l, Fine t ∧ ∀ u, up = some u → 1 ≤ t.rate * u) : ∀ st st' : List (RTr Body),
    (∀ t ∈ st, Fine t) → l.foldlM (fun st tr => resampleStep x.dsp sr rs up st tr) st = some st' → ∀ t ∈ st', Fine t := by
  induction l with
  | nil => intro st st' h1 h; simp at h; subst h; exact h1
  | cons a l ih =>
    intro st st' h1 h
    rw [List.foldlM_cons] at h
    cases h2 : resampleStep x.dsp sr rs up st a with
    | none => rw [h2] at h; simp at h
    | some s1 =>
      rw [h2] at h
      exact ih (fun t ht => hl t (by simp [ht])) s1 st'
        (step_fine hx hsr hsr' (hl a (by simp)).1 (hl a (by simp)).2 h1 h2) h

theorem filterAll_mem {α : Type} {lo hi : ℚ} : ∀ {l : List (RTr α)} {r}, Filters.filterAll lo hi l = .ok r →
    ∀ p ∈ r, p.1 ∈ l := by
  intro l
  induction l with
  | nil => intro r h p hp; unfold Filters.filterAll at h; cases h; simp at hp
  | cons t l ih =>
    intro r h p hp
    unfold Filters.filterAll at h
    cases h1 : Filters.obspyBandpass lo hi t.rate with
    | error e => rw [h1] at h; cases h
    | ok d =>
      rw [h1] at h
      simp only at h
      cases h2 : Filters.filterAll lo hi l with
      | error e => rw [h2] at h; cases h
      | ok r' =>
        rw [h2] at h
        cases h
        rcases List.mem_cons.1 hp with rfl | hp
        · simp
        · exact List.mem_cons_of_mem _ (ih h2 p hp)

theorem preStream_sane {c : CalcOnsets.Cfg} {x : Ext} (hx : Spec.KeepsData x) (hsr : 0 < c.sr) (hsr' : c.sr ≤ 500000)
    {d : CalcOnsets.Data} (hd : ∀ t ∈ d.waveforms, Sane t ∧ ∀ u, d.upfactor = some u → 1 ≤ t.rate * u) {p : Str}
    {l : List Data.Trace} (h : preStream c x d p = .ok l) : ∀ t ∈ l, Sane t := by
  unfold preStream Filters.preProcess resample at h
  cases h1 : ((d.waveforms.filter fun t => c.chan p t.id).map toR).foldlM
      (fun st tr => resampleStep x.dsp c.sr d.resample d.upfactor st tr) ((d.waveforms.filter fun t => c.chan p t.id).map toR) with
  | none => rw [h1] at h; simp at h
  | some s1 =>
    rw [h1] at h
    simp only at h
    have hl : ∀ t ∈ (d.waveforms.filter fun t => c.chan p t.id).map toR, Fine t ∧ ∀ u, d.upfactor = some u → 1 ≤ t.rate * u := by
      intro t ht
      obtain ⟨t0, h2, rfl⟩ := List.mem_map.1 ht
      obtain ⟨h3, h4⟩ := hd t0 (List.mem_filter.1 h2).1
      exact ⟨⟨h3.ne, h3.pos, h3.le⟩, h4⟩
    have hs1 := fold_fine hx hsr hsr' _ hl _ s1 (fun t ht => (hl t ht).1) h1
    by_cases hny : c.high p ≥ 1 / 2 * c.sr
    · rw [if_pos hny] at h; cases h
    · rw [if_neg hny] at h
      split at h
      · cases h
      · next r hr =>
        cases h
        intro t ht
        obtain ⟨q, h2, rfl⟩ := List.mem_map.1 ht
        have h3 := filterAll_mem hr q h2
        obtain ⟨t1, h4, h5⟩ := List.mem_filterMap.1 h3
        obtain ⟨b, h6, h7⟩ := Option.map_eq_some_iff.1 h5
        obtain ⟨f1, f2, f3⟩ := hs1 t1 h4
        rw [← h7]
        exact ⟨hx.filt _ _ _ _ (hx.trim _ _ _ _ h6 f1), f2, f3⟩

/-- What one window gives. -/
theorem read_same {s s' : Scan} {files : Data.Query → List (Option (List (Rec ℚ)))} {order : List Str → List Str}
    (hs' : s' = Spec.onArchive s files order) {rateOf : Str → ℚ} (hs : Spec.PlainScan s rateOf) (ho' : SetOrder order)
    {a b p q p' q' : ℚ} (hw : Spec.SameWindow s s' rateOf a b p q p' q') :
    (∀ o, s.readEvent (a, b) (p, q) = .ok o → ∃ o', s'.readEvent (a, b) (p', q') = .ok o' ∧ o.waveforms.Perm o'.waveforms) ∧
    (∀ o', s'.readEvent (a, b) (p', q') = .ok o' → ∃ o, s.readEvent (a, b) (p, q) = .ok o ∧ o'.waveforms.Perm o.waveforms) := by
  subst hs'
  refine ⟨fun o h => ?_, fun o' h => ?_⟩
  · exact C176_samples_alone hs.order ho' hs.toSample hs.toSampleId ⟨a, b, p, q, s.readAll, s.stations⟩
      ⟨a, b, p', q', s.readAll, s.stations⟩ rfl rfl rfl rfl hs.stations _ _ rateOf (fun i => ⟨(hs.rates i).1, hw.long i⟩) hw.clean
      hw.clean' hw.same o h
  · exact C176_samples_alone ho' hs.order hs.toSample hs.toSampleId ⟨a, b, p', q', s.readAll, s.stations⟩
      ⟨a, b, p, q, s.readAll, s.stations⟩ rfl rfl rfl rfl hs.stations _ _ rateOf (fun i => ⟨(hs.rates i).1, hw.long i⟩) hw.clean'
      hw.clean (fun i t v h1 h2 => (hw.same i t v h1 h2).symm) o' h

theorem read_sane {s : Scan} {rateOf : Str → ℚ} (hs : Spec.PlainScan s rateOf) {a b p q : ℚ} (hlong : ∀ i, a + 1 / rateOf i ≤ b)
    (hc : ∀ i, Spec.CleanChannel (Spec.found s (a - p) (b + q)) i (rateOf i) b) {o : Waveforms.Out ℚ}
    (h : s.readEvent (a, b) (p, q) = .ok o) :
    ∀ t ∈ (s.data (a, b) o).waveforms, Sane t ∧ ∀ u, (s.data (a, b) o).upfactor = some u → 1 ≤ t.rate * u := by
  intro t ht
  obtain ⟨r, hr, rfl⟩ := List.mem_map.1 ht
  obtain ⟨h1, h2, -⟩ := readWaveformData_ok h
  obtain ⟨h3, h4, h5⟩ := hs.rates r.id
  obtain ⟨l, e, hl, -⟩ := ReadSamples.window_channel hs.order hs.toSample hs.toSampleId ⟨a, b, p, q, s.readAll, s.stations⟩ hs.stations
    (Spec.found s (a - p) (b + q)) r.id h3 (hlong _) (hc _)
  rw [h1] at h2
  have hm : r ∈ l := by
    rw [← e]
    refine List.mem_filter.2 ⟨?_, by simp⟩
    rw [h2] at hr
    exact hr
  obtain ⟨-, k2, k3⟩ := hl r hm
  exact ⟨⟨k3, by rw [toTrace, k2]; exact h3, by rw [toTrace, k2]; exact h4⟩, by rw [toTrace, k2]; exact h5⟩

variable {s : Scan} (files : Data.Query → List (Option (List (Rec ℚ)))) (order : List Str → List Str)

theorem compute_same (hsr : s.onset.sr ≠ 0) (ts : ℚ) (win : ℚ × ℚ) {o o' : Waveforms.Out ℚ}
    (hsane : ∀ p ∈ s.onset.phases, ∀ l, preStream s.onset s.ext (s.data win o) p = .ok l → ∀ t ∈ l, Sane t)
    (h : o.waveforms.Perm o'.waveforms) :
    (Spec.onArchive s files order).compute ts win o' = s.compute ts win o :=
  C170_order s.onset hsr s.ext (s.data win o) (o'.waveforms.map toTrace) (h.map _) hsane s.lut s.grid _ _ _

theorem availability_same (hsr : s.onset.sr ≠ 0) (win : ℚ × ℚ) {o o' : Waveforms.Out ℚ}
    (hsane : ∀ p ∈ s.onset.phases, ∀ l, preStream s.onset s.ext (s.data win o) p = .ok l → ∀ t ∈ l, Sane t)
    (h : o.waveforms.Perm o'.waveforms) : (Spec.onArchive s files order).availability win o' = s.availability win o := by
  funext col
  obtain ⟨a, b⟩ := C164_order_of_files s.onset hsr s.ext (s.data win o) (o'.waveforms.map toTrace) (h.map _) hsane
  have e : (Spec.onArchive s files order).availability win o' col =
      (match calculateOnsets s.onset s.ext { s.data win o with waveforms := o'.waveforms.map toTrace } with
        | .error _ => 0
        | .ok r => (r.availability.lookup col.toList).getD 0) := rfl
  rw [e]
  unfold Scan.availability
  cases hc : calculateOnsets s.onset s.ext (s.data win o) with
  | error e => rw [a e hc]
  | ok r =>
    obtain ⟨r', h1, h2, -, -⟩ := b r hc
    rw [h1]
    simp only
    rw [h2]

/-- The exceptions of a read that lead to the next window. -/
theorem read_error {s : Scan} {w x : ℚ × ℚ} {e : Waveforms.Err} (h : s.readEvent w x = .error e) :
    e = .archiveEmpty ∨ e = .dataGap := by
  unfold Scan.readEvent readWaveformData at h
  split at h
  · cases h; exact Or.inl rfl
  · simp only at h
    split at h
    · cases h; exact Or.inr rfl
    · cases h

theorem read_eq (s : Scan) (w : ℚ × ℚ) : s.read w = s.readEvent w (0, 0) := by
  unfold Scan.read Scan.readEvent
  simp

/-- Outcomes of `detect` that are treated alike. -/
def Alike : Detect.Outcome → Detect.Outcome → Prop
  | .archiveEmpty, .archiveEmpty | .archiveEmpty, .dataGap | .dataGap, .archiveEmpty | .dataGap, .dataGap => True
  | x, y => x = y

theorem loop_alike (c : Detect.Cfg) (start : ℚ) (f f' : ℚ × ℚ → Detect.Outcome) (n : ℕ) : ∀ i,
    (∀ j, i ≤ j → j < i + n → Alike (f (Detect.window c start j)) (f' (Detect.window c start j))) →
    Detect.loop c start f n i = Detect.loop c start f' n i := by
  induction n with
  | zero => intro i _; rfl
  | succ n ih =>
    intro i h
    unfold Detect.loop
    have h0 := h i le_rfl (by omega)
    have h1 := ih (i + 1) (fun j hj hj' => h j (by omega) (by omega))
    simp only [h1]
    generalize f (Detect.window c start i) = x at h0
    generalize f' (Detect.window c start i) = y at h0
    cases x <;> cases y <;> simp_all [Alike]

theorem locate_alike {σ : Type} (mw : ℚ) (f f' : Trig → Locate.Outcome σ) (later : Trig → Later) : ∀ events : List Trig,
    (∀ x ∈ events, f x = f' x ∨ (f x = .archiveEmpty ∨ f x = .dataGap) ∧ (f' x = .archiveEmpty ∨ f' x = .dataGap)) →
    Locate.locateEvents mw f later events = Locate.locateEvents mw f' later events := by
  intro events
  induction events with
  | nil => intro _; rfl
  | cons x xs ih =>
    intro h
    have h1 := ih fun y hy => h y (by simp [hy])
    unfold Locate.locateEvents
    rw [h1]
    rcases h x (by simp) with e | ⟨e | e, e' | e'⟩
    · rw [e]
    all_goals rw [e, e']

theorem outcome_same {files : Data.Query → List (Option (List (Rec ℚ)))} {order : List Str → List Str} {rateOf : Str → ℚ}
    (hs : Spec.PlainScan s rateOf) (ho' : SetOrder order) (ts : ℚ) {a b : ℚ}
    (hw : Spec.SameWindow s (Spec.onArchive s files order) rateOf a b 0 0 0 0) :
    Alike ((Spec.onArchive s files order).outcome ts (a, b)) (s.outcome ts (a, b)) := by
  obtain ⟨h1, h2⟩ := read_same rfl hs ho' hw
  unfold Scan.outcome
  rw [read_eq, read_eq]
  cases h : s.readEvent (a, b) (0, 0) with
  | error e =>
    cases h' : (Spec.onArchive s files order).readEvent (a, b) (0, 0) with
    | ok o' => obtain ⟨o, ho, -⟩ := h2 o' h'; rw [h] at ho; cases ho
    | error e' =>
      rcases read_error h with rfl | rfl <;> rcases read_error h' with rfl | rfl <;> simp [Alike]
  | ok o =>
    obtain ⟨o', h', hp⟩ := h1 o h
    rw [h']
    have hsane : ∀ p ∈ s.onset.phases, ∀ l, preStream s.onset s.ext (s.data (a, b) o) p = .ok l → ∀ t ∈ l, Sane t :=
      fun p _ l hl => preStream_sane hs.keeps hs.target.1 hs.target.2 (read_sane hs hw.long hw.clean h) hl
    simp only
    rw [compute_same files order hs.target.1.ne' ts (a, b) hsane hp, availability_same files order hs.target.1.ne' (a, b) hsane hp]
    have e : ∀ l : List ComputeStep.Out, l.map (Spec.onArchive s files order).sample = l.map s.sample := fun _ => rfl
    cases s.compute ts (a, b) o with
    | ok out => simp only [e]; simp [Alike]
    | error e =>
      cases e with
      | onset e => cases e <;> simp [Alike]
      | _ => simp [Alike]

theorem locate_same {files : Data.Query → List (Option (List (Rec ℚ)))} {order : List Str → List Str} {rateOf : Str → ℚ}
    (hs : Spec.PlainScan s rateOf) (ho' : SetOrder order) (mw : ℚ) (x : Trig) {p q p' q' : ℚ}
    (hw : Spec.SameWindow s (Spec.onArchive s files order) rateOf (Spec.eventWindow s mw x).1 (Spec.eventWindow s mw x).2 p q p' q') :
    (Spec.onArchive s files order).locateOutcome mw (p', q') x = s.locateOutcome mw (p, q) x ∨
    ((Spec.onArchive s files order).locateOutcome mw (p', q') x = .archiveEmpty ∨
      (Spec.onArchive s files order).locateOutcome mw (p', q') x = .dataGap) ∧
    (s.locateOutcome mw (p, q) x = .archiveEmpty ∨ s.locateOutcome mw (p, q) x = .dataGap) := by
  obtain ⟨h1, h2⟩ := read_same rfl hs ho' hw
  set w := Spec.eventWindow s mw x with hwdef
  have ew : locateWindow x.time mw (scanPads s.windows s.ttmax s.rate (4 * mw)) = (w.1, w.2) := rfl
  have ew' : locateWindow x.time mw (scanPads (Spec.onArchive s files order).windows (Spec.onArchive s files order).ttmax
    (Spec.onArchive s files order).rate (4 * mw)) = (w.1, w.2) := rfl
  unfold Scan.locateOutcome
  rw [ew, ew']
  cases h : s.readEvent (w.1, w.2) (p, q) with
  | error e =>
    cases h' : (Spec.onArchive s files order).readEvent (w.1, w.2) (p', q') with
    | ok o' => obtain ⟨o, ho, -⟩ := h2 o' h'; rw [h] at ho; cases ho
    | error e' =>
      right
      rcases read_error h with rfl | rfl <;> rcases read_error h' with rfl | rfl <;> simp
  | ok o =>
    left
    obtain ⟨o', h', hp⟩ := h1 o h
    rw [h']
    have hsane : ∀ p ∈ s.onset.phases, ∀ l, preStream s.onset s.ext (s.data (w.1, w.2) o) p = .ok l → ∀ t ∈ l, Sane t :=
      fun p _ l hl => preStream_sane hs.keeps hs.target.1 hs.target.2 (read_sane hs hw.long hw.clean h) hl
    simp only
    rw [compute_same files order hs.target.1.ne' (4 * mw) (w.1, w.2) hsane hp]
    rfl

end SameSamples

open SameSamples

/-! ## The property -/

/-- `detect` gives the same result for two archives that hold the same samples in the window of every timestep. -/
theorem C177_detect (s : Scan) (rateOf : Str → ℚ) (hs : Spec.PlainScan s rateOf)
    (files : Data.Query → List (Option (List (Rec ℚ)))) (order : List Str → List Str) (ho' : SetOrder order) (ts start stop ucf : ℚ)
    (hts : 0 < ts) (cols : List String)
    (hw : ∀ j : ℕ, start + ts * j < stop → Spec.SameWindow s (Spec.onArchive s files order) rateOf
      (start + ts * j - (Spec.padsOf s ts).1) (start + ts * (j + 1) - 1 / (s.rate : ℚ) + (Spec.padsOf s ts).2) 0 0 0 0) :
    (Spec.onArchive s files order).detect ts start stop cols ucf = s.detect ts start stop cols ucf := by
  have e : (Spec.onArchive s files order).detect ts start stop cols ucf =
      Detect.detect (s.call ts start stop cols ucf false .never).cfg start stop ((Spec.onArchive s files order).outcome ts) := rfl
  rw [e]
  unfold Scan.detect Detect.detect Detect.nSteps
  split
  · rfl
  · simp only [Option.map_some]
    congr 1
    refine loop_alike _ start _ _ _ 0 fun j _ hj => ?_
    refine outcome_same hs ho' ts (hw j ?_)
    set c := (s.call ts start stop cols ucf false .never).cfg with hc
    have ht : c.timestep = ts := rfl
    have hle : Detect.adjustedEnd c stop ≤ stop := by
      unfold Detect.adjustedEnd
      split
      · have : (0 : ℚ) ≤ c.delta := by unfold Detect.Cfg.delta; positivity
        linarith
      · exact le_rfl
    have h1 : (j : ℤ) < ⌈(Detect.adjustedEnd c stop - start) / c.timestep⌉ := by omega
    have h2 := Int.lt_ceil.1 h1
    rw [ht, lt_div_iff₀ hts] at h2
    push_cast at h2
    linarith

/-- `locate` gives the same events and origin times for two archives that hold the same samples in the window of every event,
whatever the padding for magnitudes and for cut waveforms: with `extra` seconds of additional data read for one and `extra'` for
the other. -/
theorem C177_locate (s : Scan) (rateOf : Str → ℚ) (hs : Spec.PlainScan s rateOf)
    (files : Data.Query → List (Option (List (Rec ℚ)))) (order : List Str → List Str) (ho' : SetOrder order) (mw : ℚ)
    (amp amp' : Option (ℚ × ℚ)) (preCut postCut preCut' postCut' : Option ℚ) (extra extra' : ℚ × ℚ)
    (hextra : extra = eventPads mw (Spec.padsOf s (4 * mw)) amp preCut postCut)
    (hextra' : extra' = eventPads mw (Spec.padsOf s (4 * mw)) amp' preCut' postCut') (later : Trig → Later) (events : List Trig)
    (hw : ∀ x ∈ events, Spec.SameWindow s (Spec.onArchive s files order) rateOf (Spec.eventWindow s mw x).1
      (Spec.eventWindow s mw x).2 extra.1 extra.2 extra'.1 extra'.2) :
    (Spec.onArchive s files order).locate mw amp' preCut' postCut' later events =
      s.locate mw amp preCut postCut later events := by
  have e1 : s.locate mw amp preCut postCut later events =
      Locate.locateEvents mw (s.locateOutcome mw extra) later events := by rw [hextra]; rfl
  have e2 : (Spec.onArchive s files order).locate mw amp' preCut' postCut' later events =
      Locate.locateEvents mw ((Spec.onArchive s files order).locateOutcome mw extra') later events := by rw [hextra']; rfl
  rw [e1, e2]
  exact locate_alike mw _ _ later events fun x hx => locate_same hs ho' mw x (hw x hx)

/-! ## A case that meets the hypotheses: the archive of `WaveLocate.pulseScan`, and one with the same samples up to 7 s in two files
and other samples after that -/

namespace SameSamples

open WaveLocate DetectShift OnsetValue OnsetGain

def whole : Rec ℚ := ⟨"Z".toList, 1, ⟨0, [1, 1, 1, 1, 1, 9, 1, 1, 50, 60]⟩⟩
def first : Rec ℚ := ⟨"Z".toList, 1, ⟨0, [1, 1, 1, 1]⟩⟩
def second : Rec ℚ := ⟨"Z".toList, 1, ⟨4, [1, 9, 1, 1, 70, 80, 90]⟩⟩

def cutFiles : Data.Query → List (Option (List (Rec ℚ))) := fun q => if q.day = 0 then [some [second], some [first]] else []

theorem pulse_plain : Spec.PlainScan pulseScan (fun _ => 1) where
  order := fun l => ⟨List.nodup_dedup l, fun _ => List.mem_dedup⟩
  toSample := fun _ _ => rfl
  toSampleId := fun _ => rfl
  stations := List.nodup_singleton _
  rates := fun i => ⟨by norm_num, by norm_num, fun u h => by cases h⟩
  target := ⟨by norm_num [pulseScan, exScan, plainCfg, exCfg], by norm_num [pulseScan, exScan, plainCfg, exCfg]⟩
  keeps := ⟨fun _ _ h => h, fun _ _ h => h, fun s e b b' h hb => by
    have : some b = some b' := h
    rw [← Option.some.inj this]; exact hb, fun _ _ _ _ h => h⟩

theorem pulse_found (q : ℚ) (hq : q = 2 ∨ q = 0) : Spec.found pulseScan (0 - 0) (7 + q) = [some [whole]] := by
  unfold Spec.found
  show (loadFromPath false ["ST01".toList] (0 - 0) (7 + q)).flatMap pulseScan.files = _
  have hl : loadFromPath false ["ST01".toList] (0 - 0) (7 + q) = [⟨0, some "ST01".toList⟩] := by
    unfold loadFromPath
    have h0 : TriggerFiles.dayNum (0 - 0 : ℚ) = 0 := by decide +kernel
    rcases hq with rfl | rfl
    all_goals
      rw [h0, TriggerFiles.readDays, dif_pos (by decide +kernel), TriggerFiles.readDays, dif_neg (by decide +kernel)]
      rfl
  rw [hl]
  rfl

theorem cut_found : Spec.found (Spec.onArchive pulseScan cutFiles fun l => l.dedup.reverse) (0 - 0) (7 + 0) =
    [some [second], some [first]] := by
  unfold Spec.found
  show (loadFromPath false ["ST01".toList] (0 - 0) (7 + 0)).flatMap cutFiles = _
  have hl : loadFromPath false ["ST01".toList] (0 - 0) (7 + 0) = [⟨0, some "ST01".toList⟩] := by
    unfold loadFromPath
    have h0 : TriggerFiles.dayNum (0 - 0 : ℚ) = 0 := by decide +kernel
    rw [h0, TriggerFiles.readDays, dif_pos (by decide +kernel), TriggerFiles.readDays, dif_neg (by decide +kernel)]
    rfl
  rw [hl]
  rfl

theorem recorded_whole (i : Str) (t v : ℚ) : Recorded [some [whole]] i t v ↔ "Z".toList = i ∧ HasSample whole t v := by
  unfold Recorded
  have h1 : whole.id = "Z".toList := rfl
  simp [h1]

theorem recorded_cut (i : Str) (t v : ℚ) : Recorded [some [second], some [first]] i t v ↔
    "Z".toList = i ∧ (HasSample first t v ∨ HasSample second t v) := by
  unfold Recorded
  have h1 : first.id = "Z".toList := rfl
  have h2 : second.id = "Z".toList := rfl
  simp [h1, h2]
  tauto

theorem whole_iff (t v : ℚ) : HasSample whole t v ↔ ∃ n : ℕ, ([1, 1, 1, 1, 1, 9, 1, 1, 50, 60] : List ℚ)[n]? = some v ∧ t = n := by
  unfold HasSample whole
  simp

theorem cut_iff (t v : ℚ) : HasSample first t v ∨ HasSample second t v ↔
    ∃ n : ℕ, ([1, 1, 1, 1, 1, 9, 1, 1, 70, 80, 90] : List ℚ)[n]? = some v ∧ t = n := by
  unfold HasSample first second
  simp only [div_one, zero_add]
  constructor
  · rintro (⟨n, h1, h2⟩ | ⟨n, h1, h2⟩)
    · have hn := (List.getElem?_eq_some_iff.1 h1).1
      simp only [List.length_cons, List.length_nil] at hn
      refine ⟨n, ?_, h2⟩
      rw [← h1]
      have : n = 0 ∨ n = 1 ∨ n = 2 ∨ n = 3 := by omega
      rcases this with rfl | rfl | rfl | rfl <;> rfl
    · exact ⟨4 + n, by rw [← h1, Nat.add_comm]; rfl, by rw [h2]; push_cast; ring⟩
  · rintro ⟨n, h1, h2⟩
    by_cases hn : n < 4
    · left
      refine ⟨n, ?_, h2⟩
      rw [← h1]
      have : n = 0 ∨ n = 1 ∨ n = 2 ∨ n = 3 := by omega
      rcases this with rfl | rfl | rfl | rfl <;> rfl
    · right
      obtain ⟨m, rfl⟩ := Nat.exists_eq_add_of_le (not_lt.1 hn)
      exact ⟨m, by rw [← h1, Nat.add_comm]; rfl, by rw [h2]; push_cast; ring⟩

theorem pulse_same (q : ℚ) (hq : q = 2 ∨ q = 0) :
    Spec.SameWindow pulseScan (Spec.onArchive pulseScan cutFiles fun l => l.dedup.reverse) (fun _ => 1) 0 7 0 q 0 0 where
  long := fun _ => by norm_num
  clean := fun i => by
    rw [pulse_found q hq]
    refine .of_window one_pos ?_ ?_ ?_ ⟨7, by norm_num⟩
    · intro recs h r hr _
      obtain rfl : recs = [whole] := by simpa using h
      obtain rfl : r = whole := by simpa using hr
      rfl
    · intro recs h r hr _
      obtain rfl : recs = [whole] := by simpa using h
      obtain rfl : r = whole := by simpa using hr
      exact ⟨0, by norm_num [whole]⟩
    · intro t v w hv hw
      obtain ⟨n, h1, h2⟩ := (whole_iff t v).1 ((recorded_whole i t v).1 hv).2
      obtain ⟨m, h3, h4⟩ := (whole_iff t w).1 ((recorded_whole i t w).1 hw).2
      have : n = m := by rw [h2] at h4; exact_mod_cast h4
      subst this
      rw [h1] at h3
      exact Option.some.inj h3
  clean' := fun i => by
    rw [cut_found]
    refine .of_window one_pos ?_ ?_ ?_ ⟨7, by norm_num⟩
    · intro recs h r hr _
      rcases (by simpa using h : recs = [second] ∨ recs = [first]) with rfl | rfl
      · obtain rfl : r = second := by simpa using hr
        rfl
      · obtain rfl : r = first := by simpa using hr
        rfl
    · intro recs h r hr _
      rcases (by simpa using h : recs = [second] ∨ recs = [first]) with rfl | rfl
      · obtain rfl : r = second := by simpa using hr
        exact ⟨4, by norm_num [second]⟩
      · obtain rfl : r = first := by simpa using hr
        exact ⟨0, by norm_num [first]⟩
    · intro t v w hv hw
      obtain ⟨n, h1, h2⟩ := (cut_iff t v).1 ((recorded_cut i t v).1 hv).2
      obtain ⟨m, h3, h4⟩ := (cut_iff t w).1 ((recorded_cut i t w).1 hw).2
      have : n = m := by rw [h2] at h4; exact_mod_cast h4
      subst this
      rw [h1] at h3
      exact Option.some.inj h3
  same := fun i t v _ hb => by
    rw [pulse_found q hq, cut_found, recorded_whole, recorded_cut, cut_iff, whole_iff]
    refine and_congr_right fun _ => exists_congr fun n => ?_
    constructor
    all_goals
      rintro ⟨h1, rfl⟩
      refine ⟨?_, rfl⟩
      rw [← h1]
      have hn : n < 8 := by
        by_contra hge
        have : (8 : ℚ) ≤ n := by exact_mod_cast not_lt.1 hge
        norm_num at hb
        linarith
      have : n = 0 ∨ n = 1 ∨ n = 2 ∨ n = 3 ∨ n = 4 ∨ n = 5 ∨ n = 6 ∨ n = 7 := by omega
      rcases this with rfl | rfl | rfl | rfl | rfl | rfl | rfl | rfl <;> rfl

/-- The event is located from the cut archive as from the whole one. -/
theorem cut_locate (x : Trig) (hx : x.time = 3) :
    (x, 3) ∈ ((Spec.onArchive pulseScan cutFiles fun l => l.dedup.reverse).locate 1 none none none (fun _ => .fine) [x]).written := by
  have hno : eventPads 1 (Spec.padsOf pulseScan (4 * 1)) none none none = (0, 0) := by
    rw [pulse_pads]
    norm_num [eventPads]
  rw [C177_locate pulseScan (fun _ => 1) pulse_plain cutFiles _
    (fun l => ⟨List.nodup_reverse.2 (List.nodup_dedup l), fun _ => by simp⟩) 1 none none none (some 5) none none (0, 2) (0, 0)
    pulse_extra.symm hno.symm (fun _ => .fine) [x] (by
      intro y hy
      obtain rfl := List.mem_singleton.1 hy
      rw [pulse_window y hx]
      exact pulse_same 2 (Or.inl rfl))]
  exact pulse_located x hx

/-- One timestep of five seconds. -/
example (cols : List String) : (Spec.onArchive pulseScan cutFiles fun l => l.dedup.reverse).detect 5 1 6 cols 1 =
    pulseScan.detect 5 1 6 cols 1 := by
  refine C177_detect pulseScan (fun _ => 1) pulse_plain cutFiles _
    (fun l => ⟨List.nodup_reverse.2 (List.nodup_dedup l), fun _ => by simp⟩) 5 1 6 1 (by norm_num) cols fun j hj => ?_
  have hp : Spec.padsOf pulseScan 5 = (1, 2) := by
    show scanPads ⟨(0, 0), []⟩ 1 ((1 : ℕ) : ℚ) 5 = (1, 2)
    decide +kernel
  have h0 : j = 0 := by
    by_contra hne
    have : (1 : ℚ) ≤ j := by exact_mod_cast Nat.one_le_iff_ne_zero.2 hne
    linarith
  rw [hp, h0]
  have hr : ((pulseScan.rate : ℕ) : ℚ) = 1 := by norm_num [pulseScan, exScan]
  rw [hr]
  have := pulse_same 0 (Or.inr rfl)
  norm_num at this ⊢
  exact this

end SameSamples

end QM
