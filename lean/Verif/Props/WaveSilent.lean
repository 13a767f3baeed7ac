import Verif.Props.WaveUnused
import Verif.Props.CalcOnsets

/-!
# A station without any data in the archive changes nothing: C181
-/

namespace QM

open QM.Waveforms QM.WaveDetect QM.CalcOnsets QM.Spec
open QM.Data (loadFromPath)
open QM.Locate (Trig Later)
open QM.Pads (locateWindow scanPads)

/-! ## Specification -/

/-- The archive has no record of the station: its patterns find none, and none found otherwise is of this station. -/
structure Spec.Silent (s : Scan) (a : Str) : Prop where
  patterns : ∀ q, q.station = some a → ∀ recs, some recs ∈ s.files q → recs = []
  others : ∀ q, ∀ recs, some recs ∈ s.files q → ∀ r ∈ recs, s.ext.ofStation a r.id = false ∧ stationCode r.id ≠ a

/-- The scan with some stations taken out of the list of stations. -/
def Spec.without (s : Scan) (dead : List Str) : Scan := { s with stations := s.stations.filter fun a => !dead.contains a }

namespace WaveSilent

/-! ### Reading -/

theorem mem_merge {order : List Str → List Str} (ho : SetOrder order) {l : List (Rec ℚ)} {r : Rec ℚ}
    (h : r ∈ mergeStream order l) : ∃ r' ∈ l, r'.id = r.id := by
  have h1 : r ∈ (mergeStream order l).filter (fun x : Rec ℚ => decide (x.id = r.id)) := List.mem_filter.2 ⟨h, by simp⟩
  rw [mergeStream_channel ho] at h1
  by_contra hc
  push Not at hc
  have : (l.filter fun x : Rec ℚ => decide (x.id = r.id)) = [] := by
    rw [List.filter_eq_nil_iff]
    intro x hx
    simpa using hc x hx
  rw [this] at h1
  exact absurd h1 (by simp [mergeChannel])

theorem mem_readAll {q : Req} {fs : List (Option (List (Rec ℚ)))} {r : Rec ℚ} (h : r ∈ readAllFiles q fs) :
    ∃ recs, some recs ∈ fs ∧ ∃ r' ∈ recs, r'.id = r.id := by
  unfold readAllFiles at h
  obtain ⟨f, h1, h2⟩ := List.mem_flatMap.1 h
  cases f with
  | none => simp at h2
  | some recs =>
    refine ⟨recs, h1, ?_⟩
    unfold readFile at h2
    obtain ⟨r', h3, rfl⟩ := List.mem_map.1 (List.mem_filter.1 h2).1
    exact ⟨r', h3, rfl⟩

theorem readAll_append (q : Req) (a b : List (Option (List (Rec ℚ)))) :
    readAllFiles q (a ++ b) = readAllFiles q a ++ readAllFiles q b := by
  unfold readAllFiles
  rw [List.flatMap_append]

theorem readAll_silent (q : Req) (fs : List (Option (List (Rec ℚ)))) (h : ∀ recs, some recs ∈ fs → recs = []) :
    readAllFiles q fs = [] := by
  unfold readAllFiles
  rw [List.flatMap_eq_nil_iff]
  intro f hf
  cases f with
  | none => rfl
  | some recs => rw [h recs hf]; rfl

variable {s : Scan} {dead : List Str}

/-- The records found are the same. -/
theorem readAll_found (hd : ∀ a ∈ dead, Spec.Silent s a) (q : Req) (a b : ℚ) :
    readAllFiles q (Spec.found (Spec.without s dead) a b) = readAllFiles q (Spec.found s a b) := by
  unfold Spec.found loadFromPath
  have e : (Spec.without s dead).readAll = s.readAll := rfl
  have e' : (Spec.without s dead).files = s.files := rfl
  rw [e, e']
  cases s.readAll with
  | true => rfl
  | false =>
    induction TriggerFiles.readDays (TriggerFiles.dayNum a) b with
    | nil => rfl
    | cons d l ih =>
      rw [List.flatMap_cons, List.flatMap_cons, List.flatMap_append, List.flatMap_append, readAll_append, readAll_append, ih]
      congr 1
      show readAllFiles q (((s.stations.filter fun a => !dead.contains a).map fun s => (⟨d, some s⟩ : Data.Query)).flatMap s.files) =
        readAllFiles q ((s.stations.map fun s => (⟨d, some s⟩ : Data.Query)).flatMap s.files)
      generalize s.stations = l
      induction l with
      | nil => rfl
      | cons x l ih =>
        rw [List.map_cons, List.flatMap_cons, readAll_append, ← ih]
        by_cases hx : x ∈ dead
        · rw [List.filter_cons_of_neg (by simpa using hx), readAll_silent q _ ((hd x hx).patterns _ rfl)]
          rfl
        · rw [List.filter_cons_of_pos (by simpa using hx), List.map_cons, List.flatMap_cons, readAll_append]

theorem select_without (stations : List Str) (win extra : ℚ × ℚ) (b : Bool) (st : List (Rec ℚ))
    (h : ∀ a ∈ dead, ∀ r ∈ st, stationCode r.id ≠ a) :
    selectStations ⟨win.1, win.2, extra.1, extra.2, b, stations.filter fun a => !dead.contains a⟩ st =
      selectStations ⟨win.1, win.2, extra.1, extra.2, b, stations⟩ st := by
  unfold selectStations
  cases b with
  | false => rfl
  | true =>
    simp only [if_true]
    induction stations with
    | nil => rfl
    | cons x l ih =>
      rw [List.flatMap_cons, ← ih]
      by_cases hx : x ∈ dead
      · rw [List.filter_cons_of_neg (by simpa using hx)]
        have : (st.filter fun r : Rec ℚ => decide (stationCode r.id = x)) = [] := by
          rw [List.filter_eq_nil_iff]
          intro r hr
          simpa using h x hx r hr
        rw [this]
        rfl
      · rw [List.filter_cons_of_pos (by simpa using hx), List.flatMap_cons]

/-- What is read is the same. -/
theorem got_without (ho : SetOrder s.order) (hid : KeepsId s.toSample) (hd : ∀ a ∈ dead, Spec.Silent s a) (win extra : ℚ × ℚ) :
    WaveUnused.got (Spec.without s dead) win extra = WaveUnused.got s win extra := by
  rw [WaveUnused.got_eq ho, WaveUnused.got_eq (s := Spec.without s dead) ho]
  unfold ReadSamples.window
  have e1 : ∀ l, readAllFiles ⟨win.1, win.2, extra.1, extra.2, s.readAll, (Spec.without s dead).stations⟩ l =
      readAllFiles (V := ℚ) ⟨win.1, win.2, extra.1, extra.2, s.readAll, s.stations⟩ l := fun _ => rfl
  have e2 := readAll_found hd ⟨win.1, win.2, extra.1, extra.2, s.readAll, s.stations⟩ (win.1 - extra.1) (win.2 + extra.2)
  show trimWindow ⟨win.1, win.2, extra.1, extra.2, s.readAll, s.stations⟩
    (selectStations ⟨win.1, win.2, extra.1, extra.2, s.readAll, s.stations.filter fun a => !dead.contains a⟩
      ((mergeStream s.order (readAllFiles ⟨win.1, win.2, extra.1, extra.2, s.readAll, s.stations⟩
        (Spec.found (Spec.without s dead) (win.1 - extra.1) (win.2 + extra.2)))).map s.toSample)) = _
  rw [e2, select_without]
  intro a ha r hr
  obtain ⟨r1, h1, rfl⟩ := List.mem_map.1 hr
  obtain ⟨r2, h2, h3⟩ := mem_merge ho h1
  obtain ⟨recs, h4, r3, h5, h6⟩ := mem_readAll h2
  obtain ⟨q, -, h7⟩ := List.mem_flatMap.1 h4
  rw [hid, ← h3, ← h6]
  exact ((hd a ha).others q recs h7 r3 h5).2

/-- Nothing of the stations is read. -/
theorem got_silent (ho : SetOrder s.order) (hid : KeepsId s.toSample) {a : Str} (hd : Spec.Silent s a) {win extra : ℚ × ℚ}
    {r : Rec ℚ} (hr : r ∈ WaveUnused.got s win extra) : s.ext.ofStation a r.id = false := by
  rw [WaveUnused.got_eq ho] at hr
  unfold ReadSamples.window at hr
  have h0 : ∃ r0 ∈ (mergeStream s.order (readAllFiles ⟨win.1, win.2, extra.1, extra.2, s.readAll, s.stations⟩
      (Spec.found s (win.1 - extra.1) (win.2 + extra.2)))).map s.toSample, r0.id = r.id := by
    have hsel : ∀ r1 ∈ selectStations ⟨win.1, win.2, extra.1, extra.2, s.readAll, s.stations⟩
        ((mergeStream s.order (readAllFiles ⟨win.1, win.2, extra.1, extra.2, s.readAll, s.stations⟩
          (Spec.found s (win.1 - extra.1) (win.2 + extra.2)))).map s.toSample),
        r1 ∈ (mergeStream s.order (readAllFiles ⟨win.1, win.2, extra.1, extra.2, s.readAll, s.stations⟩
          (Spec.found s (win.1 - extra.1) (win.2 + extra.2)))).map s.toSample := by
      intro r1 h1
      unfold selectStations at h1
      split at h1
      · obtain ⟨_, _, h2⟩ := List.mem_flatMap.1 h1
        exact (List.mem_filter.1 h2).1
      · exact h1
    unfold trimWindow at hr
    split at hr
    · unfold readFile at hr
      obtain ⟨r1, h1, rfl⟩ := List.mem_map.1 (List.mem_filter.1 hr).1
      exact ⟨r1, hsel r1 h1, rfl⟩
    · exact ⟨r, hsel r hr, rfl⟩
  obtain ⟨r0, h0, hr0⟩ := h0
  obtain ⟨r1, h1, rfl⟩ := List.mem_map.1 h0
  obtain ⟨r2, h2, h3⟩ := mem_merge ho h1
  obtain ⟨recs, h4, r3, h5, h6⟩ := mem_readAll h2
  obtain ⟨q, -, h7⟩ := List.mem_flatMap.1 h4
  rw [← hr0, hid, ← h3, ← h6]
  exact (hd.others q recs h7 r3 h5).1

/-! ### Onset functions -/

/-- Keys of the availability that are not of a station left out. -/
def live (c : CalcOnsets.Cfg) (stations dead : List Str) (k : Str) : Bool :=
  !(stations.any fun a => dead.contains a && c.phases.any fun p => decide (k = Compute.key a p))

/-- The results with (`o`) and without (`o'`) the stations left out. -/
structure Rel (q : Str → Bool) (o o' : CalcOnsets.Out) : Prop where
  onsets : o'.onsets = o.onsets
  used : o'.used = o.used
  avail : o'.availability = o.availability.filter fun e => q e.1
  zero : ∀ e ∈ o.availability, q e.1 = false → e.2 = 0
  plain : ∀ e ∈ o.availability, q e.1 = false → ∃ a p, Compute.splitU e.1 = [a, p]

theorem dictSet_live (q : Str → Bool) (d : List (Str × ℕ)) (k : Str) (v : ℕ) (hk : q k = true) :
    (Compute.dictSet d k v).filter (fun e => q e.1) = Compute.dictSet (d.filter fun e => q e.1) k v := by
  unfold Compute.dictSet
  have h1 : ((d.filter fun e => q e.1).any fun e => decide (e.1 = k)) = d.any fun e => decide (e.1 = k) := by
    rw [List.any_filter]
    congr 1
    funext e
    by_cases h : e.1 = k
    · simp [h, hk]
    · simp [h]
  rw [h1]
  split
  · rw [List.filter_map]
    congr 1
    apply List.filter_congr
    intro e _
    simp only [Function.comp]
    split
    · next h => rw [h]
    · rfl
  · rw [List.filter_append, List.filter_cons_of_pos (by simpa using hk), List.filter_nil]

theorem dictSet_dead (q : Str → Bool) (d : List (Str × ℕ)) (k : Str) (v : ℕ) (hk : q k = false) :
    (Compute.dictSet d k v).filter (fun e => q e.1) = d.filter fun e => q e.1 := by
  unfold Compute.dictSet
  split
  · rw [List.filter_map]
    have : ((d.filter ((fun e : Str × ℕ => q e.1) ∘ fun e => if e.1 = k then (k, v) else e))) = d.filter fun e => q e.1 := by
      apply List.filter_congr
      intro e _
      simp only [Function.comp]
      split
      · next h => rw [h]
      · rfl
    rw [this]
    conv_rhs => rw [← List.map_id (d.filter fun e => q e.1)]
    apply List.map_congr_left
    intro e he
    rw [if_neg]
    · rfl
    · intro h
      have := (List.mem_filter.1 he).2
      rw [h, hk] at this
      cases this
  · rw [List.filter_append, List.filter_cons_of_neg (by simp [hk]), List.filter_nil, List.append_nil]

theorem mem_set {d : List (Str × ℕ)} {k : Str} {v : ℕ} {e : Str × ℕ} (h : e ∈ Compute.dictSet d k v) : e = (k, v) ∨ e ∈ d := by
  unfold Compute.dictSet at h
  split at h
  · obtain ⟨e0, h1, h2⟩ := List.mem_map.1 h
    split at h2
    · exact Or.inl h2.symm
    · exact Or.inr (h2 ▸ h1)
  · rcases List.mem_append.1 h with h | h
    · exact Or.inr h
    · exact Or.inl (List.mem_singleton.1 h)

variable {c : CalcOnsets.Cfg} {x : Ext} {d : CalcOnsets.Data}

theorem Rel.setLive {q : Str → Bool} {o o' : CalcOnsets.Out} (h : Rel q o o') {k : Str} (hk : q k = true) (v : ℕ)
    (f : List ((Str × Str) × List (Option ℝ))) (u : List (Str × List ℚ)) :
    Rel q ⟨Compute.dictSet o.availability k v, o.onsets ++ f, o.used ++ u⟩
      ⟨Compute.dictSet o'.availability k v, o'.onsets ++ f, o'.used ++ u⟩ where
  onsets := by simp only [h.onsets]
  used := by simp only [h.used]
  avail := by simp only [h.avail]; exact (dictSet_live q _ k v hk).symm
  zero := by
    intro e he hq
    rcases mem_set he with rfl | he
    · rw [hk] at hq; cases hq
    · exact h.zero e he hq
  plain := by
    intro e he hq
    rcases mem_set he with rfl | he
    · rw [hk] at hq; cases hq
    · exact h.plain e he hq

theorem Rel.setDead {q : Str → Bool} {o o' : CalcOnsets.Out} (h : Rel q o o') {k : Str} (hk : q k = false)
    (hp : ∃ a p, Compute.splitU k = [a, p]) : Rel q { o with availability := Compute.dictSet o.availability k 0 } o' where
  onsets := h.onsets
  used := h.used
  avail := by rw [h.avail]; exact (dictSet_dead q _ k 0 hk).symm
  zero := by
    intro e he hq
    rcases mem_set he with rfl | he
    · rfl
    · exact h.zero e he hq
  plain := by
    intro e he hq
    rcases mem_set he with rfl | he
    · exact hp
    · exact h.plain e he hq

theorem live_true (hn : Spec.PlainNames c.phases d.stations) {a p : Str} (ha : a ∈ d.stations) (hp : p ∈ c.phases)
    (hd : a ∉ dead) : live c d.stations dead (Compute.key a p) = true := by
  unfold live
  rw [Bool.not_eq_true', List.any_eq_false]
  intro b hb
  simp only [Bool.and_eq_true, List.contains_iff_mem, List.any_eq_true, decide_eq_true_eq, not_and]
  rintro h1 ⟨p', hp', h2⟩
  obtain ⟨h3, -⟩ := Compute.key_inj (hn.station a ha) (hn.phase p hp) (hn.station b hb) (hn.phase p' hp') h2
  exact hd (h3 ▸ h1)

theorem live_false {a p : Str} (ha : a ∈ d.stations) (hp : p ∈ c.phases) (hd : a ∈ dead) :
    live c d.stations dead (Compute.key a p) = false := by
  unfold live
  rw [Bool.not_eq_false', List.any_eq_true]
  exact ⟨a, ha, by simpa using ⟨hd, p, hp, rfl⟩⟩

theorem stationPhase_silent (hx : KeepsIds x) {p : Str} {l : List Data.Trace} (h : preStream c x d p = .ok l) {a : Str}
    (ha : ∀ t ∈ d.waveforms, x.ofStation a t.id = false) : stationPhase c x d p l a = .ok none := by
  have h1 := preStream_filter c x hx d p (fun i => x.ofStation a i) l h
  have h2 : (d.waveforms.filter fun t => x.ofStation a t.id) = [] := by
    rw [List.filter_eq_nil_iff]
    intro t ht
    rw [ha t ht]
    simp
  rw [h2] at h1
  have h3 : (l.filter fun t => x.ofStation a t.id) = [] := by
    have hr : Util.resample x.dsp (x.trim d.start d.stop) c.sr d.resample d.upfactor ([] : List (Util.RTr Body)) = some [] := by
      simp [Util.resample]
    unfold preStream Filters.preProcess at h1
    simp only [List.filter_nil, List.map_nil, hr] at h1
    by_cases hny : c.high p ≥ 1 / 2 * c.sr
    · rw [if_pos hny] at h1; cases h1
    · rw [if_neg hny] at h1
      exact (Except.ok.inj h1).symm
  unfold stationPhase
  simp only
  rw [h3]
  unfold Data.checkAvailability
  simp

theorem stationLoop_without (hx : KeepsIds x) (hn : Spec.PlainNames c.phases d.stations)
    (hd : ∀ a ∈ dead, ∀ t ∈ d.waveforms, x.ofStation a t.id = false) {p : Str} (hp : p ∈ c.phases) {w : List Data.Trace}
    (hw : preStream c x d p = .ok w) (l : List Str) : (∀ a ∈ l, a ∈ d.stations) → ∀ o o', Rel (live c d.stations dead) o o' →
      (∃ e, stationLoop c x d p w l o = .error e ∧ stationLoop c x d p w (l.filter fun a => !dead.contains a) o' = .error e) ∨
      ∃ r r', stationLoop c x d p w l o = .ok r ∧ stationLoop c x d p w (l.filter fun a => !dead.contains a) o' = .ok r' ∧
        Rel (live c d.stations dead) r r' := by
  induction l with
  | nil => intro _ o o' h; exact Or.inr ⟨o, o', rfl, rfl, h⟩
  | cons a l ih =>
    intro hl o o' h
    have ih := ih fun b hb => hl b (by simp [hb])
    have hal := hl a (by simp)
    by_cases ha : a ∈ dead
    · rw [List.filter_cons_of_neg (by simpa using ha)]
      have h1 : stationLoop c x d p w (a :: l) o = stationLoop c x d p w l
          { o with availability := Compute.dictSet o.availability (Compute.key a p) 0 } := by
        conv_lhs => unfold stationLoop
        rw [stationPhase_silent hx hw (hd a ha)]
      rw [h1]
      exact ih _ _ (h.setDead (live_false hal hp ha) ⟨a, p, Compute.splitU_key (hn.station a hal) (hn.phase p hp)⟩)
    · rw [List.filter_cons_of_pos (by simpa using ha)]
      unfold stationLoop
      have hlive := live_true (dead := dead) hn hal hp ha
      cases stationPhase c x d p w a with
      | error e => exact Or.inl ⟨e, rfl, rfl⟩
      | ok r =>
        cases r with
        | none =>
          have := h.setLive hlive 0 [] []
          simp only [List.append_nil] at this
          exact ih _ _ this
        | some r => exact ih _ _ (h.setLive hlive 1 [((a, p), r.2)] r.1)

theorem phaseLoop_without (hx : KeepsIds x) (hn : Spec.PlainNames c.phases d.stations)
    (hd : ∀ a ∈ dead, ∀ t ∈ d.waveforms, x.ofStation a t.id = false) (l : List Str) : (∀ p ∈ l, p ∈ c.phases) → ∀ o o',
      Rel (live c d.stations dead) o o' →
      (∃ e, phaseLoop c x d l o = .error e ∧
        phaseLoop c x { d with stations := d.stations.filter fun a => !dead.contains a } l o' = .error e) ∨
      ∃ r r', phaseLoop c x d l o = .ok r ∧
        phaseLoop c x { d with stations := d.stations.filter fun a => !dead.contains a } l o' = .ok r' ∧
        Rel (live c d.stations dead) r r' := by
  induction l with
  | nil => intro _ o o' h; exact Or.inr ⟨o, o', rfl, rfl, h⟩
  | cons p l ih =>
    intro hl o o' h
    have ih := ih fun b hb => hl b (by simp [hb])
    have hp := hl p (by simp)
    unfold phaseLoop
    have hps : preStream c x { d with stations := d.stations.filter fun a => !dead.contains a } p = preStream c x d p := rfl
    rw [hps]
    cases hw : preStream c x d p with
    | error e => exact Or.inl ⟨e, rfl, rfl⟩
    | ok w =>
      simp only
      have e : ∀ l o, stationLoop c x { d with stations := d.stations.filter fun a => !dead.contains a } p w l o =
          stationLoop c x d p w l o := by
        intro l
        induction l with
        | nil => intro o; rfl
        | cons a l ih =>
          intro o
          unfold stationLoop
          have : stationPhase c x { d with stations := d.stations.filter fun a => !dead.contains a } p w a =
            stationPhase c x d p w a := rfl
          rw [this]
          simp only [ih]
      rw [e]
      rcases stationLoop_without hx hn hd hp hw d.stations (fun _ h => h) o o' h with ⟨e, h1, h2⟩ | ⟨r, r', h1, h2, h3⟩
      · rw [h1, h2]; exact Or.inl ⟨e, rfl, rfl⟩
      · rw [h1, h2]; exact ih r r' h3

theorem Rel.sum {q : Str → Bool} {o o' : CalcOnsets.Out} (h : Rel q o o') :
    (o'.availability.map Prod.snd).sum = (o.availability.map Prod.snd).sum := by
  rw [h.avail]
  have := h.zero
  generalize o.availability = l at this
  induction l with
  | nil => rfl
  | cons e l ih =>
    have ih := ih fun e he => this e (by simp [he])
    cases hq : q e.1 with
    | true => rw [List.filter_cons_of_pos (by simpa using hq)]; simp only [List.map_cons, List.sum_cons, ih]
    | false =>
      rw [List.filter_cons_of_neg (by simp [hq])]
      simp only [List.map_cons, List.sum_cons, ih, this e (by simp) hq, zero_add]

theorem Rel.serve {q : Str → Bool} {o o' : CalcOnsets.Out} (h : Rel q o o') (L : Compute.Lut) (sr : ℚ) :
    Compute.serveTraveltimes L sr o'.availability = Compute.serveTraveltimes L sr o.availability := by
  unfold Compute.serveTraveltimes
  have : Compute.serve L o'.availability = Compute.serve L o.availability := by
    rw [h.avail]
    have h1 := h.zero
    have h2 := h.plain
    generalize o.availability = l at h1 h2
    induction l with
    | nil => rfl
    | cons e l ih =>
      have ih := ih (fun e he => h1 e (by simp [he])) (fun e he => h2 e (by simp [he]))
      obtain ⟨k, v⟩ := e
      cases hq : q k with
      | true =>
        rw [List.filter_cons_of_pos (by simpa using hq)]
        unfold Compute.serve
        rw [ih]
      | false =>
        rw [List.filter_cons_of_neg (by simp [hq]), ih]
        obtain ⟨a, p, h3⟩ := h2 (k, v) (by simp) hq
        have h4 : v = 0 := h1 (k, v) (by simp) hq
        conv_rhs => unfold Compute.serve
        simp only at h3
        rw [h3, h4]
        simp
  rw [this]

theorem Rel.lookup {q : Str → Bool} {o o' : CalcOnsets.Out} (h : Rel q o o') (k : Str) :
    (o'.availability.lookup k).getD 0 = (o.availability.lookup k).getD 0 := by
  rw [h.avail]
  have := h.zero
  generalize o.availability = l at this
  induction l with
  | nil => rfl
  | cons e l ih =>
    have ih := ih fun e he => this e (by simp [he])
    obtain ⟨k', v⟩ := e
    cases hq : q k' with
    | true =>
      rw [List.filter_cons_of_pos (by simpa using hq), List.lookup_cons, List.lookup_cons]
      cases k == k' with
      | true => rfl
      | false => exact ih
    | false =>
      rw [List.filter_cons_of_neg (by simp [hq]), List.lookup_cons]
      cases hk : k == k' with
      | false => exact ih
      | true =>
        have hz : v = 0 := this (k', v) (by simp) hq
        rw [hz]
        have hkk : k = k' := by simpa using hk
        subst hkk
        have hno : ((l.filter fun e => q e.1).lookup k) = none := by
          rw [List.lookup_eq_none_iff]
          intro e he
          have := (List.mem_filter.1 he).2
          by_contra hc
          have hc : k = e.1 := by simpa using hc
          rw [← hc, hq] at this
          cases this
        rw [hno]
        rfl

/-- Onset functions with and without the stations. -/
theorem calculateOnsets_without (hx : KeepsIds x) (hn : Spec.PlainNames c.phases d.stations)
    (hd : ∀ a ∈ dead, ∀ t ∈ d.waveforms, x.ofStation a t.id = false) :
    (∃ e, calculateOnsets c x d = .error e ∧
      calculateOnsets c x { d with stations := d.stations.filter fun a => !dead.contains a } = .error e) ∨
    ∃ o o', calculateOnsets c x d = .ok o ∧
      calculateOnsets c x { d with stations := d.stations.filter fun a => !dead.contains a } = .ok o' ∧
      Rel (live c d.stations dead) o o' := by
  have h0 : Rel (live c d.stations dead) ⟨[], [], []⟩ ⟨[], [], []⟩ := ⟨rfl, rfl, rfl, by simp, by simp⟩
  unfold calculateOnsets
  rcases phaseLoop_without hx hn hd c.phases (fun _ h => h) _ _ h0 with ⟨e, h1, h2⟩ | ⟨r, r', h1, h2, h3⟩
  · rw [h1, h2]; exact Or.inl ⟨e, rfl, rfl⟩
  · rw [h1, h2]
    simp only
    rw [h3.sum, h3.onsets]
    by_cases hs : (r.availability.map Prod.snd).sum = 0
    · rw [if_pos hs, if_pos hs]; exact Or.inl ⟨_, rfl, rfl⟩
    · rw [if_neg hs, if_neg hs]
      by_cases hl : sameLength (r.onsets.map Prod.snd) = true
      · rw [if_pos hl, if_pos hl]; exact Or.inr ⟨r, r', rfl, rfl, h3⟩
      · rw [if_neg hl, if_neg hl]; exact Or.inl ⟨_, rfl, rfl⟩

/-! ### The scan -/

theorem compute_without (hs : KeepsIds s.ext) (hn : Spec.PlainNames s.onset.phases s.stations) {win extra : ℚ × ℚ}
    (ho : SetOrder s.order) (hid : KeepsId s.toSample) (hd : ∀ a ∈ dead, Spec.Silent s a) {o o' : Waveforms.Out ℚ}
    (h : s.readEvent win extra = .ok o) (h' : (Spec.without s dead).readEvent win extra = .ok o') (ts : ℚ) :
    (Spec.without s dead).compute ts win o' = s.compute ts win o ∧
    (Spec.without s dead).availability win o' = s.availability win o := by
  have g : WaveUnused.got s win extra = o.waveforms := by unfold WaveUnused.got; rw [h]
  have g' : WaveUnused.got (Spec.without s dead) win extra = o'.waveforms := by unfold WaveUnused.got; rw [h']
  have hw : o'.waveforms = o.waveforms := by rw [← g, ← g', got_without ho hid hd]
  have hdata : (Spec.without s dead).data win o' =
      { s.data win o with stations := (s.data win o).stations.filter fun a => !dead.contains a } := by
    unfold Scan.data
    rw [hw]
    rfl
  have hsil : ∀ a ∈ dead, ∀ t ∈ (s.data win o).waveforms, s.ext.ofStation a t.id = false := by
    intro a ha t ht
    obtain ⟨r, hr, rfl⟩ := List.mem_map.1 ht
    rw [← g] at hr
    exact got_silent ho hid (hd a ha) hr
  have key := calculateOnsets_without (c := s.onset) (d := s.data win o) (dead := dead) hs hn hsil
  constructor
  · have e : (Spec.without s dead).compute ts win o' = WaveScan.compute s.onset s.ext s.lut s.grid
        (scanPads s.windows s.ttmax s.rate ts) (s.sched win) (s.sched' win) ((Spec.without s dead).data win o') := rfl
    rw [e, hdata]
    unfold Scan.compute WaveScan.compute
    rcases key with ⟨e, h1, h2⟩ | ⟨r, r', h1, h2, h3⟩
    · rw [h1, h2]
    · rw [h1, h2]
      simp only
      have hrows : WaveScan.rows r' = WaveScan.rows r := by unfold WaveScan.rows; rw [h3.onsets]
      rw [h3.serve, h3.onsets, h3.sum, hrows]
  · funext col
    have e : (Spec.without s dead).availability win o' col =
        (match calculateOnsets s.onset s.ext ((Spec.without s dead).data win o') with
          | .error _ => 0
          | .ok r => (r.availability.lookup col.toList).getD 0) := rfl
    rw [e, hdata]
    unfold Scan.availability
    rcases key with ⟨e, h1, h2⟩ | ⟨r, r', h1, h2, h3⟩
    · rw [h1, h2]
    · rw [h1, h2]
      exact h3.lookup _

/-- Both scans have data or neither has. -/
theorem read_without (ho : SetOrder s.order) (hid : KeepsId s.toSample) (hd : ∀ a ∈ dead, Spec.Silent s a) (win extra : ℚ × ℚ) :
    (∃ o o', s.readEvent win extra = .ok o ∧ (Spec.without s dead).readEvent win extra = .ok o') ∨
    ∃ e e', s.readEvent win extra = .error e ∧ (Spec.without s dead).readEvent win extra = .error e' := by
  have hg := got_without ho hid hd win extra
  have hne : ∀ (z : Scan) (o : Waveforms.Out ℚ), z.readEvent win extra = .ok o → o.waveforms ≠ [] := by
    intro z o h
    unfold Scan.readEvent at h
    exact (readWaveformData_ok h).2.2
  unfold WaveUnused.got at hg
  cases h : s.readEvent win extra with
  | ok o =>
    cases h' : (Spec.without s dead).readEvent win extra with
    | ok o' => exact Or.inl ⟨o, o', rfl, rfl⟩
    | error e' => rw [h, h'] at hg; exact absurd hg.symm (hne s o h)
  | error e =>
    cases h' : (Spec.without s dead).readEvent win extra with
    | ok o' => rw [h, h'] at hg; exact absurd hg (hne _ o' h')
    | error e' => exact Or.inr ⟨e, e', rfl, rfl⟩

theorem outcome_without (hs : KeepsIds s.ext) (hn : Spec.PlainNames s.onset.phases s.stations) (ho : SetOrder s.order)
    (hid : KeepsId s.toSample) (hd : ∀ a ∈ dead, Spec.Silent s a) (ts : ℚ) (win : ℚ × ℚ) :
    (Spec.without s dead).outcome ts win = s.outcome ts win ∨
      WaveUnused.Skip ((Spec.without s dead).outcome ts win) ∧ WaveUnused.Skip (s.outcome ts win) := by
  unfold Scan.outcome
  rw [SameSamples.read_eq, SameSamples.read_eq]
  rcases read_without ho hid hd win (0, 0) with ⟨o, o', h, h'⟩ | ⟨e, e', h, h'⟩
  · left
    obtain ⟨h1, h2⟩ := compute_without hs hn ho hid hd h h' ts
    rw [h, h']
    simp only
    rw [h1, h2]
    rfl
  · right
    rw [h, h']
    rcases SameSamples.read_error h with rfl | rfl <;> rcases SameSamples.read_error h' with rfl | rfl <;> exact ⟨trivial, trivial⟩

theorem locate_without (hs : KeepsIds s.ext) (hn : Spec.PlainNames s.onset.phases s.stations) (ho : SetOrder s.order)
    (hid : KeepsId s.toSample) (hd : ∀ a ∈ dead, Spec.Silent s a) (mw : ℚ) (extra : ℚ × ℚ) (x : Trig) :
    (Spec.without s dead).locateOutcome mw extra x = s.locateOutcome mw extra x ∨
      WaveUnused.SkipEvent ((Spec.without s dead).locateOutcome mw extra x) ∧ WaveUnused.SkipEvent (s.locateOutcome mw extra x) := by
  set win := Spec.eventWindow s mw x with hw
  have ew : locateWindow x.time mw (scanPads s.windows s.ttmax s.rate (4 * mw)) = win := rfl
  have ew' : locateWindow x.time mw (scanPads (Spec.without s dead).windows (Spec.without s dead).ttmax
    (Spec.without s dead).rate (4 * mw)) = win := rfl
  unfold Scan.locateOutcome
  rw [ew, ew']
  rcases read_without ho hid hd win extra with ⟨o, o', h, h'⟩ | ⟨e, e', h, h'⟩
  · left
    obtain ⟨h1, -⟩ := compute_without hs hn ho hid hd h h' (4 * mw)
    rw [h, h']
    simp only
    rw [h1]
    rfl
  · right
    rw [h, h']
    rcases SameSamples.read_error h with rfl | rfl <;> rcases SameSamples.read_error h' with rfl | rfl <;> exact ⟨trivial, trivial⟩

end WaveSilent

open WaveSilent

/-! ## The property -/

/-- Stations without data may as well be left out: `detect` gives the same coalescence and, in every column, the same
availability. -/
theorem C181_detect (s : Scan) (hx : KeepsIds s.ext) (hn : Spec.PlainNames s.onset.phases s.stations) (ho : SetOrder s.order)
    (hid : KeepsId s.toSample) (dead : List Str) (hd : ∀ a ∈ dead, Spec.Silent s a) (ts start stop ucf : ℚ) (cols : List String) :
    (Spec.without s dead).detect ts start stop cols ucf = s.detect ts start stop cols ucf := by
  have e : (Spec.without s dead).detect ts start stop cols ucf =
      Detect.detect (s.call ts start stop cols ucf false .never).cfg start stop ((Spec.without s dead).outcome ts) := rfl
  rw [e]
  unfold Scan.detect Detect.detect Detect.nSteps
  split
  · rfl
  · simp only [Option.map_some]
    congr 1
    exact WaveUnused.loop_skip _ start _ _ _ 0 fun j _ _ => outcome_without hx hn ho hid hd ts _

/-- So does `locate`, for the events and their origin times. -/
theorem C181_locate (s : Scan) (hx : KeepsIds s.ext) (hn : Spec.PlainNames s.onset.phases s.stations) (ho : SetOrder s.order)
    (hid : KeepsId s.toSample) (dead : List Str) (hd : ∀ a ∈ dead, Spec.Silent s a) (mw : ℚ) (amp : Option (ℚ × ℚ))
    (preCut postCut : Option ℚ) (later : Trig → Later) (events : List Trig) :
    (Spec.without s dead).locate mw amp preCut postCut later events = s.locate mw amp preCut postCut later events := by
  unfold Scan.locate
  exact WaveUnused.locate_skip mw _ _ later events fun x _ => locate_without hx hn ho hid hd mw _ x


namespace WaveSilent

theorem set_keys {d : List (Str × ℕ)} {k : Str} {v : ℕ} {j : Str} (h : j ∈ d.map Prod.fst ∨ j = k) :
    j ∈ (Compute.dictSet d k v).map Prod.fst := by
  unfold Compute.dictSet
  split
  · next hk =>
    obtain ⟨e, he, hek⟩ := List.any_eq_true.1 hk
    have hek : e.1 = k := by simpa using hek
    have hj : j ∈ d.map Prod.fst := by
      rcases h with h | rfl
      · exact h
      · exact List.mem_map.2 ⟨e, he, hek⟩
    obtain ⟨e', h1, rfl⟩ := List.mem_map.1 hj
    rw [List.map_map]
    refine List.mem_map.2 ⟨e', h1, ?_⟩
    simp only [Function.comp]
    split
    · next h => exact h.symm
    · rfl
  · rcases h with h | rfl
    · simp only [List.map_append, List.mem_append]; exact Or.inl h
    · simp

theorem stationLoop_keys {p : Str} {w : List Data.Trace} {k : Str} (l : List Str) : ∀ o r, stationLoop c x d p w l o = .ok r →
    (k ∈ o.availability.map Prod.fst ∨ ∃ a ∈ l, k = Compute.key a p) → k ∈ r.availability.map Prod.fst := by
  induction l with
  | nil =>
    intro o r h hk
    have : o = r := by simpa [stationLoop] using h
    subst this
    simpa using hk
  | cons a l ih =>
    intro o r h hk
    have step : ∀ v, k ∈ (Compute.dictSet o.availability (Compute.key a p) v).map Prod.fst ∨ ∃ a ∈ l, k = Compute.key a p := by
      intro v
      rcases hk with hk | ⟨b, hb, rfl⟩
      · exact Or.inl (set_keys (Or.inl hk))
      · rcases List.mem_cons.1 hb with rfl | hb
        · exact Or.inl (set_keys (Or.inr rfl))
        · exact Or.inr ⟨b, hb, rfl⟩
    unfold stationLoop at h
    split at h
    · cases h
    · exact ih _ _ h (step 0)
    · exact ih _ _ h (step 1)

theorem phaseLoop_keys {k : Str} (l : List Str) : ∀ o r, phaseLoop c x d l o = .ok r →
    (k ∈ o.availability.map Prod.fst ∨ ∃ p ∈ l, ∃ a ∈ d.stations, k = Compute.key a p) → k ∈ r.availability.map Prod.fst := by
  induction l with
  | nil =>
    intro o r h hk
    have : o = r := by simpa [phaseLoop] using h
    subst this
    simpa using hk
  | cons p l ih =>
    intro o r h hk
    unfold phaseLoop at h
    split at h
    · cases h
    · split at h
      · cases h
      · next r1 h1 =>
        refine ih _ _ h ?_
        rcases hk with hk | ⟨q, hq, a, ha, rfl⟩
        · exact Or.inl (stationLoop_keys _ _ _ h1 (Or.inl hk))
        · rcases List.mem_cons.1 hq with rfl | hq
          · exact Or.inl (stationLoop_keys _ _ _ h1 (Or.inr ⟨a, ha, rfl⟩))
          · exact Or.inr ⟨q, hq, a, ha, rfl⟩

end WaveSilent

/-- The names matter: as long as a station with an underscore in its name is listed, with data or without, no timestep gives any
coalescence. -/
theorem C181_underscore (s : Scan) (a : Str) (ha : a ∈ s.stations) (hu : '_' ∈ a) (p : Str) (hp : p ∈ s.onset.phases) (ts : ℚ)
    (win : ℚ × ℚ) (data : List ScanMseed.Sample) (av : String → ℕ) : s.outcome ts win ≠ .ok data av := by
  intro h
  unfold Scan.outcome at h
  split at h
  · cases h
  · cases h
  · cases h
  · next o ho =>
    split at h
    · next out hout =>
      unfold Scan.compute WaveScan.compute at hout
      split at hout
      · cases hout
      · next r hr =>
        have hk : Compute.key a p ∈ r.availability.map Prod.fst := by
          unfold calculateOnsets at hr
          split at hr
          · cases hr
          · next r' hr' =>
            split at hr
            · cases hr
            · split at hr
              · cases hr
                exact phaseLoop_keys _ _ _ hr' (Or.inr ⟨p, hp, a, ha, rfl⟩)
              · cases hr
        obtain ⟨e, he⟩ := Compute.serve_bad s.lut r.availability _ hk (by
          rw [Compute.splitU_length]
          have : 2 ≤ (Compute.key a p).count '_' := by
            unfold Compute.key
            rw [List.count_append, List.count_cons_self]
            have := List.count_pos_iff.2 hu
            omega
          omega)
        have : Compute.serveTraveltimes s.lut s.onset.sr r.availability = .error e := by
          unfold Compute.serveTraveltimes
          rw [he]
        rw [this] at hout
        cases hout
    · cases h
    · cases h

/-! ## A case that meets the hypotheses -/

namespace WaveSilent

open OnsetValue DetectShift

/-- The archive with the four seconds of `ST01`, and a second station in the list. -/
noncomputable def twoScan (b : Str) : Scan :=
  { exScan with
    stations := ["ST01".toList, b]
    files := fun q => if q.day = 0 ∧ q.station = some "ST01".toList then [some [⟨"Z".toList, 1, ⟨0, [1, 2, 3, 5]⟩⟩]] else []
    ext := { OnsetGain.exExt 1 with ofStation := fun a _ => decide (a = "ST01".toList) } }

theorem two_silent {b : Str} (hb : b ≠ "ST01".toList) (hz : stationCode "Z".toList ≠ b) : ∀ a ∈ [b], Spec.Silent (twoScan b) a := by
  intro a ha
  rw [List.mem_singleton.1 ha]
  constructor
  · intro q hq recs h
    have : (twoScan b).files q = [] := if_neg (by rw [hq]; rintro ⟨-, h⟩; exact hb (Option.some.inj h))
    rw [this] at h
    cases h
  · intro q recs h r hr
    have h1 : recs = [⟨"Z".toList, 1, ⟨0, [1, 2, 3, 5]⟩⟩] := by
      have h : some recs ∈ if q.day = 0 ∧ q.station = some "ST01".toList then
        [some [(⟨"Z".toList, 1, ⟨0, [1, 2, 3, 5]⟩⟩ : Rec ℚ)]] else [] := h
      split at h
      · simpa using h
      · cases h
    rw [h1, List.mem_singleton] at hr
    rw [hr]
    exact ⟨decide_eq_false hb, hz⟩

theorem two_keeps (b : Str) : KeepsIds (twoScan b).ext := ⟨fun _ _ => rfl, fun _ _ => rfl, by
  rintro s e b b' h; injection h with h; rw [← h]⟩

theorem two_without {b : Str} (hb : b ≠ "ST01".toList) : (Spec.without (twoScan b) [b]).stations = ["ST01".toList] := by
  show ["ST01".toList, b].filter (fun a => !(List.contains [b] a)) = _
  rw [List.filter_cons_of_pos (by simpa using hb.symm), List.filter_cons_of_neg (by simp), List.filter_nil]

theorem two_read {b : Str} (hb : b ≠ "ST01".toList) :
    (Spec.without (twoScan b) [b]).read (0, 3) =
      .ok ⟨[⟨"Z".toList, 1, ⟨0, [1, 2, 3, 5]⟩⟩], [⟨"Z".toList, 1, ⟨0, [1, 2, 3, 5]⟩⟩]⟩ := by
  have hl : loadFromPath false ["ST01".toList] 0 3 = [⟨0, some "ST01".toList⟩] := by
    unfold loadFromPath
    have h0 : TriggerFiles.dayNum (0 : ℚ) = 0 := by decide +kernel
    rw [h0, TriggerFiles.readDays, dif_pos (by decide +kernel), TriggerFiles.readDays, dif_neg (by decide +kernel)]
    rfl
  unfold Scan.read
  rw [two_without hb]
  show Waveforms.readWaveformData List.dedup id ⟨0, 3, 0, 0, false, ["ST01".toList]⟩
    ((loadFromPath false ["ST01".toList] 0 3).flatMap (twoScan b).files) = _
  rw [hl]
  show Waveforms.readWaveformData List.dedup id ⟨0, 3, 0, 0, false, ["ST01".toList]⟩
    [some [⟨"Z".toList, 1, ⟨0, [1, 2, 3, 5]⟩⟩]] = _
  decide +kernel

theorem two_onsets (b : Str) : calculateOnsets plainCfg (twoScan b).ext plainData = calculateOnsets plainCfg (OnsetGain.exExt 1) plainData := by
  have hph : plainCfg.phases = ["P".toList] := rfl
  have hst : plainData.stations = ["ST01".toList] := rfl
  unfold calculateOnsets
  rw [hph]
  unfold phaseLoop
  rw [hst]
  rfl

theorem two_outcome {b : Str} (hb : b ≠ "ST01".toList) :
    ∃ data av, (Spec.without (twoScan b) [b]).outcome 1 (0, 3) = .ok data av ∧ data.length = 1 := by
  obtain ⟨out, h1, h2⟩ := WaveScan.ex_compute
  have hc : (Spec.without (twoScan b) [b]).compute 1 (0, 3)
      ⟨[⟨"Z".toList, 1, ⟨0, [1, 2, 3, 5]⟩⟩], [⟨"Z".toList, 1, ⟨0, [1, 2, 3, 5]⟩⟩]⟩ = .ok out := by
    have hd : (Spec.without (twoScan b) [b]).data (0, 3)
        ⟨[⟨"Z".toList, 1, ⟨0, [1, 2, 3, 5]⟩⟩], [⟨"Z".toList, 1, ⟨0, [1, 2, 3, 5]⟩⟩]⟩ = plainData := by
      unfold Scan.data
      rw [two_without hb]
      simp [Spec.without, twoScan, exScan, plainData, toTrace]
    unfold Scan.compute
    rw [hd, ← h1]
    unfold WaveScan.compute
    have e := two_onsets b
    show (match calculateOnsets plainCfg (twoScan b).ext plainData with | .error e => _ | .ok o => _) = _
    rw [e]
    rfl
  unfold Scan.outcome
  rw [two_read hb]
  simp only [hc]
  exact ⟨_, _, rfl, by rw [List.length_map, h2]⟩

/-- A second station without data: the timestep has its coalescence all the same. -/
example : (∃ data av, (twoScan "ST02".toList).outcome 1 (0, 3) = .ok data av ∧ data.length = 1) ∧
    (Spec.without (twoScan "ST02".toList) ["ST02".toList]).detect 1 1 2 ["ST01_P", "ST02_P"] 1 =
      (twoScan "ST02".toList).detect 1 1 2 ["ST01_P", "ST02_P"] 1 := by
  have hn : Spec.PlainNames (twoScan "ST02".toList).onset.phases (twoScan "ST02".toList).stations :=
    ⟨by simp [twoScan, exScan, plainCfg, OnsetGain.exCfg], by simp [twoScan], by simp [twoScan, exScan, plainCfg, OnsetGain.exCfg],
      by simp [twoScan]⟩
  have ho : SetOrder (twoScan "ST02".toList).order := fun l => ⟨List.nodup_dedup l, fun _ => List.mem_dedup⟩
  have hid : KeepsId (twoScan "ST02".toList).toSample := fun _ => rfl
  have hd := two_silent (b := "ST02".toList) (by decide) (by decide)
  refine ⟨?_, C181_detect _ (two_keeps _) hn ho hid _ hd 1 1 2 1 _⟩
  obtain ⟨data, av, h, hlen⟩ := two_outcome (b := "ST02".toList) (by decide)
  rcases outcome_without (two_keeps _) hn ho hid hd 1 (0, 3) with he | ⟨he, -⟩
  · exact ⟨data, av, he ▸ h, hlen⟩
  · rw [h] at he
    exact absurd he (by simp [WaveUnused.Skip])

end WaveSilent

/-- Without the condition on names the claim is false: a station without data called `ST_2` stops what would otherwise run. -/
theorem C181_violated : ∃ (s : Scan) (a : Str), KeepsIds s.ext ∧ SetOrder s.order ∧ KeepsId s.toSample ∧ Spec.Silent s a ∧
    (∃ data av, (Spec.without s [a]).outcome 1 (0, 3) = .ok data av ∧ data.length = 1) ∧
    ∀ data av, s.outcome 1 (0, 3) ≠ .ok data av :=
  ⟨twoScan "ST_2".toList, "ST_2".toList, two_keeps _, fun l => ⟨List.nodup_dedup l, fun _ => List.mem_dedup⟩, fun _ => rfl,
    two_silent (by decide) (by decide) _ (by simp), two_outcome (by decide),
    C181_underscore _ "ST_2".toList (by simp [twoScan]) (by decide) "P".toList (by
      show "P".toList ∈ OnsetValue.plainCfg.phases; exact List.mem_singleton.2 rfl) 1 (0, 3)⟩

end QM
