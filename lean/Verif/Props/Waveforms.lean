import Verif.Lemmas.Waveforms
import Verif.Spec.Waveforms

/-!
# Properties of `Archive.read_waveform_data` and `merge_stream` (C86-C88)
-/

namespace QM

open QM.Waveforms QM.Spec
open QM.ScanMseed (Trace)

variable {V : Type}

/-- A shift to the sample grid that leaves data already on it alone (C43). -/
def KeepsOnSample (shift : Rec V → Rec V) : Prop := ∀ r, OnSample r → shift r = r

/-- A shift that does not rename channels. -/
def KeepsId (shift : Rec V → Rec V) : Prop := ∀ r, (shift r).id = r.id

theorem hasSample_iff (r : Rec V) (t : ℚ) (v : V) : HasSample r t v ↔ (t, v) ∈ r.samples := by
  unfold HasSample Rec.samples
  rw [mem_samples_iff]
  have h : ∀ n : ℕ, (n : ℚ) * r.delta = (n : ℚ) / r.rate := by
    intro n; unfold Rec.delta; ring
  constructor
  · rintro ⟨n, h1, h2⟩; exact ⟨n, h1, by rw [h]; exact h2⟩
  · rintro ⟨n, h1, h2⟩; exact ⟨n, h1, by rw [← h]; exact h2⟩

theorem mem_trim {ρ a b : ℚ} (hρ : 0 < ρ) {r : Rec V} (hr : r.rate = ρ) {p : ℚ × V} :
    (p ∈ (r.trim a b).samples → p ∈ r.samples ∧ a - 1 / ρ / 2 ≤ p.1 ∧ p.1 ≤ b + 1 / ρ / 2) ∧
    (p ∈ r.samples → a ≤ p.1 → p.1 ≤ b → p ∈ (r.trim a b).samples) := by
  have hδ : 0 < 1 / ρ := by positivity
  unfold Rec.samples Rec.trim Rec.delta
  simp only [hr]
  exact mem_slice hδ

theorem full_of_sample {r : Rec V} {p : ℚ × V} (h : p ∈ r.samples) : r.full = true := by
  have : HasSample r p.1 p.2 := (hasSample_iff r p.1 p.2).mpr h
  obtain ⟨n, hn, -⟩ := this
  unfold Rec.full
  cases hv : r.tr.vals with
  | nil => rw [hv] at hn; simp at hn
  | cons => simp

/-- Reading (trimming) a list of records of one channel. -/
theorem readFile_chan {ρ a b : ℚ} (hρ : 0 < ρ) {l : List (Rec V)} (hr : ∀ r ∈ l, r.rate = ρ)
    (p : ℚ × V) :
    ((∃ r ∈ readFile a b l, p ∈ r.samples) →
      (∃ r ∈ l, p ∈ r.samples) ∧ a - 1 / ρ / 2 ≤ p.1 ∧ p.1 ≤ b + 1 / ρ / 2) ∧
    ((∃ r ∈ l, p ∈ r.samples) → a ≤ p.1 → p.1 ≤ b → ∃ r ∈ readFile a b l, p ∈ r.samples) := by
  unfold readFile
  constructor
  · rintro ⟨r, hm, hp⟩
    obtain ⟨hm1, -⟩ := List.mem_filter.mp hm
    obtain ⟨s, hs, rfl⟩ := List.mem_map.mp hm1
    obtain ⟨h1, h2, h3⟩ := (mem_trim hρ (hr s hs)).1 hp
    exact ⟨⟨s, hs, h1⟩, h2, h3⟩
  · rintro ⟨r, hm, hp⟩ h1 h2
    have := (mem_trim hρ (hr r hm)).2 hp h1 h2
    exact ⟨_, List.mem_filter.mpr ⟨List.mem_map.mpr ⟨r, hm, rfl⟩, full_of_sample this⟩, this⟩

theorem trim_shape {ρ : ℚ} (a b : ℚ) (r : Rec V) (hr : r.rate = ρ) :
    ∃ n m : ℕ, r.trim a b = { r with
      tr := ⟨r.tr.start + (n : ℚ) * (1 / ρ), (r.tr.vals.drop n).take m⟩ } := by
  obtain ⟨n, m, h⟩ := slice_shape (1 / ρ) a b r.tr
  exact ⟨n, m, by unfold Rec.trim Rec.delta; rw [hr, h]⟩

theorem filter_map_id (f : Rec V → Rec V) (hf : ∀ r, (f r).id = r.id) (l : List (Rec V)) (i : Str) :
    (l.map f).filter (fun r : Rec V => decide (r.id = i)) =
      (l.filter fun r : Rec V => decide (r.id = i)).map f := by
  rw [List.filter_map]
  congr 1
  apply List.filter_congr
  intro r _; simp [hf]

theorem readFile_filter (a b : ℚ) (l : List (Rec V)) (i : Str) :
    (readFile a b l).filter (fun r : Rec V => decide (r.id = i)) =
      readFile a b (l.filter fun r : Rec V => decide (r.id = i)) := by
  unfold readFile
  rw [List.filter_filter, ← filter_map_id (Rec.trim a b) (fun r => rfl), List.filter_filter]
  apply List.filter_congr
  intro r _; rw [Bool.and_comm]

/-- The records of channel `i` read from the files. -/
theorem readAllFiles_filter (q : Req) (files : List (Option (List (Rec V)))) (i : Str) :
    (readAllFiles q files).filter (fun r : Rec V => decide (r.id = i)) =
      readAllFiles q (onlyChannel i files) := by
  unfold readAllFiles onlyChannel
  rw [filter_flatMap, List.flatMap_map]
  congr 1
  funext f
  cases f with
  | none => rfl
  | some recs => simp [readFile_filter]

theorem mem_readAllFiles {ρ : ℚ} (hρ : 0 < ρ) (q : Req) (files : List (Option (List (Rec V))))
    (i : Str) (hr : ChannelAll files i fun r => r.rate = ρ) (t : ℚ) (v : V) :
    ((∃ r ∈ readAllFiles q (onlyChannel i files), (t, v) ∈ r.samples) →
      Recorded files i t v ∧ q.start - q.prePad - 1 / ρ / 2 ≤ t ∧
        t ≤ q.stop + q.postPad + 1 / ρ / 2) ∧
    (Recorded files i t v → q.start - q.prePad ≤ t → t ≤ q.stop + q.postPad →
      ∃ r ∈ readAllFiles q (onlyChannel i files), (t, v) ∈ r.samples) := by
  have hfil : ∀ recs, some recs ∈ files →
      ∀ r ∈ recs.filter (fun r : Rec V => decide (r.id = i)), r.rate = ρ := by
    intro recs hrecs r hm
    obtain ⟨h1, h2⟩ := List.mem_filter.mp hm
    exact hr recs hrecs r h1 (by simpa using h2)
  unfold readAllFiles onlyChannel
  constructor
  · rintro ⟨r, hm, hp⟩
    obtain ⟨f, hf, hm2⟩ := List.mem_flatMap.mp hm
    obtain ⟨g, hg, rfl⟩ := List.mem_map.mp hf
    cases g with
    | none => simp at hm2
    | some recs =>
      simp only [Option.map_some] at hm2
      obtain ⟨⟨s, hs, hp2⟩, h2, h3⟩ := (readFile_chan hρ (hfil recs hg) (t, v)).1 ⟨r, hm2, hp⟩
      obtain ⟨h4, h5⟩ := List.mem_filter.mp hs
      exact ⟨⟨recs, hg, s, h4, by simpa using h5, (hasSample_iff s t v).mpr hp2⟩, h2, h3⟩
  · rintro ⟨recs, hrecs, s, hs, hid, hp⟩ h1 h2
    have hs' : s ∈ recs.filter (fun r : Rec V => decide (r.id = i)) :=
      List.mem_filter.mpr ⟨hs, by simpa using hid⟩
    obtain ⟨r, hr1, hr2⟩ := (readFile_chan hρ (hfil recs hrecs) (t, v)).2
      ⟨s, hs', (hasSample_iff s t v).mp hp⟩ h1 h2
    exact ⟨r, List.mem_flatMap.mpr ⟨_, List.mem_map.mpr ⟨_, hrecs, rfl⟩, hr1⟩, hr2⟩

/-- What the records read from the files inherit from the files. -/
theorem readAllFiles_all {ρ : ℚ} (q : Req) (files : List (Option (List (Rec V))))
    (i : Str) (hr : ChannelAll files i fun r => r.rate = ρ) :
    ∀ r ∈ readAllFiles q (onlyChannel i files), r.id = i ∧ r.rate = ρ ∧
      (ChannelAll files i OnSample → ∃ k : ℤ, r.tr.start = (k : ℚ) * (1 / ρ)) := by
  intro r hm
  unfold readAllFiles onlyChannel at hm
  obtain ⟨f, hf, hm2⟩ := List.mem_flatMap.mp hm
  obtain ⟨g, hg, rfl⟩ := List.mem_map.mp hf
  cases g with
  | none => simp at hm2
  | some recs =>
    simp only [Option.map_some] at hm2
    unfold readFile at hm2
    obtain ⟨h1, -⟩ := List.mem_filter.mp hm2
    obtain ⟨s, hs, rfl⟩ := List.mem_map.mp h1
    obtain ⟨h4, h5⟩ := List.mem_filter.mp hs
    have hid : s.id = i := by simpa using h5
    have hrate := hr recs hg s h4 hid
    obtain ⟨n, m, hshape⟩ := trim_shape (q.start - q.prePad) (q.stop + q.postPad) s hrate
    rw [hshape]
    refine ⟨hid, hrate, fun hon => ?_⟩
    obtain ⟨k, hk⟩ := hon recs hg s h4 hid
    refine ⟨k + n, ?_⟩
    simp only [hk, hrate]; push_cast; ring

theorem splitOn_head (l : Str) :
    ∃ rest, l.splitOn '.' = (l.takeWhile fun c => decide (c ≠ '.')) :: rest := by
  unfold List.splitOn
  induction l with
  | nil => exact ⟨[], rfl⟩
  | cons c l ih =>
    rw [List.splitOnP_cons_eq_if_modifyHead]
    by_cases h : c = '.'
    · exact ⟨l.splitOnP (· == '.'), by simp [h]⟩
    · obtain ⟨rest, hr⟩ := ih
      exact ⟨rest, by rw [hr]; simp [h]⟩

theorem stationCode_eq (l : Str) : stationCode l = stationOf l := by
  unfold stationCode stationOf
  induction l with
  | nil => rfl
  | cons c l ih =>
    unfold List.splitOn at ih ⊢
    rw [List.splitOnP_cons_eq_if_modifyHead]
    by_cases h : c = '.'
    · obtain ⟨rest, hr⟩ := splitOn_head l
      unfold List.splitOn at hr
      simp [h, hr]
    · obtain ⟨rest, hr⟩ := splitOn_head l
      unfold List.splitOn at hr
      rw [hr] at ih ⊢
      simpa [h] using ih

theorem selectStations_filter (q : Req) (st : List (Rec V)) (i : Str) :
    (∀ r, r ∈ (selectStations q st).filter (fun r : Rec V => decide (r.id = i)) ↔
      Selected q i ∧ r ∈ st.filter fun r : Rec V => decide (r.id = i)) := by
  intro r
  unfold selectStations Selected
  simp only [stationCode_eq]
  split
  · next h =>
    simp only [List.mem_filter, List.mem_flatMap, decide_eq_true_eq, h, forall_const]
    constructor
    · rintro ⟨⟨s, hs, hr, he⟩, hi⟩
      refine ⟨?_, hr, hi⟩
      rw [← hi, he]; exact hs
    · rintro ⟨hs, hr, hi⟩
      exact ⟨⟨_, hs, hr, by rw [hi]⟩, hi⟩
  · next h => simp [h]

theorem selectStations_eq (q : Req) (hnd : q.stations.Nodup) (st : List (Rec V)) (i : Str)
    (hsel : Selected q i) :
    (selectStations q st).filter (fun r : Rec V => decide (r.id = i)) =
      st.filter fun r : Rec V => decide (r.id = i) := by
  unfold selectStations
  split
  · next h =>
    rw [filter_flatMap, flatMap_single q.stations hnd (stationCode i),
      if_pos (by rw [stationCode_eq]; exact hsel h),
      List.filter_filter]
    · apply List.filter_congr
      intro r _
      by_cases hi : r.id = i
      · simp [hi]
      · simp [hi]
    · intro s hs
      rw [List.filter_eq_nil_iff]
      intro r hr hri
      have h1 := (List.mem_filter.mp hr).2
      simp only [decide_eq_true_eq] at h1 hri
      exact hs (by rw [← h1, hri])
  · rfl

theorem trimWindow_filter (q : Req) (st : List (Rec V)) (i : Str) :
    (trimWindow q st).filter (fun r : Rec V => decide (r.id = i)) =
      trimWindow q (st.filter fun r : Rec V => decide (r.id = i)) := by
  unfold trimWindow
  split
  · exact readFile_filter _ _ _ _
  · rfl

variable [DecidableEq V]

theorem readWaveformData_ok {order : List Str → List Str} {shift : Rec V → Rec V} {q : Req}
    {files : List (Option (List (Rec V)))} {out : Out V}
    (h : readWaveformData order shift q files = .ok out) :
    out.raw = mergeStream order (readAllFiles q files) ∧
    out.waveforms = trimWindow q (selectStations q (out.raw.map shift)) ∧ out.waveforms ≠ [] := by
  unfold readWaveformData at h
  split at h
  · cases h
  · simp only at h
    split at h
    · cases h
    · next h2 =>
      cases h
      exact ⟨rfl, rfl, h2⟩

theorem inStream_iff (st : List (Rec V)) (i : Str) (t : ℚ) (v : V) :
    InStream st i t v ↔
      ∃ r ∈ st.filter (fun r : Rec V => decide (r.id = i)), (t, v) ∈ r.samples := by
  unfold InStream
  constructor
  · rintro ⟨r, h1, h2, h3⟩
    exact ⟨r, List.mem_filter.mpr ⟨h1, by simpa using h2⟩, (hasSample_iff r t v).mp h3⟩
  · rintro ⟨r, h1, h3⟩
    obtain ⟨h1, h2⟩ := List.mem_filter.mp h1
    exact ⟨r, h1, by simpa using h2, (hasSample_iff r t v).mpr h3⟩

/-- The merged records of channel `i`. -/
theorem raw_channel {order : List Str → List Str} (ho : SetOrder order) {ρ : ℚ} (hρ : 0 < ρ)
    (q : Req) (files : List (Option (List (Rec V)))) (i : Str)
    (hr : ChannelAll files i fun r => r.rate = ρ) :
    ∃ m, (mergeStream order (readAllFiles q files)).filter (fun r : Rec V => decide (r.id = i)) = m ∧
      (∀ r ∈ m, r.id = i ∧ r.rate = ρ) ∧
      (∀ p : ℚ × V, (∃ r ∈ m, p ∈ r.samples) ↔
        ∃ r ∈ readAllFiles q (onlyChannel i files), p ∈ r.samples) ∧
      (ChannelAll files i OnSample → (∀ r ∈ m, r.tr.vals ≠ [] → OnSample r)) ∧
      (ChannelAll files i OnSample → Unambiguous files i →
        m.Pairwise (fun a b : Rec V => a.stop + 1 / ρ < b.tr.start) ∧
        ∀ r ∈ m, r.tr.vals ≠ [] ∧ OnSample r) := by
  have hall := readAllFiles_all q files i hr
  obtain ⟨m, hm, h1, h2, h3⟩ := mergeChannel_spec hρ (readAllFiles q (onlyChannel i files))
    (fun r h => (hall r h).1) (fun r h => (hall r h).2.1)
  refine ⟨m, ?_, h1, h2, ?_, ?_⟩
  · rw [mergeStream_channel ho, readAllFiles_filter, hm]; rfl
  · intro hon r hrm hne
    -- a merged record starts with one of the samples read
    obtain ⟨v, hv⟩ : ∃ v, r.tr.vals[0]? = some v := by
      cases hvals : r.tr.vals with
      | nil => exact absurd hvals hne
      | cons v l => exact ⟨v, by simp⟩
    have hs : (r.tr.start, v) ∈ r.samples :=
      (hasSample_iff r _ v).mp ⟨0, hv, by simp⟩
    obtain ⟨s, hs1, hs2⟩ := (h2 _).mp ⟨r, hrm, hs⟩
    obtain ⟨n, -, hn⟩ := (hasSample_iff s _ v).mpr hs2
    obtain ⟨-, hsr, hk⟩ := hall s hs1
    obtain ⟨k, hk⟩ := hk hon
    refine ⟨k + n, ?_⟩
    rw [hn, hk, hsr, (h1 r hrm).2]; push_cast; ring
  · intro hon hua
    obtain ⟨h4, h5⟩ := h3 (fun r h => (hall r h).2.2 hon) (by
      intro r hr1 r' hr2 x v w hv hw
      refine hua x v w ?_ ?_
      · exact ((mem_readAllFiles hρ q files i hr x v).1 ⟨r, hr1, hv⟩).1
      · exact ((mem_readAllFiles hρ q files i hr x w).1 ⟨r', hr2, hw⟩).1)
    refine ⟨h4, fun r hrm => ⟨(h5 r hrm).1, ?_⟩⟩
    obtain ⟨k, hk⟩ := (h5 r hrm).2
    exact ⟨k, by rw [hk, (h1 r hrm).2]; ring⟩

omit [DecidableEq V] in
theorem pads_nonneg (q : Req) : 0 ≤ q.prePad ∧ 0 ≤ q.postPad := by
  unfold Req.prePad Req.postPad
  constructor <;> split <;> linarith

/-- The samples of a channel after selection and trimming. -/
theorem window_samples {order : List Str → List Str} (ho : SetOrder order)
    (shift : Rec V → Rec V) (hsh : KeepsOnSample shift) (hid : KeepsId shift)
    (q : Req) (files : List (Option (List (Rec V))))
    (i : Str) {ρ : ℚ} (hρ : 0 < ρ) (hr : ChannelAll files i fun r => r.rate = ρ)
    (hon : ChannelAll files i OnSample) (t : ℚ) (v : V) :
    (Recorded files i t v → Selected q i → q.start ≤ t → t ≤ q.stop →
      InStream (trimWindow q (selectStations q
        ((mergeStream order (readAllFiles q files)).map shift))) i t v) ∧
    (InStream (trimWindow q (selectStations q
        ((mergeStream order (readAllFiles q files)).map shift))) i t v → Recorded files i t v ∧ Selected q i ∧
      q.start - 1 / (2 * ρ) ≤ t ∧ t ≤ q.stop + 1 / (2 * ρ)) := by
  have hhalf : 1 / (2 * ρ) = 1 / ρ / 2 := by field_simp
  rw [hhalf]
  obtain ⟨hp1, hp2⟩ := pads_nonneg q
  obtain ⟨m, hm, hmr, hmem, hmon, -⟩ := raw_channel ho hρ q files i hr
  have hread := mem_readAllFiles hρ q files i hr t v
  -- the shifted records of the channel: those with samples are unchanged
  have hshift : ∀ r ∈ m, r.tr.vals ≠ [] → shift r = r := fun r hrm hne =>
    hsh r (hmon hon r hrm hne)
  have hsel : ∀ r, r ∈ (selectStations q ((mergeStream order (readAllFiles q files)).map shift)).filter
      (fun r : Rec V => decide (r.id = i)) ↔ Selected q i ∧ r ∈ m.map shift := by
    intro r
    rw [selectStations_filter, filter_map_id shift hid, hm]
  rw [inStream_iff, trimWindow_filter]
  generalize (selectStations q ((mergeStream order (readAllFiles q files)).map shift)).filter
      (fun r : Rec V => decide (r.id = i)) = S at hsel
  have hne_of : ∀ r ∈ m, r.tr.vals ≠ [] := by
    intro r hrm
    have hid2 := mergeChannel_nonempty (readAllFiles q (onlyChannel i files))
    rw [← hm, mergeStream_channel ho, readAllFiles_filter] at hrm
    exact hid2 r hrm
  have hmap : m.map shift = m := by
    conv_rhs => rw [← List.map_id m]
    exact List.map_congr_left fun r hrm => hshift r hrm (hne_of r hrm)
  rw [hmap] at hsel
  have hSrate : ∀ r ∈ S, r.rate = ρ := fun r hrs => (hmr r ((hsel r).mp hrs).2).2
  have hSmem : (∃ r ∈ S, (t, v) ∈ r.samples) ↔ Selected q i ∧
      ∃ r ∈ readAllFiles q (onlyChannel i files), (t, v) ∈ r.samples := by
    rw [← hmem]
    constructor
    · rintro ⟨r, h1, h2⟩
      exact ⟨((hsel r).mp h1).1, r, ((hsel r).mp h1).2, h2⟩
    · rintro ⟨h0, r, h1, h2⟩
      exact ⟨r, (hsel r).mpr ⟨h0, h1⟩, h2⟩
  unfold trimWindow
  split
  · have hrf := readFile_chan (a := q.start) (b := q.stop) hρ hSrate (t, v)
    constructor
    · intro h1 h0 h2 h3
      exact hrf.2 (hSmem.mpr ⟨h0, hread.2 h1 (by linarith) (by linarith)⟩) h2 h3
    · intro h1
      obtain ⟨h2, h3, h4⟩ := hrf.1 h1
      obtain ⟨h5, h6⟩ := hSmem.mp h2
      exact ⟨(hread.1 h6).1, h5, h3, h4⟩
  · next hno =>
    have hno : q.prePad = 0 ∧ q.postPad = 0 := by
      constructor
      · by_contra hc; exact hno (Or.inl hc)
      · by_contra hc; exact hno (Or.inr hc)
    constructor
    · intro h1 h0 h2 h3
      exact hSmem.mpr ⟨h0, hread.2 h1 (by linarith) (by linarith)⟩
    · intro h1
      obtain ⟨h5, h6⟩ := hSmem.mp h1
      obtain ⟨h7, h8, h9⟩ := hread.1 h6
      rw [hno.1] at h8; rw [hno.2] at h9
      exact ⟨h7, h5, by linarith, by linarith⟩

/-! ## C86: nothing lost, nothing invented, nothing twice -/

/-- C86 (raw waveforms): every recorded sample in the padded window is returned, and only
recorded samples at most half a sample outside it, for every channel of one sampling rate. -/
theorem C86_raw_samples {order : List Str → List Str} (ho : SetOrder order)
    (shift : Rec V → Rec V) (q : Req) (files : List (Option (List (Rec V)))) (out : Out V)
    (h : readWaveformData order shift q files = .ok out)
    (i : Str) {ρ : ℚ} (hρ : 0 < ρ) (hr : ChannelAll files i fun r => r.rate = ρ)
    (t : ℚ) (v : V) :
    (Recorded files i t v → q.start - max 0 q.pre ≤ t → t ≤ q.stop + max 0 q.post →
      InStream out.raw i t v) ∧
    (InStream out.raw i t v → Recorded files i t v ∧
      q.start - max 0 q.pre - 1 / (2 * ρ) ≤ t ∧ t ≤ q.stop + max 0 q.post + 1 / (2 * ρ)) := by
  have hpre : max 0 q.pre = q.prePad := by
    unfold Req.prePad; split
    · next h => exact max_eq_left h.le
    · next h => exact max_eq_right (not_lt.mp h)
  have hpost : max 0 q.post = q.postPad := by
    unfold Req.postPad; split
    · next h => exact max_eq_left h.le
    · next h => exact max_eq_right (not_lt.mp h)
  have hhalf : 1 / (2 * ρ) = 1 / ρ / 2 := by field_simp
  rw [hpre, hpost, hhalf]
  obtain ⟨hraw, -, -⟩ := readWaveformData_ok h
  obtain ⟨m, hm, -, hmem, -, -⟩ := raw_channel ho hρ q files i hr
  rw [inStream_iff, hraw, hm, hmem]
  exact ⟨fun h1 h2 h3 => (mem_readAllFiles hρ q files i hr t v).2 h1 h2 h3,
    fun h1 => (mem_readAllFiles hρ q files i hr t v).1 h1⟩

/-- C86 (waveforms): for every channel of one sampling rate timestamped on-sample, every recorded
sample of a selected station in the window is returned, and only recorded samples of selected
stations at most half a sample outside it. -/
theorem C86_samples {order : List Str → List Str} (ho : SetOrder order)
    (shift : Rec V → Rec V) (hsh : KeepsOnSample shift) (hid : KeepsId shift)
    (q : Req) (files : List (Option (List (Rec V)))) (out : Out V)
    (h : readWaveformData order shift q files = .ok out)
    (i : Str) {ρ : ℚ} (hρ : 0 < ρ) (hr : ChannelAll files i fun r => r.rate = ρ)
    (hon : ChannelAll files i OnSample) (t : ℚ) (v : V) :
    (Recorded files i t v → Selected q i → q.start ≤ t → t ≤ q.stop →
      InStream out.waveforms i t v) ∧
    (InStream out.waveforms i t v → Recorded files i t v ∧ Selected q i ∧
      q.start - 1 / (2 * ρ) ≤ t ∧ t ≤ q.stop + 1 / (2 * ρ)) := by
  obtain ⟨hraw, hwav, -⟩ := readWaveformData_ok h
  rw [hwav, hraw]
  exact window_samples ho shift hsh hid q files i hρ hr hon t v

/-- C86: data of a selected station in the window is never reported as a gap. -/
theorem C86_gap_is_gap {order : List Str → List Str} (ho : SetOrder order)
    (shift : Rec V → Rec V) (hsh : KeepsOnSample shift) (hid : KeepsId shift)
    (q : Req) (files : List (Option (List (Rec V))))
    (h : readWaveformData order shift q files = .error .dataGap)
    (i : Str) {ρ : ℚ} (hρ : 0 < ρ) (hr : ChannelAll files i fun r => r.rate = ρ)
    (hon : ChannelAll files i OnSample) (hsel : Selected q i) (t : ℚ) (v : V) :
    Recorded files i t v → ¬ (q.start ≤ t ∧ t ≤ q.stop) := by
  rintro hrec ⟨h1, h2⟩
  have hin := (window_samples ho shift hsh hid q files i hρ hr hon t v).1 hrec hsel h1 h2
  unfold readWaveformData at h
  split at h
  · cases h
  · simp only at h
    split at h
    · next hnil =>
      rw [hnil] at hin
      obtain ⟨r, hr, -⟩ := hin
      simp at hr
    · cases h

omit [DecidableEq V] in
theorem trim_bounds {ρ : ℚ} (hρ : 0 < ρ) (a b : ℚ) (r : Rec V) (hr : r.rate = ρ)
    (hf : (r.trim a b).full = true) :
    r.tr.start ≤ (r.trim a b).tr.start ∧ (r.trim a b).stop ≤ r.stop := by
  have hδ : 0 < 1 / ρ := by positivity
  obtain ⟨n, m, h⟩ := trim_shape a b r hr
  rw [Rec.full, h] at hf
  have hlen : n < r.tr.vals.length := by
    by_contra hc
    simp [List.drop_eq_nil_of_le (not_lt.mp hc)] at hf
  rw [h]
  constructor
  · have : (0 : ℚ) ≤ (n : ℚ) * (1 / ρ) := by positivity
    simpa using this
  · unfold Rec.stop Rec.delta Trace.stop
    simp only [hr]
    have h1 : ((r.tr.vals.drop n).take m).length + n ≤ r.tr.vals.length := by
      simp only [List.length_take, List.length_drop]; omega
    have h2 : ((((r.tr.vals.drop n).take m).length : ℕ) : ℚ) + n ≤ r.tr.vals.length := by
      exact_mod_cast h1
    have h3 := mul_le_mul_of_nonneg_right h2 hδ.le
    linarith

omit [DecidableEq V] in
theorem readFile_separated {ρ : ℚ} (hρ : 0 < ρ) (a b : ℚ) (l : List (Rec V))
    (hr : ∀ r ∈ l, r.rate = ρ)
    (hs : l.Pairwise (fun a b : Rec V => a.stop + 1 / ρ < b.tr.start)) :
    (readFile a b l).Pairwise (fun a b : Rec V => a.stop + 1 / ρ < b.tr.start) := by
  unfold readFile
  rw [List.pairwise_filter, List.pairwise_map]
  refine List.Pairwise.imp_of_mem ?_ hs
  intro x y hx hy hxy h1 h2
  have hb1 := trim_bounds hρ a b x (hr x hx) h1
  have hb2 := trim_bounds hρ a b y (hr y hy) h2
  linarith [hb1.2, hb2.1]

omit [DecidableEq V] in
theorem times_increasing {ρ : ℚ} (hρ : 0 < ρ) (st : List (Rec V)) (i : Str)
    (hr : ∀ r ∈ st.filter (fun r : Rec V => decide (r.id = i)), r.rate = ρ)
    (hs : (st.filter fun r : Rec V => decide (r.id = i)).Pairwise
      (fun a b : Rec V => a.stop + 1 / ρ < b.tr.start)) :
    (times st i).Pairwise (· < ·) := by
  have hδ : 0 < 1 / ρ := by positivity
  unfold times
  generalize st.filter (fun r : Rec V => decide (r.id = i)) = l at hr hs
  induction l with
  | nil => simp
  | cons r l ih =>
    obtain ⟨h1, h2⟩ := List.pairwise_cons.mp hs
    rw [List.flatMap_cons, List.pairwise_append]
    refine ⟨?_, ih (fun s hs => hr s (by simp [hs])) h2, ?_⟩
    · rw [List.pairwise_map]
      refine (List.pairwise_lt_range (n := r.tr.vals.length)).imp ?_
      intro a b hab
      have : (a : ℚ) < b := by exact_mod_cast hab
      rw [hr r (by simp)]
      have := div_lt_div_of_pos_right this hρ
      linarith
    · intro x hx y hy
      obtain ⟨n, hn, rfl⟩ := List.mem_map.mp hx
      obtain ⟨s, hs, hy⟩ := List.mem_flatMap.mp hy
      obtain ⟨k, hk, rfl⟩ := List.mem_map.mp hy
      have hsep := h1 s hs
      have hn' : (n : ℚ) + 1 ≤ r.tr.vals.length := by
        have := List.mem_range.mp hn
        exact_mod_cast this
      have hle := mul_le_mul_of_nonneg_right hn' hδ.le
      have hk0 : (0 : ℚ) ≤ (k : ℚ) / s.rate := by
        rw [hr s (by simp [hs])]; positivity
      unfold Rec.stop Rec.delta Trace.stop at hsep
      rw [hr r (by simp)] at hsep ⊢
      have : (n : ℚ) / ρ = n * (1 / ρ) := by ring
      rw [this]; linarith

/-- C86: if the files do not contradict one another, no sample is returned twice: the sample times
of a channel are strictly increasing, and its traces are separated by gaps, contiguous data being
in one trace. -/
theorem C86_no_duplicates {order : List Str → List Str} (ho : SetOrder order)
    (shift : Rec V → Rec V) (hsh : KeepsOnSample shift) (hid : KeepsId shift)
    (q : Req) (hnd : q.stations.Nodup) (files : List (Option (List (Rec V)))) (out : Out V)
    (h : readWaveformData order shift q files = .ok out)
    (i : Str) {ρ : ℚ} (hρ : 0 < ρ) (hr : ChannelAll files i fun r => r.rate = ρ)
    (hon : ChannelAll files i OnSample) (hua : Unambiguous files i) :
    ((times out.waveforms i).Pairwise (· < ·) ∧ (times out.raw i).Pairwise (· < ·)) ∧
    ∀ st ∈ [out.waveforms, out.raw], (st.filter fun r : Rec V => decide (r.id = i)).Pairwise
      fun a b : Rec V => ∀ t v w x, HasSample a t v → HasSample b w x → t + 1 / ρ < w := by
  have hδ : 0 < 1 / ρ := by positivity
  obtain ⟨hraw, hwav, -⟩ := readWaveformData_ok h
  obtain ⟨m, hm, hmr, -, -, hsep⟩ := raw_channel ho hρ q files i hr
  obtain ⟨hs1, hs2⟩ := hsep hon hua
  have hmap : m.map shift = m := by
    conv_rhs => rw [← List.map_id m]
    exact List.map_congr_left fun r hrm => hsh r (hs2 r hrm).2
  have hrawsep : ∃ l, out.raw.filter (fun r : Rec V => decide (r.id = i)) = l ∧
      (∀ r ∈ l, r.rate = ρ) ∧ l.Pairwise (fun a b : Rec V => a.stop + 1 / ρ < b.tr.start) :=
    ⟨m, by rw [hraw, hm], fun r hrm => (hmr r hrm).2, hs1⟩
  have hwavsep : ∃ l, out.waveforms.filter (fun r : Rec V => decide (r.id = i)) = l ∧
      (∀ r ∈ l, r.rate = ρ) ∧ l.Pairwise (fun a b : Rec V => a.stop + 1 / ρ < b.tr.start) := by
    refine ⟨_, rfl, ?_⟩
    rw [hwav, trimWindow_filter]
    have hS : (selectStations q (out.raw.map shift)).filter
        (fun r : Rec V => decide (r.id = i)) = m ∨
        (selectStations q (out.raw.map shift)).filter (fun r : Rec V => decide (r.id = i)) = [] := by
      by_cases hsel : Selected q i
      · left
        rw [selectStations_eq q hnd _ i hsel, filter_map_id shift hid, hraw, hm, hmap]
      · right
        rw [List.eq_nil_iff_forall_not_mem]
        intro r hrm
        exact hsel ((selectStations_filter q _ i r).mp hrm).1
    rcases hS with hS | hS
    · rw [hS]
      unfold trimWindow
      split
      · refine ⟨?_, readFile_separated hρ _ _ m (fun r hrm => (hmr r hrm).2) hs1⟩
        intro r hrm
        unfold readFile at hrm
        obtain ⟨s, hs, rfl⟩ := List.mem_map.mp (List.mem_filter.mp hrm).1
        exact (hmr s hs).2
      · exact ⟨fun r hrm => (hmr r hrm).2, hs1⟩
    · rw [hS]
      unfold trimWindow readFile
      split <;> simp
  obtain ⟨l1, e1, r1, s1⟩ := hwavsep
  obtain ⟨l2, e2, r2, s2⟩ := hrawsep
  refine ⟨⟨times_increasing hρ _ i (by rw [e1]; exact r1) (by rw [e1]; exact s1),
    times_increasing hρ _ i (by rw [e2]; exact r2) (by rw [e2]; exact s2)⟩, ?_⟩
  have hgen : ∀ l : List (Rec V), (∀ r ∈ l, r.rate = ρ) →
      l.Pairwise (fun a b : Rec V => a.stop + 1 / ρ < b.tr.start) →
      l.Pairwise fun a b : Rec V => ∀ t v w x, HasSample a t v → HasSample b w x →
        t + 1 / ρ < w := by
    intro l hr hs
    refine List.Pairwise.imp_of_mem ?_ hs
    rintro a b ha hb hab t v w x ⟨n, hn, rfl⟩ ⟨k, -, rfl⟩
    have hlen : n < a.tr.vals.length := (List.getElem?_eq_some_iff.mp hn).1
    have hn' : (n : ℚ) + 1 ≤ a.tr.vals.length := by exact_mod_cast hlen
    have hle := mul_le_mul_of_nonneg_right hn' hδ.le
    have hk0 : (0 : ℚ) ≤ (k : ℚ) / b.rate := by rw [hr b hb]; positivity
    unfold Rec.stop Rec.delta Trace.stop at hab
    rw [hr a ha] at hab ⊢
    have : (n : ℚ) / ρ = n * (1 / ρ) := by ring
    rw [this]; linarith
  intro st hst
  rcases List.mem_cons.mp hst with rfl | hst
  · rw [e1]; exact hgen l1 r1 s1
  · obtain rfl : st = out.raw := by simpa using hst
    rw [e2]; exact hgen l2 r2 s2

/-! ## C87: the channels are independent, and their order irrelevant -/

/-- C87: what is returned for a channel depends only on the records of that channel: a channel
that cannot be merged, and a file that cannot be read, affect no other channel. -/
theorem C87_channels_independent {order : List Str → List Str} (ho : SetOrder order)
    (shift : Rec V → Rec V) (hid : KeepsId shift) (q : Req)
    (files files' : List (Option (List (Rec V)))) (out out' : Out V)
    (h : readWaveformData order shift q files = .ok out)
    (h' : readWaveformData order shift q files' = .ok out')
    (i : Str) (heq : channelRecords i files = channelRecords i files') :
    (out.raw.filter fun r : Rec V => decide (r.id = i)) =
      (out'.raw.filter fun r : Rec V => decide (r.id = i)) ∧
    ∀ r, r.id = i → (r ∈ out.waveforms ↔ r ∈ out'.waveforms) := by
  have hread : ∀ fs : List (Option (List (Rec V))),
      readAllFiles q (onlyChannel i fs) =
        readFile (q.start - q.prePad) (q.stop + q.postPad) (channelRecords i fs) := by
    intro fs
    unfold readAllFiles onlyChannel channelRecords
    induction fs with
    | nil => rfl
    | cons f fs ih =>
      rw [List.map_cons, List.flatMap_cons, List.flatMap_cons, ih]
      cases f with
      | none => simp
      | some r => simp [readFile]
  obtain ⟨hraw, hwav, -⟩ := readWaveformData_ok h
  obtain ⟨hraw', hwav', -⟩ := readWaveformData_ok h'
  have hr : (out.raw.filter fun r : Rec V => decide (r.id = i)) =
      (out'.raw.filter fun r : Rec V => decide (r.id = i)) := by
    rw [hraw, hraw', mergeStream_channel ho, mergeStream_channel ho, readAllFiles_filter,
      readAllFiles_filter, hread, hread, heq]
  refine ⟨hr, ?_⟩
  intro r hri
  have hS : ∀ r, r ∈ (selectStations q (out.raw.map shift)).filter
      (fun r : Rec V => decide (r.id = i)) ↔
      r ∈ (selectStations q (out'.raw.map shift)).filter (fun r : Rec V => decide (r.id = i)) := by
    intro r
    rw [selectStations_filter, selectStations_filter, filter_map_id shift hid,
      filter_map_id shift hid, hr]
  have hmem : ∀ st : List (Rec V), r ∈ st ↔
      r ∈ st.filter (fun r : Rec V => decide (r.id = i)) := by
    intro st; simp [List.mem_filter, hri]
  rw [hmem out.waveforms, hmem out'.waveforms, hwav, hwav', trimWindow_filter, trimWindow_filter]
  unfold trimWindow
  split
  · unfold readFile
    simp only [List.mem_filter (p := Rec.full), List.mem_map]
    constructor
    · rintro ⟨⟨s, hs, e⟩, hf⟩; exact ⟨⟨s, (hS s).mp hs, e⟩, hf⟩
    · rintro ⟨⟨s, hs, e⟩, hf⟩; exact ⟨⟨s, (hS s).mpr hs, e⟩, hf⟩
  · exact hS r

/-- C87: the order in which Python iterates over the set of channels only permutes the result, and
does not decide whether there is one. -/
theorem C87_order_irrelevant {order order' : List Str → List Str} (ho : SetOrder order)
    (ho' : SetOrder order') (shift : Rec V → Rec V) (q : Req)
    (files : List (Option (List (Rec V)))) :
    (∀ e, readWaveformData order shift q files = .error e ↔
      readWaveformData order' shift q files = .error e) ∧
    ∀ out out', readWaveformData order shift q files = .ok out →
      readWaveformData order' shift q files = .ok out' →
      out.raw.Perm out'.raw ∧ out.waveforms.Perm out'.waveforms := by
  have hperm : (mergeStream order (readAllFiles q files)).Perm
      (mergeStream order' (readAllFiles q files)) := by
    unfold mergeStream
    apply List.Perm.flatMap_right
    rw [List.perm_ext_iff_of_nodup (ho _).1 (ho' _).1]
    intro i; rw [(ho _).2, (ho' _).2]
  have hsel : ∀ l l' : List (Rec V), l.Perm l' → (selectStations q l).Perm (selectStations q l') := by
    intro l l' hl
    unfold selectStations
    split
    · apply List.Perm.flatMap_left
      intro s _; exact hl.filter _
    · exact hl
  have htrim : ∀ l l' : List (Rec V), l.Perm l' → (trimWindow q l).Perm (trimWindow q l') := by
    intro l l' hl
    unfold trimWindow readFile
    split
    · exact (hl.map _).filter _
    · exact hl
  have hw := htrim _ _ (hsel _ _ (hperm.map shift))
  constructor
  · intro e
    unfold readWaveformData
    split
    · rfl
    · simp only
      have : (trimWindow q (selectStations q
          ((mergeStream order (readAllFiles q files)).map shift)) = []) ↔
          (trimWindow q (selectStations q
          ((mergeStream order' (readAllFiles q files)).map shift)) = []) := by
        constructor
        · intro h; rw [h] at hw; exact hw.nil_eq.symm
        · intro h; rw [h] at hw; exact hw.eq_nil
      by_cases hc : trimWindow q (selectStations q
          ((mergeStream order (readAllFiles q files)).map shift)) = []
      · rw [if_pos hc, if_pos (this.mp hc)]
      · rw [if_neg hc, if_neg (fun h => hc (this.mpr h))]
        simp
  · intro out out' h h'
    obtain ⟨hraw, hwav, -⟩ := readWaveformData_ok h
    obtain ⟨hraw', hwav', -⟩ := readWaveformData_ok h'
    rw [hwav, hwav', hraw, hraw']
    exact ⟨hperm, hw⟩

/-! ## C88: the exceptions -/

/-- C88 fails: the documented exception for "no data in the window" is DataAvailabilityException,
but DataGapException is raised, so a caller catching the documented one does not catch it. -/
theorem C88_violated : ¬ ∀ (order : List Str → List Str) (shift : Rec ℤ → Rec ℤ) (q : Req)
    (files : List (Option (List (Rec ℤ)))), SetOrder order → files ≠ [] →
    (∀ i t v, ¬ Recorded files i t v) →
    readWaveformData order shift q files = .error .dataAvailability := by
  intro hall
  have := hall List.dedup id ⟨0, 10, 0, 0, false, []⟩ [some []]
    (fun l => ⟨List.nodup_dedup l, fun i => List.mem_dedup⟩) (by simp) (by
      rintro i t v ⟨recs, h1, r, h2, -⟩
      obtain rfl : recs = [] := by simpa using h1
      simp at h2)
  rw [show readWaveformData List.dedup id ⟨0, 10, 0, 0, false, []⟩ [some ([] : List (Rec ℤ))] =
    .error .dataGap from rfl] at this
  cases this

/-- C88: "archive empty" exactly if no file was found for the days of the window; otherwise "data
gap" exactly if nothing is left to return; no other error. -/
theorem C88_errors_partial (order : List Str → List Str) (shift : Rec V → Rec V) (q : Req)
    (files : List (Option (List (Rec V)))) :
    (readWaveformData order shift q files = .error .archiveEmpty ↔ files = []) ∧
    (∀ out, readWaveformData order shift q files = .ok out → out.waveforms ≠ []) ∧
    (files ≠ [] → (∀ recs, some recs ∈ files → recs = []) →
      (∀ l, order l = [] ↔ l = []) →
      readWaveformData order shift q files = .error .dataGap) := by
  refine ⟨?_, fun out h => (readWaveformData_ok h).2.2, ?_⟩
  · unfold readWaveformData
    split
    · next h => simp [h]
    · next h =>
      simp only [h, iff_false]
      split <;> simp
  · intro hne hnil hord
    have hread : readAllFiles q files = [] := by
      unfold readAllFiles
      rw [List.flatMap_eq_nil_iff]
      intro f hf
      cases f with
      | none => rfl
      | some recs => simp [hnil recs hf, readFile]
    have hm : mergeStream order ([] : List (Rec V)) = [] := by
      unfold mergeStream
      rw [List.map_nil, (hord []).mpr rfl]; rfl
    have hs : selectStations q ([] : List (Rec V)) = [] := by
      unfold selectStations; split <;> simp
    have ht : trimWindow q ([] : List (Rec V)) = [] := by
      unfold trimWindow readFile; split <;> simp
    unfold readWaveformData
    rw [if_neg hne, hread, hm]
    simp only [List.map_nil, hs, ht, if_true]

/-! ## A concrete archive

Three files: two of one station that overlap by two samples (the later one first), one of another
station at another rate; a fourth that obspy cannot read. -/

/-- Channel A of the example. -/
def exWavA : Str := "N.STA.0.Z".toList

/-- Channel B of the example. -/
def exWavB : Str := "N.STB.0.Z".toList

/-- The example archive. -/
def exWavFiles : List (Option (List (Rec ℤ))) :=
  [some [⟨exWavA, 2, ⟨3 / 2, [14, 15, 16, 17]⟩⟩], some [⟨exWavA, 2, ⟨0, [11, 12, 13, 14, 15]⟩⟩],
    none, some [⟨exWavB, 1, ⟨0, [1, 2, 3]⟩⟩, ⟨exWavB, 4, ⟨5 / 4, [7]⟩⟩]]

/-- The example query: 1 s to 2 s with half a second of pre-pad, station A only. -/
def exWavReq : Req := ⟨1, 2, 1 / 2, -3, true, ["STA".toList]⟩

/-- The result: overlapping records are merged into one trace; the second channel, of two sampling
rates, is left out. -/
example : (readWaveformData List.dedup id exWavReq exWavFiles).toOption.map
      (fun o => (o.raw, o.waveforms)) =
    some ([⟨exWavA, 2, ⟨1 / 2, [12, 13, 14, 15]⟩⟩], [⟨exWavA, 2, ⟨1, [13, 14, 15]⟩⟩]) := by
  decide +kernel

example : SetOrder List.dedup := fun l => ⟨List.nodup_dedup l, fun _ => List.mem_dedup⟩
example : KeepsOnSample (id : Rec ℤ → Rec ℤ) := fun _ _ => rfl
example : KeepsId (id : Rec ℤ → Rec ℤ) := fun _ => rfl
example : exWavReq.stations.Nodup := by decide
example : Selected exWavReq exWavA := fun _ => by decide
example : ¬ Selected exWavReq exWavB := fun h => by
  have := h rfl
  revert this; decide

theorem exWav_records : ChannelAll exWavFiles exWavA fun r => r.rate = 2 ∧ OnSample r := by
  intro recs hrecs r hr hid
  simp only [exWavFiles, List.mem_cons, Option.some.injEq, List.not_mem_nil, or_false,
    reduceCtorEq, false_or] at hrecs
  rcases hrecs with rfl | rfl | rfl
  · obtain rfl : r = _ := List.mem_singleton.mp hr
    exact ⟨rfl, 3, by norm_num⟩
  · obtain rfl : r = _ := List.mem_singleton.mp hr
    exact ⟨rfl, 0, by norm_num⟩
  · exfalso
    rcases List.mem_cons.mp hr with rfl | hr
    · revert hid; decide
    · obtain rfl : r = _ := List.mem_singleton.mp hr
      revert hid; decide

example : ChannelAll exWavFiles exWavA fun r => r.rate = 2 := fun recs h r hr hi =>
  (exWav_records recs h r hr hi).1
example : ChannelAll exWavFiles exWavA OnSample := fun recs h r hr hi =>
  (exWav_records recs h r hr hi).2

/-- The example channel is consistent: at time `t` its value is `11 + 2 t`. -/
example : Unambiguous exWavFiles exWavA := by
  have key : ∀ t v, Recorded exWavFiles exWavA t v → (v : ℚ) = 11 + 2 * t := by
    rintro t v ⟨recs, hrecs, r, hr, hid, n, hn, rfl⟩
    simp only [exWavFiles, List.mem_cons, Option.some.injEq, List.not_mem_nil, or_false,
      reduceCtorEq, false_or] at hrecs
    have hn4 : n = 0 ∨ n = 1 ∨ n = 2 ∨ n = 3 ∨ n = 4 ∨ 5 ≤ n := by omega
    rcases hrecs with rfl | rfl | rfl
    · obtain rfl : r = _ := List.mem_singleton.mp hr
      rcases hn4 with rfl | rfl | rfl | rfl | rfl | h
      · simp at hn; subst hn; norm_num
      · simp at hn; subst hn; norm_num
      · simp at hn; subst hn; norm_num
      · simp at hn; subst hn; norm_num
      · simp at hn
      · rw [List.getElem?_eq_none (by simp; omega)] at hn; cases hn
    · obtain rfl : r = _ := List.mem_singleton.mp hr
      rcases hn4 with rfl | rfl | rfl | rfl | rfl | h
      · simp at hn; subst hn; norm_num
      · simp at hn; subst hn; norm_num
      · simp at hn; subst hn; norm_num
      · simp at hn; subst hn; norm_num
      · simp at hn; subst hn; norm_num
      · rw [List.getElem?_eq_none (by simp; omega)] at hn; cases hn
    · exfalso
      rcases List.mem_cons.mp hr with rfl | hr
      · revert hid; decide
      · obtain rfl : r = _ := List.mem_singleton.mp hr
        revert hid; decide
  intro t v w hv hw
  have h1 := key t v hv
  have h2 := key t w hw
  exact_mod_cast h1.trans h2.symm

/-- A gap, and an empty archive. -/
example : readWaveformData List.dedup id { exWavReq with start := 50, stop := 51 } exWavFiles =
    .error .dataGap := by decide +kernel
example : readWaveformData List.dedup id exWavReq ([] : List (Option (List (Rec ℤ)))) =
    .error .archiveEmpty := rfl

end QM
