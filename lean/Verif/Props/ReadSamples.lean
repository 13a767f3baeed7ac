import Verif.Props.Waveforms

/-!
# What is read depends on the recorded samples alone: C176
-/

namespace QM

open QM.Waveforms QM.Spec
open QM.ScanMseed (Trace roundAway)

/-! ## Specification -/

/-- The files hold channel `i` in a clean way for a window that ends at `b`: at one sampling rate, on sample, without
contradictions, and no record starts less than half a sample after the end of the window. -/
structure Spec.CleanChannel {V : Type} (files : List (Option (List (Rec V)))) (i : Str) (ρ b : ℚ) : Prop where
  rate : ChannelAll files i fun r => r.rate = ρ
  onSample : ChannelAll files i OnSample
  unambiguous : Unambiguous files i
  ends : ChannelAll files i fun r => ¬ (b < r.tr.start ∧ r.tr.start ≤ b + 1 / (2 * ρ))

/-- Two collections of files hold the same samples of every channel from half a sample before the window to half a sample
after it. -/
def Spec.SameSamples {V : Type} (rateOf : Str → ℚ) (a b : ℚ) (files files' : List (Option (List (Rec V)))) : Prop :=
  ∀ i t v, a - 1 / (2 * rateOf i) < t → t ≤ b + 1 / (2 * rateOf i) → (Recorded files i t v ↔ Recorded files' i t v)

namespace ReadSamples

variable {V : Type}

theorem mem_ltrim_iff {δ a : ℚ} (hδ : 0 < δ) {tr : Trace V} {p : ℚ × V} :
    p ∈ (tr.ltrim δ a).samples δ ↔ p ∈ tr.samples δ ∧ a - δ / 2 < p.1 := by
  have hx : ∀ n : ℕ, (roundAway ((a - tr.start) / δ)).toNat ≤ n ↔ a - δ / 2 < tr.start + (n : ℚ) * δ := by
    intro n
    have e : a - δ / 2 < tr.start + (n : ℚ) * δ ↔ (a - tr.start) / δ - 1 / 2 < n := by
      rw [sub_lt_iff_lt_add (a := (a - tr.start) / δ), div_lt_iff₀ hδ]
      constructor <;> intro h <;> linarith
    rw [e]
    generalize (a - tr.start) / δ = x
    unfold roundAway
    by_cases h0 : 0 ≤ x
    · rw [if_pos h0]
      have : ⌊x + 1 / 2⌋.toNat ≤ n ↔ ⌊x + 1 / 2⌋ < (n : ℤ) + 1 := by omega
      rw [this, Int.floor_lt]
      push_cast
      constructor <;> intro h <;> linarith
    · rw [if_neg h0]
      push Not at h0
      have hc : ⌈x - 1 / 2⌉ ≤ 0 := Int.ceil_le.2 (by push_cast; linarith)
      have hn : (0 : ℚ) ≤ n := Nat.cast_nonneg n
      constructor
      · intro _; linarith
      · intro _; omega
  rw [ltrim_eq]
  generalize hd : (roundAway ((a - tr.start) / δ)).toNat = d at hx
  simp only [mem_samples_iff, List.getElem?_drop]
  constructor
  · rintro ⟨i, h1, h2⟩
    refine ⟨⟨d + i, h1, by rw [h2]; push_cast; ring⟩, ?_⟩
    have := (hx (d + i)).1 (by omega)
    rw [h2]
    push_cast at this
    linarith
  · rintro ⟨⟨i, h1, h2⟩, h3⟩
    rw [h2] at h3
    have hi := (hx i).2 h3
    refine ⟨i - d, by rw [← h1]; congr 1; omega, ?_⟩
    rw [h2, Nat.cast_sub hi]; ring

theorem mem_rtrim_of {δ b : ℚ} (hδ : 0 < δ) {tr : Trace V} {p : ℚ × V} (hp : p ∈ tr.samples δ) (hb : p.1 ≤ b + δ / 2)
    (h : p.1 ≤ b ∨ ∃ v, (p.1 - δ, v) ∈ tr.samples δ) : p ∈ (tr.rtrim δ b).samples δ := by
  rcases h with h | ⟨v, h⟩
  · exact (mem_rtrim hδ).2 hp h
  obtain ⟨i, h1, h2⟩ := mem_samples_iff.1 hp
  obtain ⟨j, -, h4⟩ := mem_samples_iff.1 h
  have hij : i = j + 1 := by
    have : (i : ℚ) * δ = (j + 1 : ℚ) * δ := by simp only at h4; linarith
    have := mul_right_cancel₀ hδ.ne' this
    exact_mod_cast this
  have hj : (0 : ℚ) ≤ (j : ℚ) * δ := by positivity
  simp only at h4
  have hx : (i : ℚ) - 1 / 2 ≤ (b - tr.start) / δ := by
    rw [le_div_iff₀ hδ]; linarith
  have hi1 : (1 : ℚ) ≤ i := by rw [hij]; push_cast; linarith [(Nat.cast_nonneg j : (0 : ℚ) ≤ j)]
  have hr : (i : ℤ) ≤ roundAway ((b - tr.start) / δ) := by
    unfold roundAway
    rw [if_pos (by linarith)]
    exact Int.le_floor.2 (by push_cast; linarith)
  unfold Trace.rtrim
  simp only
  split
  · exact hp
  · split
    · next hlt => exfalso; linarith
    · refine mem_samples_iff.2 ⟨i, ?_, h2⟩
      simp only [List.getElem?_take]
      rw [if_pos (by omega)]
      exact h1

theorem mem_trim_of {ρ a b : ℚ} (hρ : 0 < ρ) {r : Rec V} (hr : r.rate = ρ) {p : ℚ × V} (hp : p ∈ r.samples)
    (ha : a - 1 / ρ / 2 < p.1) (hb : p.1 ≤ b + 1 / ρ / 2)
    (h : p.1 ≤ b ∨ a - 1 / ρ / 2 < p.1 - 1 / ρ ∧ ∃ v, (p.1 - 1 / ρ, v) ∈ r.samples) : p ∈ (r.trim a b).samples := by
  have hδ : 0 < 1 / ρ := by positivity
  unfold Rec.samples Rec.trim Rec.delta at *
  simp only [hr] at *
  unfold Trace.slice
  refine mem_rtrim_of hδ ((mem_ltrim_iff hδ).2 ⟨hp, ha⟩) hb ?_
  rcases h with h | ⟨h, v, h'⟩
  · exact Or.inl h
  · exact Or.inr ⟨v, (mem_ltrim_iff hδ).2 ⟨h', h⟩⟩

theorem of_mem_trim {ρ a b : ℚ} (hρ : 0 < ρ) {r : Rec V} (hr : r.rate = ρ) {p : ℚ × V} (hp : p ∈ (r.trim a b).samples) :
    p ∈ r.samples ∧ a - 1 / ρ / 2 < p.1 ∧ p.1 ≤ b + 1 / ρ / 2 := by
  have hδ : 0 < 1 / ρ := by positivity
  unfold Rec.samples Rec.trim Rec.delta at *
  simp only [hr] at *
  unfold Trace.slice at hp
  obtain ⟨h1, h2⟩ := (mem_rtrim hδ).1 hp
  obtain ⟨h3, h4⟩ := (mem_ltrim_iff hδ).1 h1
  exact ⟨h3, h4, h2⟩

theorem mem_readFile {a b : ℚ} {l : List (Rec V)} {r : Rec V} {p : ℚ × V} (hr : r ∈ l) (hp : p ∈ (r.trim a b).samples) :
    ∃ r' ∈ readFile a b l, p ∈ r'.samples :=
  ⟨_, List.mem_filter.2 ⟨List.mem_map.2 ⟨r, hr, rfl⟩, full_of_sample hp⟩, hp⟩

theorem of_mem_readFile {a b : ℚ} {l : List (Rec V)} {r' : Rec V} (hr : r' ∈ readFile a b l) :
    ∃ r ∈ l, r' = r.trim a b ∧ r'.full = true := by
  obtain ⟨h1, h2⟩ := List.mem_filter.1 hr
  obtain ⟨r, h3, rfl⟩ := List.mem_map.1 h1
  exact ⟨r, h3, rfl, h2⟩

/-- A sample after the end of the window has one before it in its record. -/
theorem before_end {files : List (Option (List (Rec V)))} {i : Str} {ρ b : ℚ} (hρ : 0 < ρ)
    (hc : Spec.CleanChannel files i ρ b) {recs : List (Rec V)} (h1 : some recs ∈ files) {r : Rec V} (h2 : r ∈ recs)
    (h3 : r.id = i) {t : ℚ} {v : V} (h : (t, v) ∈ r.samples) (hb : b < t) (hb' : t ≤ b + 1 / ρ / 2) :
    ∃ w, (t - 1 / ρ, w) ∈ r.samples := by
  have hhalf : 1 / (2 * ρ) = 1 / ρ / 2 := by field_simp
  have hend := hc.ends recs h1 r h2 h3
  rw [hhalf] at hend
  obtain ⟨n, hn, ht⟩ := (hasSample_iff r t v).2 h
  rw [hc.rate recs h1 r h2 h3] at ht
  cases n with
  | zero =>
    exfalso
    apply hend
    have : t = r.tr.start := by rw [ht]; simp
    rw [← this]
    exact ⟨hb, hb'⟩
  | succ n =>
    have hl := (List.getElem?_eq_some_iff.1 hn).1
    refine ⟨r.tr.vals[n], (hasSample_iff r _ _).1 ⟨n, List.getElem?_eq_getElem (by omega), ?_⟩⟩
    rw [ht, hc.rate recs h1 r h2 h3]
    push_cast
    ring

theorem mem_onlyChannel {q : Req} {files : List (Option (List (Rec V)))} {i : Str} {s : Rec V}
    (h : s ∈ readAllFiles q (onlyChannel i files)) :
    ∃ recs, some recs ∈ files ∧ ∃ r ∈ recs, r.id = i ∧ s = r.trim (q.start - q.prePad) (q.stop + q.postPad) ∧ s.full = true := by
  unfold readAllFiles onlyChannel at h
  obtain ⟨f, hf, hm⟩ := List.mem_flatMap.1 h
  obtain ⟨g, hg, rfl⟩ := List.mem_map.1 hf
  cases g with
  | none => simp at hm
  | some recs =>
    simp only [Option.map_some] at hm
    obtain ⟨r, h1, h2, h3⟩ := of_mem_readFile hm
    obtain ⟨h4, h5⟩ := List.mem_filter.1 h1
    exact ⟨recs, hg, r, h4, by simpa using h5, h2, h3⟩

theorem onlyChannel_mem {q : Req} {files : List (Option (List (Rec V)))} {i : Str} {recs : List (Rec V)}
    (h1 : some recs ∈ files) {r : Rec V} (h2 : r ∈ recs) (h3 : r.id = i) {p : ℚ × V}
    (hp : p ∈ (r.trim (q.start - q.prePad) (q.stop + q.postPad)).samples) :
    ∃ s ∈ readAllFiles q (onlyChannel i files), s = r.trim (q.start - q.prePad) (q.stop + q.postPad) ∧ p ∈ s.samples := by
  refine ⟨_, ?_, rfl, hp⟩
  unfold readAllFiles onlyChannel
  refine List.mem_flatMap.2 ⟨_, List.mem_map.2 ⟨_, h1, rfl⟩, ?_⟩
  simp only [Option.map_some]
  exact List.mem_filter.2 ⟨List.mem_map.2 ⟨r, List.mem_filter.2 ⟨h2, by simpa using h3⟩, rfl⟩, full_of_sample hp⟩

variable [DecidableEq V]

/-- What is read, before it is found to be empty or not. -/
def window (order : List Str → List Str) (shift : Rec V → Rec V) (q : Req) (files : List (Option (List (Rec V)))) :
    List (Rec V) :=
  trimWindow q (selectStations q ((mergeStream order (readAllFiles q files)).map shift))

open Classical in
/-- The records of a channel in what is read. -/
theorem window_channel {order : List Str → List Str} (ho : SetOrder order) {shift : Rec V → Rec V} (hsh : KeepsOnSample shift)
    (hid : KeepsId shift) (q : Req) (hnd : q.stations.Nodup) (files : List (Option (List (Rec V)))) (i : Str) {ρ : ℚ}
    (hρ : 0 < ρ) (hlong : q.start + 1 / ρ ≤ q.stop) (hc : Spec.CleanChannel files i ρ q.stop) :
    ∃ l, (window order shift q files).filter (fun r : Rec V => decide (r.id = i)) = l ∧
      (∀ r ∈ l, r.id = i ∧ r.rate = ρ ∧ r.tr.vals ≠ []) ∧
      l.Pairwise (fun a b : Rec V => a.stop + 1 / ρ < b.tr.start) ∧
      ∀ t v, (∃ r ∈ l, (t, v) ∈ r.samples) ↔
        Recorded files i t v ∧ Selected q i ∧ q.start - 1 / (2 * ρ) < t ∧ t ≤ q.stop + 1 / (2 * ρ) := by
  have hhalf : 1 / (2 * ρ) = 1 / ρ / 2 := by field_simp
  have hδ : 0 < 1 / ρ := by positivity
  rw [hhalf]
  obtain ⟨hp1, hp2⟩ := pads_nonneg q
  obtain ⟨m, hm, hmr, hmem, -, hsep⟩ := raw_channel ho hρ q files i hc.rate
  obtain ⟨hs1, hs2⟩ := hsep hc.onSample hc.unambiguous
  have hmap : m.map shift = m := by
    conv_rhs => rw [← List.map_id m]
    exact List.map_congr_left fun r hrm => hsh r (hs2 r hrm).2
  -- the samples of the merged stream
  have hin : ∀ t v, (∃ r ∈ m, (t, v) ∈ r.samples) → Recorded files i t v ∧ q.start - q.prePad - 1 / ρ / 2 < t ∧
      t ≤ q.stop + q.postPad + 1 / ρ / 2 := by
    intro t v h
    obtain ⟨s, hs, hp⟩ := (hmem _).1 h
    obtain ⟨recs, g1, r, g2, g3, rfl, -⟩ := mem_onlyChannel hs
    obtain ⟨k1, k2, k3⟩ := of_mem_trim hρ (hc.rate recs g1 r g2 g3) hp
    exact ⟨⟨recs, g1, r, g2, g3, (hasSample_iff r t v).2 k1⟩, k2, k3⟩
  have hkeep : ∀ {recs : List (Rec V)}, some recs ∈ files → ∀ {r : Rec V}, r ∈ recs → r.id = i → ∀ {t : ℚ} {v : V},
      (t, v) ∈ r.samples → q.start - q.prePad - 1 / ρ / 2 < t → t ≤ q.stop + 1 / ρ / 2 →
      (t, v) ∈ (r.trim (q.start - q.prePad) (q.stop + q.postPad)).samples := by
    intro recs g1 r g2 g3 t v hp ha hb
    refine mem_trim_of hρ (hc.rate recs g1 r g2 g3) hp ha (by simp only; linarith) ?_
    by_cases hle : t ≤ q.stop
    · exact Or.inl (by simp only; linarith)
    · push Not at hle
      obtain ⟨w, hw⟩ := before_end hρ hc g1 g2 g3 hp hle hb
      exact Or.inr ⟨by simp only; linarith, w, hw⟩
  have hout : ∀ t v, Recorded files i t v → q.start - q.prePad - 1 / ρ / 2 < t → t ≤ q.stop + 1 / ρ / 2 →
      ∃ r ∈ m, (t, v) ∈ r.samples := by
    rintro t v ⟨recs, g1, r, g2, g3, g4⟩ ha hb
    obtain ⟨s, hs, -, hp⟩ := onlyChannel_mem g1 g2 g3 (hkeep g1 g2 g3 ((hasSample_iff r t v).1 g4) ha hb)
    exact (hmem _).2 ⟨s, hs, hp⟩
  -- a sample after the end has one before it in its merged record
  have hend : ∀ r ∈ m, ∀ t v, (t, v) ∈ r.samples → q.stop < t → t ≤ q.stop + 1 / ρ / 2 → ∃ w, (t - 1 / ρ, w) ∈ r.samples := by
    intro r hrm t v hp ha hb
    obtain ⟨⟨recs, g1, r0, g2, g3, g4⟩, -⟩ := hin t v ⟨r, hrm, hp⟩
    obtain ⟨w, hw⟩ := before_end hρ hc g1 g2 g3 ((hasSample_iff r0 t v).1 g4) ha hb
    obtain ⟨r', hr', hp'⟩ := hout (t - 1 / ρ) w ⟨recs, g1, r0, g2, g3, (hasSample_iff _ _ _).2 hw⟩ (by linarith) (by linarith)
    refine ⟨w, ?_⟩
    have hbound : ∀ x ∈ m, ∀ {u : ℚ} {z : V}, (u, z) ∈ x.samples → x.tr.start ≤ u ∧ u ≤ x.stop := by
      intro x hx u z hu
      obtain ⟨n, hn, hu'⟩ := (hasSample_iff x u z).2 hu
      have hl := (List.getElem?_eq_some_iff.1 hn).1
      rw [(hmr x hx).2] at hu'
      have h0 : (0 : ℚ) ≤ (n : ℚ) / ρ := by positivity
      refine ⟨by linarith, ?_⟩
      unfold Rec.stop Rec.delta Trace.stop
      rw [(hmr x hx).2, hu']
      have hl' : (n : ℚ) ≤ (x.tr.vals.length : ℚ) - 1 := by
        have : ((n + 1 : ℕ) : ℚ) ≤ (x.tr.vals.length : ℚ) := by exact_mod_cast hl
        push_cast at this; linarith
      have := mul_le_mul_of_nonneg_right hl' hδ.le
      have e : (n : ℚ) / ρ = n * (1 / ρ) := by ring
      rw [e]
      linarith
    by_contra hne
    have hrr : r' ≠ r := by rintro rfl; exact hne hp'
    obtain ⟨b1, b2⟩ := hbound r hrm hp
    obtain ⟨c1, c2⟩ := hbound r' hr' hp'
    rcases List.mem_iff_getElem.1 hrm with ⟨x, hx, rfl⟩
    rcases List.mem_iff_getElem.1 hr' with ⟨y, hy, rfl⟩
    rcases lt_trichotomy x y with h | h | h
    · have := List.pairwise_iff_getElem.1 hs1 x y hx hy h
      linarith
    · subst h; exact hrr rfl
    · have := List.pairwise_iff_getElem.1 hs1 y x hy hx h
      linarith
  have hfil : (window order shift q files).filter (fun r : Rec V => decide (r.id = i)) =
      trimWindow q (if Selected q i then m else []) := by
    unfold window
    rw [trimWindow_filter]
    congr 1
    by_cases hsel : Selected q i
    · rw [if_pos hsel, selectStations_eq q hnd _ i hsel, filter_map_id shift hid, hm, hmap]
    · rw [if_neg hsel, List.eq_nil_iff_forall_not_mem]
      intro r hrm
      exact hsel ((selectStations_filter q _ i r).mp hrm).1
  refine ⟨_, hfil, ?_⟩
  by_cases hsel : Selected q i
  · rw [if_pos hsel]
    by_cases hpad : q.prePad ≠ 0 ∨ q.postPad ≠ 0
    · have e : trimWindow q m = readFile q.start q.stop m := if_pos hpad
      rw [e]
      refine ⟨?_, readFile_separated hρ _ _ m (fun r hrm => (hmr r hrm).2) hs1, ?_⟩
      · intro r hr
        obtain ⟨r0, h1, rfl, h2⟩ := of_mem_readFile hr
        exact ⟨(hmr r0 h1).1, (hmr r0 h1).2, (full_iff _).1 h2⟩
      · intro t v
        constructor
        · rintro ⟨r, hr, hp⟩
          obtain ⟨r0, h1, rfl, -⟩ := of_mem_readFile hr
          obtain ⟨k1, k2, k3⟩ := of_mem_trim hρ (hmr r0 h1).2 hp
          exact ⟨(hin t v ⟨r0, h1, k1⟩).1, hsel, k2, k3⟩
        · rintro ⟨h1, -, h2, h3⟩
          obtain ⟨r, hr, hp⟩ := hout t v h1 (by linarith) h3
          refine mem_readFile hr (mem_trim_of hρ (hmr r hr).2 hp h2 h3 ?_)
          by_cases hle : t ≤ q.stop
          · exact Or.inl hle
          · push Not at hle
            obtain ⟨w, hw⟩ := hend r hr t v hp hle h3
            exact Or.inr ⟨by simp only; linarith, w, hw⟩
    · have e : trimWindow q m = m := if_neg hpad
      push Not at hpad
      rw [e]
      refine ⟨fun r hr => ⟨(hmr r hr).1, (hmr r hr).2, (hs2 r hr).1⟩, hs1, fun t v => ⟨fun h => ?_, ?_⟩⟩
      · obtain ⟨h1, h2, h3⟩ := hin t v h
        rw [hpad.1] at h2
        rw [hpad.2] at h3
        exact ⟨h1, hsel, by linarith, by linarith⟩
      · rintro ⟨h1, -, h2, h3⟩
        exact hout t v h1 (by linarith) h3
  · rw [if_neg hsel]
    have e : trimWindow q ([] : List (Rec V)) = [] := by unfold trimWindow readFile; split <;> rfl
    rw [e]
    refine ⟨by simp, by simp, fun t v => ?_⟩
    simp [hsel]

omit [DecidableEq V] in
/-- Separated records of one channel are determined by their samples. -/
theorem channel_unique {i : Str} {ρ : ℚ} (hρ : 0 < ρ) : ∀ (l l' : List (Rec V)),
    (∀ r ∈ l, r.id = i ∧ r.rate = ρ ∧ r.tr.vals ≠ []) → (∀ r ∈ l', r.id = i ∧ r.rate = ρ ∧ r.tr.vals ≠ []) →
    l.Pairwise (fun a b : Rec V => a.stop + 1 / ρ < b.tr.start) → l'.Pairwise (fun a b : Rec V => a.stop + 1 / ρ < b.tr.start) →
    (∀ t v, (∃ r ∈ l, (t, v) ∈ r.samples) ↔ ∃ r ∈ l', (t, v) ∈ r.samples) → l = l' := by
  have hδ : 0 < 1 / ρ := by positivity
  have hfirst : ∀ r : Rec V, r.tr.vals ≠ [] → ∃ v, (r.tr.start, v) ∈ r.samples := by
    intro r hne
    obtain ⟨v, l, hv⟩ := List.exists_cons_of_ne_nil hne
    exact ⟨v, (hasSample_iff r _ v).1 ⟨0, by rw [hv]; rfl, by simp⟩⟩
  have hsam : ∀ r : Rec V, r.rate = ρ → ∀ t v, (t, v) ∈ r.samples ↔ ∃ n : ℕ, r.tr.vals[n]? = some v ∧ t = r.tr.start + n * (1 / ρ) := by
    intro r hr t v
    rw [← hasSample_iff]
    unfold HasSample
    rw [hr]
    have : ∀ n : ℕ, (n : ℚ) / ρ = n * (1 / ρ) := fun n => by ring
    simp only [this]
  -- a sample of a later record is more than one sample after the end of the first
  have hlater : ∀ (r : Rec V) (l : List (Rec V)), r.rate = ρ → (∀ s ∈ l, s.rate = ρ) →
      (∀ s ∈ l, r.stop + 1 / ρ < s.tr.start) → ∀ s ∈ l, ∀ t v, (t, v) ∈ s.samples →
      r.tr.start + r.tr.vals.length * (1 / ρ) < t := by
    intro r l hr hl hsep s hs t v hp
    obtain ⟨n, -, rfl⟩ := (hsam s (hl s hs) t v).1 hp
    have := hsep s hs
    unfold Rec.stop Rec.delta Trace.stop at this
    rw [hr] at this
    have h0 : (0 : ℚ) ≤ (n : ℚ) * (1 / ρ) := by positivity
    linarith
  intro l
  induction l with
  | nil =>
    intro l' _ h' _ _ hiff
    cases l' with
    | nil => rfl
    | cons r l' =>
      exfalso
      obtain ⟨v, hv⟩ := hfirst r (h' r (by simp)).2.2
      obtain ⟨x, hx, -⟩ := (hiff _ v).2 ⟨r, by simp, hv⟩
      simp at hx
  | cons r l ih =>
    intro l' h h' hs hs' hiff
    cases l' with
    | nil =>
      exfalso
      obtain ⟨v, hv⟩ := hfirst r (h r (by simp)).2.2
      obtain ⟨x, hx, -⟩ := (hiff _ v).1 ⟨r, by simp, hv⟩
      simp at hx
    | cons r' l' =>
      obtain ⟨s1, s2⟩ := List.pairwise_cons.1 hs
      obtain ⟨s1', s2'⟩ := List.pairwise_cons.1 hs'
      obtain ⟨hid, hr, hne⟩ := h r (by simp)
      obtain ⟨hid', hr', hne'⟩ := h' r' (by simp)
      have hl := hlater r l hr (fun s hs => (h s (by simp [hs])).2.1) s1
      have hl' := hlater r' l' hr' (fun s hs => (h' s (by simp [hs])).2.1) s1'
      have len0 : ∀ x : Rec V, (0 : ℚ) ≤ (x.tr.vals.length : ℚ) * (1 / ρ) := fun x => by positivity
      have hge : ∀ t v, (∃ x ∈ r :: l, (t, v) ∈ x.samples) → r.tr.start ≤ t := by
        rintro t v ⟨x, hx, hp⟩
        rcases List.mem_cons.1 hx with rfl | hx
        · obtain ⟨n, -, rfl⟩ := (hsam _ hr t v).1 hp
          have : (0 : ℚ) ≤ (n : ℚ) * (1 / ρ) := by positivity
          linarith
        · have := hl x hx t v hp
          linarith [len0 r]
      have hge' : ∀ t v, (∃ x ∈ r' :: l', (t, v) ∈ x.samples) → r'.tr.start ≤ t := by
        rintro t v ⟨x, hx, hp⟩
        rcases List.mem_cons.1 hx with rfl | hx
        · obtain ⟨n, -, rfl⟩ := (hsam _ hr' t v).1 hp
          have : (0 : ℚ) ≤ (n : ℚ) * (1 / ρ) := by positivity
          linarith
        · have := hl' x hx t v hp
          linarith [len0 r']
      have hstart : r.tr.start = r'.tr.start := by
        obtain ⟨v, hv⟩ := hfirst r hne
        obtain ⟨v', hv'⟩ := hfirst r' hne'
        exact le_antisymm (hge _ v' ((hiff _ v').2 ⟨r', by simp, hv'⟩)) (hge' _ v ((hiff _ v).1 ⟨r, by simp, hv⟩))
      -- sample by sample
      have hcell : ∀ n : ℕ, ∀ v, r.tr.vals[n]? = some v → n ≤ r'.tr.vals.length → r'.tr.vals[n]? = some v := by
        intro n v hn hle
        obtain ⟨x, hx, hp⟩ := (hiff (r.tr.start + n * (1 / ρ)) v).1 ⟨r, by simp, (hsam r hr _ v).2 ⟨n, hn, rfl⟩⟩
        rcases List.mem_cons.1 hx with rfl | hx
        · obtain ⟨k, hk, e⟩ := (hsam _ hr' _ v).1 hp
          rw [hstart] at e
          have : (n : ℚ) = k := mul_right_cancel₀ hδ.ne' (by linarith)
          have : n = k := by exact_mod_cast this
          rw [this]; exact hk
        · exfalso
          have := hl' x hx _ v hp
          rw [hstart] at this
          have hle' : (n : ℚ) * (1 / ρ) ≤ (r'.tr.vals.length : ℚ) * (1 / ρ) :=
            mul_le_mul_of_nonneg_right (by exact_mod_cast hle) hδ.le
          linarith
      have hcell' : ∀ n : ℕ, ∀ v, r'.tr.vals[n]? = some v → n ≤ r.tr.vals.length → r.tr.vals[n]? = some v := by
        intro n v hn hle
        obtain ⟨x, hx, hp⟩ := (hiff (r'.tr.start + n * (1 / ρ)) v).2 ⟨r', by simp, (hsam r' hr' _ v).2 ⟨n, hn, rfl⟩⟩
        rcases List.mem_cons.1 hx with rfl | hx
        · obtain ⟨k, hk, e⟩ := (hsam _ hr _ v).1 hp
          rw [hstart] at e
          have : (n : ℚ) = k := mul_right_cancel₀ hδ.ne' (by linarith)
          have : n = k := by exact_mod_cast this
          rw [this]; exact hk
        · exfalso
          have := hl x hx _ v hp
          rw [hstart] at this
          have hle' : (n : ℚ) * (1 / ρ) ≤ (r.tr.vals.length : ℚ) * (1 / ρ) :=
            mul_le_mul_of_nonneg_right (by exact_mod_cast hle) hδ.le
          linarith
      have hlen : r.tr.vals.length = r'.tr.vals.length := by
        rcases lt_trichotomy r.tr.vals.length r'.tr.vals.length with hlt | he | hlt
        · have := hcell' r.tr.vals.length _ (List.getElem?_eq_getElem hlt) le_rfl
          have := (List.getElem?_eq_some_iff.1 this).1
          omega
        · exact he
        · have := hcell r'.tr.vals.length _ (List.getElem?_eq_getElem hlt) le_rfl
          have := (List.getElem?_eq_some_iff.1 this).1
          omega
      have hvals : r.tr.vals = r'.tr.vals := by
        refine List.ext_getElem hlen fun n h1 h2 => ?_
        have := hcell n _ (List.getElem?_eq_getElem h1) (by omega)
        rw [List.getElem?_eq_getElem h2] at this
        exact (Option.some.inj this).symm
      have heq : r = r' := by
        obtain ⟨i1, ρ1, ⟨b1, v1⟩⟩ := r
        obtain ⟨i2, ρ2, ⟨b2, v2⟩⟩ := r'
        simp only at hid hid' hr hr' hstart hvals
        rw [hid, hid', hr, hr', hstart, hvals]
      subst heq
      congr 1
      refine ih l' (fun s hs => h s (by simp [hs])) (fun s hs => h' s (by simp [hs])) s2 s2' fun t v => ?_
      have hnot : (r.tr.start + r.tr.vals.length * (1 / ρ) < t) → (t, v) ∉ r.samples := by
        intro hlt hp
        obtain ⟨n, hn, rfl⟩ := (hsam r hr t v).1 hp
        have hl := (List.getElem?_eq_some_iff.1 hn).1
        have : (n : ℚ) * (1 / ρ) ≤ (r.tr.vals.length : ℚ) * (1 / ρ) :=
          mul_le_mul_of_nonneg_right (by exact_mod_cast hl.le) hδ.le
        linarith
      constructor
      · rintro ⟨x, hx, hp⟩
        have hlt := hl x hx t v hp
        obtain ⟨y, hy, hp'⟩ := (hiff t v).1 ⟨x, by simp [hx], hp⟩
        rcases List.mem_cons.1 hy with rfl | hy
        · exact absurd hp' (hnot hlt)
        · exact ⟨y, hy, hp'⟩
      · rintro ⟨x, hx, hp⟩
        have hlt := hl' x hx t v hp
        obtain ⟨y, hy, hp'⟩ := (hiff t v).2 ⟨x, by simp [hx], hp⟩
        rcases List.mem_cons.1 hy with rfl | hy
        · exact absurd hp' (hnot hlt)
        · exact ⟨y, hy, hp'⟩

end ReadSamples

/-! ## The property -/

variable {V : Type} [DecidableEq V]

/-- What is returned for a channel is exactly what the files hold of it in the window, widened by half a sample. -/
theorem C176_exact {order : List Str → List Str} (ho : SetOrder order) {shift : Rec V → Rec V} (hsh : KeepsOnSample shift)
    (hid : KeepsId shift) (q : Req) (hnd : q.stations.Nodup) (files : List (Option (List (Rec V)))) (i : Str) (ρ : ℚ)
    (hρ : 0 < ρ) (hlong : q.start + 1 / ρ ≤ q.stop) (hc : Spec.CleanChannel files i ρ q.stop) (out : Out V)
    (h : readWaveformData order shift q files = .ok out) (t : ℚ) (v : V) :
    InStream out.waveforms i t v ↔
      Recorded files i t v ∧ Selected q i ∧ q.start - 1 / (2 * ρ) < t ∧ t ≤ q.stop + 1 / (2 * ρ) := by
  obtain ⟨h1, h2, -⟩ := readWaveformData_ok h
  obtain ⟨l, e, -, -, hs⟩ := ReadSamples.window_channel ho hsh hid q hnd files i hρ hlong hc
  rw [inStream_iff, h2, h1]
  unfold ReadSamples.window at e
  rw [e]
  exact hs t v

/-- Two reads of the same window return the same traces if the files hold the same samples of every channel there: however the
samples are cut into files and records, whatever the order in which a set is gone through, and whatever the extra padding. -/
theorem C176_samples_alone {order order' : List Str → List Str} (ho : SetOrder order) (ho' : SetOrder order')
    {shift : Rec V → Rec V} (hsh : KeepsOnSample shift) (hid : KeepsId shift) (q q' : Req) (hstart : q'.start = q.start)
    (hstop : q'.stop = q.stop) (hall : q'.readAll = q.readAll) (hst : q'.stations = q.stations) (hnd : q.stations.Nodup)
    (files files' : List (Option (List (Rec V)))) (rateOf : Str → ℚ)
    (hrate : ∀ i, 0 < rateOf i ∧ q.start + 1 / rateOf i ≤ q.stop)
    (hc : ∀ i, Spec.CleanChannel files i (rateOf i) q.stop) (hc' : ∀ i, Spec.CleanChannel files' i (rateOf i) q.stop)
    (hsame : Spec.SameSamples rateOf q.start q.stop files files') (out : Out V)
    (h : readWaveformData order shift q files = .ok out) :
    ∃ out', readWaveformData order' shift q' files' = .ok out' ∧ out.waveforms.Perm out'.waveforms := by
  have hsel : ∀ i, Selected q' i ↔ Selected q i := fun i => by unfold Selected; rw [hall, hst]
  have hfil : ∀ i, (ReadSamples.window order shift q files).filter (fun r : Rec V => decide (r.id = i)) =
      (ReadSamples.window order' shift q' files').filter (fun r : Rec V => decide (r.id = i)) := by
    intro i
    obtain ⟨hρ, hl⟩ := hrate i
    obtain ⟨l, e, a1, a2, a3⟩ := ReadSamples.window_channel ho hsh hid q hnd files i hρ hl (hc i)
    obtain ⟨l', e', b1, b2, b3⟩ := ReadSamples.window_channel ho' hsh hid q' (hst ▸ hnd) files' i hρ (by rw [hstart, hstop]; exact hl)
      (by rw [hstop]; exact hc' i)
    rw [e, e']
    refine ReadSamples.channel_unique hρ l l' a1 b1 a2 b2 fun t v => ?_
    rw [a3, b3, hstart, hstop, hsel]
    constructor
    · rintro ⟨g1, g2, g3, g4⟩
      exact ⟨(hsame i t v g3 g4).1 g1, g2, g3, g4⟩
    · rintro ⟨g1, g2, g3, g4⟩
      exact ⟨(hsame i t v g3 g4).2 g1, g2, g3, g4⟩
  have hperm : (ReadSamples.window order shift q files).Perm (ReadSamples.window order' shift q' files') := by
    rw [List.perm_iff_count]
    intro r
    have hcount : ∀ l : List (Rec V), l.count r = (l.filter (fun x : Rec V => decide (x.id = r.id))).count r := fun l =>
      (List.count_filter (p := fun x : Rec V => decide (x.id = r.id)) (by simp)).symm
    rw [hcount, hfil, ← hcount]
  obtain ⟨h1, h2, h3⟩ := readWaveformData_ok h
  rw [h1] at h2
  have hw : out.waveforms = ReadSamples.window order shift q files := h2
  rw [hw] at h3 ⊢
  have h3' : ReadSamples.window order' shift q' files' ≠ [] := fun e => h3 (by rw [e] at hperm; exact hperm.eq_nil)
  have hf : files' ≠ [] := by
    rintro rfl
    obtain ⟨r, l, e⟩ := List.exists_cons_of_ne_nil h3'
    obtain ⟨hρ, hl⟩ := hrate r.id
    obtain ⟨l', e', b1, -, b3⟩ := ReadSamples.window_channel ho' hsh hid q' (hst ▸ hnd) [] r.id hρ (by rw [hstart, hstop]; exact hl)
      (by rw [hstop]; exact hc' r.id)
    have hr : r ∈ l' := by rw [← e', e]; simp
    obtain ⟨v, vs, hv⟩ := List.exists_cons_of_ne_nil (b1 r hr).2.2
    obtain ⟨⟨recs, g, -⟩, -⟩ := (b3 r.tr.start v).1 ⟨r, hr, (hasSample_iff r _ v).1 ⟨0, by rw [hv]; rfl, by simp⟩⟩
    simp at g
  refine ⟨⟨mergeStream order' (readAllFiles q' files'), ReadSamples.window order' shift q' files'⟩, ?_, hperm⟩
  unfold readWaveformData
  rw [if_neg hf]
  exact if_neg h3'

/-- The last requirement on the files holds for every window that ends on a sample. -/
theorem Spec.CleanChannel.of_window {files : List (Option (List (Rec V)))} {i : Str} {ρ b : ℚ} (hρ : 0 < ρ)
    (h1 : ChannelAll files i fun r => r.rate = ρ) (h2 : ChannelAll files i OnSample) (h3 : Unambiguous files i)
    (hb : ∃ k : ℤ, b = k / ρ) : Spec.CleanChannel files i ρ b := by
  refine ⟨h1, h2, h3, fun recs hr r hm hi ⟨ha, hb'⟩ => ?_⟩
  obtain ⟨k, rfl⟩ := hb
  obtain ⟨j, hj⟩ := h2 recs hr r hm hi
  rw [h1 recs hr r hm hi] at hj
  rw [hj] at ha hb'
  rw [div_lt_div_iff_of_pos_right hρ] at ha
  have e : (k : ℚ) / ρ + 1 / (2 * ρ) = (k + 1 / 2) / ρ := by field_simp
  rw [e, div_le_div_iff_of_pos_right hρ] at hb'
  have h3 : (k : ℤ) < j := by exact_mod_cast ha
  have h4 : ((k + 1 : ℤ) : ℚ) ≤ j := by exact_mod_cast h3
  push_cast at h4
  linarith

namespace ReadSamples

def one : Rec ℤ := ⟨"N.A..Z".toList, 2, ⟨1 / 2, [1, 2, 3, 4]⟩⟩
def early : Rec ℤ := ⟨"N.A..Z".toList, 2, ⟨1 / 2, [1, 2]⟩⟩
def late : Rec ℤ := ⟨"N.A..Z".toList, 2, ⟨3 / 2, [3, 4]⟩⟩

theorem recorded_one (i : Str) (t : ℚ) (v : ℤ) : Recorded [some [one]] i t v ↔ one.id = i ∧ HasSample one t v := by
  unfold Recorded
  simp

theorem recorded_two (i : Str) (t : ℚ) (v : ℤ) :
    Recorded [some [early, late]] i t v ↔ one.id = i ∧ (HasSample early t v ∨ HasSample late t v) := by
  unfold Recorded
  have h1 : early.id = one.id := rfl
  have h2 : late.id = one.id := rfl
  simp [h1, h2]
  tauto

theorem recorded_two' (i : Str) (t : ℚ) (v : ℤ) :
    Recorded [some [early], none, some [late]] i t v ↔ one.id = i ∧ (HasSample early t v ∨ HasSample late t v) := by
  unfold Recorded
  have h1 : early.id = one.id := rfl
  have h2 : late.id = one.id := rfl
  simp [h1, h2]
  tauto

theorem same_samples (t : ℚ) (v : ℤ) : HasSample one t v ↔ HasSample early t v ∨ HasSample late t v := by
  unfold HasSample one early late
  constructor
  · rintro ⟨n, h4, h5⟩
    rcases n with _ | _ | _ | _ | n
    · exact Or.inl ⟨0, h4, h5⟩
    · exact Or.inl ⟨1, h4, h5⟩
    · exact Or.inr ⟨0, h4, by rw [h5]; norm_num⟩
    · exact Or.inr ⟨1, h4, by rw [h5]; norm_num⟩
    · simp at h4
  · rintro (⟨n, h4, h5⟩ | ⟨n, h4, h5⟩)
    · rcases n with _ | _ | n
      · exact ⟨0, h4, h5⟩
      · exact ⟨1, h4, h5⟩
      · simp at h4
    · rcases n with _ | _ | n
      · exact ⟨2, h4, by rw [h5]; norm_num⟩
      · exact ⟨3, h4, by rw [h5]; norm_num⟩
      · simp at h4

theorem value_one (t : ℚ) (v : ℤ) (h : HasSample one t v) : (v : ℚ) = 2 * t := by
  obtain ⟨n, h4, h5⟩ := h
  rw [h5]
  unfold one at h4 ⊢
  rcases n with _ | _ | _ | _ | n
  all_goals simp at h4
  all_goals subst h4; norm_num

end ReadSamples

open ReadSamples in
/-- The requirement on records that start just after the window is needed: the same samples in one record and cut in two, a
window that ends between two samples. -/
theorem C176_split_matters :
    ∃ (q : Req) (f f' : List (Option (List (Rec ℤ)))), (∀ i t v, Recorded f i t v ↔ Recorded f' i t v) ∧
      (readWaveformData List.dedup id q f).toOption.map (fun o => o.waveforms) =
        some [⟨"N.A..Z".toList, 2, ⟨1 / 2, [1, 2, 3]⟩⟩] ∧
      (readWaveformData List.dedup id q f').toOption.map (fun o => o.waveforms) =
        some [⟨"N.A..Z".toList, 2, ⟨1 / 2, [1, 2]⟩⟩] :=
  ⟨⟨1 / 2, 13 / 10, 0, 0, false, []⟩, [some [one]], [some [early, late]],
    fun i t v => by rw [recorded_one, recorded_two, same_samples], by decide +kernel, by decide +kernel⟩

/-! ## A case that meets the hypotheses: a record whole, and cut into two files with a file that cannot be read between -/

namespace ReadSamples

theorem one_clean (i : Str) : Spec.CleanChannel [some [one]] i 2 2 := by
  refine .of_window (by norm_num) ?_ ?_ ?_ ⟨4, by norm_num⟩
  · intro recs h r hr _
    obtain rfl : recs = [one] := by simpa using h
    obtain rfl : r = one := by simpa using hr
    rfl
  · intro recs h r hr _
    obtain rfl : recs = [one] := by simpa using h
    obtain rfl : r = one := by simpa using hr
    exact ⟨1, by unfold one; norm_num⟩
  · intro t v w hv hw
    have a := value_one t v ((recorded_one i t v).1 hv).2
    have b := value_one t w ((recorded_one i t w).1 hw).2
    rw [← b] at a
    exact_mod_cast a

theorem two_clean (i : Str) : Spec.CleanChannel [some [early], none, some [late]] i 2 2 := by
  refine .of_window (by norm_num) ?_ ?_ ?_ ⟨4, by norm_num⟩
  · intro recs h r hr _
    rcases (by simpa using h : recs = [early] ∨ recs = [late]) with rfl | rfl
    · obtain rfl : r = early := by simpa using hr
      rfl
    · obtain rfl : r = late := by simpa using hr
      rfl
  · intro recs h r hr _
    rcases (by simpa using h : recs = [early] ∨ recs = [late]) with rfl | rfl
    · obtain rfl : r = early := by simpa using hr
      exact ⟨1, by unfold early; norm_num⟩
    · obtain rfl : r = late := by simpa using hr
      exact ⟨3, by unfold late; norm_num⟩
  · intro t v w hv hw
    have a := value_one t v ((same_samples t v).2 ((recorded_two' i t v).1 hv).2)
    have b := value_one t w ((same_samples t w).2 ((recorded_two' i t w).1 hw).2)
    rw [← b] at a
    exact_mod_cast a

/-- With a quarter of a second of extra data after the window in one request and none in the other. -/
example : ∃ out', readWaveformData (fun l => l.dedup.reverse) id ⟨1 / 2, 2, 0, 1 / 4, false, []⟩ [some [early], none, some [late]] =
      .ok out' ∧ [one].Perm out'.waveforms :=
  C176_samples_alone (order := List.dedup) (shift := id) (fun l => ⟨List.nodup_dedup l, fun _ => List.mem_dedup⟩)
    (fun l => ⟨List.nodup_reverse.2 (List.nodup_dedup l), fun _ => by simp⟩)
    (fun _ _ => rfl) (fun _ => rfl) ⟨1 / 2, 2, 0, 0, false, []⟩ ⟨1 / 2, 2, 0, 1 / 4, false, []⟩ rfl rfl rfl rfl List.nodup_nil [some [one]] _ (fun _ => 2)
    (fun _ => by norm_num) one_clean two_clean
    (fun i t v _ _ => by rw [recorded_one, recorded_two', same_samples]) ⟨[one], [one]⟩ (by decide +kernel)

end ReadSamples

end QM
