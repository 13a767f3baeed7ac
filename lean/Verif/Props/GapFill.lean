import Verif.Model.GapFill
import Verif.Model.StaLta
import Verif.Spec.StaLta
import Verif.Props.Data
import Verif.Props.StaLta
import Verif.Props.StaLtaDoubles
import Mathlib.Tactic

/-!
# C125: gappy data
-/

namespace QM

open QM.Data QM.GapFill

/-- A channel whose traces lie on the samples of a window of `N` samples from `start` at rate `r`: each trace
has a first sample number, and they follow each other without overlap, in this order. -/
structure Spec.OnWindow (start r : ℚ) (N : ℕ) (first : Trace → ℕ) (s : List Trace) : Prop where
  rate : ∀ t ∈ s, t.rate = r
  nonempty : ∀ t ∈ s, t.data ≠ []
  start_eq : ∀ t ∈ s, t.start = start + first t / r
  inside : ∀ t ∈ s, first t + t.data.length ≤ N
  order : s.Pairwise fun a b => first a + a.data.length ≤ first b

/-! ### `allow_gaps` alone has no effect -/

theorem getGaps_single (m : Option ℚ) (t : Trace) : getGaps m [t] = [] := by simp [getGaps]

/-- **C125 is violated**: as long as `full_timespan` is left at its default, `allow_gaps` changes nothing, for any
data: channels with a gap are refused with and without it. -/
theorem C125_violated (o : Opts) (hfull : o.fullTimespan = true) (hr : o.checkRate = true → o.rate ≠ 0)
    (start stop : ℚ) (st : List Trace) :
    checkAvailability { o with allowGaps := true } start stop st =
      checkAvailability { o with allowGaps := false } start stop st ∧
    ∀ i, 2 ≤ (st.filter fun t => t.id = i).length → (∀ t ∈ st, t.data ≠ []) →
      checkId { o with allowGaps := true } start stop (st.filter fun t => t.id = i) = .ok false := by
  have two : ∀ g (trs : List Trace), 2 ≤ trs.length → anyFlat trs ≠ none →
      checkId { o with allowGaps := g } start stop trs = .ok false := by
    intro g trs h hf
    unfold checkId
    cases h1 : anyFlat trs with
    | none => exact absurd h1 hf
    | some b =>
      cases b with
      | true => rfl
      | false =>
        simp only
        split
        · rfl
        split
        · rfl
        split
        · rename_i h2
          simp only [Bool.and_eq_true, decide_eq_true_eq] at h2
          exact absurd h2.2 (hr h2.1)
        split
        · rfl
        match trs, h with
        | t :: u :: rest, _ => simp [hfull]
  have flatNone : ∀ (trs : List Trace) g, anyFlat trs = none →
      checkId { o with allowGaps := g } start stop trs = .error .valueError := by
    intro trs g h
    unfold checkId
    rw [h]
  have same : ∀ trs : List Trace, checkId { o with allowGaps := true } start stop trs =
      checkId { o with allowGaps := false } start stop trs := by
    intro trs
    by_cases hf : anyFlat trs = none
    · rw [flatNone trs true hf, flatNone trs false hf]
    by_cases h : 2 ≤ trs.length
    · rw [two true trs h hf, two false trs h hf]
    · have hg : getGaps none trs = [] := by
        match trs, h with
        | [], _ => rfl
        | [t], _ => exact getGaps_single _ t
        | _ :: _ :: _, h => simp at h
      unfold checkId
      simp [hg]
  have sameIds : ∀ l, checkIds { o with allowGaps := true } start stop st l =
      checkIds { o with allowGaps := false } start stop st l := by
    intro l
    induction l with
    | nil => rfl
    | cons i l ih => simp only [checkIds, same, ih]
  refine ⟨by simp only [checkAvailability, sameIds], fun i h hne => two true _ h ?_⟩
  have hne' : ∀ t ∈ st.filter fun t => t.id = i, t.data ≠ [] := fun t ht => hne t (List.mem_filter.mp ht).1
  rcases anyFlat_spec _ hne' with ⟨h1, _⟩ | ⟨h1, _⟩ <;> rw [h1] <;> simp

/-- **C125** with both options (`allow_gaps=True` and `full_timespan=False`): a channel is used
if none of its traces is flat, they do not overlap and have the right rate, whatever its gaps. -/
theorem C125_used_partial (all : Bool) (n : ℕ) (rate start stop : ℚ) (hr : rate ≠ 0) (trs : List Trace)
    (hne : trs ≠ []) (hs : ∀ t ∈ trs, Sane t) :
    ∃ b, checkId (onsetOpts all true false n rate) start stop trs = .ok b ∧
      (b = true ↔ (∀ t ∈ trs, ∃ x ∈ t.data, ∃ y ∈ t.data, x ≠ y) ∧ Spec.NoOverlap trs ∧ ∀ t ∈ trs, t.rate = rate) := by
  obtain ⟨b, h, hb⟩ := C54_channel_iff (onsetOpts all true false n rate) start stop trs hne hs (fun _ => hr)
  refine ⟨b, h, hb.trans ⟨fun c => ⟨c.notFlat, c.overlap, c.rate rfl⟩, fun ⟨h1, h2, h3⟩ => ⟨h1, h2, ?_, fun _ => h3, ?_, ?_⟩⟩⟩
  · intro c; simp [onsetOpts] at c
  · intro c; simp [onsetOpts] at c
  · intro c; simp [onsetOpts] at c

/-! ### Filling -/

theorem taper_length (w : ℕ → ℕ → ℚ) (t : Trace) : (taper w t).data.length = t.data.length := by simp [taper]

/-- Tapering changes values only. -/
theorem onWindow_taper {start r : ℚ} {N : ℕ} {first : Trace → ℕ} {s : List Trace} (w : ℕ → ℕ → ℚ)
    (h : Spec.OnWindow start r N first s) {t : Trace} (ht : t ∈ s) :
    (taper w t).rate = r ∧ (taper w t).data ≠ [] ∧ (taper w t).start = start + first t / r ∧
      first t + (taper w t).data.length ≤ N := by
  refine ⟨h.rate t ht, ?_, h.start_eq t ht, by rw [taper_length]; exact h.inside t ht⟩
  intro he
  have := congrArg List.length he
  rw [taper_length] at this
  exact h.nonempty t ht (List.length_eq_zero_iff.mp (by simpa using this))

/-- The gap between a trace that ends before sample `e` and one that starts at sample `k`. -/
theorem join_gap {r start : ℚ} (hr : 0 < r) {a b : Trace} {ka kb : ℕ} (hra : a.rate = r)
    (hna : a.data ≠ []) (ha : a.start = start + ka / r) (hb : b.start = start + kb / r)
    (hle : ka + a.data.length ≤ kb) :
    (pyRound ((b.start - a.stop) * a.rate) - 1).toNat = kb - (ka + a.data.length) := by
  have hl : 0 < a.data.length := List.length_pos_iff.mpr hna
  have : (b.start - a.stop) * a.rate = ((kb - (ka + a.data.length) + 1 : ℤ) : ℚ) := by
    unfold Trace.stop
    rw [hra, ha, hb]
    push_cast
    field_simp
    ring
  rw [this, pyRound_int]
  omega

/-- What a merged trace holds. -/
structure Merged (start r fill : ℚ) (ka : ℕ) (acc : Trace) (ts : List (ℕ × Trace)) (m : Trace) : Prop where
  rate : m.rate = r
  start_eq : m.start = start + ka / r
  nonempty : m.data ≠ []
  len : acc.data.length ≤ m.data.length
  old : ∀ i, i < acc.data.length → m.data[i]? = acc.data[i]?
  data : ∀ p ∈ ts, ∀ j v, p.2.data[j]? = some v → m.data[p.1 - ka + j]? = some v
  gap : ∀ i, acc.data.length ≤ i → i < m.data.length →
    (∀ p ∈ ts, ∀ j < p.2.data.length, ka + i ≠ p.1 + j) → m.data[i]? = some fill
  bound : ∀ N, ka + acc.data.length ≤ N → (∀ p ∈ ts, p.1 + p.2.data.length ≤ N) → ka + m.data.length ≤ N

theorem merged_fold {start r fill : ℚ} (hr : 0 < r) (ka : ℕ) (ts : List (ℕ × Trace)) : ∀ acc : Trace,
    acc.rate = r → acc.data ≠ [] → acc.start = start + ka / r →
    (∀ p ∈ ts, p.2.rate = r ∧ p.2.data ≠ [] ∧ p.2.start = start + p.1 / r) →
    (∀ p ∈ ts, ka + acc.data.length ≤ p.1) →
    ts.Pairwise (fun p q => p.1 + p.2.data.length ≤ q.1) →
    Merged start r fill ka acc ts ((ts.map Prod.snd).foldl (join fill) acc) := by
  induction ts with
  | nil =>
    intro acc h1 h2 h3 _ _ _
    exact ⟨h1, h3, h2, le_rfl, fun _ _ => rfl, by simp, fun i a b _ => by
      simp only [List.map_nil, List.foldl_nil] at b; omega, fun N h _ => h⟩
  | cons p ts ih =>
    intro acc h1 h2 h3 h4 h5 h6
    rw [List.pairwise_cons] at h6
    obtain ⟨hp1, hp2, hp3⟩ := h4 p (by simp)
    have hp5 := h5 p (by simp)
    have hg := join_gap hr h1 h2 h3 hp3 hp5
    set g := p.1 - (ka + acc.data.length) with hgd
    have hj : join fill acc p.2 = { acc with data := acc.data ++ List.replicate g fill ++ p.2.data } := by
      unfold join; rw [hg]
    have hjl : (join fill acc p.2).data.length = p.1 - ka + p.2.data.length := by
      rw [hj]; simp; omega
    have hjg : ∀ j v, p.2.data[j]? = some v → (join fill acc p.2).data[p.1 - ka + j]? = some v := by
      intro j v hv
      rw [hj]
      simp only
      rw [List.getElem?_append_right (by simp; omega), ← hv]
      congr 1
      simp; omega
    have hjo : ∀ i, i < acc.data.length → (join fill acc p.2).data[i]? = acc.data[i]? := by
      intro i hi
      rw [hj]
      simp only
      rw [List.getElem?_append_left (by simp; omega), List.getElem?_append_left hi]
    have hjf : ∀ i, acc.data.length ≤ i → i < p.1 - ka → (join fill acc p.2).data[i]? = some fill := by
      intro i h h'
      rw [hj]
      simp only
      rw [List.getElem?_append_left (by simp; omega), List.getElem?_append_right h,
        List.getElem?_replicate, if_pos (by omega)]
    have key := ih (join fill acc p.2) (by rw [hj]; exact h1) (by
        intro he
        have h7 := congrArg List.length he
        rw [hjl, List.length_nil] at h7
        have := List.length_pos_iff.mpr hp2
        omega) (by rw [hj]; exact h3)
      (fun q hq => h4 q (by simp [hq])) (fun q hq => by rw [hjl]; have := h6.1 q hq; omega) h6.2
    simp only [List.map_cons, List.foldl_cons]
    refine ⟨key.rate, key.start_eq, key.nonempty, by have := key.len; rw [hjl] at this; omega, ?_, ?_, ?_, ?_⟩
    · intro i hi
      rw [key.old i (by rw [hjl]; omega), hjo i hi]
    · intro q hq j v hv
      rcases List.mem_cons.mp hq with rfl | hq
      · have hlt : j < q.2.data.length := (List.getElem?_eq_some_iff.mp hv).1
        rw [key.old _ (by rw [hjl]; omega), hjg j v hv]
      · exact key.data q hq j v hv
    · intro i h h' hn
      by_cases h7 : i < (join fill acc p.2).data.length
      · rw [key.old i h7]
        rw [hjl] at h7
        by_cases h8 : i < p.1 - ka
        · exact hjf i h h8
        · exact absurd (show ka + i = p.1 + (i - (p.1 - ka)) by omega) (hn p (by simp) _ (by omega))
      · exact key.gap i (by omega) h' fun q hq => hn q (by simp [hq])
    · intro N hN hall
      refine key.bound N ?_ fun q hq => hall q (by simp [hq])
      rw [hjl]
      have := hall p (by simp)
      omega

theorem floor_grid {r start : ℚ} (hr : 0 < r) (hr2 : r < 100000) {k : ℕ} :
    ⌊(start + k / r - (start - 1 / 100000)) * r⌋ = k := by
  rw [Int.floor_eq_iff]
  have : (start + k / r - (start - 1 / 100000)) * r = k + r / 100000 := by field_simp; ring
  rw [this]
  push_cast
  constructor
  · have : 0 < r / 100000 := by positivity
    linarith
  · have : r / 100000 < 1 := by rw [div_lt_one (by norm_num)]; exact hr2
    linarith

theorem padTrim_eq {start r fill : ℚ} (hr : 0 < r) (hr2 : r < 100000) {N k : ℕ} (hN : 1 ≤ N) {m : Trace}
    (hm : m.rate = r) (hs : m.start = start + k / r) (hb : k + m.data.length ≤ N) :
    padTrim fill start (start + (N - 1) / r) m =
      List.replicate k fill ++ m.data ++ List.replicate (N - (k + m.data.length)) fill := by
  unfold padTrim
  rw [hm, hs, floor_grid hr hr2]
  simp only [Int.cast_natCast, Nat.cast_nonneg, if_true, Int.toNat_natCast]
  have e : ⌊(start + ((N : ℚ) - 1) / r + 1 / 100000 - (start + k / r - k / r)) * r⌋ = ((N - 1 : ℕ) : ℤ) := by
    rw [Int.floor_eq_iff]
    have : (start + ((N : ℚ) - 1) / r + 1 / 100000 - (start + k / r - k / r)) * r = (N - 1) + r / 100000 := by
      field_simp; ring
    rw [this]
    push_cast [Nat.cast_sub hN]
    constructor
    · have : 0 < r / 100000 := by positivity
      linarith
    · have : r / 100000 < 1 := by rw [div_lt_one (by norm_num)]; exact hr2
      linarith
  rw [e]
  have : (((N - 1 : ℕ) : ℤ) + 1).toNat = N := by omega
  rw [this]
  simp only [List.length_append, List.length_replicate]
  rw [List.take_of_length_le (by simp; omega)]

/-- Sorting brings the traces of a channel into their order in time. -/
theorem sort_traces {start r : ℚ} (hr : 0 < r) {N : ℕ} {first : Trace → ℕ} {s trs : List Trace}
    (h : Spec.OnWindow start r N first s) (hp : s.Perm trs) (w : ℕ → ℕ → ℚ) :
    (trs.map (taper w)).insertionSort Trace.le = s.map (taper w) := by
  have hlt : (s.map (taper w)).Pairwise fun a b => a.start < b.start := by
    rw [List.pairwise_map]
    refine List.Pairwise.imp_of_mem ?_ h.order
    intro a b ha hb hab
    show a.start < b.start
    rw [h.start_eq a ha, h.start_eq b hb]
    have : (first a : ℚ) < first b := by
      have := List.length_pos_iff.mpr (h.nonempty a ha)
      exact_mod_cast (show first a < first b by omega)
    have := div_lt_div_of_pos_right this hr
    linarith
  exact sorted_unique (hp.map _) hlt

/-- **C125**: a channel with gaps, prepared with `allow_gaps` or without `full_timespan`, has exactly
the samples of the window; every recorded sample is at its own time, multiplied by the taper of its trace, and
all other samples are the fill value.  The order of the traces does not matter. -/
theorem C125_filled (start r fill : ℚ) (hr : 0 < r) (hr2 : r < 100000) (N : ℕ) (first : Trace → ℕ)
    (s trs : List Trace) (hne : s ≠ []) (h : Spec.OnWindow start r N first s) (hp : s.Perm trs) (w : ℕ → ℕ → ℚ)
    (allowGaps fullTimespan : Bool) (hopt : allowGaps = true ∨ fullTimespan = false) :
    ∃ d, prepare allowGaps fullTimespan w fill start (start + (N - 1) / r) trs = [d] ∧ d.length = N ∧
      (∀ t ∈ trs, ∀ j v, t.data[j]? = some v → d[first t + j]? = some (w t.data.length j * v)) ∧
      (∀ i < N, (∀ t ∈ trs, ∀ j < t.data.length, i ≠ first t + j) → d[i]? = some fill) := by
  unfold prepare
  rw [if_pos (by rcases hopt with h | h <;> simp [h])]
  unfold merge
  rw [sort_traces hr h hp w]
  obtain ⟨t, ts, rfl⟩ : ∃ t ts, s = t :: ts := List.exists_cons_of_ne_nil hne
  have ho := h.order
  rw [List.pairwise_cons] at ho
  have hw : ∀ u ∈ t :: ts, _ := fun u hu => onWindow_taper w h hu
  have key := merged_fold (fill := fill) hr (first t) (ts.map fun u => (first u, taper w u)) (taper w t)
    (hw t (by simp)).1 (hw t (by simp)).2.1 (hw t (by simp)).2.2.1
    (by
      intro p hpm
      obtain ⟨u, hu, rfl⟩ := List.mem_map.mp hpm
      have := hw u (by simp [hu])
      exact ⟨this.1, this.2.1, this.2.2.1⟩)
    (by
      intro p hpm
      obtain ⟨u, hu, rfl⟩ := List.mem_map.mp hpm
      rw [taper_length]; exact ho.1 u hu)
    (by
      rw [List.pairwise_map]
      exact ho.2.imp fun {a b} hab => by simpa [taper_length] using hab)
  have emap : (ts.map fun u => (first u, taper w u)).map Prod.snd = ts.map (taper w) := by
    rw [List.map_map]; rfl
  rw [emap] at key
  set m := (ts.map (taper w)).foldl (join fill) (taper w t) with hm
  have hb : first t + m.data.length ≤ N := key.bound N (hw t (by simp)).2.2.2 (by
    intro p hpm
    obtain ⟨u, hu, rfl⟩ := List.mem_map.mp hpm
    exact (hw u (by simp [hu])).2.2.2)
  have hml : 0 < m.data.length := List.length_pos_iff.mpr key.nonempty
  simp only [List.map_cons]
  refine ⟨_, rfl, ?_⟩
  rw [← hm, padTrim_eq hr hr2 (by omega) key.rate key.start_eq hb]
  have get : ∀ i, i < m.data.length → (List.replicate (first t) fill ++ m.data ++
      List.replicate (N - (first t + m.data.length)) fill)[first t + i]? = m.data[i]? := by
    intro i hi
    rw [List.getElem?_append_left (by simp; omega), List.getElem?_append_right (by simp)]
    simp
  have hfirst : ∀ u ∈ t :: ts, first t ≤ first u := by
    intro u hu
    rcases List.mem_cons.mp hu with rfl | hu
    · exact le_rfl
    · have := ho.1 u hu; omega
  refine ⟨by simp; omega, ?_, ?_⟩
  · intro u hu j v hv
    have hu' := hp.mem_iff.mpr hu
    have hj : j < u.data.length := (List.getElem?_eq_some_iff.mp hv).1
    have hv' : (taper w u).data[j]? = some (w u.data.length j * v) := by
      simp [taper, List.getElem?_mapIdx, hv]
    have hmv : m.data[first u - first t + j]? = some (w u.data.length j * v) := by
      rcases List.mem_cons.mp hu' with rfl | hu''
      · rw [Nat.sub_self, Nat.zero_add, key.old j (by rw [taper_length]; exact hj), hv']
      · exact key.data (first u, taper w u) (List.mem_map.mpr ⟨u, hu'', rfl⟩) j _ hv'
    have hlt : first u - first t + j < m.data.length := (List.getElem?_eq_some_iff.mp hmv).1
    have := get _ hlt
    rw [show first t + (first u - first t + j) = first u + j by have := hfirst u hu'; omega] at this
    rw [this, hmv]
  · intro i hi hn
    by_cases h1 : i < first t
    · rw [List.getElem?_append_left (by simp; omega), List.getElem?_append_left (by simp; omega),
        List.getElem?_replicate, if_pos h1]
    by_cases h2 : i - first t < m.data.length
    · have := get (i - first t) h2
      rw [show first t + (i - first t) = i by omega] at this
      rw [this]
      refine key.gap _ ?_ h2 ?_
      · rw [taper_length]
        by_contra hc
        exact hn t (hp.mem_iff.mp (by simp)) (i - first t) (by omega) (by omega)
      · intro p hpm j hj
        obtain ⟨u, hu, rfl⟩ := List.mem_map.mp hpm
        rw [taper_length] at hj
        have := hn u (hp.mem_iff.mp (by simp [hu])) j hj
        simp only
        omega
    · rw [List.getElem?_append_right (by simp; omega), List.getElem?_replicate,
        if_pos (by simp; omega)]

/-- **C125**: a trace that begins before the window, and perhaps ends after it, is cut to the window: sample `i` of
the result is sample `i + j` of the trace, multiplied by its taper, where the trace begins `j` samples early, and
the fill value after its end. -/
theorem C125_cut (start r fill : ℚ) (hr : 0 < r) (hr2 : r < 100000) (N j : ℕ) (hN : 1 ≤ N) (t : Trace)
    (ht : t.rate = r) (hs : t.start = start - j / r) (w : ℕ → ℕ → ℚ)
    (allowGaps fullTimespan : Bool) (hopt : allowGaps = true ∨ fullTimespan = false) :
    ∃ d, prepare allowGaps fullTimespan w fill start (start + (N - 1) / r) [t] = [d] ∧ d.length = N ∧
      ∀ i < N, d[i]? = some (match t.data[i + j]? with
        | some v => w t.data.length (i + j) * v
        | none => fill) := by
  unfold prepare
  rw [if_pos (by rcases hopt with h | h <;> simp [h])]
  have hm : merge fill ([t].map (taper w)) = some (taper w t) := rfl
  rw [hm]
  refine ⟨_, rfl, ?_⟩
  have e1 : (taper w t).start = start - j / r := hs
  have e2 : (taper w t).rate = r := ht
  have hk : ⌊((taper w t).start - (start - 1 / 100000)) * (taper w t).rate⌋ = -(j : ℤ) := by
    rw [e1, e2, Int.floor_eq_iff]
    have : (start - j / r - (start - 1 / 100000)) * r = -(j : ℚ) + r / 100000 := by field_simp; ring
    rw [this]
    push_cast
    constructor
    · have : 0 ≤ r / 100000 := by positivity
      linarith
    · have : r / 100000 < 1 := by rw [div_lt_one (by norm_num)]; exact hr2
      linarith
  have hn : (⌊(start + ((N : ℚ) - 1) / r + 1 / 100000 - start) * r⌋ + 1).toNat = N := by
    have : ⌊(start + ((N : ℚ) - 1) / r + 1 / 100000 - start) * r⌋ = (N : ℤ) - 1 := by
      rw [Int.floor_eq_iff]
      have : (start + ((N : ℚ) - 1) / r + 1 / 100000 - start) * r = (N : ℚ) - 1 + r / 100000 := by field_simp; ring
      rw [this]
      push_cast
      constructor
      · have : 0 ≤ r / 100000 := by positivity
        linarith
      · have : r / 100000 < 1 := by rw [div_lt_one (by norm_num)]; exact hr2
        linarith
    rw [this]
    omega
  have hstart : start - (j : ℚ) / r - ((-(j : ℤ) : ℤ) : ℚ) / r = start := by push_cast; ring
  have hd : (if 0 ≤ -(j : ℤ) then List.replicate (-(j : ℤ)).toNat fill ++ (taper w t).data
      else (taper w t).data.drop (- -(j : ℤ)).toNat) = (taper w t).data.drop j := by
    rcases Nat.eq_zero_or_pos j with rfl | hj
    · simp
    · rw [if_neg (by omega)]
      congr 1
      omega
  unfold padTrim
  rw [e1, e2] at hk
  simp only [e1, e2, hk, hstart, hn]
  rw [hd]
  refine ⟨by simp; omega, ?_⟩
  intro i hi
  rw [List.getElem?_take_of_lt hi]
  have hdata : ∀ m, (taper w t).data[m]? = (t.data[m]?).map fun v => w t.data.length m * v := by
    intro m
    simp [taper]
  rcases Nat.lt_or_ge (i + j) t.data.length with h | h
  · have hl : i < ((taper w t).data.drop j).length := by rw [List.length_drop, taper_length]; omega
    rw [List.getElem?_append_left hl, List.getElem?_drop, Nat.add_comm j i, hdata, List.getElem?_eq_getElem h]
    rfl
  · have hl : ((taper w t).data.drop j).length ≤ i := by rw [List.length_drop, taper_length]; omega
    rw [List.getElem?_append_right hl, List.getElem?_eq_none h, List.getElem?_replicate,
      if_pos (by omega)]

/-- Not vacuous: a trace of six samples, of which the window takes the third to the fifth. -/
example : prepare true false (fun _ _ => 1) 9 10 12
    [{ id := [], start := 8, rate := 1, data := [1, 2, 3, 4, 5, 6] }] = [[3, 4, 5]] := by
  decide +kernel

/-! ### The onset function inside a gap -/

/-- **C125 is violated** (documentation of `allow_gaps`: "Onset functions for periods with no data will be filled
with ~ zeros"): wherever both windows lie in the gap, the onset function is 1, whatever positive fill value is
used and whatever the rest of the signal. -/
theorem C125_gap_onset_violated (fill : ℚ) (hf : 0 < fill) (nsta nlta : ℕ) (h1 : 1 ≤ nsta) (h2 : nsta ≤ nlta)
    (x : List ℚ) (hx : ∀ v ∈ x, 0 < v) (hn : nlta + nsta ≤ x.length) (i : ℕ) (ha : nlta ≤ i + 1) :
    (i < x.length → (∀ j, i + 1 - nlta ≤ j → j ≤ i → x.getD j 0 = fill ^ 2) →
      ∃ out, StaLta.overlappingC x nsta nlta = some out ∧ out[i]? = some (some 1)) ∧
    (i + nsta < x.length → (∀ j, i + 1 - nlta ≤ j → j ≤ i + nsta → x.getD j 0 = fill ^ 2) →
      ∃ out, StaLta.centredC x nsta nlta = some out ∧ out[i]? = some (some 1)) := by
  have hpos : ∀ a, a + nlta ≤ x.length → 0 < Spec.winSum x a nlta := by
    intro a h
    unfold Spec.winSum
    apply List.sum_pos
    · intro v hv
      exact hx v (List.mem_of_mem_drop (List.mem_of_mem_take hv))
    · intro he
      have := congrArg List.length he
      simp at this
      omega
  have hs : (nsta : ℚ) ≠ 0 := by exact_mod_cast (by omega : nsta ≠ 0)
  have hl : (nlta : ℚ) ≠ 0 := by exact_mod_cast (by omega : nlta ≠ 0)
  have hf' : fill ^ 2 ≠ 0 := by positivity
  constructor
  · intro hi hg
    refine ⟨_, C33_classic_window_ratio x nsta nlta h1 h2 (by omega) fun i hi h => hpos _ (by omega), ?_⟩
    rw [List.getElem?_map, List.getElem?_range hi]
    simp only [Option.map_some]
    unfold Spec.classic Spec.winMean
    rw [if_neg (by omega), winSum_const x (fill ^ 2) (by omega) (fun j a b => hg j (by omega) (by omega)),
      winSum_const x (fill ^ 2) (by omega) (fun j a b => hg j (by omega) (by omega))]
    congr 2
    field_simp
  · intro hi hg
    refine ⟨_, C34_centred_window_ratio x nsta nlta h1 (by omega) (by omega) fun i hi h => hpos _ (by omega), ?_⟩
    rw [List.getElem?_map, List.getElem?_range (by omega)]
    simp only [Option.map_some]
    unfold Spec.centred Spec.winMean
    rw [if_neg (by omega), winSum_const x (fill ^ 2) (by omega) (fun j a b => hg j (by omega) (by omega)),
      winSum_const x (fill ^ 2) (by omega) (fun j a b => hg j (by omega) (by omega))]
    congr 2
    field_simp

/-- **C125** (what happens when data come back): the classic onset never exceeds `nlta / nsta`, but the centred
one, where the long-term window lies in the gap, is the mean energy of the data over the square of the fill
value. -/
theorem C125_return_of_data (fill : ℚ) (hf : 0 < fill) (nsta nlta : ℕ) (h1 : 1 ≤ nsta) (h2 : nsta ≤ nlta)
    (x : List ℚ) (hx : ∀ v ∈ x, 0 < v) (hn : nlta + nsta ≤ x.length) :
    (∃ out, StaLta.overlappingC x nsta nlta = some out ∧ ∀ i < x.length, nlta ≤ i + 1 →
      ∃ v, out[i]? = some (some v) ∧ v ≤ nlta / nsta) ∧
    (∃ out, StaLta.centredC x nsta nlta = some out ∧ ∀ i, nlta ≤ i + 1 → i + nsta < x.length →
      (∀ j, i + 1 - nlta ≤ j → j ≤ i → x.getD j 0 = fill ^ 2) →
      out[i]? = some (some (Spec.winMean x (i + 1) nsta / fill ^ 2))) := by
  have hpos : ∀ a, a + nlta ≤ x.length → 0 < Spec.winSum x a nlta := by
    intro a h
    unfold Spec.winSum
    apply List.sum_pos
    · intro v hv
      exact hx v (List.mem_of_mem_drop (List.mem_of_mem_take hv))
    · intro he
      have := congrArg List.length he
      simp at this
      omega
  have hs : (0 : ℚ) < nsta := by exact_mod_cast h1
  have hl : (0 : ℚ) < nlta := by exact_mod_cast (by omega : 0 < nlta)
  constructor
  · refine ⟨_, C33_classic_window_ratio x nsta nlta h1 h2 (by omega) fun i hi h => hpos _ (by omega), ?_⟩
    intro i hi h
    refine ⟨Spec.classic x nsta nlta i, by rw [List.getElem?_map, List.getElem?_range hi]; rfl, ?_⟩
    unfold Spec.classic Spec.winMean
    rw [if_neg (by omega)]
    have hle : Spec.winSum x (i + 1 - nsta) nsta ≤ Spec.winSum x (i + 1 - nlta) nlta := by
      have e : (x.drop (i + 1 - nlta)).take nlta =
          (x.drop (i + 1 - nlta)).take (nlta - nsta) ++ (x.drop (i + 1 - nsta)).take nsta := by
        have : nlta = (nlta - nsta) + nsta := by omega
        conv_lhs => rw [this, List.take_add, List.drop_drop]
        rw [← this, show i + 1 - nlta + (nlta - nsta) = i + 1 - nsta by omega]
      unfold Spec.winSum
      rw [e, List.sum_append]
      have : 0 ≤ ((x.drop (i + 1 - nlta)).take (nlta - nsta)).sum :=
        List.sum_nonneg fun v hv => (hx v (List.mem_of_mem_drop (List.mem_of_mem_take hv))).le
      linarith
    have hp := hpos (i + 1 - nlta) (by omega)
    have e : ∀ a b : ℚ, b ≠ 0 → a / nsta / (b / nlta) = a / b * (nlta / nsta) := by
      intro a b hb; field_simp
    rw [e _ _ hp.ne']
    have : Spec.winSum x (i + 1 - nsta) nsta / Spec.winSum x (i + 1 - nlta) nlta ≤ 1 := (div_le_one hp).mpr hle
    have h0 : (0 : ℚ) < nlta / nsta := by positivity
    nlinarith
  · refine ⟨_, C34_centred_window_ratio x nsta nlta h1 (by omega) (by omega) fun i hi h => hpos _ (by omega), ?_⟩
    intro i h hi hg
    rw [List.getElem?_map, List.getElem?_range (by omega)]
    simp only [Option.map_some]
    unfold Spec.centred
    rw [if_neg (by omega)]
    congr 3
    unfold Spec.winMean
    rw [winSum_const x (fill ^ 2) (by omega) (fun j a b => hg j (by omega) (by omega))]
    field_simp

/-! ### Cases that meet the hypotheses -/

/-- Two traces of a channel at 2 Hz, given out of order, with a gap of two samples between them. -/
def exGap1 : Trace := ⟨['B', 'Z'], 21 / 2, 2, [1, 5, 2]⟩
def exGap2 : Trace := ⟨['B', 'Z'], 13, 2, [4, 3]⟩

example : checkId (onsetOpts true true true 1 2) 10 (29 / 2) [exGap2, exGap1] = .ok false ∧
    checkId (onsetOpts true true false 1 2) 10 (29 / 2) [exGap2, exGap1] = .ok true ∧
    prepare true false (fun n j => if j = 0 ∨ j + 1 = n then 1 / 2 else 1) (1 / 100) 10 (10 + (10 - 1) / 2) [exGap2, exGap1] =
      [[1 / 100, 1 / 2, 5, 1, 1 / 100, 1 / 100, 2, 3 / 2, 1 / 100, 1 / 100]] := by decide +kernel

example : Spec.OnWindow 10 2 10 (fun t => if t.start = 13 then 6 else 1) [exGap1, exGap2] :=
  ⟨by decide +kernel, by decide +kernel, by decide +kernel, by decide +kernel, by decide +kernel⟩

example : (∀ v ∈ ([4, 1 / 4, 1 / 4, 1 / 4, 9, 7] : List ℚ), 0 < v) ∧
    StaLta.overlappingC ([4, 1 / 4, 1 / 4, 1 / 4, 9, 7] : List ℚ) 1 2 =
      some [some 1, some (2 / 17), some 1, some 1, some (72 / 37), some (7 / 8)] ∧
    StaLta.centredC ([4, 1 / 4, 1 / 4, 1 / 4, 9, 7] : List ℚ) 1 2 =
      some [some 1, some (2 / 17), some 1, some 36, some (56 / 37), some 1] := by decide +kernel

end QM
