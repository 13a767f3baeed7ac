import Verif.Lemmas.Locate
import Verif.Lemmas.Pads

/-!
# Locate: C19-C21, C23-C25, C74
-/

namespace QM
open QM.Locate
open QM.Grid (V3 index2grid)

/-! ## C19: which events are written -/

/-- An event for which data and onsets were usable, and whose time of (first) maximum
coalescence `otime` is strictly within `mw` of its trigger time. -/
def Located {σ : Type} (mw : ℚ) (outcome : Trig → Outcome σ) (t : Trig) (otime : ℚ) : Prop :=
  ∃ rows map, outcome t = .computed rows map ∧
    (∃ before r after, rows = before ++ r :: after ∧ (∀ x ∈ before, x.coa < r.coa) ∧
      (∀ x ∈ after, x.coa ≤ r.coa) ∧ r.dt = otime) ∧ |otime - t.time| < mw

/-- Data or onsets unusable (archive empty, gap, no station available), or the time of maximum
coalescence is not within the marginal window. -/
def Skipped {σ : Type} (mw : ℚ) (outcome : Trig → Outcome σ) (t : Trig) : Prop :=
  outcome t = .archiveEmpty ∨ outcome t = .dataGap ∨ outcome t = .dataAvailability ∨
    ∃ rows map e, outcome t = .computed rows map ∧ addComputeOutput rows map = some e ∧
      mw ≤ |e.otime - t.time|

theorem inMarginalWindow_iff (t o mw : ℚ) : inMarginalWindow t o mw = true ↔ |o - t| < mw := by
  unfold inMarginalWindow
  rw [Bool.and_eq_true, decide_eq_true_iff, decide_eq_true_iff, abs_lt]
  constructor <;> rintro ⟨h1, h2⟩ <;> constructor <;> linarith

theorem located_of {σ : Type} {mw : ℚ} {outcome : Trig → Outcome σ} {t : Trig} {rows : List Row}
    {map : List σ} {e e' : Computed σ} (h1 : outcome t = .computed rows map)
    (h2 : addComputeOutput rows map = some e) (h3 : inMarginalWindow t.time e.otime mw = true)
    (h4 : trim2window mw e = some e') : Located mw outcome t e'.otime := by
  rw [inMarginalWindow_iff] at h3
  have hmw : 0 ≤ mw := le_trans (abs_nonneg _) h3.le
  obtain ⟨e'', ht, -, ho, -⟩ := trim_rows h2 hmw
  rw [h4] at ht
  have := Option.some.inj ht
  subst this
  unfold addComputeOutput at h2
  obtain ⟨r, hr, he⟩ := Option.map_eq_some_iff.1 h2
  obtain ⟨pre, post, hs, hp, hq⟩ := firstMaxBy_spec hr
  refine ⟨rows, map, h1, ⟨pre, r, post, hs, hp, hq, ?_⟩, by rw [ho]; exact h3⟩
  rw [ho, ← he]

theorem located_unique {σ : Type} {mw : ℚ} {outcome : Trig → Outcome σ} {t : Trig} {rows : List Row}
    {map : List σ} {otime : ℚ} (h1 : outcome t = .computed rows map)
    (h : Located mw outcome t otime) :
    ∃ e, addComputeOutput rows map = some e ∧ e.otime = otime ∧
      inMarginalWindow t.time e.otime mw = true := by
  obtain ⟨rows', map', h1', ⟨pre, r, post, hs, hp, hq, hdt⟩, hw⟩ := h
  rw [h1] at h1'
  injection h1' with ha hb
  subst ha
  subst hb
  refine ⟨⟨rows, map, r.dt⟩, ?_, hdt, ?_⟩
  · unfold addComputeOutput maxRow
    rw [hs, firstMaxBy_of_split hp hq]; rfl
  · rw [inMarginalWindow_iff]
    show |r.dt - _| < mw
    rw [hdt]; exact hw

/-- C19: whatever happens during the run, only triggered events whose time of maximum coalescence
is strictly within the marginal window of the trigger time are written, in the order of the
trigger list, with that time as origin time. -/
theorem C19_only_in_window {σ : Type} (mw : ℚ) (outcome : Trig → Outcome σ) (later : Trig → Later) :
    ∀ ts : List Trig,
      (∀ t o, (t, o) ∈ (locateEvents mw outcome later ts).written → Located mw outcome t o) ∧
      ((locateEvents mw outcome later ts).written.map Prod.fst).Sublist ts
  | [] => ⟨by simp [locateEvents], by simp [locateEvents]⟩
  | t :: ts => by
    obtain ⟨ih1, ih2⟩ := C19_only_in_window mw outcome later ts
    unfold locateEvents
    split
    · exact ⟨ih1, ih2.cons t⟩
    · exact ⟨ih1, ih2.cons t⟩
    · exact ⟨ih1, ih2.cons t⟩
    · exact ⟨by simp, by simp⟩
    · rename_i rows map ho
      split
      · exact ⟨by simp, by simp⟩
      · rename_i e he
        split_ifs with hw
        · split
          · exact ⟨by simp, by simp⟩
          · rename_i e' he'
            have hl := located_of ho he hw he'
            split
            · exact ⟨by simp, by simp⟩
            · refine ⟨?_, by simp⟩
              intro t' o' h'
              simp only [List.mem_singleton, Prod.mk.injEq] at h'
              obtain ⟨rfl, rfl⟩ := h'
              exact hl
            · refine ⟨?_, ?_⟩
              · intro t' o' h'
                rcases List.mem_cons.1 h' with h' | h'
                · simp only [Prod.mk.injEq] at h'
                  obtain ⟨rfl, rfl⟩ := h'
                  exact hl
                · exact ih1 t' o' h'
              · rw [List.map_cons]
                exact ih2.cons_cons t
        · exact ⟨ih1, ih2.cons t⟩

/-- C19: an event that is skipped has no effect on the others: the run is the same as without it. -/
theorem C19_skip_harmless {σ : Type} (mw : ℚ) (outcome : Trig → Outcome σ) (later : Trig → Later)
    (t : Trig) (ht : Skipped mw outcome t) : ∀ before after : List Trig,
    locateEvents mw outcome later (before ++ t :: after) =
      locateEvents mw outcome later (before ++ after)
  | [], after => by
    show locateEvents mw outcome later (t :: after) = locateEvents mw outcome later after
    rcases ht with h | h | h | ⟨rows, map, e, h, he, hw⟩
    · rw [locateEvents, h]
    · rw [locateEvents, h]
    · rw [locateEvents, h]
    · have hw' : inMarginalWindow t.time e.otime mw = false := by
        rw [← Bool.not_eq_true, inMarginalWindow_iff, not_lt]; exact hw
      rw [locateEvents, h]
      simp [he, hw']
  | b :: before, after => by
    have ih := C19_skip_harmless mw outcome later t ht before after
    rw [List.cons_append, List.cons_append, locateEvents, locateEvents, ih]

/-- C19: if no event fails with another exception, all located events are written: the run
completes, and an event of the list is written exactly if it is located. -/
theorem C19_all_located {σ : Type} (mw : ℚ) (outcome : Trig → Outcome σ) (later : Trig → Later) :
    ∀ ts : List Trig,
      (∀ t ∈ ts, Skipped mw outcome t ∨ (later t = .fine ∧ ∃ o, Located mw outcome t o)) →
      (locateEvents mw outcome later ts).completed = true ∧
      ∀ t ∈ ts, ∀ o, Located mw outcome t o → (t, o) ∈ (locateEvents mw outcome later ts).written
  | [], _ => ⟨rfl, by simp⟩
  | t :: ts, h => by
    obtain ⟨ih1, ih2⟩ := C19_all_located mw outcome later ts (fun x hx => h x (by simp [hx]))
    rcases h t (by simp) with hs | ⟨hl, o, ho⟩
    · have e := C19_skip_harmless mw outcome later t hs [] ts
      simp only [List.nil_append] at e
      rw [e]
      refine ⟨ih1, fun x hx o' ho' => ?_⟩
      rcases List.mem_cons.1 hx with rfl | hx
      · exfalso
        obtain ⟨rows, map, h1, -, -⟩ := id ho'
        rcases hs with h2 | h2 | h2 | ⟨rows', map', e', h2, h3, h4⟩
        · rw [h1] at h2; simp at h2
        · rw [h1] at h2; simp at h2
        · rw [h1] at h2; simp at h2
        · obtain ⟨e'', h5, h6, h7⟩ := located_unique h2 ho'
          rw [h3] at h5
          have := Option.some.inj h5
          subst this
          rw [inMarginalWindow_iff] at h7
          exact absurd h7 (not_lt.2 h4)
      · exact ih2 x hx o' ho'
    · obtain ⟨rows, map, h1, -, -⟩ := id ho
      obtain ⟨e, he, heo, hw⟩ := located_unique h1 ho
      have hmw : 0 ≤ mw := by
        have := hw
        rw [inMarginalWindow_iff] at this
        exact le_trans (abs_nonneg _) this.le
      obtain ⟨e', he', -, ho', -⟩ := trim_rows he hmw
      have hrun : locateEvents mw outcome later (t :: ts) =
          { locateEvents mw outcome later ts with
            written := (t, e'.otime) :: (locateEvents mw outcome later ts).written } := by
        rw [locateEvents, h1]
        simp [he, hw, he', hl]
      rw [hrun]
      refine ⟨ih1, fun x hx o'' hlo => ?_⟩
      rcases List.mem_cons.1 hx with rfl | hx
      · obtain ⟨e2, he2, heo2, -⟩ := located_unique h1 hlo
        rw [he] at he2
        have := Option.some.inj he2
        subst this
        rw [ho', heo2]
        exact List.mem_cons_self
      · exact List.mem_cons_of_mem _ (ih2 x hx o'' hlo)

/-- Three triggered events at 100, 200 and 300 s: located at 100.5; gap; maximum too far away. -/
def exLocOutcome : Trig → Outcome ℕ := fun t =>
  if t.uid = 0 then .computed [⟨99, 1, 0⟩, ⟨201 / 2, 3, 0⟩, ⟨101, 3, 0⟩] [0, 1, 2]
  else if t.uid = 1 then .dataGap
  else .computed [⟨298, 5, 0⟩, ⟨300, 3, 0⟩] [0, 1]

example : (locateEvents 1 exLocOutcome (fun _ => .fine) [⟨0, 100⟩, ⟨1, 200⟩, ⟨2, 300⟩]).written.map
      (fun w => (w.1.uid, w.2)) = [(0, 201 / 2)] ∧
    (locateEvents 1 exLocOutcome (fun _ => .fine) [⟨0, 100⟩, ⟨1, 200⟩, ⟨2, 300⟩]).completed = true := by
  decide +kernel

example : Skipped 1 exLocOutcome ⟨1, 200⟩ ∧ Located 1 exLocOutcome ⟨0, 100⟩ (201 / 2) :=
  ⟨Or.inr (Or.inl rfl), [⟨99, 1, 0⟩, ⟨201 / 2, 3, 0⟩, ⟨101, 3, 0⟩], [0, 1, 2], rfl,
    ⟨[⟨99, 1, 0⟩], ⟨201 / 2, 3, 0⟩, [⟨101, 3, 0⟩], rfl, by decide +kernel, by decide +kernel, rfl⟩,
    by decide +kernel⟩

/-! ## C20, C21: trimming -/

/-- C21: trimming keeps exactly the rows within the marginal window of the origin time, and changes
neither the origin time nor the row of maximum coalescence. -/
theorem C21_trim_keeps {σ : Type} (rows : List Row) (map : List σ) (e : Computed σ) (mw : ℚ)
    (hmw : 0 ≤ mw) (h : addComputeOutput rows map = some e) :
    ∃ e', trim2window mw e = some e' ∧ e'.otime = e.otime ∧ maxRow e'.rows = maxRow rows ∧
      (∃ r, maxRow e'.rows = some r ∧ r.dt = e.otime) ∧
      e'.rows = rows.filter (fun r => |r.dt - e.otime| ≤ mw) := by
  obtain ⟨e', h1, h2, h3, h4⟩ := trim_rows h hmw
  unfold addComputeOutput at h
  obtain ⟨r, hr, he⟩ := Option.map_eq_some_iff.1 h
  refine ⟨e', h1, h3, h4, ⟨r, by rw [h4, hr], by rw [← he]⟩, ?_⟩
  rw [h2]
  congr 1
  funext x
  by_cases hx : inWin e.otime mw x = true
  · rw [hx]; exact (decide_eq_true ((inWin_iff _ _ _).1 hx)).symm
  · rw [Bool.eq_false_iff.2 hx]
    exact (decide_eq_false (fun hc => hx ((inWin_iff _ _ _).2 hc))).symm

theorem filter_range_interval {N a b : ℕ} (hab : a ≤ b) (hb : b < N) :
    ((List.range N).filter (fun j => decide (a ≤ j ∧ j ≤ b))).length = b + 1 - a := by
  have e : List.range N = List.range' 0 a ++ (List.range' a (b + 1 - a) ++
      List.range' (b + 1) (N - (b + 1))) := by
    rw [List.range_eq_range']
    have e1 := List.range'_append (s := a) (m := b + 1 - a) (n := N - (b + 1)) (step := 1)
    rw [Nat.one_mul, show a + (b + 1 - a) = b + 1 by omega] at e1
    rw [e1]
    have e2 := List.range'_append (s := 0) (m := a) (n := b + 1 - a + (N - (b + 1))) (step := 1)
    rw [Nat.one_mul, Nat.zero_add] at e2
    rw [e2]
    congr 1
    omega
  have fA : (List.range' 0 a).filter (fun j => decide (a ≤ j ∧ j ≤ b)) = [] := by
    rw [List.filter_eq_nil_iff]
    intro x hx; simp only [List.mem_range'_1] at hx; simp; omega
  have fK : (List.range' a (b + 1 - a)).filter (fun j => decide (a ≤ j ∧ j ≤ b)) =
      List.range' a (b + 1 - a) := by
    rw [List.filter_eq_self]
    intro x hx; simp only [List.mem_range'_1] at hx; simp; omega
  have fB : (List.range' (b + 1) (N - (b + 1))).filter (fun j => decide (a ≤ j ∧ j ≤ b)) = [] := by
    rw [List.filter_eq_nil_iff]
    intro x hx; simp only [List.mem_range'_1] at hx; simp; omega
  rw [e, List.filter_append, List.filter_append, fA, fK, fB]
  simp

/-- C21: the trimmed window is complete: for an event in the marginal window, with the timestamps
made for it (`trigger ± 2·mw`) and a whole number `m` of samples in the marginal window, exactly
`2·m + 1` rows remain. -/
theorem C21_full_window {σ : Type} (trig mw : ℚ) (sr m : ℕ) (hsr : 0 < sr) (hm : mw * sr = m)
    (rows : List Row) (map : List σ) (e e' : Computed σ)
    (htimes : rows.map Row.dt = Pads.mwTimes trig mw sr)
    (h : addComputeOutput rows map = some e) (hin : inMarginalWindow trig e.otime mw = true)
    (ht : trim2window mw e = some e') : e'.rows.length = 2 * m + 1 := by
  have hsr' : (0 : ℚ) < sr := by exact_mod_cast hsr
  rw [inMarginalWindow_iff] at hin
  have hmw : 0 ≤ mw := le_trans (abs_nonneg _) hin.le
  obtain ⟨e'', h1, h2, -, -⟩ := trim_rows h hmw
  rw [ht] at h1
  have := Option.some.inj h1
  subst this
  have hmw' : mw = m / sr := by rw [← hm]; field_simp
  -- timestamps
  have hcount : (pyInt (4 * mw * sr + 1)).toNat = 4 * m + 1 := by
    have : 4 * mw * sr + 1 = ((4 * m + 1 : ℕ) : ℚ) := by push_cast; rw [← hm]; ring
    rw [this]
    unfold pyInt
    rw [if_pos (by positivity), Int.floor_natCast]
    rfl
  have htimes' : rows.map Row.dt =
      (List.range (4 * m + 1)).map (fun k : ℕ => trig - 2 * mw + k / (sr : ℚ)) := by
    rw [htimes]; unfold Pads.mwTimes; rw [hcount]
  -- origin time is one of them
  unfold addComputeOutput at h
  obtain ⟨r, hr, he⟩ := Option.map_eq_some_iff.1 h
  have hrmem := (firstMaxBy_mem hr).1
  have : r.dt ∈ rows.map Row.dt := List.mem_map_of_mem hrmem
  rw [htimes'] at this
  obtain ⟨k0, hk0, hk0'⟩ := List.mem_map.1 this
  have heo : e.otime = trig - 2 * mw + k0 / (sr : ℚ) := by rw [← he, hk0']
  rw [heo, abs_lt] at hin
  have hb : m < k0 ∧ k0 < 3 * m := by
    have e1 : (m : ℚ) < k0 := by
      have := hin.1
      rw [hmw'] at this
      have h2 : (m : ℚ) / sr < k0 / sr := by
        have : -(m / sr : ℚ) < trig - 2 * (m / sr) + k0 / sr - trig := this
        linarith
      rwa [div_lt_div_iff_of_pos_right hsr'] at h2
    have e2 : (k0 : ℚ) < 3 * m := by
      have := hin.2
      rw [hmw'] at this
      have h2 : (k0 : ℚ) / sr < (3 * m) / sr := by
        have h3 : (3 * m : ℚ) / sr = 3 * (m / sr) := by ring
        rw [h3]; linarith
      rwa [div_lt_div_iff_of_pos_right hsr'] at h2
    constructor
    · exact_mod_cast e1
    · exact_mod_cast e2
  -- count
  have hcnt : e'.rows.length =
      ((rows.map Row.dt).filter (fun d => decide (e.otime - mw ≤ d ∧ d ≤ e.otime + mw))).length := by
    rw [h2, List.filter_map, List.length_map]
    rfl
  rw [hcnt, htimes', List.filter_map, List.length_map]
  have hfun : ((fun d => decide (e.otime - mw ≤ d ∧ d ≤ e.otime + mw)) ∘
      fun k : ℕ => trig - 2 * mw + k / (sr : ℚ)) =
      fun j : ℕ => decide (k0 - m ≤ j ∧ j ≤ k0 + m) := by
    funext j
    simp only [Function.comp]
    rw [decide_eq_decide, heo, hmw']
    have c1 : (trig - 2 * (m / sr : ℚ) + k0 / sr - m / sr ≤ trig - 2 * (m / sr) + j / sr) ↔
        k0 - m ≤ j := by
      have : (k0 : ℚ) / sr - m / sr = ((k0 - m : ℕ) : ℚ) / sr := by
        rw [Nat.cast_sub hb.1.le]; ring
      constructor
      · intro h
        have h' : ((k0 - m : ℕ) : ℚ) / sr ≤ j / sr := by linarith
        rw [div_le_div_iff_of_pos_right hsr'] at h'
        exact_mod_cast h'
      · intro h
        have h' : ((k0 - m : ℕ) : ℚ) / sr ≤ j / sr := by
          rw [div_le_div_iff_of_pos_right hsr']; exact_mod_cast h
        linarith
    have c2 : (trig - 2 * (m / sr : ℚ) + j / sr ≤ trig - 2 * (m / sr) + k0 / sr + m / sr) ↔
        j ≤ k0 + m := by
      have : (k0 : ℚ) / sr + m / sr = ((k0 + m : ℕ) : ℚ) / sr := by push_cast; ring
      constructor
      · intro h
        have h' : (j : ℚ) / sr ≤ ((k0 + m : ℕ) : ℚ) / sr := by linarith
        rw [div_le_div_iff_of_pos_right hsr'] at h'
        exact_mod_cast h'
      · intro h
        have h' : (j : ℚ) / sr ≤ ((k0 + m : ℕ) : ℚ) / sr := by
          rw [div_le_div_iff_of_pos_right hsr']; exact_mod_cast h
        linarith
    rw [c1, c2]
  rw [hfun, filter_range_interval (by omega) (by omega)]
  omega

/-- C20 is violated by every event: after trimming, the map has one time slice fewer than the table
has rows (timestamps increasing, one slice per row before). -/
theorem C20_violated {σ : Type} (rows : List Row) (map : List σ) (e e' : Computed σ) (mw : ℚ)
    (hmw : 0 ≤ mw) (hs : rows.Pairwise fun a b => a.dt < b.dt) (hlen : map.length = rows.length)
    (h : addComputeOutput rows map = some e) (ht : trim2window mw e = some e') :
    e'.map.length + 1 = e'.rows.length := by
  obtain ⟨a, h1, h2, -, h4⟩ := trim_contiguous hs h hmw ht
  have := List.length_pos_of_ne_nil h1
  rw [h4, List.length_drop, List.length_take]
  omega

/-- C20, the part that holds: slice `k` of the trimmed map belongs to row `k` of the trimmed table
(both come from the same position of the original ones); the slice of the last row is missing. -/
theorem C20_slices_aligned_partial {σ : Type} (rows : List Row) (map : List σ) (e e' : Computed σ)
    (mw : ℚ) (hmw : 0 ≤ mw) (hs : rows.Pairwise fun a b => a.dt < b.dt)
    (hlen : map.length = rows.length)
    (h : addComputeOutput rows map = some e) (ht : trim2window mw e = some e') :
    ∃ a, ∀ k, k + 1 < e'.rows.length →
      (∃ r, e'.rows[k]? = some r ∧ rows[a + k]? = some r) ∧
      ∃ s, e'.map[k]? = some s ∧ map[a + k]? = some s := by
  obtain ⟨a, h1, h2, h3, h4⟩ := trim_contiguous hs h hmw ht
  refine ⟨a, fun k hk => ⟨?_, ?_⟩⟩
  · have hk' : k < e'.rows.length := by omega
    exact ⟨e'.rows[k], List.getElem?_eq_getElem hk', by
      rw [← h3 k hk', List.getElem?_eq_getElem hk']⟩
  · have hk' : a + k < map.length := by omega
    refine ⟨map[a + k], ?_, List.getElem?_eq_getElem hk'⟩
    rw [h4, List.getElem?_drop, List.getElem?_take, if_pos (by omega), List.getElem?_eq_getElem hk']

example : (trim2window 1 ⟨[⟨0, 1, 0⟩, ⟨1, 2, 0⟩, ⟨2, 5, 0⟩, ⟨3, 5, 0⟩, ⟨4, 1, 0⟩],
      ['a', 'b', 'c', 'd', 'e'], 2⟩).map (fun e => (e.rows.map Row.dt, e.map, e.otime)) =
    some ([1, 2, 3], ['b', 'c'], 2) := by decide +kernel

/-! ## C74: enough waveform data is read -/

/-- C74: wherever the origin time ends up in the marginal window, the waveform data read for the event
reach from `pre_cut` before it to `post_cut` after it, and likewise for the padding asked for by the
magnitude calculation; and they cover the window scanned. -/
theorem C74_waveforms_cover (trig mw scanPre scanPost otime : ℚ) (amp : Option (ℚ × ℚ))
    (preCut postCut : Option ℚ) (hmw : 0 ≤ mw) (hpre : 0 ≤ scanPre) (hpost : 0 ≤ scanPost)
    (ho : |otime - trig| < mw) :
    let span := waveformSpan trig mw scanPre scanPost amp preCut postCut
    (∀ c, preCut = some c → span.1 ≤ otime - c) ∧
    (∀ c, postCut = some c → otime + c ≤ span.2) ∧
    (∀ p, amp = some p → span.1 ≤ otime - p.1 ∧ otime + p.2 ≤ span.2) ∧
    span.1 ≤ trig - 2 * mw - scanPre ∧ trig + 2 * mw + scanPost ≤ span.2 := by
  rw [abs_lt] at ho
  have key1 : ∀ p x : ℚ, x ≤ p →
      trig - 2 * mw - scanPre - max 0 (p - mw - scanPre) ≤ otime - x := by
    intro p x hx
    have h1 := le_max_right 0 (p - mw - scanPre)
    linarith
  have key2 : ∀ p x : ℚ, x ≤ p →
      otime + x ≤ trig + 2 * mw + scanPost + max 0 (p - mw - scanPost) := by
    intro p x hx
    have h1 := le_max_right 0 (p - mw - scanPost)
    linarith
  have z1 : ∀ p : ℚ, trig - 2 * mw - scanPre - max 0 (p - mw - scanPre) ≤ otime - 0 := by
    intro p
    have h1 := le_max_left 0 (p - mw - scanPre)
    linarith
  have z2 : ∀ p : ℚ, otime + 0 ≤ trig + 2 * mw + scanPost + max 0 (p - mw - scanPost) := by
    intro p
    have h1 := le_max_left 0 (p - mw - scanPost)
    linarith
  have w1 : ∀ p : ℚ, trig - 2 * mw - scanPre - max 0 (p - mw - scanPre) ≤ trig - 2 * mw - scanPre := by
    intro p; have h1 := le_max_left 0 (p - mw - scanPre); linarith
  have w2 : ∀ p : ℚ, trig + 2 * mw + scanPost ≤ trig + 2 * mw + scanPost + max 0 (p - mw - scanPost) := by
    intro p; have h1 := le_max_left 0 (p - mw - scanPost); linarith
  simp only [waveformSpan]
  refine ⟨?_, ?_, ?_, w1 _, w2 _⟩
  · rintro c rfl
    simp only
    split_ifs with hc
    · rw [hc]; exact z1 _
    · exact key1 _ _ (le_max_right _ _)
  · rintro c rfl
    simp only
    split_ifs with hc
    · rw [hc]; exact z2 _
    · exact key2 _ _ (le_max_right _ _)
  · rintro p rfl
    simp only
    constructor
    · apply key1
      cases preCut with
      | none => exact le_refl _
      | some c => simp only; split_ifs; exacts [le_refl _, le_max_left _ _]
    · apply key2
      cases postCut with
      | none => exact le_refl _
      | some c => simp only; split_ifs; exacts [le_refl _, le_max_left _ _]

example : waveformSpan 100 2 3 5 (some (4, 30)) (some 10) none = (88, 132) := by
  norm_num [waveformSpan]

/-! ## C25: the mask -/

/-- C25: a node of the grid is selected exactly if each of its indices is within `(win - 1) // 2` of
the peak's. -/
theorem C25_mask_window (n i v : V3 ℕ) (win : ℕ) (hw : 1 ≤ win) (hi : ∀ a, i a < n a)
    (hv : ∀ a, v a < n a) :
    mask n i win v ↔ ∀ a, |(v a : ℤ) - i a| ≤ ((win : ℤ) - 1) / 2 := by
  unfold mask
  constructor
  · intro h a
    obtain ⟨h1, h2⟩ := h a
    have l := (winLo_spec (hi a) hw).2.2.2 (v a) (by omega)
    have u := (winHi_spec (hi a) hw).2.2.2 (v a) (by have := hv a; omega)
    rw [abs_le]
    have := l.1 h1
    have := u.1 h2
    omega
  · intro h a
    have := abs_le.1 (h a)
    have l := (winLo_spec (hi a) hw).2.2.2 (v a) (by omega)
    have u := (winHi_spec (hi a) hw).2.2.2 (v a) (by have := hv a; omega)
    exact ⟨l.2 (by omega), u.2 (by omega)⟩

/-- C25: only nodes of the grid are selected (no wrapping around an edge), and the peak always is. -/
theorem C25_mask_in_grid (n i : V3 ℕ) (win : ℕ) (hw : 1 ≤ win) (hi : ∀ a, i a < n a) :
    mask n i win i ∧ (∀ v, mask n i win v → ∀ a, v a < n a) ∧
      ∀ a, 0 ≤ winLo (n a) (i a) win ∧ winHi (n a) (i a) win ≤ n a := by
  refine ⟨?_, ?_, fun a => ⟨(winLo_spec (hi a) hw).1, (winHi_spec (hi a) hw).1⟩⟩
  · rw [C25_mask_window n i i win hw hi hi]
    intro a
    simp
    omega
  · intro v hv a
    have h1 := (hv a).2
    have h2 := (winHi_spec (hi a) hw).1
    omega

example : (winLo 10 1 7, winHi 10 1 7, winLo 10 8 7, winHi 10 8 7) = (0, 5, 5, 10) := by decide

/-! ## C24: the spline location -/

/-- C24: the spline location lies in the grid volume, within `(win - 1) // 2` nodes (two, by default)
of the gridded maximum on each axis, whatever the interpolator returns. -/
theorem C24_inside (rbf : List (V3 ℚ × ℚ) → V3 ℚ → ℚ) (n : V3 ℕ) (m : Map3) (win upscale : ℕ)
    (hw : 1 ≤ win) (hu : 1 ≤ upscale) (hn : ∀ a, 0 < n a) :
    ∃ (i : V3 ℕ) (loc : V3 ℚ), (∀ a, i a < n a) ∧ (∀ v, (∀ a, v a < n a) → m v ≤ m i) ∧
      splineloc rbf n m win upscale = some loc ∧
      ∀ a, 0 ≤ loc a ∧ loc a ≤ (n a : ℚ) - 1 ∧ |loc a - i a| ≤ (((win : ℤ) - 1) / 2 : ℤ) := by
  obtain ⟨i, hi⟩ := peak_isSome hn m
  obtain ⟨hib, himax⟩ := peak_spec hi
  have hgrid : ∀ a, 0 ≤ (i a : ℚ) ∧ (i a : ℚ) ≤ (n a : ℚ) - 1 ∧
      |(i a : ℚ) - i a| ≤ (((win : ℤ) - 1) / 2 : ℤ) := by
    intro a
    refine ⟨by positivity, ?_, ?_⟩
    · have := hib a
      have h : ((i a + 1 : ℕ) : ℚ) ≤ n a := by exact_mod_cast this
      push_cast at h
      linarith
    · rw [sub_self, abs_zero]
      have : (0 : ℤ) ≤ ((win : ℤ) - 1) / 2 := by omega
      exact_mod_cast this
  unfold splineloc
  rw [hi]
  simp only
  split_ifs with hsides
  · -- interpolated
    set s := (winHi (n 0) (i 0) win - winLo (n 0) (i 0) win).toNat with hs
    have hk : ∀ a, 0 < (![(s - 1) * upscale + 1, (s - 1) * upscale + 1, (s - 1) * upscale + 1] : V3 ℕ) a := by
      intro a; fin_cases a <;> simp
    obtain ⟨j, hj⟩ := peak_isSome hk
      (upscaled rbf m (fun a => winLo (n a) (i a) win) s upscale)
    rw [hj]
    simp only
    have hjb := (peak_spec hj).1
    have hside : ∀ a, winHi (n a) (i a) win - winLo (n a) (i a) win = s := by
      have h0 := (winLo_spec (hib 0) hw).2.1
      have h1 := (winHi_spec (hib 0) hw).2.1
      intro a
      fin_cases a
      · show winHi (n 0) (i 0) win - winLo (n 0) (i 0) win = _
        omega
      · show winHi (n 1) (i 1) win - winLo (n 1) (i 1) win = _
        omega
      · show winHi (n 2) (i 2) win - winLo (n 2) (i 2) win = _
        omega
    have hj1 : ∀ a, (j a : ℚ) / upscale ≤ (s : ℚ) - 1 := by
      intro a
      have hb : j a ≤ (s - 1) * upscale := by
        have := hjb a
        fin_cases a
        · exact Nat.lt_succ_iff.1 this
        · exact Nat.lt_succ_iff.1 this
        · exact Nat.lt_succ_iff.1 this
      have hs1 : 1 ≤ s := by
        have h0 := (winLo_spec (hib 0) hw).2.1
        have h1 := (winHi_spec (hib 0) hw).2.1
        omega
      have hu' : (0 : ℚ) < upscale := by exact_mod_cast hu
      rw [div_le_iff₀ hu']
      have : ((j a : ℕ) : ℚ) ≤ (((s - 1) * upscale : ℕ) : ℚ) := by exact_mod_cast hb
      rw [Nat.cast_mul, Nat.cast_sub hs1] at this
      push_cast at this
      exact this
    have hloc : ∀ a, (0 : ℚ) ≤ (j a : ℚ) / upscale + (winLo (n a) (i a) win : ℚ) ∧
        (j a : ℚ) / upscale + (winLo (n a) (i a) win : ℚ) ≤ (n a : ℚ) - 1 ∧
        |(j a : ℚ) / upscale + (winLo (n a) (i a) win : ℚ) - i a| ≤ (((win : ℤ) - 1) / 2 : ℤ) := by
      intro a
      obtain ⟨l1, l2, l3, -⟩ := winLo_spec (hib a) hw
      obtain ⟨u1, u2, u3, -⟩ := winHi_spec (hib a) hw
      have hd := hside a
      have hnn : (0 : ℚ) ≤ (j a : ℚ) / upscale := by positivity
      have hjj := hj1 a
      have l1' : (0 : ℚ) ≤ (winLo (n a) (i a) win : ℚ) := by exact_mod_cast l1
      have e1 : (winLo (n a) (i a) win : ℚ) + s ≤ n a := by
        have : winLo (n a) (i a) win + (s : ℤ) ≤ n a := by omega
        exact_mod_cast this
      have l3' : (i a : ℚ) - (((win : ℤ) - 1) / 2 : ℤ) ≤ (winLo (n a) (i a) win : ℚ) := by
        exact_mod_cast l3
      have e2 : (winLo (n a) (i a) win : ℚ) + s ≤ i a + (((win : ℤ) - 1) / 2 : ℤ) + 1 := by
        have : winLo (n a) (i a) win + (s : ℤ) ≤ (i a : ℤ) + ((win : ℤ) - 1) / 2 + 1 := by omega
        exact_mod_cast this
      refine ⟨by linarith, by linarith, ?_⟩
      rw [abs_le]
      constructor <;> linarith
    split_ifs with hfar
    · exact ⟨i, fun a => i a, hib, himax, rfl, hgrid⟩
    · exact ⟨i, _, hib, himax, rfl, hloc⟩
  · exact ⟨i, fun a => i a, hib, himax, rfl, hgrid⟩

/-- C24: when the window around the maximum has unequal sides (it crosses an edge of the grid), the
spline location is the gridded maximum. -/
theorem C24_edge_gridded (rbf : List (V3 ℚ × ℚ) → V3 ℚ → ℚ) (n : V3 ℕ) (m : Map3) (win upscale : ℕ)
    (i : V3 ℕ) (hi : peak n m = some i)
    (hside : ∃ a b, winHi (n a) (i a) win - winLo (n a) (i a) win ≠
      winHi (n b) (i b) win - winLo (n b) (i b) win) :
    splineloc rbf n m win upscale = some fun a => (i a : ℚ) := by
  unfold splineloc
  rw [hi]
  simp only
  rw [if_neg]
  rintro ⟨h1, h2⟩
  obtain ⟨a, b, hab⟩ := hside
  apply hab
  fin_cases a <;> fin_cases b <;> simp only [Fin.zero_eta, Fin.mk_one, Fin.reduceFinMk] <;> omega

/-- An interpolator that reproduces the data it is given (at distinct points). -/
def Reproduces (rbf : List (V3 ℚ × ℚ) → V3 ℚ → ℚ) : Prop :=
  ∀ data, (data.map Prod.fst).Nodup → ∀ p v, (p, v) ∈ data → rbf data p = v

/-- C24: with an interpolator that reproduces its data, the upscaled map equals the coalescence map at
the grid nodes: entry `(u·a, u·b, u·c)` is the value of node `(a, b, c)` of the window. -/
theorem C24_axes_consistent (rbf : List (V3 ℚ × ℚ) → V3 ℚ → ℚ) (hr : Reproduces rbf) (m : Map3)
    (lo : V3 ℤ) (s upscale : ℕ) (hu : 1 ≤ upscale) (v : V3 ℕ) (hv : ∀ a, v a < s) :
    upscaled rbf m lo s upscale (fun a => v a * upscale) = m (fun a => (lo a).toNat + v a) := by
  have hu' : (upscale : ℚ) ≠ 0 := by exact_mod_cast (by omega : upscale ≠ 0)
  have e : ∀ x : ℕ, (((x * upscale : ℕ) : ℚ)) / upscale = x := by
    intro x; push_cast; field_simp
  unfold upscaled
  simp only [e]
  exact hr _ (rbfData_nodup m lo s) _ _ (mem_rbfData hv)

/-- C24: hence the interpolated value at the chosen point is not below the coalescence of the gridded
maximum. -/
theorem C24_not_below_peak (rbf : List (V3 ℚ × ℚ) → V3 ℚ → ℚ) (hr : Reproduces rbf) (n : V3 ℕ)
    (m : Map3) (win upscale : ℕ) (hw : 1 ≤ win) (hu : 1 ≤ upscale) (i j : V3 ℕ)
    (hi : peak n m = some i) (s : ℕ)
    (hs : ∀ a, winHi (n a) (i a) win - winLo (n a) (i a) win = s)
    (hj : peak (fun _ => (s - 1) * upscale + 1)
      (upscaled rbf m (fun a => winLo (n a) (i a) win) s upscale) = some j) :
    m i ≤ upscaled rbf m (fun a => winLo (n a) (i a) win) s upscale j := by
  obtain ⟨hib, -⟩ := peak_spec hi
  have hpos : ∀ a, ((i a : ℤ) - winLo (n a) (i a) win).toNat < s ∧
      (winLo (n a) (i a) win).toNat + ((i a : ℤ) - winLo (n a) (i a) win).toNat = i a := by
    intro a
    obtain ⟨l1, l2, -, -⟩ := winLo_spec (hib a) hw
    obtain ⟨-, u2, -, -⟩ := winHi_spec (hib a) hw
    have := hs a
    omega
  have h := C24_axes_consistent rbf hr m (fun a => winLo (n a) (i a) win) s upscale hu
    (fun a => ((i a : ℤ) - winLo (n a) (i a) win).toNat) (fun a => (hpos a).1)
  have e : (fun a => (winLo (n a) (i a) win).toNat + ((i a : ℤ) - winLo (n a) (i a) win).toNat) = i :=
    funext fun a => (hpos a).2
  simp only [e] at h
  rw [← h]
  apply (peak_spec hj).2
  intro a
  have := (hpos a).1
  have h2 : ((i a : ℤ) - winLo (n a) (i a) win).toNat ≤ s - 1 := by omega
  have := Nat.mul_le_mul_right upscale h2
  omega

/-- The interpolator that returns the value of a data point, and 0 elsewhere. -/
def exRbf : List (V3 ℚ × ℚ) → V3 ℚ → ℚ := fun data p =>
  ((data.find? (fun e => e.1 = p)).map Prod.snd).getD 0

theorem exRbf_reproduces : Reproduces exRbf := by
  intro data hnd p v hmem
  unfold exRbf
  induction data with
  | nil => simp at hmem
  | cons e data ih =>
    rw [List.map_cons, List.nodup_cons] at hnd
    by_cases he : e.1 = p
    · rw [List.find?_cons_of_pos (by simpa using he)]
      rcases List.mem_cons.1 hmem with h | h
      · rw [← h]; rfl
      · exact absurd (List.mem_map.2 ⟨_, h, rfl⟩) (he ▸ hnd.1)
    · rw [List.find?_cons_of_neg (by simpa using he)]
      rcases List.mem_cons.1 hmem with h | h
      · exact absurd (by rw [← h]) he
      · exact ih hnd.2 h

/-- A 6 × 6 × 6 map with its maximum at (1, 2, 5). -/
def exMap3 : Map3 := fun v => if v 0 = 1 ∧ v 1 = 2 ∧ v 2 = 5 then 2 else 1

example : (peak ![6, 6, 6] exMap3).map (fun i => [i 0, i 1, i 2]) = some [1, 2, 5] ∧
    (winHi 6 1 5 - winLo 6 1 5, winHi 6 2 5 - winLo 6 2 5, winHi 6 5 5 - winLo 6 5 5) = (4, 5, 3) ∧
    (splineloc exRbf ![6, 6, 6] exMap3 5 10).map (fun l => [l 0, l 1, l 2]) = some [1, 2, 5] := by
  decide +kernel

/-! ## C23: the covariance location -/

/-- C23: the covariance location lies, on every axis, between the smallest and the largest coordinate
of the nodes above the threshold. -/
theorem C23_in_box (g : Grid.Grid) (m : Map3) (thresh : ℚ) (ht : 0 ≤ thresh)
    (hne : ∃ v : V3 ℕ, (∀ a, v a < g.count a) ∧ thresh < m v) (a : Fin 3) (lo hi : ℚ)
    (hbox : ∀ v : V3 ℕ, (∀ a, v a < g.count a) → thresh < m v →
      lo ≤ index2grid g (fun a => (v a : ℤ)) a ∧ index2grid g (fun a => (v a : ℤ)) a ≤ hi) :
    lo ≤ covLocation g m thresh a ∧ covLocation g m thresh a ≤ hi := by
  have hne' : above g.count m thresh ≠ [] := by
    obtain ⟨v, hv⟩ := hne
    exact List.ne_nil_of_mem (mem_above.2 hv)
  have h := wmean_bounds ht hne' (f := fun v => v a * g.spacing a) (lo := lo - g.ll a)
    (hi := hi - g.ll a) (fun v hv hm => by
      have := hbox v hv hm
      simp only [index2grid, Int.cast_natCast] at this
      constructor <;> linarith)
  unfold covLocation expectation
  constructor <;> linarith

/-- C23: hence inside the grid. -/
theorem C23_in_grid (g : Grid.Grid) (hs : ∀ a, 0 < g.spacing a) (m : Map3) (thresh : ℚ)
    (ht : 0 ≤ thresh) (hne : ∃ v : V3 ℕ, (∀ a, v a < g.count a) ∧ thresh < m v) (a : Fin 3) :
    g.ll a ≤ covLocation g m thresh a ∧
      covLocation g m thresh a ≤ g.ll a + ((g.count a : ℚ) - 1) * g.spacing a := by
  apply C23_in_box g m thresh ht hne
  intro v hv _
  have h1 : (0 : ℚ) ≤ v a := by positivity
  have h2 : ((v a + 1 : ℕ) : ℚ) ≤ g.count a := by exact_mod_cast hv a
  push_cast at h2
  have p := hs a
  simp only [index2grid, Int.cast_natCast]
  constructor
  · nlinarith
  · nlinarith

/-- C23: variances are non-negative (so the uncertainty is the root of the variance itself), and not
larger than the square of the extent of the nodes above the threshold. -/
theorem C23_variance (g : Grid.Grid) (m : Map3) (thresh : ℚ) (ht : 0 ≤ thresh)
    (hne : ∃ v : V3 ℕ, (∀ a, v a < g.count a) ∧ thresh < m v) (a : Fin 3) (lo hi : ℚ)
    (hbox : ∀ v : V3 ℕ, (∀ a, v a < g.count a) → thresh < m v →
      lo ≤ index2grid g (fun a => (v a : ℤ)) a ∧ index2grid g (fun a => (v a : ℤ)) a ≤ hi) :
    0 ≤ covariance g m thresh a a ∧ covariance g m thresh a a ≤ (hi - lo) ^ 2 := by
  have hne' : above g.count m thresh ≠ [] := by
    obtain ⟨v, hv⟩ := hne
    exact List.ne_nil_of_mem (mem_above.2 hv)
  have hc := C23_in_box g m thresh ht hne a lo hi hbox
  apply wmean_bounds ht hne'
  intro v hv hm
  have h := hbox v hv hm
  simp only [index2grid, Int.cast_natCast] at h
  unfold covLocation at hc
  constructor
  · exact mul_self_nonneg _
  · nlinarith

/-- C23: the covariance matrix is symmetric and positive semi-definite. -/
theorem C23_covariance_psd (g : Grid.Grid) (m : Map3) (thresh : ℚ) (ht : 0 ≤ thresh)
    (hne : ∃ v : V3 ℕ, (∀ a, v a < g.count a) ∧ thresh < m v) (x y z : ℚ) :
    (∀ a b, covariance g m thresh a b = covariance g m thresh b a) ∧
    0 ≤ x * x * covariance g m thresh 0 0 + y * y * covariance g m thresh 1 1 +
      z * z * covariance g m thresh 2 2 + 2 * x * y * covariance g m thresh 0 1 +
      2 * x * z * covariance g m thresh 0 2 + 2 * y * z * covariance g m thresh 1 2 := by
  have hne' : above g.count m thresh ≠ [] := by
    obtain ⟨v, hv⟩ := hne
    exact List.ne_nil_of_mem (mem_above.2 hv)
  constructor
  · intro a b
    unfold covariance
    congr 1
    funext v
    ring
  · let d : Fin 3 → V3 ℕ → ℚ := fun a v => v a * g.spacing a - expectation g m thresh a
    have hsq := (wmean_bounds (n := g.count) (m := m) ht hne'
      (f := fun v => (x * d 0 v + y * d 1 v + z * d 2 v) ^ 2) (lo := 0)
      (hi := ((above g.count m thresh).map fun v => (x * d 0 v + y * d 1 v + z * d 2 v) ^ 2).sum)
      (fun v hv hm => ⟨sq_nonneg _, List.single_le_sum (fun q hq => by
        obtain ⟨w, -, rfl⟩ := List.mem_map.1 hq
        exact sq_nonneg _) _ (List.mem_map.2 ⟨v, mem_above.2 ⟨hv, hm⟩, rfl⟩)⟩)).1
    have e : wmean g.count m thresh (fun v => (x * d 0 v + y * d 1 v + z * d 2 v) ^ 2) =
        x * x * covariance g m thresh 0 0 + y * y * covariance g m thresh 1 1 +
        z * z * covariance g m thresh 2 2 + 2 * x * y * covariance g m thresh 0 1 +
        2 * x * z * covariance g m thresh 0 2 + 2 * y * z * covariance g m thresh 1 2 := by
      unfold covariance
      rw [← wmean_smul, ← wmean_smul, ← wmean_smul, ← wmean_smul, ← wmean_smul, ← wmean_smul,
        ← wmean_add, ← wmean_add, ← wmean_add, ← wmean_add, ← wmean_add]
      congr 1
      funext v
      show (x * d 0 v + y * d 1 v + z * d 2 v) ^ 2 = x * x * (d 0 v * d 0 v) +
        y * y * (d 1 v * d 1 v) + z * z * (d 2 v * d 2 v) + 2 * x * y * (d 0 v * d 1 v) +
        2 * x * z * (d 0 v * d 2 v) + 2 * y * z * (d 1 v * d 2 v)
      ring
    rw [← e]
    exact hsq

/-- C23: location and covariances follow the grid: with another origin and spacing they are shifted
and scaled accordingly. -/
theorem C23_scales (g : Grid.Grid) (m : Map3) (thresh : ℚ) (ll c : V3 ℚ) :
    let g' : Grid.Grid := ⟨ll, fun a => c a * g.spacing a, g.count⟩
    (∀ a, covLocation g' m thresh a = ll a + c a * (covLocation g m thresh a - g.ll a)) ∧
    ∀ a b, covariance g' m thresh a b = c a * c b * covariance g m thresh a b := by
  intro g'
  have hexp : ∀ a, expectation g' m thresh a = c a * expectation g m thresh a := by
    intro a
    unfold expectation
    rw [← wmean_smul]
    show wmean g.count m thresh (fun v => (v a : ℚ) * (c a * g.spacing a)) = _
    congr 1
    funext v
    ring
  refine ⟨fun a => ?_, fun a b => ?_⟩
  · unfold covLocation
    rw [hexp a]
    show ll a + _ = _
    ring
  · unfold covariance
    rw [← wmean_smul, hexp a, hexp b]
    show wmean g.count m thresh (fun v => ((v a : ℚ) * (c a * g.spacing a) - _) *
      ((v b : ℚ) * (c b * g.spacing b) - _)) = _
    congr 1
    funext v
    ring

/-- C23: there always is a node above the default threshold: the marginalised map (positive somewhere)
is normalised to a maximum of one. -/
theorem C23_applies (n : V3 ℕ) (slices : List Map3) (m : Map3)
    (h : marginalise n slices = some m)
    (hpos : ∃ v, (∀ a, v a < n a) ∧ 0 < (slices.map fun f => f v).sum) :
    (∃ v, (∀ a, v a < n a) ∧ 9 / 10 < m v) ∧ ∀ v, (∀ a, v a < n a) → m v ≤ 1 := by
  unfold marginalise at h
  obtain ⟨p, hp, rfl⟩ := Option.map_eq_some_iff.1 h
  obtain ⟨hb, hmax⟩ := peak_spec hp
  obtain ⟨v, hv, hv0⟩ := hpos
  have hpp : 0 < (slices.map fun f => f p).sum := lt_of_lt_of_le hv0 (hmax v hv)
  refine ⟨⟨p, hb, ?_⟩, fun w hw => ?_⟩
  · simp only
    rw [div_self hpp.ne']
    norm_num
  · simp only
    rw [div_le_one hpp]
    exact hmax w hw

/-- A map on a 3 × 1 × 1 grid. -/
def exCovMap : Map3 := fun v => if v 0 = 0 then 95 / 100 else if v 0 = 1 then 1 else 1 / 2

example : (covLocation ⟨![10, 0, 0], ![39, 1, 1], ![3, 1, 1]⟩ exCovMap (9 / 10) 0 = 30) ∧
    covariance ⟨![10, 0, 0], ![39, 1, 1], ![3, 1, 1]⟩ exCovMap (9 / 10) 0 0 = 380 := by
  decide +kernel

end QM
