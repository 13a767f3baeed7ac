import Verif.Model.WaveLocate
import Verif.Props.WaveFiles
import Verif.Props.Locate

/-!
# What locate finds, from the waveform files of the archive: C174
-/

namespace QM

open QM.CalcOnsets
open QM.Data (Str Sane loadFromPath)
open QM.Pads
open QM.WaveDetect
open QM.Locate (Trig Later Row)

/-! ## Specification -/

/-- The window of an event. -/
def Spec.eventWindow (s : Scan) (mw : ℚ) (x : Trig) : ℚ × ℚ := locateWindow x.time mw (Spec.padsOf s (4 * mw))

/-- `c` is the largest of the values `f node` over the grid. -/
def Spec.IsGridPeak (g : Grid.Grid) (f : ℕ → ℝ) (c : ℝ) : Prop :=
  (∃ node < g.count 0 * g.count 1 * g.count 2, c = f node) ∧ ∀ node < g.count 0 * g.count 1 * g.count 2, f node ≤ c

/-- The data read for an event, `extra` seconds more than its window before and after, give `t` as the time of the
largest coalescence: of the `4 * k + 1` samples from two marginal windows (of `k` samples) before the trigger time to two
after, it is the first with the largest peak over the grid, as stored in double precision. -/
def Spec.OriginAt (s : Scan) (tt : Str → Str → ℕ → ℚ) (mw : ℚ) (k : ℕ) (extra : ℚ × ℚ) (x : Trig) (t : ℚ) : Prop :=
  ∃ o st, s.readEvent (Spec.eventWindow s mw x) extra = .ok o ∧
    (∀ p ∈ s.onset.phases, preStream s.onset s.ext (s.data (Spec.eventWindow s mw x) o) p = .ok (st p)) ∧
    Spec.available s.onset s.ext (s.data (Spec.eventWindow s mw x) o) st ≠ [] ∧
    ∃ c : ℕ → ℝ, (∀ m < 4 * k + 1, Spec.IsGridPeak s.grid (fun node => Spec.waveCoalescence s.onset s.rate s.ext
        (s.data (Spec.eventWindow s mw x) o) st tt node (Spec.firstOf s (4 * mw) + m)) (c m)) ∧
      ∃ m < 4 * k + 1, t = x.time - 2 * mw + (m : ℚ) / s.rate ∧ (∀ m' < 4 * k + 1, s.fl (c m') ≤ s.fl (c m)) ∧
        ∀ m' < m, s.fl (c m') < s.fl (c m)

namespace WaveLocate

/-- What `_compute` gives for a good window. -/
theorem window_good {s : Scan} {tt : Str → Str → ℕ → ℚ} (hs : Spec.GoodScan s tt) {ts : ℚ} (hts : 0 < ts) {win : ℚ × ℚ}
    {o : Waveforms.Out ℚ} {st : Str → List Data.Trace} (hw : Spec.GoodWindow s ts win o st)
    (hspan : win.1 + (Spec.padsOf s ts).1 + (Spec.padsOf s ts).2 ≤ win.2) {N : ℕ}
    (hcount : coaSamples 0 s.rate (Spec.padsOf s ts) win.1 win.2 = N) :
    (Spec.available s.onset s.ext (s.data win o) st = [] → s.compute ts win o = .error (.onset .dataAvailability)) ∧
    (Spec.available s.onset s.ext (s.data win o) st ≠ [] → ∃ out, s.compute ts win o = .ok out ∧ out.length = N ∧
      ∀ m < N, ∃ r, out[m]? = some r ∧ Spec.ReportsPeak s.grid
        (fun node => Spec.waveCoalescence s.onset s.rate s.ext (s.data win o) st tt node (Spec.firstOf s ts + m)) r) := by
  have hr := hs.rate_pos
  obtain ⟨n1, n2⟩ := scanPads_samples_nonneg hs.nonneg hs.table.ttpos hr hts.le
  rw [time2sample_nat] at n1 n2
  unfold coaSamples at hcount
  rw [time2sample_nat, time2sample_nat] at hcount
  have hf : ((Spec.firstOf s ts : ℕ) : ℤ) = pyRound ((Spec.padsOf s ts).1 * s.rate) := Int.toNat_of_nonneg n1
  have hl : ((Spec.lastOf s ts : ℕ) : ℤ) = pyRound ((Spec.padsOf s ts).2 * s.rate) := Int.toNat_of_nonneg n2
  rw [← hf, ← hl] at hcount
  have hcols : (((onsetLength 0 s.rate win.1 win.2).toNat : ℕ) : ℤ) = onsetLength 0 s.rate win.1 win.2 :=
    Int.toNat_of_nonneg (by omega)
  have hpairs : ∀ sp ∈ Spec.available s.onset s.ext (s.data win o) st, sp ∈ Compute.allPairs s.onset.phases s.stations := by
    rintro ⟨a, p⟩ hsp
    obtain ⟨h1, h2, -⟩ := WaveScan.mem_available.1 hsp
    simp only [Compute.allPairs, List.mem_flatMap, List.mem_map]
    exact ⟨p, h1, a, h2, rfl⟩
  have key := C169_value s.onset s.rate hs.rate hr hs.counts s.windows hs.nonneg hs.wins hs.transform s.ext
    (s.data win o) hs.names st hw.grid hw.processed hw.sane hw.silent (onsetLength 0 s.rate win.1 win.2).toNat
    (fun a p ha l hl' => by have := hw.length a p ha l hl'; omega)
    s.lut s.grid s.ttmax tt
    ⟨hs.table.nodes, hs.table.pos, hs.table.longest, hs.table.ttpos, hs.table.phLut, hs.table.stLut,
      fun sp hsp => hs.table.table sp (hpairs sp hsp)⟩
    ts hts (Spec.padsOf s ts) rfl hspan (Spec.firstOf s ts) (Spec.lastOf s ts) hf hl hw.counted
    (s.sched win) (s.sched' win) hw.threads
  have hlen : (onsetLength 0 s.rate win.1 win.2).toNat - Spec.firstOf s ts - Spec.lastOf s ts = N := by omega
  rw [hlen] at key
  exact ⟨key.2, fun h => (key.1 h).2⟩

theorem available_congr {c : Cfg} {x : Ext} {d : CalcOnsets.Data} {st st' : Str → List Data.Trace}
    (h : ∀ p ∈ c.phases, st p = st' p) : Spec.available c x d st = Spec.available c x d st' := by
  unfold Spec.available
  exact List.flatMap_congr fun p hp => by rw [h p hp]

theorem coalescence_congr {c : Cfg} {rate : ℕ} {x : Ext} {d : CalcOnsets.Data} {st st' : Str → List Data.Trace}
    {tt : Str → Str → ℕ → ℚ} (h : ∀ p ∈ c.phases, st p = st' p) (node i : ℕ) :
    Spec.waveCoalescence c rate x d st tt node i = Spec.waveCoalescence c rate x d st' tt node i := by
  unfold Spec.waveCoalescence
  rw [← available_congr h]
  congr 2
  refine List.map_congr_left ?_
  rintro ⟨a, p⟩ hsp
  obtain ⟨h1, -, -⟩ := WaveScan.mem_available.1 hsp
  unfold Spec.records
  simp only [h p h1]

theorem split_iff {rows : List Row} {N : ℕ} {T V : ℕ → ℚ} {t : ℚ} (hlen : rows.length = N)
    (hrow : ∀ m < N, ∃ q, rows[m]? = some ⟨T m, V m, q⟩) :
    (∃ before r after, rows = before ++ r :: after ∧ (∀ x ∈ before, x.coa < r.coa) ∧ (∀ x ∈ after, x.coa ≤ r.coa) ∧ r.dt = t) ↔
    ∃ m < N, t = T m ∧ (∀ m' < N, V m' ≤ V m) ∧ ∀ m' < m, V m' < V m := by
  have hget : ∀ m < N, ∀ r, rows[m]? = some r → r.dt = T m ∧ r.coa = V m := by
    intro m hm r hr
    obtain ⟨q, hq⟩ := hrow m hm
    rw [hq] at hr
    obtain rfl := Option.some.inj hr
    exact ⟨rfl, rfl⟩
  constructor
  · rintro ⟨pre, r, post, rfl, h1, h2, h3⟩
    have hN : N = pre.length + (post.length + 1) := by rw [← hlen]; simp
    have hm : (pre ++ r :: post)[pre.length]? = some r := by simp
    obtain ⟨e1, e2⟩ := hget pre.length (by omega) r hm
    have hlt : ∀ m' < pre.length, V m' < V pre.length := by
      intro m' hm'
      have hg : (pre ++ r :: post)[m']? = some pre[m'] := by
        rw [List.getElem?_append_left hm', List.getElem?_eq_getElem hm']
      rw [← (hget m' (by omega) _ hg).2, ← e2]
      exact h1 _ (List.getElem_mem hm')
    refine ⟨pre.length, by omega, by rw [← e1, h3], ?_, hlt⟩
    intro m' hm'
    rcases lt_trichotomy m' pre.length with h | h | h
    · exact (hlt m' h).le
    · rw [h]
    · obtain ⟨x, hx⟩ : ∃ x, (pre ++ r :: post)[m']? = some x := by
        rw [List.getElem?_eq_getElem (by rw [hlen]; exact hm')]
        exact ⟨_, rfl⟩
      have hx' : x ∈ post := by
        rw [List.getElem?_append_right h.le] at hx
        obtain ⟨i, hi⟩ : ∃ i, m' - pre.length = i + 1 := ⟨m' - pre.length - 1, by omega⟩
        rw [hi, List.getElem?_cons_succ] at hx
        exact List.mem_of_getElem? hx
      rw [← (hget m' hm' x hx).2, ← e2]
      exact h2 x hx'
  · rintro ⟨m, hm, rfl, h1, h2⟩
    have hmr : m < rows.length := by rw [hlen]; exact hm
    have hg : rows[m]? = some rows[m] := List.getElem?_eq_getElem hmr
    obtain ⟨e1, e2⟩ := hget m hm _ hg
    refine ⟨rows.take m, rows[m], rows.drop (m + 1), ?_, ?_, ?_, e1⟩
    · rw [List.cons_getElem_drop_succ, List.take_append_drop]
    · intro x hx
      obtain ⟨i, hi, rfl⟩ := List.mem_iff_getElem.1 hx
      rw [List.length_take] at hi
      have hir : i < rows.length := by omega
      have : (rows.take m)[i] = rows[i] := List.getElem_take
      rw [this, e2, (hget i (by omega) _ (List.getElem?_eq_getElem hir)).2]
      exact h2 i (by omega)
    · intro x hx
      obtain ⟨i, hi⟩ := List.mem_iff_getElem?.1 (List.mem_of_mem_drop hx)
      have hi' : i < N := by
        rw [← hlen]
        exact (List.getElem?_eq_some_iff.1 hi).1
      rw [e2, (hget i hi' x hi).2]
      exact h1 i hi'

theorem mwTimes_get {trigger mw : ℚ} {rate k : ℕ} (hk : mw * rate = k) :
    (mwTimes trigger mw rate).length = 4 * k + 1 ∧
    ∀ m < 4 * k + 1, (mwTimes trigger mw rate)[m]? = some (trigger - 2 * mw + (m : ℚ) / rate) := by
  have hn : (pyInt (4 * mw * rate + 1)).toNat = 4 * k + 1 := by
    have : (4 * mw * rate + 1 : ℚ) = ((4 * k + 1 : ℕ) : ℚ) := by push_cast; rw [← hk]; ring
    rw [this, pyInt_natCast]
    omega
  unfold mwTimes
  rw [hn]
  refine ⟨by simp, fun m hm => ?_⟩
  rw [List.getElem?_map, List.getElem?_range hm]
  rfl

/-- What locate does with one good event. -/
theorem event_good {s : Scan} {tt : Str → Str → ℕ → ℚ} (hs : Spec.GoodScan s tt) {mw : ℚ} {k : ℕ} (hk : mw * s.rate = k)
    (hk0 : 0 < k) (htie : ∀ z : ℤ, (Spec.padsOf s (4 * mw)).1 * s.rate ≠ z + 1 / 2) {extra : ℚ × ℚ} {x : Trig} {j : ℤ}
    (hx : x.time = j / (s.rate : ℚ))
    (hwin : ∀ o, s.readEvent (Spec.eventWindow s mw x) extra = .ok o →
      ∃ st, Spec.GoodWindow s (4 * mw) (Spec.eventWindow s mw x) o st) :
    (Skipped mw (s.locateOutcome mw extra) x ∨ ∃ t, Located mw (s.locateOutcome mw extra) x t) ∧
    ∀ t, Located mw (s.locateOutcome mw extra) x t ↔ Spec.OriginAt s tt mw k extra x t ∧ |t - x.time| < mw := by
  have hr := hs.rate_pos
  have hrq : (0 : ℚ) < s.rate := by exact_mod_cast hr
  have hkq : (0 : ℚ) < k := by exact_mod_cast hk0
  have hmw : 0 < mw := by
    by_contra hc
    push Not at hc
    have : mw * (s.rate : ℚ) ≤ 0 := mul_nonpos_of_nonpos_of_nonneg hc hrq.le
    linarith
  have hdef : s.locateOutcome mw extra x = (match s.readEvent (Spec.eventWindow s mw x) extra with
      | .error .archiveEmpty => .archiveEmpty
      | .error .dataGap => .dataGap
      | .error .dataAvailability => .dataAvailability
      | .ok o =>
        match s.compute (4 * mw) (Spec.eventWindow s mw x) o with
        | .ok out =>
          if out.length = (mwTimes x.time mw s.rate).length then
            .computed (List.zipWith (fun t r => ⟨t, s.fl r.maxCoa, s.fl r.norm⟩) (mwTimes x.time mw s.rate) out) out
          else .other
        | .error (.onset .dataAvailability) => .dataAvailability
        | .error _ => .other) := rfl
  cases hread : s.readEvent (Spec.eventWindow s mw x) extra with
  | error e =>
    rw [hread] at hdef
    have hskip : s.locateOutcome mw extra x = .archiveEmpty ∨ s.locateOutcome mw extra x = .dataGap ∨
        s.locateOutcome mw extra x = .dataAvailability := by
      rw [hdef]; cases e <;> simp
    refine ⟨Or.inl ?_, fun t => ⟨?_, ?_⟩⟩
    · rcases hskip with h | h | h
      · exact Or.inl h
      · exact Or.inr (Or.inl h)
      · exact Or.inr (Or.inr (Or.inl h))
    · rintro ⟨rows, map, h, -⟩
      rw [h] at hskip
      simp at hskip
    · rintro ⟨⟨o, st, h, -⟩, -⟩
      rw [hread] at h
      cases h
  | ok o =>
    obtain ⟨st, hw⟩ := hwin o hread
    rw [hread] at hdef
    simp only at hdef
    obtain ⟨hlen, htime⟩ := mwTimes_get (trigger := x.time) hk
    have hcount := (C22_locate_times_partial s.windows s.ttmax s.rate hr 0 mw j (2 * k) (by push_cast; rw [← hk]; ring) x.time
      (by rw [hx]; ring) (Spec.padsOf s (4 * mw)) rfl htie (Spec.eventWindow s mw x) rfl).1
    rw [hlen] at hcount
    have hspan : (Spec.eventWindow s mw x).1 + (Spec.padsOf s (4 * mw)).1 + (Spec.padsOf s (4 * mw)).2 ≤
        (Spec.eventWindow s mw x).2 := by
      show x.time - 2 * mw - (Spec.padsOf s (4 * mw)).1 + (Spec.padsOf s (4 * mw)).1 + (Spec.padsOf s (4 * mw)).2 ≤
        x.time + 2 * mw + (Spec.padsOf s (4 * mw)).2
      linarith
    obtain ⟨g1, g2⟩ := window_good hs (by linarith : 0 < 4 * mw) hw hspan hcount
    have hst : ∀ st' : Str → List Data.Trace, (∀ p ∈ s.onset.phases,
        preStream s.onset s.ext (s.data (Spec.eventWindow s mw x) o) p = .ok (st' p)) → ∀ p ∈ s.onset.phases, st' p = st p := by
      intro st' h p hp
      exact Except.ok.inj ((h p hp).symm.trans (hw.processed p hp))
    by_cases hav : Spec.available s.onset s.ext (s.data (Spec.eventWindow s mw x) o) st = []
    · rw [g1 hav] at hdef
      simp only at hdef
      refine ⟨Or.inl (Or.inr (Or.inr (Or.inl hdef))), fun t => ⟨?_, ?_⟩⟩
      · rintro ⟨rows, map, h, -⟩
        rw [hdef] at h
        cases h
      · rintro ⟨⟨o', st', h, h', h'', -⟩, -⟩
        rw [hread] at h
        obtain rfl := Except.ok.inj h
        exact absurd ((available_congr (hst st' h')).trans hav) h''
    · obtain ⟨out, hc, hol, hval⟩ := g2 hav
      rw [hc] at hdef
      simp only at hdef
      rw [if_pos (by rw [hol, hlen])] at hdef
      haveI : Nonempty ComputeStep.Out := ⟨(hval 0 (by omega)).choose⟩
      choose! r hr1 hr2 using hval
      set rows := List.zipWith (fun t r => (⟨t, s.fl r.maxCoa, s.fl r.norm⟩ : Row)) (mwTimes x.time mw s.rate) out with hrows
      have hrl : rows.length = 4 * k + 1 := by
        rw [hrows, List.length_zipWith, hlen, hol, min_self]
      have hrow : ∀ m < 4 * k + 1, ∃ q, rows[m]? =
          some ⟨x.time - 2 * mw + (m : ℚ) / s.rate, s.fl (r m).maxCoa, q⟩ := by
        intro m hm
        refine ⟨s.fl (r m).norm, ?_⟩
        rw [hrows, List.getElem?_zipWith, htime m hm, hr1 m hm]
      have hloc : ∀ t, Located mw (s.locateOutcome mw extra) x t ↔ (∃ m < 4 * k + 1, t = x.time - 2 * mw + (m : ℚ) / s.rate ∧
          (∀ m' < 4 * k + 1, s.fl (r m').maxCoa ≤ s.fl (r m).maxCoa) ∧ ∀ m' < m, s.fl (r m').maxCoa < s.fl (r m).maxCoa) ∧
          |t - x.time| < mw := by
        intro t
        rw [← split_iff (t := t) hrl hrow]
        constructor
        · rintro ⟨rows', map', h, h', h''⟩
          rw [hdef] at h
          injection h with ha hb
          rw [← ha] at h'
          exact ⟨h', h''⟩
        · rintro ⟨h', h''⟩
          exact ⟨_, _, hdef, h', h''⟩
      refine ⟨?_, fun t => ?_⟩
      · obtain ⟨m, hm⟩ := firstMaxBy_isSome Row.coa (l := rows) (by
          intro h
          rw [h] at hrl
          simp at hrl)
        obtain ⟨pre, post, e1, e2, e3⟩ := firstMaxBy_spec hm
        by_cases hin : |m.dt - x.time| < mw
        · exact Or.inr ⟨m.dt, rows, out, hdef, ⟨pre, m, post, e1, e2, e3, rfl⟩, hin⟩
        · refine Or.inl (Or.inr (Or.inr (Or.inr ⟨rows, out, ⟨rows, out, m.dt⟩, hdef, ?_, not_lt.1 hin⟩)))
          unfold Locate.addComputeOutput Locate.maxRow
          rw [hm]
          rfl
      · rw [hloc t]
        refine and_congr_left fun _ => ?_
        constructor
        · intro h
          refine ⟨o, st, hread, hw.processed, hav, fun m => (r m).maxCoa, fun m hm => ?_, h⟩
          obtain ⟨n, hn, h1, -⟩ := (hr2 m hm).node
          exact ⟨⟨n, hn, h1⟩, (hr2 m hm).largest⟩
        · rintro ⟨o', st', h, h', -, c, hpk, m, hm, h1, h2, h3⟩
          rw [hread] at h
          obtain rfl := Except.ok.inj h
          have hce : ∀ m < 4 * k + 1, c m = (r m).maxCoa := by
            intro m hm
            obtain ⟨⟨n, hn, e1⟩, e2⟩ := hpk m hm
            simp only [coalescence_congr (hst st' h')] at e1 e2
            obtain ⟨n', hn', e3, -⟩ := (hr2 m hm).node
            refine le_antisymm ?_ ?_
            · rw [e1]; exact (hr2 m hm).largest n hn
            · rw [e3]; exact e2 n' hn'
          refine ⟨m, hm, h1, fun m' hm' => ?_, fun m' hm' => ?_⟩
          · rw [← hce m' hm', ← hce m hm]; exact h2 m' hm'
          · rw [← hce m' (by omega), ← hce m hm]; exact h3 m' hm'

end WaveLocate

/-- The time span read for an event is the one of C74. -/
theorem WaveLocate.span_eq (s : Scan) (mw : ℚ) (x : Trig) (amp : Option (ℚ × ℚ)) (preCut postCut : Option ℚ) :
    ((Spec.eventWindow s mw x).1 - (eventPads mw (Spec.padsOf s (4 * mw)) amp preCut postCut).1,
      (Spec.eventWindow s mw x).2 + (eventPads mw (Spec.padsOf s (4 * mw)) amp preCut postCut).2) =
    Locate.waveformSpan x.time mw (Spec.padsOf s (4 * mw)).1 (Spec.padsOf s (4 * mw)).2 amp preCut postCut := rfl

/-- **C174**, what is read: wherever the origin time ends up in the marginal window, the data read for the event reach from
`pre_cut` before it to `post_cut` after it and cover the padding asked for by the magnitude calculation.  No more is read than
that: what is read beyond the window of the scan reaches exactly a marginal window further than one of the two asks for. -/
theorem C174_span (s : Scan) (mw : ℚ) (hmw : 0 ≤ mw) (hp : 0 ≤ (Spec.padsOf s (4 * mw)).1 ∧ 0 ≤ (Spec.padsOf s (4 * mw)).2)
    (x : Trig) (otime : ℚ) (ho : |otime - x.time| < mw) (amp : Option (ℚ × ℚ)) (preCut postCut : Option ℚ) (beg fin : ℚ)
    (hb : beg = (Spec.eventWindow s mw x).1 - (eventPads mw (Spec.padsOf s (4 * mw)) amp preCut postCut).1)
    (hf : fin = (Spec.eventWindow s mw x).2 + (eventPads mw (Spec.padsOf s (4 * mw)) amp preCut postCut).2) :
    (∀ c, preCut = some c → beg ≤ otime - c) ∧ (∀ c, postCut = some c → otime + c ≤ fin) ∧
    (∀ p, amp = some p → beg ≤ otime - p.1 ∧ otime + p.2 ≤ fin) ∧
    (beg = (Spec.eventWindow s mw x).1 ∨ ∃ a, (preCut = some a ∨ ∃ p, amp = some p ∧ p.1 = a) ∧ beg = x.time - mw - a) ∧
    (fin = (Spec.eventWindow s mw x).2 ∨ ∃ a, (postCut = some a ∨ ∃ p, amp = some p ∧ p.2 = a) ∧ fin = x.time + mw + a) := by
  have h1 := hb.trans (congrArg Prod.fst (WaveLocate.span_eq s mw x amp preCut postCut))
  have h2 := hf.trans (congrArg Prod.snd (WaveLocate.span_eq s mw x amp preCut postCut))
  have h := C74_waveforms_cover x.time mw (Spec.padsOf s (4 * mw)).1 (Spec.padsOf s (4 * mw)).2 otime amp preCut postCut hmw hp.1
    hp.2 ho
  simp only [← h1, ← h2] at h
  refine ⟨h.1, h.2.1, h.2.2.1, ?_, ?_⟩
  · have hw : (Spec.eventWindow s mw x).1 = x.time - 2 * mw - (Spec.padsOf s (4 * mw)).1 := rfl
    have key : ∀ a : ℚ, (a = 0 ∨ preCut = some a ∨ ∃ p, amp = some p ∧ p.1 = a) →
        (eventPads mw (Spec.padsOf s (4 * mw)) amp preCut postCut).1 = max 0 (a - mw - (Spec.padsOf s (4 * mw)).1) →
        beg = (Spec.eventWindow s mw x).1 ∨ ∃ a, (preCut = some a ∨ ∃ p, amp = some p ∧ p.1 = a) ∧ beg = x.time - mw - a := by
      intro a ha he
      rcases le_total (a - mw - (Spec.padsOf s (4 * mw)).1) 0 with hle | hge
      · left; rw [hb, he, max_eq_left hle, sub_zero]
      · rcases ha with rfl | ha
        · left; rw [hb, he, max_eq_left (by linarith [hp.1]), sub_zero]
        · right; exact ⟨a, ha, by rw [hb, he, max_eq_right hge, hw]; ring⟩
    cases amp with
    | none =>
      cases preCut with
      | none => exact key 0 (.inl rfl) rfl
      | some c =>
        by_cases hc : c = 0
        · exact key 0 (.inl rfl) (by simp [eventPads, hc])
        · rcases le_total 0 c with hl | hl
          · exact key c (.inr (.inl rfl)) (by simp [eventPads, hc, max_eq_right hl])
          · exact key 0 (.inl rfl) (by simp [eventPads, hc, max_eq_left hl])
    | some p =>
      cases preCut with
      | none => exact key p.1 (.inr (.inr ⟨p, rfl, rfl⟩)) rfl
      | some c =>
        by_cases hc : c = 0
        · exact key p.1 (.inr (.inr ⟨p, rfl, rfl⟩)) (by simp [eventPads, hc])
        · rcases le_total p.1 c with hl | hl
          · exact key c (.inr (.inl rfl)) (by simp [eventPads, hc, max_eq_right hl])
          · exact key p.1 (.inr (.inr ⟨p, rfl, rfl⟩)) (by simp [eventPads, hc, max_eq_left hl])
  · have hw : (Spec.eventWindow s mw x).2 = x.time + 2 * mw + (Spec.padsOf s (4 * mw)).2 := rfl
    have key : ∀ a : ℚ, (a = 0 ∨ postCut = some a ∨ ∃ p, amp = some p ∧ p.2 = a) →
        (eventPads mw (Spec.padsOf s (4 * mw)) amp preCut postCut).2 = max 0 (a - mw - (Spec.padsOf s (4 * mw)).2) →
        fin = (Spec.eventWindow s mw x).2 ∨ ∃ a, (postCut = some a ∨ ∃ p, amp = some p ∧ p.2 = a) ∧ fin = x.time + mw + a := by
      intro a ha he
      rcases le_total (a - mw - (Spec.padsOf s (4 * mw)).2) 0 with hle | hge
      · left; rw [hf, he, max_eq_left hle, add_zero]
      · rcases ha with rfl | ha
        · left; rw [hf, he, max_eq_left (by linarith [hp.2]), add_zero]
        · right; exact ⟨a, ha, by rw [hf, he, max_eq_right hge, hw]; ring⟩
    cases amp with
    | none =>
      cases postCut with
      | none => exact key 0 (.inl rfl) rfl
      | some c =>
        by_cases hc : c = 0
        · exact key 0 (.inl rfl) (by simp [eventPads, hc])
        · rcases le_total 0 c with hl | hl
          · exact key c (.inr (.inl rfl)) (by simp [eventPads, hc, max_eq_right hl])
          · exact key 0 (.inl rfl) (by simp [eventPads, hc, max_eq_left hl])
    | some p =>
      cases postCut with
      | none => exact key p.2 (.inr (.inr ⟨p, rfl, rfl⟩)) rfl
      | some c =>
        by_cases hc : c = 0
        · exact key p.2 (.inr (.inr ⟨p, rfl, rfl⟩)) (by simp [eventPads, hc])
        · rcases le_total p.2 c with hl | hl
          · exact key c (.inr (.inl rfl)) (by simp [eventPads, hc, max_eq_right hl])
          · exact key p.2 (.inr (.inr ⟨p, rfl, rfl⟩)) (by simp [eventPads, hc, max_eq_left hl])

/-- **C174.** If the later stages raise nothing, `locate` comes to its end and writes, in the order of the triggered events,
exactly those for which the archive has usable data that place the first maximum of the coalescence strictly within a
marginal window of the trigger time, with that time as origin time.  Missing: as in `C173_files_partial`, and a marginal
window of a broken number of samples or a trigger time between samples. -/
theorem C174_located_partial (s : Scan) (tt : Str → Str → ℕ → ℚ) (hs : Spec.GoodScan s tt) (mw : ℚ) (k : ℕ)
    (hk : mw * s.rate = k) (hk0 : 0 < k) (htie : ∀ z : ℤ, (Spec.padsOf s (4 * mw)).1 * s.rate ≠ z + 1 / 2)
    (amp : Option (ℚ × ℚ)) (preCut postCut : Option ℚ) (extra : ℚ × ℚ)
    (hextra : extra = eventPads mw (Spec.padsOf s (4 * mw)) amp preCut postCut)
    (later : Trig → Later) (events : List Trig)
    (hev : ∀ x ∈ events, later x = .fine ∧ (∃ j : ℤ, x.time = j / (s.rate : ℚ)) ∧
      ∀ o, s.readEvent (Spec.eventWindow s mw x) extra = .ok o →
        ∃ st, Spec.GoodWindow s (4 * mw) (Spec.eventWindow s mw x) o st) :
    (s.locate mw amp preCut postCut later events).completed = true ∧
    ((s.locate mw amp preCut postCut later events).written.map Prod.fst).Sublist events ∧
    ∀ x t, (x, t) ∈ (s.locate mw amp preCut postCut later events).written ↔
      x ∈ events ∧ Spec.OriginAt s tt mw k extra x t ∧ |t - x.time| < mw := by
  have hl : s.locate mw amp preCut postCut later events =
      Locate.locateEvents mw (s.locateOutcome mw extra) later events := by rw [hextra]; rfl
  rw [hl]
  have hgood := fun x hx => WaveLocate.event_good hs hk hk0 htie (hev x hx).2.1.choose_spec (hev x hx).2.2
  obtain ⟨a1, a2⟩ := C19_all_located mw (s.locateOutcome mw extra) later events fun x hx => by
    rcases (hgood x hx).1 with h | h
    · exact Or.inl h
    · exact Or.inr ⟨(hev x hx).1, h⟩
  obtain ⟨b1, b2⟩ := C19_only_in_window mw (s.locateOutcome mw extra) later events
  refine ⟨a1, b2, fun x t => ⟨fun h => ?_, fun h => ?_⟩⟩
  · have hx : x ∈ events := b2.subset (List.mem_map.2 ⟨_, h, rfl⟩)
    exact ⟨hx, ((hgood x hx).2 t).1 (b1 x t h)⟩
  · exact a2 x h.1 t (((hgood x h.1).2 t).2 h.2)

/-! ## A case that meets the hypotheses -/

namespace WaveLocate

open OnsetValue OnsetGain DetectShift WaveScan
open QM.Migrate

/-- Eight seconds of one channel, with a pulse at 5 s. -/
def pulseData : CalcOnsets.Data := ⟨[⟨"Z".toList, 0, 1, [1, 1, 1, 1, 1, 9, 1, 1]⟩], ["ST01".toList], false, none, 0, 7⟩

/-- The scan of `DetectShift.exScan` over an archive with ten seconds of data; `fl` rounds to whole numbers. -/
noncomputable def pulseScan : Scan :=
  { exScan with
    files := fun q => if q.day = 0 then [some [⟨"Z".toList, 1, ⟨0, [1, 1, 1, 1, 1, 9, 1, 1, 50, 60]⟩⟩]] else []
    sched := fun _ => serial WaveScan.exLut.nNodes (nodeProg (V := ℝ) ⟨[], [], 1, 2, 8 - 1 - 2, 1, 1, WaveScan.exLut.nNodes⟩)
    sched' := fun _ => serial (8 - 1 - 2) (sampleProg WaveScan.exLut.nNodes)
    fl := fun r => (⌊r⌋ : ℤ) }

/-- What is read for an event at 3 s. -/
def pulseOut : Waveforms.Out ℚ := ⟨[⟨"Z".toList, 1, ⟨0, [1, 1, 1, 1, 1, 9, 1, 1, 50, 60]⟩⟩],
  [⟨"Z".toList, 1, ⟨0, [1, 1, 1, 1, 1, 9, 1, 1]⟩⟩]⟩

theorem pulse_good : Spec.GoodScan pulseScan (fun _ _ n => n) where
  rate := by simp [pulseScan, exScan, plainCfg, exCfg]
  rate_pos := one_pos
  counts := fun ha => by simp [pulseScan, exScan, plainCfg, exCfg] at ha
  nonneg := ⟨le_refl _, le_refl _⟩
  wins := fun p _ => ⟨le_refl _, le_refl _, le_refl _, le_refl _⟩
  transform := fun v => by simp [pulseScan, exScan, plainCfg, exCfg, StaLta.Transform.apply]
  names := WaveScan.ex_names
  table := ⟨rfl, by decide, by decide +kernel, by norm_num [pulseScan, exScan], fun p hp => hp, fun s hs => hs, fun _ _ => rfl⟩

theorem pulse_pads : Spec.padsOf pulseScan (4 * 1) = (1, 2) := by
  show scanPads ⟨(0, 0), []⟩ 1 ((1 : ℕ) : ℚ) (4 * 1) = (1, 2)
  decide +kernel

theorem pulse_first : Spec.firstOf pulseScan (4 * 1) = 1 := by
  unfold Spec.firstOf
  rw [pulse_pads]
  show (pyRound ((1 : ℚ) * ((1 : ℕ) : ℚ))).toNat = 1
  decide +kernel

theorem pulse_last : Spec.lastOf pulseScan (4 * 1) = 2 := by
  unfold Spec.lastOf
  rw [pulse_pads]
  show (pyRound ((2 : ℚ) * ((1 : ℕ) : ℚ))).toNat = 2
  decide +kernel

theorem pulse_window (x : Trig) (hx : x.time = 3) : Spec.eventWindow pulseScan 1 x = (0, 7) := by
  unfold Spec.eventWindow
  rw [pulse_pads, hx]
  show locateWindow 3 1 (1, 2) = (0, 7)
  decide +kernel

theorem pulse_extra : eventPads 1 (Spec.padsOf pulseScan (4 * 1)) none none (some 5) = (0, 2) := by
  rw [pulse_pads]
  norm_num [eventPads]

/-- With `post_cut` 5 s the data of an event at 3 s are read up to 9 s, for any origin time in the marginal window. -/
example (x : Trig) (hx : x.time = 3) (otime : ℚ) (ho : |otime - 3| < 1) :
    otime + 5 ≤ 7 + (eventPads 1 (Spec.padsOf pulseScan (4 * 1)) none none (some 5)).2 := by
  have h := C174_span pulseScan 1 (by norm_num) (by rw [pulse_pads]; norm_num) x otime (by rw [hx]; exact ho) none none (some 5)
    _ _ rfl rfl
  rw [pulse_window x hx] at h
  exact h.2.1 5 rfl

theorem pulse_read : pulseScan.readEvent (0, 7) (0, 2) = .ok pulseOut := by
  have hl : loadFromPath false ["ST01".toList] (0 - 0) (7 + 2) = [⟨0, some "ST01".toList⟩] := by
    unfold loadFromPath
    have h0 : TriggerFiles.dayNum (0 - 0 : ℚ) = 0 := by decide +kernel
    rw [h0, TriggerFiles.readDays, dif_pos (by decide +kernel), TriggerFiles.readDays, dif_neg (by decide +kernel)]
    rfl
  unfold Scan.readEvent
  show Waveforms.readWaveformData List.dedup id ⟨0, 7, 0, 2, false, ["ST01".toList]⟩
    ((loadFromPath false ["ST01".toList] (0 - 0) (7 + 2)).flatMap pulseScan.files) = _
  rw [hl]
  show Waveforms.readWaveformData List.dedup id ⟨0, 7, 0, 2, false, ["ST01".toList]⟩
    [some [⟨"Z".toList, 1, ⟨0, [1, 1, 1, 1, 1, 9, 1, 1, 50, 60]⟩⟩]] = _
  decide +kernel

theorem pulse_data : pulseScan.data (0, 7) pulseOut = pulseData := by
  unfold Scan.data
  simp [pulseScan, exScan, pulseData, toTrace, pulseOut]

theorem pulse_pre : preStream plainCfg (exExt 1) pulseData "P".toList = .ok pulseData.waveforms := by
  unfold preStream
  have h : Filters.preProcess (exExt 1).dsp ((exExt 1).trim pulseData.start pulseData.stop) plainCfg.sr pulseData.resample
      pulseData.upfactor (plainCfg.low "P".toList) (plainCfg.high "P".toList)
      ((pulseData.waveforms.filter fun t => plainCfg.chan "P".toList t.id).map toR) =
      .ok (pulseData.waveforms.map fun t => (toR t, .bandpass (1 / 5) (4 / 5))) := by
    show Filters.preProcess ⟨fun _ b => b, fun _ b => b⟩ (fun b => some b) 1 false none (1 / 10) (2 / 5)
      (pulseData.waveforms.map toR) = _
    decide +kernel
  rw [h]
  rfl

theorem pulse_sane : ∀ t ∈ pulseData.waveforms, Sane t := by
  intro t ht
  simp only [pulseData, List.mem_cons, List.not_mem_nil, or_false] at ht
  subst ht
  exact ⟨by simp, by norm_num, by norm_num⟩

theorem pulse_passes : Spec.Passes (Spec.criteria plainCfg "P".toList) 0 7 pulseData.waveforms
    ⟨"Z".toList, 0, 1, [1, 1, 1, 1, 1, 9, 1, 1]⟩ := by
  have hf : (pulseData.waveforms.filter fun u => u.id = "Z".toList) = pulseData.waveforms := by decide +kernel
  show Spec.ChannelOK _ 0 7 (pulseData.waveforms.filter fun u => u.id = "Z".toList)
  rw [hf]
  refine ⟨?_, ⟨_, List.Perm.refl _, List.isChain_singleton _⟩, fun _ => ⟨_, List.Perm.refl _, List.isChain_singleton _⟩, ?_, ?_, ?_⟩
  · intro t ht
    simp only [pulseData, List.mem_cons, List.not_mem_nil, or_false] at ht
    subst ht
    exact ⟨1, by simp, 9, by simp, by norm_num⟩
  · intro _ t ht
    simp only [pulseData, List.mem_cons, List.not_mem_nil, or_false] at ht
    subst ht
    simp [Spec.criteria, plainCfg, exCfg]
  · intro _
    exact ⟨_, rfl, by norm_num⟩
  · intro h
    cases h

theorem pulse_records : Spec.records plainCfg (exExt 1) pulseData (fun _ => pulseData.waveforms) "ST01".toList "P".toList =
    [[1, 1, 1, 1, 1, 9, 1, 1]] := by
  classical
  unfold Spec.records Spec.passing Spec.ofStation
  have hfil : (pulseData.waveforms.filter fun t => (exExt 1).ofStation "ST01".toList t.id) = pulseData.waveforms := rfl
  simp only
  rw [if_neg (by simp [plainCfg]), hfil]
  have hp : (pulseData.waveforms.filter fun t => decide (Spec.Passes (Spec.criteria plainCfg "P".toList) pulseData.start
      pulseData.stop pulseData.waveforms t)) = pulseData.waveforms := by
    rw [List.filter_eq_self]
    intro t ht
    rw [List.mem_singleton.1 ht]
    exact decide_eq_true pulse_passes
  rw [hp]
  rfl

theorem pulse_available : Spec.available plainCfg (exExt 1) pulseData (fun _ => pulseData.waveforms) =
    [("ST01".toList, "P".toList)] := by
  classical
  have hph : plainCfg.phases = ["P".toList] := rfl
  have hst : pulseData.stations = ["ST01".toList] := rfl
  have hav : Spec.Available (Spec.criteria plainCfg "P".toList) pulseData.start pulseData.stop
      (Spec.ofStation (exExt 1) "ST01".toList pulseData.waveforms) := by
    unfold Spec.Available
    rw [if_neg (by simp [Spec.criteria, plainCfg, exCfg])]
    exact ⟨_, List.mem_singleton.2 rfl, pulse_passes⟩
  unfold Spec.available
  rw [hph, hst, List.flatMap_cons, List.flatMap_nil, List.append_nil, List.filter_cons_of_pos (by simpa using hav)]
  rfl

theorem pulse_samples : Spec.samples (0 : ℚ) 1 = 1 := by decide +kernel

theorem pulse_silent : Spec.NeverSilent plainCfg (Spec.samples (plainCfg.lta "P".toList) 1) [1, 1, 1, 1, 1, 9, 1, 1] := by
  have hs : Spec.samples (plainCfg.lta "P".toList) 1 = 1 := pulse_samples
  rw [hs]
  intro i hi _
  simp only [List.length_cons, List.length_nil] at hi
  have : i = 0 ∨ i = 1 ∨ i = 2 ∨ i = 3 ∨ i = 4 ∨ i = 5 ∨ i = 6 ∨ i = 7 := by omega
  rcases this with rfl | rfl | rfl | rfl | rfl | rfl | rfl | rfl <;>
    simp [Spec.winSum, plainCfg, exCfg, StaLta.Transform.apply]

theorem pulse_goodWindow : Spec.GoodWindow pulseScan (4 * 1) (0, 7) pulseOut (fun _ => pulseData.waveforms) := by
  have hl : onsetLength 0 pulseScan.rate 0 7 = 8 := by
    show onsetLength 0 1 0 7 = 8
    decide +kernel
  have hav : Spec.available pulseScan.onset pulseScan.ext pulseData (fun _ => pulseData.waveforms) =
      [("ST01".toList, "P".toList)] := pulse_available
  have hrec : ∀ a p l, (a, p) = ("ST01".toList, "P".toList) →
      l ∈ Spec.records pulseScan.onset pulseScan.ext pulseData (fun _ => pulseData.waveforms) a p →
      p = "P".toList ∧ l = [1, 1, 1, 1, 1, 9, 1, 1] := by
    intro a p l h hm
    obtain ⟨rfl, rfl⟩ := Prod.mk.inj h
    have h' := pulse_records
    change l ∈ Spec.records plainCfg (exExt 1) pulseData (fun _ => pulseData.waveforms) "ST01".toList "P".toList at hm
    rw [h'] at hm
    exact ⟨rfl, List.mem_singleton.1 hm⟩
  refine ⟨?_, ?_, ?_, ?_, ?_, ?_, fun h => by simp [pulseScan, exScan, plainCfg] at h⟩
  all_goals try simp only [pulse_data, hl, hav, pulse_first, pulse_last]
  · intro p hp
    have hph : pulseScan.onset.phases = ["P".toList] := rfl
    rw [hph] at hp
    rw [List.mem_singleton.mp hp]
    exact pulse_pre
  · exact fun _ _ => pulse_sane
  · intro a p h l hm
    obtain ⟨rfl, rfl⟩ := hrec a p l (List.mem_singleton.1 h) hm
    exact pulse_silent
  · intro a p h l hm
    obtain ⟨rfl, rfl⟩ := hrec a p l (List.mem_singleton.1 h) hm
    rfl
  · norm_num
  · exact ⟨serial_isInterleaving _ _, serial_isInterleaving _ _⟩

/-- The coalescence of the pulse: the square of the amplitude ratio of neighbouring samples, but at least 2/5. -/
theorem pulse_value (node i : ℕ) (hi : i + node + 1 < 8) :
    Spec.waveCoalescence plainCfg 1 (exExt 1) pulseData (fun _ => pulseData.waveforms) (fun _ _ n => n) node i =
    max (2 / 5) (([1, 1, 1, 1, 1, 81, 1, 1] : List ℝ).getD (i + node + 1) 0 /
      ([1, 1, 1, 1, 1, 81, 1, 1] : List ℝ).getD (i + node) 0) := by
  have hround : (pyRound (node : ℚ)).toNat = node := by
    rw [show (node : ℚ) = ((node : ℤ) : ℚ) by push_cast; rfl, pyRound_int]
    rfl
  have hs : Spec.samples (plainCfg.sta "P".toList) 1 = 1 := pulse_samples
  have hs' : Spec.samples (plainCfg.lta "P".toList) 1 = 1 := pulse_samples
  unfold Spec.waveCoalescence
  rw [pulse_available]
  simp only [List.map_cons, List.map_nil, List.prod_cons, List.prod_nil, mul_one, List.length_cons, List.length_nil, zero_add,
    Nat.cast_one, div_one, Real.rpow_one, pulse_records]
  rw [hround]
  unfold Spec.onsetAt
  rw [hs, hs']
  have hm : plainCfg.minOnset = 2 / 5 := rfl
  have hp : plainCfg.pos = .centred := rfl
  have ht : plainCfg.transform = .energy := rfl
  rw [hm, hp, ht]
  have hcase : ∀ j < 7, max (1 / 100 : ℝ) (max (2 / 5) (Real.sqrt ((([[1, 1, 1, 1, 1, 9, 1, 1]] : List (List ℚ)).map fun l =>
      Spec.staLta .centred (StaLta.Transform.energy.apply (l.map fun v : ℚ => (v : ℝ))) 1 1 j ^ 2).sum /
        (([[1, 1, 1, 1, 1, 9, 1, 1]] : List (List ℚ)).length : ℝ)))) =
      max (2 / 5) (([1, 1, 1, 1, 1, 81, 1, 1] : List ℝ).getD (j + 1) 0 / ([1, 1, 1, 1, 1, 81, 1, 1] : List ℝ).getD j 0) := by
    intro j hj
    have : j = 0 ∨ j = 1 ∨ j = 2 ∨ j = 3 ∨ j = 4 ∨ j = 5 ∨ j = 6 := by omega
    rcases this with rfl | rfl | rfl | rfl | rfl | rfl | rfl <;>
      simp [Spec.staLta, Spec.centred, Spec.winMean, Spec.winSum, StaLta.Transform.apply] <;> norm_num
  exact hcase (i + node) (by omega)

theorem pulse_origin (x : Trig) (hx : x.time = 3) : Spec.OriginAt pulseScan (fun _ _ n => n) 1 1 (0, 2) x 3 := by
  refine ⟨pulseOut, fun _ => pulseData.waveforms, ?_⟩
  rw [pulse_window x hx]
  refine ⟨pulse_read, pulse_goodWindow.processed, ?_, fun m => if m = 2 ∨ m = 3 then 81 else 1, ?_, 2, by norm_num, ?_, ?_, ?_⟩
  · rw [pulse_data]
    show Spec.available plainCfg (exExt 1) pulseData (fun _ => pulseData.waveforms) ≠ []
    rw [pulse_available]
    simp
  · intro m hm
    rw [pulse_data, pulse_first]
    have h0 := pulse_value 0 (1 + m) (by omega)
    have h1 := pulse_value 1 (1 + m) (by omega)
    have hc : stepGrid.count 0 * stepGrid.count 1 * stepGrid.count 2 = 2 := by decide
    have : m = 0 ∨ m = 1 ∨ m = 2 ∨ m = 3 ∨ m = 4 := by omega
    have key : ∀ f : ℕ → ℝ, ∀ c : ℝ, (c = f 0 ∧ f 1 ≤ c) ∨ (c = f 1 ∧ f 0 ≤ c) → Spec.IsGridPeak stepGrid f c := by
      intro f c h
      unfold Spec.IsGridPeak
      rw [hc]
      have h2 : ∀ n < 2, n = 0 ∨ n = 1 := fun n hn => by omega
      rcases h with ⟨h, h'⟩ | ⟨h, h'⟩
      · refine ⟨⟨0, by norm_num, h⟩, fun n hn => ?_⟩
        rcases h2 n hn with rfl | rfl
        · exact h.ge
        · exact h'
      · refine ⟨⟨1, by norm_num, h⟩, fun n hn => ?_⟩
        rcases h2 n hn with rfl | rfl
        · exact h'
        · exact h.ge
    show Spec.IsGridPeak stepGrid (fun node => Spec.waveCoalescence plainCfg 1 (exExt 1) pulseData (fun _ => pulseData.waveforms)
      (fun _ _ n => n) node (1 + m)) _
    apply key
    simp only [h0, h1]
    rcases this with rfl | rfl | rfl | rfl | rfl <;> norm_num
  · rw [hx]; norm_num [pulseScan, exScan]
  · intro m' hm'
    show ((⌊(if m' = 2 ∨ m' = 3 then 81 else 1 : ℝ)⌋ : ℤ) : ℚ) ≤ ((⌊(if 2 = 2 ∨ 2 = 3 then 81 else 1 : ℝ)⌋ : ℤ) : ℚ)
    rw [if_pos (Or.inl rfl : 2 = 2 ∨ 2 = 3)]
    split_ifs <;> norm_num
  · intro m' hm'
    show ((⌊(if m' = 2 ∨ m' = 3 then 81 else 1 : ℝ)⌋ : ℤ) : ℚ) < ((⌊(if 2 = 2 ∨ 2 = 3 then 81 else 1 : ℝ)⌋ : ℤ) : ℚ)
    rw [if_neg (by omega), if_pos (by norm_num)]
    norm_num

/-- The event triggered at 3 s is located at 3 s. -/
theorem pulse_locate (x : Trig) (hx : x.time = 3) :
    (pulseScan.locate 1 none none (some 5) (fun _ => .fine) [x]).completed = true ∧
    (x, 3) ∈ (pulseScan.locate 1 none none (some 5) (fun _ => .fine) [x]).written := by
  have hz : ∀ z : ℤ, (1 : ℚ) * ((1 : ℕ) : ℚ) ≠ z + 1 / 2 := by
    intro z hz
    have : ((2 * z + 1 : ℤ) : ℚ) = ((2 : ℤ) : ℚ) := by push_cast at hz ⊢; linarith
    have := Int.cast_injective this
    omega
  obtain ⟨h1, -, h2⟩ := C174_located_partial pulseScan (fun _ _ n => n) pulse_good 1 1 (by norm_num [pulseScan, exScan]) one_pos
    (by rw [pulse_pads]; exact hz) none none (some 5) (0, 2) pulse_extra.symm (fun _ => .fine) [x] (by
      intro y hy
      obtain rfl := List.mem_singleton.1 hy
      refine ⟨rfl, ⟨3, by rw [hx]; norm_num [pulseScan, exScan]⟩, fun o ho => ?_⟩
      rw [pulse_window y hx] at ho ⊢
      rw [pulse_read] at ho
      exact ⟨_, Except.ok.inj ho ▸ pulse_goodWindow⟩)
  exact ⟨h1, (h2 x 3).2 ⟨by simp, pulse_origin x hx, by rw [hx]; norm_num⟩⟩

theorem pulse_located (x : Trig) (hx : x.time = 3) :
    (x, 3) ∈ (pulseScan.locate 1 none none (some 5) (fun _ => .fine) [x]).written := (pulse_locate x hx).2

end WaveLocate

end QM
