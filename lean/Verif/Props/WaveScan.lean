import Verif.Model.WaveScan
import Verif.Props.OnsetValue
import Verif.Props.ComputeStep

/-!
# What a scan computes from the waveforms of a window: C169
-/

namespace QM

open QM.CalcOnsets
open QM.Data (Str Trace Sane)
open QM.Compute (Lut lookup maxTraveltime)
open QM.Migrate QM.Pads

/-! ## Specification -/

open Classical in
/-- The pairs of a station and a phase that are available, phase by phase and in the order of the stations; `st p` is
the pre-processed data for a phase. -/
noncomputable def Spec.available (c : Cfg) (x : Ext) (d : CalcOnsets.Data) (st : Str → List Trace) : List (Str × Str) :=
  c.phases.flatMap fun p => (d.stations.filter fun s =>
    Spec.Available (Spec.criteria c p) d.start d.stop (Spec.ofStation x s (st p))).map fun s => (s, p)

/-- Sample `k` of a window, from the traces of one channel: the sample a trace has at this time, with the weight of the
taper, or the fill value when no trace has one. -/
def Spec.filledAt (x : Ext) (start rate : ℚ) (ts : List Trace) (k : ℕ) : ℚ :=
  (ts.findSome? fun t => t.data.zipIdx.findSome? fun vj =>
    if t.start + vj.2 / rate = start + k / rate then some (x.weight t.data.length vj.2 * vj.1) else none).getD x.fill

/-- The recording of a channel from the start to the end of a window, gaps filled. -/
def Spec.filled (c : Cfg) (x : Ext) (d : CalcOnsets.Data) (ts : List Trace) : List ℚ :=
  (List.range (⌊(d.stop - d.start) * c.sr⌋.toNat + 1)).map (Spec.filledAt x d.start c.sr ts)

/-- The pre-processed data of a station used for a phase: those of the channels that meet the criteria, as they are; with
`allow_gaps` or without `full_timespan`, one filled recording for each of these channels. -/
noncomputable def Spec.records (c : Cfg) (x : Ext) (d : CalcOnsets.Data) (st : Str → List Trace) (s p : Str) :
    List (List ℚ) :=
  let used := Spec.passing (Spec.criteria c p) d.start d.stop (Spec.ofStation x s (st p))
  if c.allowGaps = true ∨ c.fullTimespan = false then
    (used.map Trace.id).dedup.map fun i => Spec.filled c x d (used.filter fun t => t.id = i)
  else used.map fun t => t.data

/-- What is asked when gaps are filled: the window is a whole number of samples, at less than 100 kHz, and the traces used
lie on these samples without overlap. -/
def Spec.OnGrid (c : Cfg) (rate : ℕ) (x : Ext) (d : CalcOnsets.Data) (st : Str → List Trace) : Prop :=
  c.allowGaps = true ∨ c.fullTimespan = false → rate < 100000 ∧ ∃ N : ℕ, d.stop = d.start + ((N : ℚ) - 1) / rate ∧
    ∀ s p, (s, p) ∈ Spec.available c x d st → ∃ first : Trace → ℕ,
      ∀ i, ∃ q, q.Perm ((Spec.passing (Spec.criteria c p) d.start d.stop (Spec.ofStation x s (st p))).filter
        fun t => t.id = i) ∧ Spec.OnWindow d.start rate N first q

/-- Coalescence of a grid node, counted from sample `i` of the window: the geometric mean, over the available pairs, of
the root-mean-square STA/LTA of the records of the pair, floored at `min_onset_value` and 0.01, at the sample at which a
wave that leaves the node at `i` arrives. -/
noncomputable def Spec.waveCoalescence (c : Cfg) (rate : ℕ) (x : Ext) (d : CalcOnsets.Data) (st : Str → List Trace)
    (tt : Str → Str → ℕ → ℚ) (node i : ℕ) : ℝ :=
  ((Spec.available c x d st).map fun sp => max (1 / 100) (Spec.onsetAt c rate sp.2 (Spec.records c x d st sp.1 sp.2)
    (i + (pyRound (tt sp.1 sp.2 node * rate)).toNat))).prod ^ (1 / ((Spec.available c x d st).length : ℝ))

/-- What is asked of the lookup table: it has the nodes of the grid, and traveltimes for every available pair. -/
structure Spec.TableFor (L : Lut) (g : Grid.Grid) (c : Cfg) (stations : List Str) (pairs : List (Str × Str)) (ttmax : ℚ)
    (tt : Str → Str → ℕ → ℚ) : Prop where
  nodes : L.nNodes = g.count 0 * g.count 1 * g.count 2
  pos : 0 < L.nNodes
  longest : maxTraveltime L = some ttmax
  ttpos : 0 ≤ ttmax
  phLut : ∀ p ∈ c.phases, p ∈ L.phases
  stLut : ∀ s ∈ stations, s ∈ L.stations
  table : ∀ sp ∈ pairs, lookup L sp.1 sp.2 = .ok (tt sp.1 sp.2)

namespace WaveScan

theorem sum_avail (c : Cfg) (x : Ext) (d : CalcOnsets.Data) (l : List (Str × Str)) :
    ((l.map fun sp => (Compute.key sp.1 sp.2, avNum c x d sp.1 sp.2)).map Prod.snd).sum ≠ 0 →
      ∃ sp ∈ l, avNum c x d sp.1 sp.2 = 1 := by
  intro h
  by_contra hc
  push Not at hc
  apply h
  apply List.sum_eq_zero
  intro v hv
  simp only [List.map_map, List.mem_map, Function.comp_apply] at hv
  obtain ⟨sp, hsp, rfl⟩ := hv
  have h1 := hc sp hsp
  have h2 := avNum_le c x d sp.1 sp.2
  omega

/-- The onset function of a pair, as the C code reads it. -/
noncomputable def val (c : Cfg) (x : Ext) (d : CalcOnsets.Data) (s p : Str) (j : ℕ) : ℝ :=
  ((lab c x d s p).2[j]?.getD none).getD 0

theorem pairs_eq (c : Cfg) (x : Ext) (d : CalcOnsets.Data) :
    ((Compute.allPairs c.phases d.stations).filter fun sp => avNum c x d sp.1 sp.2 ≠ 0) =
      Spec.migratedPairs c.phases d.stations (avNum c x d) := by
  rw [migratedPairs_eq]
  apply List.filter_congr
  intro sp _
  have := avNum_le c x d sp.1 sp.2
  by_cases h : avNum c x d sp.1 sp.2 = 1
  · simp [h]
  · have : avNum c x d sp.1 sp.2 = 0 := by omega
    simp [this]

/-- The scan from waveforms is the scan from the onset functions computed for them. -/
theorem compute_ok {c : Cfg} {x : Ext} {d : CalcOnsets.Data} (hn : Spec.PlainNames c.phases d.stations) {rate : ℕ}
    (hrate : c.sr = rate) {o : CalcOnsets.Out} (h : calculateOnsets c x d = .ok o)
    (hfin : ∀ s p f, ((s, p), f) ∈ o.onsets → ∀ v ∈ f, v.isSome) {cols : ℕ}
    (hcols : ∀ s p f, ((s, p), f) ∈ o.onsets → f.length = cols)
    {L : Lut} {g : Grid.Grid} {pads : ℚ × ℚ} {sched : List (ℕ × Op)} {sched' : List (ℕ × FOp)} {out : List ComputeStep.Out}
    (hout : ComputeStep.compute L g rate pads c.phases d.stations (avNum c x d) (val c x d) cols sched sched' = .ok out) :
    WaveScan.compute c x L g pads sched sched' d = .ok out := by
  obtain ⟨-, ho, h0, -⟩ := (calculateOnsets_iff c x d o).1 h
  have hav : o.availability = (Compute.allPairs c.phases d.stations).map fun sp =>
      (Compute.key sp.1 sp.2, avNum c x d sp.1 sp.2) := by rw [ho, final_availability c x d hn]
  have hons : o.onsets = (Spec.migratedPairs c.phases d.stations (avNum c x d)).map fun sp => lab c x d sp.1 sp.2 := by
    rw [ho, final_onsets, pairs_eq]
  have hrows : rows o = (Spec.migratedPairs c.phases d.stations (avNum c x d)).map fun sp => val c x d sp.1 sp.2 := by
    unfold rows
    rw [hons, List.map_map]
    rfl
  have hsum : (o.availability.map Prod.snd).sum =
      ((Compute.allPairs c.phases d.stations).map fun sp => avNum c x d sp.1 sp.2).sum := by
    rw [hav, List.map_map]; rfl
  have hne : o.onsets ≠ [] := by
    rw [hons]
    obtain ⟨sp, hsp, h1⟩ := sum_avail c x d _ (by rw [← hav]; exact h0)
    intro hnil
    have : sp ∈ Spec.migratedPairs c.phases d.stations (avNum c x d) := by
      rw [migratedPairs_eq]; simp [hsp, h1]
    rw [List.map_eq_nil_iff] at hnil
    rw [hnil] at this
    simp at this
  have hc : ((o.onsets.map Prod.snd).headD []).length = cols := by
    obtain ⟨⟨⟨s, p⟩, f⟩, rest, hr⟩ := List.exists_cons_of_ne_nil hne
    rw [hr]
    simp only [List.map_cons, List.headD_cons]
    exact hcols s p f (by rw [hr]; simp)
  have hall : o.onsets.all (fun r => r.2.all Option.isSome) = true := by
    rw [List.all_eq_true]
    rintro ⟨⟨s, p⟩, f⟩ hr
    rw [List.all_eq_true]
    exact hfin s p f hr
  unfold ComputeStep.compute Compute.migrateInput at hout
  rw [Compute.calculateOnsets_eq hn.phases hn.stations hn.phase hn.station, if_neg (by rw [← hsum]; exact h0)] at hout
  simp only at hout
  rw [← hav, pairs_eq, ← hrows, ← hrate] at hout
  unfold WaveScan.compute
  rw [h]
  simp only
  rw [hc]
  cases ht : Compute.serveTraveltimes L c.sr o.availability with
  | error e => rw [ht] at hout; simp at hout
  | ok tts =>
    rw [ht] at hout
    simp only at hout ⊢
    rw [if_pos hall]
    revert hout
    cases migrate (⟨(rows o).length, cols, fun k j => ((rows o)[k]?.getD (fun _ => 0)) j⟩)
        (⟨L.nNodes, tts.length, fun node k => (tts[k]?.getD (fun _ => 0)) node⟩)
        (time2sample pads.1 c.sr).toNat (time2sample pads.2 c.sr).toNat (o.availability.map Prod.snd).sum sched with
    | error e => intro hout; simp at hout
    | ok m =>
      simp only
      cases findMaxCoa ⟨L.nNodes, cols - (time2sample pads.1 c.sr).toNat - (time2sample pads.2 c.sr).toNat, m⟩ sched' with
      | none => intro hout; simp at hout
      | some r =>
        simp only
        cases ComputeStep.coords g r
            (List.range (cols - (time2sample pads.1 c.sr).toNat - (time2sample pads.2 c.sr).toNat)) with
        | error e => intro hout; simp at hout
        | ok l => intro hout; simpa using hout

theorem avail_iff {c : Cfg} (hsr : c.sr ≠ 0) (hcount : c.allChannels = true → ∀ p ∈ c.phases, c.count p ≠ 0) {x : Ext}
    {d : CalcOnsets.Data} {st : Str → List Trace} (hst : ∀ p ∈ c.phases, preStream c x d p = .ok (st p))
    (hs : ∀ p ∈ c.phases, ∀ t ∈ st p, Sane t) {o : CalcOnsets.Out} (h : calculateOnsets c x d = .ok o) :
    ∀ p ∈ c.phases, ∀ s ∈ d.stations, (avNum c x d s p = 1 ↔
      Spec.Available (Spec.criteria c p) d.start d.stop (Spec.ofStation x s (st p))) := by
  intro p hp s hsm
  obtain ⟨hf, -, -, -⟩ := (calculateOnsets_iff c x d o).1 h
  obtain ⟨l, hl, hss⟩ := hf p hp
  rw [hst p hp] at hl
  injection hl with hl
  subst hl
  obtain ⟨r, hr⟩ := hss s hsm
  have e : res c x d s p = r := by unfold res; rw [hst p hp]; simp only; rw [hr]
  have := (OnsetValue.stationPhase_spec c hsr x d p (fun ha => hcount ha p hp) (st p) (hs p hp) s r hr).1
  rw [← this, ← e]
  unfold avNum
  cases (res c x d s p).isSome <;> simp

theorem available_eq {c : Cfg} {x : Ext} {d : CalcOnsets.Data} {st : Str → List Trace}
    (h : ∀ p ∈ c.phases, ∀ s ∈ d.stations, (avNum c x d s p = 1 ↔
      Spec.Available (Spec.criteria c p) d.start d.stop (Spec.ofStation x s (st p)))) :
    Spec.migratedPairs c.phases d.stations (avNum c x d) = Spec.available c x d st := by
  classical
  unfold Spec.migratedPairs Spec.available
  have : ∀ l : List Str, (∀ p ∈ l, p ∈ c.phases) →
      (l.flatMap fun p => (d.stations.filter fun s => decide (avNum c x d s p = 1)).map fun s => (s, p)) =
      l.flatMap fun p => (d.stations.filter fun s =>
        decide (Spec.Available (Spec.criteria c p) d.start d.stop (Spec.ofStation x s (st p)))).map fun s => (s, p) := by
    intro l hl
    induction l with
    | nil => rfl
    | cons p l ih =>
      rw [List.flatMap_cons, List.flatMap_cons, ih fun q hq => hl q (by simp [hq])]
      congr 2
      apply List.filter_congr
      intro s hs
      simp only [h p (hl p (by simp)) s hs]
  simpa using this c.phases fun _ h => h

theorem mem_available {c : Cfg} {x : Ext} {d : CalcOnsets.Data} {st : Str → List Trace} {s p : Str} :
    (s, p) ∈ Spec.available c x d st ↔ p ∈ c.phases ∧ s ∈ d.stations ∧
      Spec.Available (Spec.criteria c p) d.start d.stop (Spec.ofStation x s (st p)) := by
  classical
  unfold Spec.available
  simp only [List.mem_flatMap, List.mem_map, List.mem_filter, decide_eq_true_eq, Prod.mk.injEq]
  constructor
  · rintro ⟨q, hq, t, ⟨ht, hA⟩, rfl, rfl⟩
    exact ⟨hq, ht, hA⟩
  · rintro ⟨hq, ht, hA⟩
    exact ⟨p, hq, s, ⟨ht, hA⟩, rfl, rfl⟩

theorem span_of_passing {c : Cfg} (hfull : c.fullTimespan = true) {rate : ℕ} (hrate : c.sr = rate) {p : Str} {a b : ℚ}
    {W : List Trace} {t : Trace} (htm : t ∈ Spec.passing (Spec.criteria c p) a b W) :
    (b - a) * rate + 1 ≤ (t.data.length : ℚ) := by
  unfold Spec.passing at htm
  rw [List.mem_filter] at htm
  have hok : Spec.Passes (Spec.criteria c p) a b W t := by simpa using htm.2
  have hmem : t ∈ W.filter fun u => u.id = t.id := by
    rw [List.mem_filter]; exact ⟨htm.1, by simp⟩
  obtain ⟨t', h1, h2⟩ := hok.span hfull
  have htt : t = t' := by rw [h1] at hmem; simpa using hmem
  have hrt : t.rate = rate := by rw [hok.rate rfl t hmem]; exact hrate
  rw [← htt, hrt] at h2
  exact h2

theorem pyRound_le (q : ℚ) : (pyRound q : ℚ) ≤ q + 1 / 2 := by
  rcases pyRound_cases q with ⟨h, h1⟩ | ⟨h, h1⟩
  · rw [h]
    have := Int.floor_le q
    linarith
  · rw [h]
    push_cast
    linarith

/-- The recording that the gap filling makes of a channel. -/
theorem filledAt_eq {x : Ext} {start : ℚ} {rate N : ℕ} (hr0 : 0 < rate) {first : Trace → ℕ} {ts : List Trace} {v : List ℚ}
    (hs : ∀ t ∈ ts, t.start = start + first t / rate) (hin : ∀ t ∈ ts, first t + t.data.length ≤ N)
    (h1 : ∀ t ∈ ts, ∀ j a, t.data[j]? = some a → v[first t + j]? = some (x.weight t.data.length j * a))
    (h2 : ∀ k < N, (∀ t ∈ ts, ∀ j < t.data.length, k ≠ first t + j) → v[k]? = some x.fill) {k : ℕ} (hk : k < N) :
    v[k]? = some (Spec.filledAt x start rate ts k) := by
  have hrq : (0 : ℚ) < rate := by exact_mod_cast hr0
  have htime : ∀ t ∈ ts, ∀ j : ℕ, t.start + (j : ℚ) / rate = start + k / rate ↔ k = first t + j := by
    intro t ht j
    rw [hs t ht, add_assoc, ← add_div, add_right_inj, div_left_inj' hrq.ne']
    constructor
    · intro h
      have : first t + j = k := by exact_mod_cast h
      omega
    · rintro rfl
      push_cast
      ring
  unfold Spec.filledAt
  cases hf : ts.findSome? fun t => t.data.zipIdx.findSome? fun vj =>
      if t.start + vj.2 / rate = start + k / rate then some (x.weight t.data.length vj.2 * vj.1) else none with
  | none =>
    rw [Option.getD_none]
    refine h2 k hk ?_
    intro t ht j hj hkj
    rw [List.findSome?_eq_none_iff] at hf
    have := hf t ht
    rw [List.findSome?_eq_none_iff] at this
    have := this (t.data[j], j) (by rw [List.mem_zipIdx_iff_getElem?]; exact List.getElem?_eq_getElem hj)
    simp only at this
    rw [if_pos ((htime t ht j).2 hkj)] at this
    simp at this
  | some b =>
    rw [Option.getD_some]
    obtain ⟨t, ht, hb⟩ := List.exists_of_findSome?_eq_some hf
    obtain ⟨⟨a, j⟩, haj, hb⟩ := List.exists_of_findSome?_eq_some hb
    rw [List.mem_zipIdx_iff_getElem?] at haj
    simp only at haj hb
    split at hb
    · rename_i hc
      rw [(htime t ht j).1 hc, h1 t ht j a haj, ← hb]
    · simp at hb

/-- What the gap filling gives. -/
theorem rows_filled {c : Cfg} {rate : ℕ} (hrate : c.sr = rate) (hr0 : 0 < rate) (hr5 : rate < 100000) {x : Ext}
    {d : CalcOnsets.Data} (hopt : c.allowGaps = true ∨ c.fullTimespan = false) {W : List Trace} {N : ℕ}
    (hstop : d.stop = d.start + ((N : ℚ) - 1) / rate) {first : Trace → ℕ}
    (hon : ∀ i, ∃ q, q.Perm (W.filter fun t => t.id = i) ∧ Spec.OnWindow d.start rate N first q) :
    CalcOnsets.rows c x d W =
      (QM.Data.ids W).map (fun i => (i, Spec.filled c x d (W.filter fun t => t.id = i))) ∧
    ∀ i ∈ W.map Trace.id, (Spec.filled c x d (W.filter fun t => t.id = i)).length = N := by
  have hrq : (0 : ℚ) < rate := by exact_mod_cast hr0
  have hrec : ∀ i ∈ W.map Trace.id,
      GapFill.prepare c.allowGaps c.fullTimespan x.weight x.fill d.start d.stop (W.filter fun t => t.id = i) =
        [Spec.filled c x d (W.filter fun t => t.id = i)] ∧
      (Spec.filled c x d (W.filter fun t => t.id = i)).length = N := by
    intro i hi
    obtain ⟨q, hq, hqw⟩ := hon i
    obtain ⟨t, ht, rfl⟩ := List.mem_map.mp hi
    have hm : t ∈ W.filter fun u => u.id = t.id := List.mem_filter.mpr ⟨ht, by simp⟩
    have hqne : q ≠ [] := by
      rintro rfl
      rw [List.nil_perm.mp hq] at hm
      simp at hm
    have hN : 0 < N := by
      have h1 := hqw.inside t (hq.symm.subset hm)
      have h2 := List.length_pos_iff.2 (hqw.nonempty t (hq.symm.subset hm))
      omega
    have hcount : ⌊(d.stop - d.start) * c.sr⌋.toNat + 1 = N := by
      have : (d.stop - d.start) * c.sr = ((N - 1 : ℕ) : ℚ) := by
        rw [hstop, hrate, Nat.cast_sub hN]
        field_simp
        push_cast
        ring
      rw [this, Int.floor_natCast]
      omega
    obtain ⟨v, h0, hl, h1, h2⟩ := C125_filled d.start rate x.fill hrq (by exact_mod_cast hr5) N first q
      (W.filter fun u => u.id = t.id) hqne hqw hq x.weight c.allowGaps c.fullTimespan hopt
    rw [← hstop] at h0
    have hv : v = Spec.filled c x d (W.filter fun u => u.id = t.id) := by
      apply List.ext_getElem?
      intro k
      unfold Spec.filled
      rw [hcount, List.getElem?_map, hrate]
      by_cases hk : k < N
      · rw [List.getElem?_range hk, Option.map_some]
        exact filledAt_eq hr0 (fun u hu => hqw.start_eq u (hq.symm.subset hu)) (fun u hu => hqw.inside u (hq.symm.subset hu))
          h1 h2 hk
      · rw [List.getElem?_eq_none (by omega), List.getElem?_eq_none (by simpa using hk)]
        rfl
    rw [← hv]
    exact ⟨h0, hl⟩
  refine ⟨?_, fun i hi => (hrec i hi).2⟩
  unfold CalcOnsets.rows
  rw [if_pos (by rcases hopt with h | h <;> simp [h])]
  have : ∀ l : List Str, (∀ i ∈ l, i ∈ W.map Trace.id) → (l.flatMap fun i =>
      (GapFill.prepare c.allowGaps c.fullTimespan x.weight x.fill d.start d.stop
        (W.filter fun t => t.id = i)).map fun r => (i, r)) =
      l.map fun i => (i, Spec.filled c x d (W.filter fun t => t.id = i)) := by
    intro l hl
    induction l with
    | nil => rfl
    | cons i l ih =>
      rw [List.flatMap_cons, ih fun j hj => hl j (by simp [hj]), (hrec i (hl i (by simp))).1]
      rfl
  exact this _ fun i hi => by rw [mem_ids] at hi; exact List.mem_map.mpr hi

/-- The data used for an available pair are those of the specification. -/
theorem rows_records {c : Cfg} {rate : ℕ} (hrate : c.sr = rate) (hr0 : 0 < rate)
    (hcount : c.allChannels = true → ∀ p ∈ c.phases, c.count p ≠ 0) {x : Ext} {d : CalcOnsets.Data} {st : Str → List Trace}
    (hgrid : Spec.OnGrid c rate x d st) {s p : Str} (h : (s, p) ∈ Spec.available c x d st) :
    ((CalcOnsets.rows c x d (Spec.passing (Spec.criteria c p) d.start d.stop (Spec.ofStation x s (st p)))).map
      Prod.snd).Perm (Spec.records c x d st s p) ∧ Spec.records c x d st s p ≠ [] ∧
    ∀ cols, (∀ l ∈ Spec.records c x d st s p, l.length = cols) → (d.stop - d.start) * rate + 1 ≤ (cols : ℚ) := by
  have hrq : (0 : ℚ) < rate := by exact_mod_cast hr0
  obtain ⟨hp, hsm, hav⟩ := mem_available.1 h
  have hne := OnsetValue.passing_ne_nil (fun ha => hcount ha p hp) hav
  obtain ⟨t, W', ht⟩ := List.exists_cons_of_ne_nil hne
  have htm : t ∈ Spec.passing (Spec.criteria c p) d.start d.stop (Spec.ofStation x s (st p)) := by rw [ht]; simp
  by_cases hopt : c.allowGaps = true ∨ c.fullTimespan = false
  · obtain ⟨hr5, N, hstop, hon⟩ := hgrid hopt
    obtain ⟨first, hon⟩ := hon s p h
    obtain ⟨e1, e2⟩ := rows_filled hrate hr0 hr5 (x := x) hopt hstop hon
    have hti : t.id ∈ (Spec.passing (Spec.criteria c p) d.start d.stop (Spec.ofStation x s (st p))).map Trace.id :=
      List.mem_map.mpr ⟨t, htm, rfl⟩
    unfold Spec.records
    simp only
    rw [if_pos hopt, e1, List.map_map]
    refine ⟨?_, ?_, ?_⟩
    · exact (List.perm_insertionSort _ _).map _
    · intro h0
      rw [List.map_eq_nil_iff] at h0
      have := List.mem_dedup.2 hti
      rw [h0] at this
      simp at this
    · intro cols hc
      have := hc _ (List.mem_map.mpr ⟨t.id, List.mem_dedup.2 hti, rfl⟩)
      rw [e2 t.id hti] at this
      rw [← this, hstop]
      apply le_of_eq
      field_simp
      ring
  · have hgap : c.allowGaps = false := by
      by_contra hc; exact hopt (Or.inl (by simpa using hc))
    have hfull : c.fullTimespan = true := by
      by_contra hc; exact hopt (Or.inr (by simpa using hc))
    unfold Spec.records
    simp only
    rw [if_neg hopt, OnsetValue.rows_plain hgap hfull, List.map_map]
    refine ⟨List.Perm.refl _, by simpa using hne, ?_⟩
    intro cols hc
    rw [← hc _ (List.mem_map.mpr ⟨t, htm, rfl⟩)]
    exact span_of_passing hfull hrate htm

theorem coalescence_eq (c : Cfg) (rate : ℕ) (x : Ext) (d : CalcOnsets.Data) (st : Str → List Trace)
    (tt : Str → Str → ℕ → ℚ) (node first m : ℕ) :
    Spec.coalescence (Spec.available c x d st)
      (fun s p t => Spec.onsetAt c rate p (Spec.records c x d st s p) t.toNat)
      (fun s p node => pyRound (tt s p node * rate)) node (first + m) =
    Spec.waveCoalescence c rate x d st tt node (first + m) := by
  unfold Spec.coalescence Spec.waveCoalescence
  have : ∀ sp : Str × Str, ((first : ℤ) + m + max 0 (pyRound (tt sp.1 sp.2 node * rate))).toNat =
      first + m + (pyRound (tt sp.1 sp.2 node * rate)).toNat := by
    intro sp
    generalize pyRound (tt sp.1 sp.2 node * rate) = z
    omega
  simp only [this]

/-- The value, given that the onset functions are there. -/
theorem value_of_onsets (c : Cfg) (rate : ℕ) (hrate : c.sr = rate) (hr0 : 0 < rate)
    (hcount : c.allChannels = true → ∀ p ∈ c.phases, c.count p ≠ 0)
    (hw : ∀ p ∈ c.phases, 0 ≤ c.sta p ∧ c.sta p ≤ c.lta p) (hT : ∀ v, (c.transform.apply v).length = v.length) (x : Ext)
    (d : CalcOnsets.Data) (hn : Spec.PlainNames c.phases d.stations) (st : Str → List Trace)
    (hgrid : Spec.OnGrid c rate x d st)
    (hst : ∀ p ∈ c.phases, preStream c x d p = .ok (st p)) (hs : ∀ p ∈ c.phases, ∀ t ∈ st p, Sane t)
    (o : CalcOnsets.Out) (h : calculateOnsets c x d = .ok o)
    (hsilent : ∀ s p, (s, p) ∈ Spec.available c x d st → ∀ l ∈ Spec.records c x d st s p,
      Spec.NeverSilent c (Spec.samples (c.lta p) rate) l)
    (cols : ℕ) (hcols : ∀ s p, (s, p) ∈ Spec.available c x d st → ∀ l ∈ Spec.records c x d st s p, l.length = cols)
    (L : Lut) (g : Grid.Grid) (ttmax : ℚ) (tt : Str → Str → ℕ → ℚ)
    (hL : Spec.TableFor L g c d.stations (Spec.available c x d st) ttmax tt)
    (w : Windows) (hwin : w.Nonneg) (ts : ℚ) (hts : 0 ≤ ts) (pads : ℚ × ℚ) (hpads : pads = scanPads w ttmax rate ts)
    (hspan : d.start + pads.1 + pads.2 ≤ d.stop) (first last : ℕ) (hfirst : (first : ℤ) = pyRound (pads.1 * rate))
    (hlast : (last : ℤ) = pyRound (pads.2 * rate))
    (h32 : (Spec.available c x d st).length * cols ≤ 2 ^ 31) (sched : List (ℕ × Op)) (sched' : List (ℕ × FOp))
    (hsch : Spec.Schedules (Spec.available c x d st).length cols L.nNodes first last sched sched') :
    first + last ≤ cols ∧ ∃ out, WaveScan.compute c x L g pads sched sched' d = .ok out ∧
      out.length = cols - first - last ∧
      ∀ m < cols - first - last, ∃ r, out[m]? = some r ∧
        Spec.ReportsPeak g (fun node => Spec.waveCoalescence c rate x d st tt node (first + m)) r := by
  have hsr : c.sr ≠ 0 := by rw [hrate]; exact_mod_cast hr0.ne'
  have hrq : (0 : ℚ) < rate := by exact_mod_cast hr0
  have hai := avail_iff hsr hcount hst hs h
  have hpairs := available_eq hai
  obtain ⟨hfine, ho, h0, -⟩ := (calculateOnsets_iff c x d o).1 h
  -- lengths and values of the onset functions
  have hval : ∀ s p f, ((s, p), f) ∈ o.onsets → f.length = cols ∧ ∀ i < cols,
      f[i]? = some (some (Spec.onsetAt c rate p (Spec.records c x d st s p) i)) := by
    intro s p f hf
    have hin : (s, p) ∈ Spec.available c x d st := by
      have := ((C165_which c hsr hcount x d hn st hst hs o h).2.1 s p).1 (List.mem_map.mpr ⟨_, hf, rfl⟩)
      exact mem_available.2 this
    obtain ⟨k1, k2, -⟩ := rows_records hrate hr0 hcount hgrid hin
    have hf' := hf
    rw [ho] at hf'
    obtain ⟨hp, hsm, rs, hr⟩ := (mem_final_onsets c x d s p f).1 hf'
    obtain ⟨l, hl, hss⟩ := hfine p hp
    rw [hst p hp] at hl
    injection hl with hl
    subst hl
    obtain ⟨r, hsp⟩ := hss s hsm
    have e : res c x d s p = r := by unfold res; rw [hst p hp]; simp only; rw [hsp]
    rw [hr] at e
    obtain ⟨q3, q4⟩ := (OnsetValue.stationPhase_spec c hsr x d p (fun ha => hcount ha p hp) (st p) (hs p hp) s r hsp).2
      rs f e.symm
    rw [← q3] at k1
    have hrs : rs ≠ [] := by
      rintro rfl
      exact k2 (List.nil_perm.mp k1)
    obtain ⟨v1, v2⟩ := OnsetValue.onset_value hrate (hw p hp).1 (hw p hp).2 hT hrs q4
    have hmem : ∀ r ∈ rs, r.2 ∈ Spec.records c x d st s p := fun r hr => k1.subset (List.mem_map.mpr ⟨r, hr, rfl⟩)
    have hfl : f.length = cols := by
      obtain ⟨r, rs', rfl⟩ := List.exists_cons_of_ne_nil hrs
      rw [← v1 r (by simp)]
      exact hcols s p hin _ (hmem r (by simp))
    refine ⟨hfl, ?_⟩
    have := v2 fun r hr => hsilent s p hin _ (hmem r hr)
    intro i hi
    rw [this, List.getElem?_map, List.getElem?_range (by omega), Option.map_some, OnsetValue.onsetAt_perm c rate p k1]
  -- some pair is available
  obtain ⟨⟨s0, p0⟩, hsp0, h1⟩ := sum_avail c x d (Compute.allPairs c.phases d.stations) (by
    rw [ho, final_availability c x d hn] at h0; exact h0)
  have hs0 : s0 ∈ d.stations ∧ p0 ∈ c.phases := by
    simp only [Compute.allPairs, List.mem_flatMap, List.mem_map] at hsp0
    obtain ⟨p, hp, s, hs, he⟩ := hsp0
    cases he
    exact ⟨hs, hp⟩
  have hav0 := (hai p0 hs0.2 s0 hs0.1).1 h1
  -- the window holds the pads
  have hlen : first + last ≤ cols := by
    have hin := mem_available.2 ⟨hs0.2, hs0.1, hav0⟩
    have h2 := (rows_records hrate hr0 hcount hgrid hin).2.2 cols (hcols s0 p0 hin)
    have hp : (pads.1 + pads.2) * rate ≤ (d.stop - d.start) * rate :=
      mul_le_mul_of_nonneg_right (by linarith) hrq.le
    have e1 := pyRound_le (pads.1 * rate)
    have e2 := pyRound_le (pads.2 * rate)
    rw [← hfirst] at e1
    rw [← hlast] at e2
    push_cast at e1 e2
    have : (first : ℚ) + last ≤ cols := by linarith
    exact_mod_cast this
  refine ⟨hlen, ?_⟩
  have hS : Spec.ScanSetup L g w ttmax rate c.phases d.stations (avNum c x d) tt :=
    { nodes := hL.nodes, pos := hL.pos, win := hwin, longest := hL.longest, ttpos := hL.ttpos, rate := hr0
      phNodup := hn.phases, stNodup := hn.stations, phName := hn.phase, stName := hn.station
      phLut := hL.phLut, stLut := hL.stLut, avail := avNum_le c x d
      someAvail := ⟨s0, hs0.1, p0, hs0.2, h1⟩
      table := fun s hs p hp ha => hL.table (s, p) (mem_available.2 ⟨hp, hs, (hai p hp s hs).1 ha⟩) }
  have hf1 : time2sample pads.1 (rate : ℚ) = first := by rw [time2sample_nat, hfirst]
  have hl1 : time2sample pads.2 (rate : ℚ) = last := by rw [time2sample_nat, hlast]
  obtain ⟨out, q1, q2, q3⟩ := compute_value hS ts hts pads hpads first last hf1 hl1 cols hlen (by rw [hpairs]; exact h32)
    (val c x d) (fun s p t => Spec.onsetAt c rate p (Spec.records c x d st s p) t.toNat) 0 (by
      intro sp hsp j hj _ _
      rw [← pairs_eq] at hsp
      have hm : lab c x d sp.1 sp.2 ∈ o.onsets := by
        rw [ho, final_onsets]
        exact List.mem_map.mpr ⟨sp, hsp, rfl⟩
      obtain ⟨k1, k2⟩ := hval sp.1 sp.2 (lab c x d sp.1 sp.2).2 hm
      unfold val
      rw [k2 j hj]
      simp) sched sched' (by rw [hpairs]; exact hsch)
  refine ⟨out, compute_ok hn hrate h ?_ (fun s p f hf => (hval s p f hf).1) q1, q2, ?_⟩
  · intro s p f hf v hv
    obtain ⟨k1, k2⟩ := hval s p f hf
    obtain ⟨i, hi, hvi⟩ := List.getElem_of_mem hv
    have := k2 i (by omega)
    rw [List.getElem?_eq_getElem hi, hvi] at this
    rw [Option.some.inj this]
    rfl
  · intro m hm
    obtain ⟨r, r1, r2⟩ := q3 m hm
    refine ⟨r, r1, ?_⟩
    rw [hpairs] at r2
    have : (fun node => Spec.coalescence (Spec.available c x d st)
        (fun s p t => Spec.onsetAt c rate p (Spec.records c x d st s p) t.toNat)
        (fun s p node => pyRound (tt s p node * rate)) node (0 + first + m)) =
        fun node => Spec.waveCoalescence c rate x d st tt node (first + m) := by
      funext node
      rw [zero_add]
      exact coalescence_eq c rate x d st tt node first m
    rw [this] at r2
    exact r2


/-- The calculation for a station and phase ends. -/
theorem stationPhase_total {c : Cfg} {rate : ℕ} (hrate : c.sr = rate) (hr0 : 0 < rate) {p : Str}
    (hcount : c.allChannels = true → c.count p ≠ 0) (hw : 0 ≤ c.sta p ∧ c.sta p ≤ c.lta p)
    (hT : ∀ v, (c.transform.apply v).length = v.length) {x : Ext} {d : CalcOnsets.Data} {l : List Trace} (hs : ∀ t ∈ l, Sane t) {s : Str} {cols : ℕ}
    (hcols : Spec.Available (Spec.criteria c p) d.start d.stop (Spec.ofStation x s l) →
      ∀ r ∈ CalcOnsets.rows c x d (Spec.passing (Spec.criteria c p) d.start d.stop (Spec.ofStation x s l)),
        r.2.length = cols)
    (hfit : Spec.Available (Spec.criteria c p) d.start d.stop (Spec.ofStation x s l) →
      Spec.samples (c.lta p) rate + Spec.samples (c.sta p) rate ≤ cols) :
    ∃ r, stationPhase c x d p l s = .ok r := by
  have hsr : c.sr ≠ 0 := by rw [hrate]; exact_mod_cast hr0.ne'
  have hs' : ∀ t ∈ Spec.ofStation x s l, Sane t := fun t ht => hs t (List.mem_filter.mp ht).1
  unfold stationPhase
  simp only [OnsetValue.criteria_eq]
  have e : (l.filter fun t => x.ofStation s t.id) = Spec.ofStation x s l := rfl
  rw [e]
  generalize Spec.ofStation x s l = W at hs' hcols hfit ⊢
  by_cases hne : W = []
  · subst hne
    rw [C54_no_data]
    exact ⟨_, rfl⟩
  obtain ⟨a, av, h1, h2, h3, h4, h5⟩ := C54_availability_iff (Spec.criteria c p) d.start d.stop W hne hs'
    (fun _ => hsr) hcount
  rw [h1]
  cases a with
  | false => exact ⟨_, rfl⟩
  | true =>
    have hav : Spec.Available (Spec.criteria c p) d.start d.stop W := h5.1 rfl
    have hcols := hcols hav
    have hfit := hfit hav
    simp only
    rw [OnsetValue.passing_eq h3 h2 h4]
    generalize CalcOnsets.rows c x d (Spec.passing (Spec.criteria c p) d.start d.stop W) = V at hcols
    have hts : ∀ w : ℚ, (Pads.time2sample w c.sr + 1).toNat = Spec.samples w rate := by
      intro w
      unfold Pads.time2sample Spec.samples
      have : pyInt c.sr = rate := by rw [hrate, Pads.pyInt_natCast]
      rw [this]
      simp
    have hon : ∃ f, onset c p V = .ok f := by
      unfold onset
      rw [hts, hts]
      have k1 : 1 ≤ Spec.samples (c.sta p) rate := by
        unfold Spec.samples
        have : pyRound 0 ≤ pyRound (c.sta p * rate) := pyRound_mono (mul_nonneg hw.1 (by positivity))
        have h0 : pyRound 0 = 0 := by decide +kernel
        omega
      have k2 : Spec.samples (c.sta p) rate ≤ Spec.samples (c.lta p) rate := by
        unfold Spec.samples
        have : pyRound (c.sta p * rate) ≤ pyRound (c.lta p * rate) :=
          pyRound_mono (mul_le_mul_of_nonneg_right hw.2 (by positivity))
        omega
      generalize Spec.samples (c.sta p) rate = a at k1 k2 hfit ⊢
      generalize Spec.samples (c.lta p) rate = b at k2 hfit ⊢
      have hlen : ∀ l : List ℚ, (c.transform.apply (l.map fun v : ℚ => (v : ℝ))).length = l.length := by
        intro l; rw [hT]; simp
      have hcomp : ∀ l : List ℚ, l.length = cols → component c a b l ≠ none := by
        intro l hl
        unfold component StaLta.onsetC
        cases hpos : c.pos with
        | classic =>
          simp only
          rw [StaLta.overlappingC_eq _ k1 k2 (by rw [hlen]; omega)]
          simp
        | centred =>
          simp only
          rw [StaLta.centredC_eq _ k1 (by omega) (by rw [hlen]; omega)]
          simp
      have hc' : ∀ r ∈ V, component c a b r.2 ≠ none := fun r hr => hcomp _ (hcols r hr)
      rw [(ReadOrder.components_char c a b _).2 hc']
      simp only
      rw [if_pos]
      · exact ⟨_, rfl⟩
      · rw [ReadOrder.sameLength_iff]
        have : ∀ v ∈ V.map (fun r => (component c a b r.2).getD []), v.length = cols := by
          intro v hv
          obtain ⟨r, hr, rfl⟩ := List.mem_map.mp hv
          cases hc : component c a b r.2 with
          | none => exact absurd hc (hcomp _ (hcols r hr))
          | some o =>
            simp only [hc, Option.getD_some]
            rw [(OnsetValue.component_value hT k1 k2 hc).1, hcols r hr]
        intro u hu v hv
        rw [this u hu, this v hv]
    obtain ⟨f, hf⟩ := hon
    rw [hf]
    exact ⟨_, rfl⟩

/-- The pads hold one long-term and one short-term window. -/
theorem pads_hold {w : Windows} (hwin : w.Nonneg) {ttmax : ℚ} (htt : 0 ≤ ttmax) {rate : ℕ} (hr0 : 0 < rate) {ts : ℚ}
    (hts : 0 < ts) {sta lta : ℚ} (h1 : 0 ≤ sta) (h2 : sta ≤ w.staMax) (h3 : 0 ≤ lta) (h4 : lta ≤ w.ltaMax) {a b : ℚ} {cols : ℕ}
    (hspan : a + (scanPads w ttmax rate ts).1 + (scanPads w ttmax rate ts).2 ≤ b) (hc : (b - a) * rate + 1 ≤ cols) :
    Spec.samples lta rate + Spec.samples sta rate ≤ cols := by
  have hrq : (1 : ℚ) ≤ rate := by exact_mod_cast hr0
  have hpre : (0 : ℚ) ≤ prePad w := prePad_nonneg hwin
  have hpost : ttmax + 2 * w.ltaMax ≤ postPad w ttmax := by unfold postPad; exact Int.le_ceil _
  have hpre' : prePad w = w.ltaMax + 3 * w.staMax := rfl
  have hl := Windows.ltaMax_nonneg hwin
  have hst := Windows.staMax_nonneg hwin
  have hK : (1 : ℚ) ≤ (⌈(ts + (prePad w + postPad w ttmax)) * (6 / 100)⌉ : ℤ) := by
    have : 0 < ⌈(ts + (prePad w + postPad w ttmax)) * (6 / 100)⌉ := Int.ceil_pos.2 (by linarith)
    exact_mod_cast this
  have htrim : ∀ t : ℚ, 0 ≤ t → t - 1 / 1000 ≤ trim2sample t (rate : ℚ) := by
    intro t ht
    obtain ⟨k, hk, -, h, -⟩ := trim2sample_spec ht hr0
    have : t ≤ (k : ℚ) / rate := by
      rw [le_div_iff₀ (by linarith), hk]; exact Int.le_ceil _
    linarith
  have e1 := htrim (prePad w + (⌈(ts + (prePad w + postPad w ttmax)) * (6 / 100)⌉ : ℤ)) (by linarith)
  have e2 := htrim (postPad w ttmax + (⌈(ts + (prePad w + postPad w ttmax)) * (6 / 100)⌉ : ℤ)) (by linarith)
  have f1 : (scanPads w ttmax rate ts).1 =
    trim2sample (prePad w + (⌈(ts + (prePad w + postPad w ttmax)) * (6 / 100)⌉ : ℤ)) rate := rfl
  have f2 : (scanPads w ttmax rate ts).2 =
    trim2sample (postPad w ttmax + (⌈(ts + (prePad w + postPad w ttmax)) * (6 / 100)⌉ : ℤ)) rate := rfl
  rw [f1, f2] at hspan
  have hbig : lta + sta + 2 - 2 / 1000 ≤ b - a := by linarith
  have hm : (lta + sta + 2 - 2 / 1000) * rate ≤ (b - a) * rate := mul_le_mul_of_nonneg_right hbig (by linarith)
  have r1 := pyRound_le (lta * rate)
  have r2 := pyRound_le (sta * rate)
  have hn : ∀ v : ℚ, 0 ≤ v → 0 ≤ pyRound (v * rate) := by
    intro v hv
    have : pyRound 0 ≤ pyRound (v * rate) := pyRound_mono (by positivity)
    have h0 : pyRound 0 = 0 := by decide +kernel
    omega
  have n1 := hn lta h3
  have n2 := hn sta h1
  have key : pyRound (lta * rate) + pyRound (sta * rate) < cols - 1 := by
    have : ((pyRound (lta * rate) + pyRound (sta * rate) : ℤ) : ℚ) < ((cols - 1 : ℤ) : ℚ) := by
      push_cast
      linarith
    exact_mod_cast this
  unfold Spec.samples
  omega

/-- With something available, the onset functions are computed. -/
theorem onsets_ok {c : Cfg} {rate : ℕ} (hrate : c.sr = rate) (hr0 : 0 < rate)
    (hcount : c.allChannels = true → ∀ p ∈ c.phases, c.count p ≠ 0)
    (hw : ∀ p ∈ c.phases, 0 ≤ c.sta p ∧ c.sta p ≤ c.lta p) (hT : ∀ v, (c.transform.apply v).length = v.length) {x : Ext}
    {d : CalcOnsets.Data} (hn : Spec.PlainNames c.phases d.stations) {st : Str → List Trace} (hgrid : Spec.OnGrid c rate x d st)
    (hst : ∀ p ∈ c.phases, preStream c x d p = .ok (st p)) (hs : ∀ p ∈ c.phases, ∀ t ∈ st p, Sane t) {cols : ℕ}
    (hcols : ∀ s p, (s, p) ∈ Spec.available c x d st → ∀ l ∈ Spec.records c x d st s p, l.length = cols)
    (hfit : ∀ s p, (s, p) ∈ Spec.available c x d st → Spec.samples (c.lta p) rate + Spec.samples (c.sta p) rate ≤ cols) :
    (Spec.available c x d st ≠ [] → ∃ o, calculateOnsets c x d = .ok o) ∧
    (Spec.available c x d st = [] → calculateOnsets c x d = .error .dataAvailability) := by
  have hsr : c.sr ≠ 0 := by rw [hrate]; exact_mod_cast hr0.ne'
  have htot : ∀ p ∈ c.phases, ∀ s ∈ d.stations, ∃ r, stationPhase c x d p (st p) s = .ok r := by
    intro p hp s hsm
    refine stationPhase_total hrate hr0 (fun ha => hcount ha p hp) (hw p hp) hT (hs p hp) (cols := cols) ?_ ?_
    · intro ha r hr
      have hin := mem_available.2 ⟨hp, hsm, ha⟩
      exact hcols s p hin _ ((rows_records hrate hr0 hcount hgrid hin).1.subset (List.mem_map.mpr ⟨r, hr, rfl⟩))
    · intro ha
      exact hfit s p (mem_available.2 ⟨hp, hsm, ha⟩)
  have hfine : ∀ p ∈ c.phases, Fine c x d p := fun p hp => ⟨st p, hst p hp, htot p hp⟩
  have hspec : ∀ p ∈ c.phases, ∀ s ∈ d.stations, ∃ r, res c x d s p = r ∧ stationPhase c x d p (st p) s = .ok r := by
    intro p hp s hsm
    obtain ⟨r, hr⟩ := htot p hp s hsm
    exact ⟨r, by unfold res; rw [hst p hp]; simp only; rw [hr], hr⟩
  have hai : ∀ p ∈ c.phases, ∀ s ∈ d.stations, (avNum c x d s p = 1 ↔
      Spec.Available (Spec.criteria c p) d.start d.stop (Spec.ofStation x s (st p))) := by
    intro p hp s hsm
    obtain ⟨r, e, hr⟩ := hspec p hp s hsm
    have := (OnsetValue.stationPhase_spec c hsr x d p (fun ha => hcount ha p hp) (st p) (hs p hp) s r hr).1
    rw [← this, ← e]
    unfold avNum
    cases (res c x d s p).isSome <;> simp
  have hpairs := available_eq hai
  have hsum : ((final c x d c.phases ⟨[], [], []⟩).availability.map Prod.snd).sum = (Spec.available c x d st).length := by
    rw [final_availability c x d hn, List.map_map, ← hpairs, migratedPairs_eq]
    exact sum_zero_one _ _ fun sp _ => avNum_le c x d sp.1 sp.2
  constructor
  · intro hne
    refine ⟨_, (calculateOnsets_iff c x d _).2 ⟨hfine, rfl, ?_, ?_⟩⟩
    · rw [hsum]
      simpa using hne
    · rw [ReadOrder.sameLength_iff]
      have : ∀ f ∈ (final c x d c.phases ⟨[], [], []⟩).onsets.map Prod.snd, f.length = cols := by
        intro f hf
        obtain ⟨⟨⟨s, p⟩, f'⟩, hm, rfl⟩ := List.mem_map.mp hf
        obtain ⟨hp, hsm, rs, hr⟩ := (mem_final_onsets c x d s p f').1 hm
        obtain ⟨r, e, hr2⟩ := hspec p hp s hsm
        rw [hr] at e
        obtain ⟨q1, q2⟩ := OnsetValue.stationPhase_spec c hsr x d p (fun ha => hcount ha p hp) (st p) (hs p hp) s r hr2
        obtain ⟨q3, q4⟩ := q2 rs f' e.symm
        have hav := q1.1 (by rw [← e]; rfl)
        have hin := mem_available.2 ⟨hp, hsm, hav⟩
        obtain ⟨k1, k2, -⟩ := rows_records hrate hr0 hcount hgrid hin
        rw [← q3] at k1
        have hrs : rs ≠ [] := by
          rintro rfl
          exact k2 (List.nil_perm.mp k1)
        obtain ⟨v1, -⟩ := OnsetValue.onset_value hrate (hw p hp).1 (hw p hp).2 hT hrs q4
        obtain ⟨r, rs', rfl⟩ := List.exists_cons_of_ne_nil hrs
        have := v1 r (by simp)
        simp only at this ⊢
        rw [← this]
        exact hcols s p hin _ (k1.subset (List.mem_map.mpr ⟨r, by simp, rfl⟩))
      intro u hu v hv
      rw [this u hu, this v hv]
  · intro hnil
    unfold calculateOnsets
    rw [phaseLoop_ok c x d _ hfine]
    simp only
    rw [if_pos (hsum.trans (by rw [hnil]; rfl))]

end WaveScan

open WaveScan in
/-- **C169**: the scan of a window with data of at least one station and phase returns one value for each sample of the
data between the pads, and the value for a sample is the peak over the grid of the coalescence that the pre-processed
waveforms of the available stations and phases have there: largest value, ratio to the mean, and coordinates of the first
node that has it.  This holds for every order of the threads.  With no station and phase available the scan says so.
With `allow_gaps` or without `full_timespan` the waveforms are the recordings with the gaps filled.
Asked: as in `C165_values`, and when gaps are filled `Spec.OnGrid`; data of one length; a lookup table with the traveltimes (`Spec.TableFor`); the pads of the scan,
for windows that are at least those of the phases; a window that is at least as long as these pads; no more samples than the
C code can count. -/
theorem C169_value (c : Cfg) (rate : ℕ) (hrate : c.sr = rate) (hr0 : 0 < rate)
    (hcount : c.allChannels = true → ∀ p ∈ c.phases, c.count p ≠ 0)
    (w : Windows) (hwin : w.Nonneg)
    (hw : ∀ p ∈ c.phases, 0 ≤ c.sta p ∧ c.sta p ≤ c.lta p ∧ c.sta p ≤ w.staMax ∧ c.lta p ≤ w.ltaMax)
    (hT : ∀ v, (c.transform.apply v).length = v.length) (x : Ext)
    (d : CalcOnsets.Data) (hn : Spec.PlainNames c.phases d.stations) (st : Str → List Trace)
    (hgrid : Spec.OnGrid c rate x d st)
    (hst : ∀ p ∈ c.phases, preStream c x d p = .ok (st p)) (hs : ∀ p ∈ c.phases, ∀ t ∈ st p, Sane t)
    (hsilent : ∀ s p, (s, p) ∈ Spec.available c x d st → ∀ l ∈ Spec.records c x d st s p,
      Spec.NeverSilent c (Spec.samples (c.lta p) rate) l)
    (cols : ℕ) (hcols : ∀ s p, (s, p) ∈ Spec.available c x d st → ∀ l ∈ Spec.records c x d st s p, l.length = cols)
    (L : Lut) (g : Grid.Grid) (ttmax : ℚ) (tt : Str → Str → ℕ → ℚ)
    (hL : Spec.TableFor L g c d.stations (Spec.available c x d st) ttmax tt)
    (ts : ℚ) (hts : 0 < ts) (pads : ℚ × ℚ) (hpads : pads = scanPads w ttmax rate ts)
    (hspan : d.start + pads.1 + pads.2 ≤ d.stop) (first last : ℕ) (hfirst : (first : ℤ) = pyRound (pads.1 * rate))
    (hlast : (last : ℤ) = pyRound (pads.2 * rate))
    (h32 : (Spec.available c x d st).length * cols ≤ 2 ^ 31) (sched : List (ℕ × Op)) (sched' : List (ℕ × FOp))
    (hsch : Spec.Schedules (Spec.available c x d st).length cols L.nNodes first last sched sched') :
    (Spec.available c x d st ≠ [] → first + last ≤ cols ∧ ∃ out, WaveScan.compute c x L g pads sched sched' d = .ok out ∧
      out.length = cols - first - last ∧
      ∀ m < cols - first - last, ∃ r, out[m]? = some r ∧
        Spec.ReportsPeak g (fun node => Spec.waveCoalescence c rate x d st tt node (first + m)) r) ∧
    (Spec.available c x d st = [] →
      WaveScan.compute c x L g pads sched sched' d = .error (.onset .dataAvailability)) := by
  have hw' : ∀ p ∈ c.phases, 0 ≤ c.sta p ∧ c.sta p ≤ c.lta p := fun p hp => ⟨(hw p hp).1, (hw p hp).2.1⟩
  have hfit : ∀ s p, (s, p) ∈ Spec.available c x d st →
      Spec.samples (c.lta p) rate + Spec.samples (c.sta p) rate ≤ cols := by
    intro s p hsp
    obtain ⟨hp, hsm, hav⟩ := mem_available.1 hsp
    obtain ⟨h1, h2, h3, h4⟩ := hw p hp
    refine pads_hold (a := d.start) (b := d.stop) hwin hL.ttpos hr0 hts h1 h3 (h1.trans h2) h4 (by rw [← hpads]; exact hspan) ?_
    exact (rows_records hrate hr0 hcount hgrid hsp).2.2 cols (hcols s p hsp)
  obtain ⟨q1, q2⟩ := onsets_ok hrate hr0 hcount hw' hT hn hgrid hst hs hcols hfit
  constructor
  · intro hne
    obtain ⟨o, ho⟩ := q1 hne
    exact value_of_onsets c rate hrate hr0 hcount hw' hT x d hn st hgrid hst hs o ho hsilent cols hcols L g ttmax tt hL w
      hwin ts hts.le pads hpads hspan first last hfirst hlast h32 sched sched' hsch
  · intro hnil
    unfold WaveScan.compute
    rw [q2 hnil]


namespace WaveScan

theorem compute_congr {c : Cfg} {x : Ext} {d d' : CalcOnsets.Data} {o o' : CalcOnsets.Out}
    (h : calculateOnsets c x d = .ok o) (h' : calculateOnsets c x d' = .ok o') (ha : o'.availability = o.availability)
    (ho : o'.onsets = o.onsets) (L : Lut) (g : Grid.Grid) (pads : ℚ × ℚ) (sched : List (ℕ × Op)) (sched' : List (ℕ × FOp)) :
    WaveScan.compute c x L g pads sched sched' d' = WaveScan.compute c x L g pads sched sched' d := by
  have hr : rows o' = rows o := by unfold rows; rw [ho]
  unfold WaveScan.compute
  rw [h, h']
  simp only
  rw [ha, ho, hr]

end WaveScan

/-- **C170**, gain: with `full_timespan` and without `allow_gaps`, multiplying the data of every channel by a factor of its
own, positive or negative, changes nothing in what the scan returns or raises.  Missing: with gaps filled it does
(`C162_violated`). -/
theorem C170_gain_partial (c : Cfg) (hsr : 0 ≤ c.sr) (hT : Transform.Ok c.transform)
    (hw : ∀ p ∈ c.phases, 0 ≤ c.sta p ∧ c.sta p ≤ c.lta p) (hgap : c.allowGaps = false) (hfull : c.fullTimespan = true)
    (x : Ext) (hx : KeepsIds x) (hl : Spec.Linear x) (d : CalcOnsets.Data) (k : Str → ℚ) (hk : ∀ i, k i ≠ 0)
    (L : Lut) (g : Grid.Grid) (pads : ℚ × ℚ) (sched : List (ℕ × Op)) (sched' : List (ℕ × FOp)) :
    WaveScan.compute c x L g pads sched sched' { d with waveforms := Spec.amplified k d.waveforms } =
      WaveScan.compute c x L g pads sched sched' d := by
  have h := C162_units_partial c hsr hT hw hgap hfull x hx hl d k hk
  cases hc : calculateOnsets c x d with
  | error e =>
    rw [hc] at h
    unfold WaveScan.compute
    rw [h, hc]
  | ok o =>
    rw [hc] at h
    exact WaveScan.compute_congr hc h rfl rfl L g pads sched sched'

/-- **C170**, order: the order in which the archive returns the traces changes nothing in what the scan returns or
raises. -/
theorem C170_order (c : Cfg) (hsr : c.sr ≠ 0) (x : Ext) (d : CalcOnsets.Data) (ws : List Trace) (h : d.waveforms.Perm ws)
    (hs : ∀ p ∈ c.phases, ∀ l, preStream c x d p = .ok l → ∀ t ∈ l, Sane t)
    (L : Lut) (g : Grid.Grid) (pads : ℚ × ℚ) (sched : List (ℕ × Op)) (sched' : List (ℕ × FOp)) :
    WaveScan.compute c x L g pads sched sched' { d with waveforms := ws } =
      WaveScan.compute c x L g pads sched sched' d := by
  obtain ⟨a, b⟩ := C164_order_of_files c hsr x d ws h hs
  cases hc : calculateOnsets c x d with
  | error e =>
    unfold WaveScan.compute
    rw [a e hc, hc]
  | ok o =>
    obtain ⟨o', h1, h2, h3, -⟩ := b o hc
    exact WaveScan.compute_congr hc h1 h2 h3 L g pads sched sched'

/-! ## A case that meets the hypotheses -/

namespace WaveScan

open OnsetValue OnsetGain

/-- One station, one phase, two nodes at no and one second. -/
def exLut : Lut := ⟨["ST01".toList], ["P".toList], fun _ => some fun _ => some fun n => (n : ℚ), 2⟩

theorem ex_pre (p : Str) (hp : p ∈ plainCfg.phases) :
    preStream plainCfg (exExt 1) plainData p = .ok ((fun _ => plainData.waveforms) p) := by
  have hph : plainCfg.phases = ["P".toList] := rfl
  rw [hph] at hp
  rw [List.mem_singleton.mp hp]
  exact plain_pre

theorem ex_names : Spec.PlainNames plainCfg.phases plainData.stations :=
  ⟨by simp [plainCfg, exCfg], by simp [plainData], by simp [plainCfg, exCfg], by simp [plainData]⟩

theorem ex_available : Spec.available plainCfg (exExt 1) plainData (fun _ => plainData.waveforms) =
    [("ST01".toList, "P".toList)] := by
  classical
  obtain ⟨f, hf⟩ := plain_ok
  have hsr : plainCfg.sr ≠ 0 := by simp [plainCfg, exCfg]
  have hav := ((C165_which plainCfg hsr (fun ha => by simp [plainCfg, exCfg] at ha) (exExt 1) plainData ex_names
    (fun _ => plainData.waveforms) ex_pre (fun _ _ => plain_sane) _ hf).2.1 "ST01".toList "P".toList).1 (by simp)
  have hph : plainCfg.phases = ["P".toList] := rfl
  have hst : plainData.stations = ["ST01".toList] := rfl
  unfold Spec.available
  rw [hph, hst, List.flatMap_cons, List.flatMap_nil, List.append_nil, List.filter_cons_of_pos (by simpa using hav.2.2)]
  rfl

theorem ex_records {s p : Str} {l : List ℚ}
    (h : l ∈ Spec.records plainCfg (exExt 1) plainData (fun _ => plainData.waveforms) s p) : l = [1, 2, 3, 5] := by
  unfold Spec.records Spec.passing Spec.ofStation at h
  simp only at h
  rw [if_neg (by simp [plainCfg])] at h
  obtain ⟨t, ht, rfl⟩ := List.mem_map.mp h
  have := (List.mem_filter.mp (List.mem_filter.mp ht).1).1
  simp only [plainData, List.mem_cons, List.not_mem_nil, or_false] at this
  rw [this]

theorem ex_silent : Spec.NeverSilent plainCfg (Spec.samples (plainCfg.lta "P".toList) 1) [1, 2, 3, 5] := by
  have hs : Spec.samples (plainCfg.lta "P".toList) 1 = 1 := by
    show Spec.samples 0 1 = 1
    decide +kernel
  rw [hs]
  intro i hi _
  simp only [List.length_cons, List.length_nil] at hi
  have : i = 0 ∨ i = 1 ∨ i = 2 ∨ i = 3 := by omega
  rcases this with rfl | rfl | rfl | rfl <;>
    simp [Spec.winSum, plainCfg, exCfg, StaLta.Transform.apply]

/-- One second of a stage needs pads of one and two seconds; the four samples leave one value. -/
theorem ex_compute : ∃ out, WaveScan.compute plainCfg (exExt 1) exLut stepGrid (scanPads ⟨(0, 0), []⟩ 1 (1 : ℕ) 1)
      (serial exLut.nNodes (nodeProg (V := ℝ) ⟨[], [], 1, 2, 4 - 1 - 2, 1, 1, exLut.nNodes⟩))
      (serial (4 - 1 - 2) (sampleProg exLut.nNodes)) plainData = .ok out ∧ out.length = 1 := by
  have hp : scanPads ⟨(0, 0), []⟩ 1 ((1 : ℕ) : ℚ) 1 = (1, 2) := by decide +kernel
  obtain ⟨h1, -⟩ := C169_value plainCfg 1 (by simp [plainCfg, exCfg]) one_pos (fun ha => by simp [plainCfg, exCfg] at ha)
    ⟨(0, 0), []⟩ ⟨le_refl _, le_refl _⟩ (fun p _ => ⟨le_refl _, le_refl _, le_refl _, le_refl _⟩)
    (fun v => by simp [plainCfg, exCfg, StaLta.Transform.apply]) (exExt 1) plainData ex_names
    (fun _ => plainData.waveforms) (fun h => by simp [plainCfg] at h) ex_pre (fun _ _ => plain_sane)
    (fun s p h l hl => by
      rw [ex_available] at h
      have := List.mem_singleton.mp h
      rw [(Prod.mk.inj this).2, ex_records hl]
      exact ex_silent) 4 (fun s p _ l hl => by rw [ex_records hl]; rfl)
    exLut stepGrid 1 (fun _ _ n => n)
    ⟨rfl, by decide, by decide +kernel, by norm_num, fun p hp => hp, fun s hs => hs, fun _ _ => rfl⟩
    1 one_pos _ rfl (by rw [hp]; simp only [plainData]; norm_num) 1 2 (by rw [hp]; decide +kernel) (by rw [hp]; decide +kernel)
    (by rw [ex_available]; norm_num) _ _ (by
      rw [ex_available]
      exact ⟨serial_isInterleaving _ _, serial_isInterleaving _ _⟩)
  obtain ⟨-, out, e1, e2, -⟩ := h1 (by rw [ex_available]; simp)
  exact ⟨out, e1, e2⟩

/-- The same scan with the polarity of the station reversed and its gain tripled. -/
example (sched : List (ℕ × Op)) (sched' : List (ℕ × FOp)) :
    WaveScan.compute plainCfg (exExt 1) exLut stepGrid (1, 2) sched sched'
      { plainData with waveforms := [⟨"Z".toList, 0, 1, [-3, -6, -9, -15]⟩] } =
    WaveScan.compute plainCfg (exExt 1) exLut stepGrid (1, 2) sched sched' plainData := by
  have h := C170_gain_partial plainCfg (by simp [plainCfg, exCfg]) trivial (fun _ _ => ⟨le_refl _, le_refl _⟩) rfl rfl
    (exExt 1) (exExt_keeps 1) (exExt_linear 1) plainData (fun _ => -3) (fun _ => by norm_num) exLut stepGrid (1, 2) sched
    sched'
  have e : Spec.amplified (fun _ => -3) plainData.waveforms = [⟨"Z".toList, 0, 1, [-3, -6, -9, -15]⟩] := by decide +kernel
  rw [e] at h
  exact h

/-- Two channels, read in either order. -/
example : ([⟨"Z".toList, 0, 1, [1, 2]⟩, ⟨"N".toList, 0, 1, [1, 3]⟩] : List Trace).Perm
    [⟨"N".toList, 0, 1, [1, 3]⟩, ⟨"Z".toList, 0, 1, [1, 2]⟩] ∧ plainCfg.sr ≠ 0 ∧
    ∀ p ∈ plainCfg.phases, ∀ l, preStream plainCfg (exExt 1) plainData p = .ok l → ∀ t ∈ l, Sane t := by
  refine ⟨List.Perm.swap _ _ _, by simp [plainCfg, exCfg], ?_⟩
  intro p hp l hl
  rw [ex_pre p hp] at hl
  injection hl with hl
  rw [← hl]
  exact plain_sane

/-! ### With gaps -/

/-- The data of `OnsetGain.exData`, which have a gap, with a gain. -/
def gapData (g : ℚ) : CalcOnsets.Data := { exData with waveforms := Spec.amplified (fun _ => g) exData.waveforms }

theorem gap_sane (g : ℚ) : ∀ t ∈ (gapData g).waveforms, Sane t := by
  intro t ht
  change t ∈ ([⟨"Z".toList, 0, 1, [g * 1, g * 2]⟩, ⟨"Z".toList, 3, 1, [g * 3, g * 5]⟩] : List Trace) at ht
  simp only [List.mem_cons, List.not_mem_nil, or_false] at ht
  rcases ht with rfl | rfl <;> exact ⟨by simp, by norm_num, by norm_num⟩

theorem gap_pre (fill g : ℚ) (hg : 1 ≤ g) (p : Str) (hp : p ∈ exCfg.phases) :
    preStream exCfg (exExt fill) (gapData g) p = .ok ((fun _ => (gapData g).waveforms) p) := by
  have hph : exCfg.phases = ["P".toList] := rfl
  rw [hph] at hp
  rw [List.mem_singleton.mp hp]
  exact OnsetGain.ex_pre fill g (by linarith)

theorem gap_names (g : ℚ) : Spec.PlainNames exCfg.phases (gapData g).stations :=
  ⟨by simp [exCfg], by simp [gapData, exData], by simp [exCfg], by simp [gapData, exData]⟩

theorem gap_available (fill : ℚ) (hf : 0 < fill) (hf1 : fill ≤ 1) (g : ℚ) (hg : 1 ≤ g) :
    Spec.available exCfg (exExt fill) (gapData g) (fun _ => (gapData g).waveforms) = [("ST01".toList, "P".toList)] := by
  classical
  obtain ⟨o, f, hc, -, ho, -⟩ := C162_violated fill hf hf1 g hg
  have hsr : exCfg.sr ≠ 0 := by simp [exCfg]
  have hav := ((C165_which exCfg hsr (fun ha => by simp [exCfg] at ha) (exExt fill) (gapData g) (gap_names g)
    (fun _ => (gapData g).waveforms) (gap_pre fill g hg) (fun _ _ => gap_sane g) o hc).2.1 "ST01".toList "P".toList).1
    (by rw [ho]; simp)
  have hph : exCfg.phases = ["P".toList] := rfl
  have hst : (gapData g).stations = ["ST01".toList] := rfl
  unfold Spec.available
  rw [hph, hst, List.flatMap_cons, List.flatMap_nil, List.append_nil, List.filter_cons_of_pos (by simpa using hav.2.2)]
  rfl

theorem gap_passing (fill : ℚ) (g : ℚ) (hg : 1 ≤ g) :
    Spec.passing (Spec.criteria exCfg "P".toList) (gapData g).start (gapData g).stop
      (Spec.ofStation (exExt fill) "ST01".toList (gapData g).waveforms) = (gapData g).waveforms := by
  have hfil : Spec.ofStation (exExt fill) "ST01".toList (gapData g).waveforms = (gapData g).waveforms := rfl
  rw [hfil]
  obtain ⟨a, av, h1, h2, h3, h4, -⟩ := C54_availability_iff (Spec.criteria exCfg "P".toList) (gapData g).start (gapData g).stop
    (gapData g).waveforms (by simp [gapData, Spec.amplified, exData]) (gap_sane g) (fun _ => by simp [Spec.criteria, exCfg])
    (fun ha => by simp [Spec.criteria, exCfg] at ha)
  have h := OnsetGain.ex_check g (by linarith)
  have hsame : Data.checkAvailability (Spec.criteria exCfg "P".toList) (gapData g).start (gapData g).stop
      (gapData g).waveforms = .ok (true, [("Z".toList, true)]) := h
  rw [hsame] at h1
  injection h1 with h1
  obtain ⟨-, rfl⟩ := Prod.mk.inj h1
  rw [← OnsetValue.passing_eq h3 h2 h4]
  rfl

theorem gap_onGrid (fill : ℚ) (hf : 0 < fill) (hf1 : fill ≤ 1) (g : ℚ) (hg : 1 ≤ g) :
    Spec.OnGrid exCfg 1 (exExt fill) (gapData g) (fun _ => (gapData g).waveforms) := by
  intro _
  refine ⟨by norm_num, 5, by simp [gapData, exData]; norm_num, ?_⟩
  intro s p h
  rw [gap_available fill hf hf1 g hg] at h
  obtain ⟨rfl, rfl⟩ := Prod.mk.inj (List.mem_singleton.1 h)
  refine ⟨fun t => if t.start = 3 then 3 else 0, fun i => ?_⟩
  simp only
  rw [gap_passing fill g hg]
  have hw : (gapData g).waveforms = [⟨"Z".toList, 0, 1, [g * 1, g * 2]⟩, ⟨"Z".toList, 3, 1, [g * 3, g * 5]⟩] := rfl
  rw [hw]
  refine ⟨_, List.Perm.refl _, ?_⟩
  have hmem : ∀ t ∈ ([⟨"Z".toList, 0, 1, [g * 1, g * 2]⟩, ⟨"Z".toList, 3, 1, [g * 3, g * 5]⟩] : List Trace).filter
      (fun t => t.id = i), t = ⟨"Z".toList, 0, 1, [g * 1, g * 2]⟩ ∨ t = ⟨"Z".toList, 3, 1, [g * 3, g * 5]⟩ := by
    intro t ht
    simpa using (List.mem_filter.mp ht).1
  have h0 : (gapData g).start = 0 := rfl
  refine ⟨?_, ?_, ?_, ?_, ?_⟩
  · intro t ht
    rcases hmem t ht with rfl | rfl <;> simp
  · intro t ht
    rcases hmem t ht with rfl | rfl <;> simp
  · intro t ht
    rcases hmem t ht with rfl | rfl <;> simp [h0]
  · intro t ht
    rcases hmem t ht with rfl | rfl <;> simp
  · refine List.Pairwise.sublist List.filter_sublist ?_
    simp

theorem gap_records (fill : ℚ) (hf : 0 < fill) (hf1 : fill ≤ 1) (g : ℚ) (hg : 1 ≤ g) :
    Spec.records exCfg (exExt fill) (gapData g) (fun _ => (gapData g).waveforms) "ST01".toList "P".toList =
      [[g * 1, g * 2, fill, g * 3, g * 5]] := by
  have hin : ("ST01".toList, "P".toList) ∈
      Spec.available exCfg (exExt fill) (gapData g) (fun _ => (gapData g).waveforms) := by
    rw [gap_available fill hf hf1 g hg]; simp
  have h := (rows_records (rate := 1) (by simp [exCfg]) one_pos (fun ha => by simp [exCfg] at ha)
    (gap_onGrid fill hf hf1 g hg) hin).1
  rw [gap_passing fill g hg] at h
  have hr := OnsetGain.ex_rows fill g (gapData g) rfl rfl
  have e : CalcOnsets.rows exCfg (exExt fill) (gapData g) (gapData g).waveforms = _ := hr
  rw [e] at h
  exact List.singleton_perm.1 h |>.symm ▸ rfl

theorem gap_silent (fill : ℚ) (hf : 0 < fill) (g : ℚ) (hg : 1 ≤ g) :
    Spec.NeverSilent exCfg (Spec.samples (exCfg.lta "P".toList) 1) [g * 1, g * 2, fill, g * 3, g * 5] := by
  have hs : Spec.samples (exCfg.lta "P".toList) 1 = 1 := by
    show Spec.samples 0 1 = 1
    decide +kernel
  have hf' : (0 : ℝ) < fill := by exact_mod_cast hf
  have hg' : (0 : ℝ) < g := by
    have : (0 : ℚ) < g := by linarith
    exact_mod_cast this
  rw [hs]
  intro i hi _
  simp only [List.length_cons, List.length_nil] at hi
  have : i = 0 ∨ i = 1 ∨ i = 2 ∨ i = 3 ∨ i = 4 := by omega
  rcases this with rfl | rfl | rfl | rfl | rfl <;>
    simp [Spec.winSum, exCfg, StaLta.Transform.apply] <;> positivity

/-- The coalescence where data return after the gap, and one sample earlier. -/
theorem gap_value (fill : ℚ) (hf : 0 < fill) (hf1 : fill ≤ 1) (g : ℚ) (hg : 1 ≤ g) :
    Spec.waveCoalescence exCfg 1 (exExt fill) (gapData g) (fun _ => (gapData g).waveforms) (fun _ _ n => n) 0 1 = 2 / 5 ∧
    Spec.waveCoalescence exCfg 1 (exExt fill) (gapData g) (fun _ => (gapData g).waveforms) (fun _ _ n => n) 1 1 =
      9 * (g : ℝ) ^ 2 / (fill : ℝ) ^ 2 := by
  have hs : Spec.samples (exCfg.sta "P".toList) 1 = 1 := by
    show Spec.samples 0 1 = 1
    decide +kernel
  have hs' : Spec.samples (exCfg.lta "P".toList) 1 = 1 := hs
  have hf' : (0 : ℝ) < fill := by exact_mod_cast hf
  have hf1' : (fill : ℝ) ≤ 1 := by exact_mod_cast hf1
  have hg' : (1 : ℝ) ≤ g := by exact_mod_cast hg
  have hff : (fill : ℝ) ^ 2 ≤ 1 := by nlinarith
  have hgg : (1 : ℝ) ≤ (g : ℝ) ^ 2 := by nlinarith
  have hm : exCfg.minOnset = 2 / 5 := rfl
  have hp : exCfg.pos = .centred := rfl
  have ht : exCfg.transform = .energy := rfl
  unfold Spec.waveCoalescence
  rw [gap_available fill hf hf1 g hg]
  simp only [List.map_cons, List.map_nil, List.prod_cons, List.prod_nil, List.length_cons, List.length_nil, zero_add,
    div_one, gap_records fill hf hf1 g hg]
  have r0 : (pyRound (((0 : ℕ) : ℚ) * ((1 : ℕ) : ℚ))).toNat = 0 := by decide +kernel
  have r1 : (pyRound (((1 : ℕ) : ℚ) * ((1 : ℕ) : ℚ))).toNat = 1 := by decide +kernel
  have hpow : ∀ v : ℝ, (v * 1) ^ (1 / ((1 : ℕ) : ℝ)) = v := by
    intro v
    rw [mul_one, Nat.cast_one, div_one, Real.rpow_one]
  rw [r0, r1, hpow, hpow]
  unfold Spec.onsetAt
  rw [hs, hs', hm, hp, ht]
  have hsq : ∀ v : ℝ, 0 ≤ v → Real.sqrt (v ^ 2) = v := fun v hv => Real.sqrt_sq hv
  constructor
  · have : Spec.staLta .centred (StaLta.Transform.energy.apply
        (([g * 1, g * 2, fill, g * 3, g * 5] : List ℚ).map fun v : ℚ => (v : ℝ))) 1 1 (1 + 0) =
        (fill : ℝ) ^ 2 / ((g : ℝ) * 2) ^ 2 := by
      simp [Spec.staLta, Spec.centred, Spec.winMean, Spec.winSum, StaLta.Transform.apply]
    simp only [List.map_cons, List.map_nil, List.sum_cons, List.sum_nil, add_zero, List.length_cons, List.length_nil] at this ⊢
    rw [this, zero_add, Nat.cast_one, div_one, hsq _ (by positivity)]
    have hle : (fill : ℝ) ^ 2 / ((g : ℝ) * 2) ^ 2 ≤ 2 / 5 := by
      rw [div_le_iff₀ (by positivity)]
      nlinarith
    rw [max_eq_left hle]
    exact max_eq_right (by norm_num)
  · have : Spec.staLta .centred (StaLta.Transform.energy.apply
        (([g * 1, g * 2, fill, g * 3, g * 5] : List ℚ).map fun v : ℚ => (v : ℝ))) 1 1 (1 + 1) =
        9 * (g : ℝ) ^ 2 / (fill : ℝ) ^ 2 := by
      simp [Spec.staLta, Spec.centred, Spec.winMean, Spec.winSum, StaLta.Transform.apply]
      ring
    simp only [List.map_cons, List.map_nil, List.sum_cons, List.sum_nil, add_zero, List.length_cons, List.length_nil] at this ⊢
    rw [this, zero_add, Nat.cast_one, div_one, hsq _ (by positivity)]
    have hle : (9 : ℝ) ≤ 9 * (g : ℝ) ^ 2 / (fill : ℝ) ^ 2 := by
      rw [le_div_iff₀ (by positivity)]
      nlinarith
    rw [max_eq_right (show (2 / 5 : ℝ) ≤ 9 * (g : ℝ) ^ 2 / (fill : ℝ) ^ 2 by linarith)]
    exact max_eq_right (by linarith)

end WaveScan

open WaveScan OnsetGain in
/-- **C170 is violated with gap filling**: in a scan of one channel with `allow_gaps`, where data return after a gap, the
largest coalescence is proportional to the square of the gain, for every fill value, every gain of at least 1 and every order
of the threads. -/
theorem C170_violated (fill : ℚ) (hf : 0 < fill) (hf1 : fill ≤ 1) (g : ℚ) (hg : 1 ≤ g) (sched : List (ℕ × Op))
    (sched' : List (ℕ × FOp)) (hsch : Spec.Schedules 1 5 2 1 2 sched sched') :
    ∃ out r, WaveScan.compute exCfg (exExt fill) WaveScan.exLut stepGrid (1, 2) sched sched'
        { exData with waveforms := Spec.amplified (fun _ => g) exData.waveforms } = .ok out ∧ out.length = 2 ∧
      out[0]? = some r ∧ r.maxCoa = 9 * (g : ℝ) ^ 2 / (fill : ℝ) ^ 2 := by
  have hp : scanPads ⟨(0, 0), []⟩ 1 ((1 : ℕ) : ℚ) 1 = (1, 2) := by decide +kernel
  have hlen : (Spec.available exCfg (exExt fill) (gapData g) (fun _ => (gapData g).waveforms)).length = 1 := by
    rw [gap_available fill hf hf1 g hg]; rfl
  have hrec : ∀ s p, (s, p) ∈ Spec.available exCfg (exExt fill) (gapData g) (fun _ => (gapData g).waveforms) →
      p = "P".toList ∧ ∀ l ∈ Spec.records exCfg (exExt fill) (gapData g) (fun _ => (gapData g).waveforms) s p,
        l = [g * 1, g * 2, fill, g * 3, g * 5] := by
    intro s p h
    rw [gap_available fill hf hf1 g hg] at h
    obtain ⟨rfl, rfl⟩ := Prod.mk.inj (List.mem_singleton.1 h)
    refine ⟨rfl, fun l hl => ?_⟩
    rw [gap_records fill hf hf1 g hg] at hl
    exact List.mem_singleton.1 hl
  obtain ⟨h1, -⟩ := C169_value exCfg 1 (by simp [exCfg]) one_pos (fun ha => by simp [exCfg] at ha)
    ⟨(0, 0), []⟩ ⟨le_refl _, le_refl _⟩ (fun p _ => ⟨le_refl _, le_refl _, le_refl _, le_refl _⟩)
    (fun v => by simp [exCfg, StaLta.Transform.apply]) (exExt fill) (gapData g) (gap_names g)
    (fun _ => (gapData g).waveforms) (gap_onGrid fill hf hf1 g hg) (gap_pre fill g hg) (fun _ _ => gap_sane g)
    (fun s p h l hl => by
      obtain ⟨rfl, e⟩ := hrec s p h
      rw [e l hl]
      exact gap_silent fill hf g hg) 5 (fun s p h l hl => by rw [(hrec s p h).2 l hl]; rfl)
    WaveScan.exLut stepGrid 1 (fun _ _ n => n)
    ⟨rfl, by decide, by decide +kernel, by norm_num, fun p hp => hp, fun s hs => hs, fun _ _ => rfl⟩
    1 one_pos _ hp.symm (by simp only [gapData, exData]; norm_num) 1 2 (by decide +kernel) (by decide +kernel)
    (by rw [hlen]; norm_num) sched sched' (by rw [hlen]; exact hsch)
  obtain ⟨-, out, e1, e2, e3⟩ := h1 (by rw [gap_available fill hf hf1 g hg]; simp)
  obtain ⟨r, r1, r2⟩ := e3 0 (by norm_num)
  refine ⟨out, r, e1, e2, r1, ?_⟩
  obtain ⟨v0, v1⟩ := gap_value fill hf hf1 g hg
  obtain ⟨n, hn, hmax, -⟩ := r2.node
  have hbig := r2.largest 1 (by decide)
  simp only [add_zero] at hmax hbig
  rw [v1] at hbig
  have hf' : (0 : ℝ) < fill := by exact_mod_cast hf
  have hf1' : (fill : ℝ) ≤ 1 := by exact_mod_cast hf1
  have hg' : (1 : ℝ) ≤ g := by exact_mod_cast hg
  have hle : (9 : ℝ) ≤ 9 * (g : ℝ) ^ 2 / (fill : ℝ) ^ 2 := by
    rw [le_div_iff₀ (by positivity)]
    nlinarith
  have hc : stepGrid.count 0 * stepGrid.count 1 * stepGrid.count 2 = 2 := by decide
  rw [hc] at hn
  have : n = 0 ∨ n = 1 := by omega
  rcases this with rfl | rfl
  · rw [v0] at hmax
    linarith
  · rw [hmax, v1]

/-- The case with gain 3, one thread after the other. -/
example : ∃ out r, WaveScan.compute OnsetGain.exCfg (OnsetGain.exExt 1) WaveScan.exLut stepGrid (1, 2)
      (serial 2 (nodeProg (V := ℝ) ⟨[], [], 1, 2, 5 - 1 - 2, 1, 1, 2⟩)) (serial (5 - 1 - 2) (sampleProg 2))
      { OnsetGain.exData with waveforms := Spec.amplified (fun _ => 3) OnsetGain.exData.waveforms } = .ok out ∧
    out.length = 2 ∧ out[0]? = some r ∧ r.maxCoa = 81 := by
  obtain ⟨out, r, h1, h2, h3, h4⟩ := C170_violated 1 one_pos (le_refl _) 3 (by norm_num) _ _
    ⟨serial_isInterleaving 2 (nodeProg (V := ℝ) ⟨[], [], 1, 2, 5 - 1 - 2, 1, 1, 2⟩), serial_isInterleaving (5 - 1 - 2) (sampleProg 2)⟩
  refine ⟨out, r, h1, h2, h3, ?_⟩
  rw [h4]
  norm_num

end QM
