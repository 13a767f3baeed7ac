import Verif.Lemmas.TriggerBatches

/-! # C07, C12, C13: batches, filtering, multi-day runs -/

namespace QM
open QM.Trigger QM.Spec

/-- **C07.** If no read fails, the batches of `trigger(s, e)` cut `[s, e)` at the
midnights; if one fails, the completed batches are an initial part of that cut. -/
theorem C07_batches_partition (cfg : Cfg) (m : Method) (smooth : List Row → List Row)
    (region : Option Region) (read : ℚ → ℚ → Option ScanData) (s e : ℚ) (h : s ≤ e) :
    ∃ bs, IsDayPartition s e bs ∧
      (trigger cfg m smooth region read s e).1.map Prod.fst <+: bs ∧
      ((trigger cfg m smooth region read s e).2 = none →
        (trigger cfg m smooth region read s e).1.map Prod.fst = bs) ∧
      ((trigger cfg m smooth region read s e).2 = none ↔ ∀ b ∈ bs, (read b.1 b.2).isSome) := by
  refine ⟨batches s e, batches_partition s e h, ?_⟩
  unfold trigger
  rw [if_neg (not_lt.mpr h)]
  obtain ⟨h1, h2, h3, -⟩ := runBatches_prefix cfg m smooth region read (batches s e)
  exact ⟨h1, h2, h3⟩

/-- **C07.** A start after the end is rejected and nothing is processed. -/
theorem C07_bad_span_rejected (cfg : Cfg) (m : Method) (smooth : List Row → List Row)
    (region : Option Region) (read : ℚ → ℚ → Option ScanData) (s e : ℚ) (h : e < s) :
    trigger cfg m smooth region read s e = ([], some .timeSpan) := by
  unfold trigger; rw [if_pos h]

/-- The partition is unique, so `IsDayPartition` says everything about the cut. -/
theorem C07_partition_unique (s e : ℚ) (bs cs : List (ℚ × ℚ))
    (hb : IsDayPartition s e bs) (hc : IsDayPartition s e cs) : bs = cs :=
  dayPartition_unique e bs s cs hb hc

-- a two-and-a-bit day span really is cut at two midnights
example : batches 80000 200000 = [(80000, 86400), (86400, 172800), (172800, 200000)] := by
  rw [batches_cons (by norm_num)]
  have h1 : dayStart 80000 = 0 := by decide +kernel
  rw [h1]; simp only [DAY]; norm_num
  rw [batches_cons (by norm_num)]
  have h2 : dayStart 86400 = 86400 := by decide +kernel
  rw [h2]; simp only [DAY]; norm_num
  rw [batches_cons (by norm_num)]
  have h3 : dayStart 172800 = 172800 := by decide +kernel
  rw [h3]; simp only [DAY]; norm_num
  exact batches_of_le (by norm_num)

/-- **C12.** What a batch reports: exactly the refined events whose time is in
the (midnight-adjusted) span and which lie in the region; events and discarded
events together are the refined events; nothing is in both by position. -/
theorem C12_filter_exact (cfg : Cfg) (m : Method) (smooth : List Row → List Row)
    (region : Option Region) (bs be : ℚ) (sd : ScanData) :
    let refined := refineCandidates cfg (identifyCandidates cfg (smooth sd.rows)
        (getThreshold m ((smooth sd.rows).map (Row.trig cfg.norm)) sd.sr))
    let out := triggerBatch cfg m smooth region bs be sd
    let stop := if isMidnight be then be - sd.delta else be
    (∀ e, e ∈ out.1 ↔ e ∈ refined ∧ bs ≤ e.coaTime ∧ e.coaTime ≤ stop ∧ InRegion region e) ∧
    (∀ e ∈ out.2, ¬ (bs ≤ e.coaTime ∧ e.coaTime ≤ stop ∧ InRegion region e)) ∧
    out.1.Sublist refined ∧ out.2.Sublist refined ∧ (out.1 ++ out.2).Perm refined := by
  simp only
  have hk : ∀ st (e : Cand), keepEvent bs st region e = true ↔
      bs ≤ e.coaTime ∧ e.coaTime ≤ st ∧ InRegion region e := by
    intro st e
    unfold keepEvent InRegion
    cases region with
    | none => simp
    | some r => simp; tauto
  refine ⟨fun e => mem_triggerBatch, ?_⟩
  unfold triggerBatch discardedEvents filterEvents
  simp only
  generalize refineCandidates cfg (identifyCandidates cfg (smooth sd.rows)
        (getThreshold m ((smooth sd.rows).map (Row.trig cfg.norm)) sd.sr)) = R
  generalize (if isMidnight be then be - sd.delta else be) = st
  -- `isin(index)` is the same test as the filter condition
  have hdisc : R.zipIdx.filter (fun p => !((R.zipIdx.filter (fun p => keepEvent bs st region p.1)).map
      (·.2)).contains p.2) = R.zipIdx.filter (fun p => !keepEvent bs st region p.1) := by
    apply List.filter_congr
    intro p hp
    congr 1
    rw [Bool.eq_iff_iff, List.contains_iff_mem, List.mem_map]
    constructor
    · rintro ⟨q, hq, hqp⟩
      rw [List.mem_filter] at hq
      have h1 := List.mem_zipIdx_iff_getElem?.mp hq.1
      have h2 := List.mem_zipIdx_iff_getElem?.mp hp
      rw [hqp] at h1
      rw [h1] at h2
      have : q.1 = p.1 := by simpa using h2
      rw [← this]; exact hq.2
    · intro h; exact ⟨p, List.mem_filter.mpr ⟨hp, h⟩, rfl⟩
  rw [hdisc]
  refine ⟨?_, ?_, ?_, ?_⟩
  · intro e he
    obtain ⟨p, hp, rfl⟩ := List.mem_map.mp he
    rw [List.mem_filter] at hp
    rw [← hk]
    simpa using hp.2
  · have := (List.filter_sublist (p := fun p : Cand × ℕ => keepEvent bs st region p.1)
      (l := R.zipIdx)).map Prod.fst
    rwa [List.zipIdx_map_fst] at this
  · have := (List.filter_sublist (p := fun p : Cand × ℕ => !keepEvent bs st region p.1)
      (l := R.zipIdx)).map Prod.fst
    rwa [List.zipIdx_map_fst] at this
  · rw [← List.map_append]
    have := (List.filter_append_perm (fun p : Cand × ℕ => keepEvent bs st region p.1)
      R.zipIdx).map Prod.fst
    rwa [List.zipIdx_map_fst] at this

/-- **C13.** In a multi-day run every event of a later batch is strictly later
than every event of an earlier one, so no event time is reported twice; every
event lies in the requested span and in the calendar day of its batch's file. -/
theorem C13_no_event_twice (cfg : Cfg) (m : Method) (smooth : List Row → List Row)
    (region : Option Region) (read : ℚ → ℚ → Option ScanData) (s e : ℚ) (h : s ≤ e)
    (hdelta : ∀ a b sd, read a b = some sd → 0 < sd.delta) :
    (trigger cfg m smooth region read s e).1.Pairwise
      (fun p q => ∀ e1 ∈ p.2, ∀ e2 ∈ q.2, e1.coaTime < e2.coaTime) ∧
    (∀ p ∈ (trigger cfg m smooth region read s e).1, ∀ ev ∈ p.2,
      s ≤ ev.coaTime ∧ ev.coaTime ≤ e ∧ dayStart ev.coaTime = dayStart p.1.1) := by
  obtain ⟨bs, hbs, hpre, -, -⟩ := C07_batches_partition cfg m smooth region read s e h
  unfold trigger at *
  rw [if_neg (not_lt.mpr h)] at *
  obtain ⟨-, -, -, hev⟩ := runBatches_prefix cfg m smooth region read (batches s e)
  generalize (runBatches cfg m smooth region read (batches s e)).1 = res at *
  -- each event lies in its batch, and below the next midnight
  have hin : ∀ p ∈ res, p.1 ∈ bs := fun p hp =>
    hpre.subset (List.mem_map_of_mem hp)
  have hevent : ∀ p ∈ res, ∀ ev ∈ p.2, p.1.1 ≤ ev.coaTime ∧ ev.coaTime ≤ p.1.2 ∧
      (isMidnight p.1.2 → ev.coaTime < p.1.2) := by
    intro p hp ev hev'
    obtain ⟨sd, hsd, heq⟩ := hev p hp
    rw [heq, mem_triggerBatch] at hev'
    have hd := hdelta _ _ _ hsd
    refine ⟨hev'.2.1, ?_, ?_⟩
    · have := hev'.2.2.1
      split at this <;> linarith
    · intro hm
      have := hev'.2.2.1
      rw [if_pos hm] at this
      linarith
  constructor
  · have hpw : bs.Pairwise (fun b c => b.2 ≤ c.1 ∧ isMidnight b.2) := by
      have hmid : bs.IsChain (fun b c => b.2 = c.1 ∧ isMidnight b.2 ∧ b.1 < b.2 ∧ c.1 < c.2) := by
        have hc := hbs.consecutive
        refine hc.imp_of_mem_imp ?_
        intro b c hb hc' hbc
        refine ⟨hbc, ?_, hbs.nonempty b hb, hbs.nonempty c hc'⟩
        rcases hbs.cut_at_midnight b hb with h1 | ⟨k, h1⟩
        · have := hbs.nonempty c hc'
          have := (hbs.inside c hc').2
          linarith
        · rw [h1]; exact isMidnight_mul k
      have htr : IsTrans (ℚ × ℚ) (fun b c => b.2 ≤ c.1 ∧ isMidnight b.2 ∧ b.1 < b.2 ∧ c.1 < c.2) :=
        ⟨fun a b c h1 h2 => ⟨by linarith [h1.1, h2.1, h1.2.2.2, h2.2.2.1], h1.2.1, h1.2.2.1, h2.2.2.2⟩⟩
      have := List.isChain_iff_pairwise.mp
        (hmid.imp (S := fun b c => b.2 ≤ c.1 ∧ isMidnight b.2 ∧ b.1 < b.2 ∧ c.1 < c.2)
          (fun b c h => ⟨le_of_eq h.1, h.2⟩))
      exact this.imp (fun h => ⟨h.1, h.2.1⟩)
    have hpw' := hpw.sublist hpre.sublist
    rw [List.pairwise_map] at hpw'
    refine hpw'.imp_of_mem ?_
    intro p q hp hq hpq e1 he1 e2 he2
    have h1 := (hevent p hp e1 he1).2.2 hpq.2
    have h2 := (hevent q hq e2 he2).1
    linarith [hpq.1]
  · intro p hp ev hev'
    have hb := hin p hp
    have h1 := hevent p hp ev hev'
    have hins := hbs.inside _ hb
    refine ⟨by linarith [h1.1], by linarith [h1.2.1], ?_⟩
    obtain ⟨k, hk1, hk2⟩ := hbs.one_day _ hb
    have hne := hbs.nonempty _ hb
    have hlt : ev.coaTime < DAY * ((k : ℚ) + 1) := by
      rcases lt_or_eq_of_le hk2 with h2 | h2
      · exact lt_of_le_of_lt h1.2.1 h2
      · have : isMidnight p.1.2 := by
          rw [h2]; have := isMidnight_mul (k + 1); push_cast at this; exact this
        have := h1.2.2 this
        unfold DAY; linarith
    rw [dayStart_eq_of (k := k) (by unfold DAY; linarith [h1.1]) hlt,
      dayStart_eq_of (k := k) (by unfold DAY; linarith) (by unfold DAY; linarith)]

/-- **C13.** Nothing is lost at a batch boundary: if scan samples are on a grid
that contains the midnights, every instant of the grid in `[s, e)` is inside the
reporting span of exactly the batch that contains it. -/
theorem C13_no_event_lost_at_boundary (cfg : Cfg) (m : Method) (smooth : List Row → List Row)
    (region : Option Region) (b : ℚ × ℚ) (sd : ScanData) (ev : Cand)
    (hd : 0 < sd.delta) (hgrid : ∃ k : ℕ, DAY = k * sd.delta) (hev : ∃ n : ℤ, ev.coaTime = n * sd.delta)
    (hin : b.1 ≤ ev.coaTime ∧ ev.coaTime < b.2)
    (href : ev ∈ refineCandidates cfg (identifyCandidates cfg (smooth sd.rows)
        (getThreshold m ((smooth sd.rows).map (Row.trig cfg.norm)) sd.sr)))
    (hreg : InRegion region ev) :
    ev ∈ (triggerBatch cfg m smooth region b.1 b.2 sd).1 := by
  rw [mem_triggerBatch]
  refine ⟨href, hin.1, ?_, hreg⟩
  split
  · rename_i hm
    obtain ⟨k, hk⟩ := (isMidnight_iff _).mp hm
    obtain ⟨d, hd'⟩ := hgrid
    obtain ⟨n, hn⟩ := hev
    have h1 : ((n : ℚ)) * sd.delta < ((d * k : ℤ) : ℚ) * sd.delta := by
      rw [← hn]; push_cast
      calc ev.coaTime < b.2 := hin.2
        _ = (d : ℚ) * k * sd.delta := by rw [hk, hd']; ring
    have h2 : (n : ℚ) < ((d * k : ℤ) : ℚ) := lt_of_mul_lt_mul_right h1 (le_of_lt hd)
    have h3 : n + 1 ≤ d * k := by exact_mod_cast h2
    have h4 : ((n : ℚ) + 1) ≤ ((d * k : ℤ) : ℚ) := by exact_mod_cast h3
    have h5 := mul_le_mul_of_nonneg_right h4 (le_of_lt hd)
    rw [hn]
    have h6 : b.2 = ((d * k : ℤ) : ℚ) * sd.delta := by rw [hk, hd']; push_cast; ring
    rw [h6]; linarith
  · exact le_of_lt hin.2

-- an event at 23:59:59 of a day whose batch ends at midnight is reported
example : (triggerBatch ⟨1, 2, false⟩ (.static 2) id none 0 86400
    ⟨[⟨86398, 1, 1, 0, 0, 0⟩, ⟨86399, 3, 1, 0, 0, 0⟩, ⟨86400, 1, 1, 0, 0, 0⟩], 1, 1⟩).1.map Cand.coaTime
    = [86399] := by decide +kernel
-- and one exactly at midnight is left to the next day's batch
example : (triggerBatch ⟨1, 2, false⟩ (.static 2) id none 0 86400
    ⟨[⟨86398, 1, 1, 0, 0, 0⟩, ⟨86399, 1, 1, 0, 0, 0⟩, ⟨86400, 3, 1, 0, 0, 0⟩], 1, 1⟩).1.map Cand.coaTime
    = [] := by decide +kernel

end QM
