import Verif.Model.Detect
import Verif.Lemmas.ScanRead
import Verif.Lemmas.Round

/-! # C01 - C06: the continuous scan and its files -/

namespace QM
open QM.Detect QM.ScanMseed

/-! ## C01 -/

/-- The period scanned in timestep `i`: the requested waveform window without
the pads (half open: the window ends one sample before the next timestep). -/
def Spec.scanned (c : Detect.Cfg) (start : ℚ) (i : ℕ) : ℚ × ℚ :=
  ((window c start i).1 + c.prePad, (window c start i).2 - c.postPad + 1 / (c.scanRate : ℚ))

/-- **C01**: the timesteps start at `start`, each is `timestep` long, the next
starts where the previous ends. -/
theorem C01_timesteps_consecutive (c : Detect.Cfg) (start : ℚ) (i : ℕ) :
    (Spec.scanned c start 0).1 = start ∧
    (Spec.scanned c start i).2 = (Spec.scanned c start i).1 + c.timestep ∧
    (Spec.scanned c start (i + 1)).1 = (Spec.scanned c start i).2 := by
  unfold Spec.scanned window Cfg.delta
  refine ⟨?_, ?_, ?_⟩ <;> push_cast <;> ring

/-- **C01**: every instant from `start` up to `stop` (one sample earlier if `stop`
is a midnight) is in exactly one of the `n` timesteps, and `n` is the least
number for which that holds: without the last one the end is not reached. -/
theorem C01_timesteps_cover (c : Detect.Cfg) (start stop : ℚ) (hts : 0 < c.timestep) (n : ℤ)
    (hn : nSteps c start stop = some n) :
    let e := if isMidnight stop then stop - 1 / (c.scanRate : ℚ) else stop
    (∀ t, start ≤ t → t < e → ∃! i : ℕ, (i : ℤ) < n ∧
      (Spec.scanned c start i).1 ≤ t ∧ t < (Spec.scanned c start i).2) ∧
    start + ((n : ℚ) - 1) * c.timestep < e := by
  intro e
  have he : e = adjustedEnd c stop := rfl
  unfold nSteps at hn
  split at hn
  · simp at hn
  · rw [Option.some.injEq] at hn
    have hsc : ∀ i : ℕ, Spec.scanned c start i =
        (start + c.timestep * i, start + c.timestep * (i + 1)) := by
      intro i
      unfold Spec.scanned window Cfg.delta
      ext <;> simp only <;> ring
    rw [← he] at hn
    have hle : (e - start) / c.timestep ≤ n := by rw [← hn]; exact Int.le_ceil _
    have hlt : (n : ℚ) - 1 < (e - start) / c.timestep := by
      have := Int.ceil_lt_add_one ((e - start) / c.timestep)
      rw [hn] at this; linarith
    rw [div_le_iff₀ hts] at hle
    rw [lt_div_iff₀ hts] at hlt
    refine ⟨?_, by linarith⟩
    intro t h1 h2
    have hfl : ∀ i : ℕ, (start + c.timestep * i ≤ t ∧ t < start + c.timestep * (i + 1)) ↔
        ⌊(t - start) / c.timestep⌋ = i := by
      intro i
      rw [Int.floor_eq_iff, le_div_iff₀ hts, div_lt_iff₀ hts]
      push_cast
      constructor <;> rintro ⟨a, b⟩ <;> constructor <;> linarith
    have hnn : 0 ≤ ⌊(t - start) / c.timestep⌋ :=
      Int.floor_nonneg.mpr (div_nonneg (by linarith) hts.le)
    obtain ⟨k, hk⟩ := Int.eq_ofNat_of_zero_le hnn
    refine ⟨k, ⟨?_, ?_⟩, ?_⟩
    · rw [← hk, Int.floor_lt, div_lt_iff₀ hts]; linarith
    · simp only [hsc]; exact (hfl k).mpr hk
    · rintro j ⟨-, hj⟩
      simp only [hsc] at hj
      have := (hfl j).mp hj
      rw [hk] at this
      exact_mod_cast this.symm

/-- **C01**: `starttime > endtime` is rejected, and only that. -/
theorem C01_bad_span_rejected (c : Detect.Cfg) (start stop : ℚ) :
    nSteps c start stop = none ↔ stop < start := by
  unfold nSteps; split <;> simp_all

/-- **C01**, edge case: an accepted call with `starttime = endtime` has no
timestep, and then the final write raises (nothing was ever appended). -/
theorem C01_empty_span_fails (c : Detect.Cfg) (t : ℚ) (hts : 0 < c.timestep)
    (outcome : ℚ × ℚ → Outcome) (jul : ℤ → ℕ) (cw : Bool) (files : Files Enc) (r : Result)
    (hr : detect c t t outcome = some r) :
    r.rows = [] ∧ detectFiles c jul cw files r = none := by
  unfold detect nSteps at hr
  simp only [gt_iff_lt, lt_irrefl, if_false, Option.map_some, Option.some.injEq] at hr
  have h0 : (⌈(adjustedEnd c t - t) / c.timestep⌉).toNat = 0 := by
    rw [Int.toNat_eq_zero, Int.ceil_le]
    apply div_nonpos_of_nonpos_of_nonneg _ hts.le
    unfold adjustedEnd Cfg.delta
    have : (0 : ℚ) ≤ 1 / (c.scanRate : ℚ) := by positivity
    split <;> linarith
  rw [h0] at hr
  subst hr
  exact ⟨rfl, rfl⟩

/-- Fifty samples per second, 300 s timesteps. -/
def exDetCfg : Detect.Cfg := ⟨300, 50, 10, 20, ["A_P", "A_S"], 1⟩
example : nSteps exDetCfg 85000 86400 = some 5 := by decide +kernel

/-! ## C02 -/

/-- What timestep `i` must record. -/
def Spec.StepRecorded (c : Detect.Cfg) (start : ℚ) (outcome : ℚ × ℚ → Outcome) (i : ℕ)
    (block : Trace Sample) (row : ℚ × List ℕ) : Prop :=
  block.start = start + c.timestep * i ∧ row.1 = start + c.timestep * i ∧
  match outcome (window c start i) with
  | .ok data avail => block.vals = data ∧ row.2 = c.cols.map avail
  | .other => False
  | _ => row.2 = c.cols.map (fun _ => 0) ∧ (∀ s ∈ block.vals, s = ⟨0, 0, 0, 0, 0⟩) ∧
      (∀ m : ℕ, c.timestep * c.scanRate = m → block.vals.length = m)

theorem loop_spec (c : Detect.Cfg) (start : ℚ) (outcome : ℚ × ℚ → Outcome) :
    ∀ (n i : ℕ), ∃ m ≤ n,
      (loop c start outcome n i).rows.length = m ∧ (loop c start outcome n i).blocks.length = m ∧
      (∀ j < m, ∃ b r, (loop c start outcome n i).blocks[j]? = some b ∧
        (loop c start outcome n i).rows[j]? = some r ∧
        Spec.StepRecorded c start outcome (i + j) b r) ∧
      (((loop c start outcome n i).completed = true ∧ m = n) ∨
        ((loop c start outcome n i).completed = false ∧ m < n ∧
          outcome (window c start (i + m)) = .other)) := by
  intro n
  induction n with
  | zero => intro i; exact ⟨0, le_rfl, rfl, rfl, by simp, Or.inl ⟨rfl, rfl⟩⟩
  | succ n ih =>
    intro i
    obtain ⟨m, hm, h1, h2, h3, h4⟩ := ih (i + 1)
    have key : ∀ (b : Trace Sample) (r : ℚ × List ℕ), Spec.StepRecorded c start outcome i b r →
        loop c start outcome (n + 1) i =
          { loop c start outcome n (i + 1) with
              blocks := b :: (loop c start outcome n (i + 1)).blocks,
              rows := r :: (loop c start outcome n (i + 1)).rows } →
        ∃ m ≤ n + 1,
          (loop c start outcome (n + 1) i).rows.length = m ∧
          (loop c start outcome (n + 1) i).blocks.length = m ∧
          (∀ j < m, ∃ b r, (loop c start outcome (n + 1) i).blocks[j]? = some b ∧
            (loop c start outcome (n + 1) i).rows[j]? = some r ∧
            Spec.StepRecorded c start outcome (i + j) b r) ∧
          (((loop c start outcome (n + 1) i).completed = true ∧ m = n + 1) ∨
            ((loop c start outcome (n + 1) i).completed = false ∧ m < n + 1 ∧
              outcome (window c start (i + m)) = .other)) := by
      intro b r hrec hl
      rw [hl]
      refine ⟨m + 1, by omega, by simp [h1], by simp [h2], ?_, ?_⟩
      · intro j hj
        cases j with
        | zero => exact ⟨b, r, rfl, rfl, hrec⟩
        | succ j =>
          obtain ⟨b', r', hb', hr', hrec'⟩ := h3 j (by omega)
          refine ⟨b', r', by simpa using hb', by simpa using hr', ?_⟩
          have : i + (j + 1) = i + 1 + j := by omega
          rw [this]; exact hrec'
      · rcases h4 with ⟨ha, hb⟩ | ⟨ha, hb, hc⟩
        · left; exact ⟨ha, by omega⟩
        · right
          refine ⟨ha, by omega, ?_⟩
          have : i + (m + 1) = i + 1 + m := by omega
          rw [this]; exact hc
    have hfail : ∀ o, (o = .archiveEmpty ∨ o = .dataGap ∨ o = .dataAvailability) →
        outcome (window c start i) = o →
        Spec.StepRecorded c start outcome i (emptyBlock c start i)
          (start + c.timestep * i, List.replicate c.cols.length 0) := by
      intro o ho hw
      refine ⟨rfl, rfl, ?_⟩
      have hz : List.replicate c.cols.length 0 = c.cols.map (fun _ => 0) := by simp
      have hv : (∀ s ∈ (emptyBlock c start i).vals, s = ⟨0, 0, 0, 0, 0⟩) := by
        intro s hs; exact List.eq_of_mem_replicate hs
      have hl : ∀ m : ℕ, c.timestep * c.scanRate = m → (emptyBlock c start i).vals.length = m := by
        intro m hm
        unfold emptyBlock
        simp only [List.length_replicate, hm]
        have := pyRound_int (m : ℤ)
        push_cast at this
        rw [this]; simp
      rcases ho with rfl | rfl | rfl <;> simp only [hw] <;> exact ⟨hz, hv, hl⟩
    cases hw : outcome (window c start i) with
    | ok data avail =>
      refine key ⟨(window c start i).1 + c.prePad, data⟩ (start + c.timestep * i, c.cols.map avail)
        ⟨?_, rfl, ?_⟩ ?_
      · simp only [window]; ring
      · simp [hw]
      · simp only [loop, hw]
    | other =>
      have hl : loop c start outcome (n + 1) i = ⟨[], [], false⟩ := by
        simp only [loop, hw]
      rw [hl]
      exact ⟨0, by omega, rfl, rfl, by simp, Or.inr ⟨rfl, by omega, by simpa using hw⟩⟩
    | archiveEmpty =>
      exact key _ _ (hfail _ (by simp) hw) (by simp only [loop, hw])
    | dataGap =>
      exact key _ _ (hfail _ (by simp) hw) (by simp only [loop, hw])
    | dataAvailability =>
      exact key _ _ (hfail _ (by simp) hw) (by simp only [loop, hw])

/-- **C02**: a completed run has exactly one row and one block per timestep, each
recording its timestep as `Spec.StepRecorded` says; it completes iff no timestep
met another exception. -/
theorem C02_one_row_and_block_per_timestep (c : Detect.Cfg) (start : ℚ)
    (outcome : ℚ × ℚ → Outcome) (n : ℕ) :
    ((loop c start outcome n 0).completed = true ↔
      ∀ i < n, outcome (window c start i) ≠ .other) ∧
    ((loop c start outcome n 0).completed = true →
      (loop c start outcome n 0).rows.length = n ∧ (loop c start outcome n 0).blocks.length = n ∧
      ∀ i < n, ∃ b r, (loop c start outcome n 0).blocks[i]? = some b ∧
        (loop c start outcome n 0).rows[i]? = some r ∧ Spec.StepRecorded c start outcome i b r) := by
  obtain ⟨m, hm, h1, h2, h3, h4⟩ := loop_spec c start outcome n 0
  simp only [Nat.zero_add] at h3 h4
  have hno : ∀ j < m, outcome (window c start j) ≠ .other := by
    intro j hj hc
    obtain ⟨b, r, -, -, hrec⟩ := h3 j hj
    have := hrec.2.2
    simp only [hc] at this
  rcases h4 with ⟨ha, hb⟩ | ⟨ha, hb, hc⟩
  · subst hb
    exact ⟨⟨fun _ => hno, fun _ => ha⟩, fun _ => ⟨h1, h2, h3⟩⟩
  · refine ⟨⟨fun h => absurd h (by rw [ha]; simp), fun h => absurd hc (h m hb)⟩,
      fun h => absurd h (by rw [ha]; simp)⟩

/-- **C02**: a run that is ended by another exception has recorded exactly the
timesteps before the first one that raised it. -/
theorem C02_other_exception_stops_run (c : Detect.Cfg) (start : ℚ) (outcome : ℚ × ℚ → Outcome)
    (n k : ℕ) (hk : k < n) (hbad : outcome (window c start k) = .other)
    (hok : ∀ i < k, outcome (window c start i) ≠ .other) :
    (loop c start outcome n 0).completed = false ∧
    (loop c start outcome n 0).rows.length = k ∧ (loop c start outcome n 0).blocks.length = k := by
  obtain ⟨m, hm, h1, h2, h3, h4⟩ := loop_spec c start outcome n 0
  simp only [Nat.zero_add] at h3 h4
  rcases h4 with ⟨ha, hb⟩ | ⟨ha, hb, hc⟩
  · exfalso
    obtain ⟨b, r, -, -, hrec⟩ := h3 k (by omega)
    have := hrec.2.2
    simp only [hbad] at this
  · have hmk : m = k := by
      rcases lt_trichotomy m k with h | h | h
      · exact absurd hc (hok m h)
      · exact h
      · exfalso
        obtain ⟨b, r, -, -, hrec⟩ := h3 k h
        have := hrec.2.2
        simp only [hbad] at this
    subst hmk
    exact ⟨ha, h1, h2⟩

/-- An archive with data only in the second timestep. -/
def exDetOutcome : ℚ × ℚ → Outcome := fun w =>
  if w.1 = 290 then .ok (List.replicate 3 ⟨2, 1, 0, 0, 0⟩) (fun _ => 1) else .dataGap
example : ∀ i < 3, exDetOutcome (window exDetCfg 0 i) ≠ .other := by
  intro i hi; unfold exDetOutcome; split <;> simp

/-! ## C03, C04 -/

section
variable {V : Type}

/-- Blocks appended one after another without gap or overlap, starting at `t`. -/
def Spec.ContiguousFrom (δ : ℚ) : ℚ → List (Trace V) → Prop
  | _, [] => True
  | t, b :: bs => b.start = t ∧ Spec.ContiguousFrom δ (t + (b.vals.length : ℚ) * δ) bs

/-- All samples appended, with their times. -/
def Spec.appended (δ : ℚ) (bs : List (Trace V)) : List (ℚ × V) :=
  bs.flatMap (fun b => b.vals.zipIdx.map (fun p : V × ℕ => (b.start + (p.2 : ℚ) * δ, p.1)))

/-- Those of one day (`d` counts days of 86400 s). -/
def Spec.ofDay (d : ℤ) (l : List (ℚ × V)) : List (ℚ × V) :=
  l.filter (fun p => decide (86400 * (d : ℚ) ≤ p.1 ∧ p.1 < 86400 * ((d : ℚ) + 1)))

/-- File contents as timestamped samples. -/
def Spec.content (δ : ℚ) (f : Option (Trace V)) : Option (List (ℚ × V)) := f.map (Trace.samples δ)

theorem contig_of_spec (δ : ℚ) (bs : List (Trace V)) :
    ∀ t, Spec.ContiguousFrom δ t bs ↔ Contig δ t bs := by
  induction bs with
  | nil => intro t; rfl
  | cons b bs ih => intro t; unfold Spec.ContiguousFrom Contig; rw [ih]

theorem appended_eq (δ : ℚ) (bs : List (Trace V)) : ∀ t, Contig δ t bs →
    Spec.appended δ bs = (⟨t, bs.flatMap Trace.vals⟩ : Trace V).samples δ := by
  induction bs with
  | nil => intro t _; rfl
  | cons b bs ih =>
    intro t h
    obtain ⟨h1, h2⟩ := h
    unfold Spec.appended
    rw [List.flatMap_cons, List.flatMap_cons, samples_append, ← ih _ h2]
    congr 1
    unfold Trace.samples
    rw [h1]

theorem ofDay_eq (d : ℤ) (l : List (ℚ × V)) :
    Spec.ofDay d l = l.filter (fun p => decide (dayOf p.1 = d)) := by
  unfold Spec.ofDay dayOf DAY
  apply List.filter_congr
  intro p _
  rw [decide_eq_decide, Int.floor_eq_iff, le_div_iff₀ (by norm_num), div_lt_iff₀ (by norm_num)]
  constructor <;> rintro ⟨a, b⟩ <;> constructor <;> linarith

/-- Everything the two properties assume about the appends: `sr` samples per
second, the first sample on the sample grid counted from midnight, blocks
contiguous, none empty, none longer than a day. -/
structure Spec.GoodAppends (sr : ℕ) (t0 : ℚ) (bs : List (Trace V)) : Prop where
  sr_pos : 0 < sr
  on_grid : ∃ k : ℤ, t0 = k / (sr : ℚ)
  contiguous : Spec.ContiguousFrom (1 / (sr : ℚ)) t0 bs
  nonempty : ∀ b ∈ bs, b.vals ≠ []
  at_most_a_day : ∀ b ∈ bs, b.vals.length ≤ 86400 * sr

theorem good_expected {sr : ℕ} {t0 : ℚ} {bs : List (Trace V)} (h : Spec.GoodAppends sr t0 bs)
    (jul : ℤ → ℕ) (hjul : ∀ d, jul d ≠ jul (d + 1)) (cw : Bool) (f0 : Files V) :
    ∃ k0 : ℤ, t0 = (k0 : ℚ) * (1 / (sr : ℚ)) ∧ 0 < 86400 * sr ∧
      DAY = ((86400 * sr : ℕ) : ℚ) * (1 / (sr : ℚ)) ∧
      appendAll (1 / (sr : ℚ)) jul cw (init f0) bs =
        some (expected (86400 * sr) (1 / (sr : ℚ)) cw f0 k0 (bs.flatMap Trace.vals)) ∧
      Spec.appended (1 / (sr : ℚ)) bs =
        (⟨(k0 : ℚ) * (1 / (sr : ℚ)), bs.flatMap Trace.vals⟩ : Trace V).samples (1 / (sr : ℚ)) := by
  obtain ⟨k0, hk0⟩ := h.on_grid
  have hsr : (sr : ℚ) ≠ 0 := by exact_mod_cast h.sr_pos.ne'
  have hN : 0 < 86400 * sr := by have := h.sr_pos; omega
  have hD : DAY = ((86400 * sr : ℕ) : ℚ) * (1 / (sr : ℚ)) := by
    unfold DAY; push_cast; field_simp
  have ht : t0 = (k0 : ℚ) * (1 / (sr : ℚ)) := by rw [hk0]; field_simp
  have hc : Contig (1 / (sr : ℚ)) ((k0 : ℚ) * (1 / (sr : ℚ))) bs := by
    rw [← contig_of_spec, ← ht]; exact h.contiguous
  refine ⟨k0, ht, hN, hD, ?_, appended_eq _ _ _ hc⟩
  rw [init_eq_expected hN cw f0 k0]
  have := appendAll_expected hN hD jul hjul cw f0 k0 bs [] (by simpa using hc)
    (fun b hb => ⟨h.nonempty b hb, h.at_most_a_day b hb⟩)
  simpa using this

theorem content_or {N : ℕ} {δ : ℚ} (hN : 0 < N) (hδ : DAY = N * δ) (k0 : ℤ) (all : List V)
    (d : ℤ) (f : Option (Trace V)) :
    Spec.content δ ((dayTr N δ k0 all d).or f) =
      if Spec.ofDay d ((⟨(k0 : ℚ) * δ, all⟩ : Trace V).samples δ) = [] then Spec.content δ f
      else some (Spec.ofDay d ((⟨(k0 : ℚ) * δ, all⟩ : Trace V).samples δ)) := by
  rw [ofDay_eq, ← dayTr_samples hN hδ]
  cases h : dayTr N δ k0 all d with
  | none => simp [Spec.content]
  | some tr =>
    have := dayTr_ne h
    simp only [Option.some_or, Option.map_some, Option.getD_some, samples_ne_nil, this, if_false,
      Spec.content]

/-- **C03**: when the run ends, the file of every day on which samples were
appended holds exactly that day's samples, in order, and other files are as
before. -/
theorem C03_day_files_hold_each_sample_once (sr : ℕ) (t0 : ℚ) (bs : List (Trace V))
    (h : Spec.GoodAppends sr t0 bs) (hne : bs ≠ []) (jul : ℤ → ℕ)
    (hjul : ∀ d, jul d ≠ jul (d + 1)) (cw : Bool) (f0 : Files V) :
    ∃ s s', appendAll (1 / (sr : ℚ)) jul cw (init f0) bs = some s ∧ finish s = some s' ∧
      ∀ d, Spec.content (1 / (sr : ℚ)) (s'.files d) =
        if Spec.ofDay d (Spec.appended (1 / (sr : ℚ)) bs) = []
        then Spec.content (1 / (sr : ℚ)) (f0 d)
        else some (Spec.ofDay d (Spec.appended (1 / (sr : ℚ)) bs)) := by
  obtain ⟨k0, ht, hN, hD, happ, hall⟩ := good_expected h jul hjul cw f0
  have hvne : bs.flatMap Trace.vals ≠ [] := by
    cases bs with
    | nil => exact absurd rfl hne
    | cons b bs =>
      have := h.nonempty b List.mem_cons_self
      simp [this]
  obtain ⟨s', hs', hf⟩ := finish_expected hN hD cw f0 k0 _ hvne
  refine ⟨_, s', happ, hs', ?_⟩
  intro d
  rw [hf, hall]
  exact content_or hN hD k0 _ d (f0 d)

/-- **C03**: between appends the stream in memory holds exactly the samples of
the current day (the day of the next sample), never of two days. -/
theorem C03_stream_holds_one_day (sr : ℕ) (t0 : ℚ) (bs : List (Trace V))
    (h : Spec.GoodAppends sr t0 bs) (jul : ℤ → ℕ) (hjul : ∀ d, jul d ≠ jul (d + 1)) (cw : Bool)
    (f0 : Files V) :
    ∃ s, appendAll (1 / (sr : ℚ)) jul cw (init f0) bs = some s ∧
      (Spec.content (1 / (sr : ℚ)) s.stream).getD [] =
        Spec.ofDay ⌊(t0 + ((bs.flatMap Trace.vals).length : ℚ) * (1 / (sr : ℚ))) / 86400⌋
          (Spec.appended (1 / (sr : ℚ)) bs) := by
  obtain ⟨k0, ht, hN, hD, happ, hall⟩ := good_expected h jul hjul cw f0
  refine ⟨_, happ, ?_⟩
  have hday := dayOf_idx hN hD (k0 + (bs.flatMap Trace.vals).length)
  have e : t0 + ((bs.flatMap Trace.vals).length : ℚ) * (1 / (sr : ℚ)) =
      ((k0 + (bs.flatMap Trace.vals).length : ℤ) : ℚ) * (1 / (sr : ℚ)) := by
    rw [ht]; push_cast; ring
  rw [e]
  unfold dayOf DAY at hday
  rw [hday, hall, ofDay_eq, ← dayTr_samples hN hD]
  rfl

/-- **C04**: a crash after any append with continuous writing leaves on disk
every sample appended so far (and each in its own day's file). -/
theorem C04_continuous_write_durable (sr : ℕ) (t0 : ℚ) (bs : List (Trace V))
    (h : Spec.GoodAppends sr t0 bs) (jul : ℤ → ℕ) (hjul : ∀ d, jul d ≠ jul (d + 1))
    (f0 : Files V) :
    ∃ s, appendAll (1 / (sr : ℚ)) jul true (init f0) bs = some s ∧
      ∀ d, Spec.ofDay d (Spec.appended (1 / (sr : ℚ)) bs) ≠ [] →
        Spec.content (1 / (sr : ℚ)) (s.files d) =
          some (Spec.ofDay d (Spec.appended (1 / (sr : ℚ)) bs)) := by
  obtain ⟨k0, ht, hN, hD, happ, hall⟩ := good_expected h jul hjul true f0
  refine ⟨_, happ, ?_⟩
  intro d hd
  have hfile : (expected (86400 * sr) (1 / (sr : ℚ)) true f0 k0 (bs.flatMap Trace.vals)).files d =
      (dayTr (86400 * sr) (1 / (sr : ℚ)) k0 (bs.flatMap Trace.vals) d).or (f0 d) := by
    unfold expected
    simp only
    split
    · rfl
    · rename_i hnot
      rw [hall, ofDay_eq, ← dayTr_samples hN hD] at hd
      have hnone : dayTr (86400 * sr) (1 / (sr : ℚ)) k0 (bs.flatMap Trace.vals) d = none := by
        obtain ⟨-, h2⟩ := ediv_bounds hN (k0 + (bs.flatMap Trace.vals).length)
        have hlt : (k0 + ((bs.flatMap Trace.vals).length : ℤ)) / ((86400 * sr : ℕ) : ℤ) < d := by
          push Not at hnot
          have := hnot.2 trivial
          omega
        have h3 : ((k0 + ((bs.flatMap Trace.vals).length : ℤ)) / ((86400 * sr : ℕ) : ℤ) + 1) *
            ((86400 * sr : ℕ) : ℤ) ≤ d * ((86400 * sr : ℕ) : ℤ) :=
          mul_le_mul_of_nonneg_right (by omega) (by omega)
        rw [add_mul, one_mul] at h3
        unfold dayTr
        simp only
        rw [if_neg (by omega)]
      rw [hnone] at hd
      simp at hd
  rw [hfile, content_or hN hD, ← hall, if_neg hd]

/-- **C04**: without continuous writing a crash after any append leaves on disk
every day that has been completed (its end is not after the next sample). -/
theorem C04_completed_days_durable (sr : ℕ) (t0 : ℚ) (bs : List (Trace V))
    (h : Spec.GoodAppends sr t0 bs) (jul : ℤ → ℕ) (hjul : ∀ d, jul d ≠ jul (d + 1)) (cw : Bool)
    (f0 : Files V) :
    ∃ s, appendAll (1 / (sr : ℚ)) jul cw (init f0) bs = some s ∧
      ∀ d : ℤ, 86400 * ((d : ℚ) + 1) ≤ t0 + ((bs.flatMap Trace.vals).length : ℚ) * (1 / (sr : ℚ)) →
        Spec.content (1 / (sr : ℚ)) (s.files d) =
          if Spec.ofDay d (Spec.appended (1 / (sr : ℚ)) bs) = []
          then Spec.content (1 / (sr : ℚ)) (f0 d)
          else some (Spec.ofDay d (Spec.appended (1 / (sr : ℚ)) bs)) := by
  obtain ⟨k0, ht, hN, hD, happ, hall⟩ := good_expected h jul hjul cw f0
  refine ⟨_, happ, ?_⟩
  intro d hd
  have hday := dayOf_idx hN hD (k0 + (bs.flatMap Trace.vals).length)
  have e : t0 + ((bs.flatMap Trace.vals).length : ℚ) * (1 / (sr : ℚ)) =
      ((k0 + (bs.flatMap Trace.vals).length : ℤ) : ℚ) * (1 / (sr : ℚ)) := by
    rw [ht]; push_cast; ring
  rw [e] at hd
  have hlt : d < (k0 + ((bs.flatMap Trace.vals).length : ℤ)) / ((86400 * sr : ℕ) : ℤ) := by
    rw [← hday]
    unfold dayOf DAY
    have : d + 1 ≤ ⌊((k0 + ((bs.flatMap Trace.vals).length : ℤ) : ℤ) : ℚ) * (1 / (sr : ℚ)) / 86400⌋ := by
      rw [Int.le_floor, le_div_iff₀ (by norm_num)]
      push_cast at hd ⊢; linarith
    omega
  have hfile : (expected (86400 * sr) (1 / (sr : ℚ)) cw f0 k0 (bs.flatMap Trace.vals)).files d =
      (dayTr (86400 * sr) (1 / (sr : ℚ)) k0 (bs.flatMap Trace.vals) d).or (f0 d) := by
    unfold expected
    simp only
    rw [if_pos (Or.inl hlt)]
  rw [hfile, content_or hN hD, ← hall]

/-- **C04**: both modes leave the same files when the run ends normally. -/
theorem C04_modes_agree (sr : ℕ) (t0 : ℚ) (bs : List (Trace V))
    (h : Spec.GoodAppends sr t0 bs) (hne : bs ≠ []) (jul : ℤ → ℕ)
    (hjul : ∀ d, jul d ≠ jul (d + 1)) (f0 : Files V) :
    ∃ s₁ s₂ f, (appendAll (1 / (sr : ℚ)) jul true (init f0) bs).bind finish = some s₁ ∧
      (appendAll (1 / (sr : ℚ)) jul false (init f0) bs).bind finish = some s₂ ∧
      s₁.files = f ∧ s₂.files = f := by
  obtain ⟨k0, ht, hN, hD, happ, hall⟩ := good_expected h jul hjul true f0
  obtain ⟨k1, ht1, -, -, happ', -⟩ := good_expected h jul hjul false f0
  have hk : k1 = k0 := by
    rw [ht] at ht1
    have hsr : (sr : ℚ) ≠ 0 := by exact_mod_cast h.sr_pos.ne'
    have := mul_right_cancel₀ (by simpa using hsr) ht1
    exact_mod_cast this.symm
  subst hk
  have hvne : bs.flatMap Trace.vals ≠ [] := by
    cases bs with
    | nil => exact absurd rfl hne
    | cons b bs =>
      have := h.nonempty b List.mem_cons_self
      simp [this]
  obtain ⟨s₁, hs₁, hf₁⟩ := finish_expected hN hD true f0 k1 _ hvne
  obtain ⟨s₂, hs₂, hf₂⟩ := finish_expected hN hD false f0 k1 _ hvne
  exact ⟨s₁, s₂, _, by rw [happ]; exact hs₁, by rw [happ']; exact hs₂, hf₁, hf₂⟩

end

/-- Two blocks of two samples a second apart, the second across a midnight. -/
def exBlocks : List (Trace ℕ) := [⟨86397, [1, 2]⟩, ⟨86399, [3, 4]⟩]
example : Spec.GoodAppends 1 86397 exBlocks := by
  refine ⟨by norm_num, ⟨86397, by norm_num⟩, ?_, ?_, ?_⟩
  · refine ⟨rfl, ?_, trivial⟩; norm_num
  · intro b hb; simp [exBlocks] at hb; rcases hb with rfl | rfl <;> simp
  · intro b hb; simp [exBlocks] at hb; rcases hb with rfl | rfl <;> simp
example : ∀ d : ℤ, (d % 365).toNat ≠ ((d + 1) % 365).toNat := by intro d; omega

end QM
