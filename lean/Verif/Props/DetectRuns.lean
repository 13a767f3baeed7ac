import Verif.Model.DetectRuns
import Verif.Props.ScanIO
import Verif.Props.Availability
import Mathlib.Data.List.TakeWhile
import Mathlib.Data.List.Dedup

/-!
# Scanning in several calls (C111)
-/

namespace QM

open QM.ScanMseed QM.Detect QM.DetectRuns

/-! ## Specification -/

/-- The timesteps a call records: all up to the first that raises an unforeseen exception, and no more
than were done when the process was killed. -/
def Spec.stepsDone (k : Call) : List ℕ :=
  let all := (List.range ⌈(adjustedEnd k.cfg k.stop - k.start) / k.cfg.timestep⌉.toNat).takeWhile
    fun i => match k.outcome (window k.cfg k.start i) with
      | .other => false
      | _ => true
  match k.killed with
  | .afterAppends n => all.take n
  | _ => all

/-- The samples recorded for one timestep, with their times: what was computed, or zeros. -/
def Spec.stepSamples (k : Call) (i : ℕ) : List (ℚ × Enc) :=
  (match k.outcome (window k.cfg k.start i) with
    | .ok data _ => data.map (encode k.cfg.ucf)
    | _ => List.replicate ⌊k.cfg.timestep * k.cfg.scanRate⌋.toNat
        (encode k.cfg.ucf ⟨0, 0, 0, 0, 0⟩)).zipIdx.map
    fun p : Enc × ℕ => (k.start + k.cfg.timestep * i + (p.2 : ℚ) / k.cfg.scanRate, p.1)

/-- The availability recorded for one timestep. -/
def Spec.stepAvail (k : Call) (i : ℕ) : ℚ × List (Option ℤ) :=
  (k.start + k.cfg.timestep * i, match k.outcome (window k.cfg k.start i) with
    | .ok _ avail => k.cfg.cols.map fun c => some (avail c : ℤ)
    | _ => k.cfg.cols.map fun _ => some 0)

/-- All samples of a call. -/
def Spec.scanOf (k : Call) : List (ℚ × Enc) := (Spec.stepsDone k).flatMap (Spec.stepSamples k)

/-- All rows of availability of a call. -/
def Spec.availOf (k : Call) : List (ℚ × List (Option ℤ)) :=
  (Spec.stepsDone k).map (Spec.stepAvail k)

/-- No unforeseen exception among the timesteps of the call. -/
def Spec.Clean (k : Call) : Prop :=
  ∀ i : ℕ, i < ⌈(adjustedEnd k.cfg k.stop - k.start) / k.cfg.timestep⌉.toNat →
    k.outcome (window k.cfg k.start i) ≠ .other

/-- The scan of the call was completed. -/
def Spec.ScanDone (k : Call) : Prop := Spec.Clean k ∧ ∀ n, k.killed ≠ .afterAppends n

/-- The samples of day `d` reach the disk: there are some, and the scan was completed, or every append is
written, or the day was over before the process ended. -/
def Spec.Leaves (k : Call) (d : ℤ) : Prop :=
  Spec.ofDay d (Spec.scanOf k) ≠ [] ∧
    (Spec.ScanDone k ∨ k.cw = true ∨
      86400 * ((d : ℚ) + 1) ≤ k.start + k.cfg.timestep * ((Spec.stepsDone k).length : ℚ))

/-- Calls to which the property applies: `sr` samples a second, a timestep of at least one sample
and at most a day, the start on the sample grid, `timestep * sr` samples for each timestep
computed, and at least one timestep. -/
structure Spec.GoodCall (sr : ℕ) (k : Call) : Prop where
  rate : k.cfg.scanRate = sr
  rate_pos : 0 < sr
  whole : ∃ m : ℕ, 0 < m ∧ k.cfg.timestep * sr = m ∧
    ∀ (i : ℕ) data avail, k.outcome (window k.cfg k.start i) = .ok data avail → data.length = m
  at_most_a_day : k.cfg.timestep ≤ 86400
  on_grid : ∃ j : ℤ, k.start = j / (sr : ℚ)
  nonempty : k.start < adjustedEnd k.cfg k.stop

/-! ## Blocks and rows of a call -/

def notOther (k : Call) (i : ℕ) : Bool :=
  match k.outcome (window k.cfg k.start i) with
  | .other => false
  | _ => true

def blockOf (k : Call) (i : ℕ) : Trace Sample :=
  match k.outcome (window k.cfg k.start i) with
  | .ok data _ => ⟨(window k.cfg k.start i).1 + k.cfg.prePad, data⟩
  | _ => emptyBlock k.cfg k.start i

def rowOf (k : Call) (i : ℕ) : ℚ × List ℕ :=
  (k.start + k.cfg.timestep * i, match k.outcome (window k.cfg k.start i) with
  | .ok _ avail => k.cfg.cols.map avail
  | _ => List.replicate k.cfg.cols.length 0)

theorem loop_eq (k : Call) : ∀ n i : ℕ,
    (loop k.cfg k.start k.outcome n i).blocks =
      ((List.range' i n).takeWhile (notOther k)).map (blockOf k) ∧
    (loop k.cfg k.start k.outcome n i).rows =
      ((List.range' i n).takeWhile (notOther k)).map (rowOf k) ∧
    ((loop k.cfg k.start k.outcome n i).completed = true ↔
      ∀ j, i ≤ j → j < i + n → k.outcome (window k.cfg k.start j) ≠ .other) := by
  intro n
  induction n with
  | zero =>
    intro i
    refine ⟨rfl, rfl, ?_⟩
    simp only [loop, true_iff]
    intro j h1 h2; omega
  | succ n ih =>
    intro i
    obtain ⟨h1, h2, h3⟩ := ih (i + 1)
    have key : k.outcome (window k.cfg k.start i) ≠ .other →
        ((∀ j, i + 1 ≤ j → j < i + 1 + n → k.outcome (window k.cfg k.start j) ≠ .other) ↔
          ∀ j, i ≤ j → j < i + (n + 1) → k.outcome (window k.cfg k.start j) ≠ .other) := by
      intro hi
      constructor
      · intro h j hj1 hj2
        rcases Nat.eq_or_lt_of_le hj1 with rfl | hlt
        · exact hi
        · exact h j hlt (by omega)
      · intro h j hj1 hj2
        exact h j (by omega) (by omega)
    rw [List.range'_succ]
    cases hw : k.outcome (window k.cfg k.start i) with
    | other =>
      simp only [loop, hw, List.takeWhile_cons, notOther]
      refine ⟨rfl, rfl, ?_⟩
      simp only [Bool.false_eq_true, false_iff]
      exact fun h => h i le_rfl (by omega) hw
    | ok data avail =>
      simp only [loop, hw, List.takeWhile_cons, notOther, if_true, List.map_cons, h1, h2, h3]
      refine ⟨?_, ?_, key (by rw [hw]; simp)⟩ <;> simp [blockOf, rowOf, hw]
    | archiveEmpty =>
      simp only [loop, hw, List.takeWhile_cons, notOther, if_true, List.map_cons, h1, h2, h3]
      refine ⟨?_, ?_, key (by rw [hw]; simp)⟩ <;> simp [blockOf, rowOf, hw]
    | dataGap =>
      simp only [loop, hw, List.takeWhile_cons, notOther, if_true, List.map_cons, h1, h2, h3]
      refine ⟨?_, ?_, key (by rw [hw]; simp)⟩ <;> simp [blockOf, rowOf, hw]
    | dataAvailability =>
      simp only [loop, hw, List.takeWhile_cons, notOther, if_true, List.map_cons, h1, h2, h3]
      refine ⟨?_, ?_, key (by rw [hw]; simp)⟩ <;> simp [blockOf, rowOf, hw]

/-- The loop of a call, as far as it got. -/
def doneOf (k : Call) : Result :=
  cut (loop k.cfg k.start k.outcome
    ⌈(adjustedEnd k.cfg k.stop - k.start) / k.cfg.timestep⌉.toNat 0) k.killed

theorem doneOf_blocks (k : Call) : (doneOf k).blocks = (Spec.stepsDone k).map (blockOf k) := by
  have h := (loop_eq k ⌈(adjustedEnd k.cfg k.stop - k.start) / k.cfg.timestep⌉.toNat 0).1
  rw [← List.range_eq_range'] at h
  unfold doneOf Spec.stepsDone cut
  cases k.killed <;> simp only [h, List.map_take] <;> rfl

theorem doneOf_rows (k : Call) : (doneOf k).rows = (Spec.stepsDone k).map (rowOf k) := by
  have h := (loop_eq k ⌈(adjustedEnd k.cfg k.stop - k.start) / k.cfg.timestep⌉.toNat 0).2.1
  rw [← List.range_eq_range'] at h
  unfold doneOf Spec.stepsDone cut
  cases k.killed <;> simp only [h, List.map_take] <;> rfl

theorem doneOf_completed (k : Call) : (doneOf k).completed = true ↔ Spec.ScanDone k := by
  have h := (loop_eq k ⌈(adjustedEnd k.cfg k.stop - k.start) / k.cfg.timestep⌉.toNat 0).2.2
  simp only [Nat.zero_le, true_implies, Nat.zero_add] at h
  unfold doneOf Spec.ScanDone Spec.Clean cut
  cases k.killed <;> simp [h]

/-! ## The files of one call -/

theorem contiguous_take {V : Type} (δ : ℚ) (bs : List (Trace V)) : ∀ (t : ℚ) (n : ℕ),
    Spec.ContiguousFrom δ t bs → Spec.ContiguousFrom δ t (bs.take n) := by
  induction bs with
  | nil => intro t n h; simpa using h
  | cons b bs ih =>
    intro t n h
    cases n with
    | zero => exact trivial
    | succ n => exact ⟨h.1, ih _ n h.2⟩

theorem goodAppends_take {V : Type} {sr : ℕ} {t0 : ℚ} {bs : List (Trace V)}
    (h : Spec.GoodAppends sr t0 bs) (n : ℕ) : Spec.GoodAppends sr t0 (bs.take n) :=
  ⟨h.sr_pos, h.on_grid, contiguous_take _ _ _ n h.contiguous,
    fun b hb => h.nonempty b (List.mem_of_mem_take hb),
    fun b hb => h.at_most_a_day b (List.mem_of_mem_take hb)⟩

/-- What is on disk after some appends, without the final write. -/
theorem appends_on_disk {V : Type} (sr : ℕ) (t0 : ℚ) (bs : List (Trace V))
    (h : Spec.GoodAppends sr t0 bs) (jul : ℤ → ℕ) (hjul : ∀ d, jul d ≠ jul (d + 1)) (cw : Bool)
    (f0 : ScanMseed.Files V) :
    ∃ s, appendAll (1 / (sr : ℚ)) jul cw (ScanMseed.init f0) bs = some s ∧
      ∀ d : ℤ, Spec.content (1 / (sr : ℚ)) (s.files d) =
        if Spec.ofDay d (Spec.appended (1 / (sr : ℚ)) bs) ≠ [] ∧ (cw = true ∨
          86400 * ((d : ℚ) + 1) ≤ t0 + ((bs.flatMap Trace.vals).length : ℚ) * (1 / (sr : ℚ)))
        then some (Spec.ofDay d (Spec.appended (1 / (sr : ℚ)) bs))
        else Spec.content (1 / (sr : ℚ)) (f0 d) := by
  obtain ⟨k0, ht, hN, hD, happ, hall⟩ := good_expected h jul hjul cw f0
  refine ⟨_, happ, ?_⟩
  intro d
  have hday := dayOf_idx hN hD (k0 + (bs.flatMap Trace.vals).length)
  have e : t0 + ((bs.flatMap Trace.vals).length : ℚ) * (1 / (sr : ℚ)) =
      ((k0 + (bs.flatMap Trace.vals).length : ℤ) : ℚ) * (1 / (sr : ℚ)) := by
    rw [ht]; push_cast; ring
  have hiff : 86400 * ((d : ℚ) + 1) ≤ t0 + ((bs.flatMap Trace.vals).length : ℚ) * (1 / (sr : ℚ)) ↔
      d < (k0 + ((bs.flatMap Trace.vals).length : ℤ)) / ((86400 * sr : ℕ) : ℤ) := by
    rw [e, ← hday]
    unfold dayOf DAY
    rw [← Int.add_one_le_iff, Int.le_floor, le_div_iff₀ (by norm_num)]
    push_cast
    rw [mul_comm]
  unfold expected
  simp only [hiff]
  split
  · rename_i hc
    rw [content_or hN hD, ← hall]
    by_cases hA : Spec.ofDay d (Spec.appended (1 / (sr : ℚ)) bs) = []
    · rw [if_pos hA, if_neg (fun hx => hx.1 hA)]
    · rw [if_neg hA, if_pos ⟨hA, by tauto⟩]
  · rename_i hc
    rw [if_neg]
    rintro ⟨hA, hcw | hlt⟩
    · have hgt : (k0 + ((bs.flatMap Trace.vals).length : ℤ)) / ((86400 * sr : ℕ) : ℤ) < d := by
        push Not at hc
        have := hc.2 hcw
        omega
      rw [hall, ofDay_eq, ← dayTr_samples hN hD] at hA
      have hnone : dayTr (86400 * sr) (1 / (sr : ℚ)) k0 (bs.flatMap Trace.vals) d = none := by
        obtain ⟨-, h2⟩ := ediv_bounds hN (k0 + (bs.flatMap Trace.vals).length)
        have h3 : ((k0 + ((bs.flatMap Trace.vals).length : ℤ)) / ((86400 * sr : ℕ) : ℤ) + 1) *
            ((86400 * sr : ℕ) : ℤ) ≤ d * ((86400 * sr : ℕ) : ℤ) :=
          mul_le_mul_of_nonneg_right (by omega) (by omega)
        rw [add_mul, one_mul] at h3
        unfold dayTr
        simp only
        rw [if_neg (by omega)]
      rw [hnone] at hA
      simp at hA
    · exact hc (Or.inl hlt)

theorem blockOf_start (k : Call) (i : ℕ) : (blockOf k i).start = k.start + k.cfg.timestep * i := by
  unfold blockOf
  cases k.outcome (window k.cfg k.start i) with
  | ok data avail => simp only [window]; ring
  | _ => rfl

theorem pyRound_nat (m : ℕ) : (pyRound (m : ℚ)).toNat = m := by
  have := pyRound_int (m : ℤ)
  push_cast at this
  rw [this]; simp

theorem blockOf_len {sr : ℕ} {k : Call} (h : Spec.GoodCall sr k) :
    ∃ m : ℕ, 0 < m ∧ k.cfg.timestep * sr = m ∧ ∀ i, (blockOf k i).vals.length = m := by
  obtain ⟨m, hm0, hm, hok⟩ := h.whole
  refine ⟨m, hm0, hm, ?_⟩
  intro i
  unfold blockOf
  cases hw : k.outcome (window k.cfg k.start i) <;>
    simp only [emptyBlock, List.length_replicate, h.rate, hm, pyRound_nat]
  exact hok _ _ _ hw

theorem stepSamples_eq {sr : ℕ} {k : Call} (h : Spec.GoodCall sr k) (i : ℕ) :
    (encBlock k.cfg.ucf (blockOf k i)).vals.zipIdx.map
      (fun p : Enc × ℕ => ((encBlock k.cfg.ucf (blockOf k i)).start + (p.2 : ℚ) * (1 / (sr : ℚ)), p.1)) =
    Spec.stepSamples k i := by
  obtain ⟨m, hm0, hm, hok⟩ := h.whole
  have hs : (encBlock k.cfg.ucf (blockOf k i)).start = k.start + k.cfg.timestep * i :=
    blockOf_start k i
  rw [hs]
  unfold Spec.stepSamples
  have hv : (encBlock k.cfg.ucf (blockOf k i)).vals =
      (match k.outcome (window k.cfg k.start i) with
        | .ok data _ => data.map (encode k.cfg.ucf)
        | _ => List.replicate ⌊k.cfg.timestep * k.cfg.scanRate⌋.toNat
          (encode k.cfg.ucf ⟨0, 0, 0, 0, 0⟩)) := by
    unfold encBlock blockOf
    cases k.outcome (window k.cfg k.start i) <;>
      simp only [emptyBlock, List.map_replicate, h.rate, hm, pyRound_nat, Int.floor_natCast,
        Int.toNat_natCast]
  rw [hv, h.rate]
  apply List.map_congr_left
  intro p _
  rw [mul_one_div]

theorem appended_doneOf {sr : ℕ} {k : Call} (h : Spec.GoodCall sr k) :
    Spec.appended (1 / (sr : ℚ)) ((doneOf k).blocks.map (encBlock k.cfg.ucf)) = Spec.scanOf k := by
  unfold Spec.appended Spec.scanOf
  rw [doneOf_blocks, List.map_map, List.flatMap_map]
  congr 1
  funext i
  exact stepSamples_eq h i

theorem vals_length {sr : ℕ} {k : Call} (h : Spec.GoodCall sr k) :
    ((((doneOf k).blocks.map (encBlock k.cfg.ucf)).flatMap Trace.vals).length : ℚ) * (1 / (sr : ℚ)) =
      k.cfg.timestep * ((Spec.stepsDone k).length : ℚ) := by
  obtain ⟨m, hm0, hm, hl⟩ := blockOf_len h
  have hsr : (sr : ℚ) ≠ 0 := by exact_mod_cast h.rate_pos.ne'
  have : ((((doneOf k).blocks.map (encBlock k.cfg.ucf)).flatMap Trace.vals).length) =
      (Spec.stepsDone k).length * m := by
    rw [doneOf_blocks, List.map_map, List.flatMap_map, List.length_flatMap]
    have : (fun i => ((encBlock k.cfg.ucf ∘ blockOf k) i).vals.length) = fun _ : ℕ => m := by
      funext i
      simp [encBlock, hl]
    rw [this]
    simp
  rw [this]
  push_cast
  rw [← hm]
  field_simp

theorem steps_pos {sr : ℕ} {k : Call} (h : Spec.GoodCall sr k) :
    0 < ⌈(adjustedEnd k.cfg k.stop - k.start) / k.cfg.timestep⌉.toNat := by
  obtain ⟨m, hm0, hm, -⟩ := h.whole
  have hsr : (0 : ℚ) < sr := by exact_mod_cast h.rate_pos
  have hts : 0 < k.cfg.timestep := by
    have : (0 : ℚ) < m := by exact_mod_cast hm0
    rw [← hm] at this
    exact pos_of_mul_pos_left this hsr.le
  have : 0 < ⌈(adjustedEnd k.cfg k.stop - k.start) / k.cfg.timestep⌉ := by
    rw [Int.ceil_pos]
    exact div_pos (by linarith [h.nonempty]) hts
  omega

theorem detect_good {sr : ℕ} {k : Call} (h : Spec.GoodCall sr k) :
    detect k.cfg k.start k.stop k.outcome = some (loop k.cfg k.start k.outcome
      ⌈(adjustedEnd k.cfg k.stop - k.start) / k.cfg.timestep⌉.toNat 0) := by
  have hsr : (0 : ℚ) < k.cfg.scanRate := by rw [h.rate]; exact_mod_cast h.rate_pos
  have hle : k.start ≤ k.stop := by
    have h1 := h.nonempty
    have h2 : (0 : ℚ) < 1 / (k.cfg.scanRate : ℚ) := by positivity
    unfold adjustedEnd Detect.Cfg.delta at h1
    split at h1 <;> linarith
  unfold detect nSteps
  rw [if_neg (not_lt.mpr hle)]
  rfl

theorem good_doneOf {sr : ℕ} {k : Call} (h : Spec.GoodCall sr k) :
    Spec.GoodAppends sr k.start ((doneOf k).blocks.map (encBlock k.cfg.ucf)) := by
  obtain ⟨m, hm0, hm, hok⟩ := h.whole
  obtain ⟨j, hj⟩ := h.on_grid
  have hg := C03_detect_appends_good k.cfg k.start k.outcome
    ⌈(adjustedEnd k.cfg k.stop - k.start) / k.cfg.timestep⌉.toNat m (by rw [h.rate]; exact h.rate_pos)
    (by rw [h.rate]; exact hm) hm0 h.at_most_a_day j (by rw [h.rate]; exact hj) hok
  rw [h.rate] at hg
  unfold doneOf cut
  cases k.killed with
  | never => exact hg
  | beforeAvailability => exact hg
  | afterAppends n =>
    simp only [List.map_take]
    exact goodAppends_take hg n

open Classical in
/-- The scanmseed files after one call. -/
theorem call_scan {sr : ℕ} {k : Call} (h : Spec.GoodCall sr k) (jul : ℤ → ℕ)
    (hjul : ∀ d, jul d ≠ jul (d + 1)) (f0 : ScanMseed.Files Enc) :
    ∃ s, detectFiles k.cfg jul k.cw f0 (doneOf k) = some s ∧
      ∀ d, Spec.content (1 / (sr : ℚ)) (s.files d) =
        if Spec.Leaves k d then some (Spec.ofDay d (Spec.scanOf k))
        else Spec.content (1 / (sr : ℚ)) (f0 d) := by
  have hg := good_doneOf h
  have hδ : k.cfg.delta = 1 / (sr : ℚ) := by unfold Detect.Cfg.delta; rw [h.rate]
  by_cases hd : Spec.ScanDone k
  · have hc := (doneOf_completed k).mpr hd
    have hne : (doneOf k).blocks.map (encBlock k.cfg.ucf) ≠ [] := by
      rw [doneOf_blocks, Ne, List.map_eq_nil_iff, List.map_eq_nil_iff]
      unfold Spec.stepsDone
      have hp := steps_pos h
      obtain ⟨hcl, hk⟩ := hd
      have h0 := hcl 0 hp
      have hx : (List.range ⌈(adjustedEnd k.cfg k.stop - k.start) / k.cfg.timestep⌉.toNat).takeWhile
          (notOther k) ≠ [] := by
        rw [List.range_eq_range']
        obtain ⟨n, hn⟩ : ∃ n, ⌈(adjustedEnd k.cfg k.stop - k.start) / k.cfg.timestep⌉.toNat = n + 1 :=
          ⟨_, (Nat.succ_pred_eq_of_pos hp).symm⟩
        rw [hn, List.range'_succ, List.takeWhile_cons]
        have : notOther k 0 = true := by
          unfold notOther
          cases hw : k.outcome (window k.cfg k.start 0) <;> simp_all
        rw [this]
        simp
      cases hkk : k.killed with
      | never => exact hx
      | beforeAvailability => exact hx
      | afterAppends n => exact absurd hkk (hk n)
    obtain ⟨s, s', h1, h2, h3⟩ := C03_day_files_hold_each_sample_once _ _ _ hg hne jul hjul k.cw f0
    refine ⟨s', ?_, ?_⟩
    · unfold detectFiles
      rw [hδ, h1]
      simp only [hc, if_true]
      exact h2
    · intro d
      rw [h3 d, appended_doneOf h]
      by_cases hA : Spec.ofDay d (Spec.scanOf k) = []
      · rw [if_pos hA, if_neg (fun hl => hl.1 hA)]
      · rw [if_neg hA, if_pos ⟨hA, Or.inl hd⟩]
  · have hc : (doneOf k).completed = false := by
      rw [← Bool.not_eq_true, doneOf_completed]; exact hd
    obtain ⟨s, h1, h2⟩ := appends_on_disk sr _ _ hg jul hjul k.cw f0
    refine ⟨s, ?_, ?_⟩
    · unfold detectFiles
      rw [hδ, h1]
      simp only [hc, Bool.false_eq_true, if_false]
    · intro d
      rw [h2 d, appended_doneOf h, vals_length h]
      apply if_congr _ rfl rfl
      unfold Spec.Leaves
      tauto

/-! ## Histories -/

theorem rows_table (k : Call) :
    table k.cfg (doneOf k).rows = ⟨k.cfg.cols.map String.toList, Spec.availOf k⟩ := by
  unfold table Spec.availOf
  rw [doneOf_rows, List.map_map]
  congr 1
  apply List.map_congr_left
  intro i _
  unfold rowOf Spec.stepAvail
  simp only [Function.comp]
  cases k.outcome (window k.cfg k.start i) <;> simp

open Classical in
/-- **C111**, one call: after any call, complete, stopped by an exception or killed anywhere, the scan file of a
day holds the samples of this call on that day if they reached the disk, and what it held before
if not; the availability file of a day that of this call if the call was completed and has
a timestep on that day. -/
theorem C111_one_call (sr : ℕ) (k : Call) (h : Spec.GoodCall sr k) (jul : ℤ → ℕ)
    (hjul : ∀ d, jul d ≠ jul (d + 1)) (order : Availability.Table → List ℤ)
    (hord : ∀ t, Availability.IsDateSet t (order t)) (dir : Dir) :
    ∃ dir', call jul order dir k = some dir' ∧
      (∀ d, Spec.content (1 / (sr : ℚ)) (dir'.scan d) =
        if Spec.Leaves k d then some (Spec.ofDay d (Spec.scanOf k))
        else Spec.content (1 / (sr : ℚ)) (dir.scan d)) ∧
      ∀ d, dir'.avail d =
        if Spec.Clean k ∧ k.killed = .never ∧ ∃ r ∈ Spec.availOf k, TriggerFiles.dayNum r.1 = d then
          some ⟨k.cfg.cols.map String.toList,
            (Spec.availOf k).filter fun r => TriggerFiles.dayNum r.1 = d⟩
        else dir.avail d := by
  obtain ⟨s, hs, hf⟩ := call_scan h jul hjul dir.scan
  have hcall : call jul order dir k =
      if (doneOf k).completed && decide (k.killed = .never) then
        some ⟨s.files, Availability.write dir.avail (table k.cfg (doneOf k).rows)
          (order (table k.cfg (doneOf k).rows))⟩
      else some ⟨s.files, dir.avail⟩ := by
    unfold call
    rw [detect_good h]
    change (match detectFiles k.cfg jul k.cw dir.scan (doneOf k) with
      | none => none
      | some s => _) = _
    rw [hs]
    rfl
  by_cases hc : (doneOf k).completed && decide (k.killed = .never)
  · rw [hcall, if_pos hc]
    rw [Bool.and_eq_true, decide_eq_true_eq, doneOf_completed] at hc
    refine ⟨_, rfl, hf, ?_⟩
    intro d
    simp only
    rw [rows_table]
    obtain ⟨h1, h2⟩ := C67_last_write_wins dir.avail
      [(⟨k.cfg.cols.map String.toList, Spec.availOf k⟩,
        order ⟨k.cfg.cols.map String.toList, Spec.availOf k⟩)]
      (by intro w hw; rw [List.mem_singleton] at hw; subst hw; exact hord _) d
    by_cases hd : ∃ r ∈ Spec.availOf k, TriggerFiles.dayNum r.1 = d
    · rw [if_pos ⟨hc.1.1, hc.2, hd⟩]
      exact h2 [] _ [] rfl hd (by simp)
    · rw [if_neg (fun hx => hd hx.2.2)]
      push Not at hd
      exact h1 (by intro w hw; rw [List.mem_singleton] at hw; subst hw; exact hd)
  · rw [hcall, if_neg hc]
    rw [Bool.and_eq_true, decide_eq_true_eq, doneOf_completed] at hc
    refine ⟨_, rfl, hf, ?_⟩
    intro d
    rw [if_neg]
    rintro ⟨h1, h2, -⟩
    exact hc ⟨⟨h1, by rw [h2]; simp⟩, h2⟩

/-- **C111**, histories: after any calls into one run directory, each day's scan file is that of the last
call whose samples of the day reached the disk, alone. -/
theorem C111_last_call_wins (sr : ℕ) (ks : List Call) (h : ∀ k ∈ ks, Spec.GoodCall sr k)
    (jul : ℤ → ℕ) (hjul : ∀ d, jul d ≠ jul (d + 1)) (order : Availability.Table → List ℤ)
    (hord : ∀ t, Availability.IsDateSet t (order t)) (dir : Dir) :
    ∃ dir', calls jul order dir ks = some dir' ∧ ∀ d,
      ((∀ k ∈ ks, ¬ Spec.Leaves k d) →
        Spec.content (1 / (sr : ℚ)) (dir'.scan d) = Spec.content (1 / (sr : ℚ)) (dir.scan d)) ∧
      ∀ earlier k later, ks = earlier ++ k :: later → Spec.Leaves k d →
        (∀ k' ∈ later, ¬ Spec.Leaves k' d) →
        Spec.content (1 / (sr : ℚ)) (dir'.scan d) = some (Spec.ofDay d (Spec.scanOf k)) := by
  induction ks generalizing dir with
  | nil => exact ⟨dir, rfl, fun d => ⟨fun _ => rfl, by simp⟩⟩
  | cons a ks ih =>
    obtain ⟨dir1, h1, h2, -⟩ := C111_one_call sr a (h a List.mem_cons_self) jul hjul order hord dir
    obtain ⟨dir', h3, h4⟩ := ih (fun k hk => h k (List.mem_cons_of_mem _ hk)) dir1
    refine ⟨dir', by simp only [calls, h1]; exact h3, ?_⟩
    intro d
    obtain ⟨h5, h6⟩ := h4 d
    constructor
    · intro hn
      rw [h5 (fun k hk => hn k (List.mem_cons_of_mem _ hk)), h2,
        if_neg (hn a List.mem_cons_self)]
    · intro earlier k later heq hk hl
      cases earlier with
      | nil =>
        simp only [List.nil_append, List.cons.injEq] at heq
        obtain ⟨rfl, rfl⟩ := heq
        rw [h5 hl, h2, if_pos hk]
      | cons b earlier =>
        simp only [List.cons_append, List.cons.injEq] at heq
        exact h6 earlier k later heq.2 hk hl

/-- **C111**, histories: likewise for availability, with the last completed call. -/
theorem C111_last_availability_wins (sr : ℕ) (ks : List Call) (h : ∀ k ∈ ks, Spec.GoodCall sr k)
    (jul : ℤ → ℕ) (hjul : ∀ d, jul d ≠ jul (d + 1)) (order : Availability.Table → List ℤ)
    (hord : ∀ t, Availability.IsDateSet t (order t)) (dir : Dir) :
    ∃ dir', calls jul order dir ks = some dir' ∧ ∀ d,
      ((∀ k ∈ ks, Spec.Clean k → k.killed = .never →
          ∀ r ∈ Spec.availOf k, TriggerFiles.dayNum r.1 ≠ d) → dir'.avail d = dir.avail d) ∧
      ∀ earlier k later, ks = earlier ++ k :: later → Spec.Clean k → k.killed = .never →
        (∃ r ∈ Spec.availOf k, TriggerFiles.dayNum r.1 = d) →
        (∀ k' ∈ later, Spec.Clean k' → k'.killed = .never →
          ∀ r ∈ Spec.availOf k', TriggerFiles.dayNum r.1 ≠ d) →
        dir'.avail d = some ⟨k.cfg.cols.map String.toList,
          (Spec.availOf k).filter fun r => TriggerFiles.dayNum r.1 = d⟩ := by
  induction ks generalizing dir with
  | nil => exact ⟨dir, rfl, fun d => ⟨fun _ => rfl, by simp⟩⟩
  | cons a ks ih =>
    obtain ⟨dir1, h1, -, h2⟩ := C111_one_call sr a (h a List.mem_cons_self) jul hjul order hord dir
    obtain ⟨dir', h3, h4⟩ := ih (fun k hk => h k (List.mem_cons_of_mem _ hk)) dir1
    refine ⟨dir', by simp only [calls, h1]; exact h3, ?_⟩
    intro d
    obtain ⟨h5, h6⟩ := h4 d
    constructor
    · intro hn
      rw [h5 (fun k hk => hn k (List.mem_cons_of_mem _ hk)), h2, if_neg]
      rintro ⟨h7, h8, r, hr, h9⟩
      exact hn a List.mem_cons_self h7 h8 r hr h9
    · intro earlier k later heq hk hk2 hk3 hl
      cases earlier with
      | nil =>
        simp only [List.nil_append, List.cons.injEq] at heq
        obtain ⟨rfl, rfl⟩ := heq
        rw [h5 hl, h2, if_pos ⟨hk, hk2, hk3⟩]
      | cons b earlier =>
        simp only [List.cons_append, List.cons.injEq] at heq
        exact h6 earlier k later heq.2 hk hk2 hk3 hl

/-- **C111**, refused calls: a call that ends before it starts (TimeSpanException) leaves the directory as it is, and a
history is what it would be without such calls. -/
theorem C111_refused (jul : ℤ → ℕ) (order : Availability.Table → List ℤ) (dir : Dir) (ks : List Call) :
    (∀ k, k.stop < k.start → call jul order dir k = some dir) ∧
      calls jul order dir ks = calls jul order dir (ks.filter fun k => decide (k.start ≤ k.stop)) := by
  have h1 : ∀ (dir : Dir) (k : Call), k.stop < k.start → call jul order dir k = some dir := by
    intro dir k hk
    unfold call detect nSteps
    rw [if_pos hk]
    rfl
  refine ⟨h1 dir, ?_⟩
  induction ks generalizing dir with
  | nil => rfl
  | cons a ks ih =>
    by_cases ha : a.start ≤ a.stop
    · rw [List.filter_cons_of_pos (by simpa using ha)]
      unfold calls
      cases call jul order dir a with
      | none => rfl
      | some dir' => exact ih dir'
    · rw [List.filter_cons_of_neg (by simpa using ha), ← ih dir]
      conv_lhs => unfold calls
      rw [h1 dir a (not_le.1 ha)]

/-! ## Splitting at midnights -/

/-- The call cut at the given instants into several. -/
def Spec.pieces (k : Call) : List ℚ → List Call
  | [] => [k]
  | m :: ms => { k with stop := m } :: Spec.pieces { k with start := m } ms

/-- Every cut is a midnight, a whole number of timesteps after the one before; something is left to scan
after the last. -/
def Spec.AtMidnights (k : Call) : List ℚ → Prop
  | [] => k.start < adjustedEnd k.cfg k.stop
  | m :: ms => (∃ D : ℤ, m = 86400 * (D : ℚ)) ∧
      (∃ j : ℕ, 0 < j ∧ m = k.start + k.cfg.timestep * (j : ℚ)) ∧
      Spec.AtMidnights { k with start := m } ms

/-- The calls the theorem is about: no unforeseen exception, not killed, and two or more samples a timestep. -/
structure Quiet (sr : ℕ) (k : Call) : Prop where
  rate : k.cfg.scanRate = sr
  rate_pos : 0 < sr
  clean : ∀ i, k.outcome (window k.cfg k.start i) ≠ .other
  alive : k.killed = .never
  two : 2 ≤ k.cfg.timestep * sr
  whole : ∃ m : ℕ, 0 < m ∧ k.cfg.timestep * sr = m ∧
    ∀ (i : ℕ) data avail, k.outcome (window k.cfg k.start i) = .ok data avail → data.length = m
  at_most_a_day : k.cfg.timestep ≤ 86400
  on_grid : ∃ j : ℤ, k.start = j / (sr : ℚ)

def nOf (k : Call) : ℕ := ⌈(adjustedEnd k.cfg k.stop - k.start) / k.cfg.timestep⌉.toNat

theorem Quiet.good {sr : ℕ} {k : Call} (h : Quiet sr k) (hne : k.start < adjustedEnd k.cfg k.stop) :
    Spec.GoodCall sr k := ⟨h.rate, h.rate_pos, h.whole, h.at_most_a_day, h.on_grid, hne⟩

theorem Quiet.step_pos {sr : ℕ} {k : Call} (h : Quiet sr k) : 0 < k.cfg.timestep := by
  have hsr : (0 : ℚ) < sr := by exact_mod_cast h.rate_pos
  have : (0 : ℚ) < k.cfg.timestep * sr := by linarith [h.two]
  exact pos_of_mul_pos_left this hsr.le

theorem Quiet.steps {sr : ℕ} {k : Call} (h : Quiet sr k) : Spec.stepsDone k = List.range (nOf k) := by
  unfold Spec.stepsDone nOf
  simp only [h.alive]
  rw [List.takeWhile_eq_self_iff]
  intro i _
  have := h.clean i
  cases hw : k.outcome (window k.cfg k.start i) <;> simp_all

theorem window_shift (c : Detect.Cfg) {s m : ℚ} {j : ℕ} (hj : m = s + c.timestep * (j : ℚ)) (i : ℕ) :
    window c s (j + i) = window c m i := by
  unfold window
  rw [hj]
  push_cast
  congr 1 <;> ring

theorem Quiet.start {sr : ℕ} {k : Call} (h : Quiet sr k) {m : ℚ} {D : ℤ} (hm : m = 86400 * (D : ℚ))
    {j : ℕ} (hj : m = k.start + k.cfg.timestep * (j : ℚ)) : Quiet sr { k with start := m } := by
  have hsr : (sr : ℚ) ≠ 0 := by exact_mod_cast h.rate_pos.ne'
  obtain ⟨n, hn0, hn, hok⟩ := h.whole
  refine ⟨h.rate, h.rate_pos, ?_, h.alive, h.two, ⟨n, hn0, hn, ?_⟩, h.at_most_a_day, 86400 * D * sr, ?_⟩
  · intro i
    rw [← window_shift k.cfg hj i]
    exact h.clean _
  · intro i data avail hd
    rw [← window_shift k.cfg hj i] at hd
    exact hok _ data avail hd
  simp only
  rw [hm]; push_cast; field_simp

theorem Quiet.stop {sr : ℕ} {k : Call} (h : Quiet sr k) (m : ℚ) : Quiet sr { k with stop := m } :=
  ⟨h.rate, h.rate_pos, h.clean, h.alive, h.two, h.whole, h.at_most_a_day, h.on_grid⟩

theorem adjusted_midnight (c : Detect.Cfg) {m : ℚ} {D : ℤ} (hm : m = 86400 * (D : ℚ)) :
    adjustedEnd c m = m - c.delta := by
  unfold adjustedEnd
  rw [if_pos]
  unfold isMidnight dayStart DAY
  rw [hm, mul_div_cancel_left₀ _ (by norm_num : (86400 : ℚ) ≠ 0), Int.floor_intCast]

theorem Quiet.n_first {sr : ℕ} {k : Call} (h : Quiet sr k) {m : ℚ} {D : ℤ} {j : ℕ}
    (hm : m = 86400 * (D : ℚ)) (hj0 : 0 < j) (hj : m = k.start + k.cfg.timestep * (j : ℚ)) :
    nOf { k with stop := m } = j ∧ k.start < adjustedEnd k.cfg m := by
  have hsr : (0 : ℚ) < sr := by exact_mod_cast h.rate_pos
  have hts := h.step_pos
  have hδ : k.cfg.delta = 1 / (sr : ℚ) := by unfold Detect.Cfg.delta; rw [h.rate]
  have hδpos : 0 < k.cfg.delta := by rw [hδ]; positivity
  have hδlt : k.cfg.delta < k.cfg.timestep := by
    rw [hδ, div_lt_iff₀ hsr]; linarith [h.two]
  have hj1 : (1 : ℚ) ≤ j := by exact_mod_cast hj0
  constructor
  · unfold nOf
    simp only
    rw [adjusted_midnight _ hm]
    have : ⌈(m - k.cfg.delta - k.start) / k.cfg.timestep⌉ = (j : ℤ) := by
      rw [Int.ceil_eq_iff]
      constructor
      · rw [lt_div_iff₀ hts]; push_cast; nlinarith
      · rw [div_le_iff₀ hts]; push_cast; nlinarith
    rw [this]; simp
  · rw [adjusted_midnight _ hm]; nlinarith

theorem Quiet.n_split {sr : ℕ} {k : Call} (h : Quiet sr k) {m : ℚ} {j : ℕ}
    (hj : m = k.start + k.cfg.timestep * (j : ℚ)) (hle : m ≤ adjustedEnd k.cfg k.stop) :
    nOf k = j + nOf { k with start := m } := by
  have hts := h.step_pos
  unfold nOf
  simp only
  have e : (adjustedEnd k.cfg k.stop - k.start) / k.cfg.timestep =
      (adjustedEnd k.cfg k.stop - m) / k.cfg.timestep + (j : ℤ) := by
    rw [hj]; push_cast; field_simp; ring
  rw [e, Int.ceil_add_intCast]
  have : 0 ≤ ⌈(adjustedEnd k.cfg k.stop - m) / k.cfg.timestep⌉ := by
    apply Int.ceil_nonneg
    exact div_nonneg (by linarith) hts.le
  omega

theorem stepSamples_shift (k : Call) {m : ℚ} {j : ℕ} (hj : m = k.start + k.cfg.timestep * (j : ℚ))
    (i : ℕ) : Spec.stepSamples k (j + i) = Spec.stepSamples { k with start := m } i := by
  have e : k.start + k.cfg.timestep * ((j + i : ℕ) : ℚ) = m + k.cfg.timestep * (i : ℚ) := by
    rw [hj]; push_cast; ring
  unfold Spec.stepSamples
  simp only
  rw [window_shift k.cfg hj i, e]

theorem stepAvail_shift (k : Call) {m : ℚ} {j : ℕ} (hj : m = k.start + k.cfg.timestep * (j : ℚ))
    (i : ℕ) : Spec.stepAvail k (j + i) = Spec.stepAvail { k with start := m } i := by
  have e : k.start + k.cfg.timestep * ((j + i : ℕ) : ℚ) = m + k.cfg.timestep * (i : ℚ) := by
    rw [hj]; push_cast; ring
  unfold Spec.stepAvail
  simp only
  rw [window_shift k.cfg hj i, e]

theorem cuts_lt {sr : ℕ} (ms : List ℚ) : ∀ k : Call, Quiet sr k → Spec.AtMidnights k ms →
    k.start < adjustedEnd k.cfg k.stop := by
  induction ms with
  | nil => intro k _ h; exact h
  | cons m ms ih =>
    rintro k hq ⟨⟨D, hD⟩, ⟨j, hj0, hj⟩, h3⟩
    have h4 : m < adjustedEnd k.cfg k.stop := ih { k with start := m } (hq.start hD hj) h3
    have hts := hq.step_pos
    have : (0 : ℚ) < j := by exact_mod_cast hj0
    have := mul_pos hts this
    linarith

theorem scanOf_split {sr : ℕ} {k : Call} (h : Quiet sr k) {m : ℚ} {D : ℤ} {j : ℕ}
    (hm : m = 86400 * (D : ℚ)) (hj0 : 0 < j) (hj : m = k.start + k.cfg.timestep * (j : ℚ))
    (hle : m ≤ adjustedEnd k.cfg k.stop) :
    Spec.scanOf k = Spec.scanOf { k with stop := m } ++ Spec.scanOf { k with start := m } ∧
    Spec.availOf k = Spec.availOf { k with stop := m } ++ Spec.availOf { k with start := m } := by
  have h1 := (h.n_first hm hj0 hj).1
  have h2 := h.n_split hj hle
  unfold Spec.scanOf Spec.availOf
  rw [h.steps, (h.stop m).steps, (h.start hm hj).steps, h1, h2, List.range_add]
  constructor
  · rw [List.flatMap_append, List.flatMap_map]
    congr 1
    exact List.flatMap_congr fun i _ => stepSamples_shift k hj i
  · rw [List.map_append, List.map_map]
    congr 1
    exact List.map_congr_left fun i _ => stepAvail_shift k hj i

theorem stepSamples_bounds {sr : ℕ} {k : Call} (h : Quiet sr k) (i : ℕ) {x : ℚ × Enc}
    (hx : x ∈ Spec.stepSamples k i) :
    k.start + k.cfg.timestep * i ≤ x.1 ∧ x.1 < k.start + k.cfg.timestep * (i + 1) := by
  obtain ⟨m, hm0, hm, hok⟩ := h.whole
  have hsr : (0 : ℚ) < sr := by exact_mod_cast h.rate_pos
  unfold Spec.stepSamples at hx
  rw [List.mem_map] at hx
  obtain ⟨⟨v, n⟩, hv, rfl⟩ := hx
  have hn := List.snd_lt_of_mem_zipIdx hv
  simp only at hn
  have hlen : n < m := by
    refine lt_of_lt_of_eq hn ?_
    cases hw : k.outcome (window k.cfg k.start i) <;>
      simp only [List.length_map, List.length_replicate, h.rate, hm, Int.floor_natCast,
        Int.toNat_natCast, Nat.add_zero]
    exact hok _ _ _ hw
  have h1 : (n : ℚ) / k.cfg.scanRate < k.cfg.timestep := by
    rw [h.rate, div_lt_iff₀ hsr, hm]; exact_mod_cast hlen
  have h2 : (0 : ℚ) ≤ (n : ℚ) / k.cfg.scanRate := by positivity
  simp only
  constructor
  · linarith
  · linarith

theorem scanOf_bounds {sr : ℕ} {k : Call} (h : Quiet sr k) {x : ℚ × Enc} (hx : x ∈ Spec.scanOf k) :
    k.start ≤ x.1 ∧ x.1 < k.start + k.cfg.timestep * (nOf k : ℚ) := by
  unfold Spec.scanOf at hx
  rw [h.steps, List.mem_flatMap] at hx
  obtain ⟨i, hi, hx⟩ := hx
  have hts := h.step_pos
  obtain ⟨h1, h2⟩ := stepSamples_bounds h i hx
  have hi' : ((i : ℚ) + 1) ≤ nOf k := by exact_mod_cast List.mem_range.mp hi
  have h3 : k.cfg.timestep * ((i : ℚ) + 1) ≤ k.cfg.timestep * (nOf k : ℚ) :=
    mul_le_mul_of_nonneg_left hi' hts.le
  have h4 : (0 : ℚ) ≤ k.cfg.timestep * i := by positivity
  constructor <;> linarith

theorem availOf_bounds {sr : ℕ} {k : Call} (h : Quiet sr k) {x : ℚ × List (Option ℤ)}
    (hx : x ∈ Spec.availOf k) :
    k.start ≤ x.1 ∧ x.1 < k.start + k.cfg.timestep * (nOf k : ℚ) := by
  unfold Spec.availOf at hx
  rw [h.steps, List.mem_map] at hx
  obtain ⟨i, hi, rfl⟩ := hx
  have hts := h.step_pos
  have hi' : (i : ℚ) < nOf k := by exact_mod_cast List.mem_range.mp hi
  have h3 : k.cfg.timestep * (i : ℚ) < k.cfg.timestep * (nOf k : ℚ) :=
    mul_lt_mul_of_pos_left hi' hts
  have h4 : (0 : ℚ) ≤ k.cfg.timestep * i := by positivity
  unfold Spec.stepAvail
  simp only
  constructor <;> linarith

/-- What is known of the pieces. -/
structure Piece (sr : ℕ) (k p : Call) : Prop where
  quiet : Quiet sr p
  good : Spec.GoodCall sr p
  cfg : p.cfg = k.cfg

/-- `p` ends at a midnight not after the start of `q`. -/
def Before (p q : Call) : Prop :=
  ∃ D : ℤ, p.start + p.cfg.timestep * (nOf p : ℚ) = 86400 * (D : ℚ) ∧ 86400 * (D : ℚ) ≤ q.start

theorem pieces_spec {sr : ℕ} (ms : List ℚ) : ∀ k : Call, Quiet sr k → Spec.AtMidnights k ms →
    (∀ p ∈ Spec.pieces k ms, Piece sr k p ∧ k.start ≤ p.start) ∧
    (Spec.pieces k ms).Pairwise Before ∧
    Spec.scanOf k = (Spec.pieces k ms).flatMap Spec.scanOf ∧
    Spec.availOf k = (Spec.pieces k ms).flatMap Spec.availOf := by
  induction ms with
  | nil =>
    intro k hq h
    refine ⟨?_, by simp [Spec.pieces], by simp [Spec.pieces], by simp [Spec.pieces]⟩
    intro p hp
    simp only [Spec.pieces, List.mem_singleton] at hp
    subst hp
    exact ⟨⟨hq, hq.good h, rfl⟩, le_rfl⟩
  | cons m ms ih =>
    rintro k hq ⟨⟨D, hD⟩, ⟨j, hj0, hj⟩, h3⟩
    have hq' := hq.start hD hj
    obtain ⟨h4, h5, h6, h7⟩ := ih { k with start := m } hq' h3
    have hlt : m < adjustedEnd k.cfg k.stop := cuts_lt ms { k with start := m } hq' h3
    obtain ⟨h8, h9⟩ := hq.n_first hD hj0 hj
    obtain ⟨h10, h11⟩ := scanOf_split hq hD hj0 hj hlt.le
    have hkm : k.start ≤ m := by
      rw [hj]
      have := hq.step_pos
      have : (0 : ℚ) ≤ k.cfg.timestep * (j : ℚ) := by positivity
      linarith
    refine ⟨?_, ?_, ?_, ?_⟩
    · intro p hp
      simp only [Spec.pieces, List.mem_cons] at hp
      rcases hp with rfl | hp
      · exact ⟨⟨hq.stop m, (hq.stop m).good h9, rfl⟩, le_rfl⟩
      · obtain ⟨⟨a, b, c⟩, d⟩ := h4 p hp
        exact ⟨⟨a, b, c⟩, hkm.trans d⟩
    · simp only [Spec.pieces, List.pairwise_cons]
      refine ⟨?_, h5⟩
      intro q hq2
      refine ⟨D, ?_, ?_⟩
      · rw [h8, ← hD]; exact hj.symm
      · rw [← hD]; exact (h4 q hq2).2
    · rw [h10, h6]; simp [Spec.pieces]
    · rw [h11, h7]; simp [Spec.pieces]

theorem flatMap_only {α β : Type} (f : α → List β) (l : List α)
    (h : l.Pairwise (fun p q => f p = [] ∨ f q = [])) {p : α} (hp : p ∈ l) (hne : f p ≠ []) :
    l.flatMap f = f p := by
  obtain ⟨a, b, rfl⟩ := List.append_of_mem hp
  rw [List.pairwise_append, List.pairwise_cons] at h
  obtain ⟨-, ⟨h1, -⟩, h2⟩ := h
  have ha : a.flatMap f = [] := by
    rw [List.flatMap_eq_nil_iff]
    intro x hx
    exact (h2 x hx p List.mem_cons_self).resolve_right hne
  have hb : b.flatMap f = [] := by
    rw [List.flatMap_eq_nil_iff]
    intro x hx
    exact (h1 x hx).resolve_left hne
  rw [List.flatMap_append, List.flatMap_cons, ha, hb]
  simp

theorem ofDay_flatMap (d : ℤ) (l : List Call) :
    Spec.ofDay d (l.flatMap Spec.scanOf) = l.flatMap fun k => Spec.ofDay d (Spec.scanOf k) := by
  induction l with
  | nil => rfl
  | cons a l ih =>
    rw [List.flatMap_cons, List.flatMap_cons, ← ih]
    unfold Spec.ofDay
    rw [List.filter_append]

def availDay (d : ℤ) (k : Call) : List (ℚ × List (Option ℤ)) :=
  (Spec.availOf k).filter fun r => TriggerFiles.dayNum r.1 = d

theorem availDay_flatMap (d : ℤ) (l : List Call) :
    ((l.flatMap Spec.availOf).filter fun r => TriggerFiles.dayNum r.1 = d) = l.flatMap (availDay d) := by
  induction l with
  | nil => rfl
  | cons a l ih =>
    rw [List.flatMap_cons, List.flatMap_cons, ← ih, List.filter_append]
    rfl

theorem leaves_iff {sr : ℕ} {k : Call} (h : Quiet sr k) (d : ℤ) :
    Spec.Leaves k d ↔ Spec.ofDay d (Spec.scanOf k) ≠ [] := by
  constructor
  · exact fun hl => hl.1
  · intro hne
    refine ⟨hne, Or.inl ⟨fun i _ => h.clean _, ?_⟩⟩
    rw [h.alive]; simp

theorem availDay_ne (d : ℤ) (k : Call) :
    availDay d k ≠ [] ↔ ∃ r ∈ Spec.availOf k, TriggerFiles.dayNum r.1 = d := by
  unfold availDay
  rw [Ne, List.filter_eq_nil_iff]
  push Not
  simp

/-- **C111** (partial): a period cut at midnights and scanned in several calls, in any order, leaves the same
files as one call over the whole period.  Missing: other cuts, for which it is false
(`C111_violated`). -/
theorem C111_split_at_midnights_partial (sr : ℕ) (k : Call) (h : Spec.GoodCall sr k)
    (hclean : ∀ i, k.outcome (window k.cfg k.start i) ≠ .other) (halive : k.killed = .never)
    (htwo : 2 ≤ k.cfg.timestep * sr) (ms : List ℚ) (hms : Spec.AtMidnights k ms) (ks : List Call)
    (hks : ks.Perm (Spec.pieces k ms)) (jul : ℤ → ℕ) (hjul : ∀ d, jul d ≠ jul (d + 1))
    (order : Availability.Table → List ℤ) (hord : ∀ t, Availability.IsDateSet t (order t))
    (dir : Dir) :
    ∃ one several, call jul order dir k = some one ∧ calls jul order dir ks = some several ∧
      ∀ d, Spec.content (1 / (sr : ℚ)) (several.scan d) = Spec.content (1 / (sr : ℚ)) (one.scan d) ∧
        several.avail d = one.avail d := by
  have hq : Quiet sr k := ⟨h.rate, h.rate_pos, hclean, halive, htwo, h.whole, h.at_most_a_day, h.on_grid⟩
  obtain ⟨hp1, hp2, hp3, hp4⟩ := pieces_spec ms k hq hms
  obtain ⟨one, h1, h2, h3⟩ := C111_one_call sr k h jul hjul order hord dir
  have hgood : ∀ p ∈ ks, Spec.GoodCall sr p := fun p hp => (hp1 p (hks.mem_iff.mp hp)).1.good
  have hquiet : ∀ p ∈ ks, Quiet sr p := fun p hp => (hp1 p (hks.mem_iff.mp hp)).1.quiet
  obtain ⟨several, h4, h5⟩ := C111_last_call_wins sr ks hgood jul hjul order hord dir
  obtain ⟨several', h6, h7⟩ := C111_last_availability_wins sr ks hgood jul hjul order hord dir
  rw [h4, Option.some.injEq] at h6
  subst h6
  refine ⟨one, several, h1, h4, ?_⟩
  intro d
  constructor
  · have hpw : (Spec.pieces k ms).Pairwise
        (fun p q => Spec.ofDay d (Spec.scanOf p) = [] ∨ Spec.ofDay d (Spec.scanOf q) = []) := by
      refine List.Pairwise.imp_of_mem ?_ hp2
      rintro p q hp hq2 ⟨D, hD1, hD2⟩
      by_contra hn
      push Not at hn
      obtain ⟨x, hx⟩ := List.exists_mem_of_ne_nil _ hn.1
      obtain ⟨y, hy⟩ := List.exists_mem_of_ne_nil _ hn.2
      obtain ⟨hx1, hx2⟩ := List.mem_filter.mp hx
      obtain ⟨hy1, hy2⟩ := List.mem_filter.mp hy
      rw [decide_eq_true_eq] at hx2 hy2
      have hbx := (scanOf_bounds (hp1 p hp).1.quiet hx1).2
      have hby := (scanOf_bounds (hp1 q hq2).1.quiet hy1).1
      have a1 : (d : ℚ) < D := by linarith
      have a2 : (D : ℚ) < d + 1 := by linarith
      have b1 : d < D := by exact_mod_cast a1
      have b2 : D < d + 1 := by exact_mod_cast a2
      omega
    have hpw' : ks.Pairwise
        (fun p q => Spec.ofDay d (Spec.scanOf p) = [] ∨ Spec.ofDay d (Spec.scanOf q) = []) :=
      (hks.pairwise_iff (fun {a b} hab => Or.symm hab)).mpr hpw
    have hsum : Spec.ofDay d (Spec.scanOf k) =
        (Spec.pieces k ms).flatMap fun p => Spec.ofDay d (Spec.scanOf p) := by
      rw [hp3, ofDay_flatMap]
    obtain ⟨h8, h9⟩ := h5 d
    rw [h2 d]
    by_cases hex : ∃ p ∈ ks, Spec.ofDay d (Spec.scanOf p) ≠ []
    · obtain ⟨p, hp, hne⟩ := hex
      have hk : Spec.ofDay d (Spec.scanOf k) = Spec.ofDay d (Spec.scanOf p) := by
        rw [hsum]
        exact flatMap_only (fun p => Spec.ofDay d (Spec.scanOf p)) _ hpw (hks.mem_iff.mp hp) hne
      rw [if_pos ((leaves_iff hq d).mpr (by rw [hk]; exact hne)), hk]
      obtain ⟨a, b, hab⟩ := List.append_of_mem hp
      refine h9 a p b hab ((leaves_iff (hquiet p hp) d).mpr hne) ?_
      intro p' hp' hl
      rw [hab, List.pairwise_append, List.pairwise_cons] at hpw'
      exact hl.1 ((hpw'.2.1.1 p' hp').resolve_left hne)
    · push Not at hex
      rw [h8 (fun p hp hl => hl.1 (hex p hp)), if_neg]
      intro hl
      apply hl.1
      rw [hsum, List.flatMap_eq_nil_iff]
      exact fun p hp => hex p (hks.mem_iff.mpr hp)
  · have hpw : (Spec.pieces k ms).Pairwise (fun p q => availDay d p = [] ∨ availDay d q = []) := by
      refine List.Pairwise.imp_of_mem ?_ hp2
      rintro p q hp hq2 ⟨D, hD1, hD2⟩
      by_contra hn
      push Not at hn
      obtain ⟨x, hx1, hx2⟩ := (availDay_ne d p).mp hn.1
      obtain ⟨y, hy1, hy2⟩ := (availDay_ne d q).mp hn.2
      have hbx := (availOf_bounds (hp1 p hp).1.quiet hx1).2
      have hby := (availOf_bounds (hp1 q hq2).1.quiet hy1).1
      unfold TriggerFiles.dayNum DAY at hx2 hy2
      rw [Int.floor_eq_iff, le_div_iff₀ (by norm_num), div_lt_iff₀ (by norm_num)] at hx2 hy2
      have a1 : (d : ℚ) < D := by linarith [hx2.1]
      have a2 : (D : ℚ) < d + 1 := by linarith [hy2.2]
      have b1 : d < D := by exact_mod_cast a1
      have b2 : D < d + 1 := by exact_mod_cast a2
      omega
    have hpw' : ks.Pairwise (fun p q => availDay d p = [] ∨ availDay d q = []) :=
      (hks.pairwise_iff (fun {a b} hab => Or.symm hab)).mpr hpw
    have hsum : availDay d k = (Spec.pieces k ms).flatMap (availDay d) := by
      unfold availDay
      rw [hp4]
      exact availDay_flatMap d _
    obtain ⟨h8, h9⟩ := h7 d
    rw [h3 d]
    by_cases hex : ∃ p ∈ ks, availDay d p ≠ []
    · obtain ⟨p, hp, hne⟩ := hex
      have hk : availDay d k = availDay d p := by
        rw [hsum]
        exact flatMap_only (availDay d) _ hpw (hks.mem_iff.mp hp) hne
      rw [if_pos ⟨fun i _ => hclean _, halive, (availDay_ne d k).mp (by rw [hk]; exact hne)⟩]
      obtain ⟨a, b, hab⟩ := List.append_of_mem hp
      have := h9 a p b hab (fun i _ => (hquiet p hp).clean _) (hquiet p hp).alive
        ((availDay_ne d p).mp hne) ?_
      · rw [this, (hp1 p (hks.mem_iff.mp hp)).1.cfg]
        unfold availDay at hk
        rw [hk]
      · intro p' hp' _ _ r hr hrd
        rw [hab, List.pairwise_append, List.pairwise_cons] at hpw'
        exact (availDay_ne d p').mpr ⟨r, hr, hrd⟩ ((hpw'.2.1.1 p' hp').resolve_left hne)
    · push Not at hex
      rw [h8, if_neg]
      · rintro ⟨-, -, hr⟩
        apply (availDay_ne d k).mpr hr
        rw [hsum, List.flatMap_eq_nil_iff]
        exact fun p hp => hex p (hks.mem_iff.mpr hp)
      · intro p hp _ _ r hr hrd
        exact (availDay_ne d p).mpr ⟨r, hr, hrd⟩ (hex p hp)

/-! ## What is false, and concrete cases -/

/-- One sample a second, timesteps of two seconds; coalescence 2 then 3 in every timestep. -/
def exCall (start stop : ℚ) (killed : Stop) : Call :=
  ⟨exDetCfg2, start, stop, fun _ => .ok [⟨2, 1, 0, 0, 0⟩, ⟨3, 1, 0, 0, 0⟩] (fun _ => 1), false, killed⟩

def exJul (d : ℤ) : ℕ := (d % 365).toNat
def exDir : Dir := ⟨fun _ => none, fun _ => none⟩
/-- Any order will do for tables of one or two days. -/
def exOrder (t : Availability.Table) : List ℤ := (t.rows.map fun r => TriggerFiles.dayNum r.1).dedup

theorem exOrder_ok (t : Availability.Table) : Availability.IsDateSet t (exOrder t) := by
  refine ⟨List.nodup_dedup _, ?_⟩
  intro d
  unfold exOrder
  rw [List.mem_dedup, List.mem_map]

theorem exCall_good (start stop : ℤ) (killed : Stop) (h : start < stop - 1) :
    Spec.GoodCall 1 (exCall start stop killed) := by
  have h' : (start : ℚ) < stop - 1 := by exact_mod_cast h
  refine ⟨rfl, by norm_num, ⟨2, by norm_num, by norm_num [exCall, exDetCfg2], ?_⟩,
    by norm_num [exCall, exDetCfg2], ⟨start, by simp [exCall]⟩, ?_⟩
  · intro w data avail hw
    simp only [exCall, Outcome.ok.injEq] at hw
    rw [← hw.1]; rfl
  · simp only [exCall]
    unfold adjustedEnd Detect.Cfg.delta
    simp only [exDetCfg2]
    split <;> norm_num <;> linarith

/-- **C111**, violated: cut in the middle of a day, the second call replaces the file of the first: its samples
and its availability are gone, while one call over the same period keeps them. -/
theorem C111_violated :
    ((calls exJul exOrder exDir [exCall 100 104 .never, exCall 104 108 .never]).map fun f =>
      ((f.scan 0).map fun t => (t.start, t.vals.length), (f.avail 0).map fun t => t.rows.map Prod.fst)) =
      some (some (104, 4), some [104, 106]) ∧
    ((call exJul exOrder exDir (exCall 100 108 .never)).map fun f =>
      ((f.scan 0).map fun t => (t.start, t.vals.length), (f.avail 0).map fun t => t.rows.map Prod.fst)) =
      some (some (100, 8), some [100, 102, 104, 106]) := by
  decide +kernel

/-- A call killed at the end of its scan leaves scan data without availability; killed earlier, and without
writing after every append, it leaves nothing of the day. -/
theorem C111_violated_killed :
    ((call exJul exOrder exDir (exCall 100 108 .beforeAvailability)).map fun f =>
      ((f.scan 0).map fun t => (t.start, t.vals.length), (f.avail 0).map fun t => t.rows.map Prod.fst)) =
      some (some (100, 8), none) ∧
    ((call exJul exOrder exDir (exCall 100 108 (.afterAppends 3))).map fun f =>
      ((f.scan 0).map fun t => (t.start, t.vals.length), (f.avail 0).map fun t => t.rows.map Prod.fst)) =
      some (none, none) := by
  decide +kernel

/-- The hypotheses of the theorems: a day and two seconds on either side, cut at both midnights. -/
example : Spec.GoodCall 1 (exCall ((86398 : ℤ) : ℚ) ((172802 : ℤ) : ℚ) .never) ∧
    (∀ w, (exCall 86398 172802 .never).outcome w ≠ .other) ∧
    2 ≤ (exCall 86398 172802 .never).cfg.timestep * (1 : ℕ) ∧
    Spec.AtMidnights (exCall 86398 172802 .never) [86400, 172800] := by
  refine ⟨exCall_good _ _ _ (by norm_num), fun w => by simp [exCall],
    by norm_num [exCall, exDetCfg2], ⟨1, by norm_num⟩, ⟨1, by norm_num, ?_⟩, ⟨2, by norm_num⟩,
    ⟨43200, by norm_num, ?_⟩, ?_⟩
  · norm_num [exCall, exDetCfg2]
  · norm_num [exCall, exDetCfg2]
  · change (172800 : ℚ) < adjustedEnd exDetCfg2 172802
    decide +kernel

/-- Two calls cut at a midnight, the later one first. -/
example : ((calls exJul exOrder exDir [exCall 86400 86402 .never, exCall 86396 86400 .never]).map fun f =>
      ((f.scan 0).map fun t => (t.start, t.vals.length), (f.scan 1).map fun t => (t.start, t.vals.length))) =
      some (some (86396, 4), some (86400, 2)) ∧
    ((call exJul exOrder exDir (exCall 86396 86402 .never)).map fun f =>
      ((f.scan 0).map fun t => (t.start, t.vals.length), (f.scan 1).map fun t => (t.start, t.vals.length))) =
      some (some (86396, 4), some (86400, 2)) := by
  decide +kernel

end QM
