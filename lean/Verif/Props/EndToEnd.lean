import Verif.Model.EndToEnd
import Verif.Props.Source
import Verif.Props.Pipeline

/-!
# C117: from the onset functions of an earthquake to one located event
-/

namespace QM
open QM.Pads QM.ComputeStep QM.EndToEnd QM.DetectRuns QM.ScanMseed QM.Pipeline QM.Trigger QM.DetectTrigger

/-! ## Specification -/

/-- The largest of the values of the nodes. -/
noncomputable def Spec.peakValue (nNodes : ℕ) (f : ℕ → ℝ) : ℝ := ⨆ k : Fin nNodes, f k

/-- The value that is compared with the threshold: the largest value or its ratio to the mean. -/
noncomputable def Spec.peakLevel (norm : Bool) (nNodes : ℕ) (f : ℕ → ℝ) : ℝ :=
  if norm then Spec.peakValue nNodes f / ((∑ k ∈ Finset.range nNodes, f k) / nNodes) else Spec.peakValue nNodes f

/-- `win` is read by detect, or by locate for an event at some sample. -/
def Spec.IsRead (c : Scan) (start timestep mw : ℚ) (win : ℚ × ℚ) : Prop :=
  (∃ i : ℕ, win = detectWindow start timestep c.sr (c.pads timestep) i) ∨
    ∃ T : ℤ, win = locateWindow ((T : ℚ) / c.sr) mw (c.pads (4 * mw))

/-- The pairs of a station and a phase that are available in the data of a window: none if there are no data. -/
def Spec.pairsIn (c : Scan) (win : ℚ × ℚ) : List (Compute.Str × Compute.Str) :=
  if c.missing win = none then Spec.migratedPairs c.phases c.stations (c.av win) else []

/-- The pairs available to detect in the timestep that has sample `T`. -/
def Spec.pairsAt (c : Scan) (start timestep : ℚ) (T : ℤ) : List (Compute.Str × Compute.Str) :=
  Spec.pairsIn c (detectWindow start timestep c.sr (c.pads timestep) ⌊((T : ℚ) / c.sr - start) / timestep⌋.toNat)

/-- The coalescence of a node of the grid at sample `T`, from the pairs `P T`; 0 if there are none. -/
noncomputable def Spec.coaOf (c : Scan) (G : Compute.Str → Compute.Str → ℕ → ℚ) (O : Compute.Str → Compute.Str → ℤ → ℝ)
    (P : ℤ → List (Compute.Str × Compute.Str)) (T : ℤ) (node : ℕ) : ℝ :=
  if P T = [] then 0 else Spec.coalescence (P T) O (fun s p k => pyRound (G s p k * c.sr)) node T

/-- What is asked of the lookup table and the configuration; `Spec.ScanSetup` without a pair that is available. -/
structure Spec.Setup (c : Scan) (G : Compute.Str → Compute.Str → ℕ → ℚ) : Prop where
  nodes : c.L.nNodes = c.g.count 0 * c.g.count 1 * c.g.count 2
  pos : 0 < c.L.nNodes
  win : c.w.Nonneg
  longest : Compute.maxTraveltime c.L = some c.ttmax
  ttpos : 0 ≤ c.ttmax
  rate : 0 < c.sr
  phNodup : c.phases.Nodup
  stNodup : c.stations.Nodup
  phName : ∀ p ∈ c.phases, '_' ∉ p
  stName : ∀ s ∈ c.stations, '_' ∉ s
  phLut : ∀ p ∈ c.phases, p ∈ c.L.phases
  stLut : ∀ s ∈ c.stations, s ∈ c.L.stations
  avail : ∀ win s p, c.av win s p ≤ 1
  table : ∀ win, ∀ s ∈ c.stations, ∀ p ∈ c.phases, c.av win s p = 1 → Compute.lookup c.L s p = .ok (G s p)

/-- Around the event at sample `T`, detect and locate have the pairs `P`. -/
structure Spec.SamePairs (c : Scan) (start timestep mw : ℚ) (n' : ℕ) (T : ℤ)
    (P : List (Compute.Str × Compute.Str)) : Prop where
  some : P ≠ []
  detect : ∀ T', T - n' ≤ T' → T' ≤ T + n' → Spec.pairsAt c start timestep T' = P
  locate : Spec.pairsIn c (locateWindow ((T : ℚ) / c.sr) mw (c.pads (4 * mw))) = P

/-- A sample that detect computes from the values `f` of the nodes, or a sample of 0 without data. -/
def Spec.SampleOf (c : Scan) (f : ℕ → ℝ) (s : Sample) : Prop :=
  (∃ o, s = c.sample o ∧ Spec.ReportsPeak c.g f o) ∨ s = ⟨0, 0, 0, 0, 0⟩ ∧ ∀ node, f node = 0

/-- In every window read that has data the onset functions are `O`, as functions of absolute time, on the samples that
are used; the threads run in a
possible order, and the onset functions have no more samples than the C code can count. -/
structure Spec.Reads (c : Scan) (O : Compute.Str → Compute.Str → ℤ → ℝ) (start timestep mw : ℚ) : Prop where
  detectOnsets : ∀ (i : ℕ) win, win = detectWindow start timestep c.sr (c.pads timestep) i →
    Spec.OnsetsOf 0 c.sr win (c.pads timestep) c.ttmax (Spec.pairsIn c win) O (c.onset win)
  locateOnsets : ∀ (T : ℤ) win, win = locateWindow ((T : ℚ) / c.sr) mw (c.pads (4 * mw)) →
    Spec.OnsetsOf 0 c.sr win (c.pads (4 * mw)) c.ttmax (Spec.pairsIn c win) O (c.onset win)
  detectOrder : ∀ (i : ℕ) win, win = detectWindow start timestep c.sr (c.pads timestep) i →
    Spec.pairsIn c win ≠ [] →
    Spec.Schedules (Spec.pairsIn c win).length (onsetLength 0 c.sr win.1 win.2).toNat c.L.nNodes
      (time2sample (c.pads timestep).1 c.sr).toNat (time2sample (c.pads timestep).2 c.sr).toNat
      (c.sched timestep win) (c.sched' timestep win)
  locateOrder : ∀ (T : ℤ) win, win = locateWindow ((T : ℚ) / c.sr) mw (c.pads (4 * mw)) →
    Spec.pairsIn c win ≠ [] →
    Spec.Schedules (Spec.pairsIn c win).length (onsetLength 0 c.sr win.1 win.2).toNat c.L.nNodes
      (time2sample (c.pads (4 * mw)).1 c.sr).toNat (time2sample (c.pads (4 * mw)).2 c.sr).toNat
      (c.sched (4 * mw) win) (c.sched' (4 * mw) win)
  fits : ∀ win, Spec.IsRead c start timestep mw win →
    (Spec.pairsIn c win).length * (onsetLength 0 c.sr win.1 win.2).toNat ≤ 2 ^ 31

/-- Doubles are within `η` of the real values they stand for, up to what scanmseed files can store. -/
structure Spec.Floats (fl : ℝ → ℚ) (η : ℚ) : Prop where
  nonneg : ∀ x, 0 ≤ x → 0 ≤ fl x
  mono : ∀ x y, x ≤ y → fl x ≤ fl y
  near : ∀ x, 0 ≤ x → x ≤ 21475 → |(fl x : ℝ) - x| ≤ η
  small : η ≤ 1

/-- Among the samples from `A` to before `B`, the trigger value is above `t` from `U` to `V` and below elsewhere, and
the coalescence is largest at `T`; each by more than what is lost when values are rounded and stored. -/
structure Spec.OneBurst (norm : Bool) (t η : ℚ) (nNodes : ℕ) (f : ℤ → ℕ → ℝ) (A B U V T : ℤ) : Prop where
  inside : A ≤ T ∧ T < B ∧ U ≤ T ∧ T ≤ V
  threshold : t + 1 / 200000 ≤ 21474
  above : ∀ T', A ≤ T' → T' < B → U ≤ T' → T' ≤ V →
    ((t + 1 / 200000 + η : ℚ) : ℝ) ≤ Spec.peakLevel norm nNodes (f T')
  below : ∀ T', A ≤ T' → T' < B → T' < U ∨ V < T' →
    Spec.peakLevel norm nNodes (f T') < ((t - 1 / 200000 - η : ℚ) : ℝ)
  largest : ∀ T', A ≤ T' → T' < B → T' ≠ T →
    Spec.peakValue nNodes (f T') + ((1 / 100000 + 2 * η : ℚ) : ℝ) < Spec.peakValue nNodes (f T)
  storable : Spec.peakValue nNodes (f T) + η ≤ 21474

/-! ## Peaks -/

theorem reportsPeak_value {g : Grid.Grid} {f : ℕ → ℝ} {o : Out} (h : Spec.ReportsPeak g f o) :
    o.maxCoa = Spec.peakValue (g.count 0 * g.count 1 * g.count 2) f := by
  obtain ⟨n, hn, h1, h2, h3⟩ := h.node
  have hne : Nonempty (Fin (g.count 0 * g.count 1 * g.count 2)) := ⟨⟨n, hn⟩⟩
  unfold Spec.peakValue
  apply le_antisymm
  · rw [h1]
    exact le_ciSup (f := fun k : Fin (g.count 0 * g.count 1 * g.count 2) => f k) (Set.finite_range _).bddAbove ⟨n, hn⟩
  · exact ciSup_le fun k => h.largest k k.2

theorem reportsPeak_level {g : Grid.Grid} {f : ℕ → ℝ} {o : Out} (h : Spec.ReportsPeak g f o) (norm : Bool) :
    (if norm then o.norm else o.maxCoa) = Spec.peakLevel norm (g.count 0 * g.count 1 * g.count 2) f := by
  unfold Spec.peakLevel
  rw [h.ratio, reportsPeak_value h]

theorem coaOf_nonneg (c : Scan) (G : Compute.Str → Compute.Str → ℕ → ℚ) (O : Compute.Str → Compute.Str → ℤ → ℝ)
    (P : ℤ → List (Compute.Str × Compute.Str)) (T : ℤ) (node : ℕ) : 0 ≤ Spec.coaOf c G O P T node := by
  unfold Spec.coaOf Spec.coalescence
  split_ifs
  · exact le_rfl
  apply Real.rpow_nonneg
  apply List.prod_nonneg
  intro x hx
  obtain ⟨sp, -, rfl⟩ := List.mem_map.mp hx
  exact le_trans (by norm_num) (le_max_left _ _)

theorem reportsPeak_nonneg {g : Grid.Grid} {f : ℕ → ℝ} {o : Out} (h : Spec.ReportsPeak g f o) (hf : ∀ n, 0 ≤ f n) :
    0 ≤ o.maxCoa ∧ 0 ≤ o.norm := by
  obtain ⟨n, hn, h1, h2, h3⟩ := h.node
  have h4 : 0 ≤ o.maxCoa := by rw [h1]; exact hf n
  refine ⟨h4, ?_⟩
  rw [h.ratio]
  exact div_nonneg h4 (div_nonneg (Finset.sum_nonneg fun n _ => hf n) (Nat.cast_nonneg _))

/-! ## What detect and locate get -/

section
variable {c : Scan} {G : Compute.Str → Compute.Str → ℕ → ℚ} {O : Compute.Str → Compute.Str → ℤ → ℝ} {start timestep mw : ℚ}

theorem pairsIn_ne_nil {win : ℚ × ℚ} (h : Spec.pairsIn c win ≠ []) :
    c.missing win = none ∧ Spec.pairsIn c win = Spec.migratedPairs c.phases c.stations (c.av win) := by
  unfold Spec.pairsIn at h ⊢
  by_cases hm : c.missing win = none
  · exact ⟨hm, by rw [if_pos hm]⟩
  · rw [if_neg hm] at h
    exact absurd rfl h

theorem Spec.Setup.at (S : Spec.Setup c G) {win : ℚ × ℚ} (h : Spec.pairsIn c win ≠ []) :
    Spec.ScanSetup c.L c.g c.w c.ttmax c.sr c.phases c.stations (c.av win) G := by
  obtain ⟨-, h1⟩ := pairsIn_ne_nil h
  refine ⟨S.nodes, S.pos, S.win, S.longest, S.ttpos, S.rate, S.phNodup, S.stNodup, S.phName, S.stName, S.phLut, S.stLut,
    S.avail win, ?_, S.table win⟩
  rw [h1] at h
  obtain ⟨sp, hsp⟩ := List.exists_mem_of_ne_nil _ h
  obtain ⟨h2, h3, h4⟩ := mem_migratedPairs hsp
  exact ⟨sp.1, h2, sp.2, h3, h4⟩

theorem compute_nothing (S : Spec.Setup c G) {win : ℚ × ℚ} (h : Spec.pairsIn c win = []) (hm : c.missing win = none)
    (ts : ℚ) : c.compute ts win = .error (.input .dataAvailability) := by
  have h1 : Compute.migrateInput c.L c.sr c.phases c.stations (c.av win) (c.onset win) = .error .dataAvailability := by
    apply C32_nothing_available _ _ _ _ S.phNodup S.stNodup S.phName S.stName
    intro s hs p hp
    by_contra hne
    have h2 := S.avail win s p
    have h3 : (s, p) ∈ Spec.migratedPairs c.phases c.stations (c.av win) := by
      simp only [Spec.migratedPairs, List.mem_flatMap, List.mem_map, List.mem_filter, decide_eq_true_eq]
      exact ⟨p, hp, s, ⟨hs, by omega⟩, rfl⟩
    unfold Spec.pairsIn at h
    rw [if_pos hm] at h
    rw [h] at h3
    cases h3
  unfold Scan.compute ComputeStep.compute
  rw [h1]

theorem detect_nothing (S : Spec.Setup c G) {win : ℚ × ℚ} (h : Spec.pairsIn c win = []) (ts : ℚ) :
    c.detectOutcome ts win = .archiveEmpty ∨ c.detectOutcome ts win = .dataGap ∨
      c.detectOutcome ts win = .dataAvailability := by
  unfold Scan.detectOutcome
  cases hm : c.missing win with
  | some m => cases m <;> simp
  | none => rw [compute_nothing S h hm]; simp

theorem locate_nothing (S : Spec.Setup c G) {x : Locate.Trig}
    (h : Spec.pairsIn c (locateWindow x.time mw (c.pads (4 * mw))) = []) :
    c.locateOutcome mw x = .archiveEmpty ∨ c.locateOutcome mw x = .dataGap ∨
      c.locateOutcome mw x = .dataAvailability := by
  unfold Scan.locateOutcome
  cases hm : c.missing (locateWindow x.time mw (c.pads (4 * mw))) with
  | some m => cases m <;> simp
  | none => rw [compute_nothing S h hm]; simp

theorem detect_out (S : Spec.Setup c G)
    (R : Spec.Reads c O start timestep mw) (a : ℤ) (hstart : start = a / c.sr) (n : ℕ) (hn : timestep * c.sr = n)
    (htie : ∀ z : ℤ, (c.pads timestep).1 * c.sr ≠ z + 1 / 2) (i : ℕ)
    (hP : Spec.pairsIn c (detectWindow start timestep c.sr (c.pads timestep) i) ≠ []) :
    ∃ out : List Out, c.detectOutcome timestep (detectWindow start timestep c.sr (c.pads timestep) i) =
        .ok (out.map c.sample) (c.avail (detectWindow start timestep c.sr (c.pads timestep) i)) ∧ out.length = n ∧
      ∀ m < n, ∃ o, out[m]? = some o ∧ Spec.ReportsPeak c.g (fun node => Spec.coalescence
        (Spec.pairsIn c (detectWindow start timestep c.sr (c.pads timestep) i)) O
        (fun s p k => pyRound (G s p k * c.sr)) node (a + i * n + m)) o := by
  have hstart' : start = 0 + a / c.sr := by rw [hstart, zero_add]
  obtain ⟨h1, -⟩ := C22_detect_sample_count_partial c.w c.ttmax c.sr S.rate 0 timestep a n hn i start hstart' _ rfl htie
    _ rfl
  have hsr : (0 : ℚ) < c.sr := by exact_mod_cast S.rate
  have hts : 0 ≤ timestep := by
    by_contra h
    have h3 : timestep * c.sr < 0 := mul_neg_of_neg_of_pos (not_le.1 h) hsr
    have h4 : (0 : ℚ) ≤ n := Nat.cast_nonneg n
    linarith
  obtain ⟨hp1, hp2⟩ := scanPads_samples_nonneg S.win S.ttpos S.rate hts
  have hcols : onsetLength 0 c.sr (detectWindow start timestep c.sr (c.pads timestep) i).1
      (detectWindow start timestep c.sr (c.pads timestep) i).2 =
      ((onsetLength 0 c.sr (detectWindow start timestep c.sr (c.pads timestep) i).1
      (detectWindow start timestep c.sr (c.pads timestep) i).2).toNat : ℤ) := by
    rw [Int.toNat_of_nonneg]
    unfold coaSamples at h1
    unfold Scan.pads
    omega
  have r1 := R.fits _ (Or.inl ⟨i, rfl⟩)
  have r2 := R.detectOnsets i _ rfl
  have r3 := R.detectOrder i _ rfl hP
  obtain ⟨hm, hPeq⟩ := pairsIn_ne_nil hP
  rw [hPeq] at r1 r2 r3 ⊢
  obtain ⟨out, q1, q2, q3⟩ := C114_detect_value_partial c.L c.g c.w c.ttmax c.sr c.phases c.stations _ G (S.at hP) 0 start
    timestep a hstart' n hn i _ rfl htie _ rfl _ hcols r1 O _ r2 _ _ r3
  refine ⟨out, ?_, q2, q3⟩
  have q4 : c.compute timestep (detectWindow start timestep c.sr (c.pads timestep) i) = .ok out := q1
  unfold Scan.detectOutcome
  rw [hm, q4]

theorem locate_out (S : Spec.Setup c G)
    (R : Spec.Reads c O start timestep mw) (n : ℕ) (hn : 2 * mw * c.sr = n)
    (htie : ∀ z : ℤ, (c.pads (4 * mw)).1 * c.sr ≠ z + 1 / 2) (x : Locate.Trig) (T : ℤ) (hx : x.time = T / c.sr)
    (hP : Spec.pairsIn c (locateWindow x.time mw (c.pads (4 * mw))) ≠ []) :
    ∃ out : List Out, c.locateOutcome mw x = .computed (List.zipWith (fun t o => ⟨t, c.fl o.maxCoa, c.fl o.norm⟩)
        (mwTimes x.time mw c.sr) out) out ∧ out.length = 2 * n + 1 ∧ (mwTimes x.time mw c.sr).length = 2 * n + 1 ∧
      ∀ m < 2 * n + 1, ∃ o, out[m]? = some o ∧ Spec.ReportsPeak c.g (fun node => Spec.coalescence
        (Spec.pairsIn c (locateWindow x.time mw (c.pads (4 * mw)))) O
        (fun s p k => pyRound (G s p k * c.sr)) node (T - n + m)) o := by
  have hx' : x.time = 0 + T / c.sr := by rw [hx, zero_add]
  have hsr : (0 : ℚ) < c.sr := by exact_mod_cast S.rate
  have hts : 0 ≤ 4 * mw := by
    by_contra h
    have h1 : (4 * mw) * c.sr < 0 := mul_neg_of_neg_of_pos (not_le.1 h) hsr
    have h2 : (0 : ℚ) ≤ n := Nat.cast_nonneg n
    linarith
  obtain ⟨h1, -⟩ := C22_locate_times_partial c.w c.ttmax c.sr S.rate 0 mw T n hn x.time hx' _ rfl htie _ rfl
  have hlen : (mwTimes x.time mw c.sr).length = 2 * n + 1 := by
    have : (4 * mw * c.sr + 1 : ℚ) = ((2 * n + 1 : ℕ) : ℚ) := by
      push_cast; rw [← hn]; ring
    simp only [mwTimes, List.length_map, List.length_range]
    rw [this, pyInt_natCast]; omega
  obtain ⟨hp1, hp2⟩ := scanPads_samples_nonneg S.win S.ttpos S.rate hts
  have hread : Spec.IsRead c start timestep mw (locateWindow x.time mw (c.pads (4 * mw))) :=
    Or.inr ⟨T, by rw [hx]⟩
  have hcols : onsetLength 0 c.sr (locateWindow x.time mw (c.pads (4 * mw))).1
      (locateWindow x.time mw (c.pads (4 * mw))).2 =
      ((onsetLength 0 c.sr (locateWindow x.time mw (c.pads (4 * mw))).1
      (locateWindow x.time mw (c.pads (4 * mw))).2).toNat : ℤ) := by
    rw [Int.toNat_of_nonneg]
    unfold coaSamples at h1
    unfold Scan.pads
    omega
  have r1 := R.fits _ hread
  have r2 := R.locateOnsets T (locateWindow x.time mw (c.pads (4 * mw))) (by rw [hx])
  have r3 := R.locateOrder T _ (by rw [hx]) hP
  obtain ⟨hm, hPeq⟩ := pairsIn_ne_nil hP
  rw [hPeq] at r1 r2 r3 ⊢
  obtain ⟨out, q1, q2, q3⟩ := C114_locate_value_partial c.L c.g c.w c.ttmax c.sr c.phases c.stations _ G (S.at hP) 0 x.time
    mw T hx' n hn _ rfl htie _ rfl _ hcols r1 O _ r2 _ _ r3
  refine ⟨out, ?_, q2, hlen, q3⟩
  have q4 : c.compute (4 * mw) (locateWindow x.time mw (c.pads (4 * mw))) = .ok out := q1
  unfold Scan.locateOutcome
  rw [hm, q4]
  simp only [q2, hlen, if_true]

/-- Sample `m` of timestep `i` is in that timestep. -/
theorem pairsAt_step (hsr : 0 < c.sr) (a : ℤ) (hstart : start = a / c.sr) (n : ℕ) (hn : timestep * c.sr = n) (i m : ℕ)
    (hm : m < n) : Spec.pairsAt c start timestep (a + i * n + m) =
      Spec.pairsIn c (detectWindow start timestep c.sr (c.pads timestep) i) := by
  have hsr' : (0 : ℚ) < c.sr := by exact_mod_cast hsr
  have hn' : (0 : ℚ) < n := by exact_mod_cast (by omega : 0 < n)
  have hts : timestep = n / c.sr := by rw [← hn]; field_simp
  have h : ⌊(((a + i * n + m : ℤ) : ℚ) / c.sr - start) / timestep⌋ = i := by
    have h1 : (((a + i * n + m : ℤ) : ℚ) / c.sr - start) / timestep = i + (m : ℚ) / n := by
      rw [hstart, hts]; push_cast; field_simp; ring
    rw [h1, Int.floor_eq_iff]
    have h2 : (0 : ℚ) ≤ (m : ℚ) / n := by positivity
    have h3 : (m : ℚ) / n < 1 := by rw [div_lt_one hn']; exact_mod_cast hm
    push_cast
    constructor <;> linarith
  unfold Spec.pairsAt
  rw [h, Int.toNat_natCast]

theorem stepComputed_eq (S : Spec.Setup c G)
    (R : Spec.Reads c O start timestep mw) (a : ℤ) (hstart : start = a / c.sr) (n : ℕ) (hn : timestep * c.sr = n)
    (htie : ∀ z : ℤ, (c.pads timestep).1 * c.sr ≠ z + 1 / 2) (stop : ℚ) (cols : List String) (ucf : ℚ) (cw : Bool)
    (i : ℕ) :
    ∃ out : List Sample, out.length = n ∧
      (∀ m < n, ∃ s, out[m]? = some s ∧
        Spec.SampleOf c (Spec.coaOf c G O (Spec.pairsAt c start timestep) (a + i * n + m)) s) ∧
      Spec.stepComputed (c.call timestep start stop cols ucf cw) i = out.zipIdx.map fun p : Sample × ℕ =>
        (((a + i * n + p.2 : ℤ) : ℚ) / c.sr, p.1) := by
  have hsr : (0 : ℚ) < c.sr := by exact_mod_cast S.rate
  have h5 : timestep = n / c.sr := by rw [← hn]; field_simp
  have htime : ∀ out : List Sample, (out.zipIdx.map fun p : Sample × ℕ =>
      (start + timestep * i + (p.2 : ℚ) / c.sr, p.1)) = out.zipIdx.map fun p : Sample × ℕ =>
        (((a + i * n + p.2 : ℤ) : ℚ) / c.sr, p.1) := by
    intro out
    apply List.map_congr_left
    intro p _
    rw [hstart, h5]
    congr 1
    push_cast
    field_simp
  by_cases hP : Spec.pairsIn c (detectWindow start timestep c.sr (c.pads timestep) i) = []
  · refine ⟨List.replicate n ⟨0, 0, 0, 0, 0⟩, List.length_replicate, ?_, ?_⟩
    · intro m hm
      refine ⟨_, List.getElem?_replicate_of_lt hm, Or.inr ⟨rfl, fun node => ?_⟩⟩
      unfold Spec.coaOf
      rw [pairsAt_step S.rate a hstart n hn i m hm, if_pos hP]
    · rw [← htime]
      have hlen : ⌊timestep * (c.sr : ℚ)⌋.toNat = n := by rw [hn, Int.floor_natCast, Int.toNat_natCast]
      have h4 := detect_nothing S hP timestep
      have h6 : (c.call timestep start stop cols ucf cw).outcome
        (Detect.window (c.call timestep start stop cols ucf cw).cfg (c.call timestep start stop cols ucf cw).start i) =
        c.detectOutcome timestep (detectWindow start timestep c.sr (c.pads timestep) i) := rfl
      unfold Spec.stepComputed
      rw [h6]
      have h7 : (c.call timestep start stop cols ucf cw).cfg.timestep = timestep := rfl
      have h8 : (c.call timestep start stop cols ucf cw).cfg.scanRate = c.sr := rfl
      have h9 : (c.call timestep start stop cols ucf cw).start = start := rfl
      rw [h7, h8, h9, hlen]
      rcases h4 with h4 | h4 | h4 <;> rw [h4]
  · obtain ⟨out, h1, h2, h3⟩ := detect_out S R a hstart n hn htie i hP
    refine ⟨out.map c.sample, by rw [List.length_map, h2], ?_, ?_⟩
    · intro m hm
      obtain ⟨o, h4, h6⟩ := h3 m hm
      refine ⟨c.sample o, by rw [List.getElem?_map, h4]; rfl, Or.inl ⟨o, rfl, ?_⟩⟩
      convert h6 using 1
      funext node
      unfold Spec.coaOf
      rw [pairsAt_step S.rate a hstart n hn i m hm, if_neg hP]
    · rw [← htime]
      have h4 : (c.call timestep start stop cols ucf cw).outcome
        (Detect.window (c.call timestep start stop cols ucf cw).cfg (c.call timestep start stop cols ucf cw).start i) =
        .ok (out.map c.sample) (c.avail (detectWindow start timestep c.sr (c.pads timestep) i)) := h1
      unfold Spec.stepComputed
      rw [h4]
      rfl

theorem mem_computed (S : Spec.Setup c G)
    (R : Spec.Reads c O start timestep mw) (a : ℤ) (hstart : start = a / c.sr) (n : ℕ) (hn : timestep * c.sr = n)
    (htie : ∀ z : ℤ, (c.pads timestep).1 * c.sr ≠ z + 1 / 2) (stop : ℚ) (cols : List String) (ucf : ℚ) (cw : Bool)
    (p : ℚ × Sample) (hp : p ∈ Spec.computed (c.call timestep start stop cols ucf cw)) :
    ∃ (T : ℤ) (s : Sample), a ≤ T ∧ T < a + Spec.steps (c.call timestep start stop cols ucf cw) * n ∧
      p = ((T : ℚ) / c.sr, s) ∧ Spec.SampleOf c (Spec.coaOf c G O (Spec.pairsAt c start timestep) T) s := by
  unfold Spec.computed at hp
  obtain ⟨i, hi, hp⟩ := List.mem_flatMap.mp hp
  obtain ⟨out, h1, h2, h3⟩ := stepComputed_eq S R a hstart n hn htie stop cols ucf cw i
  rw [h3] at hp
  obtain ⟨⟨o, m⟩, hq, rfl⟩ := List.mem_map.mp hp
  have hq' := List.mem_zipIdx_iff_getElem?.mp hq
  simp only at hq'
  have hm : m < n := by
    rw [← h1]
    exact (List.getElem?_eq_some_iff.mp hq').1
  obtain ⟨o', h4, h5⟩ := h2 m hm
  rw [hq'] at h4
  cases h4
  have hi' := List.mem_range.mp hi
  refine ⟨a + i * n + m, o, by nlinarith [Int.natCast_nonneg i, Int.natCast_nonneg n, Int.natCast_nonneg m, mul_nonneg (Int.natCast_nonneg i) (Int.natCast_nonneg n)], ?_, rfl, h5⟩
  have : (i + 1) * n ≤ Spec.steps (c.call timestep start stop cols ucf cw) * n := Nat.mul_le_mul_right _ hi'
  zify at this hm
  linarith

theorem computed_mem (S : Spec.Setup c G)
    (R : Spec.Reads c O start timestep mw) (a : ℤ) (hstart : start = a / c.sr) (n : ℕ) (hn : timestep * c.sr = n)
    (htie : ∀ z : ℤ, (c.pads timestep).1 * c.sr ≠ z + 1 / 2) (stop : ℚ) (cols : List String) (ucf : ℚ) (cw : Bool)
    (T : ℤ) (hT1 : a ≤ T) (hT2 : T < a + Spec.steps (c.call timestep start stop cols ucf cw) * n)
    (hP : Spec.pairsAt c start timestep T ≠ []) :
    ∃ o, Spec.ReportsPeak c.g (Spec.coaOf c G O (Spec.pairsAt c start timestep) T) o ∧
      ((T : ℚ) / c.sr, c.sample o) ∈ Spec.computed (c.call timestep start stop cols ucf cw) := by
  obtain ⟨d, hd⟩ := Int.eq_ofNat_of_zero_le (sub_nonneg.mpr hT1)
  have hdn : d < Spec.steps (c.call timestep start stop cols ucf cw) * n := by zify; rw [← hd]; linarith
  have hn0 : 0 < n := by
    rcases Nat.eq_zero_or_pos n with h | h
    · simp [h] at hdn
    · exact h
  have hi : d / n < Spec.steps (c.call timestep start stop cols ucf cw) := Nat.div_lt_of_lt_mul (by rwa [mul_comm])
  have hT : a + ((d / n : ℕ) : ℤ) * n + ((d % n : ℕ) : ℤ) = T := by
    have : (d / n) * n + d % n = d := Nat.div_add_mod' d n
    zify at this
    push_cast
    linarith
  obtain ⟨out, h1, h2, h3⟩ := stepComputed_eq S R a hstart n hn htie stop cols ucf cw (d / n)
  have hstep := pairsAt_step S.rate a hstart n hn (d / n) (d % n) (Nat.mod_lt _ hn0)
  rw [hT] at hstep
  rw [hstep] at hP
  obtain ⟨out', g1, g2, g3⟩ := detect_out S R a hstart n hn htie (d / n) hP
  obtain ⟨o, h4, h5⟩ := g3 (d % n) (Nat.mod_lt _ hn0)
  rw [hT] at h5
  have h6 : Spec.ReportsPeak c.g (Spec.coaOf c G O (Spec.pairsAt c start timestep) T) o := by
    convert h5 using 1
    funext node
    unfold Spec.coaOf
    rw [hstep, if_neg hP]
  refine ⟨o, h6, ?_⟩
  unfold Spec.computed
  refine List.mem_flatMap.mpr ⟨d / n, List.mem_range.mpr hi, ?_⟩
  have h7 : out = out'.map c.sample := by
    have h8 : (c.call timestep start stop cols ucf cw).outcome
        (Detect.window (c.call timestep start stop cols ucf cw).cfg (c.call timestep start stop cols ucf cw).start (d / n)) =
        .ok (out'.map c.sample) (c.avail (detectWindow start timestep c.sr (c.pads timestep) (d / n))) := g1
    unfold Spec.stepComputed at h3
    rw [h8] at h3
    simp only at h3
    have h9 := congrArg (List.map Prod.snd) h3
    rw [List.map_map, List.map_map] at h9
    have h10 : ∀ (l : List Sample) (φ : Sample × ℕ → ℚ),
        l.zipIdx.map (Prod.snd ∘ fun p : Sample × ℕ => (φ p, p.1)) = l := by
      intro l φ
      show l.zipIdx.map Prod.fst = l
      exact List.zipIdx_map_fst _ _
    rw [h10, h10] at h9
    exact h9.symm
  rw [h3]
  refine List.mem_map.mpr ⟨(c.sample o, d % n), List.mem_zipIdx_iff_getElem?.mpr ?_, ?_⟩
  · simp only [h7, List.getElem?_map, h4, Option.map_some]
  · simp only
    rw [hT]

end

/-! ## Doubles -/

theorem fl_ge {fl : ℝ → ℚ} {η : ℚ} (F : Spec.Floats fl η) {x : ℝ} {b : ℚ} (hb : b ≤ 21474) (h : ((b + η : ℚ) : ℝ) ≤ x)
    (hx : 0 ≤ x) : b ≤ fl x := by
  have hs : (η : ℝ) ≤ 1 := by exact_mod_cast F.small
  have hb' : (b : ℝ) ≤ 21474 := by exact_mod_cast hb
  push_cast at h
  by_cases hl : x ≤ 21475
  · have := abs_le.mp (F.near x hx hl)
    have h3 : (b : ℝ) ≤ fl x := by linarith [this.1]
    exact_mod_cast h3
  · have h1 := F.mono 21475 x (not_le.mp hl).le
    have := abs_le.mp (F.near 21475 (by norm_num) le_rfl)
    have h2 : (b : ℝ) ≤ fl 21475 := by linarith [this.1]
    exact le_trans (by exact_mod_cast h2) h1

theorem fl_lt {fl : ℝ → ℚ} {η : ℚ} (F : Spec.Floats fl η) {x : ℝ} {b : ℚ} (hb : b ≤ 21475) (hη : 0 ≤ η)
    (h : x < ((b - η : ℚ) : ℝ)) (hx : 0 ≤ x) : fl x < b := by
  have hη' : (0 : ℝ) ≤ η := by exact_mod_cast hη
  have hb' : (b : ℝ) ≤ 21475 := by exact_mod_cast hb
  push_cast at h
  have := abs_le.mp (F.near x hx (by linarith))
  have h3 : (fl x : ℝ) < b := by linarith [this.2]
  exact_mod_cast h3

theorem Spec.Floats.pos {fl : ℝ → ℚ} {η : ℚ} (F : Spec.Floats fl η) : 0 ≤ η := by
  have h1 := F.near 0 le_rfl (by norm_num)
  have h2 : (0 : ℝ) ≤ η := le_trans (abs_nonneg _) h1
  exact_mod_cast h2

/-- What is stored for a sample is bounded by the values it stands for. -/
theorem sample_facts {c : Scan} {f : ℕ → ℝ} {s : Sample} (h : Spec.SampleOf c f s) (hf : ∀ n, 0 ≤ f n) {η : ℚ}
    (F : Spec.Floats c.fl η) (norm : Bool) :
    (0 ≤ s.coa ∧ 0 ≤ s.coaN) ∧ 0 ≤ Spec.peakLevel norm (c.g.count 0 * c.g.count 1 * c.g.count 2) f ∧
    (∀ b : ℚ, b ≤ 21474 → ((b + η : ℚ) : ℝ) ≤ Spec.peakLevel norm (c.g.count 0 * c.g.count 1 * c.g.count 2) f →
      b ≤ Spec.level norm s) ∧
    (∀ b : ℚ, b ≤ 21475 → Spec.peakLevel norm (c.g.count 0 * c.g.count 1 * c.g.count 2) f < ((b - η : ℚ) : ℝ) →
      Spec.level norm s < b) ∧
    (Spec.peakValue (c.g.count 0 * c.g.count 1 * c.g.count 2) f ≤ 21475 →
      |(s.coa : ℝ) - Spec.peakValue (c.g.count 0 * c.g.count 1 * c.g.count 2) f| ≤ η) := by
  have hη := F.pos
  rcases h with ⟨o, rfl, ho⟩ | ⟨rfl, hz⟩
  · have h0 := reportsPeak_nonneg ho hf
    have h1 : Spec.level norm (c.sample o) =
        c.fl (Spec.peakLevel norm (c.g.count 0 * c.g.count 1 * c.g.count 2) f) ∧
        0 ≤ Spec.peakLevel norm (c.g.count 0 * c.g.count 1 * c.g.count 2) f := by
      rw [← reportsPeak_level ho norm]
      cases norm
      · exact ⟨rfl, h0.1⟩
      · exact ⟨rfl, h0.2⟩
    refine ⟨⟨F.nonneg _ h0.1, F.nonneg _ h0.2⟩, h1.2, ?_, ?_, ?_⟩
    · intro b hb h
      rw [h1.1]
      exact fl_ge F hb h h1.2
    · intro b hb h
      rw [h1.1]
      exact fl_lt F hb hη h h1.2
    · intro h
      rw [← reportsPeak_value ho] at h ⊢
      exact F.near _ h0.1 h
  · have hv : Spec.peakValue (c.g.count 0 * c.g.count 1 * c.g.count 2) f = 0 := by
      unfold Spec.peakValue
      simp only [hz]
      exact Real.iSup_const_zero
    have hl : Spec.peakLevel norm (c.g.count 0 * c.g.count 1 * c.g.count 2) f = 0 := by
      unfold Spec.peakLevel
      rw [hv, zero_div, ite_self]
    have hs : Spec.level norm (⟨0, 0, 0, 0, 0⟩ : Sample) = 0 := by
      unfold Spec.level
      split_ifs <;> rfl
    rw [hv, hl, hs]
    refine ⟨⟨le_rfl, le_rfl⟩, le_rfl, ?_, ?_, ?_⟩
    · intro b _ h
      have : b + η ≤ 0 := by exact_mod_cast h
      linarith
    · intro b _ h
      have : (0 : ℚ) < b - η := by exact_mod_cast h
      linarith
    · intro _
      simp only [Rat.cast_zero, sub_zero, abs_zero]
      exact_mod_cast hη

/-- The samples that detect computes are one clear burst. -/
theorem clear_of_one {S : List (ℚ × Sample)} {c : Scan} {f : ℤ → ℕ → ℝ} {norm : Bool} {t η gap : ℚ} {A B U V T : ℤ}
    (hf : ∀ T n, 0 ≤ f T n) (F : Spec.Floats c.fl η) (hsr : 0 < c.sr)
    (hB : Spec.OneBurst norm t η (c.g.count 0 * c.g.count 1 * c.g.count 2) f A B U V T)
    (hS : ∀ p ∈ S, ∃ (T' : ℤ) (q : Sample), A ≤ T' ∧ T' < B ∧ p = ((T' : ℚ) / c.sr, q) ∧
      Spec.SampleOf c (f T') q) (o : Out) (ho : Spec.ReportsPeak c.g (f T) o)
    (hmem : ((T : ℚ) / c.sr, c.sample o) ∈ S) :
    Spec.ClearBurst norm t gap S ((U : ℚ) / c.sr) ((V : ℚ) / c.sr) ((T : ℚ) / c.sr) (c.sample o) ∧
    (∀ p ∈ S, p.1 ≠ (T : ℚ) / c.sr → p.2.coa + 1 / 100000 < (c.sample o).coa) ∧
    (∀ p ∈ S, t - 1 / 200000 ≤ Spec.level norm p.2 → (U : ℚ) / c.sr ≤ p.1 ∧ p.1 ≤ (V : ℚ) / c.sr) := by
  have hη := F.pos
  have hsr' : (0 : ℚ) < c.sr := by exact_mod_cast hsr
  have hdiv : ∀ x y : ℤ, (x : ℚ) / c.sr ≤ (y : ℚ) / c.sr ↔ x ≤ y := fun x y => by
    rw [div_le_div_iff_of_pos_right hsr']; exact_mod_cast Iff.rfl
  have hfacts : ∀ (T' : ℤ) (q : Sample), Spec.SampleOf c (f T') q → _ := fun T' q h => sample_facts h (hf T') F norm
  obtain ⟨-, -, -, -, hT0⟩ := hfacts T _ (Or.inl ⟨o, rfl, ho⟩)
  have hη' : (0 : ℝ) ≤ η := by exact_mod_cast hη
  have hst := hB.storable
  have hT0 := abs_le.mp (hT0 (by linarith))
  have hlarge : ∀ p ∈ S, p.1 ≠ (T : ℚ) / c.sr → p.2.coa + 1 / 100000 < (c.sample o).coa := by
    intro p hp hne
    obtain ⟨T', q, h1, h2, rfl, h3⟩ := hS p hp
    have hT' : T' ≠ T := fun h => hne (by rw [h])
    have h4 := hB.largest T' h1 h2 hT'
    push_cast at h4
    obtain ⟨-, -, -, -, h5⟩ := hfacts T' q h3
    have h6 := abs_le.mp (h5 (by linarith))
    have h8 : (q.coa : ℝ) + 1 / 100000 < (c.sample o).coa := by linarith [h6.2, hT0.1]
    have h9 : ((q.coa + 1 / 100000 : ℚ) : ℝ) < (((c.sample o).coa : ℚ) : ℝ) := by push_cast; exact h8
    exact Rat.cast_lt.mp h9
  have hlow : ∀ p ∈ S, t - 1 / 200000 ≤ Spec.level norm p.2 → (U : ℚ) / c.sr ≤ p.1 ∧ p.1 ≤ (V : ℚ) / c.sr := by
    intro p hp hl
    obtain ⟨T', q, h1, h2, rfl, h3⟩ := hS p hp
    simp only at hl ⊢
    rw [hdiv, hdiv]
    by_contra hc
    have h6 := hB.below T' h1 h2 (by omega)
    obtain ⟨-, -, -, h7, -⟩ := hfacts T' q h3
    have h8 := h7 (t - 1 / 200000) (by have := hB.threshold; linarith) h6
    linarith
  refine ⟨⟨hmem, (hdiv _ _).mpr hB.inside.2.2.1, (hdiv _ _).mpr hB.inside.2.2.2, ?_, hB.threshold, ?_, ?_, ?_, ?_⟩,
    hlarge, hlow⟩
  · have h8 : ((c.sample o).coa : ℝ) ≤ 21474 := by linarith [hT0.2]
    exact_mod_cast h8
  · intro p hp h1 h2
    obtain ⟨T', q, h3, h4, rfl, h5⟩ := hS p hp
    simp only at h1 h2 ⊢
    rw [hdiv] at h1 h2
    obtain ⟨-, -, h6, -, -⟩ := hfacts T' q h5
    exact h6 _ hB.threshold (hB.above T' h3 h4 h1 h2)
  · exact fun p hp _ _ hne => hlarge p hp hne
  · intro p hp h1 h2
    exact absurd (hlow p hp h2).2 (not_le.mpr h1)
  · intro p hp h1 h2
    exact absurd (hlow p hp h2).1 (not_le.mpr h1)

/-- Locate computes or skips every event that detect could give it. -/
theorem locate_fine {c : Scan} {G : Compute.Str → Compute.Str → ℕ → ℚ} {O : Compute.Str → Compute.Str → ℤ → ℝ}
    {start timestep mw : ℚ} (S : Spec.Setup c G)
    (R : Spec.Reads c O start timestep mw) (n : ℕ) (hn : 2 * mw * c.sr = n)
    (htie : ∀ z : ℤ, (c.pads (4 * mw)).1 * c.sr ≠ z + 1 / 2) {L : List (ℚ × Sample)}
    (hL : ∀ p ∈ L, ∃ T : ℤ, p.1 = (T : ℚ) / c.sr)
    (later : Locate.Trig → Locate.Later) (hlater : ∀ x, later x = .fine) :
    Spec.NothingFails L (c.locateOutcome mw) later := by
  rintro w ⟨p, hp, hpw⟩
  obtain ⟨T', hT'⟩ := hL p hp
  by_cases hP : Spec.pairsIn c (locateWindow w.time mw (c.pads (4 * mw))) = []
  · rcases locate_nothing S hP with h | h | h <;> rw [h] <;> simp [hlater]
  obtain ⟨out, h3, h4, h5, -⟩ := locate_out S R n hn htie w T' (hpw.symm.trans hT') hP
  refine ⟨hlater w, by rw [h3]; simp, ?_⟩
  intro map h6
  rw [h3] at h6
  have h7 := congrArg (fun o => match o with | Locate.Outcome.computed rows _ => rows.length | _ => 0) h6
  simp only [List.length_zipWith, h4, h5, List.length_nil] at h7
  omega

/-- Locate gets the coalescence that detect computed. -/
theorem locate_same {c : Scan} {G : Compute.Str → Compute.Str → ℕ → ℚ} {O : Compute.Str → Compute.Str → ℤ → ℝ}
    {start timestep mw : ℚ} (S : Spec.Setup c G)
    (R : Spec.Reads c O start timestep mw) (n : ℕ) (hn : 2 * mw * c.sr = n)
    (htie : ∀ z : ℤ, (c.pads (4 * mw)).1 * c.sr ≠ z + 1 / 2) {L : List (ℚ × Sample)} (A B T : ℤ)
    (hL : ∀ T' : ℤ, A ≤ T' → T' < B → Spec.pairsAt c start timestep T' ≠ [] →
      ∃ o, Spec.ReportsPeak c.g (Spec.coaOf c G O (Spec.pairsAt c start timestep) T') o ∧
      ((T' : ℚ) / c.sr, c.sample o) ∈ L) (hleft : A ≤ T - n) (hright : T + n < B)
    {P : List (Compute.Str × Compute.Str)} (hP : Spec.SamePairs c start timestep mw n T P) :
    Spec.Recomputes (c.locateOutcome mw) L mw c.sr ((T : ℚ) / c.sr) := by
  have hsr' : (0 : ℚ) < c.sr := by exact_mod_cast S.rate
  intro w hw
  have hPl := hP.locate
  rw [← hw] at hPl
  obtain ⟨out, h3, h4, h5, h6⟩ := locate_out S R n hn htie w T hw (by rw [hPl]; exact hP.some)
  rw [hPl] at h6
  refine ⟨_, _, h3, ?_, ?_⟩
  · rw [← hw]
    apply List.ext_getElem
    · simp [h4, h5]
    · intro i hi hi'
      simp
  · intro row hrow
    obtain ⟨i, hi, rfl⟩ := List.mem_iff_getElem.mp hrow
    have hi' : i < 2 * n + 1 := by simpa [h4, h5] using hi
    obtain ⟨o1, h7, h8⟩ := h6 i hi'
    have hPi := hP.detect (T - n + i) (by omega) (by omega)
    obtain ⟨o2, h9, h10⟩ := hL (T - n + i) (by omega) (by omega) (by rw [hPi]; exact hP.some)
    have h9 : Spec.ReportsPeak c.g (fun node => Spec.coalescence P O (fun s p k => pyRound (G s p k * c.sr)) node
        (T - n + i)) o2 := by
      convert h9 using 1
      funext node
      unfold Spec.coaOf
      rw [hPi, if_neg hP.some]
    have h11 := reportsPeak_unique h8 h9
    subst h11
    refine ⟨_, h10, ?_, ?_⟩
    · simp only [List.getElem_zipWith, mwTimes, List.getElem_map, List.getElem_range]
      rw [hw]
      have h12 : 2 * mw = n / c.sr := by rw [← hn]; field_simp
      rw [h12]
      push_cast
      field_simp
    · have h13 := (List.getElem?_eq_some_iff.mp h7).2
      simp only [List.getElem_zipWith, h13]
      rfl

/-! ## The claim -/

/-- One burst of coalescence gives one event, at the largest sample and at the node reported there. -/
theorem one_event (c : Scan) (G : Compute.Str → Compute.Str → ℕ → ℚ)
    (S : Spec.Setup c G)
    (O : Compute.Str → Compute.Str → ℤ → ℝ) (η : ℚ) (F : Spec.Floats c.fl η)
    -- the call of detect
    (timestep start stop : ℚ) (cols : List String) (ucf : ℚ) (cw : Bool) (k : Call)
    (hk : k = c.call timestep start stop cols ucf cw) (hucf : 0 < ucf) (a : ℤ) (hstart : start = a / c.sr)
    (n : ℕ) (hn0 : 0 < n) (hn : timestep * c.sr = n) (hday : timestep ≤ 86400)
    (hrun : start < Detect.adjustedEnd k.cfg stop)
    (htie : ∀ z : ℤ, (c.pads timestep).1 * c.sr ≠ z + 1 / 2)
    (jul : ℤ → ℕ) (hjul : ∀ d, jul d ≠ jul (d + 1)) (order : Availability.Table → List ℤ)
    -- the calls of trigger and locate
    (cfg : Trigger.Cfg) (hmw : 0 < cfg.mw) (hmei : 2 * cfg.mw ≤ cfg.mei) (n' : ℕ) (hn' : 2 * cfg.mw * c.sr = n')
    (htie' : ∀ z : ℤ, (c.pads (4 * cfg.mw)).1 * c.sr ≠ z + 1 / 2) (t : ℚ) (region : Option Region) (pad s e : ℚ)
    (hpad : ∃ i : ℕ, pad = i / (c.sr : ℚ)) (hs : ∃ i : ℤ, s = i / (c.sr : ℚ)) (he : ∃ i : ℤ, e = i / (c.sr : ℚ))
    (hfrom : start ≤ s) (hto : e ≤ start + timestep * (Spec.steps k : ℚ))
    (events : TriggerFiles.Files) (hfresh : ∀ d, TriggerFiles.dayNum s ≤ d → events d = none) (uid : ℚ → ℕ)
    (later : Locate.Trig → Locate.Later) (hlater : ∀ x, later x = .fine)
    (R : Spec.Reads c O start timestep cfg.mw)
    -- the burst
    (T U V : ℤ) (P : List (Compute.Str × Compute.Str))
    (hB : Spec.OneBurst cfg.norm t η c.L.nNodes (Spec.coaOf c G O (Spec.pairsAt c start timestep)) a (a + Spec.steps k * n) U V T)
    (hlong : ((V - U : ℤ) : ℚ) / c.sr ≤ pad) (h1 : s ≤ (T : ℚ) / c.sr) (h2 : (T : ℚ) / c.sr < e)
    (hleft : a ≤ T - n') (hright : T + n' < a + Spec.steps k * n)
    (hP : Spec.SamePairs c start timestep cfg.mw n' T P)
    (xyz : Grid.V3 ℚ)
    (hxyz : ∀ o, Spec.ReportsPeak c.g (Spec.coaOf c G O (Spec.pairsAt c start timestep) T) o → o.xyz = xyz) (x y z : ℚ) (hproj : c.proj xyz = (x, y, z))
    (hx : |x| ≤ 2147) (hy : |y| ≤ 2147) (hz : |z * (1000 * ucf)| ≤ 2 ^ 31 - 1)
    (hreg : ∀ q : Sample, q.x = x → q.y = y → q.z = z → Spec.WellInside ucf region q) :
    (∃ res ev, detectTrigger jul order Spec.newDir k cfg (.static t) id region pad s e = some (res, none) ∧
      res.flatMap Prod.snd = [ev] ∧ ev.coaTime = (T : ℚ) / c.sr ∧
      |ev.x - x| ≤ 1 / 2000000 ∧ |ev.y - y| ≤ 1 / 2000000 ∧ |ev.z - z| ≤ 1 / (2000 * ucf)) ∧
    pipeline jul order Spec.newDir k cfg (.static t) id region pad events uid (c.locateOutcome cfg.mw) later s e =
      .located ⟨[(⟨uid ((T : ℚ) / c.sr), (T : ℚ) / c.sr⟩, (T : ℚ) / c.sr)], true⟩ := by
  have hsr' : (0 : ℚ) < c.sr := by exact_mod_cast S.rate
  have hse : s ≤ e := by linarith
  have hstart' : k.start = start := by rw [hk]; rfl
  have hucf' : k.cfg.ucf = ucf := by rw [hk]; rfl
  have htimestep' : k.cfg.timestep = timestep := by rw [hk]; rfl
  have hS : ∀ p ∈ Spec.computed k, ∃ (T' : ℤ) (q : Sample), a ≤ T' ∧ T' < a + Spec.steps k * n ∧
      p = ((T' : ℚ) / c.sr, q) ∧ Spec.SampleOf c (Spec.coaOf c G O (Spec.pairsAt c start timestep) T') q := by
    intro p hp
    rw [hk] at hp ⊢
    exact mem_computed S R a hstart n hn htie stop cols ucf cw p hp
  have hS' : ∀ T' : ℤ, a ≤ T' → T' < a + Spec.steps k * n → Spec.pairsAt c start timestep T' ≠ [] → ∃ o, Spec.ReportsPeak c.g (Spec.coaOf c G O (Spec.pairsAt c start timestep) T') o ∧
      ((T' : ℚ) / c.sr, c.sample o) ∈ Spec.computed k := by
    intro T' h3 h4 h5
    rw [hk] at h4 ⊢
    exact computed_mem S R a hstart n hn htie stop cols ucf cw T' h3 h4 h5
  have hout : ∀ i : ℕ, (∃ (out : List Out) (av : _), k.outcome (Detect.window k.cfg k.start i) =
      .ok (out.map c.sample) av ∧ out.length = n) ∨ k.outcome (Detect.window k.cfg k.start i) = .archiveEmpty ∨
      k.outcome (Detect.window k.cfg k.start i) = .dataGap ∨
      k.outcome (Detect.window k.cfg k.start i) = .dataAvailability := by
    intro i
    rw [hk]
    by_cases hPi : Spec.pairsIn c (detectWindow start timestep c.sr (c.pads timestep) i) = []
    · exact Or.inr (detect_nothing S hPi timestep)
    · obtain ⟨out, h3, h4, -⟩ := detect_out S R a hstart n hn htie i hPi
      exact Or.inl ⟨out, _, h3, h4⟩
  have hgood : Spec.GoodCall c.sr k := by
    refine ⟨by rw [hk]; rfl, S.rate, ⟨n, hn0, by rw [htimestep']; exact hn, ?_⟩, by rw [htimestep']; exact hday,
      ⟨a, by rw [hstart']; exact hstart⟩, by rw [hstart']; rw [hk] at hrun ⊢; exact hrun⟩
    intro i data avail h
    rcases hout i with ⟨out, av, h3, h4⟩ | h3 | h3 | h3 <;> rw [h3] at h <;> cases h
    rw [List.length_map, h4]
  have hclean : Spec.Clean k := by
    intro i _ h
    rcases hout i with ⟨out, av, h3, h4⟩ | h3 | h3 | h3 <;> rw [h3] at h <;> cases h
  have halive : k.killed = .never := by rw [hk]; rfl
  have hpos : ∀ p ∈ Spec.computed k, 0 ≤ p.2.coa ∧ 0 ≤ p.2.coaN := by
    intro p hp
    obtain ⟨T', q, -, -, rfl, h3⟩ := hS p hp
    exact (sample_facts h3 (coaOf_nonneg c G O _ T') F false).1
  obtain ⟨o, ho, hmem⟩ := hS' T hB.inside.1 hB.inside.2.1 (by rw [hP.detect T (by omega) (by omega)]; exact hP.some)
  rw [S.nodes] at hB
  obtain ⟨hcb, hlarge, hlow⟩ := clear_of_one (gap := cfg.mei + cfg.mw) (coaOf_nonneg c G O _) F S.rate hB hS o ho hmem
  have hsx : o.xyz = xyz := hxyz o ho
  have hqx : (c.sample o).x = x := by simp only [Scan.sample, hsx, hproj]
  have hqy : (c.sample o).y = y := by simp only [Scan.sample, hsx, hproj]
  have hqz : (c.sample o).z = z := by simp only [Scan.sample, hsx, hproj]
  have hlong' : (V : ℚ) / c.sr - (U : ℚ) / c.sr ≤ pad := by
    rw [← sub_div]; push_cast at hlong; exact hlong
  constructor
  · obtain ⟨res, hdt, ev, hev, hevt, -, -, hevx, hevy, hevz⟩ := C113_detect_then_trigger_partial c.sr k hgood hclean
      halive (by rw [hucf']; exact hucf) hpos jul hjul order cfg hmw.le (by linarith) t region pad s e hpad hs he
      (by rw [hstart']; exact hfrom) (by rw [hstart', htimestep']; exact hto) _ _ _ _ hcb hlong' h1 h2
      (by rw [hqx]; exact hx) (by rw [hqy]; exact hy) (by rw [hqz, hucf']; exact hz)
      (by rw [hucf']; exact hreg _ hqx hqy hqz)
    have habove := reported_above hgood hclean halive hpos jul hjul order cfg hmw.le t region pad s e hpad hs he
      (by rw [hstart']; exact hfrom) (by rw [hstart', htimestep']; exact hto) hse res hdt
    refine ⟨res, ev, hdt, ?_, hevt, by rw [← hqx]; exact hevx, by rw [← hqy]; exact hevy,
      by rw [← hqz, ← hucf']; exact hevz⟩
    rw [← hev, eq_comm, List.filter_eq_self]
    intro w hw
    obtain ⟨p, hp, h3, h4⟩ := habove w hw
    have := hlow p hp h4
    rw [h3] at this
    simpa using this
  · have hfine : Spec.NothingFails (Spec.computed k) (c.locateOutcome cfg.mw) later :=
      locate_fine S R n' hn' htie' (fun p hp => by
        obtain ⟨T', o', -, -, rfl, -⟩ := hS p hp
        exact ⟨T', rfl⟩) later hlater
    have hsame := locate_same S R n' hn' htie' _ _ T hS' hleft hright hP
    obtain ⟨r, h3, h4, h5, h6⟩ := C115_burst_located_once_partial c.sr k hgood hclean
      halive (by rw [hucf']; exact hucf) hpos jul hjul order cfg hmw hmei n' hn' t region pad s e hpad hs he
      (by rw [hstart']; exact hfrom) (by rw [hstart', htimestep']; exact hto) _ _ _ _ hcb hlong' h1 h2
      (by rw [hqx]; exact hx) (by rw [hqy]; exact hy) (by rw [hqz, hucf']; exact hz)
      (by rw [hucf']; exact hreg _ hqx hqy hqz)
      (fun _ p hp _ hne => by linarith [hlarge p hp hne]) events hfresh uid (c.locateOutcome cfg.mw) later hfine hsame
    rw [h3]
    obtain ⟨written, completed⟩ := r
    simp only at h4 h5 h6
    rw [h4]
    congr 2
    rw [← h5, eq_comm, List.filter_eq_self]
    intro w hw
    obtain ⟨p, hp, h7, h8⟩ := h6 w hw
    have := hlow p hp h8
    rw [h7] at this
    simp only [decide_eq_true_eq]
    exact Or.inl this

/-- **C117** (partial).  If the onset functions are those of an earthquake at a grid node, clearly above the trigger
threshold for a while around its origin time and below it for the rest of the period scanned, then `detect`, `trigger`
and `locate` report exactly one event: trigger gives it the origin time and, up to what is lost in the files, the
coordinates of the node, and locate writes one event with this origin time.  This holds for every order of the threads.
Timesteps may have any pairs available or none, but those around the earthquake have the same (`Spec.SamePairs`).
Missing: the threshold is static and smoothing is off; times are on samples
and the pre-pads are not halfway between two; the same onset functions of absolute time in all windows, and rounding by
one monotone function. -/
theorem C117_earthquake_gives_one_event_partial (c : Scan) (G : Compute.Str → Compute.Str → ℕ → ℚ)
    (S : Spec.Setup c G)
    (O : Compute.Str → Compute.Str → ℤ → ℝ) (η : ℚ) (F : Spec.Floats c.fl η)
    -- the call of detect
    (timestep start stop : ℚ) (cols : List String) (ucf : ℚ) (cw : Bool) (k : Call)
    (hk : k = c.call timestep start stop cols ucf cw) (hucf : 0 < ucf) (a : ℤ) (hstart : start = a / c.sr)
    (n : ℕ) (hn0 : 0 < n) (hn : timestep * c.sr = n) (hday : timestep ≤ 86400)
    (hrun : start < Detect.adjustedEnd k.cfg stop)
    (htie : ∀ z : ℤ, (c.pads timestep).1 * c.sr ≠ z + 1 / 2)
    (jul : ℤ → ℕ) (hjul : ∀ d, jul d ≠ jul (d + 1)) (order : Availability.Table → List ℤ)
    -- the calls of trigger and locate
    (cfg : Trigger.Cfg) (hmw : 0 < cfg.mw) (hmei : 2 * cfg.mw ≤ cfg.mei) (n' : ℕ) (hn' : 2 * cfg.mw * c.sr = n')
    (htie' : ∀ z : ℤ, (c.pads (4 * cfg.mw)).1 * c.sr ≠ z + 1 / 2) (t : ℚ) (region : Option Region) (pad s e : ℚ)
    (hpad : ∃ i : ℕ, pad = i / (c.sr : ℚ)) (hs : ∃ i : ℤ, s = i / (c.sr : ℚ)) (he : ∃ i : ℤ, e = i / (c.sr : ℚ))
    (hfrom : start ≤ s) (hto : e ≤ start + timestep * (Spec.steps k : ℚ))
    (events : TriggerFiles.Files) (hfresh : ∀ d, TriggerFiles.dayNum s ≤ d → events d = none) (uid : ℚ → ℕ)
    (later : Locate.Trig → Locate.Later) (hlater : ∀ x, later x = .fine)
    (R : Spec.Reads c O start timestep cfg.mw)
    -- the earthquake
    (source : ℕ) (hsrc : source < c.L.nNodes) (T U V : ℤ) (P : List (Compute.Str × Compute.Str))
    (hG : ∀ sp ∈ P, ∀ node < c.L.nNodes, 0 ≤ G sp.1 sp.2 node)
    (hq : Spec.SourceAt P O (fun s p k => pyRound (G s p k * c.sr)) source T)
    (hr : Spec.Resolved P (fun s p k => pyRound (G s p k * c.sr)) c.L.nNodes source)
    (hB : Spec.OneBurst cfg.norm t η c.L.nNodes (Spec.coaOf c G O (Spec.pairsAt c start timestep)) a (a + Spec.steps k * n) U V T)
    (hlong : ((V - U : ℤ) : ℚ) / c.sr ≤ pad) (h1 : s ≤ (T : ℚ) / c.sr) (h2 : (T : ℚ) / c.sr < e)
    (hleft : a ≤ T - n') (hright : T + n' < a + Spec.steps k * n)
    (hP : Spec.SamePairs c start timestep cfg.mw n' T P)
    (xyz : Grid.V3 ℚ) (hxyz : (Grid.gridXyz c.g)[source]? = some xyz) (x y z : ℚ) (hproj : c.proj xyz = (x, y, z))
    (hx : |x| ≤ 2147) (hy : |y| ≤ 2147) (hz : |z * (1000 * ucf)| ≤ 2 ^ 31 - 1)
    (hreg : ∀ q : Sample, q.x = x → q.y = y → q.z = z → Spec.WellInside ucf region q) :
    (∃ res ev, detectTrigger jul order Spec.newDir k cfg (.static t) id region pad s e = some (res, none) ∧
      res.flatMap Prod.snd = [ev] ∧ ev.coaTime = (T : ℚ) / c.sr ∧
      |ev.x - x| ≤ 1 / 2000000 ∧ |ev.y - y| ≤ 1 / 2000000 ∧ |ev.z - z| ≤ 1 / (2000 * ucf)) ∧
    pipeline jul order Spec.newDir k cfg (.static t) id region pad events uid (c.locateOutcome cfg.mw) later s e =
      .located ⟨[(⟨uid ((T : ℚ) / c.sr), (T : ℚ) / c.sr⟩, (T : ℚ) / c.sr)], true⟩ := by
  have hsr' : (0 : ℚ) < c.sr := by exact_mod_cast S.rate
  refine one_event c G S O η F timestep start stop cols ucf cw k hk hucf a hstart n hn0 hn hday hrun htie jul hjul order
    cfg hmw hmei n' hn' htie' t region pad s e hpad hs he hfrom hto events hfresh uid later hlater R T U V P hB hlong
    h1 h2 hleft hright hP xyz ?_ x y z hproj hx hy hz hreg
  intro o ho
  have hPT := hP.detect T (by omega) (by omega)
  have ho : Spec.ReportsPeak c.g (fun node => Spec.coalescence P O (fun s p k => pyRound (G s p k * c.sr)) node T) o := by
    convert ho using 1
    funext node
    unfold Spec.coaOf
    rw [hPT, if_neg hP.some]
  -- the largest sample is at the source
  obtain ⟨m, hm, e1, -, e3⟩ := ho.node
  have hms : m = source := by
    by_contra hms
    have h3 := source_larger hP.some
      (fun sp hsp node hnode => by
        rw [← pyRound_int 0]
        apply pyRound_mono
        push_cast
        exact mul_nonneg (hG sp hsp node hnode) hsr'.le) hsrc hq hr m
      (by rw [S.nodes]; exact hm) T (Or.inl hms)
    have h4 := ho.largest source (by rw [← S.nodes]; exact hsrc)
    rw [e1] at h4
    exact absurd h3 (not_lt.mpr h4)
  rw [hms, hxyz] at e3
  exact (Option.some.inj e3).symm

/-! ## A case that meets the hypotheses -/

/-- A scan whose threads run one after the other and whose onset functions are functions of absolute time. -/
noncomputable def serialScan (O : Compute.Str → Compute.Str → ℤ → ℝ) (fl : ℝ → ℚ)
    (av : ℚ × ℚ → Compute.Str → Compute.Str → ℕ := fun _ => exAv) (missing : ℚ × ℚ → Option Missing := fun _ => none) :
    Scan where
  L := exLut
  g := stepGrid
  w := stepWindows
  ttmax := 4
  sr := 50
  phases := [['P'], ['S']]
  stations := [['A'], ['B']]
  missing := missing
  av := av
  onset win s p j := O s p ((readRange 0 50 win.1 win.2).1 + j)
  sched ts win :=
    let N := (Spec.migratedPairs [['P'], ['S']] [['A'], ['B']] (av win)).length
    let cols := (onsetLength 0 50 win.1 win.2).toNat
    let first := (time2sample (scanPads stepWindows 4 (50 : ℕ) ts).1 (50 : ℕ)).toNat
    let last := (time2sample (scanPads stepWindows 4 (50 : ℕ) ts).2 (50 : ℕ)).toNat
    serial 2 (Migrate.nodeProg (V := ℝ) ⟨[], [], first, last, cols - first - last, N, N, 2⟩)
  sched' ts win :=
    let cols := (onsetLength 0 50 win.1 win.2).toNat
    let first := (time2sample (scanPads stepWindows 4 (50 : ℕ) ts).1 (50 : ℕ)).toNat
    let last := (time2sample (scanPads stepWindows 4 (50 : ℕ) ts).2 (50 : ℕ)).toNat
    serial (cols - first - last) (Migrate.sampleProg 2)
  fl := fl
  proj := fun v => (v 0, v 1, v 2)
  avail := fun _ _ => 1

theorem exPairs : Spec.migratedPairs [['P'], ['S']] [['A'], ['B']] exAv = [(['A'], ['P']), (['B'], ['P']), (['B'], ['S'])] := by
  decide +kernel

section
variable (O : Compute.Str → Compute.Str → ℤ → ℝ) (fl : ℝ → ℚ) (av : ℚ × ℚ → Compute.Str → Compute.Str → ℕ)
  (missing : ℚ × ℚ → Option Missing)

theorem serial_setup (hav : ∀ win s p, av win s p ≤ 1) : Spec.Setup (serialScan O fl av missing) stepG where
  nodes := rfl
  pos := stepSetup.pos
  win := stepSetup.win
  longest := stepSetup.longest
  ttpos := stepSetup.ttpos
  rate := stepSetup.rate
  phNodup := stepSetup.phNodup
  stNodup := stepSetup.stNodup
  phName := stepSetup.phName
  stName := stepSetup.stName
  phLut := stepSetup.phLut
  stLut := stepSetup.stLut
  avail := hav
  table := by
    intro win s hs p hp _
    have h : ∀ s ∈ [['A'], ['B']], ∀ p ∈ [['P'], ['S']], (Compute.lookup exLut s p).isOk = true := by decide +kernel
    have h := h s hs p hp
    show Compute.lookup exLut s p = _
    unfold stepG
    cases he : Compute.lookup exLut s p with
    | ok f => rfl
    | error e => rw [he] at h; simp [Except.isOk, Except.toBool] at h

theorem serial_pairs_le (win : ℚ × ℚ) : (Spec.pairsIn (serialScan O fl av missing) win).length ≤ 4 := by
  have h : (Spec.migratedPairs [['P'], ['S']] [['A'], ['B']] (av win)).length ≤ 4 := by
    simp only [Spec.migratedPairs, List.flatMap_cons, List.flatMap_nil, List.append_nil, List.length_append,
      List.length_map]
    have := fun p => List.length_filter_le (fun s => decide (av win s p = 1)) [['A'], ['B']]
    simp only [List.length_cons, List.length_nil] at this
    have h1 := this ['P']
    have h2 := this ['S']
    omega
  unfold Spec.pairsIn
  split_ifs
  · exact h
  · simp

theorem serial_order {win : ℚ × ℚ} (h : Spec.pairsIn (serialScan O fl av missing) win ≠ []) (ts : ℚ) :
    Spec.Schedules (Spec.pairsIn (serialScan O fl av missing) win).length (onsetLength 0 50 win.1 win.2).toNat 2
      (time2sample (scanPads stepWindows 4 (50 : ℕ) ts).1 (50 : ℕ)).toNat
      (time2sample (scanPads stepWindows 4 (50 : ℕ) ts).2 (50 : ℕ)).toNat
      ((serialScan O fl av missing).sched ts win) ((serialScan O fl av missing).sched' ts win) := by
  rw [(pairsIn_ne_nil h).2]
  exact ⟨serial_isInterleaving _ _, serial_isInterleaving _ _⟩

theorem serial_reads_at (start : ℚ) (a : ℤ)
    (ha : start = 0 + a / ((50 : ℕ) : ℚ)) : Spec.Reads (serialScan O fl av missing) O start 2 (1 / 2) := by
  have htie := fun ts (hts : (0 : ℚ) ≤ ts) => fun z => C22_usual_rates stepWindows stepSetup.win 4 (by norm_num) 50
    (by norm_num) (Or.inl ⟨20, rfl⟩) ts hts z
  refine ⟨fun _ _ _ _ _ _ _ _ => rfl, fun _ _ _ _ _ _ _ _ => rfl, ?_, ?_, ?_⟩
  · intro i win _ h
    exact serial_order O fl av missing h 2
  · intro i win _ h
    exact serial_order O fl av missing h (4 * (1 / 2))
  · intro win hwin
    have hlen := serial_pairs_le O fl av missing win
    have hcols : (onsetLength 0 (serialScan O fl av missing).sr win.1 win.2).toNat ≤ 30000 := by
      rcases hwin with ⟨i, rfl⟩ | ⟨T, rfl⟩
      · obtain ⟨h1, -⟩ := C22_detect_sample_count_partial stepWindows 4 50 (by norm_num) 0 2 a 100 (by norm_num) i start
          ha _ rfl (htie 2 (by norm_num)) _ rfl
        have e1 : time2sample (scanPads stepWindows 4 (50 : ℕ) 2).1 (50 : ℕ) ≤ 10000 := by decide +kernel
        have e2 : time2sample (scanPads stepWindows 4 (50 : ℕ) 2).2 (50 : ℕ) ≤ 10000 := by decide +kernel
        unfold coaSamples at h1
        have h2 : onsetLength 0 50 (detectWindow start 2 50 (scanPads stepWindows 4 (50 : ℕ) 2) i).1
          (detectWindow start 2 50 (scanPads stepWindows 4 (50 : ℕ) 2) i).2 ≤ 30000 := by omega
        exact Int.toNat_le.mpr (by exact_mod_cast h2)
      · obtain ⟨h1, -⟩ := C22_locate_times_partial stepWindows 4 50 (by norm_num) 0 (1 / 2) T 50 (by norm_num) (T / (50 : ℕ))
          (by rw [zero_add]) _ rfl (htie (4 * (1 / 2)) (by norm_num)) _ rfl
        have hl : (mwTimes ((T : ℚ) / (50 : ℕ)) (1 / 2) 50).length = 101 := by
          have : (4 * (1 / 2) * (50 : ℕ) + 1 : ℚ) = ((101 : ℕ) : ℚ) := by norm_num
          simp only [mwTimes, List.length_map, List.length_range]
          rw [this, pyInt_natCast]; omega
        rw [hl] at h1
        have e1 : time2sample (scanPads stepWindows 4 (50 : ℕ) (4 * (1 / 2))).1 (50 : ℕ) ≤ 10000 := by decide +kernel
        have e2 : time2sample (scanPads stepWindows 4 (50 : ℕ) (4 * (1 / 2))).2 (50 : ℕ) ≤ 10000 := by decide +kernel
        unfold coaSamples at h1
        have h2 : onsetLength 0 50 (locateWindow ((T : ℚ) / (50 : ℕ)) (1 / 2) (scanPads stepWindows 4 (50 : ℕ) (4 * (1 / 2)))).1
          (locateWindow ((T : ℚ) / (50 : ℕ)) (1 / 2) (scanPads stepWindows 4 (50 : ℕ) (4 * (1 / 2)))).2 ≤ 30000 := by omega
        exact Int.toNat_le.mpr (by exact_mod_cast h2)
    calc (Spec.pairsIn (serialScan O fl av missing) win).length * _ ≤ 4 * 30000 := Nat.mul_le_mul hlen hcols
      _ ≤ 2 ^ 31 := by norm_num

end

theorem serial_reads (O : Compute.Str → Compute.Str → ℤ → ℝ) (fl : ℝ → ℚ) :
    Spec.Reads (serialScan O fl av missing) O 1 2 (1 / 2) :=
  serial_reads_at O fl _ _ 1 50 (by norm_num)

theorem exAv_le (s p : Compute.Str) : exAv s p ≤ 1 := stepSetup.avail s p

/-- The pairs that are always available in `serialScan O fl`. -/
theorem serial_pairsAt (O : Compute.Str → Compute.Str → ℤ → ℝ) (fl : ℝ → ℚ) (start timestep : ℚ) (T : ℤ) :
    Spec.pairsAt (serialScan O fl) start timestep T = [(['A'], ['P']), (['B'], ['P']), (['B'], ['S'])] := exPairs

theorem serial_samePairs (O : Compute.Str → Compute.Str → ℤ → ℝ) (fl : ℝ → ℚ) (start timestep mw : ℚ) (n' : ℕ) (T : ℤ) :
    Spec.SamePairs (serialScan O fl) start timestep mw n' T [(['A'], ['P']), (['B'], ['P']), (['B'], ['S'])] :=
  ⟨by simp, fun T' _ _ => serial_pairsAt O fl start timestep T', exPairs⟩

/-- Rounding down to a millionth. -/
noncomputable def micro (x : ℝ) : ℚ := ⌊x * 1000000⌋ / 1000000

theorem micro_floats : Spec.Floats micro (1 / 1000000) where
  nonneg x hx := by
    unfold micro
    have : 0 ≤ ⌊x * 1000000⌋ := Int.floor_nonneg.mpr (by positivity)
    have : (0 : ℚ) ≤ ⌊x * 1000000⌋ := by exact_mod_cast this
    positivity
  mono x y h := by
    unfold micro
    have : ⌊x * 1000000⌋ ≤ ⌊y * 1000000⌋ := Int.floor_le_floor (by linarith)
    have : (⌊x * 1000000⌋ : ℚ) ≤ ⌊y * 1000000⌋ := by exact_mod_cast this
    linarith [div_le_div_of_nonneg_right this (by norm_num : (0 : ℚ) ≤ 1000000)]
  near x _ _ := by
    unfold micro
    have h1 := Int.floor_le (x * 1000000)
    have h2 := Int.lt_floor_add_one (x * 1000000)
    push_cast
    rw [abs_le]
    constructor <;> linarith
  small := by norm_num

/-- Onset functions of 5 at the arrivals of a source at the second node at sample 153, and of 1 elsewhere. -/
noncomputable def bumps : Compute.Str → Compute.Str → ℤ → ℝ :=
  fun s p t => if t = 153 + pyRound (stepG s p 1 * (50 : ℕ)) then 5 else 1

/-- Station B is lost from 4 s on; from 6 s on there are gaps, from 8 s on no data at all. -/
def dropAv (win : ℚ × ℚ) : Compute.Str → Compute.Str → ℕ :=
  if win.1 < 4 - (scanPads stepWindows 4 (50 : ℕ) 2).1 then exAv else fun s p => if s = ['A'] ∧ p = ['P'] then 1 else 0

def gapsIn (win : ℚ × ℚ) : Option Missing :=
  if win.1 < 6 - (scanPads stepWindows 4 (50 : ℕ) 2).1 then none
  else if win.1 < 8 - (scanPads stepWindows 4 (50 : ℕ) 2).1 then some .dataGap else some .archiveEmpty

noncomputable def gappy : Scan := serialScan bumps micro dropAv gapsIn

theorem gappy_setup : Spec.Setup gappy stepG := serial_setup _ _ _ _ (by
  intro win s p
  unfold dropAv
  split_ifs
  · exact exAv_le s p
  · show (if s = ['A'] ∧ p = ['P'] then 1 else 0) ≤ 1
    split_ifs <;> norm_num)

theorem gappy_pairsIn (win : ℚ × ℚ) :
    (win.1 < 4 - (scanPads stepWindows 4 (50 : ℕ) 2).1 →
      Spec.pairsIn gappy win = [(['A'], ['P']), (['B'], ['P']), (['B'], ['S'])]) ∧
    (4 - (scanPads stepWindows 4 (50 : ℕ) 2).1 ≤ win.1 → win.1 < 6 - (scanPads stepWindows 4 (50 : ℕ) 2).1 →
      Spec.pairsIn gappy win = [(['A'], ['P'])]) ∧
    (6 - (scanPads stepWindows 4 (50 : ℕ) 2).1 ≤ win.1 → Spec.pairsIn gappy win = []) := by
  have e1 : gappy.missing win = gapsIn win := rfl
  have e2 : Spec.migratedPairs gappy.phases gappy.stations (gappy.av win) =
    Spec.migratedPairs [['P'], ['S']] [['A'], ['B']] (dropAv win) := rfl
  refine ⟨?_, ?_, ?_⟩
  · intro h
    have hg : gapsIn win = none := if_pos (by linarith)
    unfold Spec.pairsIn
    rw [e1, e2, if_pos hg, dropAv, if_pos h]
    exact exPairs
  · intro h1 h2
    have hg : gapsIn win = none := if_pos h2
    unfold Spec.pairsIn
    rw [e1, e2, if_pos hg, dropAv, if_neg (not_lt.mpr h1)]
    decide +kernel
  · intro h
    unfold Spec.pairsIn
    rw [e1, gapsIn, if_neg (not_lt.mpr h)]
    split_ifs <;> first | rfl | simp_all

theorem gappy_pairsAt (T : ℤ) (hT : 50 ≤ T) :
    (T < 250 → Spec.pairsAt gappy 1 2 T = [(['A'], ['P']), (['B'], ['P']), (['B'], ['S'])]) ∧
    (250 ≤ T → T < 350 → Spec.pairsAt gappy 1 2 T = [(['A'], ['P'])]) ∧
    (350 ≤ T → Spec.pairsAt gappy 1 2 T = []) := by
  have hst : ⌊((T : ℚ) / gappy.sr - 1) / 2⌋ = (T - 50) / 100 := by
    have h1 : ((T : ℚ) / gappy.sr - 1) / 2 = ((T - 50 : ℤ) : ℚ) / ((100 : ℕ) : ℚ) := by
      show ((T : ℚ) / ((50 : ℕ) : ℚ) - 1) / 2 = _
      push_cast; ring
    rw [h1, Rat.floor_intCast_div_natCast]
    rfl
  obtain ⟨i, hi⟩ := Int.eq_ofNat_of_zero_le (show 0 ≤ (T - 50) / 100 by omega)
  have hp := gappy_pairsIn (detectWindow 1 2 gappy.sr (gappy.pads 2) i)
  have hw : (detectWindow 1 2 gappy.sr (gappy.pads 2) i).1 = 1 + 2 * i - (scanPads stepWindows 4 (50 : ℕ) 2).1 := rfl
  have hP : Spec.pairsAt gappy 1 2 T = Spec.pairsIn gappy (detectWindow 1 2 gappy.sr (gappy.pads 2) i) := by
    unfold Spec.pairsAt
    rw [hst, hi]
    rfl
  rw [hw] at hp
  rw [hP]
  refine ⟨fun h => hp.1 ?_, fun h1 h2 => hp.2.1 ?_ ?_, fun h => hp.2.2 ?_⟩
  · have : (i : ℚ) ≤ 1 := by exact_mod_cast (by omega : i ≤ 1)
    linarith
  · have : (2 : ℚ) ≤ i := by exact_mod_cast (by omega : 2 ≤ i)
    linarith
  · have : (i : ℚ) ≤ 2 := by exact_mod_cast (by omega : i ≤ 2)
    linarith
  · have : (3 : ℚ) ≤ i := by exact_mod_cast (by omega : 3 ≤ i)
    linarith

theorem gappy_same : Spec.SamePairs gappy 1 2 (1 / 2) 50 153 [(['A'], ['P']), (['B'], ['P']), (['B'], ['S'])] := by
  refine ⟨by simp, fun T' h1 h2 => (gappy_pairsAt T' (by omega)).1 (by omega), ?_⟩
  apply (gappy_pairsIn _).1
  show ((153 : ℤ) : ℚ) / ((50 : ℕ) : ℚ) - 2 * (1 / 2) - (scanPads stepWindows 4 (50 : ℕ) (4 * (1 / 2))).1 <
    4 - (scanPads stepWindows 4 (50 : ℕ) 2).1
  norm_num

theorem bumps_source : Spec.SourceAt [(['A'], ['P']), (['B'], ['P']), (['B'], ['S'])] bumps
    (fun s p k => pyRound (stepG s p k * gappy.sr)) 1 153 := by
  intro sp _
  show 1 / 100 < bumps sp.1 sp.2 (153 + pyRound (stepG sp.1 sp.2 1 * (50 : ℕ))) ∧
    ∀ t, t ≠ 153 + pyRound (stepG sp.1 sp.2 1 * (50 : ℕ)) →
      bumps sp.1 sp.2 t < bumps sp.1 sp.2 (153 + pyRound (stepG sp.1 sp.2 1 * (50 : ℕ)))
  refine ⟨by norm_num [bumps], ?_⟩
  intro t ht
  unfold bumps
  rw [if_neg ht, if_pos rfl]
  norm_num

theorem bumps_coa (T : ℤ) (hT : 50 ≤ T) (node : ℕ) (hn : node < 2) :
    (node = 1 ∧ T = 153 → Spec.coaOf gappy stepG bumps (Spec.pairsAt gappy 1 2) T node = 5) ∧
    (¬ (node = 1 ∧ T = 153) → Spec.coaOf gappy stepG bumps (Spec.pairsAt gappy 1 2) T node ≤ 3) := by
  have e10 : pyRound (stepG ['A'] ['P'] 0 * (50 : ℕ)) = 0 := by decide +kernel
  have e11 : pyRound (stepG ['A'] ['P'] 1 * (50 : ℕ)) = 50 := by decide +kernel
  have e20 : pyRound (stepG ['B'] ['P'] 0 * (50 : ℕ)) = 25 := by decide +kernel
  have e21 : pyRound (stepG ['B'] ['P'] 1 * (50 : ℕ)) = 75 := by decide +kernel
  have e30 : pyRound (stepG ['B'] ['S'] 0 * (50 : ℕ)) = 50 := by decide +kernel
  have e31 : pyRound (stepG ['B'] ['S'] 1 * (50 : ℕ)) = 200 := by decide +kernel
  obtain ⟨hp1, hp2, hp3⟩ := gappy_pairsAt T hT
  have hval : ∀ s p t, max (1 / 100) (bumps s p t) = bumps s p t := by
    intro s p t
    unfold bumps
    split_ifs <;> norm_num
  have hsr : gappy.sr = 50 := rfl
  have h3 : (27 : ℝ) ^ (1 / ((3 : ℕ) : ℝ)) = 3 := by
    rw [show (27 : ℝ) = 3 ^ (3 : ℕ) by norm_num, one_div, Real.pow_rpow_inv_natCast (by norm_num) (by norm_num)]
  have h5 : (125 : ℝ) ^ (1 / ((3 : ℕ) : ℝ)) = 5 := by
    rw [show (125 : ℝ) = 5 ^ (3 : ℕ) by norm_num, one_div, Real.pow_rpow_inv_natCast (by norm_num) (by norm_num)]
  unfold Spec.coaOf Spec.coalescence
  by_cases hlate : 350 ≤ T
  · rw [hp3 hlate, if_pos rfl]
    exact ⟨fun h => by omega, fun _ => by norm_num⟩
  by_cases hmid : 250 ≤ T
  · rw [hp2 hmid (by omega), if_neg (by simp), hsr]
    simp only [List.map_cons, List.map_nil, List.prod_cons, List.prod_nil, List.length_cons, List.length_nil, hval,
      mul_one, zero_add, Nat.cast_one, div_one, Real.rpow_one]
    refine ⟨fun h => by omega, fun _ => ?_⟩
    have hnode : node = 0 ∨ node = 1 := by omega
    rcases hnode with rfl | rfl
    · rw [e10]
      simp only [bumps, e11]
      split_ifs <;> first | omega | norm_num
    · rw [e11]
      simp only [bumps, e11]
      split_ifs <;> first | omega | norm_num
  rw [hp1 (by omega), if_neg (by simp), hsr]
  simp only [List.map_cons, List.map_nil, List.prod_cons, List.prod_nil, List.length_cons, List.length_nil, hval, mul_one,
    zero_add, Nat.reduceAdd]
  have hle : ∀ x : ℝ, 0 ≤ x → x ≤ 27 → x ^ (1 / ((3 : ℕ) : ℝ)) ≤ 3 := by
    intro x h0 h
    rw [← h3]
    exact Real.rpow_le_rpow h0 h (by norm_num)
  constructor
  · rintro ⟨rfl, rfl⟩
    rw [e11, e21, e31]
    simp only [bumps, e11, e21, e31]
    norm_num
  · intro h
    apply hle
    · unfold bumps
      apply mul_nonneg
      · split_ifs <;> norm_num
      · apply mul_nonneg <;> split_ifs <;> norm_num
    · have hnode : node = 0 ∨ node = 1 := by omega
      rcases hnode with rfl | rfl
      · rw [e10, e20, e30]
        simp only [bumps, e11, e21, e31]
        split_ifs <;> first | omega | norm_num
      · rw [e11, e21, e31]
        simp only [bumps, e11, e21, e31]
        split_ifs <;> first | omega | norm_num

theorem bumps_peak (T : ℤ) (hT : 50 ≤ T) :
    (T = 153 → Spec.peakValue 2 (Spec.coaOf gappy stepG bumps (Spec.pairsAt gappy 1 2) T) = 5) ∧
    (T ≠ 153 → Spec.peakValue 2 (Spec.coaOf gappy stepG bumps (Spec.pairsAt gappy 1 2) T) ≤ 3) := by
  unfold Spec.peakValue
  constructor
  · rintro rfl
    apply le_antisymm
    · refine ciSup_le fun k => ?_
      by_cases h : (k : ℕ) = 1
      · exact ((bumps_coa 153 hT k k.2).1 ⟨h, rfl⟩).le
      · exact le_trans ((bumps_coa 153 hT k k.2).2 (fun h' => h h'.1)) (by norm_num)
    · rw [← (bumps_coa 153 hT 1 (by norm_num)).1 ⟨rfl, rfl⟩]
      exact le_ciSup (f := fun k : Fin 2 => Spec.coaOf gappy stepG bumps (Spec.pairsAt gappy 1 2) 153 k)
        (Set.finite_range _).bddAbove 1
  · intro h
    exact ciSup_le fun k => (bumps_coa T hT k k.2).2 (fun h' => h h'.2)

/-- Although a station and then all data are lost after it, the earthquake is detected, triggered on the coalescence at a threshold of 4, and located: exactly one event. -/
example (jul : ℤ → ℕ) (hjul : ∀ d, jul d ≠ jul (d + 1)) (order : Availability.Table → List ℤ) (uid : ℚ → ℕ) :
    pipeline jul order Spec.newDir (gappy.call 2 1 11 [] 1 false) ⟨1 / 2, 1, false⟩ (.static 4) id none 1
      (fun _ => none) uid (gappy.locateOutcome (1 / 2)) (fun _ => .fine) 2 5 =
      .located ⟨[(⟨uid (153 / 50), 153 / 50⟩, 153 / 50)], true⟩ := by
  have hsteps : Spec.steps (gappy.call 2 1 11 [] 1 false) = 5 := by
    have h1 : Detect.adjustedEnd (gappy.call 2 1 11 [] 1 false).cfg 11 = 11 := by
      unfold Detect.adjustedEnd
      rw [if_neg (by decide +kernel)]
    have h2 : Spec.steps (gappy.call 2 1 11 [] 1 false) = ⌈((11 : ℚ) - 1) / 2⌉.toNat := by
      unfold Spec.steps
      show ⌈(Detect.adjustedEnd (gappy.call 2 1 11 [] 1 false).cfg 11 - 1) / 2⌉.toNat = _
      rw [h1]
    rw [h2]
    decide +kernel
  have htie := fun ts (hts : (0 : ℚ) ≤ ts) => fun z => C22_usual_rates stepWindows stepSetup.win 4 (by norm_num) 50
    (by norm_num) (Or.inl ⟨20, rfl⟩) ts hts z
  have hfin := (C117_earthquake_gives_one_event_partial gappy stepG gappy_setup
    bumps (1 / 1000000) micro_floats 2 1 11 [] 1 false _ rfl (by norm_num) 50
    (by show (1 : ℚ) = ((50 : ℤ) : ℚ) / ((50 : ℕ) : ℚ); norm_num) 100 (by norm_num)
    (by show (2 : ℚ) * ((50 : ℕ) : ℚ) = ((100 : ℕ) : ℚ); norm_num) (by norm_num)
    (by
      unfold Detect.adjustedEnd
      rw [if_neg (by decide +kernel)]
      norm_num) (htie 2 (by norm_num)) jul hjul order ⟨1 / 2, 1, false⟩ (by norm_num) (by norm_num) 50
    (by show 2 * (1 / 2 : ℚ) * ((50 : ℕ) : ℚ) = ((50 : ℕ) : ℚ); norm_num) (htie (4 * (1 / 2)) (by norm_num)) 4 none 1 2 5
    ⟨50, by show (1 : ℚ) = ((50 : ℕ) : ℚ) / ((50 : ℕ) : ℚ); norm_num⟩
    ⟨100, by show (2 : ℚ) = ((100 : ℤ) : ℚ) / ((50 : ℕ) : ℚ); norm_num⟩
    ⟨250, by show (5 : ℚ) = ((250 : ℤ) : ℚ) / ((50 : ℕ) : ℚ); norm_num⟩ (by norm_num)
    (by rw [hsteps]; norm_num) (fun _ => none) (fun _ _ => rfl) uid (fun _ => .fine) (fun _ => rfl)
    (serial_reads_at bumps micro _ _ 1 50 (by norm_num)) 1 (by decide) 153 153 153
    [(['A'], ['P']), (['B'], ['P']), (['B'], ['S'])]
    (by
      have : ∀ sp ∈ [((['A'] : Compute.Str), (['P'] : Compute.Str)), (['B'], ['P']), (['B'], ['S'])], ∀ node < 2,
          0 ≤ stepG sp.1 sp.2 node := by decide +kernel
      exact this) bumps_source (by rw [← exPairs]; exact stepGrid_resolved)
    (by
      refine ⟨by rw [hsteps]; norm_num, by norm_num, ?_, ?_, ?_, ?_⟩
      · intro T' _ _ h1 h2
        have : T' = 153 := by omega
        show _ ≤ Spec.peakValue 2 _
        rw [(bumps_peak T' (by omega)).1 this]
        norm_num
      · intro T' _ _ h
        have : T' ≠ 153 := by omega
        show Spec.peakValue 2 _ < _
        refine lt_of_le_of_lt ((bumps_peak T' (by omega)).2 this) ?_
        norm_num
      · intro T' _ _ h
        show Spec.peakValue 2 _ + _ < Spec.peakValue 2 _
        rw [(bumps_peak 153 (by norm_num)).1 rfl]
        refine lt_of_le_of_lt (add_le_add_left ((bumps_peak T' (by omega)).2 h) _) ?_
        norm_num
      · show Spec.peakValue 2 _ + _ ≤ _
        rw [(bumps_peak 153 (by norm_num)).1 rfl]
        norm_num)
    (by norm_num)
    (by show (2 : ℚ) ≤ ((153 : ℤ) : ℚ) / ((50 : ℕ) : ℚ); norm_num)
    (by show ((153 : ℤ) : ℚ) / ((50 : ℕ) : ℚ) < 5; norm_num) (by norm_num) (by rw [hsteps]; norm_num)
    gappy_same (fun a => if a = 0 then 2 else 0) (by decide +kernel) 2 0 0 (by decide +kernel) (by norm_num) (by norm_num) (by norm_num)
    (fun q _ _ _ r hr => by cases hr)).2
  have he : ((153 : ℤ) : ℚ) / gappy.sr = 153 / 50 := by
    show ((153 : ℤ) : ℚ) / ((50 : ℕ) : ℚ) = 153 / 50
    norm_num
  rw [he] at hfin
  exact hfin

end QM
