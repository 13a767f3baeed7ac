import Verif.Props.WaveLocate
import Verif.Props.EndToEnd

/-!
# From the waveform files of the archive to one located event: C178
-/

namespace QM

open QM.CalcOnsets
open QM.Data (Str Sane)
open QM.Pads
open QM.WaveDetect
open QM.Trigger QM.TriggerFiles QM.Pipeline QM.DetectTrigger
open QM.DetectRuns (Call)
open QM.Locate (Trig Later)

/-! ## Specification -/

/-- `v` are the values of the grid nodes at sample `m` of a timestep: the coalescence of the data in the archive, or 0 if
the archive has no data for the window or no station and phase is available. -/
def Spec.IsNodeValue (s : Scan) (tt : Str → Str → ℕ → ℚ) (ts : ℚ) (win : ℚ × ℚ) (m : ℕ) (v : ℕ → ℝ) : Prop :=
  match s.read win with
  | .error _ => ∀ node, v node = 0
  | .ok o => ∃ st : Str → List Data.Trace, (∀ p ∈ s.onset.phases, preStream s.onset s.ext (s.data win o) p = .ok (st p)) ∧
    (Spec.available s.onset s.ext (s.data win o) st = [] → ∀ node, v node = 0) ∧
    (Spec.available s.onset s.ext (s.data win o) st ≠ [] → ∀ node,
      v node = Spec.waveCoalescence s.onset s.rate s.ext (s.data win o) st tt node (Spec.firstOf s ts + m))

namespace WaveEvent

/-- The parts of a scan that the values of a sample depend on. -/
noncomputable def parts (s : Scan) : EndToEnd.Scan where
  L := s.lut
  g := s.grid
  w := s.windows
  ttmax := s.ttmax
  sr := s.rate
  phases := s.onset.phases
  stations := s.stations
  missing := fun _ => none
  av := fun _ _ _ => 0
  onset := fun _ _ _ _ => 0
  sched := fun _ => s.sched
  sched' := fun _ => s.sched'
  fl := s.fl
  proj := s.proj
  avail := fun _ _ => 0

theorem waveCoalescence_nonneg (c : CalcOnsets.Cfg) (rate : ℕ) (x : Ext) (d : CalcOnsets.Data) (st : Str → List Data.Trace)
    (tt : Str → Str → ℕ → ℚ) (node i : ℕ) : 0 ≤ Spec.waveCoalescence c rate x d st tt node i := by
  unfold Spec.waveCoalescence
  apply Real.rpow_nonneg
  apply List.prod_nonneg
  intro y hy
  obtain ⟨sp, -, rfl⟩ := List.mem_map.mp hy
  exact le_trans (by norm_num) (le_max_left _ _)

theorem value_nonneg {s : Scan} {tt : Str → Str → ℕ → ℚ} {ts : ℚ} {win : ℚ × ℚ} {m : ℕ} {v : ℕ → ℝ}
    (h : Spec.IsNodeValue s tt ts win m v) (node : ℕ) : 0 ≤ v node := by
  unfold Spec.IsNodeValue at h
  split at h
  · exact (h node).ge
  · obtain ⟨st, -, h1, h2⟩ := h
    by_cases hav : Spec.available s.onset s.ext (s.data win ‹_›) st = []
    · exact (h1 hav node).ge
    · rw [h2 hav node]
      exact waveCoalescence_nonneg _ _ _ _ _ _ _ _

/-- The samples of one good window. -/
theorem step_values {s : Scan} {tt : Str → Str → ℕ → ℚ} (hs : Spec.GoodScan s tt) {ts start : ℚ} {M : ℕ}
    (hM : ts * s.rate = M) (hM0 : 0 < M) {j : ℤ} (hstart : start = j / (s.rate : ℚ))
    (htie : ∀ z : ℤ, (Spec.padsOf s ts).1 * s.rate ≠ z + 1 / 2) (i : ℕ)
    (hwin : ∀ o, s.read (Spec.windowOf s ts start i) = .ok o → ∃ st, Spec.GoodWindow s ts (Spec.windowOf s ts start i) o st)
    (f : ℕ → ℕ → ℝ) (hf : ∀ m < M, Spec.IsNodeValue s tt ts (Spec.windowOf s ts start i) m (f m)) :
    ∃ data, (match s.outcome ts (Spec.windowOf s ts start i) with
        | .ok data _ => data
        | _ => List.replicate M ⟨0, 0, 0, 0, 0⟩) = data ∧ data.length = M ∧
      ∀ m < M, ∃ q, data[m]? = some q ∧ Spec.SampleOf (parts s) (f m) q := by
  have hr := hs.rate_pos
  have hrq : (0 : ℚ) < s.rate := by exact_mod_cast hr
  have hMq : (0 : ℚ) < M := by exact_mod_cast hM0
  have hts : 0 < ts := by
    by_contra hc
    push Not at hc
    have : ts * (s.rate : ℚ) ≤ 0 := mul_nonpos_of_nonpos_of_nonneg hc hrq.le
    linarith
  have hzero : ∀ m < M, (List.replicate M (⟨0, 0, 0, 0, 0⟩ : ScanMseed.Sample))[m]? = some ⟨0, 0, 0, 0, 0⟩ := by
    intro m hm
    rw [List.getElem?_replicate, if_pos hm]
  unfold Scan.outcome
  unfold Spec.IsNodeValue at hf
  cases hread : s.read (Spec.windowOf s ts start i) with
  | error e =>
    rw [hread] at hf
    refine ⟨List.replicate M ⟨0, 0, 0, 0, 0⟩, by cases e <;> rfl, by simp, fun m hm => ⟨_, hzero m hm, Or.inr ⟨rfl, hf m hm⟩⟩⟩
  | ok o =>
    rw [hread] at hf
    simp only at hf ⊢
    obtain ⟨st, hw⟩ := hwin o hread
    have hst : ∀ st' : Str → List Data.Trace, (∀ p ∈ s.onset.phases,
        preStream s.onset s.ext (s.data (Spec.windowOf s ts start i) o) p = .ok (st' p)) →
        ∀ p ∈ s.onset.phases, st' p = st p := by
      intro st' h p hp
      exact Except.ok.inj ((h p hp).symm.trans (hw.processed p hp))
    have hcount := (C22_detect_sample_count_partial s.windows s.ttmax s.rate hr 0 ts j M hM i start
      (by rw [hstart]; ring) (Spec.padsOf s ts) rfl htie (Spec.windowOf s ts start i) rfl).1
    have hspan : (Spec.windowOf s ts start i).1 + (Spec.padsOf s ts).1 + (Spec.padsOf s ts).2 ≤
        (Spec.windowOf s ts start i).2 := by
      show start + ts * i - (Spec.padsOf s ts).1 + (Spec.padsOf s ts).1 + (Spec.padsOf s ts).2 ≤
        start + ts * (i + 1) - 1 / (s.rate : ℚ) + (Spec.padsOf s ts).2
      have : 1 / (s.rate : ℚ) ≤ ts := by
        rw [div_le_iff₀ hrq, hM]
        exact_mod_cast hM0
      linarith
    obtain ⟨g1, g2⟩ := WaveLocate.window_good hs hts hw hspan hcount
    by_cases hav : Spec.available s.onset s.ext (s.data (Spec.windowOf s ts start i) o) st = []
    · rw [g1 hav]
      refine ⟨_, rfl, by simp, fun m hm => ⟨_, hzero m hm, Or.inr ⟨rfl, ?_⟩⟩⟩
      obtain ⟨st', h1, h2, -⟩ := hf m hm
      exact h2 (by rw [WaveLocate.available_congr (hst st' h1)]; exact hav)
    · obtain ⟨out, hc, hol, hval⟩ := g2 hav
      rw [hc]
      refine ⟨_, rfl, by simp [hol], fun m hm => ?_⟩
      obtain ⟨r, h3, h4⟩ := hval m hm
      refine ⟨s.sample r, by rw [List.getElem?_map, h3]; rfl, Or.inl ⟨r, rfl, ?_⟩⟩
      obtain ⟨st', h1, -, h2⟩ := hf m hm
      have h5 := h2 (by rw [WaveLocate.available_congr (hst st' h1)]; exact hav)
      have : f m = fun node => Spec.waveCoalescence s.onset s.rate s.ext (s.data (Spec.windowOf s ts start i) o) st tt node
          (Spec.firstOf s ts + m) := by
        funext node
        rw [h5 node, WaveLocate.coalescence_congr (hst st' h1)]
      rw [this]
      exact h4

end WaveEvent

/-- **C178**, detection (partial).  `f` are the coalescence values of the archive's waveforms on the grid nodes, for the samples
scanned.  If they are above the trigger threshold for a while around sample `T` and below it for the rest of the period,
largest at `T`, and there at one node, then `detect` and `trigger` report exactly one event, at `T` and, up to what is lost
in the files, with the coordinates of the node.  Missing: as in `C173_files_partial`; the threshold is static, smoothing is
off, and times are on samples. -/
theorem C178_detected_partial (s : Scan) (tt : Str → Str → ℕ → ℚ) (hs : Spec.GoodScan s tt) (η : ℚ) (F : Spec.Floats s.fl η)
    -- the call of detect
    (ts start stop ucf : ℚ) (hucf : 0 < ucf) (cols : List String) (cw : Bool) (M : ℕ) (hM : ts * s.rate = M) (hM0 : 0 < M)
    (hday : ts ≤ 86400) (a : ℤ) (hstart : start = a / (s.rate : ℚ))
    (htie : ∀ z : ℤ, (Spec.padsOf s ts).1 * s.rate ≠ z + 1 / 2)
    (last : ℚ) (hlast : last = if isMidnight stop then stop - 1 / (s.rate : ℚ) else stop) (hne : start < last)
    (n : ℕ) (hn : (n : ℤ) = ⌈(last - start) / ts⌉)
    (hwin : ∀ i < n, ∀ o, s.read (Spec.windowOf s ts start i) = .ok o →
      ∃ st, Spec.GoodWindow s ts (Spec.windowOf s ts start i) o st)
    (jul : ℤ → ℕ) (hjul : ∀ d, jul d ≠ jul (d + 1)) (order : Availability.Table → List ℤ)
    -- the call of trigger
    (cfg : Trigger.Cfg) (hmw : 0 ≤ cfg.mw) (hmei : 0 ≤ cfg.mei) (t : ℚ) (region : Option Region) (pad b e : ℚ)
    (hpad : ∃ i : ℕ, pad = i / (s.rate : ℚ)) (hb : ∃ i : ℤ, b = i / (s.rate : ℚ)) (he : ∃ i : ℤ, e = i / (s.rate : ℚ))
    (hfrom : start ≤ b) (hto : e ≤ start + ts * n)
    -- the burst
    (f : ℤ → ℕ → ℝ)
    (hf : ∀ i < n, ∀ m < M, Spec.IsNodeValue s tt ts (Spec.windowOf s ts start i) m (f (a + i * M + m)))
    (T U V : ℤ) (hB : Spec.OneBurst cfg.norm t η s.lut.nNodes f a (a + n * M) U V T)
    (hlong : ((V - U : ℤ) : ℚ) / s.rate ≤ pad) (h1 : b ≤ (T : ℚ) / s.rate) (h2 : (T : ℚ) / s.rate < e)
    (source : ℕ) (hsrc : source < s.lut.nNodes) (hpos : 0 < f T source)
    (hpeak : ∀ node < s.lut.nNodes, node ≠ source → f T node < f T source)
    (xyz : Grid.V3 ℚ) (hxyz : (Grid.gridXyz s.grid)[source]? = some xyz) (x y z : ℚ) (hproj : s.proj xyz = (x, y, z))
    (hx : |x| ≤ 2147) (hy : |y| ≤ 2147) (hz : |z * (1000 * ucf)| ≤ 2 ^ 31 - 1)
    (hreg : ∀ q : ScanMseed.Sample, q.x = x → q.y = y → q.z = z → Spec.WellInside ucf region q) :
    ∃ res ev, detectTrigger jul order Spec.newDir (s.call ts start stop cols ucf cw .never) cfg (.static t) id region pad b e =
        some (res, none) ∧
      res.flatMap Prod.snd = [ev] ∧ ev.coaTime = (T : ℚ) / s.rate ∧
      |ev.x - x| ≤ 1 / 2000000 ∧ |ev.y - y| ≤ 1 / 2000000 ∧ |ev.z - z| ≤ 1 / (2000 * ucf) := by
  have hr := hs.rate_pos
  have hrq : (0 : ℚ) < s.rate := by exact_mod_cast hr
  have hbe : b ≤ e := by linarith
  obtain ⟨oc, hcalls, hin, hgood, hclean, hdone⟩ := WaveFiles.setup (ucf := ucf) (cols := cols) (cw := cw) hs hM hM0 hday hstart
    htie hlast hne hn hwin
  set k' : Call := { s.call ts start stop cols ucf cw .never with outcome := oc } with hk'
  have hadj : Detect.adjustedEnd k'.cfg k'.stop = last := by rw [hlast]; rfl
  have hsteps : Spec.steps k' = n := by
    unfold Spec.steps
    have : ⌈(Detect.adjustedEnd k'.cfg k'.stop - k'.start) / k'.cfg.timestep⌉ = (n : ℤ) := by
      rw [hn, ← hadj]; rfl
    rw [this]; rfl
  have hcall : ∀ r, detectTrigger jul order Spec.newDir k' cfg (.static t) id region pad b e = r →
      detectTrigger jul order Spec.newDir (s.call ts start stop cols ucf cw .never) cfg (.static t) id region pad b e = r := by
    intro r h
    rw [← h]
    unfold detectTrigger
    rw [hcalls]
  -- the samples of the steps
  have hstep : ∀ i < n, ∃ data : List ScanMseed.Sample, data.length = M ∧
      (∀ m < M, ∃ q, data[m]? = some q ∧ Spec.SampleOf (WaveEvent.parts s) (f (a + i * M + m)) q) ∧
      Spec.stepComputed k' i = data.zipIdx.map fun p : ScanMseed.Sample × ℕ =>
        (((a + i * M + p.2 : ℤ) : ℚ) / s.rate, p.1) := by
    intro i hi
    obtain ⟨data, g1, g2, g3⟩ := WaveEvent.step_values hs hM hM0 hstart htie i (hwin i hi) (fun m => f (a + i * M + m))
      (fun m hm => hf i hi m hm)
    refine ⟨data, g2, g3, ?_⟩
    unfold Spec.stepComputed
    have hfl : ⌊k'.cfg.timestep * k'.cfg.scanRate⌋.toNat = M := by
      have : k'.cfg.timestep * (k'.cfg.scanRate : ℚ) = (M : ℚ) := hM
      rw [this]; simp
    have ho : k'.outcome (Detect.window k'.cfg k'.start i) = s.outcome ts (Spec.windowOf s ts start i) := hin i hi
    rw [ho, hfl]
    refine (congrArg (fun l : List ScanMseed.Sample => l.zipIdx.map _) g1).trans ?_
    refine List.map_congr_left fun p _ => ?_
    have h3 : k'.start + k'.cfg.timestep * i + (p.2 : ℚ) / k'.cfg.scanRate = start + ts * i + (p.2 : ℚ) / s.rate := rfl
    rw [h3, hstart]
    have h4 : ts = M / s.rate := by rw [← hM]; field_simp
    rw [h4]
    push_cast
    congr 1
    field_simp
  -- values outside the period do not matter
  set g : ℤ → ℕ → ℝ := fun T' => if a ≤ T' ∧ T' < a + n * M then f T' else fun _ => 0 with hg
  have hgf : ∀ T', a ≤ T' → T' < a + n * M → g T' = f T' := fun T' h3 h4 => if_pos ⟨h3, h4⟩
  have hdec : ∀ T' : ℤ, a ≤ T' → T' < a + n * M → ∃ i < n, ∃ m < M, T' = a + i * M + m := by
    intro T' h3 h4
    obtain ⟨d, hd⟩ := Int.eq_ofNat_of_zero_le (sub_nonneg.mpr h3)
    have hdn : d < n * M := by zify; rw [← hd]; linarith
    refine ⟨d / M, Nat.div_lt_of_lt_mul (by rwa [mul_comm]), d % M, Nat.mod_lt _ hM0, ?_⟩
    have : (d / M) * M + d % M = d := Nat.div_add_mod' d M
    zify at this
    push_cast
    linarith
  have hg0 : ∀ T' node, 0 ≤ g T' node := by
    intro T' node
    by_cases h3 : a ≤ T' ∧ T' < a + n * M
    · rw [hgf T' h3.1 h3.2]
      obtain ⟨i, hi, m, hm, rfl⟩ := hdec T' h3.1 h3.2
      exact WaveEvent.value_nonneg (hf i hi m hm) node
    · simp only [hg, if_neg h3, le_refl]
  have hin' : ∀ i < n, ∀ m < M, a ≤ a + (i : ℤ) * M + m ∧ a + (i : ℤ) * M + m < a + n * M := by
    intro i hi m hm
    have h3 : (i + 1) * M ≤ n * M := Nat.mul_le_mul_right _ hi
    zify at h3 hm
    have h4 : (0 : ℤ) ≤ i * M := mul_nonneg (Int.natCast_nonneg i) (Int.natCast_nonneg M)
    constructor <;> linarith [Int.natCast_nonneg m]
  rw [hs.table.nodes] at hB
  have hB' : Spec.OneBurst cfg.norm t η (s.grid.count 0 * s.grid.count 1 * s.grid.count 2) g a (a + n * M) U V T := by
    refine ⟨hB.inside, hB.threshold, ?_, ?_, ?_, ?_⟩
    · intro T' h3 h4; rw [hgf T' h3 h4]; exact hB.above T' h3 h4
    · intro T' h3 h4; rw [hgf T' h3 h4]; exact hB.below T' h3 h4
    · intro T' h3 h4; rw [hgf T' h3 h4, hgf T hB.inside.1 hB.inside.2.1]; exact hB.largest T' h3 h4
    · rw [hgf T hB.inside.1 hB.inside.2.1]; exact hB.storable
  have hS : ∀ p ∈ Spec.computed k', ∃ (T' : ℤ) (q : ScanMseed.Sample), a ≤ T' ∧ T' < a + n * M ∧
      p = ((T' : ℚ) / (WaveEvent.parts s).sr, q) ∧ Spec.SampleOf (WaveEvent.parts s) (g T') q := by
    intro p hp
    unfold Spec.computed at hp
    rw [hsteps] at hp
    obtain ⟨i, hi, hp⟩ := List.mem_flatMap.mp hp
    have hi := List.mem_range.mp hi
    obtain ⟨data, g1, g2, g3⟩ := hstep i hi
    rw [g3] at hp
    obtain ⟨⟨q, m⟩, hq, rfl⟩ := List.mem_map.mp hp
    have hq' := List.mem_zipIdx_iff_getElem?.mp hq
    simp only at hq'
    have hm : m < M := by
      rw [← g1]
      exact (List.getElem?_eq_some_iff.mp hq').1
    obtain ⟨q', h4, h5⟩ := g2 m hm
    rw [hq'] at h4
    cases h4
    obtain ⟨h6, h7⟩ := hin' i hi m hm
    exact ⟨a + i * M + m, q, h6, h7, rfl, by rw [hgf _ h6 h7]; exact h5⟩
  -- the sample of the event
  obtain ⟨o, ho, hmem⟩ : ∃ o, Spec.ReportsPeak s.grid (f T) o ∧ ((T : ℚ) / s.rate, s.sample o) ∈ Spec.computed k' := by
    obtain ⟨i, hi, m, hm, hT⟩ := hdec T hB.inside.1 hB.inside.2.1
    obtain ⟨data, g1, g2, g3⟩ := hstep i hi
    obtain ⟨q, h4, h5⟩ := g2 m hm
    rw [← hT] at h5
    rcases h5 with ⟨o, rfl, ho⟩ | ⟨-, h6⟩
    · refine ⟨o, ho, ?_⟩
      unfold Spec.computed
      rw [hsteps]
      refine List.mem_flatMap.mpr ⟨i, List.mem_range.mpr hi, ?_⟩
      rw [g3]
      refine List.mem_map.mpr ⟨(s.sample o, m), List.mem_zipIdx_iff_getElem?.mpr h4, ?_⟩
      rw [hT]
    · exact absurd (h6 source) hpos.ne'
  have ho' : Spec.ReportsPeak (WaveEvent.parts s).g (g T) o := by
    rw [hgf T hB.inside.1 hB.inside.2.1]; exact ho
  obtain ⟨hcb, hlarge, hlow⟩ := clear_of_one (c := WaveEvent.parts s) (gap := cfg.mei + cfg.mw) hg0 F hr hB' hS o ho' hmem
  have hsx : o.xyz = xyz := by
    obtain ⟨m, hm, e1, -, e3⟩ := ho.node
    have hms : m = source := by
      by_contra hms
      have h3 := hpeak m (by rw [hs.table.nodes]; exact hm) hms
      have h4 := ho.largest source (by rw [← hs.table.nodes]; exact hsrc)
      rw [e1] at h4
      exact absurd h3 (not_lt.mpr h4)
    rw [hms, hxyz] at e3
    exact (Option.some.inj e3).symm
  have hqx : (s.sample o).x = x := by simp only [Scan.sample, hsx, hproj]
  have hqy : (s.sample o).y = y := by simp only [Scan.sample, hsx, hproj]
  have hqz : (s.sample o).z = z := by simp only [Scan.sample, hsx, hproj]
  have hnonneg : ∀ p ∈ Spec.computed k', 0 ≤ p.2.coa ∧ 0 ≤ p.2.coaN := by
    intro p hp
    obtain ⟨T', q, -, -, rfl, h3⟩ := hS p hp
    exact (sample_facts h3 (hg0 T') F false).1
  have hlong' : (V : ℚ) / s.rate - (U : ℚ) / s.rate ≤ pad := by
    rw [← sub_div]; push_cast at hlong; exact hlong
  have hto' : e ≤ k'.start + k'.cfg.timestep * (Spec.steps k' : ℚ) := by rw [hsteps]; exact hto
  obtain ⟨res, hdt, ev, hev, hevt, -, -, hevx, hevy, hevz⟩ := C113_detect_then_trigger_partial s.rate k' hgood hclean rfl hucf
    hnonneg jul hjul order cfg hmw hmei t region pad b e hpad hb he hfrom hto' _ _ _ _ hcb hlong' h1 h2
    (by rw [show ((WaveEvent.parts s).sample o).x = x from hqx]; exact hx)
    (by rw [show ((WaveEvent.parts s).sample o).y = y from hqy]; exact hy)
    (by rw [show ((WaveEvent.parts s).sample o).z = z from hqz]; exact hz) (hreg _ hqx hqy hqz)
  have habove := reported_above hgood hclean rfl hnonneg jul hjul order cfg hmw t region pad b e hpad hb he hfrom hto' hbe res hdt
  refine ⟨res, ev, hcall _ hdt, ?_, hevt, by rw [← hqx]; exact hevx, by rw [← hqy]; exact hevy, by rw [← hqz]; exact hevz⟩
  rw [← hev, eq_comm, List.filter_eq_self]
  intro w hw
  obtain ⟨p, hp, h3, h4⟩ := habove w hw
  have := hlow p hp h4
  rw [h3] at this
  simpa using this

/-- **C178**, location (partial).  With the same burst in the coalescence of the archive's waveforms, `detect`, `trigger` and
`locate` write at most one event: the one triggered at `T`, if the waveforms read for it, `extra` seconds more than its
window, place the first maximum of the coalescence strictly within a marginal window of `T`, and with that time as origin
time.  Missing: as in `C178_detected_partial`. -/
theorem C178_located_partial (s : Scan) (tt : Str → Str → ℕ → ℚ) (hs : Spec.GoodScan s tt) (η : ℚ) (F : Spec.Floats s.fl η)
    -- the call of detect
    (ts start stop ucf : ℚ) (hucf : 0 < ucf) (cols : List String) (cw : Bool) (M : ℕ) (hM : ts * s.rate = M) (hM0 : 0 < M)
    (hday : ts ≤ 86400) (a : ℤ) (hstart : start = a / (s.rate : ℚ))
    (htie : ∀ z : ℤ, (Spec.padsOf s ts).1 * s.rate ≠ z + 1 / 2)
    (last : ℚ) (hlast : last = if isMidnight stop then stop - 1 / (s.rate : ℚ) else stop) (hne : start < last)
    (n : ℕ) (hn : (n : ℤ) = ⌈(last - start) / ts⌉)
    (hwin : ∀ i < n, ∀ o, s.read (Spec.windowOf s ts start i) = .ok o →
      ∃ st, Spec.GoodWindow s ts (Spec.windowOf s ts start i) o st)
    (jul : ℤ → ℕ) (hjul : ∀ d, jul d ≠ jul (d + 1)) (order : Availability.Table → List ℤ)
    -- the call of trigger
    (cfg : Trigger.Cfg) (k : ℕ) (hk : cfg.mw * s.rate = k) (hk0 : 0 < k) (hmei : 0 ≤ cfg.mei) (t : ℚ) (region : Option Region) (pad b e : ℚ)
    (hpad : ∃ i : ℕ, pad = i / (s.rate : ℚ)) (hb : ∃ i : ℤ, b = i / (s.rate : ℚ)) (he : ∃ i : ℤ, e = i / (s.rate : ℚ))
    (hfrom : start ≤ b) (hto : e ≤ start + ts * n)
    -- the call of locate
    (htie' : ∀ z : ℤ, (Spec.padsOf s (4 * cfg.mw)).1 * s.rate ≠ z + 1 / 2) (extra : ℚ × ℚ)
    (events : TriggerFiles.Files) (hfresh : ∀ d, TriggerFiles.dayNum b ≤ d → events d = none) (uid : ℚ → ℕ)
    (later : Trig → Later) (hlater : ∀ w, later w = .fine)
    -- the burst
    (f : ℤ → ℕ → ℝ)
    (hf : ∀ i < n, ∀ m < M, Spec.IsNodeValue s tt ts (Spec.windowOf s ts start i) m (f (a + i * M + m)))
    (T U V : ℤ) (hB : Spec.OneBurst cfg.norm t η s.lut.nNodes f a (a + n * M) U V T)
    (hlong : ((V - U : ℤ) : ℚ) / s.rate ≤ pad) (h1 : b ≤ (T : ℚ) / s.rate) (h2 : (T : ℚ) / s.rate < e)
    (hevent : ∀ w : Trig, w.time = (T : ℚ) / s.rate → ∀ o, s.readEvent (Spec.eventWindow s cfg.mw w) extra = .ok o →
      ∃ st, Spec.GoodWindow s (4 * cfg.mw) (Spec.eventWindow s cfg.mw w) o st)
    (source : ℕ) (hsrc : source < s.lut.nNodes) (hpos : 0 < f T source)
    (hpeak : ∀ node < s.lut.nNodes, node ≠ source → f T node < f T source)
    (xyz : Grid.V3 ℚ) (hxyz : (Grid.gridXyz s.grid)[source]? = some xyz) (x y z : ℚ) (hproj : s.proj xyz = (x, y, z))
    (hx : |x| ≤ 2147) (hy : |y| ≤ 2147) (hz : |z * (1000 * ucf)| ≤ 2 ^ 31 - 1)
    (hreg : ∀ q : ScanMseed.Sample, q.x = x → q.y = y → q.z = z → Spec.WellInside ucf region q) :
    ∃ r, pipeline jul order Spec.newDir (s.call ts start stop cols ucf cw .never) cfg (.static t) id region pad events uid
        (s.locateOutcome cfg.mw extra) later b e = .located r ∧
      r.completed = true ∧ r.written.length ≤ 1 ∧
      ∀ w τ, (w, τ) ∈ r.written ↔ w = ⟨uid ((T : ℚ) / s.rate), (T : ℚ) / s.rate⟩ ∧ Spec.OriginAt s tt cfg.mw k extra w τ ∧
        |τ - (T : ℚ) / s.rate| < cfg.mw := by
  have hr := hs.rate_pos
  have hrq : (0 : ℚ) < s.rate := by exact_mod_cast hr
  have hkq : (0 : ℚ) < k := by exact_mod_cast hk0
  have hmw : 0 < cfg.mw := by
    by_contra hc
    push Not at hc
    have : cfg.mw * (s.rate : ℚ) ≤ 0 := mul_nonpos_of_nonpos_of_nonneg hc hrq.le
    linarith
  obtain ⟨res, ev, hdt, hev, hevt, -⟩ := C178_detected_partial s tt hs η F ts start stop ucf hucf cols cw M hM hM0 hday a hstart
    htie last hlast hne n hn hwin jul hjul order cfg hmw.le hmei t region pad b e hpad hb he hfrom hto f hf T U V hB hlong h1
    h2 source hsrc hpos hpeak xyz hxyz x y z hproj hx hy hz hreg
  have hpipe := pipeline_eq hr jul order (s.call ts start stop cols ucf cw .never) rfl cfg (.static t) id region pad b e
    (by linarith) events hfresh uid (s.locateOutcome cfg.mw extra) later res hdt (by rw [hev]; simp)
  rw [hev] at hpipe
  simp only [List.map_cons, List.map_nil, toTrig, hevt] at hpipe
  set w₀ : Trig := ⟨uid ((T : ℚ) / s.rate), (T : ℚ) / s.rate⟩ with hw₀
  obtain ⟨g1, g2⟩ := WaveLocate.event_good hs hk hk0 htie' (x := w₀) rfl (hevent w₀ rfl)
  obtain ⟨a1, a2⟩ := C19_all_located cfg.mw (s.locateOutcome cfg.mw extra) later [w₀] fun w hw => by
    rw [List.mem_singleton.mp hw]
    rcases g1 with h | h
    · exact Or.inl h
    · exact Or.inr ⟨hlater w₀, h⟩
  obtain ⟨b1, b2⟩ := C19_only_in_window cfg.mw (s.locateOutcome cfg.mw extra) later [w₀]
  refine ⟨_, hpipe, a1, by simpa using b2.length_le, fun w τ => ⟨fun h => ?_, ?_⟩⟩
  · have hw : w = w₀ := List.mem_singleton.mp (b2.subset (List.mem_map_of_mem h))
    subst hw
    have := (g2 τ).mp (b1 _ _ h)
    exact ⟨rfl, this.1, this.2⟩
  · rintro ⟨rfl, h3, h4⟩
    exact a2 _ (by simp) τ ((g2 τ).mpr ⟨h3, h4⟩)

/-! ## A case that meets the hypotheses -/

namespace WaveEvent

open OnsetValue OnsetGain DetectShift WaveScan WaveLocate
open QM.Migrate
open QM.Data (loadFromPath)

/-- The first six seconds of the pulse. -/
def quakeData : CalcOnsets.Data := ⟨[⟨"Z".toList, 0, 1, [1, 1, 1, 1, 1, 9]⟩], ["ST01".toList], false, none, 0, 5⟩

/-- The archive of `WaveLocate.pulseScan`, scanned from 1 s to 3 s: the pulse arrives one second after it left the second
node at 3 s. -/
noncomputable def quakeScan : Scan :=
  { pulseScan with
    sched := fun w => if w = (0, 5) then
      serial WaveScan.exLut.nNodes (nodeProg (V := ℝ) ⟨[], [], 1, 2, 6 - 1 - 2, 1, 1, WaveScan.exLut.nNodes⟩) else pulseScan.sched w
    sched' := fun w => if w = (0, 5) then serial (6 - 1 - 2) (sampleProg WaveScan.exLut.nNodes) else pulseScan.sched' w }

/-- What is read for the timestep. -/
def quakeOut : Waveforms.Out ℚ := ⟨[⟨"Z".toList, 1, ⟨0, [1, 1, 1, 1, 1, 9]⟩⟩], [⟨"Z".toList, 1, ⟨0, [1, 1, 1, 1, 1, 9]⟩⟩]⟩

theorem quake_good : Spec.GoodScan quakeScan (fun _ _ n => n) :=
  ⟨pulse_good.rate, pulse_good.rate_pos, pulse_good.counts, pulse_good.nonneg, pulse_good.wins, pulse_good.transform,
    pulse_good.names, pulse_good.table⟩

theorem quake_pads : Spec.padsOf quakeScan 3 = (1, 2) := by
  show scanPads ⟨(0, 0), []⟩ 1 ((1 : ℕ) : ℚ) 3 = (1, 2)
  decide +kernel

theorem quake_first : Spec.firstOf quakeScan 3 = 1 := by
  unfold Spec.firstOf
  rw [quake_pads]
  show (pyRound ((1 : ℚ) * ((1 : ℕ) : ℚ))).toNat = 1
  decide +kernel

theorem quake_last : Spec.lastOf quakeScan 3 = 2 := by
  unfold Spec.lastOf
  rw [quake_pads]
  show (pyRound ((2 : ℚ) * ((1 : ℕ) : ℚ))).toNat = 2
  decide +kernel

theorem quake_window : Spec.windowOf quakeScan 3 1 0 = (0, 5) := by
  unfold Spec.windowOf
  rw [quake_pads]
  show detectWindow 1 3 1 (1, 2) 0 = (0, 5)
  decide +kernel

theorem quake_read : quakeScan.read (0, 5) = .ok quakeOut := by
  have hl : loadFromPath false ["ST01".toList] 0 5 = [⟨0, some "ST01".toList⟩] := by
    unfold loadFromPath
    have h0 : TriggerFiles.dayNum (0 : ℚ) = 0 := by decide +kernel
    rw [h0, TriggerFiles.readDays, dif_pos (by decide +kernel), TriggerFiles.readDays, dif_neg (by decide +kernel)]
    rfl
  unfold Scan.read
  show Waveforms.readWaveformData List.dedup id ⟨0, 5, 0, 0, false, ["ST01".toList]⟩
    ((loadFromPath false ["ST01".toList] 0 5).flatMap pulseScan.files) = _
  rw [hl]
  show Waveforms.readWaveformData List.dedup id ⟨0, 5, 0, 0, false, ["ST01".toList]⟩
    [some [⟨"Z".toList, 1, ⟨0, [1, 1, 1, 1, 1, 9, 1, 1, 50, 60]⟩⟩]] = _
  decide +kernel

theorem quake_data : quakeScan.data (0, 5) quakeOut = quakeData := by
  unfold Scan.data
  simp [quakeScan, pulseScan, exScan, quakeData, toTrace, quakeOut]

theorem quake_pre : preStream plainCfg (exExt 1) quakeData "P".toList = .ok quakeData.waveforms := by
  unfold preStream
  have h : Filters.preProcess (exExt 1).dsp ((exExt 1).trim quakeData.start quakeData.stop) plainCfg.sr quakeData.resample
      quakeData.upfactor (plainCfg.low "P".toList) (plainCfg.high "P".toList)
      ((quakeData.waveforms.filter fun t => plainCfg.chan "P".toList t.id).map toR) =
      .ok (quakeData.waveforms.map fun t => (toR t, .bandpass (1 / 5) (4 / 5))) := by
    show Filters.preProcess ⟨fun _ b => b, fun _ b => b⟩ (fun b => some b) 1 false none (1 / 10) (2 / 5)
      (quakeData.waveforms.map toR) = _
    decide +kernel
  rw [h]
  rfl

theorem quake_sane : ∀ t ∈ quakeData.waveforms, Sane t := by
  intro t ht
  simp only [quakeData, List.mem_cons, List.not_mem_nil, or_false] at ht
  subst ht
  exact ⟨by simp, by norm_num, by norm_num⟩

theorem quake_passes : Spec.Passes (Spec.criteria plainCfg "P".toList) 0 5 quakeData.waveforms
    ⟨"Z".toList, 0, 1, [1, 1, 1, 1, 1, 9]⟩ := by
  have hf : (quakeData.waveforms.filter fun u => u.id = "Z".toList) = quakeData.waveforms := by decide +kernel
  show Spec.ChannelOK _ 0 5 (quakeData.waveforms.filter fun u => u.id = "Z".toList)
  rw [hf]
  refine ⟨?_, ⟨_, List.Perm.refl _, List.isChain_singleton _⟩, fun _ => ⟨_, List.Perm.refl _, List.isChain_singleton _⟩, ?_, ?_, ?_⟩
  · intro t ht
    simp only [quakeData, List.mem_cons, List.not_mem_nil, or_false] at ht
    subst ht
    exact ⟨1, by simp, 9, by simp, by norm_num⟩
  · intro _ t ht
    simp only [quakeData, List.mem_cons, List.not_mem_nil, or_false] at ht
    subst ht
    simp [Spec.criteria, plainCfg, OnsetGain.exCfg]
  · intro _
    exact ⟨_, rfl, by norm_num⟩
  · intro h
    cases h

theorem quake_records : Spec.records plainCfg (exExt 1) quakeData (fun _ => quakeData.waveforms) "ST01".toList "P".toList =
    [[1, 1, 1, 1, 1, 9]] := by
  classical
  unfold Spec.records Spec.passing Spec.ofStation
  have hfil : (quakeData.waveforms.filter fun t => (exExt 1).ofStation "ST01".toList t.id) = quakeData.waveforms := rfl
  simp only
  rw [if_neg (by simp [plainCfg]), hfil]
  have hp : (quakeData.waveforms.filter fun t => decide (Spec.Passes (Spec.criteria plainCfg "P".toList) quakeData.start
      quakeData.stop quakeData.waveforms t)) = quakeData.waveforms := by
    rw [List.filter_eq_self]
    intro t ht
    rw [List.mem_singleton.1 ht]
    exact decide_eq_true quake_passes
  rw [hp]
  rfl

theorem quake_available : Spec.available plainCfg (exExt 1) quakeData (fun _ => quakeData.waveforms) =
    [("ST01".toList, "P".toList)] := by
  classical
  have hph : plainCfg.phases = ["P".toList] := rfl
  have hst : quakeData.stations = ["ST01".toList] := rfl
  have hav : Spec.Available (Spec.criteria plainCfg "P".toList) quakeData.start quakeData.stop
      (Spec.ofStation (exExt 1) "ST01".toList quakeData.waveforms) := by
    unfold Spec.Available
    rw [if_neg (by simp [Spec.criteria, plainCfg, OnsetGain.exCfg])]
    exact ⟨_, List.mem_singleton.2 rfl, quake_passes⟩
  unfold Spec.available
  rw [hph, hst, List.flatMap_cons, List.flatMap_nil, List.append_nil, List.filter_cons_of_pos (by simpa using hav)]
  rfl

theorem quake_silent : Spec.NeverSilent plainCfg (Spec.samples (plainCfg.lta "P".toList) 1) [1, 1, 1, 1, 1, 9] := by
  have hs : Spec.samples (plainCfg.lta "P".toList) 1 = 1 := WaveLocate.pulse_samples
  rw [hs]
  intro i hi _
  simp only [List.length_cons, List.length_nil] at hi
  have : i = 0 ∨ i = 1 ∨ i = 2 ∨ i = 3 ∨ i = 4 ∨ i = 5 := by omega
  rcases this with rfl | rfl | rfl | rfl | rfl | rfl <;>
    simp [Spec.winSum, plainCfg, OnsetGain.exCfg, StaLta.Transform.apply]

theorem quake_goodWindow : Spec.GoodWindow quakeScan 3 (0, 5) quakeOut (fun _ => quakeData.waveforms) := by
  have hl : onsetLength 0 quakeScan.rate 0 5 = 6 := by
    show onsetLength 0 1 0 5 = 6
    decide +kernel
  have hav : Spec.available quakeScan.onset quakeScan.ext quakeData (fun _ => quakeData.waveforms) =
      [("ST01".toList, "P".toList)] := quake_available
  have hrec : ∀ a p l, (a, p) = ("ST01".toList, "P".toList) →
      l ∈ Spec.records quakeScan.onset quakeScan.ext quakeData (fun _ => quakeData.waveforms) a p →
      p = "P".toList ∧ l = [1, 1, 1, 1, 1, 9] := by
    intro a p l h hm
    obtain ⟨rfl, rfl⟩ := Prod.mk.inj h
    have h' := quake_records
    change l ∈ Spec.records plainCfg (exExt 1) quakeData (fun _ => quakeData.waveforms) "ST01".toList "P".toList at hm
    rw [h'] at hm
    exact ⟨rfl, List.mem_singleton.1 hm⟩
  refine ⟨?_, ?_, ?_, ?_, ?_, ?_, fun h => by simp [quakeScan, pulseScan, exScan, plainCfg] at h⟩
  all_goals try simp only [quake_data, hl, hav, quake_first, quake_last]
  · intro p hp
    have hph : quakeScan.onset.phases = ["P".toList] := rfl
    rw [hph] at hp
    rw [List.mem_singleton.mp hp]
    exact quake_pre
  · exact fun _ _ => quake_sane
  · intro a p h l hm
    obtain ⟨rfl, rfl⟩ := hrec a p l (List.mem_singleton.1 h) hm
    exact quake_silent
  · intro a p h l hm
    obtain ⟨rfl, rfl⟩ := hrec a p l (List.mem_singleton.1 h) hm
    rfl
  · norm_num
  · exact ⟨serial_isInterleaving _ _, serial_isInterleaving _ _⟩

theorem quake_value (node i : ℕ) (hi : i + node + 1 < 6) :
    Spec.waveCoalescence plainCfg 1 (exExt 1) quakeData (fun _ => quakeData.waveforms) (fun _ _ n => n) node i =
    max (2 / 5) (([1, 1, 1, 1, 1, 81] : List ℝ).getD (i + node + 1) 0 /
      ([1, 1, 1, 1, 1, 81] : List ℝ).getD (i + node) 0) := by
  have hround : (pyRound (node : ℚ)).toNat = node := by
    rw [show (node : ℚ) = ((node : ℤ) : ℚ) by push_cast; rfl, pyRound_int]
    rfl
  have hs : Spec.samples (plainCfg.sta "P".toList) 1 = 1 := WaveLocate.pulse_samples
  have hs' : Spec.samples (plainCfg.lta "P".toList) 1 = 1 := WaveLocate.pulse_samples
  unfold Spec.waveCoalescence
  rw [quake_available]
  simp only [List.map_cons, List.map_nil, List.prod_cons, List.prod_nil, mul_one, List.length_cons, List.length_nil, zero_add,
    Nat.cast_one, div_one, Real.rpow_one, quake_records]
  rw [hround]
  unfold Spec.onsetAt
  rw [hs, hs']
  have hm : plainCfg.minOnset = 2 / 5 := rfl
  have hp : plainCfg.pos = .centred := rfl
  have ht : plainCfg.transform = .energy := rfl
  rw [hm, hp, ht]
  have hcase : ∀ j < 5, max (1 / 100 : ℝ) (max (2 / 5) (Real.sqrt ((([[1, 1, 1, 1, 1, 9]] : List (List ℚ)).map fun l =>
      Spec.staLta .centred (StaLta.Transform.energy.apply (l.map fun v : ℚ => (v : ℝ))) 1 1 j ^ 2).sum /
        (([[1, 1, 1, 1, 1, 9]] : List (List ℚ)).length : ℝ)))) =
      max (2 / 5) (([1, 1, 1, 1, 1, 81] : List ℝ).getD (j + 1) 0 / ([1, 1, 1, 1, 1, 81] : List ℝ).getD j 0) := by
    intro j hj
    have : j = 0 ∨ j = 1 ∨ j = 2 ∨ j = 3 ∨ j = 4 := by omega
    rcases this with rfl | rfl | rfl | rfl | rfl <;>
      simp [Spec.staLta, Spec.centred, Spec.winMean, Spec.winSum, StaLta.Transform.apply] <;> norm_num
  exact hcase (i + node) (by omega)

/-- The coalescence of the samples scanned. -/
noncomputable def quakeCoa (T : ℤ) (node : ℕ) : ℝ :=
  Spec.waveCoalescence plainCfg 1 (exExt 1) quakeData (fun _ => quakeData.waveforms) (fun _ _ n => n) node T.toNat

theorem quake_coa : quakeCoa 1 0 = 1 ∧ quakeCoa 1 1 = 1 ∧ quakeCoa 2 0 = 1 ∧ quakeCoa 2 1 = 1 ∧ quakeCoa 3 0 = 1 ∧
    quakeCoa 3 1 = 81 := by
  unfold quakeCoa
  have h := fun node i hi => quake_value node i hi
  refine ⟨?_, ?_, ?_, ?_, ?_, ?_⟩
  · exact (h 0 1 (by norm_num)).trans (by norm_num)
  · exact (h 1 1 (by norm_num)).trans (by norm_num)
  · exact (h 0 2 (by norm_num)).trans (by norm_num)
  · exact (h 1 2 (by norm_num)).trans (by norm_num)
  · exact (h 0 3 (by norm_num)).trans (by norm_num)
  · exact (h 1 3 (by norm_num)).trans (by norm_num)

theorem quake_values : ∀ m < 3, Spec.IsNodeValue quakeScan (fun _ _ n => n) 3 (0, 5) m (quakeCoa (1 + m)) := by
  intro m hm
  unfold Spec.IsNodeValue
  rw [quake_read]
  refine ⟨fun _ => quakeData.waveforms, quake_goodWindow.processed, ?_, ?_⟩
  · intro h
    rw [quake_data] at h
    have : Spec.available plainCfg (exExt 1) quakeData (fun _ => quakeData.waveforms) = [] := h
    rw [quake_available] at this
    simp at this
  · intro _ node
    rw [quake_data, quake_first]
    unfold quakeCoa
    have : (1 + (m : ℤ)).toNat = 1 + m := by omega
    rw [this]
    rfl

theorem two_peak (f : ℕ → ℝ) (v : ℝ) (h0 : f 0 ≤ v) (h1 : f 1 = v) : Spec.peakValue 2 f = v := by
  unfold Spec.peakValue
  apply le_antisymm
  · refine ciSup_le fun k => ?_
    have : k.1 = 0 ∨ k.1 = 1 := by omega
    rcases this with h | h <;> rw [h]
    · exact h0
    · exact h1.le
  · rw [← h1]
    exact le_ciSup (f := fun k : Fin 2 => f k) (Set.finite_range _).bddAbove 1

theorem quake_peak (T : ℤ) (h1 : 1 ≤ T) (h2 : T < 4) : Spec.peakValue 2 (quakeCoa T) = if T = 3 then 81 else 1 := by
  obtain ⟨c1, c2, c3, c4, c5, c6⟩ := quake_coa
  have : T = 1 ∨ T = 2 ∨ T = 3 := by omega
  rcases this with rfl | rfl | rfl
  · exact two_peak _ _ (by rw [c1]; norm_num) (by rw [c2]; norm_num)
  · exact two_peak _ _ (by rw [c3]; norm_num) (by rw [c4]; norm_num)
  · exact two_peak _ _ (by rw [c5]; norm_num) (by rw [c6]; norm_num)

theorem quake_burst : Spec.OneBurst false 10 1 2 quakeCoa 1 (1 + (1 : ℕ) * (3 : ℕ)) 3 3 3 := by
  have h3 := quake_peak 3 (by norm_num) (by norm_num)
  rw [if_pos rfl] at h3
  refine ⟨by norm_num, by norm_num, ?_, ?_, ?_, ?_⟩
  · intro T' h1 h2 h4 h5
    have : T' = 3 := by omega
    subst this
    show _ ≤ Spec.peakValue 2 _
    rw [h3]; norm_num
  · intro T' h1 h2 h4
    show Spec.peakValue 2 _ < _
    rw [quake_peak T' h1 (by omega), if_neg (by omega)]
    norm_num
  · intro T' h1 h2 h4
    rw [quake_peak T' h1 (by omega), if_neg h4, h3]
    norm_num
  · rw [h3]; norm_num

theorem floor_floats : Spec.Floats quakeScan.fl 1 where
  nonneg := fun x hx => by
    show (0 : ℚ) ≤ ((⌊x⌋ : ℤ) : ℚ)
    exact_mod_cast Int.floor_nonneg.mpr hx
  mono := fun x y h => by
    show ((⌊x⌋ : ℤ) : ℚ) ≤ ((⌊y⌋ : ℤ) : ℚ)
    exact_mod_cast Int.floor_mono h
  near := fun x _ _ => by
    show |((((⌊x⌋ : ℤ) : ℚ)) : ℝ) - x| ≤ ((1 : ℚ) : ℝ)
    rw [abs_le]
    push_cast
    constructor <;> linarith [Int.floor_le x, Int.lt_floor_add_one x]
  small := le_refl _

/-- The window of the event is that of `WaveLocate.pulseScan`. -/
theorem quake_event : Spec.GoodWindow quakeScan (4 * 1) (0, 7) pulseOut (fun _ => pulseData.waveforms) := by
  have h := pulse_goodWindow
  refine ⟨h.processed, h.sane, h.silent, h.length, h.counted, ?_, h.grid⟩
  have h1 : quakeScan.sched (0, 7) = pulseScan.sched (0, 7) := by simp [quakeScan]
  have h2 : quakeScan.sched' (0, 7) = pulseScan.sched' (0, 7) := by simp [quakeScan]
  rw [h1, h2]
  exact h.threads

/-- From the archive to the event at 3 s, located at 3 s. -/
theorem quake_located (uid : ℚ → ℕ) (order : Availability.Table → List ℤ) :
    ∃ r, pipeline (fun d => (d % 2).toNat) order Spec.newDir (quakeScan.call 3 1 4 [] 1 false .never) ⟨1, 2, false⟩ (.static 10)
        id none 0 (fun _ => none) uid (quakeScan.locateOutcome 1 (0, 2)) (fun _ => .fine) 1 4 = .located r ∧
      r.completed = true ∧ (⟨uid 3, 3⟩, 3) ∈ r.written := by
  have hz : ∀ z : ℤ, (1 : ℚ) * ((1 : ℕ) : ℚ) ≠ z + 1 / 2 := by
    intro z hz
    have : ((2 * z + 1 : ℤ) : ℚ) = ((2 : ℤ) : ℚ) := by push_cast at hz ⊢; linarith
    have := Int.cast_injective this
    omega
  have hwin : ∀ w : Trig, w.time = 3 → Spec.eventWindow quakeScan 1 w = (0, 7) := fun w hw => pulse_window w hw
  have hr : ((quakeScan.rate : ℕ) : ℚ) = 1 := by norm_num [quakeScan, pulseScan, exScan]
  obtain ⟨r, h1, h2, -, h3⟩ := C178_located_partial quakeScan (fun _ _ n => n) quake_good 1 floor_floats 3 1 4 1 one_pos [] false 3
    (by rw [hr]; norm_num) (by norm_num) (by norm_num) 1 (by rw [hr]; norm_num) (by rw [quake_pads]; exact hz) 4
    (by rw [if_neg (by decide +kernel)]) (by norm_num) 1 (by norm_num)
    (fun i hi o ho => by
      obtain rfl : i = 0 := by omega
      rw [quake_window] at ho ⊢
      rw [quake_read] at ho
      exact ⟨_, Except.ok.inj ho ▸ quake_goodWindow⟩)
    (fun d => (d % 2).toNat) (fun d => by omega) order ⟨1, 2, false⟩ 1 (by rw [hr]; norm_num) one_pos (by norm_num) 10 none 0 1 4
    ⟨0, by norm_num⟩ ⟨1, by rw [hr]; norm_num⟩ ⟨4, by rw [hr]; norm_num⟩ (by norm_num) (by norm_num)
    (by
      have : Spec.padsOf quakeScan (4 * 1) = (1, 2) := pulse_pads
      rw [this]; exact hz) (0, 2) (fun _ => none) (fun _ _ => rfl) uid (fun _ => .fine) (fun _ => rfl) quakeCoa
    (fun i hi m hm => by
      obtain rfl : i = 0 := by omega
      rw [quake_window]
      simpa using quake_values m hm)
    3 3 3 quake_burst (by norm_num) (by rw [hr]; norm_num) (by rw [hr]; norm_num)
    (fun w hw o ho => by
      rw [hwin w (by rw [hw, hr]; norm_num)] at ho ⊢
      have hread : quakeScan.readEvent (0, 7) (0, 2) = .ok pulseOut := pulse_read
      rw [hread] at ho
      exact ⟨_, Except.ok.inj ho ▸ quake_event⟩)
    1 (by decide) (by rw [quake_coa.2.2.2.2.2]; norm_num)
    (fun node hn hne => by
      have : node = 0 := by
        have : node < 2 := hn
        omega
      rw [this, quake_coa.2.2.2.2.1, quake_coa.2.2.2.2.2]; norm_num)
    _ rfl _ _ _ rfl (by decide +kernel) (by decide +kernel) (by decide +kernel) (fun _ _ _ _ r hr => by cases hr)
  refine ⟨r, h1, h2, (h3 _ _).mpr ⟨?_, pulse_origin _ rfl, ?_⟩⟩
  · rw [hr]; norm_num
  · rw [hr]; norm_num

end WaveEvent

end QM
