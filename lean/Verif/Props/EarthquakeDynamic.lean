import Verif.Props.ThresholdRobust
import Verif.Props.EarthquakeNoise

/-!
# C117 with a threshold that follows the data: from an earthquake to one located event
-/

namespace QM
open QM.Pads QM.ComputeStep QM.EndToEnd QM.DetectRuns QM.ScanMseed QM.Pipeline QM.Trigger QM.DetectTrigger QM.Smooth

/-! ## Specification -/

/-- Among the samples from `A` to before `B`, the trigger value is between `lo` and `hi` except from `U` to `V`, where
it is at least `mult` times `hi`; the background varies by less than a factor `mult`; the coalescence is largest at
`T`.  Each holds by more than what is lost when values are rounded and stored. -/
structure Spec.QuietBurst (norm : Bool) (mult lo hi η : ℚ) (nNodes : ℕ) (f : ℤ → ℕ → ℝ) (A B U V T : ℤ) : Prop where
  inside : A ≤ T ∧ T < B ∧ U ≤ T ∧ T ≤ V
  quiet : hi < lo * mult
  threshold : hi * mult + 1 / 200000 ≤ 21474
  above : ∀ T', A ≤ T' → T' < B → U ≤ T' → T' ≤ V →
    ((hi * mult + 1 / 200000 + η : ℚ) : ℝ) ≤ Spec.peakLevel norm nNodes (f T')
  back : ∀ T', A ≤ T' → T' < B → T' < U ∨ V < T' →
    ((lo + 1 / 200000 + η : ℚ) : ℝ) ≤ Spec.peakLevel norm nNodes (f T') ∧
      Spec.peakLevel norm nNodes (f T') < ((hi - 1 / 200000 - η : ℚ) : ℝ)
  largest : ∀ T', A ≤ T' → T' < B → T' ≠ T →
    Spec.peakValue nNodes (f T') + ((1 / 100000 + 2 * η : ℚ) : ℝ) < Spec.peakValue nNodes (f T)
  storable : Spec.peakValue nNodes (f T) + η ≤ 21474

/-- Among the samples from `A` to before `B`, the trigger value is between `lo` and `hi` except from `U` to `V`, where
it is at least `level`; the coalescence is largest at `T`.  Each holds by more than what is lost when values are rounded
and stored. -/
structure Spec.LevelBurst (norm : Bool) (level lo hi η : ℚ) (nNodes : ℕ) (f : ℤ → ℕ → ℝ) (A B U V T : ℤ) : Prop where
  inside : A ≤ T ∧ T < B ∧ U ≤ T ∧ T ≤ V
  higher : hi ≤ level
  threshold : level + 1 / 200000 ≤ 21474
  above : ∀ T', A ≤ T' → T' < B → U ≤ T' → T' ≤ V →
    ((level + 1 / 200000 + η : ℚ) : ℝ) ≤ Spec.peakLevel norm nNodes (f T')
  back : ∀ T', A ≤ T' → T' < B → T' < U ∨ V < T' →
    ((lo + 1 / 200000 + η : ℚ) : ℝ) ≤ Spec.peakLevel norm nNodes (f T') ∧
      Spec.peakLevel norm nNodes (f T') < ((hi - 1 / 200000 - η : ℚ) : ℝ)
  largest : ∀ T', A ≤ T' → T' < B → T' ≠ T →
    Spec.peakValue nNodes (f T') + ((1 / 100000 + 2 * η : ℚ) : ℝ) < Spec.peakValue nNodes (f T)
  storable : Spec.peakValue nNodes (f T) + η ≤ 21474

/-! ## Windows -/

/-- A burst of fewer than half of the samples of a window is short in all windows of a record that has a whole number
of windows. -/
theorem short_of_count {D : List Row} {sr : ℕ} (hsr : 0 < sr) {a : ℤ} (hD : Spec.Regular D ((a : ℚ) / sr) (1 / (sr : ℚ)))
    {w j : ℕ} (hlen : D.length = j * w) {U V : ℤ} (hUV : U ≤ V) (hw : 2 * (V - U + 1) < w) :
    Spec.ShortInWindows w D ((U : ℚ) / sr) ((V : ℚ) / sr) := by
  have hsr' : (0 : ℚ) < sr := by exact_mod_cast hsr
  have hw0 : 0 < w := by omega
  intro i hi
  have h1 : i / w < j := Nat.div_lt_of_lt_mul (by rw [mul_comm, ← hlen]; exact hi)
  have hC : ((D.drop (i / w * w)).take w).length = w := by
    rw [List.length_take, List.length_drop, hlen]
    have : (i / w + 1) * w ≤ j * w := Nat.mul_le_mul_right _ h1
    rw [Nat.add_mul, Nat.one_mul] at this
    omega
  rw [hC]
  generalize i / w * w = b at hC ⊢
  -- the samples between `U` and `V` are among those with positions `U - a`, ..., `V - a`
  have hinj : (((D.drop b).take w).filter (fun r => decide ((U : ℚ) / sr ≤ r.dt ∧ r.dt ≤ (V : ℚ) / sr))).length ≤
      (Finset.Icc U V).card := by
    have hnd : ((((D.drop b).take w).filter
        (fun r => decide ((U : ℚ) / sr ≤ r.dt ∧ r.dt ≤ (V : ℚ) / sr))).map (fun r : Row => ⌊r.dt * (sr : ℚ)⌋)).Nodup := by
      have hs := regular_sorted (by positivity : (0 : ℚ) < 1 / (sr : ℚ)) hD
      have hs' : ((D.drop b).take w).Pairwise (fun r s => r.dt < s.dt) :=
        hs.sublist ((List.take_sublist _ _).trans (List.drop_sublist _ _))
      rw [List.Nodup, List.pairwise_map]
      refine List.Pairwise.imp_of_mem ?_ (hs'.sublist List.filter_sublist)
      intro r s hr hs'' hlt heq
      have hmem : ∀ x ∈ ((D.drop b).take w).filter (fun r => decide ((U : ℚ) / sr ≤ r.dt ∧ r.dt ≤ (V : ℚ) / sr)),
          ∃ z : ℤ, x.dt * sr = z := by
        intro x hx
        have hxD : x ∈ D := List.mem_of_mem_drop (List.mem_of_mem_take (List.mem_filter.mp hx).1)
        obtain ⟨l, hl⟩ := List.mem_iff_getElem?.mp hxD
        refine ⟨a + l, ?_⟩
        rw [hD l x hl]
        push_cast
        field_simp
      obtain ⟨z1, h1⟩ := hmem r hr
      obtain ⟨z2, h2⟩ := hmem s hs''
      rw [h1, h2, Int.floor_intCast, Int.floor_intCast] at heq
      rw [heq] at h1
      have : r.dt = s.dt := by
        have h3 : r.dt * sr = s.dt * sr := by rw [h1, h2]
        exact mul_right_cancel₀ hsr'.ne' h3
      linarith
    rw [← List.length_map (f := fun r : Row => ⌊r.dt * (sr : ℚ)⌋), ← List.toFinset_card_of_nodup hnd]
    apply Finset.card_le_card
    intro z hz
    rw [List.mem_toFinset] at hz
    obtain ⟨r, hr, rfl⟩ := List.mem_map.mp hz
    have hr' := (List.mem_filter.mp hr).2
    simp only [decide_eq_true_eq] at hr'
    rw [div_le_iff₀ hsr', le_div_iff₀ hsr'] at hr'
    rw [Finset.mem_Icc]
    refine ⟨Int.le_floor.mpr hr'.1, ?_⟩
    have : (⌊r.dt * sr⌋ : ℚ) ≤ V := le_trans (Int.floor_le _) hr'.2
    exact_mod_cast this
  rw [Int.card_Icc] at hinj
  omega

/-! ## What is stored -/

/-- The stored samples are quiet outside the burst and high enough in it. -/
theorem stored_of_level {S : List (ℚ × Sample)} {c : Scan} {f : ℤ → ℕ → ℝ} {norm : Bool} {level lo hi η ucf : ℚ}
    {A B U V T : ℤ} (hf : ∀ T n, 0 ≤ f T n) (F : Spec.Floats c.fl η) (hsr : 0 < c.sr)
    (hB : Spec.LevelBurst norm level lo hi η (c.g.count 0 * c.g.count 1 * c.g.count 2) f A B U V T)
    (hS : ∀ p ∈ S, ∃ (T' : ℤ) (q : Sample), A ≤ T' ∧ T' < B ∧ p = ((T' : ℚ) / c.sr, q) ∧
      Spec.SampleOf c (f T') q) (o : Out) (ho : Spec.ReportsPeak c.g (f T) o) :
    (∀ p ∈ S, p.1 ≠ (T : ℚ) / c.sr → p.2.coa + 1 / 100000 < (c.sample o).coa) ∧ (c.sample o).coa ≤ 21474 ∧
    (∀ p ∈ S, ¬ ((U : ℚ) / c.sr ≤ p.1 ∧ p.1 ≤ (V : ℚ) / c.sr) →
      lo ≤ (storedRow ucf p).trig norm ∧ (storedRow ucf p).trig norm ≤ hi) ∧
    (∀ p ∈ S, (U : ℚ) / c.sr ≤ p.1 → p.1 ≤ (V : ℚ) / c.sr → level ≤ (storedRow ucf p).trig norm) := by
  have hη := F.pos
  have hsr' : (0 : ℚ) < c.sr := by exact_mod_cast hsr
  have hdiv : ∀ x y : ℤ, (x : ℚ) / c.sr ≤ (y : ℚ) / c.sr ↔ x ≤ y := fun x y => by
    rw [div_le_div_iff_of_pos_right hsr']; exact_mod_cast Iff.rfl
  have hfacts : ∀ (T' : ℤ) (q : Sample), Spec.SampleOf c (f T') q → _ := fun T' q h => sample_facts h (hf T') F norm
  obtain ⟨-, -, -, -, hT0⟩ := hfacts T _ (Or.inl ⟨o, rfl, ho⟩)
  have hη' : (0 : ℝ) ≤ η := by exact_mod_cast hη
  have hstor := hB.storable
  have hT0 := abs_le.mp (hT0 (by linarith))
  have hpos : ∀ p ∈ S, 0 ≤ p.2.coa ∧ 0 ≤ p.2.coaN := by
    intro p hp
    obtain ⟨T', q, -, -, rfl, h3⟩ := hS p hp
    exact (hfacts T' q h3).1
  have hst := fun p hp => abs_le.mp (stored_level ucf norm p (hpos p hp).1 (hpos p hp).2)
  have htrig : ∀ r : Row, r.trig norm = Spec.trigValue norm r := fun _ => rfl
  refine ⟨?_, ?_, ?_, ?_⟩
  · intro p hp hne
    obtain ⟨T', q, h1, h2, rfl, h3⟩ := hS p hp
    have hT' : T' ≠ T := fun h => hne (by rw [h])
    have h4 := hB.largest T' h1 h2 hT'
    push_cast at h4
    obtain ⟨-, -, -, -, h5⟩ := hfacts T' q h3
    have h6 := abs_le.mp (h5 (by linarith))
    have h8 : (q.coa : ℝ) + 1 / 100000 < (c.sample o).coa := by linarith [h6.2, hT0.1]
    have h9 : ((q.coa + 1 / 100000 : ℚ) : ℝ) < (((c.sample o).coa : ℚ) : ℝ) := by push_cast; exact h8
    exact Rat.cast_lt.mp h9
  · have h8 : ((c.sample o).coa : ℝ) ≤ 21474 := by linarith [hT0.2]
    exact_mod_cast h8
  · intro p hp hout
    have h0 := hst p hp
    obtain ⟨T', q, h1, h2, rfl, h3⟩ := hS p hp
    simp only [hdiv] at hout
    obtain ⟨-, h5, h4, h4', -⟩ := hfacts T' q h3
    obtain ⟨h6, h7⟩ := hB.back T' h1 h2 (by omega)
    have hhi' := hB.higher
    have hth := hB.threshold
    have hlt : (lo + 1 / 200000 + η : ℚ) < hi - 1 / 200000 - η := by
      have := lt_of_le_of_lt h6 h7
      exact_mod_cast this
    have g1 := h4 (lo + 1 / 200000) (by linarith) h6
    have g2 := h4' (hi - 1 / 200000) (by linarith) h7
    simp only at h0
    rw [min_eq_left (by linarith : Spec.level norm q ≤ 21474)] at h0
    rw [htrig]
    constructor <;> linarith [h0.1, h0.2]
  · intro p hp hu hv
    have h0 := hst p hp
    obtain ⟨T', q, h1, h2, rfl, h3⟩ := hS p hp
    simp only [hdiv] at hu hv
    obtain ⟨-, -, h4, -, -⟩ := hfacts T' q h3
    have g1 := h4 (level + 1 / 200000) hB.threshold (hB.above T' h1 h2 hu hv)
    simp only at h0
    have g2 : level + 1 / 200000 ≤ min (Spec.level norm q) 21474 := le_min g1 hB.threshold
    rw [htrig]
    linarith [h0.1]

/-! ## The claim -/

theorem peakLevel_nonneg (norm : Bool) (n : ℕ) {f : ℕ → ℝ} (hf : ∀ k, 0 ≤ f k) : 0 ≤ Spec.peakLevel norm n f := by
  have h : 0 ≤ Spec.peakValue n f := Real.iSup_nonneg fun k => hf k
  unfold Spec.peakLevel
  split
  · exact div_nonneg h (div_nonneg (Finset.sum_nonneg fun k _ => hf k) (Nat.cast_nonneg _))
  · exact h

/-- One burst of coalescence gives one event, at the largest sample and at the node reported there, when all thresholds
are between the background and the burst. -/
theorem one_event_dynamic (c : Scan) (G : Compute.Str → Compute.Str → ℕ → ℚ)
    (S : Spec.Setup c G)
    (O : Compute.Str → Compute.Str → ℤ → ℝ) (η : ℚ) (F : Spec.Floats c.fl η)
    -- the call of detect
    (timestep start stop : ℚ) (cols : List String) (ucf : ℚ) (cw : Bool) (k : Call)
    (hk : k = c.call timestep start stop cols ucf cw) (hucf : 0 < ucf) (a : ℤ) (hstart : start = a / c.sr)
    (n : ℕ) (hn0 : 0 < n) (hn : timestep * c.sr = n) (hday : timestep ≤ 86400)
    (hrun : start < Detect.adjustedEnd k.cfg stop)
    (htie : ∀ z : ℤ, (c.pads timestep).1 * c.sr ≠ z + 1 / 2)
    (jul : ℤ → ℕ) (hjul : ∀ d, jul d ≠ jul (d + 1)) (order : Availability.Table → List ℤ)
    -- the calls of trigger and locate
    (cfg : Trigger.Cfg) (hmw : 0 < cfg.mw) (hmei : 0 ≤ cfg.mei) (n' : ℕ) (hn' : 2 * cfg.mw * c.sr = n')
    (htie' : ∀ z : ℤ, (c.pads (4 * cfg.mw)).1 * c.sr ≠ z + 1 / 2)
    (m : Method) (w : ℕ) (hm : Spec.WindowSamples m c.sr w)
    (region : Option Region) (pad s e : ℚ)
    (hald : ∃ i : ℤ, 86400 = i * (w * (1 / (c.sr : ℚ)))) (halk : ∃ i : ℤ, start = i * (w * (1 / (c.sr : ℚ))))
    (hals : ∃ i : ℤ, s = i * (w * (1 / (c.sr : ℚ)))) (halp : ∃ i : ℕ, pad = i * (w * (1 / (c.sr : ℚ))))
    (halr : ∃ j : ℕ, Spec.steps k * n = j * w)
    (he : ∃ i : ℤ, e = i / (c.sr : ℚ))
    (hfrom : start ≤ s) (hto : e ≤ start + timestep * (Spec.steps k : ℚ))
    (events : TriggerFiles.Files) (hfresh : ∀ d, TriggerFiles.dayNum s ≤ d → events d = none) (uid : ℚ → ℕ)
    (later : Locate.Trig → Locate.Later) (hlater : ∀ x, later x = .fine)
    (R : Spec.Reads c O start timestep cfg.mw)
    -- the burst
    (level lo hi : ℚ) (T U V : ℤ) (P : List (Compute.Str × Compute.Str))
    (hB : Spec.LevelBurst cfg.norm level lo hi η c.L.nNodes (Spec.coaOf c G O (Spec.pairsAt c start timestep)) a (a + Spec.steps k * n) U V T)
    (hshort : 2 * (V - U + 1) < w)
    (hthr : ∀ D : List Row, D = (Spec.computed k).map (storedRow k.cfg.ucf) →
      Spec.Regular D ((a : ℚ) / c.sr) (1 / (c.sr : ℚ)) → D.length = Spec.steps k * n →
      Spec.ShortInWindows w D ((U : ℚ) / c.sr) ((V : ℚ) / c.sr) →
      (∀ r ∈ D, ¬ ((U : ℚ) / c.sr ≤ r.dt ∧ r.dt ≤ (V : ℚ) / c.sr) → lo ≤ r.trig cfg.norm ∧ r.trig cfg.norm ≤ hi) →
      (∀ r ∈ D, (U : ℚ) / c.sr ≤ r.dt → r.dt ≤ (V : ℚ) / c.sr → level ≤ r.trig cfg.norm) →
      (∀ p ∈ Spec.computed k, ∃ (T' : ℤ) (q : Sample), a ≤ T' ∧ T' < a + Spec.steps k * n ∧
        p = ((T' : ℚ) / c.sr, q) ∧ Spec.SampleOf c (Spec.coaOf c G O (Spec.pairsAt c start timestep) T') q) →
      ∀ i < D.length, ∃ t, (getThreshold m (D.map (Row.trig cfg.norm)) c.sr)[i]? = some t ∧ hi < t ∧ t ≤ level)
    (hlong : ((V - U : ℤ) : ℚ) / c.sr + (cfg.mei + cfg.mw) + 1 / (c.sr : ℚ) + w * (1 / (c.sr : ℚ)) ≤ pad)
    (h1 : s ≤ (T : ℚ) / c.sr) (h2 : (T : ℚ) / c.sr < e)
    (hleft : a ≤ T - n') (hright : T + n' < a + Spec.steps k * n)
    (hP : Spec.SamePairs c start timestep cfg.mw n' T P)
    (xyz : Grid.V3 ℚ)
    (hxyz : ∀ o, Spec.ReportsPeak c.g (Spec.coaOf c G O (Spec.pairsAt c start timestep) T) o → o.xyz = xyz) (x y z : ℚ) (hproj : c.proj xyz = (x, y, z))
    (hx : |x| ≤ 2147) (hy : |y| ≤ 2147) (hz : |z * (1000 * ucf)| ≤ 2 ^ 31 - 1)
    (hreg : ∀ q : Sample, q.x = x → q.y = y → q.z = z → Spec.WellInside ucf region q) :
    (∃ res ev, detectTrigger jul order Spec.newDir k cfg m id region pad s e = some (res, none) ∧
      res.flatMap Prod.snd = [ev] ∧ ev.coaTime = (T : ℚ) / c.sr ∧
      |ev.x - x| ≤ 1 / 2000000 ∧ |ev.y - y| ≤ 1 / 2000000 ∧ |ev.z - z| ≤ 1 / (2000 * ucf)) ∧
    pipeline jul order Spec.newDir k cfg m id region pad events uid (c.locateOutcome cfg.mw)
        later s e =
      .located ⟨[(⟨uid ((T : ℚ) / c.sr), (T : ℚ) / c.sr⟩, (T : ℚ) / c.sr)], true⟩ := by
  have hsr' : (0 : ℚ) < c.sr := by exact_mod_cast S.rate
  have hδ : (0 : ℚ) < 1 / (c.sr : ℚ) := by positivity
  have hse : s ≤ e := by linarith
  have hstart' : k.start = start := by rw [hk]; rfl
  have hucf' : k.cfg.ucf = ucf := by rw [hk]; rfl
  have htimestep' : k.cfg.timestep = timestep := by rw [hk]; rfl
  have hS : ∀ p ∈ Spec.computed k, ∃ (T' : ℤ) (q : Sample), a ≤ T' ∧ T' < a + Spec.steps k * n ∧
      p = ((T' : ℚ) / c.sr, q) ∧ Spec.SampleOf c (Spec.coaOf c G O (Spec.pairsAt c start timestep) T') q := by
    intro p hp
    rw [hk] at hp ⊢
    exact mem_computed S R a hstart n hn htie stop cols ucf cw p hp
  have hS' : ∀ T' : ℤ, a ≤ T' → T' < a + Spec.steps k * n → Spec.pairsAt c start timestep T' ≠ [] → ∃ o, Spec.ReportsPeak c.g (Spec.coaOf c G O (Spec.pairsAt c start timestep) T') o ∧
      ((T' : ℚ) / c.sr, c.sample o) ∈ Spec.computed k := by
    intro T' h3 h4 h5
    rw [hk] at h4 ⊢
    exact computed_mem S R a hstart n hn htie stop cols ucf cw T' h3 h4 h5
  have hout : ∀ i : ℕ, (∃ (out : List Out) (av : _), k.outcome (Detect.window k.cfg k.start i) =
      .ok (out.map c.sample) av ∧ out.length = n) ∨ k.outcome (Detect.window k.cfg k.start i) = .archiveEmpty ∨
      k.outcome (Detect.window k.cfg k.start i) = .dataGap ∨
      k.outcome (Detect.window k.cfg k.start i) = .dataAvailability := by
    intro i
    rw [hk]
    by_cases hPi : Spec.pairsIn c (detectWindow start timestep c.sr (c.pads timestep) i) = []
    · exact Or.inr (detect_nothing S hPi timestep)
    · obtain ⟨out, h3, h4, -⟩ := detect_out S R a hstart n hn htie i hPi
      exact Or.inl ⟨out, _, h3, h4⟩
  have hgood : Spec.GoodCall c.sr k := by
    refine ⟨by rw [hk]; rfl, S.rate, ⟨n, hn0, by rw [htimestep']; exact hn, ?_⟩, by rw [htimestep']; exact hday,
      ⟨a, by rw [hstart']; exact hstart⟩, by rw [hstart']; rw [hk] at hrun ⊢; exact hrun⟩
    intro i data avail h
    rcases hout i with ⟨out, av, h3, h4⟩ | h3 | h3 | h3 <;> rw [h3] at h <;> cases h
    rw [List.length_map, h4]
  have hclean : Spec.Clean k := by
    intro i _ h
    rcases hout i with ⟨out, av, h3, h4⟩ | h3 | h3 | h3 <;> rw [h3] at h <;> cases h
  have halive : k.killed = .never := by rw [hk]; rfl
  obtain ⟨o, ho, hmem⟩ := hS' T hB.inside.1 hB.inside.2.1 (by rw [hP.detect T (by omega) (by omega)]; exact hP.some)
  rw [S.nodes] at hB
  obtain ⟨hlarge, hstor, hback, hburst⟩ := stored_of_level (ucf := k.cfg.ucf) (coaOf_nonneg c G O _) F S.rate hB hS
    o ho
  have hpos : ∀ p ∈ Spec.computed k, 0 ≤ p.2.coa ∧ 0 ≤ p.2.coaN := by
    intro p hp
    obtain ⟨T', q, -, -, rfl, h3⟩ := hS p hp
    exact (sample_facts h3 (coaOf_nonneg c G O _ T') F false).1
  have hsx : o.xyz = xyz := hxyz o ho
  have hqx : (c.sample o).x = x := by simp only [Scan.sample, hsx, hproj]
  have hqy : (c.sample o).y = y := by simp only [Scan.sample, hsx, hproj]
  have hqz : (c.sample o).z = z := by simp only [Scan.sample, hsx, hproj]
  have hlong' : (V : ℚ) / c.sr - (U : ℚ) / c.sr + (cfg.mei + cfg.mw) + 1 / (c.sr : ℚ) + w * (1 / (c.sr : ℚ)) ≤ pad := by
    rw [← sub_div]; push_cast at hlong; exact hlong
  have hpad : ∃ i : ℕ, pad = i / (c.sr : ℚ) := by
    obtain ⟨i, hi⟩ := halp
    exact ⟨i * w, by rw [hi]; push_cast; ring⟩
  have hs : ∃ i : ℤ, s = i / (c.sr : ℚ) := by
    obtain ⟨i, hi⟩ := hals
    exact ⟨i * w, by rw [hi]; push_cast; ring⟩
  have halp' : ∃ i : ℤ, pad = i * (w * (1 / (c.sr : ℚ))) := by
    obtain ⟨i, hi⟩ := halp
    exact ⟨i, by rw [hi]; push_cast; ring⟩
  have hfrom' : k.start ≤ s := by rw [hstart']; exact hfrom
  have hto' : e ≤ k.start + k.cfg.timestep * (Spec.steps k : ℚ) := by rw [hstart', htimestep']; exact hto
  have halk' : ∃ i : ℤ, k.start = i * (w * (1 / (c.sr : ℚ))) := by rw [hstart']; exact halk
  obtain ⟨dir, read', hdir, htrig, hok, hreads, hdelta, hDsort, hCsort, -, hrate, hregular⟩ := detect_read hgood hclean
    halive jul hjul order cfg m id region pad s e hpad hs he hfrom' hto' hse
  have hregular' : Spec.Regular ((Spec.computed k).map (storedRow k.cfg.ucf)) ((a : ℚ) / c.sr) (1 / (c.sr : ℚ)) := by
    intro i r hr
    rw [hregular i r hr, hstart', hstart]
  have hlenD : ((Spec.computed k).map (storedRow k.cfg.ucf)).length = Spec.steps k * n := by
    rw [List.length_map]
    unfold Spec.computed
    rw [List.length_flatMap]
    have : ∀ i ∈ List.range (Spec.steps k), (Spec.stepComputed k i).length = n := by
      intro i _
      rw [hk]
      obtain ⟨out, h3, -, h4⟩ := stepComputed_eq S R a hstart n hn htie stop cols ucf cw i
      rw [h4, List.length_map, List.length_zipIdx, h3]
    rw [List.map_congr_left this]
    simp
  obtain ⟨j, hj⟩ := halr
  have hshort' := short_of_count S.rate hregular' (hlenD.trans hj) (le_trans hB.inside.2.2.1 hB.inside.2.2.2) hshort
  have hdt : ∀ p, (storedRow k.cfg.ucf p).dt = p.1 := fun _ => rfl
  have hback' : ∀ r ∈ (Spec.computed k).map (storedRow k.cfg.ucf),
      ¬ ((U : ℚ) / c.sr ≤ r.dt ∧ r.dt ≤ (V : ℚ) / c.sr) → lo ≤ r.trig cfg.norm ∧ r.trig cfg.norm ≤ hi := by
    intro r hr
    obtain ⟨p, hp, rfl⟩ := List.mem_map.mp hr
    exact hback p hp
  have hburst' : ∀ r ∈ (Spec.computed k).map (storedRow k.cfg.ucf),
      (U : ℚ) / c.sr ≤ r.dt → r.dt ≤ (V : ℚ) / c.sr → level ≤ r.trig cfg.norm := by
    intro r hr
    obtain ⟨p, hp, rfl⟩ := List.mem_map.mp hr
    exact hburst p hp
  have hq1 : (U : ℚ) / c.sr ≤ (T : ℚ) / c.sr := by
    rw [div_le_div_iff_of_pos_right hsr']; exact_mod_cast hB.inside.2.2.1
  have hq2 : (T : ℚ) / c.sr ≤ (V : ℚ) / c.sr := by
    rw [div_le_div_iff_of_pos_right hsr']; exact_mod_cast hB.inside.2.2.2
  have hco := fun p hp => abs_le.mp (stored_coa k.cfg.ucf p (hpos p hp).1 (hpos p hp).2)
  have hbig : ∀ r ∈ (Spec.computed k).map (storedRow k.cfg.ucf), r.dt ≠ (T : ℚ) / c.sr →
      r.coa < (storedRow k.cfg.ucf ((T : ℚ) / c.sr, c.sample o)).coa := by
    intro r hr hne
    obtain ⟨p, hp, rfl⟩ := List.mem_map.mp hr
    have h4 := hlarge p hp hne
    have h5 := hco p hp
    have h6 := hco _ hmem
    have h8 : min p.2.coa 21474 ≤ p.2.coa := min_le_left _ _
    simp only at h6
    rw [min_eq_left hstor] at h6
    linarith [h5.2, h6.1]
  have huniq : ∀ r ∈ (Spec.computed k).map (storedRow k.cfg.ucf), r.dt = (T : ℚ) / c.sr →
      r = storedRow k.cfg.ucf ((T : ℚ) / c.sr, c.sample o) := by
    intro r hr h
    have hd : (storedRow k.cfg.ucf ((T : ℚ) / c.sr, c.sample o)).dt = (T : ℚ) / c.sr := rfl
    rcases pairwise_or hDsort hr (List.mem_map_of_mem hmem) with h' | h' | h'
    · exact h'
    · linarith
    · linarith
  have hmax : ∀ r ∈ (Spec.computed k).map (storedRow k.cfg.ucf), (U : ℚ) / c.sr ≤ r.dt → r.dt ≤ (V : ℚ) / c.sr →
      r.coa ≤ (storedRow k.cfg.ucf ((T : ℚ) / c.sr, c.sample o)).coa := by
    intro r hr _ _
    by_cases h : r.dt = (T : ℚ) / c.sr
    · rw [huniq r hr h]
    · exact (hbig r hr h).le
  obtain ⟨c1, c2, c3⟩ := C05_coordinates_roundtrip k.cfg.ucf (by rw [hucf']; exact hucf) (c.sample o)
    (by rw [hqx]; exact hx) (by rw [hqy]; exact hy) (by rw [hqz, hucf']; exact hz)
  have hin : Spec.RowIn region (storedRow k.cfg.ucf ((T : ℚ) / c.sr, c.sample o)) := by
    intro r hr
    obtain ⟨⟨a1, a2⟩, ⟨a3, a4⟩, ⟨a5, a6⟩⟩ := hreg _ hqx hqy hqz r hr
    rw [← hucf'] at a5 a6
    rw [abs_le] at c1 c2 c3
    unfold storedRow rowAt
    exact ⟨⟨by linarith [c1.1], by linarith [c1.2]⟩, ⟨by linarith [c2.1], by linarith [c2.2]⟩,
      ⟨by linarith [c3.1], by linarith [c3.2]⟩⟩
  have hthr' := hthr _ rfl hregular' hlenD hshort' hback' hburst' hS
  obtain ⟨ev, hev, hevt, hevx, hevy, hevz, -, -⟩ := one_event_of_thresholds cfg hmw.le hmei m c.sr w hm
    region _ k.start (1 / (c.sr : ℚ)) hδ hregular _ _ hi level hthr' (fun r hr h => (hback' r hr h).2) hburst' _
    (List.mem_map_of_mem hmem) hq1 hq2 hmax (fun r hr _ h => hbig r hr (ne_of_lt h)) hin pad hlong' s e h1 h2 halk' hald
    hals halp' read' hreads (fun a b sd hsd => ⟨hdelta a b sd hsd, hrate a b sd hsd⟩) hok
  constructor
  · refine ⟨(trigger cfg m id region read' s e).1, ev, ?_, hev, hevt, ?_, ?_, ?_⟩
    · unfold detectTrigger
      rw [hdir]
      simp only
      rw [htrig, ← hok]
    · rw [hevx, ← hqx]; exact c1
    · rw [hevy, ← hqy]; exact c2
    · rw [hevz, ← hqz, ← hucf']; exact c3
  · have hfine : Spec.NothingFails (Spec.computed k) (c.locateOutcome cfg.mw) later :=
      locate_fine S R n' hn' htie' (fun p hp => by
        obtain ⟨T', o', -, -, rfl, -⟩ := hS p hp
        exact ⟨T', rfl⟩) later hlater
    have hsame := locate_same S R n' hn' htie' _ _ T hS' hleft hright hP
    obtain ⟨hbelow, hb⟩ := burst_of_thresholds cfg.norm m c.sr _ _ _ hi level hthr' (fun r hr h => (hback' r hr h).2)
      hburst' _ (List.mem_map_of_mem hmem) hq1 hq2 hmax (fun r hr _ h => hbig r hr (ne_of_lt h))
      (cfg.mei + cfg.mw)
    obtain ⟨r, h3, h4, h5, h6⟩ := C115_dynamic_partial c.sr k hgood hclean halive (by rw [hucf']; exact hucf) jul hjul order
      cfg hmw hmei n' hn' m w hm (fun _ => 1) 0 0 (by omega) region pad s e hald halk' hals halp
      he hfrom' hto' _ (by rw [smoothCoa_none]; rfl) _ _ _ hb (by push_cast; linarith) h1 h2 hin ((T : ℚ) / c.sr)
      (c.sample o) hmem (by rw [hdt]; simpa using hmw) (fun p hp _ hne => by linarith [hlarge p hp hne]) events hfresh uid
      (c.locateOutcome cfg.mw) later hfine hsame
    rw [smoothCoa_none] at h3
    rw [h3]
    obtain ⟨written, completed⟩ := r
    simp only at h4 h5 h6
    rw [h4]
    congr 2
    rw [hdt] at h5
    rw [← h5, eq_comm, List.filter_eq_self]
    intro x' hx'
    obtain ⟨y', hy', h7, h8⟩ := h6 x' hx'
    by_contra hc
    refine hbelow y' hy' (fun hh => hc ?_) h8
    simp only [decide_eq_true_eq]
    rw [h7] at hh
    exact Or.inl hh

/-- One burst of coalescence in a quiet background gives one event, at the largest sample and at the node reported
there, when the threshold is a multiple of the median of each window. -/
theorem one_event_median (c : Scan) (G : Compute.Str → Compute.Str → ℕ → ℚ)
    (S : Spec.Setup c G)
    (O : Compute.Str → Compute.Str → ℤ → ℝ) (η : ℚ) (F : Spec.Floats c.fl η)
    -- the call of detect
    (timestep start stop : ℚ) (cols : List String) (ucf : ℚ) (cw : Bool) (k : Call)
    (hk : k = c.call timestep start stop cols ucf cw) (hucf : 0 < ucf) (a : ℤ) (hstart : start = a / c.sr)
    (n : ℕ) (hn0 : 0 < n) (hn : timestep * c.sr = n) (hday : timestep ≤ 86400)
    (hrun : start < Detect.adjustedEnd k.cfg stop)
    (htie : ∀ z : ℤ, (c.pads timestep).1 * c.sr ≠ z + 1 / 2)
    (jul : ℤ → ℕ) (hjul : ∀ d, jul d ≠ jul (d + 1)) (order : Availability.Table → List ℤ)
    -- the calls of trigger and locate
    (cfg : Trigger.Cfg) (hmw : 0 < cfg.mw) (hmei : 0 ≤ cfg.mei) (n' : ℕ) (hn' : 2 * cfg.mw * c.sr = n')
    (htie' : ∀ z : ℤ, (c.pads (4 * cfg.mw)).1 * c.sr ≠ z + 1 / 2)
    (window mult : ℚ) (hmult : 1 ≤ mult) (w : ℕ) (hw : 1 ≤ window * c.sr) (hwn : w = ⌊window * c.sr⌋.toNat)
    (region : Option Region) (pad s e : ℚ)
    (hald : ∃ i : ℤ, 86400 = i * (w * (1 / (c.sr : ℚ)))) (halk : ∃ i : ℤ, start = i * (w * (1 / (c.sr : ℚ))))
    (hals : ∃ i : ℤ, s = i * (w * (1 / (c.sr : ℚ)))) (halp : ∃ i : ℕ, pad = i * (w * (1 / (c.sr : ℚ))))
    (halr : ∃ j : ℕ, Spec.steps k * n = j * w)
    (he : ∃ i : ℤ, e = i / (c.sr : ℚ))
    (hfrom : start ≤ s) (hto : e ≤ start + timestep * (Spec.steps k : ℚ))
    (events : TriggerFiles.Files) (hfresh : ∀ d, TriggerFiles.dayNum s ≤ d → events d = none) (uid : ℚ → ℕ)
    (later : Locate.Trig → Locate.Later) (hlater : ∀ x, later x = .fine)
    (R : Spec.Reads c O start timestep cfg.mw)
    -- the burst
    (lo hi : ℚ) (T U V : ℤ) (P : List (Compute.Str × Compute.Str))
    (hB : Spec.QuietBurst cfg.norm mult lo hi η c.L.nNodes (Spec.coaOf c G O (Spec.pairsAt c start timestep)) a (a + Spec.steps k * n) U V T)
    (hshort : 2 * (V - U + 1) < w)
    (hlong : ((V - U : ℤ) : ℚ) / c.sr + (cfg.mei + cfg.mw) + 1 / (c.sr : ℚ) + w * (1 / (c.sr : ℚ)) ≤ pad)
    (h1 : s ≤ (T : ℚ) / c.sr) (h2 : (T : ℚ) / c.sr < e)
    (hleft : a ≤ T - n') (hright : T + n' < a + Spec.steps k * n)
    (hP : Spec.SamePairs c start timestep cfg.mw n' T P)
    (xyz : Grid.V3 ℚ)
    (hxyz : ∀ o, Spec.ReportsPeak c.g (Spec.coaOf c G O (Spec.pairsAt c start timestep) T) o → o.xyz = xyz) (x y z : ℚ) (hproj : c.proj xyz = (x, y, z))
    (hx : |x| ≤ 2147) (hy : |y| ≤ 2147) (hz : |z * (1000 * ucf)| ≤ 2 ^ 31 - 1)
    (hreg : ∀ q : Sample, q.x = x → q.y = y → q.z = z → Spec.WellInside ucf region q) :
    (∃ res ev, detectTrigger jul order Spec.newDir k cfg (.medianRatio window mult) id region pad s e = some (res, none) ∧
      res.flatMap Prod.snd = [ev] ∧ ev.coaTime = (T : ℚ) / c.sr ∧
      |ev.x - x| ≤ 1 / 2000000 ∧ |ev.y - y| ≤ 1 / 2000000 ∧ |ev.z - z| ≤ 1 / (2000 * ucf)) ∧
    pipeline jul order Spec.newDir k cfg (.medianRatio window mult) id region pad events uid (c.locateOutcome cfg.mw)
        later s e =
      .located ⟨[(⟨uid ((T : ℚ) / c.sr), (T : ℚ) / c.sr⟩, (T : ℚ) / c.sr)], true⟩ := by
  have hhi : 0 ≤ hi := by
    obtain ⟨T', t1, t2, t3⟩ : ∃ T', a ≤ T' ∧ T' < a + Spec.steps k * n ∧ (T' < U ∨ V < T') := by
      obtain ⟨j, hj⟩ := halr
      have hj0 : 0 < j := by
        rcases Nat.eq_zero_or_pos j with rfl | h
        · have := hB.inside
          have h3 : ((Spec.steps k * n : ℕ) : ℤ) = 0 := by rw [hj]; simp
          push_cast at h3
          omega
        · exact h
      have h4 : (w : ℤ) ≤ (Spec.steps k : ℤ) * n := by
        have : w ≤ Spec.steps k * n := by rw [hj]; exact Nat.le_mul_of_pos_left _ hj0
        exact_mod_cast this
      have h5 := hB.inside
      by_cases h6 : a < U
      · exact ⟨a, le_rfl, by omega, Or.inl h6⟩
      · exact ⟨a + Spec.steps k * n - 1, by omega, by omega, Or.inr (by omega)⟩
    have h3 := (hB.back T' t1 t2 t3).2
    have h4 := peakLevel_nonneg cfg.norm c.L.nNodes (coaOf_nonneg c G O (Spec.pairsAt c start timestep) T')
    have h5 : (0 : ℚ) < hi - 1 / 200000 - η := by exact_mod_cast lt_of_le_of_lt h4 h3
    linarith [F.pos]
  exact one_event_dynamic c G S O η F timestep start stop cols ucf cw k hk hucf a hstart n hn0 hn hday hrun htie jul hjul
    order cfg hmw hmei n' hn' htie' (.medianRatio window mult) w ⟨hw, hwn⟩ region pad s e hald halk hals halp halr he hfrom
    hto events hfresh uid later hlater R (hi * mult) lo hi T U V P
    ⟨hB.inside, le_mul_of_one_le_right hhi hmult, hB.threshold, hB.above, hB.back, hB.largest, hB.storable⟩ hshort
    (fun D _ _ _ hD4 hD5 _ _ => thresholds_median cfg.norm window mult c.sr w hw hwn (by linarith) D _ _ lo hi hD4 hD5
      hB.quiet) hlong h1 h2 hleft hright hP xyz hxyz x y z hproj hx hy hz hreg

private theorem le_peakValue' {n : ℕ} (f : ℕ → ℝ) {k : ℕ} (hk : k < n) : f k ≤ Spec.peakValue n f :=
  le_ciSup (f := fun k : Fin n => f k) (Set.finite_range _).bddAbove ⟨k, hk⟩

/-- **C117** (partial), with a threshold of `mult` times the median of each window.  If the onset functions are those of
an earthquake at a grid node, in a quiet background, then `detect`, `trigger` and `locate` report exactly one event:
trigger gives it the origin time and, up to what is lost in the files, the coordinates of the node, and locate writes
one event with this origin time.  Missing: as for C117 with a static threshold; the earthquake takes less than half of a
threshold window, and midnights, starts, pad and the length of the scan are whole numbers of these windows. -/
theorem C117_median_ratio_partial (c : Scan) (G : Compute.Str → Compute.Str → ℕ → ℚ)
    (S : Spec.Setup c G)
    (O : Compute.Str → Compute.Str → ℤ → ℝ) (η : ℚ) (F : Spec.Floats c.fl η)
    -- the call of detect
    (timestep start stop : ℚ) (cols : List String) (ucf : ℚ) (cw : Bool) (k : Call)
    (hk : k = c.call timestep start stop cols ucf cw) (hucf : 0 < ucf) (a : ℤ) (hstart : start = a / c.sr)
    (n : ℕ) (hn0 : 0 < n) (hn : timestep * c.sr = n) (hday : timestep ≤ 86400)
    (hrun : start < Detect.adjustedEnd k.cfg stop)
    (htie : ∀ z : ℤ, (c.pads timestep).1 * c.sr ≠ z + 1 / 2)
    (jul : ℤ → ℕ) (hjul : ∀ d, jul d ≠ jul (d + 1)) (order : Availability.Table → List ℤ)
    -- the calls of trigger and locate
    (cfg : Trigger.Cfg) (hmw : 0 < cfg.mw) (hmei : 0 ≤ cfg.mei) (n' : ℕ) (hn' : 2 * cfg.mw * c.sr = n')
    (htie' : ∀ z : ℤ, (c.pads (4 * cfg.mw)).1 * c.sr ≠ z + 1 / 2)
    (window mult : ℚ) (hmult : 1 ≤ mult) (w : ℕ) (hw : 1 ≤ window * c.sr) (hwn : w = ⌊window * c.sr⌋.toNat)
    (region : Option Region) (pad s e : ℚ)
    (hald : ∃ i : ℤ, 86400 = i * (w * (1 / (c.sr : ℚ)))) (halk : ∃ i : ℤ, start = i * (w * (1 / (c.sr : ℚ))))
    (hals : ∃ i : ℤ, s = i * (w * (1 / (c.sr : ℚ)))) (halp : ∃ i : ℕ, pad = i * (w * (1 / (c.sr : ℚ))))
    (halr : ∃ j : ℕ, Spec.steps k * n = j * w)
    (he : ∃ i : ℤ, e = i / (c.sr : ℚ))
    (hfrom : start ≤ s) (hto : e ≤ start + timestep * (Spec.steps k : ℚ))
    (events : TriggerFiles.Files) (hfresh : ∀ d, TriggerFiles.dayNum s ≤ d → events d = none) (uid : ℚ → ℕ)
    (later : Locate.Trig → Locate.Later) (hlater : ∀ x, later x = .fine)
    (R : Spec.Reads c O start timestep cfg.mw)
    -- the earthquake
    (source : ℕ) (hsrc : source < c.L.nNodes) (lo hi : ℚ) (T U V : ℤ) (P : List (Compute.Str × Compute.Str))
    (hG : ∀ sp ∈ P, ∀ node < c.L.nNodes, 0 ≤ G sp.1 sp.2 node)
    (hq : Spec.SourceAt P O (fun s p k => pyRound (G s p k * c.sr)) source T)
    (hr : Spec.Resolved P (fun s p k => pyRound (G s p k * c.sr)) c.L.nNodes source)
    (hB : Spec.QuietBurst cfg.norm mult lo hi η c.L.nNodes (Spec.coaOf c G O (Spec.pairsAt c start timestep)) a (a + Spec.steps k * n) U V T)
    (hshort : 2 * (V - U + 1) < w)
    (hlong : ((V - U : ℤ) : ℚ) / c.sr + (cfg.mei + cfg.mw) + 1 / (c.sr : ℚ) + w * (1 / (c.sr : ℚ)) ≤ pad)
    (h1 : s ≤ (T : ℚ) / c.sr) (h2 : (T : ℚ) / c.sr < e)
    (hleft : a ≤ T - n') (hright : T + n' < a + Spec.steps k * n)
    (hP : Spec.SamePairs c start timestep cfg.mw n' T P)
    (xyz : Grid.V3 ℚ) (hxyz : (Grid.gridXyz c.g)[source]? = some xyz) (x y z : ℚ) (hproj : c.proj xyz = (x, y, z))
    (hx : |x| ≤ 2147) (hy : |y| ≤ 2147) (hz : |z * (1000 * ucf)| ≤ 2 ^ 31 - 1)
    (hreg : ∀ q : Sample, q.x = x → q.y = y → q.z = z → Spec.WellInside ucf region q) :
    (∃ res ev, detectTrigger jul order Spec.newDir k cfg (.medianRatio window mult) id region pad s e = some (res, none) ∧
      res.flatMap Prod.snd = [ev] ∧ ev.coaTime = (T : ℚ) / c.sr ∧
      |ev.x - x| ≤ 1 / 2000000 ∧ |ev.y - y| ≤ 1 / 2000000 ∧ |ev.z - z| ≤ 1 / (2000 * ucf)) ∧
    pipeline jul order Spec.newDir k cfg (.medianRatio window mult) id region pad events uid (c.locateOutcome cfg.mw)
        later s e =
      .located ⟨[(⟨uid ((T : ℚ) / c.sr), (T : ℚ) / c.sr⟩, (T : ℚ) / c.sr)], true⟩ := by
  refine one_event_median c G S O η F timestep start stop cols ucf cw k hk hucf a hstart n hn0 hn hday hrun htie jul hjul
    order cfg hmw hmei n' hn' htie' window mult hmult w hw hwn region pad s e hald halk hals halp halr he hfrom hto events
    hfresh uid later hlater R lo hi T U V P hB hshort hlong h1 h2 hleft hright hP xyz ?_ x y z hproj hx hy hz hreg
  have hsr' : (0 : ℚ) < c.sr := by exact_mod_cast S.rate
  intro o ho
  have hPT := hP.detect T (by omega) (by omega)
  have ho : Spec.ReportsPeak c.g (fun node => Spec.coalescence P O (fun s p k => pyRound (G s p k * c.sr)) node T) o := by
    convert ho using 1
    funext node
    unfold Spec.coaOf
    rw [hPT, if_neg hP.some]
  -- the largest sample is at the source
  obtain ⟨m, hm, e1, -, e3⟩ := ho.node
  have hms : m = source := by
    by_contra hms
    have h3 := source_larger hP.some
      (fun sp hsp node hnode => by
        rw [← pyRound_int 0]
        apply pyRound_mono
        push_cast
        exact mul_nonneg (hG sp hsp node hnode) hsr'.le) hsrc hq hr m
      (by rw [S.nodes]; exact hm) T (Or.inl hms)
    have h4 := ho.largest source (by rw [← S.nodes]; exact hsrc)
    rw [e1] at h4
    exact absurd h3 (not_lt.mpr h4)
  rw [hms, hxyz] at e3
  exact (Option.some.inj e3).symm

/-- **C142** (partial), with a threshold of `mult` times the median of each window.  Missing: as for C117 with this
threshold. -/
theorem C142_median_ratio_partial (c : Scan) (G : Compute.Str → Compute.Str → ℕ → ℚ)
    (S : Spec.Setup c G)
    (O : Compute.Str → Compute.Str → ℤ → ℝ) (η : ℚ) (F : Spec.Floats c.fl η)
    -- the call of detect
    (timestep start stop : ℚ) (cols : List String) (ucf : ℚ) (cw : Bool) (k : Call)
    (hk : k = c.call timestep start stop cols ucf cw) (hucf : 0 < ucf) (a : ℤ) (hstart : start = a / c.sr)
    (n : ℕ) (hn0 : 0 < n) (hn : timestep * c.sr = n) (hday : timestep ≤ 86400)
    (hrun : start < Detect.adjustedEnd k.cfg stop)
    (htie : ∀ z : ℤ, (c.pads timestep).1 * c.sr ≠ z + 1 / 2)
    (jul : ℤ → ℕ) (hjul : ∀ d, jul d ≠ jul (d + 1)) (order : Availability.Table → List ℤ)
    -- the calls of trigger and locate
    (cfg : Trigger.Cfg) (hmw : 0 < cfg.mw) (hmei : 0 ≤ cfg.mei) (n' : ℕ) (hn' : 2 * cfg.mw * c.sr = n')
    (htie' : ∀ z : ℤ, (c.pads (4 * cfg.mw)).1 * c.sr ≠ z + 1 / 2)
    (window mult : ℚ) (hmult : 1 ≤ mult) (w : ℕ) (hw : 1 ≤ window * c.sr) (hwn : w = ⌊window * c.sr⌋.toNat)
    (region : Option Region) (pad s e : ℚ)
    (hald : ∃ i : ℤ, 86400 = i * (w * (1 / (c.sr : ℚ)))) (halk : ∃ i : ℤ, start = i * (w * (1 / (c.sr : ℚ))))
    (hals : ∃ i : ℤ, s = i * (w * (1 / (c.sr : ℚ)))) (halp : ∃ i : ℕ, pad = i * (w * (1 / (c.sr : ℚ))))
    (halr : ∃ j : ℕ, Spec.steps k * n = j * w)
    (he : ∃ i : ℤ, e = i / (c.sr : ℚ))
    (hfrom : start ≤ s) (hto : e ≤ start + timestep * (Spec.steps k : ℚ))
    (events : TriggerFiles.Files) (hfresh : ∀ d, TriggerFiles.dayNum s ≤ d → events d = none) (uid : ℚ → ℕ)
    (later : Locate.Trig → Locate.Later) (hlater : ∀ x, later x = .fine)
    (R : Spec.Reads c O start timestep cfg.mw)
    -- the earthquake
    (source : ℕ) (hsrc : source < c.L.nNodes) (T : ℤ) (A B C : ℝ) (tol : ℤ) (P : List (Compute.Str × Compute.Str))
    (hG : ∀ sp ∈ P, ∀ node < c.L.nNodes, 0 ≤ G sp.1 sp.2 node)
    (hq : Spec.NoisySource P O (fun s p k => pyRound (G s p k * c.sr)) source T A B C tol)
    (hT : a ≤ T ∧ T < a + Spec.steps k * n)
    -- the burst of coalescence
    (lo hi : ℚ) (T' U V : ℤ)
    (hB : Spec.QuietBurst cfg.norm mult lo hi η c.L.nNodes (Spec.coaOf c G O (Spec.pairsAt c start timestep)) a (a + Spec.steps k * n) U V T')
    (hshort : 2 * (V - U + 1) < w)
    (hlong : ((V - U : ℤ) : ℚ) / c.sr + (cfg.mei + cfg.mw) + 1 / (c.sr : ℚ) + w * (1 / (c.sr : ℚ)) ≤ pad)
    (h1 : s ≤ (T' : ℚ) / c.sr) (h2 : (T' : ℚ) / c.sr < e)
    (hleft : a ≤ T' - n') (hright : T' + n' < a + Spec.steps k * n)
    (hP : Spec.SamePairs c start timestep cfg.mw n' T' P) (hPT : Spec.pairsAt c start timestep T = P)
    -- the grid can be stored, and the region has the nodes that explain the arrivals
    (hgrid : ∀ xyz ∈ Grid.gridXyz c.g, |(c.proj xyz).1| ≤ 2147 ∧ |(c.proj xyz).2.1| ≤ 2147 ∧
      |(c.proj xyz).2.2 * (1000 * ucf)| ≤ 2 ^ 31 - 1)
    (hreg : ∀ (node : ℕ) (xyz : Grid.V3 ℚ), (Grid.gridXyz c.g)[node]? = some xyz →
      A ^ P.length
        ≤ B ^ Spec.unexplained P (fun s p k => pyRound (G s p k * c.sr)) source T node T' tol
          * C ^ (P.length
            - Spec.unexplained P (fun s p k => pyRound (G s p k * c.sr)) source T node T' tol) →
      ∀ q : Sample, q.x = (c.proj xyz).1 → q.y = (c.proj xyz).2.1 → q.z = (c.proj xyz).2.2 →
        Spec.WellInside ucf region q) :
    ∃ (node : ℕ) (xyz : Grid.V3 ℚ), node < c.L.nNodes ∧ (Grid.gridXyz c.g)[node]? = some xyz ∧
      A ^ P.length
        ≤ B ^ Spec.unexplained P (fun s p k => pyRound (G s p k * c.sr)) source T node T' tol
          * C ^ (P.length
            - Spec.unexplained P (fun s p k => pyRound (G s p k * c.sr)) source T node T' tol) ∧
      (∃ res ev, detectTrigger jul order Spec.newDir k cfg (.medianRatio window mult) id region pad s e = some (res, none) ∧
        res.flatMap Prod.snd = [ev] ∧ ev.coaTime = (T' : ℚ) / c.sr ∧
        |ev.x - (c.proj xyz).1| ≤ 1 / 2000000 ∧ |ev.y - (c.proj xyz).2.1| ≤ 1 / 2000000 ∧
        |ev.z - (c.proj xyz).2.2| ≤ 1 / (2000 * ucf)) ∧
      pipeline jul order Spec.newDir k cfg (.medianRatio window mult) id region pad events uid (c.locateOutcome cfg.mw) later s e =
        .located ⟨[(⟨uid ((T' : ℚ) / c.sr), (T' : ℚ) / c.sr⟩, (T' : ℚ) / c.sr)], true⟩ := by
  have hsr' : (0 : ℚ) < c.sr := by exact_mod_cast S.rate
  obtain ⟨o, ho, -⟩ : ∃ o, Spec.ReportsPeak c.g (Spec.coaOf c G O (Spec.pairsAt c start timestep) T') o ∧
      ((T' : ℚ) / c.sr, c.sample o) ∈ Spec.computed k := by
    have h3 := hB.inside.1
    have h4 := hB.inside.2.1
    rw [hk] at h4 ⊢
    exact computed_mem S R a hstart n hn htie stop cols ucf cw T' h3 h4 (by
      rw [hP.detect T' (by omega) (by omega)]; exact hP.some)
  have hle : Spec.coaOf c G O (Spec.pairsAt c start timestep) T source ≤ o.maxCoa := by
    rw [reportsPeak_value ho, ← S.nodes]
    refine (le_peakValue' (Spec.coaOf c G O (Spec.pairsAt c start timestep) T) hsrc).trans ?_
    by_cases hTT : T = T'
    · rw [hTT]
    · have h3 := hB.largest T hT.1 hT.2 hTT
      have h4 : 0 ≤ ((1 / 100000 + 2 * η : ℚ) : ℝ) := by
        have := F.near 0 le_rfl (by norm_num)
        have h5 : (0 : ℝ) ≤ η := (abs_nonneg _).trans this
        push_cast
        positivity
      linarith
  have ho' : Spec.ReportsPeak c.g (fun node => Spec.coalescence P O (fun s p k => pyRound (G s p k * c.sr)) node T') o := by
    convert ho using 1
    funext node
    unfold Spec.coaOf
    rw [hP.detect T' (by omega) (by omega), if_neg hP.some]
  have hle : Spec.coalescence P O (fun s p k => pyRound (G s p k * c.sr)) source T ≤ o.maxCoa := by
    unfold Spec.coaOf at hle
    rwa [hPT, if_neg hP.some] at hle
  obtain ⟨node, k1, k2, k3⟩ := explained_of_peak (g := c.g) hP.some hq
    (fun sp hsp node hn => by
      rw [← pyRound_int 0]
      apply pyRound_mono
      push_cast
      exact mul_nonneg (hG sp hsp node (by rw [S.nodes]; exact hn)) hsr'.le)
    (by rw [← S.nodes]; exact hsrc) ho' hle
  obtain ⟨g1, g2, g3⟩ := hgrid o.xyz (List.mem_of_getElem? k2)
  obtain ⟨r1, r2⟩ := one_event_median c G S O η F timestep start stop cols ucf cw k hk hucf a hstart n hn0 hn hday hrun
    htie jul hjul order cfg hmw hmei n' hn' htie' window mult hmult w hw hwn region pad s e hald halk hals halp halr he
    hfrom hto events hfresh uid later hlater R lo hi T' U V P hB hshort hlong h1 h2 hleft hright hP o.xyz
    (fun o' ho' => by rw [reportsPeak_unique ho' ho]) _ _ _ rfl g1 g2 g3 (hreg node o.xyz k2 k3)
  exact ⟨node, o.xyz, by rw [S.nodes]; exact k1, k2, k3, r1, r2⟩


/-! ## A case that meets the hypotheses -/

/-- Onset functions of 1, but for a tent of height 8 and half a width of 50 samples at the arrivals of a source at the
second node of `stepGrid` at sample 1800. -/
noncomputable def tents : Compute.Str → Compute.Str → ℤ → ℝ := fun s p t =>
  if |t - (1800 + pyRound (stepG s p 1 * (50 : ℕ)))| ≤ 50 then
    8 - ((|t - (1800 + pyRound (stepG s p 1 * (50 : ℕ)))| : ℤ) : ℝ) / 50 else 1

theorem tents_bounds (s p : Compute.Str) (t d : ℤ) (hd : d = t - (1800 + pyRound (stepG s p 1 * (50 : ℕ)))) :
    1 ≤ tents s p t ∧ tents s p t ≤ 8 ∧ (d = 0 → tents s p t = 8) ∧ (d ≠ 0 → tents s p t ≤ 399 / 50) ∧
    (50 ≤ |d| → tents s p t ≤ 7) ∧ (|d| ≤ 50 → 7 ≤ tents s p t) ∧ (50 < |d| → tents s p t = 1) := by
  unfold tents
  rw [← hd]
  have h0 : (0 : ℝ) ≤ ((|d| : ℤ) : ℝ) := by exact_mod_cast abs_nonneg d
  by_cases h : |d| ≤ 50
  · rw [if_pos h]
    have h1 : ((|d| : ℤ) : ℝ) ≤ 50 := by exact_mod_cast h
    refine ⟨by linarith, by linarith, ?_, ?_, ?_, fun _ => by linarith, fun h' => absurd h (not_le.2 h')⟩
    · rintro rfl; norm_num
    · intro hne
      have : 1 ≤ |d| := Int.one_le_abs hne
      have : (1 : ℝ) ≤ ((|d| : ℤ) : ℝ) := by exact_mod_cast this
      linarith
    · intro h'
      have : (50 : ℝ) ≤ ((|d| : ℤ) : ℝ) := by exact_mod_cast h'
      linarith
  · rw [if_neg h]
    refine ⟨le_rfl, by norm_num, ?_, fun _ => by norm_num, fun _ => by norm_num, fun h' => absurd h' h, fun _ => rfl⟩
    rintro rfl
    simp at h

theorem tents_source : Spec.SourceAt [(['A'], ['P']), (['B'], ['P']), (['B'], ['S'])] tents
    (fun s p k => pyRound (stepG s p k * (serialScan tents micro).sr)) 1 1800 := by
  intro sp _
  show 1 / 100 < tents sp.1 sp.2 (1800 + pyRound (stepG sp.1 sp.2 1 * (50 : ℕ))) ∧
    ∀ t, t ≠ 1800 + pyRound (stepG sp.1 sp.2 1 * (50 : ℕ)) →
      tents sp.1 sp.2 t < tents sp.1 sp.2 (1800 + pyRound (stepG sp.1 sp.2 1 * (50 : ℕ)))
  have h8 := (tents_bounds sp.1 sp.2 _ _ rfl).2.2.1 (sub_self (1800 + pyRound (stepG sp.1 sp.2 1 * (50 : ℕ))))
  rw [h8]
  refine ⟨by norm_num, fun t ht => ?_⟩
  have := (tents_bounds sp.1 sp.2 t _ rfl).2.2.2.1 (sub_ne_zero.2 ht)
  linarith

theorem tents_noisy : Spec.NoisySource [(['A'], ['P']), (['B'], ['P']), (['B'], ['S'])] tents
    (fun s p k => pyRound (stepG s p k * (serialScan tents micro).sr)) 1 1800 8 1 8 50 := by
  refine ⟨?_, ?_, ?_, by norm_num, by norm_num, by norm_num⟩
  · intro sp _
    exact ((tents_bounds sp.1 sp.2 _ _ rfl).2.2.1 (sub_self (1800 + pyRound (stepG sp.1 sp.2 1 * (50 : ℕ))))).ge
  · intro sp _ t
    exact (tents_bounds sp.1 sp.2 t _ rfl).2.1
  · intro sp _ t ht
    exact ((tents_bounds sp.1 sp.2 t _ rfl).2.2.2.2.2.2 ht).le

theorem tents_coa (T : ℤ) (node : ℕ) (hn : node < 2) :
    1 ≤ Spec.coaOf (serialScan tents micro) stepG tents (Spec.pairsAt (serialScan tents micro) 12 2) T node ∧
    (node = 1 ∧ T = 1800 → Spec.coaOf (serialScan tents micro) stepG tents (Spec.pairsAt (serialScan tents micro) 12 2) T node = 8) ∧
    (T ≠ 1800 → Spec.coaOf (serialScan tents micro) stepG tents (Spec.pairsAt (serialScan tents micro) 12 2) T node ≤ 399 / 50) ∧
    Spec.coaOf (serialScan tents micro) stepG tents (Spec.pairsAt (serialScan tents micro) 12 2) T node ≤ 8 ∧
    (node = 1 → 1750 ≤ T → T ≤ 1850 → 8 / 5 ≤ Spec.coaOf (serialScan tents micro) stepG tents (Spec.pairsAt (serialScan tents micro) 12 2) T node) ∧
    (node = 0 → 1800 ≤ T → T ≤ 2000 → 8 / 5 ≤ Spec.coaOf (serialScan tents micro) stepG tents (Spec.pairsAt (serialScan tents micro) 12 2) T node) ∧
    (T < 1750 ∨ 2000 < T → Spec.coaOf (serialScan tents micro) stepG tents (Spec.pairsAt (serialScan tents micro) 12 2) T node = 1) := by
  have e10 : pyRound (stepG ['A'] ['P'] 0 * (50 : ℕ)) = 0 := by decide +kernel
  have e11 : pyRound (stepG ['A'] ['P'] 1 * (50 : ℕ)) = 50 := by decide +kernel
  have e20 : pyRound (stepG ['B'] ['P'] 0 * (50 : ℕ)) = 25 := by decide +kernel
  have e21 : pyRound (stepG ['B'] ['P'] 1 * (50 : ℕ)) = 75 := by decide +kernel
  have e30 : pyRound (stepG ['B'] ['S'] 0 * (50 : ℕ)) = 50 := by decide +kernel
  have e31 : pyRound (stepG ['B'] ['S'] 1 * (50 : ℕ)) = 200 := by decide +kernel
  have hp := serial_pairsAt tents micro 12 2 T
  have hsr : (serialScan tents micro).sr = 50 := rfl
  have hval : ∀ s p t, max (1 / 100) (tents s p t) = tents s p t := fun s p t =>
    max_eq_right (le_trans (by norm_num) (tents_bounds s p t _ rfl).1)
  have hroot : ∀ y : ℝ, 0 ≤ y → (y ^ 3) ^ (1 / ((3 : ℕ) : ℝ)) = y := by
    intro y hy
    rw [one_div, Real.pow_rpow_inv_natCast hy (by norm_num)]
  have hle : ∀ x y : ℝ, 0 ≤ x → 0 ≤ y → x ≤ y ^ 3 → x ^ (1 / ((3 : ℕ) : ℝ)) ≤ y := by
    intro x y h0 hy h
    calc x ^ (1 / ((3 : ℕ) : ℝ)) ≤ (y ^ 3) ^ (1 / ((3 : ℕ) : ℝ)) := Real.rpow_le_rpow h0 h (by norm_num)
      _ = y := hroot y hy
  have hge : ∀ x y : ℝ, 0 ≤ y → y ^ 3 ≤ x → y ≤ x ^ (1 / ((3 : ℕ) : ℝ)) := by
    intro x y hy h
    calc y = (y ^ 3) ^ (1 / ((3 : ℕ) : ℝ)) := (hroot y hy).symm
      _ ≤ x ^ (1 / ((3 : ℕ) : ℝ)) := Real.rpow_le_rpow (by positivity) h (by norm_num)
  unfold Spec.coaOf Spec.coalescence
  rw [hp, if_neg (by simp), hsr]
  simp only [List.map_cons, List.map_nil, List.prod_cons, List.prod_nil, List.length_cons, List.length_nil, hval, mul_one,
    zero_add, Nat.reduceAdd]
  have hprod : ∀ x y z X Y Z : ℝ, 0 ≤ x → 0 ≤ y → 0 ≤ z → x ≤ X → y ≤ Y → z ≤ Z → x * (y * z) ≤ X * (Y * Z) := by
    intro x y z X Y Z h1 h2 h3 h4 h5 h6
    exact mul_le_mul h4 (mul_le_mul h5 h6 h3 (h2.trans h5)) (mul_nonneg h2 h3) (h1.trans h4)
  obtain ⟨d1, hd1⟩ : ∃ d, d = T + max 0 (pyRound (stepG ['A'] ['P'] node * (50 : ℕ))) -
    (1800 + pyRound (stepG ['A'] ['P'] 1 * (50 : ℕ))) := ⟨_, rfl⟩
  obtain ⟨d2, hd2⟩ : ∃ d, d = T + max 0 (pyRound (stepG ['B'] ['P'] node * (50 : ℕ))) -
    (1800 + pyRound (stepG ['B'] ['P'] 1 * (50 : ℕ))) := ⟨_, rfl⟩
  obtain ⟨d3, hd3⟩ : ∃ d, d = T + max 0 (pyRound (stepG ['B'] ['S'] node * (50 : ℕ))) -
    (1800 + pyRound (stepG ['B'] ['S'] 1 * (50 : ℕ))) := ⟨_, rfl⟩
  obtain ⟨a1, a2, a3, a4, a5, a6, a7⟩ := tents_bounds ['A'] ['P'] _ d1 hd1
  obtain ⟨b1, b2, b3, b4, b5, b6, b7⟩ := tents_bounds ['B'] ['P'] _ d2 hd2
  obtain ⟨c1, c2, c3, c4, c5, c6, c7⟩ := tents_bounds ['B'] ['S'] _ d3 hd3
  generalize tents ['A'] ['P'] (T + max 0 (pyRound (stepG ['A'] ['P'] node * (50 : ℕ)))) = a at *
  generalize tents ['B'] ['P'] (T + max 0 (pyRound (stepG ['B'] ['P'] node * (50 : ℕ)))) = b at *
  generalize tents ['B'] ['S'] (T + max 0 (pyRound (stepG ['B'] ['S'] node * (50 : ℕ)))) = c at *
  have h0 : 0 ≤ a * (b * c) := by positivity
  rw [e11] at hd1
  rw [e21] at hd2
  rw [e31] at hd3
  have hnode : (node = 1 ∧ d1 = T - 1800 ∧ d2 = T - 1800 ∧ d3 = T - 1800) ∨
      (node = 0 ∧ d1 = T - 1850 ∧ d2 = T - 1850 ∧ d3 = T - 1950) := by
    have : node = 0 ∨ node = 1 := by omega
    rcases this with rfl | rfl
    · rw [e10] at hd1; rw [e20] at hd2; rw [e30] at hd3; omega
    · rw [e11] at hd1; rw [e21] at hd2; rw [e31] at hd3; omega
  refine ⟨?_, ?_, ?_, ?_, ?_, ?_, ?_⟩
  · apply hge _ _ (by norm_num)
    have := hprod 1 1 1 a b c (by norm_num) (by norm_num) (by norm_num) a1 b1 c1
    linarith
  · rintro ⟨hn1, hT⟩
    rw [a3 (by omega), b3 (by omega), c3 (by omega)]
    rw [show (8 * (8 * 8) : ℝ) = 8 ^ 3 by norm_num]
    exact hroot 8 (by norm_num)
  · intro hT
    apply hle _ _ h0 (by norm_num)
    rcases hnode with ⟨-, h1, h2, h3⟩ | ⟨-, h1, h2, h3⟩
    · have := hprod a b c _ _ _ (by linarith) (by linarith) (by linarith) (a4 (by omega)) (b4 (by omega)) (c4 (by omega))
      refine this.trans (by norm_num)
    · by_cases h50 : 50 ≤ |d1|
      · have := hprod a b c _ _ _ (by linarith) (by linarith) (by linarith) (a5 h50) b2 c2
        refine this.trans (by norm_num)
      · have := hprod a b c _ _ _ (by linarith) (by linarith) (by linarith) a2 b2
          (c5 (by rw [not_le, abs_lt] at h50; rw [le_abs]; omega))
        refine this.trans (by norm_num)
  · apply hle _ _ h0 (by norm_num)
    have := hprod a b c _ _ _ (by linarith) (by linarith) (by linarith) a2 b2 c2
    refine this.trans (by norm_num)
  · rintro hn1 hT1 hT2
    apply hge _ _ (by norm_num)
    have := hprod 7 1 1 a b c (by norm_num) (by norm_num) (by norm_num) (a6 (by rw [abs_le]; omega)) b1 c1
    refine le_trans (by norm_num) this
  · rintro hn0 hT1 hT2
    apply hge _ _ (by norm_num)
    by_cases h19 : T ≤ 1900
    · have := hprod 7 1 1 a b c (by norm_num) (by norm_num) (by norm_num) (a6 (by rw [abs_le]; omega)) b1 c1
      refine le_trans (by norm_num) this
    · have := hprod 1 1 7 a b c (by norm_num) (by norm_num) (by norm_num) a1 b1 (c6 (by rw [abs_le]; omega))
      refine le_trans (by norm_num) this
  · intro hT
    rw [a7 (by rw [lt_abs]; omega), b7 (by rw [lt_abs]; omega), c7 (by rw [lt_abs]; omega)]
    norm_num

theorem tents_peak (T : ℤ) :
    (T = 1800 → Spec.peakValue 2 (Spec.coaOf (serialScan tents micro) stepG tents (Spec.pairsAt (serialScan tents micro) 12 2) T) = 8) ∧
    (T ≠ 1800 → Spec.peakValue 2 (Spec.coaOf (serialScan tents micro) stepG tents (Spec.pairsAt (serialScan tents micro) 12 2) T) ≤ 399 / 50) ∧
    (1750 ≤ T → T ≤ 2000 → 8 / 5 ≤ Spec.peakValue 2 (Spec.coaOf (serialScan tents micro) stepG tents (Spec.pairsAt (serialScan tents micro) 12 2) T)) ∧
    (T < 1750 ∨ 2000 < T → Spec.peakValue 2 (Spec.coaOf (serialScan tents micro) stepG tents (Spec.pairsAt (serialScan tents micro) 12 2) T) = 1) := by
  refine ⟨?_, ?_, ?_, ?_⟩
  · rintro rfl
    apply le_antisymm
    · exact ciSup_le fun k => (tents_coa 1800 k k.2).2.2.2.1
    · rw [← (tents_coa 1800 1 (by norm_num)).2.1 ⟨rfl, rfl⟩]
      exact le_peakValue' _ (by norm_num)
  · intro h
    exact ciSup_le fun k => (tents_coa T k k.2).2.2.1 h
  · intro h1 h2
    by_cases h3 : T ≤ 1850
    · exact ((tents_coa T 1 (by norm_num)).2.2.2.2.1 rfl h1 h3).trans (le_peakValue' _ (by norm_num))
    · exact ((tents_coa T 0 (by norm_num)).2.2.2.2.2.1 rfl (by omega) h2).trans (le_peakValue' _ (by norm_num))
  · intro h
    apply le_antisymm
    · exact ciSup_le fun k => ((tents_coa T k k.2).2.2.2.2.2.2 h).le
    · exact (tents_coa T 1 (by norm_num)).1.trans (le_peakValue' _ (by norm_num))

theorem tents_steps : Spec.steps ((serialScan tents micro).call 2 12 60 [] 1 false) = 24 := by
  have h1 : Detect.adjustedEnd ((serialScan tents micro).call 2 12 60 [] 1 false).cfg 60 = 60 := by
    unfold Detect.adjustedEnd
    rw [if_neg (by decide +kernel)]
  have h2 : Spec.steps ((serialScan tents micro).call 2 12 60 [] 1 false) = ⌈((60 : ℚ) - 12) / 2⌉.toNat := by
    unfold Spec.steps
    show ⌈(Detect.adjustedEnd ((serialScan tents micro).call 2 12 60 [] 1 false).cfg 60 - 12) / 2⌉.toNat = _
    rw [h1]
  rw [h2]
  decide +kernel

theorem tents_quiet : Spec.QuietBurst false (3 / 2) (99 / 100) (101 / 100) (1 / 1000000) 2
    (Spec.coaOf (serialScan tents micro) stepG tents (Spec.pairsAt (serialScan tents micro) 12 2)) 600
    (600 + Spec.steps ((serialScan tents micro).call 2 12 60 [] 1 false) * (100 : ℕ)) 1750 2000 1800 := by
  rw [tents_steps]
  refine ⟨by norm_num, by norm_num, by norm_num, ?_, ?_, ?_, ?_⟩
  · intro T' _ _ h1 h2
    show _ ≤ Spec.peakValue 2 _
    refine le_trans ?_ ((tents_peak T').2.2.1 h1 h2)
    norm_num
  · intro T' _ _ h
    show _ ≤ Spec.peakValue 2 _ ∧ Spec.peakValue 2 _ < _
    rw [(tents_peak T').2.2.2 h]
    norm_num
  · intro T' _ _ h
    rw [(tents_peak 1800).1 rfl]
    refine lt_of_le_of_lt (add_le_add_left ((tents_peak T').2.1 h) _) ?_
    norm_num
  · rw [(tents_peak 1800).1 rfl]
    norm_num

/-- With a threshold of 1.5 times the median of 12 seconds the earthquake is detected, triggered and located: exactly
one event. -/
example (jul : ℤ → ℕ) (hjul : ∀ d, jul d ≠ jul (d + 1)) (order : Availability.Table → List ℤ) (uid : ℚ → ℕ) :
    pipeline jul order Spec.newDir ((serialScan tents micro).call 2 12 60 [] 1 false) ⟨1 / 2, 1, false⟩
      (.medianRatio 12 (3 / 2)) id none 24
      (fun _ => none) uid ((serialScan tents micro).locateOutcome (1 / 2)) (fun _ => .fine) 24 48 =
      .located ⟨[(⟨uid 36, 36⟩, 36)], true⟩ := by
  have htie := fun ts (hts : (0 : ℚ) ≤ ts) => fun z => C22_usual_rates stepWindows stepSetup.win 4 (by norm_num) 50
    (by norm_num) (Or.inl ⟨20, rfl⟩) ts hts z
  have hfin := (C117_median_ratio_partial (serialScan tents micro) stepG
    (serial_setup _ _ _ _ (fun _ => exAv_le)) tents (1 / 1000000) micro_floats 2 12 60 [] 1 false _ rfl (by norm_num) 600
    (by show (12 : ℚ) = ((600 : ℤ) : ℚ) / ((50 : ℕ) : ℚ); norm_num) 100 (by norm_num)
    (by show (2 : ℚ) * ((50 : ℕ) : ℚ) = ((100 : ℕ) : ℚ); norm_num) (by norm_num)
    (by
      unfold Detect.adjustedEnd
      rw [if_neg (by decide +kernel)]
      norm_num) (htie 2 (by norm_num)) jul hjul order ⟨1 / 2, 1, false⟩ (by norm_num) (by norm_num) 50
    (by show 2 * (1 / 2 : ℚ) * ((50 : ℕ) : ℚ) = ((50 : ℕ) : ℚ); norm_num) (htie (4 * (1 / 2)) (by norm_num))
    12 (3 / 2) (by norm_num) 600 (by show (1 : ℚ) ≤ 12 * ((50 : ℕ) : ℚ); norm_num)
    (by show 600 = ⌊(12 : ℚ) * ((50 : ℕ) : ℚ)⌋.toNat; decide +kernel) none 24 24 48
    ⟨7200, by show (86400 : ℚ) = ((7200 : ℤ) : ℚ) * (((600 : ℕ) : ℚ) * (1 / ((50 : ℕ) : ℚ))); norm_num⟩
    ⟨1, by show (12 : ℚ) = ((1 : ℤ) : ℚ) * (((600 : ℕ) : ℚ) * (1 / ((50 : ℕ) : ℚ))); norm_num⟩
    ⟨2, by show (24 : ℚ) = ((2 : ℤ) : ℚ) * (((600 : ℕ) : ℚ) * (1 / ((50 : ℕ) : ℚ))); norm_num⟩
    ⟨2, by show (24 : ℚ) = ((2 : ℕ) : ℚ) * (((600 : ℕ) : ℚ) * (1 / ((50 : ℕ) : ℚ))); norm_num⟩
    ⟨4, by rw [tents_steps]⟩
    ⟨2400, by show (48 : ℚ) = ((2400 : ℤ) : ℚ) / ((50 : ℕ) : ℚ); norm_num⟩ (by norm_num)
    (by rw [tents_steps]; norm_num) (fun _ => none) (fun _ _ => rfl) uid (fun _ => .fine) (fun _ => rfl)
    (serial_reads_at tents micro _ _ 12 600 (by norm_num)) 1 (by decide) (99 / 100) (101 / 100) 1800 1750 2000
    [(['A'], ['P']), (['B'], ['P']), (['B'], ['S'])] (by
      have : ∀ sp ∈ [((['A'] : Compute.Str), (['P'] : Compute.Str)), (['B'], ['P']), (['B'], ['S'])], ∀ node < 2,
        0 ≤ stepG sp.1 sp.2 node := by decide +kernel
      exact this) tents_source
    stepGrid_resolved tents_quiet (by norm_num)
    (by
      show (((2000 - 1750 : ℤ) : ℚ)) / ((50 : ℕ) : ℚ) + (1 + 1 / 2) + 1 / ((50 : ℕ) : ℚ) + ((600 : ℕ) : ℚ) * (1 / ((50 : ℕ) : ℚ)) ≤ 24
      norm_num)
    (by show (24 : ℚ) ≤ ((1800 : ℤ) : ℚ) / ((50 : ℕ) : ℚ); norm_num)
    (by show ((1800 : ℤ) : ℚ) / ((50 : ℕ) : ℚ) < 48; norm_num) (by norm_num) (by rw [tents_steps]; norm_num)
    (serial_samePairs _ _ 12 2 _ _ _)
    (fun a => if a = 0 then 2 else 0) (by decide +kernel) 2 0 0 (by decide +kernel) (by norm_num) (by norm_num) (by norm_num)
    (fun q _ _ _ r hr => by cases hr)).2
  have he : ((1800 : ℤ) : ℚ) / (serialScan tents micro).sr = 36 := by
    show ((1800 : ℤ) : ℚ) / ((50 : ℕ) : ℚ) = 36
    norm_num
  rw [he] at hfin
  exact hfin

/-- These onset functions also meet the hypotheses of C142; the bound leaves no arrival unexplained. -/
example (jul : ℤ → ℕ) (hjul : ∀ d, jul d ≠ jul (d + 1)) (order : Availability.Table → List ℤ) (uid : ℚ → ℕ) :
    ∃ (node : ℕ), node < 2 ∧ (8 : ℝ) ^ 3 ≤ 1 ^ Spec.unexplained [(['A'], ['P']), (['B'], ['P']), (['B'], ['S'])]
        (fun s p k => pyRound (stepG s p k * (50 : ℕ))) 1 1800 node 1800 50 *
      8 ^ (3 - Spec.unexplained [(['A'], ['P']), (['B'], ['P']), (['B'], ['S'])]
        (fun s p k => pyRound (stepG s p k * (50 : ℕ))) 1 1800 node 1800 50) ∧
    pipeline jul order Spec.newDir ((serialScan tents micro).call 2 12 60 [] 1 false) ⟨1 / 2, 1, false⟩
      (.medianRatio 12 (3 / 2)) id none 24
      (fun _ => none) uid ((serialScan tents micro).locateOutcome (1 / 2)) (fun _ => .fine) 24 48 =
      .located ⟨[(⟨uid 36, 36⟩, 36)], true⟩ := by
  have htie := fun ts (hts : (0 : ℚ) ≤ ts) => fun z => C22_usual_rates stepWindows stepSetup.win 4 (by norm_num) 50
    (by norm_num) (Or.inl ⟨20, rfl⟩) ts hts z
  obtain ⟨node, xyz, g1, g2, g3, -, g5⟩ := C142_median_ratio_partial (serialScan tents micro) stepG
    (serial_setup _ _ _ _ (fun _ => exAv_le)) tents (1 / 1000000) micro_floats 2 12 60 [] 1 false _ rfl (by norm_num) 600
    (by show (12 : ℚ) = ((600 : ℤ) : ℚ) / ((50 : ℕ) : ℚ); norm_num) 100 (by norm_num)
    (by show (2 : ℚ) * ((50 : ℕ) : ℚ) = ((100 : ℕ) : ℚ); norm_num) (by norm_num)
    (by
      unfold Detect.adjustedEnd
      rw [if_neg (by decide +kernel)]
      norm_num) (htie 2 (by norm_num)) jul hjul order ⟨1 / 2, 1, false⟩ (by norm_num) (by norm_num) 50
    (by show 2 * (1 / 2 : ℚ) * ((50 : ℕ) : ℚ) = ((50 : ℕ) : ℚ); norm_num) (htie (4 * (1 / 2)) (by norm_num))
    12 (3 / 2) (by norm_num) 600 (by show (1 : ℚ) ≤ 12 * ((50 : ℕ) : ℚ); norm_num)
    (by show 600 = ⌊(12 : ℚ) * ((50 : ℕ) : ℚ)⌋.toNat; decide +kernel) none 24 24 48
    ⟨7200, by show (86400 : ℚ) = ((7200 : ℤ) : ℚ) * (((600 : ℕ) : ℚ) * (1 / ((50 : ℕ) : ℚ))); norm_num⟩
    ⟨1, by show (12 : ℚ) = ((1 : ℤ) : ℚ) * (((600 : ℕ) : ℚ) * (1 / ((50 : ℕ) : ℚ))); norm_num⟩
    ⟨2, by show (24 : ℚ) = ((2 : ℤ) : ℚ) * (((600 : ℕ) : ℚ) * (1 / ((50 : ℕ) : ℚ))); norm_num⟩
    ⟨2, by show (24 : ℚ) = ((2 : ℕ) : ℚ) * (((600 : ℕ) : ℚ) * (1 / ((50 : ℕ) : ℚ))); norm_num⟩
    ⟨4, by rw [tents_steps]⟩
    ⟨2400, by show (48 : ℚ) = ((2400 : ℤ) : ℚ) / ((50 : ℕ) : ℚ); norm_num⟩ (by norm_num)
    (by rw [tents_steps]; norm_num) (fun _ => none) (fun _ _ => rfl) uid (fun _ => .fine) (fun _ => rfl)
    (serial_reads_at tents micro _ _ 12 600 (by norm_num)) 1 (show 1 < 2 by norm_num) 1800 8 1 8 50
    [(['A'], ['P']), (['B'], ['P']), (['B'], ['S'])] (by
      have : ∀ sp ∈ [((['A'] : Compute.Str), (['P'] : Compute.Str)), (['B'], ['P']), (['B'], ['S'])], ∀ node < 2,
        0 ≤ stepG sp.1 sp.2 node := by decide +kernel
      exact this) tents_noisy
    (by rw [tents_steps]; norm_num) (99 / 100) (101 / 100) 1800 1750 2000
    tents_quiet (by norm_num)
    (by
      show (((2000 - 1750 : ℤ) : ℚ)) / ((50 : ℕ) : ℚ) + (1 + 1 / 2) + 1 / ((50 : ℕ) : ℚ) + ((600 : ℕ) : ℚ) * (1 / ((50 : ℕ) : ℚ)) ≤ 24
      norm_num)
    (by show (24 : ℚ) ≤ ((1800 : ℤ) : ℚ) / ((50 : ℕ) : ℚ); norm_num)
    (by show ((1800 : ℤ) : ℚ) / ((50 : ℕ) : ℚ) < 48; norm_num) (by norm_num) (by rw [tents_steps]; norm_num)
    (serial_samePairs _ _ 12 2 _ _ _) (serial_pairsAt _ _ 12 2 _)
    (by
      have : ∀ xyz ∈ Grid.gridXyz stepGrid, |xyz 0| ≤ 2147 ∧ |xyz 1| ≤ 2147 ∧
          |xyz 2 * (1000 * 1)| ≤ 2 ^ 31 - 1 := by decide +kernel
      exact this)
    (fun _ _ _ _ q _ _ _ r hr => by cases hr)
  have he : ((1800 : ℤ) : ℚ) / (serialScan tents micro).sr = 36 := by
    show ((1800 : ℤ) : ℚ) / ((50 : ℕ) : ℚ) = 36
    norm_num
  rw [he] at g5
  exact ⟨node, g1, g3, g5⟩

end QM
