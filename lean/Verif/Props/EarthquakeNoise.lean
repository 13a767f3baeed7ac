import Verif.Props.EndToEnd
import Verif.Props.Robust

/-!
# C142: from the onset functions of an earthquake with noise to one located event
-/

namespace QM
open QM.Pads QM.ComputeStep QM.EndToEnd QM.DetectRuns QM.ScanMseed QM.Pipeline QM.Trigger QM.DetectTrigger

private theorem le_peakValue {n : ℕ} (f : ℕ → ℝ) {k : ℕ} (hk : k < n) : f k ≤ Spec.peakValue n f :=
  le_ciSup (f := fun k : Fin n => f k) (Set.finite_range _).bddAbove ⟨k, hk⟩

/-- **C142** (partial).  The onset functions are those of an earthquake with noise (`Spec.NoisySource`), and the
coalescence is above the threshold for a while, with its largest sample at `T'`, and below it for the rest of the
period scanned.  Then `detect`, `trigger` and `locate` report exactly one event, at `T'`, and together with the node
whose coordinates it is given it explains the arrivals within the tolerance, but for `k` of the `N` onset functions
with `A ^ N ≤ B ^ k * C ^ (N - k)`.  Missing: as for C117. -/
theorem C142_noisy_earthquake_partial (c : Scan) (G : Compute.Str → Compute.Str → ℕ → ℚ)
    (S : Spec.Setup c G)
    (O : Compute.Str → Compute.Str → ℤ → ℝ) (η : ℚ) (F : Spec.Floats c.fl η)
    -- the call of detect
    (timestep start stop : ℚ) (cols : List String) (ucf : ℚ) (cw : Bool) (k : Call)
    (hk : k = c.call timestep start stop cols ucf cw) (hucf : 0 < ucf) (a : ℤ) (hstart : start = a / c.sr)
    (n : ℕ) (hn0 : 0 < n) (hn : timestep * c.sr = n) (hday : timestep ≤ 86400)
    (hrun : start < Detect.adjustedEnd k.cfg stop)
    (htie : ∀ z : ℤ, (c.pads timestep).1 * c.sr ≠ z + 1 / 2)
    (jul : ℤ → ℕ) (hjul : ∀ d, jul d ≠ jul (d + 1)) (order : Availability.Table → List ℤ)
    -- the calls of trigger and locate
    (cfg : Trigger.Cfg) (hmw : 0 < cfg.mw) (hmei : 2 * cfg.mw ≤ cfg.mei) (n' : ℕ) (hn' : 2 * cfg.mw * c.sr = n')
    (htie' : ∀ z : ℤ, (c.pads (4 * cfg.mw)).1 * c.sr ≠ z + 1 / 2) (t : ℚ) (region : Option Region) (pad s e : ℚ)
    (hpad : ∃ i : ℕ, pad = i / (c.sr : ℚ)) (hs : ∃ i : ℤ, s = i / (c.sr : ℚ)) (he : ∃ i : ℤ, e = i / (c.sr : ℚ))
    (hfrom : start ≤ s) (hto : e ≤ start + timestep * (Spec.steps k : ℚ))
    (events : TriggerFiles.Files) (hfresh : ∀ d, TriggerFiles.dayNum s ≤ d → events d = none) (uid : ℚ → ℕ)
    (later : Locate.Trig → Locate.Later) (hlater : ∀ x, later x = .fine)
    (R : Spec.Reads c O start timestep cfg.mw)
    -- the earthquake
    (source : ℕ) (hsrc : source < c.L.nNodes) (T : ℤ) (A B C : ℝ) (tol : ℤ) (P : List (Compute.Str × Compute.Str))
    (hG : ∀ sp ∈ P, ∀ node < c.L.nNodes, 0 ≤ G sp.1 sp.2 node)
    (hq : Spec.NoisySource P O (fun s p k => pyRound (G s p k * c.sr)) source T A B C tol)
    (hT : a ≤ T ∧ T < a + Spec.steps k * n)
    -- the burst of coalescence
    (T' U V : ℤ)
    (hB : Spec.OneBurst cfg.norm t η c.L.nNodes (Spec.coaOf c G O (Spec.pairsAt c start timestep)) a (a + Spec.steps k * n) U V T')
    (hlong : ((V - U : ℤ) : ℚ) / c.sr ≤ pad) (h1 : s ≤ (T' : ℚ) / c.sr) (h2 : (T' : ℚ) / c.sr < e)
    (hleft : a ≤ T' - n') (hright : T' + n' < a + Spec.steps k * n)
    (hP : Spec.SamePairs c start timestep cfg.mw n' T' P) (hPT : Spec.pairsAt c start timestep T = P)
    -- the grid can be stored, and the region has the nodes that explain the arrivals
    (hgrid : ∀ xyz ∈ Grid.gridXyz c.g, |(c.proj xyz).1| ≤ 2147 ∧ |(c.proj xyz).2.1| ≤ 2147 ∧
      |(c.proj xyz).2.2 * (1000 * ucf)| ≤ 2 ^ 31 - 1)
    (hreg : ∀ (node : ℕ) (xyz : Grid.V3 ℚ), (Grid.gridXyz c.g)[node]? = some xyz →
      A ^ P.length
        ≤ B ^ Spec.unexplained P (fun s p k => pyRound (G s p k * c.sr)) source T node T' tol
          * C ^ (P.length
            - Spec.unexplained P (fun s p k => pyRound (G s p k * c.sr)) source T node T' tol) →
      ∀ q : Sample, q.x = (c.proj xyz).1 → q.y = (c.proj xyz).2.1 → q.z = (c.proj xyz).2.2 →
        Spec.WellInside ucf region q) :
    ∃ (node : ℕ) (xyz : Grid.V3 ℚ), node < c.L.nNodes ∧ (Grid.gridXyz c.g)[node]? = some xyz ∧
      A ^ P.length
        ≤ B ^ Spec.unexplained P (fun s p k => pyRound (G s p k * c.sr)) source T node T' tol
          * C ^ (P.length
            - Spec.unexplained P (fun s p k => pyRound (G s p k * c.sr)) source T node T' tol) ∧
      (∃ res ev, detectTrigger jul order Spec.newDir k cfg (.static t) id region pad s e = some (res, none) ∧
        res.flatMap Prod.snd = [ev] ∧ ev.coaTime = (T' : ℚ) / c.sr ∧
        |ev.x - (c.proj xyz).1| ≤ 1 / 2000000 ∧ |ev.y - (c.proj xyz).2.1| ≤ 1 / 2000000 ∧
        |ev.z - (c.proj xyz).2.2| ≤ 1 / (2000 * ucf)) ∧
      pipeline jul order Spec.newDir k cfg (.static t) id region pad events uid (c.locateOutcome cfg.mw) later s e =
        .located ⟨[(⟨uid ((T' : ℚ) / c.sr), (T' : ℚ) / c.sr⟩, (T' : ℚ) / c.sr)], true⟩ := by
  have hsr' : (0 : ℚ) < c.sr := by exact_mod_cast S.rate
  obtain ⟨o, ho, -⟩ : ∃ o, Spec.ReportsPeak c.g (Spec.coaOf c G O (Spec.pairsAt c start timestep) T') o ∧
      ((T' : ℚ) / c.sr, c.sample o) ∈ Spec.computed k := by
    have h3 := hB.inside.1
    have h4 := hB.inside.2.1
    rw [hk] at h4 ⊢
    exact computed_mem S R a hstart n hn htie stop cols ucf cw T' h3 h4 (by
      rw [hP.detect T' (by omega) (by omega)]; exact hP.some)
  have hle : Spec.coaOf c G O (Spec.pairsAt c start timestep) T source ≤ o.maxCoa := by
    rw [reportsPeak_value ho, ← S.nodes]
    refine (le_peakValue (Spec.coaOf c G O (Spec.pairsAt c start timestep) T) hsrc).trans ?_
    by_cases hTT : T = T'
    · rw [hTT]
    · have h3 := hB.largest T hT.1 hT.2 hTT
      have h4 : 0 ≤ ((1 / 100000 + 2 * η : ℚ) : ℝ) := by
        have := F.near 0 le_rfl (by norm_num)
        have h5 : (0 : ℝ) ≤ η := (abs_nonneg _).trans this
        push_cast
        positivity
      linarith
  have ho' : Spec.ReportsPeak c.g (fun node => Spec.coalescence P O (fun s p k => pyRound (G s p k * c.sr)) node T') o := by
    convert ho using 1
    funext node
    unfold Spec.coaOf
    rw [hP.detect T' (by omega) (by omega), if_neg hP.some]
  have hle : Spec.coalescence P O (fun s p k => pyRound (G s p k * c.sr)) source T ≤ o.maxCoa := by
    unfold Spec.coaOf at hle
    rwa [hPT, if_neg hP.some] at hle
  obtain ⟨node, k1, k2, k3⟩ := explained_of_peak (g := c.g) hP.some hq
    (fun sp hsp node hn => by
      rw [← pyRound_int 0]
      apply pyRound_mono
      push_cast
      exact mul_nonneg (hG sp hsp node (by rw [S.nodes]; exact hn)) hsr'.le)
    (by rw [← S.nodes]; exact hsrc) ho' hle
  obtain ⟨g1, g2, g3⟩ := hgrid o.xyz (List.mem_of_getElem? k2)
  obtain ⟨r1, r2⟩ := one_event c G S O η F timestep start stop cols ucf cw k hk hucf a hstart n hn0 hn hday hrun htie
    jul hjul order cfg hmw hmei n' hn' htie' t region pad s e hpad hs he hfrom hto events hfresh uid later hlater R
    T' U V P hB hlong h1 h2 hleft hright hP o.xyz (fun o' ho' => by rw [reportsPeak_unique ho' ho]) _ _ _ rfl g1 g2 g3
    (hreg node o.xyz k2 k3)
  exact ⟨node, o.xyz, by rw [S.nodes]; exact k1, k2, k3, r1, r2⟩

/-! ## A case that meets the hypotheses: any noise between 0 and 1 -/

section
variable (noise : Compute.Str → Compute.Str → ℤ → ℝ)

/-- Noise, and 5 more at the arrivals from the second node of `stepGrid` at sample 153. -/
noncomputable def noisyOnsets : Compute.Str → Compute.Str → ℤ → ℝ :=
  fun s p t => noise s p t + if t = 153 + pyRound (stepG s p 1 * (50 : ℕ)) then 5 else 0

variable {noise} (hnoise : ∀ s p t, 0 ≤ noise s p t ∧ noise s p t ≤ 1)
include hnoise

theorem noisy_bounds (s p : Compute.Str) (t : ℤ) :
    0 ≤ noisyOnsets noise s p t ∧ noisyOnsets noise s p t ≤ 6 ∧
    (t = 153 + pyRound (stepG s p 1 * (50 : ℕ)) → 5 ≤ noisyOnsets noise s p t) ∧
    (t ≠ 153 + pyRound (stepG s p 1 * (50 : ℕ)) → noisyOnsets noise s p t ≤ 1) := by
  have h := hnoise s p t
  unfold noisyOnsets
  refine ⟨?_, ?_, ?_, ?_⟩
  · split_ifs <;> linarith
  · split_ifs <;> linarith
  · intro ht; rw [if_pos ht]; linarith
  · intro ht; rw [if_neg ht]; linarith

theorem noisy_source : Spec.NoisySource [(['A'], ['P']), (['B'], ['P']), (['B'], ['S'])] (noisyOnsets noise)
    (fun s p k => pyRound (stepG s p k * (serialScan (noisyOnsets noise) micro).sr)) 1 153 5 1 6 0 := by
  refine ⟨?_, ?_, ?_, by norm_num, by norm_num, by norm_num⟩
  · intro sp _
    exact (noisy_bounds hnoise sp.1 sp.2 _).2.2.1 rfl
  · intro sp _ t
    exact (noisy_bounds hnoise sp.1 sp.2 t).2.1
  · intro sp _ t ht
    refine (noisy_bounds hnoise sp.1 sp.2 t).2.2.2 ?_
    intro h
    rw [h] at ht
    exact absurd ht (by show ¬ (0 < |(153 + pyRound (stepG sp.1 sp.2 1 * (50 : ℕ)))
      - (153 + pyRound (stepG sp.1 sp.2 1 * (50 : ℕ)))|); simp)

theorem noisy_coa (T : ℤ) (node : ℕ) (hn : node < 2) :
    Spec.coaOf (serialScan (noisyOnsets noise) micro) stepG (noisyOnsets noise) (Spec.pairsAt (serialScan (noisyOnsets noise) micro) 1 2) T node ≤ 6 ∧
    (node = 1 ∧ T = 153 →
      5 ≤ Spec.coaOf (serialScan (noisyOnsets noise) micro) stepG (noisyOnsets noise) (Spec.pairsAt (serialScan (noisyOnsets noise) micro) 1 2) T node) ∧
    (¬ (node = 1 ∧ T = 153) →
      Spec.coaOf (serialScan (noisyOnsets noise) micro) stepG (noisyOnsets noise) (Spec.pairsAt (serialScan (noisyOnsets noise) micro) 1 2) T node ≤ 7 / 2) := by
  have e10 : pyRound (stepG ['A'] ['P'] 0 * (50 : ℕ)) = 0 := by decide +kernel
  have e11 : pyRound (stepG ['A'] ['P'] 1 * (50 : ℕ)) = 50 := by decide +kernel
  have e20 : pyRound (stepG ['B'] ['P'] 0 * (50 : ℕ)) = 25 := by decide +kernel
  have e21 : pyRound (stepG ['B'] ['P'] 1 * (50 : ℕ)) = 75 := by decide +kernel
  have e30 : pyRound (stepG ['B'] ['S'] 0 * (50 : ℕ)) = 50 := by decide +kernel
  have e31 : pyRound (stepG ['B'] ['S'] 1 * (50 : ℕ)) = 200 := by decide +kernel
  have hp := serial_pairsAt (noisyOnsets noise) micro 1 2 T
  have hsr : (serialScan (noisyOnsets noise) micro).sr = 50 := rfl
  have hroot : ∀ y : ℝ, 0 ≤ y → (y ^ 3) ^ (1 / ((3 : ℕ) : ℝ)) = y := by
    intro y hy
    rw [one_div, Real.pow_rpow_inv_natCast hy (by norm_num)]
  have hle : ∀ x y : ℝ, 0 ≤ x → 0 ≤ y → x ≤ y ^ 3 → x ^ (1 / ((3 : ℕ) : ℝ)) ≤ y := by
    intro x y h0 hy h
    calc x ^ (1 / ((3 : ℕ) : ℝ)) ≤ (y ^ 3) ^ (1 / ((3 : ℕ) : ℝ)) := Real.rpow_le_rpow h0 h (by norm_num)
      _ = y := hroot y hy
  have hge : ∀ x y : ℝ, 0 ≤ y → y ^ 3 ≤ x → y ≤ x ^ (1 / ((3 : ℕ) : ℝ)) := by
    intro x y hy h
    calc y = (y ^ 3) ^ (1 / ((3 : ℕ) : ℝ)) := (hroot y hy).symm
      _ ≤ x ^ (1 / ((3 : ℕ) : ℝ)) := Real.rpow_le_rpow (by positivity) h (by norm_num)
  unfold Spec.coaOf Spec.coalescence
  rw [hp, hsr, if_neg (by simp)]
  simp only [List.map_cons, List.map_nil, List.prod_cons, List.prod_nil, List.length_cons, List.length_nil, mul_one,
    zero_add, Nat.reduceAdd]
  -- the three factors
  obtain ⟨-, a2, a3, a4⟩ := noisy_bounds hnoise ['A'] ['P'] (T + max 0 (pyRound (stepG ['A'] ['P'] node * (50 : ℕ))))
  obtain ⟨-, b2, b3, b4⟩ := noisy_bounds hnoise ['B'] ['P'] (T + max 0 (pyRound (stepG ['B'] ['P'] node * (50 : ℕ))))
  obtain ⟨-, c2, c3, c4⟩ := noisy_bounds hnoise ['B'] ['S'] (T + max 0 (pyRound (stepG ['B'] ['S'] node * (50 : ℕ))))
  generalize noisyOnsets noise ['A'] ['P'] (T + max 0 (pyRound (stepG ['A'] ['P'] node * (50 : ℕ)))) = a
    at a2 a3 a4 ⊢
  generalize noisyOnsets noise ['B'] ['P'] (T + max 0 (pyRound (stepG ['B'] ['P'] node * (50 : ℕ)))) = b
    at b2 b3 b4 ⊢
  generalize noisyOnsets noise ['B'] ['S'] (T + max 0 (pyRound (stepG ['B'] ['S'] node * (50 : ℕ)))) = c
    at c2 c3 c4 ⊢
  have hx : ∀ x : ℝ, 0 ≤ max (1 / 100 : ℝ) x := fun x => le_trans (by norm_num) (le_max_left _ _)
  have hx6 : ∀ x : ℝ, x ≤ 6 → max (1 / 100 : ℝ) x ≤ 6 := fun x h => max_le (by norm_num) h
  have hx1 : ∀ x : ℝ, x ≤ 1 → max (1 / 100 : ℝ) x ≤ 1 := fun x h => max_le (by norm_num) h
  have hprod : ∀ x y z X Y Z : ℝ, 0 ≤ x → 0 ≤ y → 0 ≤ z → x ≤ X → y ≤ Y → z ≤ Z → x * (y * z) ≤ X * (Y * Z) := by
    intro x y z X Y Z h1 h2 h3 h4 h5 h6
    exact mul_le_mul h4 (mul_le_mul h5 h6 h3 (h2.trans h5)) (mul_nonneg h2 h3) (h1.trans h4)
  refine ⟨?_, ?_, ?_⟩
  · apply hle _ _ (mul_nonneg (hx _) (mul_nonneg (hx _) (hx _))) (by norm_num)
    refine (hprod _ _ _ _ _ _ (hx _) (hx _) (hx _) (hx6 _ a2) (hx6 _ b2) (hx6 _ c2)).trans ?_
    norm_num
  · rintro ⟨rfl, rfl⟩
    rw [e11] at a3; rw [e21] at b3; rw [e31] at c3
    apply hge _ _ (by norm_num)
    have := hprod 5 5 5 _ _ _ (by norm_num) (by norm_num) (by norm_num) ((a3 (by norm_num)).trans (le_max_right (1 / 100) a))
      ((b3 (by norm_num)).trans (le_max_right (1 / 100) b)) ((c3 (by norm_num)).trans (le_max_right (1 / 100) c))
    refine le_trans ?_ this
    norm_num
  · intro h
    apply hle _ _ (mul_nonneg (hx _) (mul_nonneg (hx _) (hx _))) (by norm_num)
    have hone : a ≤ 1 ∨ b ≤ 1 ∨ c ≤ 1 := by
      by_contra hc
      push Not at hc
      obtain ⟨ha, hb, hc⟩ := hc
      have ha' := not_imp_comm.1 a4 (not_le.2 ha)
      have hb' := not_imp_comm.1 b4 (not_le.2 hb)
      have hc' := not_imp_comm.1 c4 (not_le.2 hc)
      have hnode : node = 0 ∨ node = 1 := by omega
      rcases hnode with rfl | rfl
      · rw [e10, e11] at ha'; rw [e20, e21] at hb'; rw [e30, e31] at hc'
        omega
      · rw [e11] at ha'; rw [e21] at hb'; rw [e31] at hc'
        omega
    rcases hone with h1 | h1 | h1
    · refine (hprod _ _ _ _ _ _ (hx _) (hx _) (hx _) (hx1 _ h1) (hx6 _ b2) (hx6 _ c2)).trans ?_
      norm_num
    · refine (hprod _ _ _ _ _ _ (hx _) (hx _) (hx _) (hx6 _ a2) (hx1 _ h1) (hx6 _ c2)).trans ?_
      norm_num
    · refine (hprod _ _ _ _ _ _ (hx _) (hx _) (hx _) (hx6 _ a2) (hx6 _ b2) (hx1 _ h1)).trans ?_
      norm_num

theorem noisy_peak (T : ℤ) :
    Spec.peakValue 2 (Spec.coaOf (serialScan (noisyOnsets noise) micro) stepG (noisyOnsets noise) (Spec.pairsAt (serialScan (noisyOnsets noise) micro) 1 2) T) ≤ 6 ∧
    (T = 153 →
      5 ≤ Spec.peakValue 2 (Spec.coaOf (serialScan (noisyOnsets noise) micro) stepG (noisyOnsets noise) (Spec.pairsAt (serialScan (noisyOnsets noise) micro) 1 2) T)) ∧
    (T ≠ 153 →
      Spec.peakValue 2 (Spec.coaOf (serialScan (noisyOnsets noise) micro) stepG (noisyOnsets noise) (Spec.pairsAt (serialScan (noisyOnsets noise) micro) 1 2) T) ≤ 7 / 2) := by
  refine ⟨?_, ?_, ?_⟩
  · exact ciSup_le fun k => (noisy_coa hnoise T k k.2).1
  · intro h
    exact ((noisy_coa hnoise T 1 (by norm_num)).2.1 ⟨rfl, h⟩).trans (le_peakValue _ (by norm_num))
  · intro h
    exact ciSup_le fun k => (noisy_coa hnoise T k k.2).2.2 (fun h' => h h'.2)

/-- Whatever the noise: exactly one event, at the origin time, at a node that explains the three arrivals. -/
example (jul : ℤ → ℕ) (hjul : ∀ d, jul d ≠ jul (d + 1)) (order : Availability.Table → List ℤ) (uid : ℚ → ℕ) :
    pipeline jul order Spec.newDir ((serialScan (noisyOnsets noise) micro).call 2 1 7 [] 1 false) ⟨1 / 2, 1, false⟩
      (.static 4) id none 1 (fun _ => none) uid ((serialScan (noisyOnsets noise) micro).locateOutcome (1 / 2))
      (fun _ => .fine) 2 5 = .located ⟨[(⟨uid (153 / 50), 153 / 50⟩, 153 / 50)], true⟩ ∧
    ∃ node < 2, ∀ sp ∈ Spec.migratedPairs [['P'], ['S']] [['A'], ['B']] exAv,
      153 + pyRound (stepG sp.1 sp.2 node * (50 : ℕ)) = 153 + pyRound (stepG sp.1 sp.2 1 * (50 : ℕ)) := by
  have hsteps : Spec.steps ((serialScan (noisyOnsets noise) micro).call 2 1 7 [] 1 false) = 3 := by
    have h1 : Detect.adjustedEnd ((serialScan (noisyOnsets noise) micro).call 2 1 7 [] 1 false).cfg 7 = 7 := by
      unfold Detect.adjustedEnd
      rw [if_neg (by decide +kernel)]
    have h2 : Spec.steps ((serialScan (noisyOnsets noise) micro).call 2 1 7 [] 1 false) = ⌈((7 : ℚ) - 1) / 2⌉.toNat := by
      unfold Spec.steps
      show ⌈(Detect.adjustedEnd ((serialScan (noisyOnsets noise) micro).call 2 1 7 [] 1 false).cfg 7 - 1) / 2⌉.toNat = _
      rw [h1]
    rw [h2]
    decide +kernel
  have htie := fun ts (hts : (0 : ℚ) ≤ ts) => fun z => C22_usual_rates stepWindows stepSetup.win 4 (by norm_num) 50
    (by norm_num) (Or.inl ⟨20, rfl⟩) ts hts z
  obtain ⟨node, xyz, h1, h2, h3, -, h5⟩ := C142_noisy_earthquake_partial (serialScan (noisyOnsets noise) micro) stepG
    (serial_setup _ _ _ _ (fun _ => exAv_le)) (noisyOnsets noise) (1 / 1000000) micro_floats 2 1 7 [] 1 false _ rfl (by norm_num) 50
    (by show (1 : ℚ) = ((50 : ℤ) : ℚ) / ((50 : ℕ) : ℚ); norm_num) 100 (by norm_num)
    (by show (2 : ℚ) * ((50 : ℕ) : ℚ) = ((100 : ℕ) : ℚ); norm_num) (by norm_num)
    (by
      unfold Detect.adjustedEnd
      rw [if_neg (by decide +kernel)]
      norm_num) (htie 2 (by norm_num)) jul hjul order ⟨1 / 2, 1, false⟩ (by norm_num) (by norm_num) 50
    (by show 2 * (1 / 2 : ℚ) * ((50 : ℕ) : ℚ) = ((50 : ℕ) : ℚ); norm_num) (htie (4 * (1 / 2)) (by norm_num)) 4 none 1 2 5
    ⟨50, by show (1 : ℚ) = ((50 : ℕ) : ℚ) / ((50 : ℕ) : ℚ); norm_num⟩
    ⟨100, by show (2 : ℚ) = ((100 : ℤ) : ℚ) / ((50 : ℕ) : ℚ); norm_num⟩
    ⟨250, by show (5 : ℚ) = ((250 : ℤ) : ℚ) / ((50 : ℕ) : ℚ); norm_num⟩ (by norm_num)
    (by rw [hsteps]; norm_num) (fun _ => none) (fun _ _ => rfl) uid (fun _ => .fine) (fun _ => rfl)
    (serial_reads (noisyOnsets noise) micro) 1 (show 1 < 2 by norm_num) 153 5 1 6 0
    [(['A'], ['P']), (['B'], ['P']), (['B'], ['S'])] (by
      have : ∀ sp ∈ [((['A'] : Compute.Str), (['P'] : Compute.Str)), (['B'], ['P']), (['B'], ['S'])], ∀ node < 2,
        0 ≤ stepG sp.1 sp.2 node := by decide +kernel
      exact this) (noisy_source hnoise)
    (by rw [hsteps]; norm_num) 153 153 153
    (by
      refine ⟨by rw [hsteps]; norm_num, by norm_num, ?_, ?_, ?_, ?_⟩
      · intro T' _ _ h1 h2
        have : T' = 153 := by omega
        show _ ≤ Spec.peakValue 2 _
        refine le_trans ?_ ((noisy_peak hnoise T').2.1 this)
        norm_num
      · intro T' _ _ h
        have : T' ≠ 153 := by omega
        show Spec.peakValue 2 _ < _
        refine lt_of_le_of_lt ((noisy_peak hnoise T').2.2 this) ?_
        norm_num
      · intro T' _ _ h
        show Spec.peakValue 2 _ + _ < Spec.peakValue 2 _
        refine lt_of_lt_of_le ?_ ((noisy_peak hnoise 153).2.1 rfl)
        refine lt_of_le_of_lt (add_le_add_left ((noisy_peak hnoise T').2.2 h) _) ?_
        norm_num
      · show Spec.peakValue 2 _ + _ ≤ _
        refine le_trans (add_le_add_left (noisy_peak hnoise 153).1 _) ?_
        norm_num)
    (by norm_num)
    (by show (2 : ℚ) ≤ ((153 : ℤ) : ℚ) / ((50 : ℕ) : ℚ); norm_num)
    (by show ((153 : ℤ) : ℚ) / ((50 : ℕ) : ℚ) < 5; norm_num) (by norm_num) (by rw [hsteps]; norm_num)
    (serial_samePairs _ _ 1 2 _ _ _) (serial_pairsAt _ _ 1 2 _)
    (by
      have : ∀ xyz ∈ Grid.gridXyz stepGrid, |xyz 0| ≤ 2147 ∧ |xyz 1| ≤ 2147 ∧
          |xyz 2 * (1000 * 1)| ≤ 2 ^ 31 - 1 := by decide +kernel
      exact this)
    (fun _ _ _ _ q _ _ _ r hr => by cases hr)
  have he : ((153 : ℤ) : ℚ) / (serialScan (noisyOnsets noise) micro).sr = 153 / 50 := by
    show ((153 : ℤ) : ℚ) / ((50 : ℕ) : ℚ) = 153 / 50
    norm_num
  rw [he] at h5
  refine ⟨h5, node, h1, ?_⟩
  intro sp hsp
  have := all_explained (noisy_source hnoise) (by norm_num) h3 sp (by rwa [← exPairs])
  have h6 : (153 + pyRound (stepG sp.1 sp.2 node * (50 : ℕ))) - (153 + pyRound (stepG sp.1 sp.2 1 * (50 : ℕ))) = 0 :=
    abs_nonpos_iff.1 this
  omega

end

end QM
