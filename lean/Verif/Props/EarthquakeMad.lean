import Verif.Props.EarthquakeDynamic

/-!
# C117 with the MAD threshold: from an earthquake to one located event
-/

namespace QM
open QM.Pads QM.ComputeStep QM.EndToEnd QM.DetectRuns QM.ScanMseed QM.Pipeline QM.Trigger QM.DetectTrigger QM.Smooth

/-! ## Specification -/

/-- In each window of `w` samples between `A` and `B`, whichever level between `lo` and `hi` is chosen, more than half of
the samples are in the burst or have a trigger value that is more than `d` away from it, by more than what is lost when
values are rounded and stored. -/
def Spec.SpreadBackground (norm : Bool) (d lo hi η : ℚ) (w nNodes : ℕ) (f : ℤ → ℕ → ℝ) (A B U V : ℤ) : Prop :=
  ∀ (j : ℕ) (m : ℚ), A + (j + 1) * w ≤ B → lo ≤ m → m ≤ hi →
    w < 2 * {i : ℕ | i < w ∧ ((U ≤ A + j * w + i ∧ A + j * w + i ≤ V) ∨
      ((d + 1 / 200000 + η : ℚ) : ℝ) < |Spec.peakLevel norm nNodes (f (A + j * w + i)) - m|)}.ncard

/-! ## What is stored -/

/-- The stored samples of each window are spread out if the coalescence is. -/
theorem stored_spread {c : Scan} {f : ℤ → ℕ → ℝ} {norm : Bool} {level lo hi d η ucf : ℚ} {a U V T : ℤ} {N w j : ℕ}
    (hw0 : 0 < w) (hf : ∀ T n, 0 ≤ f T n) (F : Spec.Floats c.fl η) (hsr : 0 < c.sr)
    (hB : Spec.LevelBurst norm level lo hi η (c.g.count 0 * c.g.count 1 * c.g.count 2) f a (a + N) U V T)
    (hlev : hi + d ≤ level)
    (hspread : Spec.SpreadBackground norm d lo hi η w (c.g.count 0 * c.g.count 1 * c.g.count 2) f a (a + N) U V)
    {S : List (ℚ × Sample)}
    (hreg : Spec.Regular (S.map (storedRow ucf)) ((a : ℚ) / c.sr) (1 / (c.sr : ℚ)))
    (hlen : (S.map (storedRow ucf)).length = N) (hN : N = j * w)
    (hS : ∀ p ∈ S, ∃ (T' : ℤ) (q : Sample), a ≤ T' ∧ T' < a + N ∧ p = ((T' : ℚ) / c.sr, q) ∧
      Spec.SampleOf c (f T') q)
    (hburst : ∀ r ∈ S.map (storedRow ucf), (U : ℚ) / c.sr ≤ r.dt → r.dt ≤ (V : ℚ) / c.sr → level ≤ r.trig norm) :
    ∀ i < (S.map (storedRow ucf)).length,
      Spec.SpreadOut d lo hi ((((S.map (storedRow ucf)).drop (i / w * w)).take w).map (Row.trig norm)) := by
  intro i hi' m hm1 hm2
  have hη := F.pos
  have hsr' : (0 : ℚ) < c.sr := by exact_mod_cast hsr
  have hdiv : ∀ x y : ℤ, (x : ℚ) / c.sr ≤ (y : ℚ) / c.sr ↔ x ≤ y := fun x y => by
    rw [div_le_div_iff_of_pos_right hsr']; exact_mod_cast Iff.rfl
  rw [hlen] at hi'
  have hj : i / w < j := Nat.div_lt_of_lt_mul (by rw [mul_comm, ← hN]; exact hi')
  have hjw : (i / w + 1) * w ≤ N := by rw [hN]; exact Nat.mul_le_mul_right _ hj
  have hspr := hspread (i / w) m (by
    have : (((i / w + 1) * w : ℕ) : ℤ) ≤ N := by exact_mod_cast hjw
    push_cast at this ⊢
    linarith) hm1 hm2
  have hbase : ((i / w : ℕ) : ℤ) * w = ((i / w * w : ℕ) : ℤ) := by push_cast; ring
  simp only [hbase] at hspr
  have hbw : i / w * w + w ≤ N := by rw [Nat.add_mul, Nat.one_mul] at hjw; exact hjw
  clear hbase
  generalize i / w * w = b at hspr hbw ⊢
  -- the samples of the window
  have hC : (((S.map (storedRow ucf)).drop b).take w).length = w := by
    rw [List.length_take, List.length_drop, hlen]; omega
  obtain ⟨C, hCd⟩ : ∃ C, C = (((S.map (storedRow ucf)).drop b).take w).map (Row.trig norm) := ⟨_, rfl⟩
  have hClen : C.length = w := by rw [hCd, List.length_map, hC]
  have key : ∀ l : ℕ, l < w → ((U ≤ a + b + l ∧ a + b + l ≤ V) ∨
      ((d + 1 / 200000 + η : ℚ) : ℝ) <
        |Spec.peakLevel norm (c.g.count 0 * c.g.count 1 * c.g.count 2) (f (a + b + l)) - m|) →
      ∃ v, C[l]? = some v ∧ d ≤ |v - m| := by
    intro l hl hdev
    have hl' : b + l < S.length := by rw [List.length_map] at hlen; omega
    have hp : S[b + l] ∈ S := List.getElem_mem hl'
    have hget : (S.map (storedRow ucf))[b + l]? = some (storedRow ucf S[b + l]) := by
      rw [List.getElem?_map, List.getElem?_eq_getElem hl']; rfl
    have hCl : C[l]? = some ((storedRow ucf S[b + l]).trig norm) := by
      rw [hCd, List.getElem?_map, List.getElem?_take, if_pos hl, List.getElem?_drop, hget]; rfl
    refine ⟨_, hCl, ?_⟩
    have hdt := hreg _ _ hget
    obtain ⟨T', q, h1, h2, h3, h4⟩ := hS _ hp
    have hT' : T' = a + b + l := by
      have h5 : (storedRow ucf S[b + l]).dt = (T' : ℚ) / c.sr := by rw [h3]; rfl
      rw [h5] at hdt
      have h6 : (T' : ℚ) = a + (b + l : ℕ) := by
        have : (T' : ℚ) / c.sr = (a + ((b + l : ℕ) : ℚ)) / c.sr := by rw [hdt]; ring
        exact (div_left_inj' hsr'.ne').mp this
      have h7 : T' = a + ((b + l : ℕ) : ℤ) := by exact_mod_cast h6
      rw [h7]; push_cast; ring
    by_cases hin : U ≤ a + b + l ∧ a + b + l ≤ V
    · have h5 := hburst _ (List.mem_of_getElem? hget)
        (by rw [h3]; show (U : ℚ) / c.sr ≤ (T' : ℚ) / c.sr; rw [hdiv, hT']; exact hin.1)
        (by rw [h3]; show (T' : ℚ) / c.sr ≤ (V : ℚ) / c.sr; rw [hdiv, hT']; exact hin.2)
      rw [le_abs]; left; linarith
    · have hdev := hdev.resolve_left hin
      obtain ⟨hpos, -, h5, h6, -⟩ := sample_facts h4 (hf T') F norm
      have hst := abs_le.mp (stored_level ucf norm S[b + l] (by rw [h3]; exact hpos.1) (by rw [h3]; exact hpos.2))
      obtain ⟨g1, g2⟩ := hB.back T' h1 h2 (by rw [hT']; omega)
      have hth := hB.threshold
      have hhi := hB.higher
      have hlt : (lo + 1 / 200000 + η : ℚ) < hi - 1 / 200000 - η := by exact_mod_cast lt_of_le_of_lt g1 g2
      have g3 := h6 (hi - 1 / 200000) (by linarith) g2
      rw [h3] at hst
      simp only at hst
      rw [min_eq_left (by linarith : Spec.level norm q ≤ 21474), ← h3] at hst
      show d ≤ |Spec.trigValue norm (storedRow ucf S[b + l]) - m|
      rw [← hT', lt_abs] at hdev
      rw [le_abs]
      rcases hdev with hdev | hdev
      · left
        have h7 : ((m + d + 1 / 200000 + η : ℚ) : ℝ) < Spec.peakLevel norm (c.g.count 0 * c.g.count 1 * c.g.count 2) (f T') := by
          push_cast at hdev ⊢; linarith
        have h8 : m + d + 1 / 200000 + η < hi - 1 / 200000 - η := by exact_mod_cast h7.trans g2
        have h9 := h5 (m + d + 1 / 200000) (by linarith) h7.le
        linarith [hst.1]
      · right
        have h7 : Spec.peakLevel norm (c.g.count 0 * c.g.count 1 * c.g.count 2) (f T') < ((m - d - 1 / 200000 - η : ℚ) : ℝ) := by
          push_cast at hdev ⊢; linarith
        have h8 : lo + 1 / 200000 + η < m - d - 1 / 200000 - η := by exact_mod_cast lt_of_le_of_lt g1 h7
        by_cases hbig : m - d - 1 / 200000 ≤ 21475
        · have h9 := h6 (m - d - 1 / 200000) hbig h7
          linarith [hst.2]
        · linarith [hst.2]
  rw [← hCd, hClen]
  refine lt_of_lt_of_le hspr (Nat.mul_le_mul_left 2 ?_)
  have hC' : C = (List.range w).map (fun l => C.getD l 0) := by
    apply List.ext_getElem?
    intro l
    rw [List.getElem?_map]
    by_cases hl : l < w
    · rw [List.getElem?_range hl, List.getElem?_eq_getElem (by omega), Option.map_some, List.getD_eq_getElem _ _ (by omega)]
    · rw [List.getElem?_eq_none (by omega), List.getElem?_eq_none (by simpa using hl)]; rfl
  have hcard : (C.filter (fun v => decide (d ≤ |v - m|))).length =
      ((Finset.range w).filter (fun l => d ≤ |C.getD l 0 - m|)).card := by
    conv_lhs => rw [hC']
    rw [List.filter_map, List.length_map]
    rfl
  rw [hcard, ← Set.ncard_coe_finset]
  apply Set.ncard_le_ncard _ (Finset.finite_toSet _)
  intro l hl
  obtain ⟨v, hv, hd⟩ := key l hl.1 hl.2
  rw [Finset.coe_filter, Set.mem_setOf_eq]
  refine ⟨Finset.mem_range.mpr hl.1, ?_⟩
  rw [List.getD_eq_getElem?_getD, hv]
  exact hd

/-! ## The claim -/

/-- One burst of coalescence in a spread out background gives one event, at the largest sample and at the node reported
there, when the threshold follows the MAD of each window. -/
theorem one_event_mad (c : Scan) (G : Compute.Str → Compute.Str → ℕ → ℚ)
    (S : Spec.Setup c G)
    (O : Compute.Str → Compute.Str → ℤ → ℝ) (η : ℚ) (F : Spec.Floats c.fl η)
    -- the call of detect
    (timestep start stop : ℚ) (cols : List String) (ucf : ℚ) (cw : Bool) (k : Call)
    (hk : k = c.call timestep start stop cols ucf cw) (hucf : 0 < ucf) (a : ℤ) (hstart : start = a / c.sr)
    (n : ℕ) (hn0 : 0 < n) (hn : timestep * c.sr = n) (hday : timestep ≤ 86400)
    (hrun : start < Detect.adjustedEnd k.cfg stop)
    (htie : ∀ z : ℤ, (c.pads timestep).1 * c.sr ≠ z + 1 / 2)
    (jul : ℤ → ℕ) (hjul : ∀ d, jul d ≠ jul (d + 1)) (order : Availability.Table → List ℤ)
    -- the calls of trigger and locate
    (cfg : Trigger.Cfg) (hmw : 0 < cfg.mw) (hmei : 0 ≤ cfg.mei) (n' : ℕ) (hn' : 2 * cfg.mw * c.sr = n')
    (htie' : ∀ z : ℤ, (c.pads (4 * cfg.mw)).1 * c.sr ≠ z + 1 / 2)
    (window mult : ℚ) (hmult : 1 ≤ mult) (w : ℕ) (hw : 1 ≤ window * c.sr) (hwn : w = ⌊window * c.sr⌋.toNat)
    (region : Option Region) (pad s e : ℚ)
    (hald : ∃ i : ℤ, 86400 = i * (w * (1 / (c.sr : ℚ)))) (halk : ∃ i : ℤ, start = i * (w * (1 / (c.sr : ℚ))))
    (hals : ∃ i : ℤ, s = i * (w * (1 / (c.sr : ℚ)))) (halp : ∃ i : ℕ, pad = i * (w * (1 / (c.sr : ℚ))))
    (halr : ∃ j : ℕ, Spec.steps k * n = j * w)
    (he : ∃ i : ℤ, e = i / (c.sr : ℚ))
    (hfrom : start ≤ s) (hto : e ≤ start + timestep * (Spec.steps k : ℚ))
    (events : TriggerFiles.Files) (hfresh : ∀ d, TriggerFiles.dayNum s ≤ d → events d = none) (uid : ℚ → ℕ)
    (later : Locate.Trig → Locate.Later) (hlater : ∀ x, later x = .fine)
    (R : Spec.Reads c O start timestep cfg.mw)
    -- the burst
    (lo hi d : ℚ) (T U V : ℤ) (P : List (Compute.Str × Compute.Str))
    (hB : Spec.LevelBurst cfg.norm (hi + 14826 / 10000 * (hi - lo) * mult) lo hi η c.L.nNodes (Spec.coaOf c G O (Spec.pairsAt c start timestep)) a (a + Spec.steps k * n) U V T)
    (hshort : 2 * (V - U + 1) < w)
    (hspread : Spec.SpreadBackground cfg.norm d lo hi η w c.L.nNodes
      (Spec.coaOf c G O (Spec.pairsAt c start timestep)) a (a + Spec.steps k * n) U V)
    (hd : d ≤ hi - lo) (hwide : hi < lo + 14826 / 10000 * d * mult)
    (hlong : ((V - U : ℤ) : ℚ) / c.sr + (cfg.mei + cfg.mw) + 1 / (c.sr : ℚ) + w * (1 / (c.sr : ℚ)) ≤ pad)
    (h1 : s ≤ (T : ℚ) / c.sr) (h2 : (T : ℚ) / c.sr < e)
    (hleft : a ≤ T - n') (hright : T + n' < a + Spec.steps k * n)
    (hP : Spec.SamePairs c start timestep cfg.mw n' T P)
    (xyz : Grid.V3 ℚ)
    (hxyz : ∀ o, Spec.ReportsPeak c.g (Spec.coaOf c G O (Spec.pairsAt c start timestep) T) o → o.xyz = xyz) (x y z : ℚ) (hproj : c.proj xyz = (x, y, z))
    (hx : |x| ≤ 2147) (hy : |y| ≤ 2147) (hz : |z * (1000 * ucf)| ≤ 2 ^ 31 - 1)
    (hreg : ∀ q : Sample, q.x = x → q.y = y → q.z = z → Spec.WellInside ucf region q) :
    (∃ res ev, detectTrigger jul order Spec.newDir k cfg (.mad window mult) id region pad s e = some (res, none) ∧
      res.flatMap Prod.snd = [ev] ∧ ev.coaTime = (T : ℚ) / c.sr ∧
      |ev.x - x| ≤ 1 / 2000000 ∧ |ev.y - y| ≤ 1 / 2000000 ∧ |ev.z - z| ≤ 1 / (2000 * ucf)) ∧
    pipeline jul order Spec.newDir k cfg (.mad window mult) id region pad events uid (c.locateOutcome cfg.mw)
        later s e =
      .located ⟨[(⟨uid ((T : ℚ) / c.sr), (T : ℚ) / c.sr⟩, (T : ℚ) / c.sr)], true⟩ := by
  have hw0 : 0 < w := windowSamples_pos (m := .mad window mult) (sr := c.sr) ⟨hw, hwn⟩
  have hrange : 0 ≤ hi - lo := by
    by_contra hc
    nlinarith
  have hlev : hi + d ≤ hi + 14826 / 10000 * (hi - lo) * mult := by nlinarith
  obtain ⟨j, hj⟩ := halr
  refine one_event_dynamic c G S O η F timestep start stop cols ucf cw k hk hucf a hstart n hn0 hn hday hrun htie jul hjul
    order cfg hmw hmei n' hn' htie' (.mad window mult) w ⟨hw, hwn⟩ region pad s e hald halk hals halp ⟨j, hj⟩ he hfrom
    hto events hfresh uid later hlater R _ lo hi T U V P hB hshort ?_ hlong h1 h2 hleft hright hP xyz hxyz x y z hproj hx
    hy hz hreg
  rintro D rfl hD2 hD3 hD4 hD5 hD6 hD7
  refine thresholds_mad cfg.norm window mult c.sr w hw hwn (by linarith) _ _ _ lo hi d hD4 hD5 ?_ hwide
  rw [S.nodes] at hB hspread
  have hcast : ((Spec.steps k * n : ℕ) : ℤ) = (Spec.steps k : ℤ) * n := by push_cast; ring
  rw [← hcast] at hB hspread hD7
  exact stored_spread hw0 (coaOf_nonneg c G O _) F S.rate hB hlev hspread hD2 hD3 hj hD7 hD6

private theorem le_peakValue'' {n : ℕ} (f : ℕ → ℝ) {k : ℕ} (hk : k < n) : f k ≤ Spec.peakValue n f :=
  le_ciSup (f := fun k : Fin n => f k) (Set.finite_range _).bddAbove ⟨k, hk⟩

/-- **C117** (partial), with the MAD threshold.  If the onset functions are those of an earthquake at a grid node, in a
background that is spread out enough for the multiplier, then `detect`, `trigger` and `locate` report exactly one event:
trigger gives it the origin time and, up to what is lost in the files, the coordinates of the node, and locate writes
one event with this origin time.  Missing: as for C117 with a threshold of a multiple of the median. -/
theorem C117_mad_partial (c : Scan) (G : Compute.Str → Compute.Str → ℕ → ℚ)
    (S : Spec.Setup c G)
    (O : Compute.Str → Compute.Str → ℤ → ℝ) (η : ℚ) (F : Spec.Floats c.fl η)
    -- the call of detect
    (timestep start stop : ℚ) (cols : List String) (ucf : ℚ) (cw : Bool) (k : Call)
    (hk : k = c.call timestep start stop cols ucf cw) (hucf : 0 < ucf) (a : ℤ) (hstart : start = a / c.sr)
    (n : ℕ) (hn0 : 0 < n) (hn : timestep * c.sr = n) (hday : timestep ≤ 86400)
    (hrun : start < Detect.adjustedEnd k.cfg stop)
    (htie : ∀ z : ℤ, (c.pads timestep).1 * c.sr ≠ z + 1 / 2)
    (jul : ℤ → ℕ) (hjul : ∀ d, jul d ≠ jul (d + 1)) (order : Availability.Table → List ℤ)
    -- the calls of trigger and locate
    (cfg : Trigger.Cfg) (hmw : 0 < cfg.mw) (hmei : 0 ≤ cfg.mei) (n' : ℕ) (hn' : 2 * cfg.mw * c.sr = n')
    (htie' : ∀ z : ℤ, (c.pads (4 * cfg.mw)).1 * c.sr ≠ z + 1 / 2)
    (window mult : ℚ) (hmult : 1 ≤ mult) (w : ℕ) (hw : 1 ≤ window * c.sr) (hwn : w = ⌊window * c.sr⌋.toNat)
    (region : Option Region) (pad s e : ℚ)
    (hald : ∃ i : ℤ, 86400 = i * (w * (1 / (c.sr : ℚ)))) (halk : ∃ i : ℤ, start = i * (w * (1 / (c.sr : ℚ))))
    (hals : ∃ i : ℤ, s = i * (w * (1 / (c.sr : ℚ)))) (halp : ∃ i : ℕ, pad = i * (w * (1 / (c.sr : ℚ))))
    (halr : ∃ j : ℕ, Spec.steps k * n = j * w)
    (he : ∃ i : ℤ, e = i / (c.sr : ℚ))
    (hfrom : start ≤ s) (hto : e ≤ start + timestep * (Spec.steps k : ℚ))
    (events : TriggerFiles.Files) (hfresh : ∀ d, TriggerFiles.dayNum s ≤ d → events d = none) (uid : ℚ → ℕ)
    (later : Locate.Trig → Locate.Later) (hlater : ∀ x, later x = .fine)
    (R : Spec.Reads c O start timestep cfg.mw)
    -- the earthquake
    (source : ℕ) (hsrc : source < c.L.nNodes) (lo hi d : ℚ) (T U V : ℤ) (P : List (Compute.Str × Compute.Str))
    (hG : ∀ sp ∈ P, ∀ node < c.L.nNodes, 0 ≤ G sp.1 sp.2 node)
    (hq : Spec.SourceAt P O (fun s p k => pyRound (G s p k * c.sr)) source T)
    (hr : Spec.Resolved P (fun s p k => pyRound (G s p k * c.sr)) c.L.nNodes source)
    (hB : Spec.LevelBurst cfg.norm (hi + 14826 / 10000 * (hi - lo) * mult) lo hi η c.L.nNodes (Spec.coaOf c G O (Spec.pairsAt c start timestep)) a (a + Spec.steps k * n) U V T)
    (hshort : 2 * (V - U + 1) < w)
    (hspread : Spec.SpreadBackground cfg.norm d lo hi η w c.L.nNodes
      (Spec.coaOf c G O (Spec.pairsAt c start timestep)) a (a + Spec.steps k * n) U V)
    (hd : d ≤ hi - lo) (hwide : hi < lo + 14826 / 10000 * d * mult)
    (hlong : ((V - U : ℤ) : ℚ) / c.sr + (cfg.mei + cfg.mw) + 1 / (c.sr : ℚ) + w * (1 / (c.sr : ℚ)) ≤ pad)
    (h1 : s ≤ (T : ℚ) / c.sr) (h2 : (T : ℚ) / c.sr < e)
    (hleft : a ≤ T - n') (hright : T + n' < a + Spec.steps k * n)
    (hP : Spec.SamePairs c start timestep cfg.mw n' T P)
    (xyz : Grid.V3 ℚ) (hxyz : (Grid.gridXyz c.g)[source]? = some xyz) (x y z : ℚ) (hproj : c.proj xyz = (x, y, z))
    (hx : |x| ≤ 2147) (hy : |y| ≤ 2147) (hz : |z * (1000 * ucf)| ≤ 2 ^ 31 - 1)
    (hreg : ∀ q : Sample, q.x = x → q.y = y → q.z = z → Spec.WellInside ucf region q) :
    (∃ res ev, detectTrigger jul order Spec.newDir k cfg (.mad window mult) id region pad s e = some (res, none) ∧
      res.flatMap Prod.snd = [ev] ∧ ev.coaTime = (T : ℚ) / c.sr ∧
      |ev.x - x| ≤ 1 / 2000000 ∧ |ev.y - y| ≤ 1 / 2000000 ∧ |ev.z - z| ≤ 1 / (2000 * ucf)) ∧
    pipeline jul order Spec.newDir k cfg (.mad window mult) id region pad events uid (c.locateOutcome cfg.mw)
        later s e =
      .located ⟨[(⟨uid ((T : ℚ) / c.sr), (T : ℚ) / c.sr⟩, (T : ℚ) / c.sr)], true⟩ := by
  refine one_event_mad c G S O η F timestep start stop cols ucf cw k hk hucf a hstart n hn0 hn hday hrun htie jul hjul
    order cfg hmw hmei n' hn' htie' window mult hmult w hw hwn region pad s e hald halk hals halp halr he hfrom hto events
    hfresh uid later hlater R lo hi d T U V P hB hshort hspread hd hwide hlong h1 h2 hleft hright hP xyz ?_ x y z hproj hx hy hz hreg
  have hsr' : (0 : ℚ) < c.sr := by exact_mod_cast S.rate
  intro o ho
  have hPT := hP.detect T (by omega) (by omega)
  have ho : Spec.ReportsPeak c.g (fun node => Spec.coalescence P O (fun s p k => pyRound (G s p k * c.sr)) node T) o := by
    convert ho using 1
    funext node
    unfold Spec.coaOf
    rw [hPT, if_neg hP.some]
  -- the largest sample is at the source
  obtain ⟨m, hm, e1, -, e3⟩ := ho.node
  have hms : m = source := by
    by_contra hms
    have h3 := source_larger hP.some
      (fun sp hsp node hnode => by
        rw [← pyRound_int 0]
        apply pyRound_mono
        push_cast
        exact mul_nonneg (hG sp hsp node hnode) hsr'.le) hsrc hq hr m
      (by rw [S.nodes]; exact hm) T (Or.inl hms)
    have h4 := ho.largest source (by rw [← S.nodes]; exact hsrc)
    rw [e1] at h4
    exact absurd h3 (not_lt.mpr h4)
  rw [hms, hxyz] at e3
  exact (Option.some.inj e3).symm

/-- **C142** (partial), with the MAD threshold.  Missing: as for C117 with this threshold. -/
theorem C142_mad_partial (c : Scan) (G : Compute.Str → Compute.Str → ℕ → ℚ)
    (S : Spec.Setup c G)
    (O : Compute.Str → Compute.Str → ℤ → ℝ) (η : ℚ) (F : Spec.Floats c.fl η)
    -- the call of detect
    (timestep start stop : ℚ) (cols : List String) (ucf : ℚ) (cw : Bool) (k : Call)
    (hk : k = c.call timestep start stop cols ucf cw) (hucf : 0 < ucf) (a : ℤ) (hstart : start = a / c.sr)
    (n : ℕ) (hn0 : 0 < n) (hn : timestep * c.sr = n) (hday : timestep ≤ 86400)
    (hrun : start < Detect.adjustedEnd k.cfg stop)
    (htie : ∀ z : ℤ, (c.pads timestep).1 * c.sr ≠ z + 1 / 2)
    (jul : ℤ → ℕ) (hjul : ∀ d, jul d ≠ jul (d + 1)) (order : Availability.Table → List ℤ)
    -- the calls of trigger and locate
    (cfg : Trigger.Cfg) (hmw : 0 < cfg.mw) (hmei : 0 ≤ cfg.mei) (n' : ℕ) (hn' : 2 * cfg.mw * c.sr = n')
    (htie' : ∀ z : ℤ, (c.pads (4 * cfg.mw)).1 * c.sr ≠ z + 1 / 2)
    (window mult : ℚ) (hmult : 1 ≤ mult) (w : ℕ) (hw : 1 ≤ window * c.sr) (hwn : w = ⌊window * c.sr⌋.toNat)
    (region : Option Region) (pad s e : ℚ)
    (hald : ∃ i : ℤ, 86400 = i * (w * (1 / (c.sr : ℚ)))) (halk : ∃ i : ℤ, start = i * (w * (1 / (c.sr : ℚ))))
    (hals : ∃ i : ℤ, s = i * (w * (1 / (c.sr : ℚ)))) (halp : ∃ i : ℕ, pad = i * (w * (1 / (c.sr : ℚ))))
    (halr : ∃ j : ℕ, Spec.steps k * n = j * w)
    (he : ∃ i : ℤ, e = i / (c.sr : ℚ))
    (hfrom : start ≤ s) (hto : e ≤ start + timestep * (Spec.steps k : ℚ))
    (events : TriggerFiles.Files) (hfresh : ∀ d, TriggerFiles.dayNum s ≤ d → events d = none) (uid : ℚ → ℕ)
    (later : Locate.Trig → Locate.Later) (hlater : ∀ x, later x = .fine)
    (R : Spec.Reads c O start timestep cfg.mw)
    -- the earthquake
    (source : ℕ) (hsrc : source < c.L.nNodes) (T : ℤ) (A B C : ℝ) (tol : ℤ) (P : List (Compute.Str × Compute.Str))
    (hG : ∀ sp ∈ P, ∀ node < c.L.nNodes, 0 ≤ G sp.1 sp.2 node)
    (hq : Spec.NoisySource P O (fun s p k => pyRound (G s p k * c.sr)) source T A B C tol)
    (hT : a ≤ T ∧ T < a + Spec.steps k * n)
    -- the burst of coalescence
    (lo hi d : ℚ) (T' U V : ℤ)
    (hB : Spec.LevelBurst cfg.norm (hi + 14826 / 10000 * (hi - lo) * mult) lo hi η c.L.nNodes (Spec.coaOf c G O (Spec.pairsAt c start timestep)) a (a + Spec.steps k * n) U V T')
    (hshort : 2 * (V - U + 1) < w)
    (hspread : Spec.SpreadBackground cfg.norm d lo hi η w c.L.nNodes
      (Spec.coaOf c G O (Spec.pairsAt c start timestep)) a (a + Spec.steps k * n) U V)
    (hd : d ≤ hi - lo) (hwide : hi < lo + 14826 / 10000 * d * mult)
    (hlong : ((V - U : ℤ) : ℚ) / c.sr + (cfg.mei + cfg.mw) + 1 / (c.sr : ℚ) + w * (1 / (c.sr : ℚ)) ≤ pad)
    (h1 : s ≤ (T' : ℚ) / c.sr) (h2 : (T' : ℚ) / c.sr < e)
    (hleft : a ≤ T' - n') (hright : T' + n' < a + Spec.steps k * n)
    (hP : Spec.SamePairs c start timestep cfg.mw n' T' P) (hPT : Spec.pairsAt c start timestep T = P)
    -- the grid can be stored, and the region has the nodes that explain the arrivals
    (hgrid : ∀ xyz ∈ Grid.gridXyz c.g, |(c.proj xyz).1| ≤ 2147 ∧ |(c.proj xyz).2.1| ≤ 2147 ∧
      |(c.proj xyz).2.2 * (1000 * ucf)| ≤ 2 ^ 31 - 1)
    (hreg : ∀ (node : ℕ) (xyz : Grid.V3 ℚ), (Grid.gridXyz c.g)[node]? = some xyz →
      A ^ P.length
        ≤ B ^ Spec.unexplained P (fun s p k => pyRound (G s p k * c.sr)) source T node T' tol
          * C ^ (P.length
            - Spec.unexplained P (fun s p k => pyRound (G s p k * c.sr)) source T node T' tol) →
      ∀ q : Sample, q.x = (c.proj xyz).1 → q.y = (c.proj xyz).2.1 → q.z = (c.proj xyz).2.2 →
        Spec.WellInside ucf region q) :
    ∃ (node : ℕ) (xyz : Grid.V3 ℚ), node < c.L.nNodes ∧ (Grid.gridXyz c.g)[node]? = some xyz ∧
      A ^ P.length
        ≤ B ^ Spec.unexplained P (fun s p k => pyRound (G s p k * c.sr)) source T node T' tol
          * C ^ (P.length
            - Spec.unexplained P (fun s p k => pyRound (G s p k * c.sr)) source T node T' tol) ∧
      (∃ res ev, detectTrigger jul order Spec.newDir k cfg (.mad window mult) id region pad s e = some (res, none) ∧
        res.flatMap Prod.snd = [ev] ∧ ev.coaTime = (T' : ℚ) / c.sr ∧
        |ev.x - (c.proj xyz).1| ≤ 1 / 2000000 ∧ |ev.y - (c.proj xyz).2.1| ≤ 1 / 2000000 ∧
        |ev.z - (c.proj xyz).2.2| ≤ 1 / (2000 * ucf)) ∧
      pipeline jul order Spec.newDir k cfg (.mad window mult) id region pad events uid (c.locateOutcome cfg.mw) later s e =
        .located ⟨[(⟨uid ((T' : ℚ) / c.sr), (T' : ℚ) / c.sr⟩, (T' : ℚ) / c.sr)], true⟩ := by
  have hsr' : (0 : ℚ) < c.sr := by exact_mod_cast S.rate
  obtain ⟨o, ho, -⟩ : ∃ o, Spec.ReportsPeak c.g (Spec.coaOf c G O (Spec.pairsAt c start timestep) T') o ∧
      ((T' : ℚ) / c.sr, c.sample o) ∈ Spec.computed k := by
    have h3 := hB.inside.1
    have h4 := hB.inside.2.1
    rw [hk] at h4 ⊢
    exact computed_mem S R a hstart n hn htie stop cols ucf cw T' h3 h4 (by
      rw [hP.detect T' (by omega) (by omega)]; exact hP.some)
  have hle : Spec.coaOf c G O (Spec.pairsAt c start timestep) T source ≤ o.maxCoa := by
    rw [reportsPeak_value ho, ← S.nodes]
    refine (le_peakValue'' (Spec.coaOf c G O (Spec.pairsAt c start timestep) T) hsrc).trans ?_
    by_cases hTT : T = T'
    · rw [hTT]
    · have h3 := hB.largest T hT.1 hT.2 hTT
      have h4 : 0 ≤ ((1 / 100000 + 2 * η : ℚ) : ℝ) := by
        have := F.near 0 le_rfl (by norm_num)
        have h5 : (0 : ℝ) ≤ η := (abs_nonneg _).trans this
        push_cast
        positivity
      linarith
  have ho' : Spec.ReportsPeak c.g (fun node => Spec.coalescence P O (fun s p k => pyRound (G s p k * c.sr)) node T') o := by
    convert ho using 1
    funext node
    unfold Spec.coaOf
    rw [hP.detect T' (by omega) (by omega), if_neg hP.some]
  have hle : Spec.coalescence P O (fun s p k => pyRound (G s p k * c.sr)) source T ≤ o.maxCoa := by
    unfold Spec.coaOf at hle
    rwa [hPT, if_neg hP.some] at hle
  obtain ⟨node, k1, k2, k3⟩ := explained_of_peak (g := c.g) hP.some hq
    (fun sp hsp node hn => by
      rw [← pyRound_int 0]
      apply pyRound_mono
      push_cast
      exact mul_nonneg (hG sp hsp node (by rw [S.nodes]; exact hn)) hsr'.le)
    (by rw [← S.nodes]; exact hsrc) ho' hle
  obtain ⟨g1, g2, g3⟩ := hgrid o.xyz (List.mem_of_getElem? k2)
  obtain ⟨r1, r2⟩ := one_event_mad c G S O η F timestep start stop cols ucf cw k hk hucf a hstart n hn0 hn hday hrun
    htie jul hjul order cfg hmw hmei n' hn' htie' window mult hmult w hw hwn region pad s e hald halk hals halp halr he
    hfrom hto events hfresh uid later hlater R lo hi d T' U V P hB hshort hspread hd hwide hlong h1 h2 hleft hright hP o.xyz
    (fun o' ho' => by rw [reportsPeak_unique ho' ho]) _ _ _ rfl g1 g2 g3 (hreg node o.xyz k2 k3)
  exact ⟨node, o.xyz, by rw [S.nodes]; exact k1, k2, k3, r1, r2⟩



/-! ## A case that meets the hypotheses -/

/-- Onset functions that go from 1 to 5 every five samples, but for a tent of height 20000 and half a width of 50 samples
at the arrivals of a source at the second node of `stepGrid` at sample 1800. -/
noncomputable def swell : Compute.Str → Compute.Str → ℤ → ℝ := fun s p t =>
  if |t - (1800 + pyRound (stepG s p 1 * (50 : ℕ)))| ≤ 50 then
    20000 - ((|t - (1800 + pyRound (stepG s p 1 * (50 : ℕ)))| : ℤ) : ℝ) else 1 + ((t % 5 : ℤ) : ℝ)

theorem swell_bounds (s p : Compute.Str) (t d : ℤ) (hd : d = t - (1800 + pyRound (stepG s p 1 * (50 : ℕ)))) :
    1 ≤ swell s p t ∧ swell s p t ≤ 20000 ∧ (d = 0 → swell s p t = 20000) ∧ (d ≠ 0 → swell s p t ≤ 19999) ∧
    (50 ≤ |d| → swell s p t ≤ 19950) ∧ (|d| ≤ 50 → 19950 ≤ swell s p t) ∧
    (50 < |d| → swell s p t = 1 + ((t % 5 : ℤ) : ℝ)) ∧ (50 < |d| → swell s p t ≤ 5) := by
  unfold swell
  rw [← hd]
  have h0 : (0 : ℝ) ≤ ((|d| : ℤ) : ℝ) := by exact_mod_cast abs_nonneg d
  have h5 : (0 : ℝ) ≤ ((t % 5 : ℤ) : ℝ) ∧ ((t % 5 : ℤ) : ℝ) ≤ 4 := by
    have h1 : 0 ≤ t % 5 ∧ t % 5 ≤ 4 := by omega
    exact ⟨by exact_mod_cast h1.1, by exact_mod_cast h1.2⟩
  by_cases h : |d| ≤ 50
  · rw [if_pos h]
    have h1 : ((|d| : ℤ) : ℝ) ≤ 50 := by exact_mod_cast h
    refine ⟨by linarith, by linarith, ?_, ?_, ?_, fun _ => by linarith, fun h' => absurd h (not_le.2 h'),
      fun h' => absurd h (not_le.2 h')⟩
    · rintro rfl; norm_num
    · intro hne
      have : 1 ≤ |d| := Int.one_le_abs hne
      have : (1 : ℝ) ≤ ((|d| : ℤ) : ℝ) := by exact_mod_cast this
      linarith
    · intro h'
      have : (50 : ℝ) ≤ ((|d| : ℤ) : ℝ) := by exact_mod_cast h'
      linarith
  · rw [if_neg h]
    refine ⟨by linarith, by linarith, ?_, fun _ => by linarith, fun _ => by linarith, fun h' => absurd h' h, fun _ => rfl,
      fun _ => by linarith⟩
    rintro rfl
    simp at h

theorem swell_source : Spec.SourceAt [(['A'], ['P']), (['B'], ['P']), (['B'], ['S'])] swell
    (fun s p k => pyRound (stepG s p k * (serialScan swell micro).sr)) 1 1800 := by
  intro sp _
  show 1 / 100 < swell sp.1 sp.2 (1800 + pyRound (stepG sp.1 sp.2 1 * (50 : ℕ))) ∧
    ∀ t, t ≠ 1800 + pyRound (stepG sp.1 sp.2 1 * (50 : ℕ)) →
      swell sp.1 sp.2 t < swell sp.1 sp.2 (1800 + pyRound (stepG sp.1 sp.2 1 * (50 : ℕ)))
  have h8 := (swell_bounds sp.1 sp.2 _ _ rfl).2.2.1 (sub_self (1800 + pyRound (stepG sp.1 sp.2 1 * (50 : ℕ))))
  rw [h8]
  refine ⟨by norm_num, fun t ht => ?_⟩
  have := (swell_bounds sp.1 sp.2 t _ rfl).2.2.2.1 (sub_ne_zero.2 ht)
  linarith

theorem swell_noisy : Spec.NoisySource [(['A'], ['P']), (['B'], ['P']), (['B'], ['S'])] swell
    (fun s p k => pyRound (stepG s p k * (serialScan swell micro).sr)) 1 1800 20000 5 20000 50 := by
  refine ⟨?_, ?_, ?_, by norm_num, by norm_num, by norm_num⟩
  · intro sp _
    exact ((swell_bounds sp.1 sp.2 _ _ rfl).2.2.1 (sub_self (1800 + pyRound (stepG sp.1 sp.2 1 * (50 : ℕ))))).ge
  · intro sp _ t
    exact (swell_bounds sp.1 sp.2 t _ rfl).2.1
  · intro sp _ t ht
    exact (swell_bounds sp.1 sp.2 t _ rfl).2.2.2.2.2.2.2 ht

theorem swell_coa (T : ℤ) (node : ℕ) (hn : node < 2) :
    (node = 1 ∧ T = 1800 → Spec.coaOf (serialScan swell micro) stepG swell (Spec.pairsAt (serialScan swell micro) 12 2) T node = 20000) ∧
    (T ≠ 1800 → Spec.coaOf (serialScan swell micro) stepG swell (Spec.pairsAt (serialScan swell micro) 12 2) T node ≤ 19999) ∧
    Spec.coaOf (serialScan swell micro) stepG swell (Spec.pairsAt (serialScan swell micro) 12 2) T node ≤ 20000 ∧
    (node = 1 → 1750 ≤ T → T ≤ 1850 → 27 ≤ Spec.coaOf (serialScan swell micro) stepG swell (Spec.pairsAt (serialScan swell micro) 12 2) T node) ∧
    (node = 0 → 1800 ≤ T → T ≤ 2000 → 27 ≤ Spec.coaOf (serialScan swell micro) stepG swell (Spec.pairsAt (serialScan swell micro) 12 2) T node) ∧
    (T < 1750 ∨ 2000 < T → Spec.coaOf (serialScan swell micro) stepG swell (Spec.pairsAt (serialScan swell micro) 12 2) T node = 1 + ((T % 5 : ℤ) : ℝ)) := by
  have e10 : pyRound (stepG ['A'] ['P'] 0 * (50 : ℕ)) = 0 := by decide +kernel
  have e11 : pyRound (stepG ['A'] ['P'] 1 * (50 : ℕ)) = 50 := by decide +kernel
  have e20 : pyRound (stepG ['B'] ['P'] 0 * (50 : ℕ)) = 25 := by decide +kernel
  have e21 : pyRound (stepG ['B'] ['P'] 1 * (50 : ℕ)) = 75 := by decide +kernel
  have e30 : pyRound (stepG ['B'] ['S'] 0 * (50 : ℕ)) = 50 := by decide +kernel
  have e31 : pyRound (stepG ['B'] ['S'] 1 * (50 : ℕ)) = 200 := by decide +kernel
  have hp := serial_pairsAt swell micro 12 2 T
  have hsr : (serialScan swell micro).sr = 50 := rfl
  have hval : ∀ s p t, max (1 / 100) (swell s p t) = swell s p t := fun s p t =>
    max_eq_right (le_trans (by norm_num) (swell_bounds s p t _ rfl).1)
  have hroot : ∀ y : ℝ, 0 ≤ y → (y ^ 3) ^ (1 / ((3 : ℕ) : ℝ)) = y := by
    intro y hy
    rw [one_div, Real.pow_rpow_inv_natCast hy (by norm_num)]
  have hle : ∀ x y : ℝ, 0 ≤ x → 0 ≤ y → x ≤ y ^ 3 → x ^ (1 / ((3 : ℕ) : ℝ)) ≤ y := by
    intro x y h0 hy h
    calc x ^ (1 / ((3 : ℕ) : ℝ)) ≤ (y ^ 3) ^ (1 / ((3 : ℕ) : ℝ)) := Real.rpow_le_rpow h0 h (by norm_num)
      _ = y := hroot y hy
  have hge : ∀ x y : ℝ, 0 ≤ y → y ^ 3 ≤ x → y ≤ x ^ (1 / ((3 : ℕ) : ℝ)) := by
    intro x y hy h
    calc y = (y ^ 3) ^ (1 / ((3 : ℕ) : ℝ)) := (hroot y hy).symm
      _ ≤ x ^ (1 / ((3 : ℕ) : ℝ)) := Real.rpow_le_rpow (by positivity) h (by norm_num)
  unfold Spec.coaOf Spec.coalescence
  rw [hp, if_neg (by simp), hsr]
  simp only [List.map_cons, List.map_nil, List.prod_cons, List.prod_nil, List.length_cons, List.length_nil, hval, mul_one,
    zero_add, Nat.reduceAdd]
  have hprod : ∀ x y z X Y Z : ℝ, 0 ≤ x → 0 ≤ y → 0 ≤ z → x ≤ X → y ≤ Y → z ≤ Z → x * (y * z) ≤ X * (Y * Z) := by
    intro x y z X Y Z h1 h2 h3 h4 h5 h6
    exact mul_le_mul h4 (mul_le_mul h5 h6 h3 (h2.trans h5)) (mul_nonneg h2 h3) (h1.trans h4)
  obtain ⟨d1, hd1⟩ : ∃ d, d = T + max 0 (pyRound (stepG ['A'] ['P'] node * (50 : ℕ))) -
    (1800 + pyRound (stepG ['A'] ['P'] 1 * (50 : ℕ))) := ⟨_, rfl⟩
  obtain ⟨d2, hd2⟩ : ∃ d, d = T + max 0 (pyRound (stepG ['B'] ['P'] node * (50 : ℕ))) -
    (1800 + pyRound (stepG ['B'] ['P'] 1 * (50 : ℕ))) := ⟨_, rfl⟩
  obtain ⟨d3, hd3⟩ : ∃ d, d = T + max 0 (pyRound (stepG ['B'] ['S'] node * (50 : ℕ))) -
    (1800 + pyRound (stepG ['B'] ['S'] 1 * (50 : ℕ))) := ⟨_, rfl⟩
  obtain ⟨a1, a2, a3, a4, a5, a6, a7, a8⟩ := swell_bounds ['A'] ['P'] _ d1 hd1
  obtain ⟨b1, b2, b3, b4, b5, b6, b7, b8⟩ := swell_bounds ['B'] ['P'] _ d2 hd2
  obtain ⟨c1, c2, c3, c4, c5, c6, c7, c8⟩ := swell_bounds ['B'] ['S'] _ d3 hd3
  have m1 : (T + max 0 (pyRound (stepG ['A'] ['P'] node * (50 : ℕ)))) % 5 = T % 5 := by
    have : node = 0 ∨ node = 1 := by omega
    rcases this with rfl | rfl
    · rw [e10]; omega
    · rw [e11]; omega
  have m2 : (T + max 0 (pyRound (stepG ['B'] ['P'] node * (50 : ℕ)))) % 5 = T % 5 := by
    have : node = 0 ∨ node = 1 := by omega
    rcases this with rfl | rfl
    · rw [e20]; omega
    · rw [e21]; omega
  have m3 : (T + max 0 (pyRound (stepG ['B'] ['S'] node * (50 : ℕ)))) % 5 = T % 5 := by
    have : node = 0 ∨ node = 1 := by omega
    rcases this with rfl | rfl
    · rw [e30]; omega
    · rw [e31]; omega
  rw [m1] at a7
  rw [m2] at b7
  rw [m3] at c7
  have h5 : (0 : ℝ) ≤ ((T % 5 : ℤ) : ℝ) := by
    have h1 : 0 ≤ T % 5 := by omega
    exact_mod_cast h1
  clear m1 m2 m3
  generalize swell ['A'] ['P'] (T + max 0 (pyRound (stepG ['A'] ['P'] node * (50 : ℕ)))) = a at *
  generalize swell ['B'] ['P'] (T + max 0 (pyRound (stepG ['B'] ['P'] node * (50 : ℕ)))) = b at *
  generalize swell ['B'] ['S'] (T + max 0 (pyRound (stepG ['B'] ['S'] node * (50 : ℕ)))) = c at *
  have h0 : 0 ≤ a * (b * c) := by positivity
  rw [e11] at hd1
  rw [e21] at hd2
  rw [e31] at hd3
  have hnode : (node = 1 ∧ d1 = T - 1800 ∧ d2 = T - 1800 ∧ d3 = T - 1800) ∨
      (node = 0 ∧ d1 = T - 1850 ∧ d2 = T - 1850 ∧ d3 = T - 1950) := by
    have : node = 0 ∨ node = 1 := by omega
    rcases this with rfl | rfl
    · rw [e10] at hd1; rw [e20] at hd2; rw [e30] at hd3; omega
    · rw [e11] at hd1; rw [e21] at hd2; rw [e31] at hd3; omega
  refine ⟨?_, ?_, ?_, ?_, ?_, ?_⟩
  · rintro ⟨hn1, hT⟩
    rw [a3 (by omega), b3 (by omega), c3 (by omega)]
    rw [show (20000 * (20000 * 20000) : ℝ) = 20000 ^ 3 by norm_num]
    exact hroot 20000 (by norm_num)
  · intro hT
    apply hle _ _ h0 (by norm_num)
    rcases hnode with ⟨-, h1, h2, h3⟩ | ⟨-, h1, h2, h3⟩
    · have := hprod a b c _ _ _ (by linarith) (by linarith) (by linarith) (a4 (by omega)) (b4 (by omega)) (c4 (by omega))
      refine this.trans (by norm_num)
    · by_cases h50 : 50 ≤ |d1|
      · have := hprod a b c _ _ _ (by linarith) (by linarith) (by linarith) (a5 h50) b2 c2
        refine this.trans (by norm_num)
      · have := hprod a b c _ _ _ (by linarith) (by linarith) (by linarith) a2 b2
          (c5 (by rw [not_le, abs_lt] at h50; rw [le_abs]; omega))
        refine this.trans (by norm_num)
  · apply hle _ _ h0 (by norm_num)
    have := hprod a b c _ _ _ (by linarith) (by linarith) (by linarith) a2 b2 c2
    refine this.trans (by norm_num)
  · rintro hn1 hT1 hT2
    apply hge _ _ (by norm_num)
    have := hprod 19950 1 1 a b c (by norm_num) (by norm_num) (by norm_num) (a6 (by rw [abs_le]; omega)) b1 c1
    refine le_trans (by norm_num) this
  · rintro hn0 hT1 hT2
    apply hge _ _ (by norm_num)
    by_cases h19 : T ≤ 1900
    · have := hprod 19950 1 1 a b c (by norm_num) (by norm_num) (by norm_num) (a6 (by rw [abs_le]; omega)) b1 c1
      refine le_trans (by norm_num) this
    · have := hprod 1 1 19950 a b c (by norm_num) (by norm_num) (by norm_num) a1 b1 (c6 (by rw [abs_le]; omega))
      refine le_trans (by norm_num) this
  · intro hT
    rw [a7 (by rw [lt_abs]; omega), b7 (by rw [lt_abs]; omega), c7 (by rw [lt_abs]; omega)]
    have h6 : (1 + ((T % 5 : ℤ) : ℝ)) * ((1 + ((T % 5 : ℤ) : ℝ)) * (1 + ((T % 5 : ℤ) : ℝ))) = (1 + ((T % 5 : ℤ) : ℝ)) ^ 3 := by
      ring
    rw [h6]
    exact hroot _ (by linarith)

theorem swell_peak (T : ℤ) :
    (T = 1800 → Spec.peakValue 2 (Spec.coaOf (serialScan swell micro) stepG swell (Spec.pairsAt (serialScan swell micro) 12 2) T) = 20000) ∧
    (T ≠ 1800 → Spec.peakValue 2 (Spec.coaOf (serialScan swell micro) stepG swell (Spec.pairsAt (serialScan swell micro) 12 2) T) ≤ 19999) ∧
    (1750 ≤ T → T ≤ 2000 → 27 ≤ Spec.peakValue 2 (Spec.coaOf (serialScan swell micro) stepG swell (Spec.pairsAt (serialScan swell micro) 12 2) T)) ∧
    (T < 1750 ∨ 2000 < T → Spec.peakValue 2 (Spec.coaOf (serialScan swell micro) stepG swell (Spec.pairsAt (serialScan swell micro) 12 2) T) = 1 + ((T % 5 : ℤ) : ℝ)) := by
  refine ⟨?_, ?_, ?_, ?_⟩
  · rintro rfl
    apply le_antisymm
    · exact ciSup_le fun k => (swell_coa 1800 k k.2).2.2.1
    · rw [← (swell_coa 1800 1 (by norm_num)).1 ⟨rfl, rfl⟩]
      exact le_peakValue'' _ (by norm_num)
  · intro h
    exact ciSup_le fun k => (swell_coa T k k.2).2.1 h
  · intro h1 h2
    by_cases h3 : T ≤ 1850
    · exact ((swell_coa T 1 (by norm_num)).2.2.2.1 rfl h1 h3).trans (le_peakValue'' _ (by norm_num))
    · exact ((swell_coa T 0 (by norm_num)).2.2.2.2.1 rfl (by omega) h2).trans (le_peakValue'' _ (by norm_num))
  · intro h
    apply le_antisymm
    · exact ciSup_le fun k => ((swell_coa T k k.2).2.2.2.2.2 h).le
    · exact ((swell_coa T 1 (by norm_num)).2.2.2.2.2 h).ge.trans (le_peakValue'' _ (by norm_num))

theorem swell_steps : Spec.steps ((serialScan swell micro).call 2 12 60 [] 1 false) = 24 := by
  have h1 : Detect.adjustedEnd ((serialScan swell micro).call 2 12 60 [] 1 false).cfg 60 = 60 := by
    unfold Detect.adjustedEnd
    rw [if_neg (by decide +kernel)]
  have h2 : Spec.steps ((serialScan swell micro).call 2 12 60 [] 1 false) = ⌈((60 : ℚ) - 12) / 2⌉.toNat := by
    unfold Spec.steps
    show ⌈(Detect.adjustedEnd ((serialScan swell micro).call 2 12 60 [] 1 false).cfg 60 - 12) / 2⌉.toNat = _
    rw [h1]
  rw [h2]
  decide +kernel

theorem swell_level : Spec.LevelBurst false (501 / 100 + 14826 / 10000 * (501 / 100 - 99 / 100) * (31 / 10)) (99 / 100) (501 / 100)
    (1 / 1000000) 2 (Spec.coaOf (serialScan swell micro) stepG swell (Spec.pairsAt (serialScan swell micro) 12 2)) 600
    (600 + Spec.steps ((serialScan swell micro).call 2 12 60 [] 1 false) * (100 : ℕ)) 1750 2000 1800 := by
  rw [swell_steps]
  refine ⟨by norm_num, by norm_num, by norm_num, ?_, ?_, ?_, ?_⟩
  · intro T' _ _ h1 h2
    show _ ≤ Spec.peakValue 2 _
    refine le_trans ?_ ((swell_peak T').2.2.1 h1 h2)
    norm_num
  · intro T' _ _ h
    show _ ≤ Spec.peakValue 2 _ ∧ Spec.peakValue 2 _ < _
    rw [(swell_peak T').2.2.2 h]
    have h1 : 0 ≤ T' % 5 ∧ T' % 5 ≤ 4 := by omega
    have h2 : (0 : ℝ) ≤ ((T' % 5 : ℤ) : ℝ) ∧ ((T' % 5 : ℤ) : ℝ) ≤ 4 :=
      ⟨by exact_mod_cast h1.1, by exact_mod_cast h1.2⟩
    norm_num
    constructor <;> linarith [h2.1, h2.2]
  · intro T' _ _ h
    rw [(swell_peak 1800).1 rfl]
    refine lt_of_le_of_lt (add_le_add_left ((swell_peak T').2.1 h) _) ?_
    norm_num
  · rw [(swell_peak 1800).1 rfl]
    norm_num

/-- Of any five consecutive integers at most two are less than 1 away from a level. -/
theorem swell_spread : Spec.SpreadBackground false (9 / 10) (99 / 100) (501 / 100) (1 / 1000000) 600 2
    (Spec.coaOf (serialScan swell micro) stepG swell (Spec.pairsAt (serialScan swell micro) 12 2)) 600
    (600 + Spec.steps ((serialScan swell micro).call 2 12 60 [] 1 false) * (100 : ℕ)) 1750 2000 := by
  rw [swell_steps]
  intro j m hj h1 h2
  have hk : ∃ k : ℕ, k < 6 ∧ ((k : ℕ) : ℚ) ≤ m ∧ m < k + 1 := by
    refine ⟨⌊m⌋.toNat, ?_, ?_, ?_⟩
    · have : ⌊m⌋ < 6 := Int.floor_lt.mpr (by push_cast; linarith)
      omega
    · have h3 : 0 ≤ ⌊m⌋ := Int.floor_nonneg.mpr (by linarith)
      have h4 : ((⌊m⌋.toNat : ℕ) : ℤ) = ⌊m⌋ := Int.toNat_of_nonneg h3
      have h5 : ((⌊m⌋.toNat : ℕ) : ℚ) = ((⌊m⌋ : ℤ) : ℚ) := by exact_mod_cast h4
      rw [h5]
      exact Int.floor_le m
    · have h3 : 0 ≤ ⌊m⌋ := Int.floor_nonneg.mpr (by linarith)
      have h4 : ((⌊m⌋.toNat : ℕ) : ℤ) = ⌊m⌋ := Int.toNat_of_nonneg h3
      have h5 : ((⌊m⌋.toNat : ℕ) : ℚ) = ((⌊m⌋ : ℤ) : ℚ) := by exact_mod_cast h4
      rw [h5]
      exact Int.lt_floor_add_one m
  obtain ⟨k, hk6, hk1, hk2⟩ := hk
  have hcard : 600 < 2 * ((Finset.range 600).filter (fun i => 1 + i % 5 ≠ k ∧ 1 + i % 5 ≠ k + 1)).card := by
    have : ∀ k < 6, 600 < 2 * ((Finset.range 600).filter (fun i => 1 + i % 5 ≠ k ∧ 1 + i % 5 ≠ k + 1)).card := by
      decide +kernel
    exact this k hk6
  refine lt_of_lt_of_le hcard (Nat.mul_le_mul_left 2 ?_)
  rw [← Set.ncard_coe_finset]
  apply Set.ncard_le_ncard _ ((Finset.range 600).finite_toSet.subset fun i hi => by
    rw [Finset.coe_range]; exact hi.1)
  intro i hi
  rw [Finset.coe_filter, Set.mem_setOf_eq] at hi
  obtain ⟨hi1, hi2, hi3⟩ := hi
  refine ⟨Finset.mem_range.mp hi1, ?_⟩
  by_cases hb : 1750 ≤ (600 : ℤ) + j * (600 : ℕ) + i ∧ (600 : ℤ) + j * (600 : ℕ) + i ≤ 2000
  · exact Or.inl hb
  right
  show _ < |Spec.peakValue 2 _ - _|
  rw [(swell_peak _).2.2.2 (by omega)]
  have hmod : ((600 : ℤ) + j * (600 : ℕ) + i) % 5 = ((i % 5 : ℕ) : ℤ) := by omega
  rw [hmod]
  obtain ⟨v, hv⟩ : ∃ v, v = 1 + i % 5 := ⟨_, rfl⟩
  have hv' : (1 : ℝ) + (((i % 5 : ℕ) : ℤ) : ℝ) = (v : ℝ) := by
    rw [hv, Nat.cast_add, Nat.cast_one, Int.cast_natCast]
  rw [hv', lt_abs]
  have g1 : ((k : ℕ) : ℝ) ≤ m := by exact_mod_cast hk1
  have g2 : (m : ℝ) < k + 1 := by exact_mod_cast hk2
  have : k + 2 ≤ v ∨ v + 1 ≤ k := by omega
  rcases this with h | h
  · left
    have : (k : ℝ) + 2 ≤ v := by exact_mod_cast h
    push_cast
    linarith
  · right
    have : (v : ℝ) + 1 ≤ k := by exact_mod_cast h
    push_cast
    linarith

/-- With a threshold of 3.1 MAD above the median of 12 seconds the earthquake is detected, triggered and located: exactly
one event. -/
example (jul : ℤ → ℕ) (hjul : ∀ d, jul d ≠ jul (d + 1)) (order : Availability.Table → List ℤ) (uid : ℚ → ℕ) :
    pipeline jul order Spec.newDir ((serialScan swell micro).call 2 12 60 [] 1 false) ⟨1 / 2, 1, false⟩
      (.mad 12 (31 / 10)) id none 24
      (fun _ => none) uid ((serialScan swell micro).locateOutcome (1 / 2)) (fun _ => .fine) 24 48 =
      .located ⟨[(⟨uid 36, 36⟩, 36)], true⟩ := by
  have htie := fun ts (hts : (0 : ℚ) ≤ ts) => fun z => C22_usual_rates stepWindows stepSetup.win 4 (by norm_num) 50
    (by norm_num) (Or.inl ⟨20, rfl⟩) ts hts z
  have hfin := (C117_mad_partial (serialScan swell micro) stepG
    (serial_setup _ _ _ _ (fun _ => exAv_le)) swell (1 / 1000000) micro_floats 2 12 60 [] 1 false _ rfl (by norm_num) 600
    (by show (12 : ℚ) = ((600 : ℤ) : ℚ) / ((50 : ℕ) : ℚ); norm_num) 100 (by norm_num)
    (by show (2 : ℚ) * ((50 : ℕ) : ℚ) = ((100 : ℕ) : ℚ); norm_num) (by norm_num)
    (by
      unfold Detect.adjustedEnd
      rw [if_neg (by decide +kernel)]
      norm_num) (htie 2 (by norm_num)) jul hjul order ⟨1 / 2, 1, false⟩ (by norm_num) (by norm_num) 50
    (by show 2 * (1 / 2 : ℚ) * ((50 : ℕ) : ℚ) = ((50 : ℕ) : ℚ); norm_num) (htie (4 * (1 / 2)) (by norm_num))
    12 (31 / 10) (by norm_num) 600 (by show (1 : ℚ) ≤ 12 * ((50 : ℕ) : ℚ); norm_num)
    (by show 600 = ⌊(12 : ℚ) * ((50 : ℕ) : ℚ)⌋.toNat; decide +kernel) none 24 24 48
    ⟨7200, by show (86400 : ℚ) = ((7200 : ℤ) : ℚ) * (((600 : ℕ) : ℚ) * (1 / ((50 : ℕ) : ℚ))); norm_num⟩
    ⟨1, by show (12 : ℚ) = ((1 : ℤ) : ℚ) * (((600 : ℕ) : ℚ) * (1 / ((50 : ℕ) : ℚ))); norm_num⟩
    ⟨2, by show (24 : ℚ) = ((2 : ℤ) : ℚ) * (((600 : ℕ) : ℚ) * (1 / ((50 : ℕ) : ℚ))); norm_num⟩
    ⟨2, by show (24 : ℚ) = ((2 : ℕ) : ℚ) * (((600 : ℕ) : ℚ) * (1 / ((50 : ℕ) : ℚ))); norm_num⟩
    ⟨4, by rw [swell_steps]⟩
    ⟨2400, by show (48 : ℚ) = ((2400 : ℤ) : ℚ) / ((50 : ℕ) : ℚ); norm_num⟩ (by norm_num)
    (by rw [swell_steps]; norm_num) (fun _ => none) (fun _ _ => rfl) uid (fun _ => .fine) (fun _ => rfl)
    (serial_reads_at swell micro _ _ 12 600 (by norm_num)) 1 (by decide) (99 / 100) (501 / 100) (9 / 10) 1800 1750 2000
    [(['A'], ['P']), (['B'], ['P']), (['B'], ['S'])] (by
      have : ∀ sp ∈ [((['A'] : Compute.Str), (['P'] : Compute.Str)), (['B'], ['P']), (['B'], ['S'])], ∀ node < 2,
        0 ≤ stepG sp.1 sp.2 node := by decide +kernel
      exact this) swell_source
    stepGrid_resolved swell_level (by norm_num) swell_spread (by norm_num) (by norm_num)
    (by
      show (((2000 - 1750 : ℤ) : ℚ)) / ((50 : ℕ) : ℚ) + (1 + 1 / 2) + 1 / ((50 : ℕ) : ℚ) + ((600 : ℕ) : ℚ) * (1 / ((50 : ℕ) : ℚ)) ≤ 24
      norm_num)
    (by show (24 : ℚ) ≤ ((1800 : ℤ) : ℚ) / ((50 : ℕ) : ℚ); norm_num)
    (by show ((1800 : ℤ) : ℚ) / ((50 : ℕ) : ℚ) < 48; norm_num) (by norm_num) (by rw [swell_steps]; norm_num)
    (serial_samePairs _ _ 12 2 _ _ _)
    (fun a => if a = 0 then 2 else 0) (by decide +kernel) 2 0 0 (by decide +kernel) (by norm_num) (by norm_num) (by norm_num)
    (fun q _ _ _ r hr => by cases hr)).2
  have he : ((1800 : ℤ) : ℚ) / (serialScan swell micro).sr = 36 := by
    show ((1800 : ℤ) : ℚ) / ((50 : ℕ) : ℚ) = 36
    norm_num
  rw [he] at hfin
  exact hfin

/-- These onset functions also meet the hypotheses of C142; the bound leaves no arrival unexplained. -/
example (jul : ℤ → ℕ) (hjul : ∀ d, jul d ≠ jul (d + 1)) (order : Availability.Table → List ℤ) (uid : ℚ → ℕ) :
    ∃ (node : ℕ), node < 2 ∧ (20000 : ℝ) ^ 3 ≤ 5 ^ Spec.unexplained [(['A'], ['P']), (['B'], ['P']), (['B'], ['S'])]
        (fun s p k => pyRound (stepG s p k * (50 : ℕ))) 1 1800 node 1800 50 *
      20000 ^ (3 - Spec.unexplained [(['A'], ['P']), (['B'], ['P']), (['B'], ['S'])]
        (fun s p k => pyRound (stepG s p k * (50 : ℕ))) 1 1800 node 1800 50) ∧
    pipeline jul order Spec.newDir ((serialScan swell micro).call 2 12 60 [] 1 false) ⟨1 / 2, 1, false⟩
      (.mad 12 (31 / 10)) id none 24
      (fun _ => none) uid ((serialScan swell micro).locateOutcome (1 / 2)) (fun _ => .fine) 24 48 =
      .located ⟨[(⟨uid 36, 36⟩, 36)], true⟩ := by
  have htie := fun ts (hts : (0 : ℚ) ≤ ts) => fun z => C22_usual_rates stepWindows stepSetup.win 4 (by norm_num) 50
    (by norm_num) (Or.inl ⟨20, rfl⟩) ts hts z
  obtain ⟨node, xyz, g1, g2, g3, -, g5⟩ := C142_mad_partial (serialScan swell micro) stepG
    (serial_setup _ _ _ _ (fun _ => exAv_le)) swell (1 / 1000000) micro_floats 2 12 60 [] 1 false _ rfl (by norm_num) 600
    (by show (12 : ℚ) = ((600 : ℤ) : ℚ) / ((50 : ℕ) : ℚ); norm_num) 100 (by norm_num)
    (by show (2 : ℚ) * ((50 : ℕ) : ℚ) = ((100 : ℕ) : ℚ); norm_num) (by norm_num)
    (by
      unfold Detect.adjustedEnd
      rw [if_neg (by decide +kernel)]
      norm_num) (htie 2 (by norm_num)) jul hjul order ⟨1 / 2, 1, false⟩ (by norm_num) (by norm_num) 50
    (by show 2 * (1 / 2 : ℚ) * ((50 : ℕ) : ℚ) = ((50 : ℕ) : ℚ); norm_num) (htie (4 * (1 / 2)) (by norm_num))
    12 (31 / 10) (by norm_num) 600 (by show (1 : ℚ) ≤ 12 * ((50 : ℕ) : ℚ); norm_num)
    (by show 600 = ⌊(12 : ℚ) * ((50 : ℕ) : ℚ)⌋.toNat; decide +kernel) none 24 24 48
    ⟨7200, by show (86400 : ℚ) = ((7200 : ℤ) : ℚ) * (((600 : ℕ) : ℚ) * (1 / ((50 : ℕ) : ℚ))); norm_num⟩
    ⟨1, by show (12 : ℚ) = ((1 : ℤ) : ℚ) * (((600 : ℕ) : ℚ) * (1 / ((50 : ℕ) : ℚ))); norm_num⟩
    ⟨2, by show (24 : ℚ) = ((2 : ℤ) : ℚ) * (((600 : ℕ) : ℚ) * (1 / ((50 : ℕ) : ℚ))); norm_num⟩
    ⟨2, by show (24 : ℚ) = ((2 : ℕ) : ℚ) * (((600 : ℕ) : ℚ) * (1 / ((50 : ℕ) : ℚ))); norm_num⟩
    ⟨4, by rw [swell_steps]⟩
    ⟨2400, by show (48 : ℚ) = ((2400 : ℤ) : ℚ) / ((50 : ℕ) : ℚ); norm_num⟩ (by norm_num)
    (by rw [swell_steps]; norm_num) (fun _ => none) (fun _ _ => rfl) uid (fun _ => .fine) (fun _ => rfl)
    (serial_reads_at swell micro _ _ 12 600 (by norm_num)) 1 (show 1 < 2 by norm_num) 1800 20000 5 20000 50
    [(['A'], ['P']), (['B'], ['P']), (['B'], ['S'])] (by
      have : ∀ sp ∈ [((['A'] : Compute.Str), (['P'] : Compute.Str)), (['B'], ['P']), (['B'], ['S'])], ∀ node < 2,
        0 ≤ stepG sp.1 sp.2 node := by decide +kernel
      exact this) swell_noisy
    (by rw [swell_steps]; norm_num) (99 / 100) (501 / 100) (9 / 10) 1800 1750 2000
    swell_level (by norm_num) swell_spread (by norm_num) (by norm_num)
    (by
      show (((2000 - 1750 : ℤ) : ℚ)) / ((50 : ℕ) : ℚ) + (1 + 1 / 2) + 1 / ((50 : ℕ) : ℚ) + ((600 : ℕ) : ℚ) * (1 / ((50 : ℕ) : ℚ)) ≤ 24
      norm_num)
    (by show (24 : ℚ) ≤ ((1800 : ℤ) : ℚ) / ((50 : ℕ) : ℚ); norm_num)
    (by show ((1800 : ℤ) : ℚ) / ((50 : ℕ) : ℚ) < 48; norm_num) (by norm_num) (by rw [swell_steps]; norm_num)
    (serial_samePairs _ _ 12 2 _ _ _) (serial_pairsAt _ _ 12 2 _)
    (by
      have : ∀ xyz ∈ Grid.gridXyz stepGrid, |xyz 0| ≤ 2147 ∧ |xyz 1| ≤ 2147 ∧
          |xyz 2 * (1000 * 1)| ≤ 2 ^ 31 - 1 := by decide +kernel
      exact this)
    (fun _ _ _ _ q _ _ _ r hr => by cases hr)
  have he : ((1800 : ℤ) : ℚ) / (serialScan swell micro).sr = 36 := by
    show ((1800 : ℤ) : ℚ) / ((50 : ℕ) : ℚ) = 36
    norm_num
  rw [he] at g5
  exact ⟨node, g1, g3, g5⟩

end QM
