import Verif.Props.Dynamic
import Verif.Props.DetectTrigger

/-!
# From detect to trigger, with thresholds that follow the data and smoothing (C113)
-/

namespace QM

open QM.Trigger QM.DetectRuns QM.DetectTrigger QM.Smooth QM.ScanMseed

/-- **C113** (partial), any threshold method, with or without smoothing (reach of `r` samples, at most `R`
threshold windows of `n` samples).  `detect` into a new run directory, then `trigger` over a part of the
period scanned, with the midnights, both starts and the pad whole numbers of threshold windows: every burst
of the stored, smoothed coalescence that is isolated and whose largest sample `q` is in the period is
reported by exactly one event if that sample is inside the region, and by none if it is not.  The event has
the time and values of `q`, and the location computed by detect for that time to the precision of the
files.  Missing: windows off that grid, and detect calls that end early. -/
theorem C113_dynamic_partial (sr : ℕ) (k : Call) (h : Spec.GoodCall sr k)
    (hclean : Spec.Clean k) (halive : k.killed = .never) (hucf : 0 < k.cfg.ucf) (jul : ℤ → ℕ)
    (hjul : ∀ d, jul d ≠ jul (d + 1)) (order : Availability.Table → List ℤ) (cfg : Trigger.Cfg)
    (hmw : 0 ≤ cfg.mw) (hmei : 0 ≤ cfg.mei) (m : Method) (n : ℕ) (hm : Spec.WindowSamples m sr n)
    (w : ℕ → ℚ) (r R : ℕ) (hR : r ≤ R * n) (region : Option Region) (pad s e : ℚ)
    (hald : ∃ i : ℤ, 86400 = i * (n * (1 / (sr : ℚ)))) (halk : ∃ i : ℤ, k.start = i * (n * (1 / (sr : ℚ))))
    (hals : ∃ i : ℤ, s = i * (n * (1 / (sr : ℚ)))) (halp : ∃ i : ℕ, pad = i * (n * (1 / (sr : ℚ))))
    (he : ∃ i : ℤ, e = i / (sr : ℚ))
    (hfrom : k.start ≤ s) (hto : e ≤ k.start + k.cfg.timestep * (Spec.steps k : ℚ)) (D : List Row)
    (hDD : D = smoothCoa w r ((Spec.computed k).map (storedRow k.cfg.ucf)))
    (u v : ℚ) (q : Row)
    (hb : Spec.Burst (Spec.Triggers cfg.norm (getThreshold m (D.map (Row.trig cfg.norm)) sr) D)
      (cfg.mei + cfg.mw) D u v q)
    (hlong : v - u + (cfg.mei + cfg.mw) + 1 / (sr : ℚ) + (R + 1) * (n * (1 / (sr : ℚ))) ≤ pad)
    (h1 : s ≤ q.dt) (h2 : q.dt < e) :
    ∃ res, detectTrigger jul order Spec.newDir k cfg m (smoothCoa w r) region pad s e =
        some (res, none) ∧
      (Spec.RowIn region q → ∃ ev,
        (res.flatMap Prod.snd).filter (fun x => decide (u ≤ x.coaTime ∧ x.coaTime ≤ v)) = [ev] ∧
        ev.coaTime = q.dt ∧ ev.trigCoa = Spec.trigValue cfg.norm q ∧
        ∀ p ∈ Spec.computed k, p.1 = q.dt → |p.2.x| ≤ 2147 → |p.2.y| ≤ 2147 →
          |p.2.z * (1000 * k.cfg.ucf)| ≤ 2 ^ 31 - 1 →
          |ev.x - p.2.x| ≤ 1 / 2000000 ∧ |ev.y - p.2.y| ≤ 1 / 2000000 ∧
            |ev.z - p.2.z| ≤ 1 / (2000 * k.cfg.ucf)) ∧
      (¬ Spec.RowIn region q → ∀ x ∈ res.flatMap Prod.snd, ¬ (u ≤ x.coaTime ∧ x.coaTime ≤ v)) := by
  subst hDD
  have hse : s ≤ e := by linarith
  have hsr := h.rate_pos
  have hsr' : (0 : ℚ) < sr := by exact_mod_cast hsr
  have hpad : ∃ i : ℕ, pad = i / (sr : ℚ) := by
    obtain ⟨i, hi⟩ := halp
    exact ⟨i * n, by rw [hi]; push_cast; ring⟩
  have hs : ∃ i : ℤ, s = i / (sr : ℚ) := by
    obtain ⟨i, hi⟩ := hals
    exact ⟨i * n, by rw [hi]; push_cast; ring⟩
  obtain ⟨dir, read', hdir, htrig, hok, hreads, hdelta, hDsort, hCsort, -, hrate, hreg⟩ := detect_read h hclean
    halive jul hjul order cfg m (smoothCoa w r) region pad s e hpad hs he hfrom hto hse
  obtain ⟨c1, c2⟩ := C112_dynamic_partial cfg hmw hmei m sr n hm region w r R hR _ k.start (1 / (sr : ℚ))
    (by positivity) hreg u v q hb pad hlong s e h1 h2 halk hald hals
    (by obtain ⟨i, hi⟩ := halp; exact ⟨i, by rw [hi]; push_cast; ring⟩) read' hreads
    (fun a b sd hsd => ⟨hdelta a b sd hsd, hrate a b sd hsd⟩) hok
  refine ⟨(trigger cfg m (smoothCoa w r) region read' s e).1, ?_, ?_, c2⟩
  · unfold detectTrigger
    rw [hdir]
    simp only
    rw [htrig, ← hok]
  · intro hin
    obtain ⟨ev, e1, e2, e3, e4, e5, e6, -⟩ := c1 hin
    refine ⟨ev, e1, e2, e3, ?_⟩
    intro p hp hpt hx hy hz
    obtain ⟨a1, a2, a3⟩ := C05_coordinates_roundtrip k.cfg.ucf hucf p.2 hx hy hz
    -- the sample `q` is the stored sample of `p`, smoothed
    obtain ⟨i, hi⟩ := List.mem_iff_getElem?.mp hb.mem
    obtain ⟨z, hz', hzq⟩ := smoothCoa_getElem?' w r _ hi
    have hzp : z = storedRow k.cfg.ucf p := by
      have hzm := List.mem_of_getElem? hz'
      have hpm : storedRow k.cfg.ucf p ∈ (Spec.computed k).map (storedRow k.cfg.ucf) :=
        List.mem_map.mpr ⟨p, hp, rfl⟩
      have hdt : z.dt = (storedRow k.cfg.ucf p).dt := by
        have : q.dt = z.dt := by rw [hzq]
        rw [← this, ← hpt]; rfl
      rcases pairwise_or hDsort hzm hpm with h | h | h
      · exact h
      · linarith
      · linarith
    have hqx : q.x = (storedRow k.cfg.ucf p).x := by rw [hzq, ← hzp]
    have hqy : q.y = (storedRow k.cfg.ucf p).y := by rw [hzq, ← hzp]
    have hqz : q.z = (storedRow k.cfg.ucf p).z := by rw [hzq, ← hzp]
    rw [e4, e5, e6, hqx, hqy, hqz]
    exact ⟨a1, a2, a3⟩

/-! ## A concrete case -/

/-- The stored samples of `burstCall`, smoothed with weights 1/4, 1/2, 1/4. -/
def burstSmoothed : List Row :=
  smoothCoa (fun k => if k = 1 then 1 / 2 else 1 / 4) 1
    ((Spec.computed burstCall).map (storedRow burstCall.cfg.ucf))

/-- With twice the median of ten seconds as the threshold, three of its samples trigger. -/
theorem burstSmoothed_triggers (r : Row) (hr : r ∈ burstSmoothed) :
    Spec.Triggers true (getThreshold (.medianRatio 10 2) (burstSmoothed.map (Row.trig true)) 1)
      burstSmoothed r ↔ 86399 ≤ r.dt ∧ r.dt ≤ 86401 := by
  have hl : burstSmoothed.length = 20 := by decide +kernel
  have key : ∀ i < 20, ∀ x ∈ burstSmoothed[i]?,
      ∀ t ∈ (getThreshold (.medianRatio 10 2) (burstSmoothed.map (Row.trig true)) 1)[i]?,
      (t ≤ Spec.trigValue true x ↔ 86399 ≤ x.dt ∧ x.dt ≤ 86401) := by decide +kernel
  have hall : ∀ i < 20, (getThreshold (.medianRatio 10 2)
      (burstSmoothed.map (Row.trig true)) 1)[i]?.isSome := by decide +kernel
  have hlen : ∀ (i : ℕ) (x : Row), burstSmoothed[i]? = some x → i < 20 := by
    intro i x h
    have := (List.getElem?_eq_some_iff.mp h).1
    rwa [hl] at this
  constructor
  · rintro ⟨i, t, h1, h2, h3⟩
    exact (key i (hlen i r h1) r h1 t h2).mp h3
  · intro h
    obtain ⟨i, hi⟩ := List.mem_iff_getElem?.mp hr
    obtain ⟨t, ht⟩ := Option.isSome_iff_exists.mp (hall i (hlen i r hi))
    exact ⟨i, t, hi, ht, (key i (hlen i r hi) r hi t ht).mpr h⟩

theorem burstSmoothed_burst :
    Spec.Burst (Spec.Triggers true (getThreshold (.medianRatio 10 2) (burstSmoothed.map (Row.trig true)) 1)
      burstSmoothed) (2 + 1) burstSmoothed 86399 86401 ⟨86399, 15 / 4, 7 / 2, 10, 20, 1⟩ where
  mem := by decide +kernel
  lo := by norm_num
  hi := by norm_num
  above := fun r hr h1 h2 => (burstSmoothed_triggers r hr).mpr ⟨h1, h2⟩
  max := by decide +kernel
  first := by decide +kernel
  after := fun r hr h1 h2 => absurd ((burstSmoothed_triggers r hr).mp h2).2 (by linarith)
  before := fun r hr h1 h2 => absurd ((burstSmoothed_triggers r hr).mp h2).1 (by linarith)

/-- All hypotheses of `C113_dynamic_partial` hold for `burstCall`. -/
example (jul : ℤ → ℕ) (hjul : ∀ d, jul d ≠ jul (d + 1)) (order : Availability.Table → List ℤ) :
    ∃ res, detectTrigger jul order Spec.newDir burstCall ⟨1, 2, true⟩ (.medianRatio 10 2)
        (smoothCoa (fun k => if k = 1 then 1 / 2 else 1 / 4) 1) none 30 86390 86408 = some (res, none) ∧
      ∃ ev, (res.flatMap Prod.snd).filter (fun x => decide (86399 ≤ x.coaTime ∧ x.coaTime ≤ 86401)) = [ev] ∧
        ev.coaTime = 86399 := by
  have hclean : Spec.Clean burstCall := by
    intro i _
    simp only [burstCall]
    split
    · simp
    split
    · simp
    split
    · simp
    · simp
  obtain ⟨res, h1, h2, -⟩ := C113_dynamic_partial 1 burstCall burstCall_good hclean rfl
    (by norm_num [burstCall, exDetCfg2]) jul hjul order ⟨1, 2, true⟩ (by norm_num) (by norm_num)
    (.medianRatio 10 2) 10 ⟨by norm_num, by decide +kernel⟩ (fun k => if k = 1 then 1 / 2 else 1 / 4) 1 1
    (by norm_num) none 30 86390 86408 ⟨8640, by norm_num⟩ ⟨8639, by norm_num [burstCall]⟩ ⟨8639, by norm_num⟩
    ⟨3, by norm_num⟩ ⟨86408, by norm_num⟩ (by norm_num [burstCall]) (by decide +kernel) burstSmoothed rfl
    86399 86401 _ (by push_cast; exact burstSmoothed_burst) (by norm_num) (by norm_num) (by norm_num)
  obtain ⟨ev, h3, h4, -⟩ := h2 (fun r hr => by simp at hr)
  exact ⟨res, h1, ev, h3, h4⟩

end QM
